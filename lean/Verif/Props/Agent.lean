import Verif.Lemmas.AgentTick

/-!
# C22 (shutdown), C27 (limits), C30, C31, C55: the agent over a whole session

Every theorem is about `Reaches cfg ts s`: the state `s` of an agent started in any way, after any
list `ts` of turns of its event loop (each with arbitrary answers of the system, of the console and
of the scrapers).
-/
namespace Winpty.Props
open Winpty.Agent Winpty.Spec.Agent

theorem reaches_rest {cfg : Cfg} {ts : List Tick} {s : State} (h : Reaches cfg ts s) : Rest s := by
  obtain ⟨_, _, _, _, _, _, s0, h1, h2⟩ := h
  exact loop_rest ts (start_rest h1) h2

/-- A session for the non-vacuity examples: a spawn request with both shutdown flags arrives, some
output is produced, the child exits, the pipes drain.  The error pipe is used. -/
def sampleCfg : Cfg :=
  ⟨⟨2 ^ 32, fun _ => true⟩, false, true, true, id, fun _ => ⟨.ok (5, 6), [.reset false 0], [], []⟩⟩

@[inherit_doc sampleCfg]
def samplePacket : List Nat :=
  (Buffer.sealPacket (Buffer.putFields Buffer.newPacket
    [.int32 0, .int64 3, .int32 1, .int32 0, .wstring [65], .wstring [], .wstring [], .wstring [],
      .wstring []])).getD []

@[inherit_doc sampleCfg]
def sampleIdle : PipeTick := ⟨0, .incomplete, [], [], 0⟩

@[inherit_doc sampleCfg]
def sampleTicks : List Tick :=
  [⟨⟨0, .connected, [.done 0 samplePacket], [.done 1000 []], 0⟩, sampleIdle, ⟨0, .connected, [], [], 0⟩,
      ⟨0, .connected, [], [], 0⟩, 0, some ⟨true, false, [72], [.sendLine 0 [⟨66, 7⟩] 0], []⟩⟩,
    ⟨sampleIdle, sampleIdle, ⟨0, .connected, [], [.done 1000 []], 0⟩, sampleIdle, 0,
      some ⟨true, true, [72], [.sendLine 0 [⟨67, 7⟩] 0], []⟩⟩,
    ⟨sampleIdle, sampleIdle, ⟨0, .connected, [], [.done 1000 [], .done 1000 []], 0⟩, sampleIdle, 0, none⟩]

@[inherit_doc sampleCfg]
def sampleStart : Option State := start sampleCfg [[1], [2]] (false, false, false) 80 25 [.reset false 0] []

theorem sampleReaches (n : Nat) (s : State) (h : (sampleStart.bind (loop sampleCfg · (sampleTicks.take n))) = some s) :
    Reaches sampleCfg (sampleTicks.take n) s := by
  obtain ⟨s0, h0, h1⟩ := Option.bind_eq_some_iff.1 h
  exact ⟨_, _, _, _, _, _, s0, h0, h1⟩

/-! ## C30: output is flushed before the session closes -/

/-- Once the child's exit has been noticed, exactly one more scrape has taken place, after it; and
after the output of that scrape nothing more is scraped and no title is written. -/
theorem C30_final_scrape (cfg : Cfg) (ts : List Tick) (s : State) (h : Reaches cfg ts s)
    (hc : .childExited ∈ s.log) : Settled s.log :=
  (reaches_rest h).pre.settled ((reaches_rest h).pre.inv.closing.2 hc)

/-- When the agent decides to close the CONOUT pipe, the child has exited, the final scrape has been
made, and every byte ever written to the pipe has reached the client. -/
theorem C30_flushed (cfg : Cfg) (ts : List Tick) (s : State) (h : Reaches cfg ts s)
    (before after : List Entry) (hl : s.log = before ++ .closeConout :: after) :
    s.conout.pipe.isClosed = true ∧ s.conout.os.wire = outBytes before ∧
    Then .childExited .scraped before := by
  obtain ⟨h1, h2, h3, _⟩ := (reaches_rest h).pre.inv.closedOut before after hl
  exact ⟨by simp [NamedPipe.Pipe.isClosed, h1], h2, h3⟩

/-- The same for the CONERR pipe. -/
theorem C30_flushed_conerr (cfg : Cfg) (ts : List Tick) (s : State) (h : Reaches cfg ts s)
    (before after : List Entry) (hl : s.log = before ++ .closeConerr :: after) :
    (∃ p t, s.err = some (p, t) ∧ p.pipe.isClosed = true ∧ p.os.wire = errBytes before) ∧
    Then .childExited .scraped before := by
  obtain ⟨⟨p, t, h1, h2, h3⟩, h4⟩ := (reaches_rest h).pre.inv.closedErr before after hl
  exact ⟨⟨p, t, h1, by simp [NamedPipe.Pipe.isClosed, h2], h3⟩, h4⟩

/-- Unless the system reports an error on the pipe, closing it by that decision is the only way it
gets closed. -/
theorem C30_not_closed_otherwise (cfg : Cfg) (ts : List Tick) (s : State) (h : Reaches cfg ts s)
    (hne : ∀ t ∈ ts, .error ∉ t.conout.reads ∧ .error ∉ t.conout.writes)
    (hc : s.conout.pipe.isClosed = true) : .closeConout ∈ s.log := by
  obtain ⟨_, _, _, _, _, _, s0, h1, h2⟩ := h
  have ha := loop_after ts (start_rest h1) h2 hne
  rcases ha.conout (by simpa [NamedPipe.Pipe.isClosed] using hc) with h3 | h3
  · exfalso
    have ho : s0.conout.pipe.opened = true := by
      unfold start at h1
      split at h1
      · simp only [Option.bind_eq_some_iff] at h1
        obtain ⟨s1, g1, s2, g2, g3⟩ := h1
        obtain ⟨e1, _, _, f1, _⟩ := (writes_packet g1).1.ex
        obtain ⟨e2, _, _, f2, _⟩ := (writes_primary (.inr (.inl rfl)) g2).1.ex
        obtain ⟨e3, _, _, f3, _⟩ := (writes_error g3).1.ex
        rw [f3, f2, f1]
        show (NamedPipe.opened false true _).pipe.opened = true
        unfold NamedPipe.opened
        split <;> rfl
      · cases h1
    rw [ho] at h3; cases h3
  · exact h3

/-- The agent never closes the CONOUT pipe on a client that has not connected yet, even if the child
has already exited. -/
theorem C30_waits_for_client (cfg : Cfg) (names : List (List Nat)) (c1 c3 : Bool) (cols rows : Int)
    (out err : List TermCall) (s0 s : State) (ts : List Tick)
    (h0 : start cfg names (c1, false, c3) cols rows out err = some s0) (h : loop cfg s0 ts = some s)
    (hn : ∀ t ∈ ts, t.conout.conn ≠ .connected) :
    s.conout.pipe.isClosed = false ∧ .closeConout ∉ s.log := by
  have hr := start_rest h0
  have hw : Waits s0 := by
    unfold start at h0
    split at h0
    · simp only [Option.bind_eq_some_iff] at h0
      obtain ⟨s1, g1, s2, g2, g3⟩ := h0
      exact waits_writes (writes_error g3).1 (waits_writes (writes_primary (.inr (.inl rfl)) g2).1
        (waits_writes (writes_packet g1).1 ⟨rfl, rfl⟩))
    · cases h0
  have hs := waits_loop ts hr h hn hw
  refine ⟨by simp [NamedPipe.Pipe.isClosed, hs.2], fun hm => ?_⟩
  obtain ⟨pre, post, hl⟩ := List.append_of_mem hm
  have := (C30_flushed cfg ts s ⟨_, _, _, _, _, _, s0, h0, h⟩ pre post hl).1
  simp [NamedPipe.Pipe.isClosed, hs.2] at this

/-- Non-vacuity: the sample session with a client that connects only to the control pipe. -/
example : ∃ s, sampleStart.bind (loop sampleCfg · (sampleTicks.map fun t => { t with
      conout := { t.conout with conn := .incomplete, writes := [] } })) = some s ∧
    .childExited ∈ s.log ∧ s.exiting = false := by
  have hs : (sampleStart.bind (loop sampleCfg · (sampleTicks.map fun t => { t with
      conout := { t.conout with conn := .incomplete, writes := [] } }))).isSome = true := by
    decide +kernel
  obtain ⟨s, hs⟩ := Option.isSome_iff_exists.1 hs
  have : ∀ x ∈ sampleStart.bind (loop sampleCfg · (sampleTicks.map fun t => { t with
      conout := { t.conout with conn := .incomplete, writes := [] } })),
      .childExited ∈ x.log ∧ x.exiting = false := by decide +kernel
  exact ⟨s, hs, this s hs⟩

/-- While closing, a connected output pipe stays open only because bytes written to it have not been
delivered yet: shutting down never hangs on a drained pipe. -/
theorem C30_no_hang (cfg : Cfg) (ts : List Tick) (s : State) (h : Reaches cfg ts s)
    (hc : .childExited ∈ s.log) :
    (s.conout.pipe.isConnected = true → NamedPipe.bytesToSend s.conout.pipe ≠ some 0) ∧
    (∀ p t, s.err = some (p, t) → p.pipe.isConnected = true → NamedPipe.bytesToSend p.pipe ≠ some 0) := by
  have hcl := (reaches_rest h).pre.inv.closing.2 hc
  exact ⟨fun h1 h2 => (reaches_rest h).outBusy hcl ⟨h1, h2⟩,
    fun p t he h1 h2 => (reaches_rest h).errBusy hcl p t he ⟨h1, h2⟩⟩

/-- The agent exits by itself only after the child has exited, if it was asked to, and with both
output pipes closed; the only other reason is that the client has closed the control pipe. -/
theorem C30_exit (cfg : Cfg) (ts : List Tick) (s : State) (h : Reaches cfg ts s)
    (hx : s.exiting = true) :
    s.control.pipe.isClosed = true ∨
    (.childExited ∈ s.log ∧ s.exitAfterShutdown = true ∧ s.conout.pipe.isClosed = true ∧
      ∀ p t, s.err = some (p, t) → p.pipe.isClosed = true) := by
  rcases (reaches_rest h).pre.inv.why hx with h1 | ⟨h1, h2, h3, h4⟩
  · exact .inl (by simp [NamedPipe.Pipe.isClosed, h1])
  · refine .inr ⟨(reaches_rest h).pre.inv.closing.1 h1, h2, by simp [NamedPipe.Pipe.isClosed, h3], ?_⟩
    intro p t he
    simpa [conerrClosed, he] using h4

/-- And it does exit then: if it was asked to, it never idles on with both pipes closed. -/
theorem C30_exits (cfg : Cfg) (ts : List Tick) (s : State) (h : Reaches cfg ts s)
    (hc : .childExited ∈ s.log) (hx : s.exitAfterShutdown = true) (ho : s.conout.pipe.isClosed = true)
    (he : ∀ p t, s.err = some (p, t) → p.pipe.isClosed = true) : s.exiting = true := by
  refine (reaches_rest h).done ((reaches_rest h).pre.inv.closing.2 hc) hx (by simpa [NamedPipe.Pipe.isClosed] using ho) ?_
  unfold conerrClosed
  split
  · rfl
  · rename_i p t hp; exact he p t hp

/-- Non-vacuity: in the sample session the child exits, output was written before and after that,
both pipes are closed and the agent exits. -/
example : ∃ s, Reaches sampleCfg sampleTicks s ∧ .childExited ∈ s.log ∧ .closeConout ∈ s.log ∧
    .closeConerr ∈ s.log ∧ s.exiting = true ∧ 100 < s.conout.os.wire.length ∧
    (∀ t ∈ sampleTicks, .error ∉ t.conout.reads ∧ .error ∉ t.conout.writes) := by
  have hs : (sampleStart.bind (loop sampleCfg · (sampleTicks.take 3))).isSome = true := by decide +kernel
  obtain ⟨s, hs⟩ := Option.isSome_iff_exists.1 hs
  refine ⟨s, sampleReaches 3 s hs, ?_, ?_, ?_, ?_, ?_, by decide +kernel⟩
  · have : ∀ x ∈ sampleStart.bind (loop sampleCfg · (sampleTicks.take 3)), .childExited ∈ x.log := by decide +kernel
    exact this s hs
  · have : ∀ x ∈ sampleStart.bind (loop sampleCfg · (sampleTicks.take 3)), .closeConout ∈ x.log := by decide +kernel
    exact this s hs
  · have : ∀ x ∈ sampleStart.bind (loop sampleCfg · (sampleTicks.take 3)), .closeConerr ∈ x.log := by decide +kernel
    exact this s hs
  · have : ∀ x ∈ sampleStart.bind (loop sampleCfg · (sampleTicks.take 3)), x.exiting = true := by decide +kernel
    exact this s hs
  · have : ∀ x ∈ sampleStart.bind (loop sampleCfg · (sampleTicks.take 3)), 100 < x.conout.os.wire.length := by
      decide +kernel
    exact this s hs

/-- Non-vacuity of `C30_no_hang`: after two turns the child has exited and the CONOUT pipe is still
connected. -/
example : ∃ s, Reaches sampleCfg (sampleTicks.take 2) s ∧ .childExited ∈ s.log ∧
    s.conout.pipe.isConnected = true ∧ s.exiting = false := by
  have hs : (sampleStart.bind (loop sampleCfg · (sampleTicks.take 2))).isSome = true := by decide +kernel
  obtain ⟨s, hs⟩ := Option.isSome_iff_exists.1 hs
  have : ∀ x ∈ sampleStart.bind (loop sampleCfg · (sampleTicks.take 2)), .childExited ∈ x.log ∧
    x.conout.pipe.isConnected = true ∧ x.exiting = false := by decide +kernel
  exact ⟨s, sampleReaches 2 s hs, this s hs⟩

/-! ## C31: closing the control pipe ends the session -/

/-- Between turns, a closed control pipe means that the agent is leaving its loop. -/
theorem C31_closed_means_exit (cfg : Cfg) (ts : List Tick) (s : State) (h : Reaches cfg ts s)
    (hc : s.control.pipe.isClosed = true) : s.exiting = true :=
  (reaches_rest h).pre.ctlExit (by simpa [NamedPipe.Pipe.isClosed] using hc)

/-- An agent that is leaving its loop does nothing more. -/
theorem C31_stops (cfg : Cfg) (s : State) (hx : s.exiting = true) (more : List Tick) :
    loop cfg s more = some s := by
  cases more with
  | nil => rfl
  | cons t ts => simp [loop, hx]

/-- The turn in which the system reports that the client has gone (the read fails): the agent decides
to exit at once, whatever else happens in that turn, and handles no request in it. -/
theorem C31_notices (cfg : Cfg) (ts : List Tick) (s s' : State) (t : Tick) (rest : List NamedPipe.Ans)
    (h : Reaches cfg ts s) (hx : s.exiting = false) (hr : t.control.reads = .error :: rest)
    (ht : tick cfg s t = some s') :
    s'.exiting = true ∧ ∃ post, s'.log = s.log ++ .exit :: post ∧ ∀ e ∈ post, ¬ IsRequest e := by
  obtain ⟨s1, h1, h2, h3⟩ := tick_tail (reaches_rest h) hx ht
  obtain ⟨g1, g2⟩ := tickControl_closed (reaches_rest h) hx hr h1
  obtain ⟨post, hp⟩ := h2
  have hl : s'.log = s.log ++ .exit :: post := by rw [← hp, g1]; simp
  exact ⟨h3 g2, post, hl, (tick_rest (reaches_rest h) hx ht).pre.inv.afterExit s.log post hl⟩

/-- No request is handled after the decision to exit. -/
theorem C31_no_request_after_exit (cfg : Cfg) (ts : List Tick) (s : State) (h : Reaches cfg ts s)
    (before after : List Entry) (hl : s.log = before ++ .exit :: after) :
    ∀ e ∈ after, ¬ IsRequest e :=
  (reaches_rest h).pre.inv.afterExit before after hl

/-- Non-vacuity: the sample session with the client going away in its second turn. -/
example : ∃ s s' : State, ∃ t : Tick, Reaches sampleCfg (sampleTicks.take 1) s ∧ s.exiting = false ∧
    t.control.reads = [.error] ∧ tick sampleCfg s t = some s' := by
  have hs : (sampleStart.bind (loop sampleCfg · (sampleTicks.take 1))).isSome = true := by decide +kernel
  obtain ⟨s, hs⟩ := Option.isSome_iff_exists.1 hs
  have : ∀ x ∈ sampleStart.bind (loop sampleCfg · (sampleTicks.take 1)), x.exiting = false ∧
      (tick sampleCfg x ⟨⟨0, .connected, [.error], [], 0⟩, sampleIdle, sampleIdle, sampleIdle, 0, none⟩).isSome = true := by
    decide +kernel
  obtain ⟨h1, h2⟩ := this s hs
  obtain ⟨s', h2⟩ := Option.isSome_iff_exists.1 h2
  exact ⟨s, s', _, sampleReaches 1 s hs, h1, rfl, h2⟩

/-! ## C22: the mouse mode is left off -/

/-- Mouse reports are switched on and off alternately throughout a session; once the child's exit has
been noticed, and in particular when the CONOUT pipe is closed, they have been switched off. -/
theorem C22_shutdown (cfg : Cfg) (ts : List Tick) (s : State) (h : Reaches cfg ts s) :
    (∃ n, mouseWrites s.log = mousePairs n ∨ mouseWrites s.log = mousePairs n ++ [mouseOn]) ∧
    (.childExited ∈ s.log → ∃ n, mouseWrites s.log = mousePairs n) ∧
    (∀ before after, s.log = before ++ .closeConout :: after → ∃ n, mouseWrites before = mousePairs n) := by
  obtain ⟨n, hn⟩ := (reaches_rest h).pre.inv.mouse
  refine ⟨⟨n, ?_⟩, ?_, ?_⟩
  · cases hm : s.term.mouseModeEnabled <;> rw [hm] at hn
    · exact .inl (by simpa using hn)
    · exact .inr (by simpa using hn)
  · intro hc
    rw [(reaches_rest h).pre.mouseOff ((reaches_rest h).pre.inv.closing.2 hc)] at hn
    exact ⟨n, by simpa using hn⟩
  · intro before after hl
    exact ((reaches_rest h).pre.inv.closedOut before after hl).2.2.2

/-- Non-vacuity: in the sample session the mouse is switched on, and off again when the child
exits. -/
example : ∃ s, Reaches sampleCfg sampleTicks s ∧ mouseWrites s.log = [mouseOn, mouseOff] ∧
    .closeConout ∈ s.log := by
  have hs : (sampleStart.bind (loop sampleCfg · (sampleTicks.take 3))).isSome = true := by decide +kernel
  obtain ⟨s, hs⟩ := Option.isSome_iff_exists.1 hs
  have : ∀ x ∈ sampleStart.bind (loop sampleCfg · (sampleTicks.take 3)),
    mouseWrites x.log = [mouseOn, mouseOff] ∧ .closeConout ∈ x.log := by decide +kernel
  exact ⟨s, sampleReaches 3 s hs, this s hs⟩

/-! ## C27: sizes -/

/-- Every size the scrapers are ever told is within 1..2500 columns and 1..2000 rows. -/
theorem C27_limits (cfg : Cfg) (ts : List Tick) (s : State) (h : Reaches cfg ts s) (cols rows : Int)
    (hm : .resized cols rows ∈ s.log) : 1 ≤ cols ∧ cols ≤ 2500 ∧ 1 ≤ rows ∧ rows ≤ 2000 :=
  (reaches_rest h).pre.inv.sizes _ hm

/-- The initial size is the requested one cut down to the limits; a non-positive one is rejected (the
agent does not start). -/
theorem C27_initial (cfg : Cfg) (names : List (List Nat)) (connected : Bool × Bool × Bool)
    (cols rows : Int) (out err : List TermCall) :
    (∀ s, start cfg names connected cols rows out err = some s →
      1 ≤ cols ∧ 1 ≤ rows ∧ ∃ rest, s.log =
        .resized (if cols ≤ 2500 then cols else 2500) (if rows ≤ 2000 then rows else 2000) :: rest) ∧
    ((cols < 1 ∨ rows < 1) → start cfg names connected cols rows out err = none) := by
  constructor
  · intro s h
    unfold start at h
    split at h
    · rename_i hge
      refine ⟨hge.1, hge.2, ?_⟩
      simp only [Option.bind_eq_some_iff] at h
      obtain ⟨s1, g1, s2, g2, g3⟩ := h
      obtain ⟨e1, f1, _⟩ := (writes_packet g1).1.ex
      obtain ⟨e2, f2, _⟩ := (writes_primary (.inr (.inl rfl)) g2).1.ex
      obtain ⟨e3, f3, _⟩ := (writes_error g3).1.ex
      refine ⟨e1 ++ e2 ++ e3, ?_⟩
      rw [f3, f2, f1]
      have m1 : min cols maxConsoleWidth = if cols ≤ 2500 then cols else 2500 := by
        unfold maxConsoleWidth; split <;> omega
      have m2 : min rows maxConsoleHeight = if rows ≤ 2000 then rows else 2000 := by
        unfold maxConsoleHeight; split <;> omega
      simp [m1, m2]
    · cases h
  · intro h
    unfold start
    rw [if_neg (by omega)]

example : (start sampleCfg [[1], [2]] (false, false, false) 100000 25 [] []).isSome = true := by
  decide +kernel

/-! ## C55: the console title -/

theorem takeWhile_all (p : Nat → Bool) (l : List Nat) (h : ∀ b ∈ l, p b = true) : l.takeWhile p = l := by
  induction l with
  | nil => rfl
  | cons b l ih =>
    rw [List.takeWhile_cons, if_pos (h b (List.mem_cons_self ..)), ih fun b' hb' => h b' (List.mem_cons_of_mem _ hb')]

/-- When the console title changes, exactly one title sequence with the whole new title is written
(unless the output is plain or already closed), and the terminal reads exactly that title from it,
provided the title's bytes are free of control characters.  What is missing for the full property:
the code does not remove control characters from the title, see `C55_defect`. -/
theorem C55_title_partial (cfg : Cfg) (s s' : State) (title : List Nat)
    (hne : title ≠ s.title) (hp : cfg.plainMode = false) (ho : s.conout.pipe.isClosed = false)
    (hclean : ∀ b ∈ cfg.utf8FromWide title, 0x20 ≤ b ∧ b ≠ 0x7f)
    (h : syncConsoleTitle cfg s title = some s') :
    s'.title = title ∧ ∃ bytes, s'.log = s.log ++ [.conout .title bytes] ∧
      ∀ more, readTitle (bytes ++ more) = some (cfg.utf8FromWide title, more) := by
  unfold syncConsoleTitle at h
  rw [if_pos hne, if_pos (by simp [hp, ho])] at h
  have htw : ([0x1b, 0x5d, 0x30, 0x3b] ++ cfg.utf8FromWide title ++ [0x07]).takeWhile (· ≠ 0) =
      [0x1b, 0x5d, 0x30, 0x3b] ++ cfg.utf8FromWide title ++ [0x07] := by
    refine takeWhile_all _ _ ?_
    intro b hb
    simp only [List.mem_append, List.mem_cons, List.not_mem_nil, or_false] at hb
    have : b ≠ 0 := by
      rcases hb with (hb | hb) | hb
      · rcases hb with rfl | rfl | rfl | rfl <;> decide
      · have := hclean b hb; omega
      · subst hb; decide
    simpa using this
  rw [htw] at h
  unfold writeConout at h
  rw [if_neg (by simp)] at h
  split at h
  · cases h
  · simp only [Option.some.injEq] at h
    subst h
    refine ⟨rfl, _, rfl, ?_⟩
    intro more
    have hd : (([0x1b, 0x5d, 0x30, 0x3b] ++ cfg.utf8FromWide title ++ [0x07]) ++ more).drop 4 =
        cfg.utf8FromWide title ++ 0x07 :: more := by simp
    have ht : (([0x1b, 0x5d, 0x30, 0x3b] ++ cfg.utf8FromWide title ++ [0x07]) ++ more).take 4 =
        [0x1b, 0x5d, 0x30, 0x3b] := by simp
    have hall : ∀ b ∈ cfg.utf8FromWide title, decide (b ≠ 7) = true := by
      intro b hb
      have := hclean b hb
      simp only [decide_eq_true_eq]; omega
    unfold readTitle
    rw [hd, ht, if_pos ⟨rfl, by simp⟩, List.takeWhile_append_of_pos hall, List.dropWhile_append_of_pos hall]
    simp

/-- Nothing is written while the title stays the same. -/
theorem C55_unchanged (cfg : Cfg) (s s' : State) (h : syncConsoleTitle cfg s s.title = some s') : s' = s := by
  unfold syncConsoleTitle at h
  rw [if_neg (by simp)] at h
  exact (Option.some.inj h).symm

/-- A title with a BEL in it ends the title sequence early, and the terminal executes the rest of the
title: here the console program sets the title `A BEL ESC [ 2 J` and the terminal clears its screen
(the remaining input starts with the sequence `ESC [ 2 J`). -/
theorem C55_defect (cfg : Cfg) (s : State) (hp : cfg.plainMode = false) (ho : s.conout.pipe.isClosed = false)
    (hw : s.conout.pipe.writing = true)
    (hu : cfg.utf8FromWide [65, 7, 0x1b, 0x5b, 0x32, 0x4a] = [65, 7, 0x1b, 0x5b, 0x32, 0x4a])
    (hne : s.title ≠ [65, 7, 0x1b, 0x5b, 0x32, 0x4a]) :
    ∃ s' bytes, syncConsoleTitle cfg s [65, 7, 0x1b, 0x5b, 0x32, 0x4a] = some s' ∧
      s'.log = s.log ++ [.conout .title bytes] ∧
      readTitle bytes = some ([65], [0x1b, 0x5b, 0x32, 0x4a, 0x07]) := by
  have hb : ([0x1b, 0x5d, 0x30, 0x3b] ++ [65, 7, 0x1b, 0x5b, 0x32, 0x4a] ++ [0x07]).takeWhile (· ≠ 0) =
      [0x1b, 0x5d, 0x30, 0x3b, 65, 7, 0x1b, 0x5b, 0x32, 0x4a, 0x07] := by decide
  have hs : ∃ s', syncConsoleTitle cfg s [65, 7, 0x1b, 0x5b, 0x32, 0x4a] = some s' ∧
      s'.log = s.log ++ [.conout .title [0x1b, 0x5d, 0x30, 0x3b, 65, 7, 0x1b, 0x5b, 0x32, 0x4a, 0x07]] := by
    unfold syncConsoleTitle
    rw [if_pos (Ne.symm hne), if_pos (by simp [hp, ho]), hu, hb]
    unfold writeConout
    rw [if_neg (by simp)]
    simp only [NamedPipe.step, hw, if_true]
    exact ⟨_, rfl, rfl⟩
  obtain ⟨s', h1, h2⟩ := hs
  exact ⟨s', _, h1, h2, by decide⟩

/-- Non-vacuity: the first poll of the sample session sets the title `H`. -/
example : ∃ s, Reaches sampleCfg (sampleTicks.take 1) s ∧
    .conout .title [0x1b, 0x5d, 0x30, 0x3b, 72, 0x07] ∈ s.log ∧ s.conout.pipe.isClosed = false ∧
    s.conout.pipe.writing = true ∧ sampleCfg.utf8FromWide [65, 7, 0x1b, 0x5b, 0x32, 0x4a] = [65, 7, 0x1b, 0x5b, 0x32, 0x4a] := by
  have hs : (sampleStart.bind (loop sampleCfg · (sampleTicks.take 1))).isSome = true := by decide +kernel
  obtain ⟨s, hs⟩ := Option.isSome_iff_exists.1 hs
  have : ∀ x ∈ sampleStart.bind (loop sampleCfg · (sampleTicks.take 1)),
    .conout .title [0x1b, 0x5d, 0x30, 0x3b, 72, 0x07] ∈ x.log ∧ x.conout.pipe.isClosed = false ∧
    x.conout.pipe.writing = true := by decide +kernel
  obtain ⟨h1, h2, h3⟩ := this s hs
  exact ⟨s, sampleReaches 1 s hs, h1, h2, h3, rfl⟩

end Winpty.Props
