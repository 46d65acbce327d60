import Verif.Props.Agent
import Verif.Props.Buffer

/-!
# C27 (resize requests), C34, C56: what the agent does with one request

`handlePacket cfg s p` handles the packet `p` in the state `s`; `Spec.message` is the wire format of
a whole packet.  `s.control.pipe.writing` (the control pipe was created for writing too) holds in
every state of a running agent: `C56_control_writable`.
-/
namespace Winpty.Agent
open Winpty.Buffer Winpty.Spec

theorem getFields_cons {cfg : Buffer.Cfg} {b : List Nat} {off : Nat} {t : FieldTy} {ts : List FieldTy}
    {fs : List Field} {n : Nat} (h : getFields cfg b off (t :: ts) = .ok fs n) :
    ∃ f off' fs', fs = f :: fs' ∧ getField cfg b off t = .ok f off' ∧
      getFields cfg b off' ts = .ok fs' n := by
  simp only [getFields] at h
  obtain ⟨f, o, h1, h2⟩ := bind_ok h
  obtain ⟨fs', o', h3, h4⟩ := bind_ok h2
  cases h4
  exact ⟨f, o, fs', rfl, h1, h3⟩

theorem getInt32_of_field {cfg : Buffer.Cfg} {b : List Nat} {off : Nat} {f : Field} {n : Nat}
    (h : getField cfg b off .int32 = .ok f n) : ∃ i, f = .int32 i ∧ getInt32 b off = .ok i n := by
  simp only [getField] at h
  obtain ⟨i, o, h1, h2⟩ := bind_ok h
  cases h2
  exact ⟨i, rfl, h1⟩

/-- Reading a message whose first field is the message type. -/
theorem message_type (cfg : Buffer.Cfg) (t : Int) (fs : List Field)
    (hv : ∀ f ∈ Field.int32 t :: fs, ValidField cfg.sizeMax f)
    (ha : ∀ s, Field.wstring s ∈ fs → s ≠ [] → cfg.canAlloc s.length = true) :
    ∃ off, getInt32 (message (.int32 t :: fs)) 8 = .ok t off ∧
      getFields cfg (message (.int32 t :: fs)) off (fs.map Field.ty) =
        .ok fs (message (.int32 t :: fs)).length := by
  have hat : At (message (.int32 t :: fs)) 8 (wire (.int32 t :: fs)) := by
    refine ⟨by simp [message, digits256_length], ?_⟩
    unfold message
    rw [List.drop_left' (digits256_length _ _), List.take_length]
  have := getFields_wire cfg _ 8 _ hv
    (by intro s hs; simp only [List.mem_cons, reduceCtorEq, false_or] at hs; exact ha s hs) hat
  obtain ⟨f, off, fs', h1, h2, h3⟩ := getFields_cons (by simpa using this)
  cases h1
  obtain ⟨i, h4, h5⟩ := getInt32_of_field (by simpa [Field.ty] using h2)
  cases h4
  refine ⟨off, h5, ?_⟩
  rw [h3]
  simp [message, digits256_length]

theorem writePacket_eq (s : State) (sizeMax : Nat) (fs : List Field)
    (hv : ∀ f ∈ fs, ValidField sizeMax f) (hw : s.control.pipe.writing = true) :
    writePacket s fs = some { s with
      control := { s.control with pipe := { s.control.pipe with
        outQueue := s.control.pipe.outQueue ++ message fs } }
      log := s.log ++ [.control (message fs)] } := by
  have h := Props.C01_writer sizeMax fs hv
  unfold Props.writtenPacket at h
  unfold writePacket
  rw [h]
  simp only [NamedPipe.step, hw, if_true]
  rfl

end Winpty.Agent

namespace Winpty.Props
open Winpty.Agent Winpty.Spec Winpty.Spec.Agent
open Winpty.Buffer (Field)

/-- The agent can always answer: the control pipe of a running agent is writable. -/
theorem C56_control_writable (cfg : Cfg) (ts : List Tick) (s : State) (h : Reaches cfg ts s) :
    s.control.pipe.writing = true := by
  obtain ⟨rs, m, hi⟩ := (reaches_rest h).pre.inv.ctl
  exact hi.wf.writeMode

/-! ## C56: a spawn request -/

/-- What `CreateProcessW` gets for a string of the request: a null pointer for the empty string, else
the characters and a NUL. -/
def nulTerminated (s : List Nat) : Option (List Nat) := if s = [] then none else some (s ++ [0])

/-- A spawn request that arrives at an agent with no child makes it call `CreateProcessW` exactly
once, with exactly the strings of the request (the environment block as it is, without an added NUL),
and send exactly one reply: 1 and the handles asked for, or 0 and the error code.  The two shutdown
flags are taken over exactly if a process was created. -/
theorem C56_agent_spawn (cfg : Cfg) (s : State) (flags wantProcess wantThread : Int)
    (program cmdline cwd env desktop : List Nat) (hw : s.control.pipe.writing = true)
    (hchild : s.child = false) (hclosing : s.closing = false)
    (hv : ∀ f ∈ spawnRequest flags wantProcess wantThread program cmdline cwd env desktop,
      ValidField cfg.buffer.sizeMax f)
    (ha : ∀ n, cfg.buffer.canAlloc n = true)
    (hh : ∀ hp ht, (cfg.env s.served).create = .ok (hp, ht) →
      (-2 ^ 63 ≤ hp ∧ hp < 2 ^ 63) ∧ (-2 ^ 63 ≤ ht ∧ ht < 2 ^ 63))
    (he : ∀ c, (cfg.env s.served).create = .error c → -2 ^ 31 ≤ c ∧ c < 2 ^ 31) :
    ∃ s' reply, handlePacket cfg s
        (message (spawnRequest flags wantProcess wantThread program cmdline cwd env desktop)) = some s' ∧
      s'.log = s.log ++
        [.packet (message (spawnRequest flags wantProcess wantThread program cmdline cwd env desktop)),
         .createProcess { program := nulTerminated program, cmdline := nulTerminated cmdline,
                          env := if env = [] then none else some env, cwd := nulTerminated cwd,
                          desktop := nulTerminated desktop, ownStdHandles := cfg.useConerr },
         .control (message reply)] ∧
      match (cfg.env s.served).create with
      | .ok (hp, ht) =>
        reply = [.int32 1, .int64 (if wantProcess ≠ 0 then hp else 0),
          .int64 (if wantThread ≠ 0 then ht else 0)] ∧
        s'.child = true ∧ s'.autoShutdown = (flags % 2 == 1) ∧
        s'.exitAfterShutdown = (flags / 2 % 2 == 1)
      | .error c =>
        reply = [.int32 0, .int32 c] ∧ s'.child = false ∧ s'.autoShutdown = s.autoShutdown ∧
        s'.exitAfterShutdown = s.exitAfterShutdown := by
  obtain ⟨off, h1, h2⟩ := message_type cfg.buffer 0 _ hv (fun s _ _ => ha s.length)
  have hf : -2 ^ 63 ≤ flags ∧ flags < 2 ^ 63 := hv (.int64 flags) (by simp [spawnRequest])
  unfold handlePacket
  unfold spawnRequest
  rw [h1]
  simp only
  unfold dispatch
  rw [if_pos rfl]
  unfold handleStartProcessPacket
  rw [if_neg (by simp [hchild, hclosing])]
  have h2' : Buffer.getFields cfg.buffer (message (spawnRequest flags wantProcess wantThread program cmdline
      cwd env desktop)) off startProcessFields = .ok _ _ := h2
  unfold spawnRequest at h2'
  rw [h2']
  simp only [Buffer.assertEof, if_true]
  unfold startProcess
  have hbits : decide (Buffer.toUnsigned 64 flags &&& 1 ≠ 0) = (flags % 2 == 1) ∧
      decide (Buffer.toUnsigned 64 flags &&& 2 ≠ 0) = (flags / 2 % 2 == 1) := by
    have e1 : Buffer.toUnsigned 64 flags &&& 1 = Buffer.toUnsigned 64 flags % 2 := Nat.and_one_is_mod _
    have e2 : Buffer.toUnsigned 64 flags &&& 2 = 2 * (Buffer.toUnsigned 64 flags / 2 % 2) := by
      generalize Buffer.toUnsigned 64 flags = n
      have h1 : (n &&& 2) / 2 = n / 2 &&& 1 := by simpa using Nat.and_div_two_pow (a := n) (b := 2) (n := 1)
      have h2 : (n &&& 2) % 2 = 0 := by simpa using Nat.and_mod_two_pow (a := n) (b := 2) (n := 1)
      rw [Nat.and_one_is_mod] at h1
      omega
    rw [e1, e2]
    unfold Buffer.toUnsigned
    constructor
    · rw [Bool.eq_iff_iff]
      simp only [decide_eq_true_eq, beq_iff_eq]
      omega
    · rw [Bool.eq_iff_iff]
      simp only [decide_eq_true_eq, beq_iff_eq]
      omega
  cases hcr : (cfg.env s.served).create with
  | ok r =>
    obtain ⟨hp, ht⟩ := r
    obtain ⟨b1, b2⟩ := hh hp ht hcr
    simp only
    rw [writePacket_eq (sizeMax := cfg.buffer.sizeMax) (hv := ?_) (hw := ?_)]
    · refine ⟨_, _, rfl, ?_, rfl, rfl, hbits.1, hbits.2⟩
      simp only [createArgs, ptr, nulTerminated, List.append_assoc, List.cons_append, List.nil_append,
        decide_eq_true_eq]
    · intro f hf
      simp only [List.mem_cons, List.not_mem_nil, or_false] at hf
      rcases hf with rfl | rfl | rfl
      · simp [ValidField]
      · simp only [ValidField]; split <;> omega
      · simp only [ValidField]; split <;> omega
    · exact hw
  | error c =>
    have b := he c hcr
    simp only
    rw [writePacket_eq (sizeMax := cfg.buffer.sizeMax) (hv := ?_) (hw := ?_)]
    · refine ⟨_, _, rfl, ?_, rfl, hchild, rfl, rfl⟩
      simp only [createArgs, ptr, nulTerminated, List.append_assoc, List.cons_append, List.nil_append]
    · intro f hf
      simp only [List.mem_cons, List.not_mem_nil, or_false] at hf
      rcases hf with rfl | rfl
      · simp [ValidField]
      · exact b
    · exact hw

/-- A second spawn after a successful one, or one after the output pipes began to close, aborts the
agent: nothing is started. -/
theorem C56_agent_spawn_once (cfg : Cfg) (s : State) (flags wantProcess wantThread : Int)
    (program cmdline cwd env desktop : List Nat) (hc : s.child = true ∨ s.closing = true)
    (hv : ∀ f ∈ spawnRequest flags wantProcess wantThread program cmdline cwd env desktop,
      ValidField cfg.buffer.sizeMax f) (ha : ∀ n, cfg.buffer.canAlloc n = true) :
    handlePacket cfg s
      (message (spawnRequest flags wantProcess wantThread program cmdline cwd env desktop)) = none := by
  obtain ⟨off, h1, h2⟩ := message_type cfg.buffer 0 _ hv (fun s _ _ => ha s.length)
  unfold handlePacket
  unfold spawnRequest
  rw [h1]
  simp only
  unfold dispatch
  rw [if_pos rfl]
  unfold handleStartProcessPacket
  rw [if_pos (by rcases hc with h | h <;> simp [h])]

/-! ## C27: a resize request -/

/-- A resize request with positive dimensions makes the agent set exactly the clamped size, once, and
then answer with an empty reply; the only other effect is output of the scrapers in between. -/
theorem C27_resize (cfg : Cfg) (s s' : State) (cols rows : Int)
    (hc : 1 ≤ cols ∧ cols < 2 ^ 31) (hr : 1 ≤ rows ∧ rows < 2 ^ 31)
    (h : handlePacket cfg s (message [.int32 1, .int32 cols, .int32 rows]) = some s') :
    ∃ out, s'.log = s.log ++ .packet (message [.int32 1, .int32 cols, .int32 rows]) ::
        .resized (if cols ≤ 2500 then cols else 2500) (if rows ≤ 2000 then rows else 2000) ::
        (out ++ [.control (message [])]) ∧
      ∀ e ∈ out, IsOutput .resize e := by
  have hv : ∀ f ∈ [Field.int32 1, .int32 cols, .int32 rows], ValidField cfg.buffer.sizeMax f := by
    intro f hf
    simp only [List.mem_cons, List.not_mem_nil, or_false] at hf
    rcases hf with rfl | rfl | rfl <;> simp only [ValidField] <;> omega
  obtain ⟨off, h1, h2⟩ := message_type cfg.buffer 1 [.int32 cols, .int32 rows] hv (by simp)
  unfold handlePacket at h
  rw [h1] at h
  simp only at h
  unfold dispatch at h
  rw [if_neg (by decide), if_pos rfl] at h
  unfold handleSetSizePacket at h
  simp only [List.map_cons, List.map_nil, Field.ty] at h2
  rw [h2] at h
  simp only [Buffer.assertEof, if_true, Option.bind_eq_some_iff] at h
  obtain ⟨s1, h3, h4⟩ := h
  have hmin : min cols maxConsoleWidth = (if cols ≤ 2500 then cols else 2500) ∧
      min rows maxConsoleHeight = (if rows ≤ 2000 then rows else 2000) := by
    unfold maxConsoleWidth maxConsoleHeight
    constructor <;> split <;> omega
  unfold resizeWindow at h3
  rw [if_pos (by omega), Option.bind_eq_some_iff] at h3
  obtain ⟨s2, h5, h6⟩ := h3
  obtain ⟨o1, k1, k2, _⟩ := (writes_primary (.inr (.inl rfl)) h5).1.ex
  obtain ⟨o2, k3, k4, _⟩ := (writes_error h6).1.ex
  have hb := C01_writer 0 [] (by simp)
  unfold writtenPacket at hb
  unfold writePacket at h4
  rw [hb] at h4
  simp only at h4
  split at h4
  · cases h4
  · cases h4
    refine ⟨o1 ++ o2, ?_, ?_⟩
    · show s1.log ++ _ = _
      rw [k3, k1, hmin.1, hmin.2]
      simp [message]
    · intro e he
      rcases List.mem_append.1 he with h | h
      · exact k2 e h
      · exact k4 e h

/-- A resize request with a dimension below one aborts the agent (the library never sends one:
`C33_set_size_args`). -/
theorem C27_resize_rejects (cfg : Cfg) (s : State) (cols rows : Int)
    (hc : -2 ^ 31 ≤ cols ∧ cols < 2 ^ 31) (hr : -2 ^ 31 ≤ rows ∧ rows < 2 ^ 31)
    (hbad : cols < 1 ∨ rows < 1) :
    handlePacket cfg s (message [.int32 1, .int32 cols, .int32 rows]) = none := by
  have hv : ∀ f ∈ [Field.int32 1, .int32 cols, .int32 rows], ValidField cfg.buffer.sizeMax f := by
    intro f hf
    simp only [List.mem_cons, List.not_mem_nil, or_false] at hf
    rcases hf with rfl | rfl | rfl <;> simp only [ValidField] <;> omega
  obtain ⟨off, h1, h2⟩ := message_type cfg.buffer 1 [.int32 cols, .int32 rows] hv (by simp)
  unfold handlePacket
  rw [h1]
  simp only
  unfold dispatch
  rw [if_neg (by decide), if_pos rfl]
  unfold handleSetSizePacket
  simp only [List.map_cons, List.map_nil, Field.ty] at h2
  rw [h2]
  simp only [Buffer.assertEof, if_true]
  unfold resizeWindow
  rw [if_neg (by omega)]
  rfl

/-! ## C34: the process list -/

/-- The agent answers a process-list request with the number of processes and the processes, in the
order in which the console listed them; provided the list does not change between the (at most two)
queries. -/
theorem C34_agent_reply (cfg : Cfg) (s : State) (pids : List Nat) (more : List (List Nat))
    (hw : s.control.pipe.writing = true)
    (hl : (cfg.env s.served).processLists = pids :: pids :: more)
    (hp : ∀ p ∈ pids, p < 2 ^ 31) (hn : pids.length < 2 ^ 31) :
    ∃ s', handlePacket cfg s (message [.int32 2]) = some s' ∧
      s'.log = s.log ++ [.packet (message [.int32 2]),
        .control (message (.int32 pids.length :: pids.map fun (p : Nat) => .int32 p))] ∧
      s'.child = s.child ∧ s'.closing = s.closing := by
  have hv : ∀ f ∈ [Field.int32 2], ValidField cfg.buffer.sizeMax f := by
    intro f hf
    simp only [List.mem_cons, List.not_mem_nil, or_false] at hf
    subst hf
    simp [ValidField]
  obtain ⟨off, h1, h2⟩ := message_type cfg.buffer 2 [] hv (by simp)
  have hloop : processListLoop 64 (cfg.env s.served).processLists = pids := by
    rw [hl]
    unfold processListLoop
    split
    · unfold processListLoop
      rw [if_neg (by omega)]
    · rfl
  have hsign : ∀ n : Nat, n < 2 ^ 31 → Buffer.toSigned 32 n = (n : Int) := by
    intro n hn
    unfold Buffer.toSigned
    rw [if_pos (by omega)]
  unfold handlePacket
  rw [h1]
  simp only
  unfold dispatch
  rw [if_neg (by decide), if_neg (by decide), if_pos rfl]
  unfold handleGetConsoleProcessListPacket
  simp only [List.map_nil, Buffer.getFields, Buffer.Res.ok.injEq, true_and] at h2
  subst h2
  simp only [Buffer.assertEof, if_true, hloop]
  have hmap : (pids.map fun pid => Field.int32 (Buffer.toSigned 32 pid)) = pids.map fun (p : Nat) => .int32 p := by
    apply List.map_congr_left
    intro p hm
    rw [hsign p (hp p hm)]
  rw [hmap, hsign _ hn]
  rw [writePacket_eq (sizeMax := cfg.buffer.sizeMax) (hv := ?_) (hw := ?_)]
  · refine ⟨_, rfl, ?_, rfl, rfl⟩
    simp
  · intro f hf
    simp only [List.mem_cons, List.mem_map] at hf
    rcases hf with rfl | ⟨p, hm, rfl⟩
    · unfold ValidField; omega
    · have := hp p hm
      unfold ValidField; omega
  · exact hw

/-! ## Non-vacuity -/

/-- The sample agent before any request satisfies the hypotheses, and the request the sample session
receives is such a message; a resize to 9999 columns and a process list of 70 processes go through. -/
example : ∃ s, sampleStart = some s ∧ s.child = false ∧ s.closing = false ∧ s.control.pipe.writing = true ∧
    samplePacket = message (spawnRequest 3 1 0 [65] [] [] [] []) ∧
    (∀ f ∈ spawnRequest 3 1 0 [65] [] [] [] [], ValidField sampleCfg.buffer.sizeMax f) ∧
    (handlePacket sampleCfg s (message [.int32 1, .int32 9999, .int32 30])).isSome ∧
    (handlePacket { sampleCfg with env := fun _ => ⟨.ok (5, 6), [], [],
      [List.range 70, List.range 70]⟩ } s (message [.int32 2])).isSome := by
  have h : ∀ s ∈ sampleStart, s.child = false ∧ s.closing = false ∧ s.control.pipe.writing = true ∧
      samplePacket = message (spawnRequest 3 1 0 [65] [] [] [] []) ∧
      (handlePacket sampleCfg s (message [.int32 1, .int32 9999, .int32 30])).isSome ∧
      (handlePacket { sampleCfg with env := fun _ => ⟨.ok (5, 6), [], [],
        [List.range 70, List.range 70]⟩ } s (message [.int32 2])).isSome := by decide +kernel
  have hs : sampleStart.isSome := by decide +kernel
  obtain ⟨s, hs⟩ := Option.isSome_iff_exists.1 hs
  obtain ⟨h1, h2, h3, h4, h5, h6⟩ := h s hs
  refine ⟨s, hs, h1, h2, h3, h4, ?_, h5, h6⟩
  simp [spawnRequest, ValidField, sampleCfg]

end Winpty.Props
