import Verif.Lemmas.AgentInv

/-! # What holds of the agent between the steps of the event loop -/
namespace Winpty.Agent
open Winpty.Spec.Agent
open Winpty.Terminal (Term)

/-- Holds between the steps of a turn. -/
structure Pre (s : State) : Prop where
  inv : Inv s
  mouseOff : s.closing = true → s.term.mouseModeEnabled = false
  ctlExit : s.control.pipe.opened = false → s.exiting = true
  room : s.control.pipe.opened = true → s.control.pipe.inQueue.length < s.control.pipe.readBufferSize
  rbs : 8 ≤ s.control.pipe.readBufferSize
  conn : s.control.pipe.connecting = false
  settled : s.closing = true → Settled s.log

/-- Holds after a step: nothing that could be closed is left open. -/
structure Rest (s : State) : Prop where
  pre : Pre s
  outBusy : s.closing = true →
    ¬ (s.conout.pipe.isConnected = true ∧ NamedPipe.bytesToSend s.conout.pipe = some 0)
  errBusy : s.closing = true → ∀ p t, s.err = some (p, t) →
    ¬ (p.pipe.isConnected = true ∧ NamedPipe.bytesToSend p.pipe = some 0)
  done : s.closing = true → s.exitAfterShutdown = true → s.conout.pipe.opened = false →
    conerrClosed s = true → s.exiting = true

theorem settled_then {l : List Entry} (h : Settled l) : Then .childExited .scraped l := by
  obtain ⟨a, b, c, d, h1, _⟩ := h
  exact ⟨a, _, h1, by simp⟩

theorem settled_append {l es : List Entry} (h : Settled l) (hq : ∀ e ∈ es, Quiet e) :
    Settled (l ++ es) := by
  obtain ⟨a, b, c, d, h1, h2, h3, h4, h5⟩ := h
  refine ⟨a, b, c, d ++ es, by rw [h1]; simp, h2, h3, h4, ?_⟩
  intro e he
  rcases List.mem_append.1 he with he | he
  · exact h5 e he
  · exact hq e he

/-! ## Servicing a pipe -/

theorem servicePipe_facts {rd wr : Bool} {p p' : NamedPipe.State} {ws rs : List Nat} {m : Nat}
    {t : PipeTick} {did : Bool} (hi : NamedPipe.Inv rd wr p ws rs m)
    (h : servicePipe p t = some (p', did)) :
    NamedPipe.Inv rd wr p' ws rs m ∧ p'.pipe.readBufferSize = p.pipe.readBufferSize ∧
    (p.pipe.connecting = false → p'.pipe.connecting = false) ∧
    (p.pipe.opened = false → p' = p ∧ did = false) ∧
    (did = false → NamedPipe.SameQueues p p') := by
  have h0 : NamedPipe.Inv rd wr (NamedPipe.osTakes p t.takes) ws rs m := by
    have := NamedPipe.step_inv hi (.osTakes t.takes) (NamedPipe.osTakes p t.takes) [] (by intro n h; cases h) rfl
    simpa [NamedPipe.wrote, Spec.Pipe.consumes] using this
  have hp := NamedPipe.osTakes_pipe p t.takes
  unfold servicePipe at h
  split at h
  · cases h
  · rename_i p1 d1 w1 hs
    simp only [Option.some.injEq, Prod.mk.injEq] at h
    obtain ⟨rfl, rfl⟩ := h
    obtain ⟨f1, f2, f3⟩ := NamedPipe.serviceIo_frame h0 _ _ _ _ _ _ _ hs
    refine ⟨(NamedPipe.serviceIo_inv h0 _ _ _ _ _ _ _ hs).1, by rw [f1, hp], by rw [← hp]; exact f2, ?_, ?_⟩
    · intro hc
      obtain ⟨g1, g2⟩ := f3 (by rw [hp]; exact hc)
      refine ⟨?_, g2⟩
      rw [g1]
      unfold NamedPipe.osTakes
      rw [(hi.wf.closed hc).2.2]
    · intro hd
      subst hd
      have hq := NamedPipe.serviceIo_idle _ _ _ _ _ _ _ hs
      refine NamedPipe.SameQueues.trans ?_ hq
      simp only [NamedPipe.SameQueues, hp, (NamedPipe.osTakes_os p t.takes).2.1, and_self]

/-! ## Replacing a pipe -/

theorem inv_setControl {s : State} {p : NamedPipe.State} {rs : List Nat} {m : Nat} (hi : Inv s)
    (hp : NamedPipe.Inv true true p (controlBytes s.log) rs m)
    (hc : s.control.pipe.opened = false → p.pipe.opened = false) : Inv { s with control := p } := by
  refine ⟨hi.out, hi.err, ⟨rs, m, hp⟩, hi.cin, hi.closing, hi.exiting, hi.child, hi.termOut, hi.closedOut,
    hi.closedErr, hi.afterExit, hi.sizes, hi.mouse, hi.plainMouse, ?_⟩
  intro hx
  rcases hi.why hx with h | h
  · exact .inl (hc h)
  · exact .inr h

theorem inv_setConin {s : State} {p : NamedPipe.State} {rs : List Nat} (hi : Inv s)
    (hp : NamedPipe.Inv true false p [] rs 65536) : Inv { s with conin := p } :=
  ⟨hi.out, hi.err, hi.ctl, ⟨rs, hp⟩, hi.closing, hi.exiting, hi.child, hi.termOut, hi.closedOut,
    hi.closedErr, hi.afterExit, hi.sizes, hi.mouse, hi.plainMouse, hi.why⟩

theorem inv_setConout {s : State} {p : NamedPipe.State} (hi : Inv s)
    (hp : NamedPipe.Inv false true p (outBytes s.log) [] 65536)
    (hc : s.conout.pipe.opened = false → p = s.conout) : Inv { s with conout := p } := by
  refine ⟨hp, hi.err, hi.ctl, hi.cin, hi.closing, hi.exiting, hi.child, hi.termOut, ?_,
    hi.closedErr, hi.afterExit, hi.sizes, hi.mouse, hi.plainMouse, ?_⟩
  · intro pre post h
    have := hi.closedOut pre post h
    have e := hc this.1
    show p.pipe.opened = false ∧ p.os.wire = _ ∧ _
    rw [e]; exact this
  · intro hx
    rcases hi.why hx with h | ⟨h, g1, g2, g3⟩
    · exact .inl h
    · refine .inr ⟨h, g1, ?_, g3⟩
      show p.pipe.opened = false
      rw [hc g2]; exact g2

theorem inv_setErr {s : State} {q p : NamedPipe.State} {t : Term} (hi : Inv s) (he : s.err = some (q, t))
    (hp : NamedPipe.Inv false true p (errBytes s.log) [] 65536)
    (hc : q.pipe.opened = false → p = q) : Inv { s with err := some (p, t) } := by
  refine ⟨hi.out, ?_, hi.ctl, hi.cin, hi.closing, hi.exiting, hi.child, hi.termOut, hi.closedOut,
    ?_, hi.afterExit, hi.sizes, hi.mouse, hi.plainMouse, ?_⟩
  · intro p' t' h
    simp only [Option.some.injEq, Prod.mk.injEq] at h
    obtain ⟨rfl, rfl⟩ := h
    exact hp
  · intro pre post h
    obtain ⟨⟨p', t', g1, g2, g3⟩, g4⟩ := hi.closedErr pre post h
    rw [he] at g1
    cases g1
    exact ⟨⟨p, t, rfl, by rw [hc g2]; exact g2, by rw [hc g2]; exact g3⟩, g4⟩
  · intro hx
    rcases hi.why hx with h | ⟨h, g1, g2, g3⟩
    · exact .inl h
    · refine .inr ⟨h, g1, g2, ?_⟩
      simp only [conerrClosed, he, NamedPipe.Pipe.isClosed, Bool.not_eq_true'] at g3 ⊢
      rw [hc g3]; exact g3

/-! ## Writing keeps the facts -/

theorem bytesToSend_push {p : NamedPipe.State} {x : List Nat}
    (h : NamedPipe.bytesToSend (push p x).pipe = some 0) : NamedPipe.bytesToSend p.pipe = some 0 := by
  have key : NamedPipe.bytesToSend (push p x).pipe =
      (NamedPipe.bytesToSend p.pipe).map (x.length + ·) := by
    unfold NamedPipe.bytesToSend
    show (if p.pipe.writing = true then some ((p.pipe.outQueue ++ x).length + _) else none) = _
    by_cases hw : p.pipe.writing = true
    · rw [if_pos hw, if_pos hw]
      simp only [Option.map_some, List.length_append, Option.some.injEq]
      show p.pipe.outQueue.length + x.length + _ = x.length + (p.pipe.outQueue.length + _)
      rw [Nat.add_comm p.pipe.outQueue.length x.length, Nat.add_assoc]
      rfl
    · rw [if_neg hw, if_neg hw]; rfl
  rw [key] at h
  cases hb : NamedPipe.bytesToSend p.pipe with
  | none => rw [hb] at h; cases h
  | some n =>
    rw [hb] at h
    simp only [Option.map_some, Option.some.injEq] at h ⊢
    omega

theorem rest_writes {P : Entry → Prop} {s s' : State} (hw : Writes P s s') (hr : Rest s)
    (hmm : s'.term.mouseModeEnabled = s.term.mouseModeEnabled)
    (hP : ∀ e, P e → Plain e ∧ ∀ b, e ≠ .conout .mouse b) (hq : ∀ e, P e → Quiet e)
    (hreq : s.exiting = true → ∀ e, P e → ¬ IsRequest e) : Rest s' := by
  have hinv := inv_writes' hw hr.pre.inv hmm hP hreq
  obtain ⟨⟨es, h1, h2, h3, h4, h5, h6⟩, h7, h8, h9, h10, h11, h12⟩ := hw
  refine ⟨⟨hinv, ?_, ?_, ?_, ?_, ?_, ?_⟩, ?_, ?_, ?_⟩
  · intro hc; rw [hmm]; exact hr.pre.mouseOff (h8 ▸ hc)
  · intro hc; rw [h9]; exact hr.pre.ctlExit (by rw [h5] at hc; exact hc)
  · rw [h5]; exact hr.pre.room
  · rw [h5]; exact hr.pre.rbs
  · rw [h5]; exact hr.pre.conn
  · intro hc
    rw [h1]
    exact settled_append (hr.pre.settled (h8 ▸ hc)) (fun e he => hq e (h2 e he))
  · intro hc
    rw [h3]
    rintro ⟨g1, g2⟩
    exact hr.outBusy (h8 ▸ hc) ⟨g1, bytesToSend_push g2⟩
  · intro hc p t he
    rw [he] at h4
    cases hse : s.err with
    | none => rw [hse] at h4; simp at h4
    | some pt =>
      rw [hse] at h4
      simp only [Option.map_some, Option.some.injEq] at h4
      rw [h4]
      rintro ⟨g1, g2⟩
      exact hr.errBusy (h8 ▸ hc) pt.1 pt.2 hse ⟨g1, bytesToSend_push g2⟩
  · intro hc hx ho he
    rw [h9]
    have hc := h8 ▸ hc
    refine hr.done hc (by rw [← h10 hc]; exact hx) (by rw [h3] at ho; exact ho) ?_
    rw [← conerrClosed_of h4]; exact he

theorem request_quiet (e : Entry) (h : RequestEntry e) : Quiet e := by
  rcases h with ⟨h, _⟩ | h
  · refine ⟨?_, ?_, ?_, ?_⟩
    · rintro (⟨b, rfl⟩ | ⟨b, rfl⟩) <;> exact h
    · rintro (⟨b, rfl⟩ | ⟨b, rfl⟩) <;> exact h
    · rintro rfl; exact h
    · rintro rfl; exact h
  · rcases h with ⟨b, rfl⟩ | ⟨b, rfl⟩ <;> simp [Quiet, IsOutput]

/-! ## The control pipe -/

theorem pollLoop_writes {cfg : Cfg} (q : List Nat) (rbs : Nat) (s : State) (a : Framing.Agent State)
    (h : Framing.pollLoop cfg.buffer.sizeMax (handlePacket cfg) s q rbs = .running a) :
    Writes RequestEntry s a.handler ∧ a.handler.term.mouseModeEnabled = s.term.mouseModeEnabled ∧
    ∃ used, q = used ++ a.inQueue := by
  induction hl : q.length using Nat.strongRecOn generalizing s q with
  | ind n ih =>
    subst hl
    rw [Framing.pollLoop] at h
    split at h
    · cases h; exact ⟨Writes.refl s, rfl, [], rfl⟩
    · split at h
      · cases h
      · split at h
        · cases h; exact ⟨Writes.refl s, rfl, [], rfl⟩
        · rename_i h8 hn hlt
          split at h
          · cases h
          · rename_i s1 hs1
            obtain ⟨w1, w2⟩ := writes_handlePacket hs1
            obtain ⟨k1, k2, used, k3⟩ := ih _ (by rw [List.length_drop]; omega) _ _ h rfl
            refine ⟨w1.trans k1, k2.trans w2, q.take (Buffer.leNat (q.take 8)) ++ used, ?_⟩
            rw [List.append_assoc, ← k3, List.take_append_drop]

theorem shutdown_rest {s : State} (hr : Pre s) (hwhy : s.control.pipe.opened = false)
    (hb : s.closing = true →
      ¬ (s.conout.pipe.isConnected = true ∧ NamedPipe.bytesToSend s.conout.pipe = some 0))
    (he : s.closing = true → ∀ p t, s.err = some (p, t) →
      ¬ (p.pipe.isConnected = true ∧ NamedPipe.bytesToSend p.pipe = some 0)) : Rest (shutdown s) := by
  refine ⟨⟨shutdown_inv hr.inv (.inl hwhy), hr.mouseOff, fun _ => rfl, hr.room, hr.rbs, hr.conn, ?_⟩, hb, he,
    fun _ _ _ _ => rfl⟩
  intro hc
  exact settled_append (hr.settled hc) (by
    intro e he; rw [List.mem_singleton] at he; subst he; simp [Quiet, IsOutput])

theorem tickControl_rest {cfg : Cfg} {s s' : State} {t : Tick} (hr : Rest s) (hx : s.exiting = false)
    (h : tickControl cfg s t = some s') : Rest s' := by
  have hopen : s.control.pipe.opened = true := by
    cases ho : s.control.pipe.opened with
    | true => rfl
    | false => rw [hr.pre.ctlExit ho] at hx; cases hx
  obtain ⟨rs, m, hi⟩ := hr.pre.inv.ctl
  unfold tickControl at h
  split at h
  · cases h
  · rename_i p did hp
    obtain ⟨f1, f2, f3, f4, f5⟩ := servicePipe_facts hi hp
    have hcl : ∀ P : Prop, s.control.pipe.opened = false → P := fun P hh => by rw [hopen] at hh; cases hh
    have hinv : Inv { s with control := p } := inv_setControl hr.pre.inv f1 (hcl _)
    split at h
    · unfold pollControlPipe at h
      split at h
      · rename_i hcp
        simp only [Option.some.injEq] at h
        subst h
        have hcp : p.pipe.opened = false := by simpa [NamedPipe.Pipe.isClosed] using hcp
        -- `shutdown_rest` asks for `Pre`; rebuild it with the exit already decided
        refine ⟨⟨shutdown_inv hinv (.inl hcp), hr.pre.mouseOff, fun _ => rfl, ?_, ?_, f3 hr.pre.conn, ?_⟩,
          hr.outBusy, hr.errBusy, fun _ _ _ _ => rfl⟩
        · intro ho
          have ho : p.pipe.opened = true := ho
          rw [hcp] at ho; cases ho
        · show 8 ≤ p.pipe.readBufferSize
          rw [f2]; exact hr.pre.rbs
        · intro hc
          exact settled_append (hr.pre.settled hc) (by
            intro e he; rw [List.mem_singleton] at he; subst he; simp [Quiet, IsOutput])
      · rename_i hcp
        split at h
        · cases h
        · rename_i a ha
          simp only [Option.some.injEq] at h
          subst h
          have hop : p.pipe.opened = true := by simpa [NamedPipe.Pipe.isClosed] using hcp
          obtain ⟨w1, w2, used, w3⟩ := pollLoop_writes _ _ _ _ ha
          obtain ⟨r1, r2⟩ := Framing.pollLoop_room _ _ _ _ _ (by
            show 8 ≤ p.pipe.readBufferSize
            rw [f2]; exact hr.pre.rbs) a ha
          have hr0 : Rest { s with control := { p with pipe := { p.pipe with
              inQueue := a.inQueue, readBufferSize := a.readBufferSize } } } := by
            refine ⟨⟨?_, hr.pre.mouseOff, ?_, fun _ => r1, r2, f3 hr.pre.conn, hr.pre.settled⟩, hr.outBusy,
              hr.errBusy, hr.done⟩
            · refine inv_setControl (rs := rs ++ used) (m := max m a.readBufferSize) hr.pre.inv ?_ (hcl _)
              have hin := f1.inp
              refine ⟨⟨f1.wf.readMode, f1.wf.writeMode, f1.wf.closed, f1.wf.conn, f1.wf.inp, f1.wf.out⟩,
                f1.sized, ⟨?_, Nat.le_max_right .., ?_, ?_⟩, f1.out, f1.outClosed⟩
              · show rs ++ used ++ a.inQueue = p.os.received
                rw [List.append_assoc, ← w3]; exact hin.stream
              · have hb := hin.bound
                show a.inQueue.length + NamedPipe.pendingRead p < _
                have w3 : p.pipe.inQueue = used ++ a.inQueue := w3
                rw [w3, List.length_append] at hb
                have := Nat.le_max_left m a.readBufferSize
                omega
              · intro e he
                obtain ⟨g1, g2, g3⟩ := hin.reads e he
                exact ⟨g1, g2, Nat.le_trans g3 (Nat.le_max_left ..)⟩
            · intro ho
              have ho : p.pipe.opened = false := ho
              rw [hop] at ho; cases ho
          refine rest_writes (P := RequestEntry) ?_ hr0 w2 request_plain request_quiet ?_
          · -- the handlers do not look at the input queue
            obtain ⟨⟨es, h1, h2, h3, h4, h5, h6⟩, h7, h8, h9, h10, h11, h12⟩ := w1
            refine ⟨⟨es, h1, h2, h3, h4, ?_, h6⟩, h7, h8, h9, h10, h11, h12⟩
            have h5 : a.handler.control = push p (controlBytes es) := h5
            simp only [h5]; rfl
          · intro he
            have he : s.exiting = true := he
            rw [hx] at he; cases he
    · rename_i hd
      have hd : did = false := by simpa using hd
      simp only [Option.some.injEq] at h
      subst h
      obtain ⟨q1, q2, q3, q4, q5, q6⟩ := f5 hd
      refine ⟨⟨hinv, hr.pre.mouseOff, ?_, ?_, ?_, f3 hr.pre.conn, hr.pre.settled⟩, hr.outBusy, hr.errBusy, hr.done⟩
      · intro ho; exact hr.pre.ctlExit (by rw [← q3]; exact ho)
      · intro ho
        show p.pipe.inQueue.length < p.pipe.readBufferSize
        rw [q1, q2]; exact hr.pre.room hopen
      · show 8 ≤ p.pipe.readBufferSize
        rw [f2]; exact hr.pre.rbs

/-! ## The input pipe -/

theorem tickConin_rest {cfg : Cfg} {s s' : State} {t : Tick} (hr : Rest s)
    (h : tickConin cfg s t = some s') : Rest s' ∧ Writes (IsOutput .dsr) { s with conin := s'.conin } s' := by
  obtain ⟨rs, hi⟩ := hr.pre.inv.cin
  have set : ∀ p rs, NamedPipe.Inv true false p [] rs 65536 → Rest { s with conin := p } := fun p rs hp =>
    ⟨⟨inv_setConin hr.pre.inv hp, hr.pre.mouseOff, hr.pre.ctlExit, hr.pre.room, hr.pre.rbs, hr.pre.conn,
      hr.pre.settled⟩, hr.outBusy, hr.errBusy, hr.done⟩
  unfold tickConin at h
  split at h
  · cases h
  · rename_i p did hp
    obtain ⟨f1, _⟩ := servicePipe_facts hi hp
    split at h
    · unfold pollConinPipe at h
      split at h
      · cases h
      · rename_i p1 r hst
        have h1 := NamedPipe.step_inv f1 .readAllToString p1 r (by intro n h; cases h) hst
        simp only [NamedPipe.wrote, List.append_nil] at h1
        obtain ⟨w1, w2⟩ := writes_dsrs t.dsr h
        refine ⟨rest_writes w1 (set p1 _ h1) (by rw [w2]) (output_plain (by simp)) ?_
          (fun _ e he => output_notRequest e he), ?_⟩
        · rintro e (⟨b, rfl⟩ | ⟨b, rfl⟩) <;> simp [Quiet, IsOutput]
        · have := w1.conin
          rw [this]; exact w1
    · simp only [Option.some.injEq] at h
      subst h
      exact ⟨set p rs f1, Writes.refl _⟩

/-! ## Closing the output pipes -/

theorem autoClose_rest {s s' : State} (hp : Pre s) (h : autoClosePipesForShutdown s = some s') :
    Rest s' ∧ s'.closing = s.closing ∧ s'.term = s.term ∧ s'.control = s.control ∧
    s'.exitAfterShutdown = s.exitAfterShutdown ∧ (s.exiting = true → s'.exiting = true) ∧
    (∃ es, s'.log = s.log ++ es ∧ ∀ e ∈ es, e = .closeConout ∨ e = .closeConerr ∨ e = .exit) := by
  unfold autoClosePipesForShutdown at h
  split at h
  · rename_i hc
    simp only [Option.bind_eq_some_iff, Option.some.injEq] at h
    obtain ⟨s1, h1, s2, h2, rfl⟩ := h
    have hs := hp.settled hc
    obtain ⟨a1, ⟨es1, a2, a2'⟩, a3, a4, a5, a6, a7, a8, a9, _⟩ := closeConoutIfDone_inv hp.inv (settled_then hs) (hp.mouseOff hc) h1
    have q1 : ∀ e ∈ es1, Quiet e := by
      intro e he; rw [a2' e he]; simp [Quiet, IsOutput]
    have hs1 : Settled s1.log := by rw [a2]; exact settled_append hs q1
    obtain ⟨b1, ⟨es2, b2, b2'⟩, b3, b4, b5, b6, b7, b8, b9⟩ := closeConerrIfDone_inv a1 (settled_then hs1) h2
    have q2 : ∀ e ∈ es2, Quiet e := by
      intro e he; rw [b2' e he]; simp [Quiet, IsOutput]
    have hs2 : Settled s2.log := by rw [b2]; exact settled_append hs1 q2
    have hctl : s2.control = s.control := b5.trans a5
    have hlog : s2.log = s.log ++ (es1 ++ es2) := by rw [b2, a2, List.append_assoc]
    have hes : ∀ e ∈ es1 ++ es2, e = Entry.closeConout ∨ e = .closeConerr ∨ e = .exit := by
      intro e he
      rcases List.mem_append.1 he with he | he
      · exact .inl (a2' e he)
      · exact .inr (.inl (b2' e he))
    have pre2 : Pre s2 := by
      refine ⟨b1, ?_, ?_, ?_, ?_, ?_, fun _ => hs2⟩
      · intro hc'; rw [b6, a6]; exact hp.mouseOff hc
      · rw [hctl, b8, a8]; exact hp.ctlExit
      · rw [hctl]; exact hp.room
      · rw [hctl]; exact hp.rbs
      · rw [hctl]; exact hp.conn
    have ob : ¬ (s2.conout.pipe.isConnected = true ∧ NamedPipe.bytesToSend s2.conout.pipe = some 0) := by
      rw [b4]; exact a3
    unfold exitIfDone
    split
    · rename_i hd
      simp only [NamedPipe.Pipe.isClosed, Bool.and_eq_true, Bool.not_eq_true'] at hd
      obtain ⟨⟨d1, d2⟩, d3⟩ := hd
      refine ⟨⟨⟨shutdown_inv b1 (.inr ⟨b7.trans (a7.trans hc), d1, d2, d3⟩), pre2.mouseOff, fun _ => rfl, pre2.room,
        pre2.rbs, pre2.conn, fun _ => ?_⟩, fun _ => ob, fun _ => b3, fun _ _ _ _ => rfl⟩, b7.trans a7,
        b6.trans a6, hctl, b9.trans a9, fun _ => rfl, es1 ++ es2 ++ [.exit], ?_, ?_⟩
      · exact settled_append hs2 (by
          intro e he; rw [List.mem_singleton] at he; subst he; simp [Quiet, IsOutput])
      · show s2.log ++ [.exit] = _
        rw [hlog]; simp
      · intro e he
        rcases List.mem_append.1 he with he | he
        · exact hes e he
        · rw [List.mem_singleton] at he; exact .inr (.inr he)
    · rename_i hd
      refine ⟨⟨pre2, fun _ => ob, fun _ => b3, ?_⟩, b7.trans a7, b6.trans a6, hctl, b9.trans a9, ?_,
        es1 ++ es2, hlog, hes⟩
      · intro _ d1 d2 d3
        exfalso
        apply hd
        simp [NamedPipe.Pipe.isClosed, d1, d2, d3]
      · rw [b8, a8]; exact id
  · rename_i hc
    simp only [Option.some.injEq] at h
    subst h
    have hv : ∀ P : Prop, s.closing = true → P := fun P hh => absurd hh hc
    exact ⟨⟨hp, hv _, hv _, hv _⟩, rfl, rfl, rfl, rfl, id, [], by simp⟩

theorem tickConout_rest {s s' : State} {t : Tick} (hr : Rest s) (h : tickConout s t = some s') : Rest s' := by
  unfold tickConout at h
  split at h
  · cases h
  · rename_i p did hp
    obtain ⟨f1, f2, f3, f4, f5⟩ := servicePipe_facts hr.pre.inv.out hp
    have hinv : Inv { s with conout := p } := inv_setConout hr.pre.inv f1 (fun hc => (f4 hc).1)
    have hpre : Pre { s with conout := p } := ⟨hinv, hr.pre.mouseOff, hr.pre.ctlExit, hr.pre.room, hr.pre.rbs,
      hr.pre.conn, hr.pre.settled⟩
    split at h
    · exact (autoClose_rest hpre h).1
    · rename_i hd
      have hd : did = false := by simpa using hd
      simp only [Option.some.injEq] at h
      subst h
      obtain ⟨q1, q2, q3, q4, q5, q6⟩ := f5 hd
      refine ⟨hpre, ?_, hr.errBusy, ?_⟩
      · intro hc
        rintro ⟨g1, g2⟩
        refine hr.outBusy hc ⟨?_, ?_⟩
        · have g1 : p.pipe.isConnected = true := g1
          simpa only [NamedPipe.Pipe.isConnected, NamedPipe.Pipe.isClosed, NamedPipe.Pipe.isConnecting, q3, q4] using g1
        · have g2 : NamedPipe.bytesToSend p.pipe = some 0 := g2
          rw [← q5]; exact g2
      · intro hc hx ho
        refine hr.done hc hx ?_
        have ho : p.pipe.opened = false := ho
        rw [← q3]; exact ho

theorem tickConerr_rest {s s' : State} {t : Tick} (hr : Rest s) (h : tickConerr s t = some s') : Rest s' := by
  unfold tickConerr at h
  split at h
  · simp only [Option.some.injEq] at h; subst h; exact hr
  · rename_i q term he
    split at h
    · cases h
    · rename_i p did hp
      obtain ⟨f1, f2, f3, f4, f5⟩ := servicePipe_facts (hr.pre.inv.err q term he) hp
      have hinv : Inv { s with err := some (p, term) } := inv_setErr hr.pre.inv he f1 (fun hc => (f4 hc).1)
      have hpre : Pre { s with err := some (p, term) } := ⟨hinv, hr.pre.mouseOff, hr.pre.ctlExit, hr.pre.room,
        hr.pre.rbs, hr.pre.conn, hr.pre.settled⟩
      split at h
      · exact (autoClose_rest hpre h).1
      · rename_i hd
        have hd : did = false := by simpa using hd
        simp only [Option.some.injEq] at h
        subst h
        obtain ⟨q1, q2, q3, q4, q5, q6⟩ := f5 hd
        refine ⟨hpre, hr.outBusy, ?_, ?_⟩
        · intro hc p' t' hp'
          simp only [Option.some.injEq, Prod.mk.injEq] at hp'
          obtain ⟨rfl, rfl⟩ := hp'
          rintro ⟨g1, g2⟩
          refine hr.errBusy hc q term he ⟨?_, ?_⟩
          · simpa only [NamedPipe.Pipe.isConnected, NamedPipe.Pipe.isClosed, NamedPipe.Pipe.isConnecting, q3, q4] using g1
          · rw [← q5]; exact g2
        · intro hc hx ho hce
          refine hr.done hc hx ho ?_
          simp only [conerrClosed, he, NamedPipe.Pipe.isClosed, Bool.not_eq_true'] at hce ⊢
          rw [← q3]; exact hce

/-! ## The poll -/

theorem writes_title {cfg : Cfg} {s s' : State} {ti : List Nat} (h : syncConsoleTitle cfg s ti = some s') :
    Writes (IsOutput .title) s s' ∧ s'.term = s.term := by
  have h0 : Writes (IsOutput .title) s { s with title := ti } :=
    ⟨⟨[], by simp, by simp, by simp [outBytes, push_nil], by simp [errBytes, push_nil],
      by simp [controlBytes, push_nil], by simp [termBytes]⟩, rfl, rfl, rfl, fun _ => rfl, fun _ => rfl, rfl⟩
  unfold syncConsoleTitle at h
  split at h
  · split at h
    · obtain ⟨w1, w2⟩ := writes_conout (s := { s with title := ti }) (src := .title) s.term
        (fun hx => by simp [TermSource] at hx) (fun _ => rfl) rfl h
      exact ⟨h0.trans (w1.mono (fun e he => .inl ⟨_, he⟩)), w2⟩
    · simp only [Option.some.injEq] at h
      subst h
      exact ⟨h0, rfl⟩
  · simp only [Option.some.injEq] at h
    subst h
    exact ⟨Writes.refl s, rfl⟩

theorem writes_scrape {s s' : State} {out err : List TermCall} (h : scrapeBuffers s out err = some s') :
    Writes (IsOutput .scrape) { s with log := s.log ++ [.scraped] } s' ∧
    s'.term.mouseModeEnabled = s.term.mouseModeEnabled := by
  unfold scrapeBuffers at h
  simp only [Option.bind_eq_some_iff] at h
  obtain ⟨s1, h1, h2⟩ := h
  obtain ⟨a1, a2⟩ := writes_primary (.inl rfl) h1
  obtain ⟨b1, b2⟩ := writes_error h2
  exact ⟨a1.trans b1, by rw [b2, a2]⟩

theorem onPollTimeout_rest {cfg : Cfg} {s s' : State} {e : PollEnv} (hp : Pre s)
    (h : onPollTimeout cfg s e = some s') : Rest s' := by
  unfold onPollTimeout at h
  simp only [Option.bind_eq_some_iff] at h
  obtain ⟨s3, h3, s4, h4, h5⟩ := h
  by_cases hc : s.closing = true
  · rw [if_neg (by simp [hc])] at h3
    have hch : checkChild s e = s := by
      unfold checkChild; rw [hp.inv.child hc]; simp
    rw [hch, Option.some.injEq] at h3
    subst h3
    rw [hc] at h4
    simp only [Bool.not_true, Bool.and_false] at h4
    have := (setMouse_inv hp.inv h4).2.2.2 rfl (hp.mouseOff hc)
    subst this
    exact (autoClose_rest hp h5).1
  · rw [if_pos (by simp [hc])] at h3
    simp only [Option.bind_eq_some_iff] at h3
    obtain ⟨s2, h2, h3⟩ := h3
    have hc : s.closing = false := by simpa using hc
    have i1 := checkChild_inv (e := e) hp.inv
    obtain ⟨w1, w2⟩ := writes_title h2
    have i2 : Inv s2 := inv_writes' w1 i1 (by rw [w2]) (output_plain (by simp))
      (fun _ e he => output_notRequest e he)
    obtain ⟨x1, x2⟩ := writes_scrape h3
    have wl := writes_log s2 .scraped (by simp [Silent]) s2.served
    have i3' : Inv { s2 with log := s2.log ++ [.scraped] } := by
      refine inv_writes' (P := fun x => x = .scraped) wl i2 rfl ?_ ?_
      · rintro e rfl; exact ⟨⟨by simp, by simp, by simp, by simp, trivial⟩, by simp⟩
      · rintro _ e rfl; exact id
    have i3 : Inv s3 := inv_writes' x1 i3' x2 (output_plain (by simp)) (fun _ e he => output_notRequest e he)
    obtain ⟨m1, m2, m3, _⟩ := setMouse_inv i3 h4
    -- the log
    obtain ⟨⟨t, t1, t2, t3, t4, t5, t6⟩, t7, t8, t9, t10, t11, t12⟩ := w1
    obtain ⟨⟨f, f1, f2, f3, f4, f5, f6⟩, f7, f8, f9, f10, f11, f12⟩ := x1
    obtain ⟨⟨o, o1, o2, o3, o4, o5, o6⟩, o7, o8, o9, o10, o11, o12⟩ := m1
    have cc : (checkChild s e).control = s.control ∧ (checkChild s e).exiting = s.exiting ∧
        (checkChild s e).term = s.term := by
      unfold checkChild; split <;> exact ⟨rfl, rfl, rfl⟩
    have hctl : ∃ x, s4.control = push s.control x := by
      refine ⟨controlBytes t ++ (controlBytes f ++ controlBytes o), ?_⟩
      rw [o5, f5]
      simp only [t5, cc.1, push_push, List.append_assoc]
    have hex : s4.exiting = s.exiting := by
      rw [o9, f9]; show s2.exiting = _; rw [t9, cc.2.1]
    obtain ⟨x, hctl⟩ := hctl
    have pre4 : Pre s4 := by
      refine ⟨m2, ?_, ?_, ?_, ?_, ?_, ?_⟩
      · intro hc4
        rw [o8] at hc4
        exact m3 (by simp [hc4])
      · rw [hctl, hex]; exact hp.ctlExit
      · rw [hctl]; exact hp.room
      · rw [hctl]; exact hp.rbs
      · rw [hctl]; exact hp.conn
      · intro hc4
        rw [o8, f8] at hc4
        have hc4 : s2.closing = true := hc4
        rw [t8] at hc4
        have hlog : (checkChild s e).log = s.log ++ [.childExited] := by
          unfold checkChild at hc4 ⊢
          split at hc4
          · rename_i hcond; rw [if_pos hcond]
          · rw [hc] at hc4; cases hc4
        refine ⟨s.log, t, f, o, ?_, ?_, t2, f2, ?_⟩
        · rw [o1, f1]
          show s2.log ++ [.scraped] ++ f ++ o = _
          rw [t1, hlog]; simp
        · intro hm; rw [← hp.inv.closing, hc] at hm; cases hm
        · intro e he
          obtain ⟨b, rfl⟩ := o2 e he
          simp [Quiet, IsOutput]
    exact (autoClose_rest pre4 h5).1

/-! ## Turns -/

theorem tick_rest {cfg : Cfg} {s s' : State} {t : Tick} (hr : Rest s) (hx : s.exiting = false)
    (h : tick cfg s t = some s') : Rest s' := by
  unfold tick at h
  simp only [Option.bind_eq_some_iff] at h
  obtain ⟨s1, h1, s2, h2, s3, h3, s4, h4, h5⟩ := h
  have r1 := tickControl_rest hr hx h1
  have r2 := (tickConin_rest r1 h2).1
  have r3 := tickConout_rest r2 h3
  have r4 := tickConerr_rest r3 h4
  split at h5
  · simp only [Option.some.injEq] at h5; subst h5; exact r4
  · exact onPollTimeout_rest r4.pre h5

theorem loop_rest {cfg : Cfg} : ∀ (ts : List Tick) {s s' : State}, Rest s → loop cfg s ts = some s' → Rest s' := by
  intro ts
  induction ts with
  | nil =>
    intro s s' hr h
    simp only [loop, Option.some.injEq] at h; subst h; exact hr
  | cons t ts ih =>
    intro s s' hr h
    simp only [loop] at h
    split at h
    · simp only [Option.some.injEq] at h; subst h; exact hr
    · rename_i hx
      simp only [Option.bind_eq_some_iff] at h
      obtain ⟨s1, h1, h2⟩ := h
      exact ih (tick_rest hr (by simpa using hx) h1) h2

theorem start_rest {cfg : Cfg} {names : List (List Nat)} {connected : Bool × Bool × Bool} {cols rows : Int}
    {out err : List TermCall} {s : State} (h : start cfg names connected cols rows out err = some s) :
    Rest s := by
  unfold start at h
  split at h
  · rename_i hge
    simp only [Option.bind_eq_some_iff] at h
    obtain ⟨s1, h1, s2, h2, h3⟩ := h
    have h0 : Rest
      { control := NamedPipe.opened true true true
        conin := NamedPipe.opened true false connected.1
        conout := NamedPipe.opened false true connected.2.1
        term := Terminal.init cfg.plainMode cfg.outputColor
        err := if cfg.useConerr then
            some (NamedPipe.opened false true connected.2.2,
              Terminal.init cfg.plainMode cfg.outputColor)
          else none
        child := false, autoShutdown := false, exitAfterShutdown := false
        closing := false, exiting := false, title := [0x20], served := 0
        log := [.resized (min cols maxConsoleWidth) (min rows maxConsoleHeight)] } := by
      refine ⟨⟨⟨?_, ?_, ?_, ?_, ?_, ?_, ?_, ?_, ?_, ?_, ?_, ?_, ?_, ?_, ?_⟩, ?_, ?_, ?_, ?_, ?_, ?_⟩, ?_, ?_, ?_⟩
      · exact NamedPipe.opened_inv _ _ _ _ (by decide)
      · intro p t hp
        simp only at hp
        split at hp
        · cases hp
          exact NamedPipe.opened_inv _ _ _ _ (by decide)
        · cases hp
      · exact ⟨[], 65536, NamedPipe.opened_inv _ _ _ _ (by decide)⟩
      · exact ⟨[], NamedPipe.opened_inv _ _ _ _ (by decide)⟩
      · simp
      · simp
      · intro _; rfl
      · rfl
      · intro pre post h
        cases pre <;> simp at h
      · intro pre post h
        cases pre <;> simp at h
      · intro pre post h
        cases pre <;> simp at h
      · intro e he
        simp only [List.mem_singleton] at he
        subst he
        simp only [SizeOk, maxConsoleWidth, maxConsoleHeight]
        omega
      · exact ⟨0, rfl⟩
      · intro _; rfl
      · intro h; cases h
      · intro h; cases h
      · intro h
        have h : true = false := h
        cases h
      · intro _; show 0 < 64 * 1024; decide
      · show 8 ≤ 64 * 1024; decide
      · rfl
      · intro h; cases h
      · intro h; cases h
      · intro h; cases h
      · intro h; cases h
    obtain ⟨a1, a2⟩ := writes_packet h1
    have a1 : Writes RequestEntry _ s1 := a1.mono (by rintro e ⟨b, rfl⟩; exact .inl ⟨trivial, trivial⟩)
    have r1 := rest_writes a1 h0 (by rw [a2]) request_plain request_quiet (fun h => by cases h)
    obtain ⟨b1, b2⟩ := writes_primary (.inr (.inl rfl)) h2
    have b1 : Writes RequestEntry s1 s2 := b1.mono (fun e he => .inr he)
    have hx1 : s1.exiting = false := a1.exiting
    have r2 := rest_writes b1 r1 b2 request_plain request_quiet (fun h => by rw [hx1] at h; cases h)
    obtain ⟨c1, c2⟩ := writes_error h3
    have c1 : Writes RequestEntry s2 s := c1.mono (fun e he => .inr he)
    have hx2 : s2.exiting = false := b1.exiting.trans hx1
    exact rest_writes c1 r2 (by rw [c2]) request_plain request_quiet (fun h => by rw [hx2] at h; cases h)
  · cases h

/-! ## What a turn can do to the log, the exit decision and the CONOUT pipe -/

/-- `s'` comes after `s`; the CONOUT pipe was not closed except by decision. -/
structure After (s s' : State) : Prop where
  log : s.log <+: s'.log
  exiting : s.exiting = true → s'.exiting = true
  conout : s'.conout.pipe.opened = false → s.conout.pipe.opened = false ∨ .closeConout ∈ s'.log

theorem After.refl (s : State) : After s s := ⟨List.prefix_refl _, id, .inl⟩

theorem After.trans {a b c : State} (h : After a b) (g : After b c) : After a c := by
  refine ⟨h.log.trans g.log, fun hx => g.exiting (h.exiting hx), fun ho => ?_⟩
  rcases g.conout ho with h1 | h1
  · rcases h.conout h1 with h2 | h2
    · exact .inl h2
    · exact .inr (g.log.subset h2)
  · exact .inr h1

theorem after_writes {P : Entry → Prop} {s s' : State} (h : Writes P s s') : After s s' := by
  obtain ⟨⟨es, h1, _, h3, _⟩, _, _, h9, _⟩ := h
  refine ⟨by rw [h1]; exact List.prefix_append _ _, by rw [h9]; exact id, ?_⟩
  rw [h3]; exact .inl

theorem after_shutdown (s : State) : After s (shutdown s) :=
  ⟨List.prefix_append _ _, fun _ => rfl, .inl⟩

theorem after_autoClose {s s' : State} (h : autoClosePipesForShutdown s = some s') : After s s' := by
  unfold autoClosePipesForShutdown at h
  split at h
  · simp only [Option.bind_eq_some_iff, Option.some.injEq] at h
    obtain ⟨s1, h1, s2, h2, rfl⟩ := h
    have a1 : After s s1 := by
      unfold closeConoutIfDone at h1
      repeat' split at h1
      all_goals cases h1
      all_goals first
        | exact After.refl s
        | exact ⟨List.prefix_append _ _, id, fun _ => .inr (by simp)⟩
    have a2 : After s1 s2 := by
      unfold closeConerrIfDone at h2
      repeat' split at h2
      all_goals cases h2
      all_goals first
        | exact After.refl s1
        | exact ⟨List.prefix_append _ _, id, .inl⟩
    have a3 : After s2 (exitIfDone s2) := by
      unfold exitIfDone
      split
      · exact after_shutdown s2
      · exact After.refl s2
    exact a1.trans (a2.trans a3)
  · cases h; exact After.refl s

/-- No error is reported for the CONOUT pipe. -/
def NoError (t : PipeTick) : Prop := NamedPipe.Ans.error ∉ t.reads ∧ NamedPipe.Ans.error ∉ t.writes

theorem servicePipe_stays_open {rd wr : Bool} {p p' : NamedPipe.State} {ws rs : List Nat} {m : Nat}
    {t : PipeTick} {did : Bool} (hi : NamedPipe.Inv rd wr p ws rs m) (hne : NoError t)
    (h : servicePipe p t = some (p', did)) : p'.pipe.opened = false → p.pipe.opened = false := by
  intro hc
  cases ho : p.pipe.opened with
  | false => rfl
  | true =>
    exfalso
    have h0 : NamedPipe.Inv rd wr (NamedPipe.osTakes p t.takes) ws rs m := by
      have := NamedPipe.step_inv hi (.osTakes t.takes) (NamedPipe.osTakes p t.takes) [] (by intro n h; cases h) rfl
      simpa [NamedPipe.wrote, Spec.Pipe.consumes] using this
    unfold servicePipe at h
    split at h
    · cases h
    · rename_i p1 d1 w1 hs
      simp only [Option.some.injEq, Prod.mk.injEq] at h
      obtain ⟨rfl, rfl⟩ := h
      have := NamedPipe.serviceIo_stays_open h0 (by rw [NamedPipe.osTakes_pipe]; exact ho) _ _ _ _ _ _ _ hne hs
      rw [hc] at this; cases this

theorem tickControl_after {cfg : Cfg} {s s' : State} {t : Tick} (h : tickControl cfg s t = some s') :
    After s s' := by
  unfold tickControl at h
  split at h
  · cases h
  · rename_i p did hp
    have h0 : After s { s with control := p } := ⟨List.prefix_refl _, id, .inl⟩
    split at h
    · unfold pollControlPipe at h
      split at h
      · simp only [Option.some.injEq] at h; subst h; exact h0.trans (after_shutdown _)
      · split at h
        · cases h
        · rename_i a ha
          simp only [Option.some.injEq] at h; subst h
          have := after_writes (pollLoop_writes _ _ _ _ ha).1
          exact h0.trans ⟨this.log, this.exiting, this.conout⟩
    · simp only [Option.some.injEq] at h; subst h; exact h0

theorem tickConin_after {cfg : Cfg} {s s' : State} {t : Tick} (h : tickConin cfg s t = some s') :
    After s s' := by
  unfold tickConin at h
  split at h
  · cases h
  · rename_i p did hp
    split at h
    · unfold pollConinPipe at h
      split at h
      · cases h
      · rename_i p1 r hst
        have := after_writes (writes_dsrs t.dsr h).1
        exact ⟨this.log, this.exiting, this.conout⟩
    · simp only [Option.some.injEq] at h; subst h; exact ⟨List.prefix_refl _, id, .inl⟩

theorem tickConout_after {s s' : State} {t : Tick} (hi : Inv s) (hne : NoError t.conout)
    (h : tickConout s t = some s') : After s s' := by
  unfold tickConout at h
  split at h
  · cases h
  · rename_i p did hp
    have h0 : After s { s with conout := p } :=
      ⟨List.prefix_refl _, id, fun ho => .inl (servicePipe_stays_open hi.out hne hp ho)⟩
    split at h
    · exact h0.trans (after_autoClose h)
    · simp only [Option.some.injEq] at h; subst h; exact h0

theorem tickConout_log {s s' : State} {t : Tick} (h : tickConout s t = some s') :
    s.log <+: s'.log ∧ (s.exiting = true → s'.exiting = true) := by
  unfold tickConout at h
  split at h
  · cases h
  · rename_i p did hp
    split at h
    · have := after_autoClose h
      exact ⟨this.log, this.exiting⟩
    · simp only [Option.some.injEq] at h; subst h; exact ⟨List.prefix_refl _, id⟩

theorem tickConerr_after {s s' : State} {t : Tick} (h : tickConerr s t = some s') : After s s' := by
  unfold tickConerr at h
  split at h
  · simp only [Option.some.injEq] at h; subst h; exact After.refl s
  · split at h
    · cases h
    · rename_i p did hp
      split at h
      · have := after_autoClose h
        exact ⟨this.log, this.exiting, this.conout⟩
      · simp only [Option.some.injEq] at h; subst h; exact ⟨List.prefix_refl _, id, .inl⟩

theorem onPollTimeout_after {cfg : Cfg} {s s' : State} {e : PollEnv} (hp : Pre s)
    (h : onPollTimeout cfg s e = some s') : After s s' := by
  have hcc : After s (checkChild s e) := by
    unfold checkChild
    split
    · exact ⟨List.prefix_append _ _, id, .inl⟩
    · exact After.refl s
  unfold onPollTimeout at h
  simp only [Option.bind_eq_some_iff] at h
  obtain ⟨s3, h3, s4, h4, h5⟩ := h
  have a3 : After s s3 ∧ Inv s3 := by
    split at h3
    · simp only [Option.bind_eq_some_iff] at h3
      obtain ⟨s2, h2, h3⟩ := h3
      obtain ⟨w1, w2⟩ := writes_title h2
      obtain ⟨x1, x2⟩ := writes_scrape h3
      have i1 := checkChild_inv (e := e) hp.inv
      have i2 : Inv s2 := inv_writes' w1 i1 (by rw [w2]) (output_plain (by simp))
        (fun _ e he => output_notRequest e he)
      have wl := writes_log s2 .scraped (by simp [Silent]) s2.served
      have i3' : Inv { s2 with log := s2.log ++ [.scraped] } := by
        refine inv_writes' (P := fun x => x = .scraped) wl i2 rfl ?_ ?_
        · rintro e rfl; exact ⟨⟨by simp, by simp, by simp, by simp, trivial⟩, by simp⟩
        · rintro _ e rfl; exact id
      exact ⟨hcc.trans ((after_writes w1).trans ((after_writes wl).trans (after_writes x1))),
        inv_writes' x1 i3' x2 (output_plain (by simp)) (fun _ e he => output_notRequest e he)⟩
    · simp only [Option.some.injEq] at h3
      subst h3
      exact ⟨hcc, checkChild_inv hp.inv⟩
  exact a3.1.trans ((after_writes (setMouse_inv a3.2 h4).1).trans (after_autoClose h5))

/-- The steps of a turn after that of the control pipe. -/
theorem tick_tail {cfg : Cfg} {s s' : State} {t : Tick} (hr : Rest s) (hx : s.exiting = false)
    (h : tick cfg s t = some s') :
    ∃ s1, tickControl cfg s t = some s1 ∧ s1.log <+: s'.log ∧ (s1.exiting = true → s'.exiting = true) := by
  unfold tick at h
  simp only [Option.bind_eq_some_iff] at h
  obtain ⟨s1, h1, s2, h2, s3, h3, s4, h4, h5⟩ := h
  have r1 := tickControl_rest hr hx h1
  have r2 := (tickConin_rest r1 h2).1
  have r3 := tickConout_rest r2 h3
  have r4 := tickConerr_rest r3 h4
  have a2 := tickConin_after h2
  have a3 := tickConout_log h3
  have a4 := tickConerr_after h4
  have a5 : After s4 s' := by
    split at h5
    · simp only [Option.some.injEq] at h5; subst h5; exact After.refl _
    · exact onPollTimeout_after r4.pre h5
  exact ⟨s1, h1, a2.log.trans (a3.1.trans (a4.log.trans a5.log)),
    fun hx => a5.exiting (a4.exiting (a3.2 (a2.exiting hx)))⟩

theorem tick_log {cfg : Cfg} {s s' : State} {t : Tick} (hr : Rest s) (hx : s.exiting = false)
    (h : tick cfg s t = some s') : s.log <+: s'.log := by
  obtain ⟨s1, h1, h2, _⟩ := tick_tail hr hx h
  exact (tickControl_after h1).log.trans h2

theorem tick_after {cfg : Cfg} {s s' : State} {t : Tick} (hr : Rest s) (hx : s.exiting = false)
    (hne : NoError t.conout) (h : tick cfg s t = some s') : After s s' := by
  unfold tick at h
  simp only [Option.bind_eq_some_iff] at h
  obtain ⟨s1, h1, s2, h2, s3, h3, s4, h4, h5⟩ := h
  have r1 := tickControl_rest hr hx h1
  have r2 := (tickConin_rest r1 h2).1
  have r3 := tickConout_rest r2 h3
  have r4 := tickConerr_rest r3 h4
  have a5 : After s4 s' := by
    split at h5
    · simp only [Option.some.injEq] at h5; subst h5; exact After.refl _
    · exact onPollTimeout_after r4.pre h5
  exact (tickControl_after h1).trans ((tickConin_after h2).trans ((tickConout_after r2.pre.inv hne h3).trans
    ((tickConerr_after h4).trans a5)))

theorem loop_after {cfg : Cfg} : ∀ (ts : List Tick) {s s' : State}, Rest s → loop cfg s ts = some s' →
    (∀ t ∈ ts, NoError t.conout) → After s s' := by
  intro ts
  induction ts with
  | nil =>
    intro s s' _ h _
    simp only [loop, Option.some.injEq] at h; subst h; exact After.refl s
  | cons t ts ih =>
    intro s s' hr h hne
    simp only [loop] at h
    split at h
    · simp only [Option.some.injEq] at h; subst h; exact After.refl s
    · rename_i hx
      have hx : s.exiting = false := by simpa using hx
      simp only [Option.bind_eq_some_iff] at h
      obtain ⟨s1, h1, h2⟩ := h
      exact (tick_after hr hx (hne t (List.mem_cons_self ..)) h1).trans
        (ih (tick_rest hr hx h1) h2 (fun t' ht' => hne t' (List.mem_cons_of_mem _ ht')))

/-- The client has gone: a read of the control pipe reports an error. -/
theorem tickControl_closed {cfg : Cfg} {s s' : State} {t : Tick} {rest : List NamedPipe.Ans} (hr : Rest s)
    (hx : s.exiting = false) (he : t.control.reads = .error :: rest) (h : tickControl cfg s t = some s') :
    s'.log = s.log ++ [.exit] ∧ s'.exiting = true := by
  have hopen : s.control.pipe.opened = true := by
    cases ho : s.control.pipe.opened with
    | true => rfl
    | false => rw [hr.pre.ctlExit ho] at hx; cases hx
  obtain ⟨rs, m, hi⟩ := hr.pre.inv.ctl
  have h0 : NamedPipe.Inv true true (NamedPipe.osTakes s.control t.control.takes) (controlBytes s.log) rs m := by
    have := NamedPipe.step_inv hi (.osTakes t.control.takes) (NamedPipe.osTakes s.control t.control.takes) []
      (by intro n h; cases h) rfl
    simpa [NamedPipe.wrote, Spec.Pipe.consumes] using this
  unfold tickControl servicePipe at h
  split at h
  · cases h
  · rename_i p did hp
    split at hp
    · cases hp
    · rename_i p1 d1 w1 hs
      simp only [Option.some.injEq, Prod.mk.injEq] at hp
      obtain ⟨rfl, rfl⟩ := hp
      rw [he] at hs
      have hq := NamedPipe.osTakes_pipe s.control t.control.takes
      obtain ⟨g1, g2⟩ := NamedPipe.serviceIo_read_error h0 (by rw [hq]; exact hopen) (by rw [hq]; exact hr.pre.conn)
        (by rw [hq]; exact hr.pre.room hopen) _ _ _ _ _ _ _ hs
      rw [g2] at h
      simp only [if_true] at h
      unfold pollControlPipe at h
      rw [if_pos (by simp [NamedPipe.Pipe.isClosed, g1])] at h
      simp only [Option.some.injEq] at h
      subst h
      exact ⟨rfl, rfl⟩

/-! ## A pipe without a client -/

theorem servicePipe_connecting {rd wr : Bool} {p p' : NamedPipe.State} {ws rs : List Nat} {m : Nat}
    {t : PipeTick} {did : Bool} (hi : NamedPipe.Inv rd wr p ws rs m) (hc : p.pipe.connecting = true)
    (hn : t.conn ≠ .connected) (h : servicePipe p t = some (p', did)) :
    p'.pipe.connecting = true ∧ p'.pipe.opened = true := by
  have ho : p.pipe.opened = true := by
    cases hop : p.pipe.opened with
    | true => rfl
    | false => rw [(hi.wf.closed hop).1] at hc; cases hc
  obtain ⟨c1, c2⟩ := hi.wf.conn hc
  have ht : NamedPipe.osTakes p t.takes = p := by unfold NamedPipe.osTakes; rw [c2]
  unfold servicePipe at h
  rw [ht] at h
  split at h
  · cases h
  · rename_i p1 d1 w1 hs
    simp only [Option.some.injEq, Prod.mk.injEq] at h
    obtain ⟨rfl, rfl⟩ := h
    unfold NamedPipe.serviceIo at hs
    rw [if_neg (by simp [NamedPipe.Pipe.isClosed, ho]), if_pos hc] at hs
    cases hcn : t.conn with
    | connected => exact absurd hcn hn
    | failed => rw [hcn] at hs; cases hs
    | incomplete =>
      rw [hcn] at hs
      have e1 : ∀ a, NamedPipe.service .input p a = some (p, .noProgress) := by
        intro a; unfold NamedPipe.service; simp [NamedPipe.Pipe.worker, c1]
      have e2 : ∀ a, NamedPipe.service .output p a = some (p, .noProgress) := by
        intro a; unfold NamedPipe.service; simp [NamedPipe.Pipe.worker, c2]
      simp only [NamedPipe.serviceWorkers, e1, e2] at hs
      rw [if_neg (by simp)] at hs
      simp only [Option.some.injEq, Prod.mk.injEq] at hs
      obtain ⟨rfl, _, _⟩ := hs
      exact ⟨hc, ho⟩

/-- The CONOUT pipe waits for a client. -/
def Waits (s : State) : Prop := s.conout.pipe.connecting = true ∧ s.conout.pipe.opened = true

theorem waits_writes {P : Entry → Prop} {s s' : State} (h : Writes P s s') (hw : Waits s) : Waits s' := by
  obtain ⟨⟨es, _, _, h3, _⟩, _⟩ := h
  unfold Waits; rw [h3]; exact hw

theorem waits_autoClose {s s' : State} (hw : Waits s) (h : autoClosePipesForShutdown s = some s') : Waits s' := by
  unfold autoClosePipesForShutdown at h
  split at h
  · simp only [Option.bind_eq_some_iff, Option.some.injEq] at h
    obtain ⟨s1, h1, s2, h2, rfl⟩ := h
    have e1 : s1 = s := by
      unfold closeConoutIfDone at h1
      rw [if_neg (by simp [NamedPipe.Pipe.isConnected, NamedPipe.Pipe.isConnecting, hw.1])] at h1
      exact (Option.some.inj h1).symm
    subst e1
    have e2 : s2.conout = s1.conout := by
      unfold closeConerrIfDone at h2
      repeat' split at h2
      all_goals cases h2
      all_goals rfl
    have e3 : (exitIfDone s2).conout = s2.conout := by
      unfold exitIfDone; split <;> rfl
    unfold Waits; rw [e3, e2]; exact hw
  · cases h; exact hw

theorem waits_tick {cfg : Cfg} {s s' : State} {t : Tick} (hr : Rest s) (hx : s.exiting = false)
    (hn : t.conout.conn ≠ .connected) (hw : Waits s) (h : tick cfg s t = some s') : Waits s' := by
  unfold tick at h
  simp only [Option.bind_eq_some_iff] at h
  obtain ⟨s1, h1, s2, h2, s3, h3, s4, h4, h5⟩ := h
  have r1 := tickControl_rest hr hx h1
  obtain ⟨r2, x2⟩ := tickConin_rest r1 h2
  have r3 := tickConout_rest r2 h3
  have r4 := tickConerr_rest r3 h4
  have w1 : Waits s1 := by
    unfold tickControl at h1
    split at h1
    · cases h1
    · rename_i p did hp
      split at h1
      · unfold pollControlPipe at h1
        split at h1
        · simp only [Option.some.injEq] at h1; subst h1; exact hw
        · split at h1
          · cases h1
          · rename_i a ha
            simp only [Option.some.injEq] at h1; subst h1
            have hx := waits_writes (pollLoop_writes _ _ _ _ ha).1 hw
            exact hx
      · simp only [Option.some.injEq] at h1; subst h1; exact hw
  have w2 : Waits s2 := waits_writes x2 w1
  have w3 : Waits s3 := by
    unfold tickConout at h3
    split at h3
    · cases h3
    · rename_i p did hp
      have := servicePipe_connecting r2.pre.inv.out w2.1 hn hp
      have w : Waits { s2 with conout := p } := this
      split at h3
      · exact waits_autoClose w h3
      · simp only [Option.some.injEq] at h3; subst h3; exact w
  have w4 : Waits s4 := by
    unfold tickConerr at h4
    split at h4
    · simp only [Option.some.injEq] at h4; subst h4; exact w3
    · split at h4
      · cases h4
      · split at h4
        · refine waits_autoClose ?_ h4
          exact w3
        · simp only [Option.some.injEq] at h4; subst h4; exact w3
  split at h5
  · simp only [Option.some.injEq] at h5; subst h5; exact w4
  · rename_i e _
    have hcc : Waits (checkChild s4 e) := by
      unfold checkChild; split <;> exact w4
    unfold onPollTimeout at h5
    simp only [Option.bind_eq_some_iff] at h5
    obtain ⟨s5, g3, s6, g4, g5⟩ := h5
    have w5 : Waits s5 ∧ Inv s5 := by
      split at g3
      · simp only [Option.bind_eq_some_iff] at g3
        obtain ⟨sa, ga, gb⟩ := g3
        obtain ⟨y1, y2⟩ := writes_title ga
        obtain ⟨x1, x2⟩ := writes_scrape gb
        have i1 := checkChild_inv (e := e) r4.pre.inv
        have i2 : Inv sa := inv_writes' y1 i1 (by rw [y2]) (output_plain (by simp))
          (fun _ e he => output_notRequest e he)
        have wl := writes_log sa .scraped (by simp [Silent]) sa.served
        have i3' : Inv { sa with log := sa.log ++ [.scraped] } := by
          refine inv_writes' (P := fun x => x = .scraped) wl i2 rfl ?_ ?_
          · rintro e rfl; exact ⟨⟨by simp, by simp, by simp, by simp, trivial⟩, by simp⟩
          · rintro _ e rfl; exact id
        exact ⟨waits_writes x1 (waits_writes wl (waits_writes y1 hcc)),
          inv_writes' x1 i3' x2 (output_plain (by simp)) (fun _ e he => output_notRequest e he)⟩
      · simp only [Option.some.injEq] at g3
        subst g3
        exact ⟨hcc, checkChild_inv r4.pre.inv⟩
    exact waits_autoClose (waits_writes (setMouse_inv w5.2 g4).1 w5.1) g5

theorem waits_loop {cfg : Cfg} : ∀ (ts : List Tick) {s s' : State}, Rest s → loop cfg s ts = some s' →
    (∀ t ∈ ts, t.conout.conn ≠ .connected) → Waits s → Waits s' := by
  intro ts
  induction ts with
  | nil =>
    intro s s' _ h _ hw
    simp only [loop, Option.some.injEq] at h; subst h; exact hw
  | cons t ts ih =>
    intro s s' hr h hne hw
    simp only [loop] at h
    split at h
    · simp only [Option.some.injEq] at h; subst h; exact hw
    · rename_i hx
      have hx : s.exiting = false := by simpa using hx
      simp only [Option.bind_eq_some_iff] at h
      obtain ⟨s1, h1, h2⟩ := h
      exact ih (tick_rest hr hx h1) h2 (fun t' ht' => hne t' (List.mem_cons_of_mem _ ht'))
        (waits_tick hr hx (hne t (List.mem_cons_self ..)) hw h1)

end Winpty.Agent
