import Verif.Props.NamedPipe

/-! # More about `serviceIo`: turns without progress, and pipe errors -/
namespace Winpty.NamedPipe

/-- What a turn without progress leaves alone. -/
def SameQueues (s s' : State) : Prop :=
  s'.pipe.inQueue = s.pipe.inQueue ∧ s'.pipe.readBufferSize = s.pipe.readBufferSize ∧
  s'.pipe.opened = s.pipe.opened ∧ s'.pipe.connecting = s.pipe.connecting ∧
  bytesToSend s'.pipe = bytesToSend s.pipe ∧ s'.os.received = s.os.received

theorem SameQueues.refl (s : State) : SameQueues s s := ⟨rfl, rfl, rfl, rfl, rfl, rfl⟩

theorem SameQueues.trans {a b c : State} (h : SameQueues a b) (g : SameQueues b c) : SameQueues a c :=
  ⟨g.1.trans h.1, g.2.1.trans h.2.1, g.2.2.1.trans h.2.2.1, g.2.2.2.1.trans h.2.2.2.1,
    g.2.2.2.2.1.trans h.2.2.2.2.1, g.2.2.2.2.2.trans h.2.2.2.2.2⟩

theorem iterate_input_stop (s s' : State) (a : Option Ans) (e : Bool)
    (h : iterate .input s a = .stop s' e) : SameQueues s s' := by
  unfold iterate at h
  split at h
  · cases h; exact SameQueues.refl s
  · rename_i w hw
    simp only [shouldIssueIo] at h
    split at h
    · cases h
    · cases h; exact SameQueues.refl s
    · rename_i s1 size hs1
      have : s1 = s := by
        repeat' split at hs1
        all_goals first | (cases hs1; rfl) | cases hs1
      subst this
      split at h
      · cases h
      · split at h
        · cases h; exact ⟨rfl, rfl, rfl, rfl, rfl, rfl⟩
        · split at h
          · cases h
          · cases h
        · cases h; exact ⟨rfl, rfl, rfl, rfl, rfl, rfl⟩

theorem iterate_output_stop (s s' : State) (a : Option Ans)
    (hp : ∀ w, s.pipe.output = some w → w.pending = false)
    (h : iterate .output s a = .stop s' false) : SameQueues s s' := by
  unfold iterate at h
  split at h
  · cases h; exact SameQueues.refl s
  · rename_i w hw
    simp only [shouldIssueIo] at h
    have hw' : s.pipe.output = some w := hw
    have hpw := hp w hw'
    split at h
    · cases h
    · cases h; exact SameQueues.refl s
    · rename_i s1 size hs1
      split at hs1
      · cases hs1
        simp only [Pipe.worker] at h
        split at h
        · cases h
        · split at h <;> cases h
        · cases h
          refine ⟨rfl, rfl, rfl, rfl, ?_, rfl⟩
          simp only [bytesToSend, Pipe.setWorker, if_true, hw', hpw, List.length_drop]
          split
          · simp only [Option.some.injEq]
            simp
            omega
          · rfl
      · cases hs1

theorem serviceLoop_noProgress (side : Side) : ∀ (ans : List Ans) (s s' : State) (p : Bool),
    serviceLoop side s p ans = some (s', .noProgress) →
    p = false ∧ ∃ a, iterate side s a = .stop s' false := by
  intro ans
  induction ans with
  | nil =>
    intro s s' p h
    simp only [serviceLoop] at h
    split at h
    · cases h
    · rename_i s1 e hi
      simp only [Option.some.injEq, Prod.mk.injEq] at h
      obtain ⟨rfl, h⟩ := h
      cases e <;> cases p <;> simp at h
      exact ⟨rfl, _, hi⟩
    · simp at h
  | cons a as ih =>
    intro s s' p h
    simp only [serviceLoop] at h
    split at h
    · cases h
    · rename_i s1 e hi
      simp only [Option.some.injEq, Prod.mk.injEq] at h
      obtain ⟨rfl, h⟩ := h
      cases e <;> cases p <;> simp at h
      exact ⟨rfl, _, hi⟩
    · have := ih _ _ _ h
      cases this.1

theorem service_noProgress (side : Side) (s s' : State) (ans : List Ans)
    (h : service side s ans = some (s', .noProgress)) : SameQueues s s' := by
  unfold service at h
  split at h
  · cases h; exact SameQueues.refl s
  · rename_i w hw
    split at h
    · split at h
      · split at h
        · cases h
        · have := serviceLoop_noProgress _ _ _ _ _ h
          cases this.1
      · cases h
      · cases h; exact SameQueues.refl s
    · rename_i hp
      obtain ⟨_, a, hi⟩ := serviceLoop_noProgress _ _ _ _ _ h
      cases side with
      | input => exact iterate_input_stop s s' a _ hi
      | output =>
        refine iterate_output_stop s s' a ?_ hi
        intro w' hw'
        have hw2 : s.pipe.output = some w := hw
        rw [hw2] at hw'
        cases hw'
        simpa using hp

/-- A turn in which nothing happened left the queues, the connection and the amount to send alone. -/
theorem serviceIo_idle (s s' : State) (conn : ConnectAns) (ra wa : List Ans) (k : Nat)
    (waits : List WaitOn) (h : serviceIo s conn ra wa k = some (s', false, waits)) : SameQueues s s' := by
  have key : ∀ (ws : List WaitOn) (jc : Bool), serviceWorkers s jc ws ra wa k = some (s', false, waits) →
      SameQueues s s' := by
    intro ws jc h
    unfold serviceWorkers at h
    split at h
    · cases h
    · rename_i s1 r hr
      split at h
      · cases h
      · rename_i s2 w hw
        split at h
        · simp at h
        · rename_i hne
          simp only [Option.some.injEq, Prod.mk.injEq] at h
          obtain ⟨rfl, h, _⟩ := h
          rw [not_or] at hne
          cases r <;> cases w <;> simp at h hne
          exact (service_noProgress _ _ _ _ hr).trans (service_noProgress _ _ _ _ hw)
  unfold serviceIo at h
  split at h
  · cases h; exact SameQueues.refl s
  · split at h
    · cases conn with
      | failed => cases h
      | incomplete => exact key _ _ h
      | connected =>
        simp only at h
        unfold serviceWorkers at h
        split at h
        · cases h
        · split at h
          · cases h
          · split at h
            · simp at h
            · simp only [Option.some.injEq, Prod.mk.injEq] at h
              simp at h
    · exact key _ _ h

/-! ## Errors -/

theorem iterate_noError (side : Side) (s s' : State) (a : Option Ans) (ha : a ≠ some .error)
    (h : iterate side s a = .stop s' true) : False := by
  unfold iterate at h
  split at h
  · cases h
  · split at h
    · cases h
    · cases h
    · split at h
      · cases h
      · split at h
        · exact ha rfl
        · split at h <;> cases h
        · cases h

theorem serviceLoop_noError (side : Side) : ∀ (ans : List Ans) (s s' : State) (p : Bool),
    Ans.error ∉ ans → serviceLoop side s p ans ≠ some (s', .error) := by
  intro ans
  induction ans with
  | nil =>
    intro s s' p _ h
    simp only [serviceLoop] at h
    split at h
    · cases h
    · rename_i s1 e hi
      cases e
      · cases p <;> simp at h
      · exact iterate_noError side s s1 none (by simp) hi
    · simp at h
  | cons a as ih =>
    intro s s' p hn h
    simp only [serviceLoop] at h
    split at h
    · cases h
    · rename_i s1 e hi
      cases e
      · cases p <;> simp at h
      · exact iterate_noError side s s1 _ (by simp only [List.mem_cons, not_or] at hn; simpa using fun h => hn.1 h.symm) hi
    · exact ih _ _ _ (fun hm => hn (List.mem_cons_of_mem _ hm)) h

theorem service_noError (side : Side) (s s' : State) (ans : List Ans) (hn : Ans.error ∉ ans) :
    service side s ans ≠ some (s', .error) := by
  intro h
  unfold service at h
  split at h
  · simp at h
  · split at h
    · split at h
      · split at h
        · cases h
        · exact serviceLoop_noError _ _ _ _ _ (fun hm => hn (List.mem_cons_of_mem _ hm)) h
      · exact hn (List.mem_cons_self ..)
      · simp at h
    · exact serviceLoop_noError _ _ _ _ _ hn h

/-- One worker never closes the pipe. -/
theorem service_opened {rd wr : Bool} {s : State} {ws rs : List Nat} {m : Nat}
    (hi : Inv rd wr s ws rs m) (hopen : s.pipe.opened = true) (ra wa : List Ans) (k : Nat)
    (jc : Bool) (waits waits' : List WaitOn) (s' : State) (b : Bool)
    (hne : Ans.error ∉ ra ∧ Ans.error ∉ wa)
    (h : serviceWorkers s jc waits ra wa k = some (s', b, waits')) : s'.pipe.opened = true := by
  obtain ⟨s1, r, e1, o1, b1, z1, i1, n1, p1⟩ := service_input s ra rs m hi.inp hi.sized (by
    intro hs
    have hnc : s.pipe.connecting = false := by
      cases hcc : s.pipe.connecting with
      | false => rfl
      | true => rw [(hi.wf.conn hcc).1] at hs; simp at hs
    refine ⟨hnc, hopen, ?_⟩
    rw [hi.wf.readMode, ← hi.wf.inp hopen hnc]; exact hs)
  have out1 : OutInv s1 ws := outInv_same o1 (hi.out hopen)
  unfold serviceWorkers at h
  rw [e1] at h
  simp only at h
  cases e2 : service .output s1 wa with
  | none => rw [e2] at h; simp at h
  | some x =>
    obtain ⟨s2, r2⟩ := x
    rw [e2] at h
    simp only at h
    obtain ⟨q1, q2, q3, q4, q5⟩ := service_output s1 wa ws s2 r2 out1 e2
    rw [if_neg (by
      rintro (hr | hr)
      · subst hr; exact service_noError _ _ _ _ hne.1 e1
      · subst hr; exact service_noError _ _ _ _ hne.2 e2)] at h
    simp only [Option.some.injEq, Prod.mk.injEq] at h
    obtain ⟨rfl, _, _⟩ := h
    rw [q2.1, b1.1]; exact hopen

/-- Without an error reported by the system, `serviceIo` does not close the pipe. -/
theorem serviceIo_stays_open {rd wr : Bool} {s : State} {ws rs : List Nat} {m : Nat}
    (hi : Inv rd wr s ws rs m) (hopen : s.pipe.opened = true) (conn : ConnectAns) (ra wa : List Ans) (k : Nat)
    (s' : State) (b : Bool) (waits' : List WaitOn) (hne : Ans.error ∉ ra ∧ Ans.error ∉ wa)
    (h : serviceIo s conn ra wa k = some (s', b, waits')) : s'.pipe.opened = true := by
  unfold serviceIo at h
  rw [if_neg (by simp [Pipe.isClosed, hopen])] at h
  by_cases hc : s.pipe.connecting = true
  · rw [if_pos hc] at h
    cases conn with
    | failed => simp at h
    | incomplete => exact service_opened hi hopen ra wa k _ _ _ s' b hne h
    | connected => exact service_opened (start_inv hi hopen hc) hopen ra wa k _ _ _ s' b hne h
  · rw [if_neg hc] at h
    exact service_opened hi hopen ra wa k _ _ _ s' b hne h

/-- If the system fails the read in progress (or the next one, when there is room for one), the pipe
is closed and this is reported. -/
theorem serviceIo_read_error {wr : Bool} {s : State} {ws rs : List Nat} {m : Nat}
    (hi : Inv true wr s ws rs m) (hopen : s.pipe.opened = true) (hc : s.pipe.connecting = false)
    (hroom : s.pipe.inQueue.length < s.pipe.readBufferSize) (conn : ConnectAns) (ra wa : List Ans) (k : Nat)
    (s' : State) (b : Bool) (waits' : List WaitOn)
    (h : serviceIo s conn (.error :: ra) wa k = some (s', b, waits')) :
    s'.pipe.opened = false ∧ b = true := by
  have hrd : s.pipe.reading = true := hi.wf.readMode
  obtain ⟨w, hw⟩ := Option.isSome_iff_exists.1 (hi.wf.inp hopen hc)
  have e1 : ∃ s1, service .input s (.error :: ra) = some (s1, .error) ∧ s1.pipe.opened = true := by
    unfold service
    simp only [Pipe.worker, hw]
    split
    · exact ⟨s, rfl, hopen⟩
    · have hno : ¬ s.pipe.isClosed = true := by simp [Pipe.isClosed, hopen]
      have hnc : ¬ s.pipe.isConnecting = true := by simp [Pipe.isConnecting, hc]
      have : ∃ s1, iterate .input s (some .error) = .stop s1 true ∧ s1.pipe.opened = true := by
        unfold iterate
        simp only [Pipe.worker, hw, shouldIssueIo, if_neg hno, if_neg hnc, hrd, hroom, if_true, Bool.not_true,
          Bool.false_eq_true, if_false, hw]
        exact ⟨_, rfl, hopen⟩
      obtain ⟨s1, h1, h2⟩ := this
      refine ⟨s1, ?_, h2⟩
      simp only [serviceLoop, h1, if_true]
  obtain ⟨s1, e1, ho1⟩ := e1
  unfold serviceIo at h
  rw [if_neg (by simp [Pipe.isClosed, hopen]), if_neg (by simp [hc])] at h
  unfold serviceWorkers at h
  rw [e1] at h
  simp only at h
  split at h
  · cases h
  · rw [if_pos (by simp)] at h
    simp only [Option.some.injEq, Prod.mk.injEq] at h
    obtain ⟨rfl, rfl, _⟩ := h
    refine ⟨?_, rfl⟩
    unfold closePipe
    split
    · rename_i hcl; simpa [Pipe.isClosed] using hcl
    · rfl

/-- Everything written has been passed on if nothing is left to send. -/
theorem Inv.nothing_left {rd : Bool} {s : State} {ws rs : List Nat} {m : Nat}
    (hi : Inv rd true s ws rs m) (ho : s.pipe.opened = true) (hz : bytesToSend s.pipe = some 0) :
    s.os.wire = ws := by
  obtain ⟨h1, h2⟩ := hi.out ho
  simp only [bytesToSend, hi.wf.writeMode, if_true, Option.some.injEq] at hz
  have hq : s.pipe.outQueue = [] := List.length_eq_zero_iff.1 (by omega)
  have hw : s.os.wire = s.os.given := by
    unfold OutOk at h2
    cases hw : s.pipe.output with
    | none => rw [hw] at h2; exact h2
    | some w =>
      rw [hw] at h2 hz
      by_cases hp : w.pending = true
      · simp only [hp, if_true] at h2 hz
        obtain ⟨_, _, h5, b, h6, h7⟩ := h2
        have : w.currentIoSize = 0 := by omega
        rw [h6, h7, this, show s.os.taken = 0 by omega]
      · simpa [hp] using h2
  rw [hw, ← h1, hq, List.append_nil]

end Winpty.NamedPipe

namespace Winpty.NamedPipe

theorem serviceWorkers_frame {rd wr : Bool} {s : State} {ws rs : List Nat} {m : Nat}
    (hi : Inv rd wr s ws rs m) (hopen : s.pipe.opened = true) (ra wa : List Ans) (k : Nat)
    (jc : Bool) (waits waits' : List WaitOn) (s' : State) (b : Bool)
    (h : serviceWorkers s jc waits ra wa k = some (s', b, waits')) :
    s'.pipe.readBufferSize = s.pipe.readBufferSize ∧
    (s.pipe.connecting = false → s'.pipe.connecting = false) := by
  obtain ⟨s1, r, e1, o1, b1, z1, i1, n1, p1⟩ := service_input s ra rs m hi.inp hi.sized (by
    intro hs
    have hnc : s.pipe.connecting = false := by
      cases hcc : s.pipe.connecting with
      | false => rfl
      | true => rw [(hi.wf.conn hcc).1] at hs; simp at hs
    refine ⟨hnc, hopen, ?_⟩
    rw [hi.wf.readMode, ← hi.wf.inp hopen hnc]; exact hs)
  have out1 : OutInv s1 ws := outInv_same o1 (hi.out hopen)
  unfold serviceWorkers at h
  rw [e1] at h
  simp only at h
  cases e2 : service .output s1 wa with
  | none => rw [e2] at h; simp at h
  | some x =>
    obtain ⟨s2, r2⟩ := x
    rw [e2] at h
    simp only at h
    obtain ⟨q1, q2, q3, q4, q5⟩ := service_output s1 wa ws s2 r2 out1 e2
    split at h
    · simp only [Option.some.injEq, Prod.mk.injEq] at h
      obtain ⟨rfl, _, _⟩ := h
      have op2 : s2.pipe.opened = true := by rw [q2.1, b1.1]; exact hopen
      have e : closePipe s2 k = { (osTakes s2 k) with pipe := { s2.pipe with
          opened := false, connecting := false, input := none, output := none } } := by
        simp [closePipe, Pipe.isClosed, op2, osTakes_pipe]
      rw [e]
      exact ⟨q2.2.2.2.2.trans b1.2.2.2.2, fun _ => rfl⟩
    · simp only [Option.some.injEq, Prod.mk.injEq] at h
      obtain ⟨rfl, _, _⟩ := h
      exact ⟨q2.2.2.2.2.trans b1.2.2.2.2, fun hc => by rw [q2.2.1, b1.2.1]; exact hc⟩

theorem serviceIo_frame {rd wr : Bool} {s : State} {ws rs : List Nat} {m : Nat}
    (hi : Inv rd wr s ws rs m) (conn : ConnectAns) (ra wa : List Ans) (k : Nat)
    (s' : State) (b : Bool) (waits' : List WaitOn)
    (h : serviceIo s conn ra wa k = some (s', b, waits')) :
    s'.pipe.readBufferSize = s.pipe.readBufferSize ∧
    (s.pipe.connecting = false → s'.pipe.connecting = false) ∧
    (s.pipe.opened = false → s' = s ∧ b = false) := by
  unfold serviceIo at h
  by_cases ho : s.pipe.opened = true
  · rw [if_neg (by simp [Pipe.isClosed, ho])] at h
    have hcl : ∀ P : Prop, s.pipe.opened = false → P := fun P hh => by rw [ho] at hh; cases hh
    by_cases hc : s.pipe.connecting = true
    · rw [if_pos hc] at h
      refine ⟨?_, (fun hh => by rw [hc] at hh; cases hh), hcl _⟩
      cases conn with
      | failed => simp at h
      | incomplete => exact (serviceWorkers_frame hi ho ra wa k false _ _ s' b h).1
      | connected => exact (serviceWorkers_frame (start_inv hi ho hc) ho ra wa k true _ _ s' b h).1
    · rw [if_neg hc] at h
      obtain ⟨h1, h2⟩ := serviceWorkers_frame hi ho ra wa k false _ _ s' b h
      exact ⟨h1, h2, hcl _⟩
  · rw [if_pos (by simpa [Pipe.isClosed] using ho)] at h
    simp only [Option.some.injEq, Prod.mk.injEq] at h
    obtain ⟨rfl, rfl, _⟩ := h
    exact ⟨rfl, id, fun _ => ⟨rfl, rfl⟩⟩

end Winpty.NamedPipe
