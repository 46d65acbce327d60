import Verif.Lemmas.ClientSpawn

/-! Lemmas about the library's RPC calls: the control pipe is closed only at the end of a failed call. -/
namespace Winpty.Client
open Winpty.Spec Winpty.Spec.Client
open Winpty.Buffer (Field Res)

/-- The world a computation ends in. -/
def R.world {α : Type} : R α → World
  | .ok _ w | .throw _ w | .abort w | .wait w => w

/-- The computation only adds to the log, and does not close the control pipe. -/
def Open (w : World) {α : Type} (r : R α) : Prop := ∃ es, r.world.log = w.log ++ es ∧ Event.closePipe ∉ es

theorem open_bind {α β : Type} {w : World} {r : R α} {f : α → World → R β} (h : Open w r)
    (hf : ∀ a w', Open w' (f a w')) : Open w (r.bind f) := by
  cases r with
  | ok a w1 =>
    obtain ⟨e1, a1, a2⟩ := h
    obtain ⟨e2, b1, b2⟩ := hf a w1
    refine ⟨e1 ++ e2, ?_, by simp [a2, b2]⟩
    simp only [R.bind]
    rw [b1]
    simp only [R.world] at a1
    rw [a1, List.append_assoc]
  | throw e w1 => exact h
  | abort w1 => exact h
  | wait w1 => exact h

theorem open_here {α : Type} {w : World} {r : R α} {es : List Event} (h : r.world = w.add es)
    (he : Event.closePipe ∉ es) : Open w r := ⟨es, by rw [h]; rfl, he⟩

theorem open_pure {α : Type} {w : World} {r : R α} (h : r.world.log = w.log) : Open w r :=
  ⟨[], by simp [h], by simp⟩

theorem overlapped_open (w : World) (ev : Event) (h : ev ≠ .closePipe) : Open w (overlapped w ev) := by
  have h' := h.symm
  unfold overlapped
  split
  · exact ⟨[ev], rfl, by simp [h']⟩
  · exact ⟨[ev], rfl, by simp [h']⟩
  · unfold handlePendingIo
    split
    · exact ⟨[ev, .pending, .reaped], by simp [World.add, R.world], by simp [h']⟩
    · exact ⟨[ev, .pending, .cancel, .reaped], by simp [World.add, R.world], by simp [h']⟩
    · exact ⟨[ev, .pending, .cancel, .reaped], by simp [World.add, R.world], by simp [h']⟩
    · exact ⟨[ev, .pending, .cancel, .reaped], by simp [World.add, R.world], by simp [h']⟩
    · exact ⟨[ev, .pending], by simp [World.add, R.world], by simp [h']⟩

theorem writePacket_open (w : World) (fs : List Field) : Open w (writePacket w fs) := by
  unfold writePacket
  split
  · exact open_pure rfl
  · unfold writeData
    refine open_bind (overlapped_open w _ (by simp)) ?_
    intro d w'
    split
    · exact open_pure rfl
    · split <;> exact open_here rfl (by simp)

theorem readData_open (w : World) (n : Nat) : Open w (readData w n) := by
  unfold readData
  refine open_bind (overlapped_open w _ (by simp)) ?_
  intro d w'
  split
  · exact open_pure rfl
  · split
    · exact open_here rfl (by simp)
    · exact open_pure rfl

theorem readLoop_open (fuel : Nat) : ∀ (w : World) (n : Nat), Open w (readLoop fuel w n) := by
  induction fuel with
  | zero => intro w n; exact open_pure rfl
  | succ fuel ih =>
    intro w n
    unfold readLoop
    split
    · exact open_bind (readData_open w n) fun _ w1 => open_bind (ih w1 _) fun _ w2 => open_pure rfl
    · exact open_pure rfl

theorem readPacket_open (cfg : Cfg) (w : World) : Open w (readPacket cfg w) := by
  unfold readPacket
  refine open_bind (readLoop_open _ w 8) ?_
  intro sz w1
  split
  · exact open_pure rfl
  · split
    · exact readLoop_open _ w1 _
    · exact open_pure rfl

theorem decoded_open {α : Type} (cfg : Cfg) (w : World) (r : Res α) : Open w (decoded cfg w r) := by
  cases r <;> exact open_pure rfl

theorem stealHandle_open (w : World) (remote : Int) : Open w (stealHandle w remote) := by
  unfold stealHandle
  split
  · exact open_pure rfl
  · split
    · exact open_pure rfl
    · exact ⟨[.steal remote _], rfl, by simp⟩
    · exact open_pure rfl

theorem dropHandle_open (w : World) (h : Int) : ∃ es, (dropHandle w h).log = w.log ++ es ∧ Event.closePipe ∉ es := by
  unfold dropHandle
  split
  · exact ⟨[], by simp, by simp⟩
  · exact ⟨_, rfl, by simp⟩

theorem takeHandles_open (cfg : Cfg) (w : World) (o : SpawnOut) (p t : Int) :
    Open w (takeHandles cfg w o p t) := by
  unfold takeHandles
  refine open_bind (stealHandle_open w _) ?_
  intro hp w1
  obtain ⟨es, h1, h2⟩ := stealHandle_open w1 (handleFromInt64 cfg t)
  generalize stealHandle w1 (handleFromInt64 cfg t) = r at *
  cases r with
  | ok ht w2 =>
    have : ∃ es, (if o.thread.isSome then w2 else dropHandle w2 ht).log = w2.log ++ es ∧ Event.closePipe ∉ es := by
      split
      · exact ⟨[], by simp, by simp⟩
      · exact dropHandle_open w2 ht
    obtain ⟨e2, k1, k2⟩ := this
    obtain ⟨e3, m1, m2⟩ := dropHandle_open (if o.thread.isSome then w2 else dropHandle w2 ht)
      (if o.process.isSome then 0 else hp)
    refine ⟨es ++ e2 ++ e3, ?_, by simp [h2, k2, m2]⟩
    simp only [R.world] at h1 ⊢
    rw [m1, k1, h1]
    simp
  | throw e w2 =>
    obtain ⟨e3, m1, m2⟩ := dropHandle_open w2 hp
    refine ⟨es ++ e3, ?_, by simp [h2, m2]⟩
    simp only [R.world] at h1 ⊢
    rw [m1, h1]
    simp
  | abort w2 => exact ⟨es, h1, h2⟩
  | wait w2 => exact ⟨es, h1, h2⟩

theorem spawnReply_open (cfg : Cfg) (w : World) (o : SpawnOut) (reply : List Nat) :
    Open w (spawnReply cfg w o reply) := by
  unfold spawnReply
  refine open_bind (decoded_open cfg w _) fun r w1 => ?_
  split
  · exact open_bind (decoded_open cfg w1 _) fun _ w2 => open_bind (decoded_open cfg w2 _) fun _ _ => open_pure rfl
  · split
    · exact open_bind (decoded_open cfg w1 _) fun _ w2 => open_bind (decoded_open cfg w2 _) fun _ w3 =>
        open_bind (decoded_open cfg w3 _) fun _ w4 => open_bind (takeHandles_open cfg w4 _ _ _) fun _ _ => open_pure rfl
    · exact open_pure rfl

theorem spawnBody_open (cfg : Cfg) (s : Session) (c : SpawnConfig) (o : SpawnOut) (w : World) :
    Open w (spawnBody cfg s c o w) := by
  unfold spawnBody
  exact open_bind (writePacket_open w _) fun _ w1 => open_bind (readPacket_open cfg w1) fun _ w2 =>
    spawnReply_open cfg w2 _ _

theorem setSizeBody_open (cfg : Cfg) (cols rows : Int) (w : World) : Open w (setSizeBody cfg cols rows w) := by
  unfold setSizeBody
  exact open_bind (writePacket_open w _) fun _ w1 => open_bind (readPacket_open cfg w1) fun _ w2 =>
    open_bind (decoded_open cfg w2 _) fun _ _ => open_pure rfl

theorem processListBody_open (cfg : Cfg) (mem : List Int) (n : Int) (w : World) :
    Open w (processListBody cfg mem n w).2 := by
  have h : Open w ((writePacket w [.int32 2]).bind fun _ w => readPacket cfg w) :=
    open_bind (writePacket_open w _) fun _ w1 => readPacket_open cfg w1
  unfold processListBody
  obtain ⟨es, h1, h2⟩ := h
  generalize (writePacket w [.int32 2]).bind (fun _ w => readPacket cfg w) = r at *
  cases r with
  | ok reply w1 =>
    simp only
    split
    · exact ⟨es, h1, h2⟩
    · rename_i mem' x _
      obtain ⟨e2, k1, k2⟩ := open_bind (decoded_open cfg w1 x)
        (f := fun (c : Int × Nat) w => R.ok (Except.ok (ε := Exn) c.1) w) (fun _ _ => open_pure rfl)
      refine ⟨es ++ e2, ?_, by simp [h2, k2]⟩
      rw [k1]
      simp only [R.world] at h1
      rw [h1, List.append_assoc]
  | throw e w1 => exact ⟨es, h1, h2⟩
  | abort w1 => exact ⟨es, h1, h2⟩
  | wait w1 => exact ⟨es, h1, h2⟩

/-- What an operation adds to the log: the pipe is closed exactly if it goes from connected to
disconnected, and then at the very end. -/
def EndsLog (s s' : Session) (w w' : World) : Prop :=
  (s' = s ∧ ∃ es, w'.log = w.log ++ es ∧ Event.closePipe ∉ es ∧ (s.connected = false → es = [])) ∨
  (s.connected = true ∧ s' = { s with connected := false } ∧
    ∃ es, w'.log = w.log ++ es ++ [.closePipe] ∧ Event.closePipe ∉ es)

theorem rpc_log {α : Type} {s : Session} {w : World} {body : World → R (Except Exn α)}
    (hb : Open w (body w)) :
    match rpcOperation s w body with
    | .returned _ s' w' => EndsLog s s' w w'
    | .aborted w' => EndsLog s s w w'
    | .waiting w' => EndsLog s s w w' := by
  unfold rpcOperation
  split
  · rename_i r s' w' h
    split at h
    · rename_i hs
      obtain ⟨es, h1, h2⟩ := hb
      generalize body w = b at *
      cases b with
      | ok a w1 => cases h; exact .inl ⟨rfl, es, h1, h2, by simp [hs]⟩
      | throw e w1 =>
        cases h
        simp only [R.world] at h1
        exact .inr ⟨hs, rfl, es, by simp [World.add, h1], h2⟩
      | abort w1 => cases h
      | wait w1 => cases h
    · cases h
      exact .inl ⟨rfl, [], by simp, by simp, by simp⟩
  · rename_i w' h
    split at h
    · rename_i hs
      obtain ⟨es, h1, h2⟩ := hb
      generalize body w = b at *
      cases b <;> cases h
      exact .inl ⟨rfl, es, h1, h2, by simp [hs]⟩
    · cases h
  · rename_i w' h
    split at h
    · rename_i hs
      obtain ⟨es, h1, h2⟩ := hb
      generalize body w = b at *
      cases b <;> cases h
      exact .inl ⟨rfl, es, h1, h2, by simp [hs]⟩
    · cases h

theorem call_log (cfg : Cfg) (we : Bool) (s : Session) (w : World) (c : Call) :
    match call cfg we s w c with
    | .returned _ s' w' => EndsLog s s' w w'
    | .aborted _ w' => EndsLog s s w w'
    | .waiting w' => EndsLog s s w w' := by
  have same : EndsLog s s w w := .inl ⟨rfl, [], by simp, by simp, by simp⟩
  cases c with
  | setSize cols rows =>
    have h := rpc_log (s := s) (setSizeBody_open cfg cols rows w)
    simp only [call, setSize]
    by_cases hc : cols > 0 ∧ rows > 0
    · simp only [if_pos hc]
      generalize rpcOperation s w (setSizeBody cfg cols rows) = x at *
      cases x <;> exact h
    · simp only [if_neg hc]
      exact same
  | processList mem n =>
    have h := rpc_log (s := s) (body := fun w => (processListBody cfg mem n w).2) (processListBody_open cfg mem n w)
    simp only [call, getConsoleProcessList]
    generalize rpcOperation s w (fun w => (processListBody cfg mem n w).2) = x at *
    generalize (if s.connected = true then (processListBody cfg mem n w).fst else some mem) = y
    cases y with
    | none => exact same
    | some m => cases x <;> exact h
  | spawn sc o =>
    have h := rpc_log (s := s)
      (body := fun w => (spawnBody cfg s sc (resetOut o) w).bind fun r w => .ok (spawnResult r) w)
      (open_bind (spawnBody_open cfg s sc (resetOut o) w) fun _ _ => open_pure rfl)
    simp only [call, spawn]
    generalize rpcOperation s w (fun w =>
      (spawnBody cfg s sc (resetOut o) w).bind fun r w => .ok (spawnResult r) w) = x at *
    cases x <;> exact h

end Winpty.Client
