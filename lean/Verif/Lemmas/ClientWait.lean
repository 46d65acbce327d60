import Verif.Lemmas.ClientLog

/-! Lemmas about the library's RPC calls: how many answers they need, and the process-list array. -/
namespace Winpty.Client
open Winpty.Spec Winpty.Spec.Client
open Winpty.Buffer (Field Res getInt32 assertEof)

attribute [local irreducible] spawnBody in
theorem call_waiting {cfg : Cfg} {we : Bool} {s : Session} {w w' : World} {c : Call}
    (hv : ValidCall cfg s c) (hw : SaneWorld cfg w) (h : call cfg we s w c = .waiting w') :
    s.connected = true ∧ w'.ios = [] ∧ ∀ i ∈ w.ios, Good i := by
  have rpc : ∀ {α : Type} {body : World → R (Except Exn α)} {Q : Except Exn α → List Event → Prop},
      Traced w Q (body w) → rpcOperation s w body = .waiting w' →
      s.connected = true ∧ w'.ios = [] ∧ ∀ i ∈ w.ios, Good i := by
    intro α body Q ht hr
    unfold rpcOperation at hr
    split at hr
    · rename_i hs
      cases hb : body w <;> rw [hb] at hr ht <;> cases hr
      exact ⟨hs, ht⟩
    · cases hr
  cases c with
  | setSize cols rows =>
    simp only [call, setSize] at h
    by_cases hc : cols > 0 ∧ rows > 0
    · rw [if_pos hc] at h
      split at h <;> cases h
      rename_i _ hr
      exact rpc (setSizeBody_traced cfg cols rows w hw.1 hw.2 hv.1) hr
    · rw [if_neg hc] at h
      cases h
  | processList mem n =>
    simp only [call, getConsoleProcessList] at h
    split at h <;> cases h
    rename_i hr
    simp only [Prod.mk.injEq] at hr
    exact rpc (body := fun w => (processListBody cfg mem n w).2)
      (processListBody_traced cfg mem n w hw.1 hw.2) hr.2
  | spawn sc o =>
    have ht := spawnOuter_traced cfg s sc o w hw.1 hw.2 (hv.2 sc o rfl) hv.1
    simp only [call, spawn] at h
    split at h <;> cases h
    rename_i hr
    simp only [Prod.mk.injEq] at hr
    exact rpc (body := fun w => (spawnBody cfg s sc (resetOut o) w).bind fun r w => .ok (spawnResult r) w)
      ht hr.2

/-! ## How many answers a read needs -/

/-- A read that succeeds brings something. -/
def Progress (ios : List Io) : Prop := ∀ i ∈ ios, Good i → dataOf i ≠ []

theorem readData_answer {w w' : World} {amount : Nat} {d : List Nat} (h : readData w amount = .ok d w') :
    ∃ i, w.ios = i :: w'.ios ∧ Good i ∧ dataOf i = d ∧ d.length ≤ amount := by
  unfold readData overlapped at h
  split at h
  · cases h
  · rename_i x rest hios
    simp only [R.bind] at h
    split at h
    · cases h
    · split at h <;> cases h
      exact ⟨_, hios, rfl, rfl, by assumption⟩
  · rename_i x rest hios
    unfold handlePendingIo at h
    split at h <;> simp only [R.bind] at h <;> try cases h
    split at h
    · cases h
    · split at h <;> cases h
      exact ⟨_, hios, rfl, rfl, by assumption⟩

theorem readData_wait {w w' : World} {amount : Nat} (h : readData w amount = .wait w') : w.ios = [] := by
  unfold readData at h
  cases ho : overlapped w (.read amount) with
  | ok d w1 =>
    rw [ho] at h
    simp only [R.bind] at h
    split at h
    · cases h
    · split at h <;> cases h
  | throw e w1 => rw [ho] at h; cases h
  | abort w1 => rw [ho] at h; cases h
  | wait w1 => exact (overlapped_wait ho).1

theorem readLoop_count (fuel : Nat) : ∀ (w : World) (amount : Nat), Progress w.ios → w.ios.length < fuel →
    (∀ w', readLoop fuel w amount = .wait w' → w.ios.length < amount) ∧
    (∀ d w', readLoop fuel w amount = .ok d w' → ∃ used, w.ios = used ++ w'.ios ∧ used.length ≤ amount) := by
  induction fuel with
  | zero => intro w amount _ h; omega
  | succ fuel ih =>
    intro w amount hp hf
    unfold readLoop
    split
    · rename_i ha
      cases hr : readData w amount with
      | ok d w1 =>
        obtain ⟨i, hi, hg, hd, hle⟩ := readData_answer hr
        have hpos : 0 < d.length := by
          rw [← hd]
          exact List.length_pos_iff.2 (hp i (by rw [hi]; simp) hg)
        have hlen : w.ios.length = w1.ios.length + 1 := by rw [hi]; rfl
        obtain ⟨ih1, ih2⟩ := ih w1 (amount - d.length)
          (fun j hj => hp j (by rw [hi]; exact List.mem_cons_of_mem _ hj)) (by omega)
        simp only [R.bind]
        constructor
        · intro w' h
          cases hl : readLoop fuel w1 (amount - d.length) with
          | wait w2 => have := ih1 w2 hl; omega
          | ok d2 w2 => rw [hl] at h; cases h
          | throw e w2 => rw [hl] at h; cases h
          | abort w2 => rw [hl] at h; cases h
        · intro d' w' h
          cases hl : readLoop fuel w1 (amount - d.length) with
          | wait w2 => rw [hl] at h; cases h
          | ok d2 w2 =>
            rw [hl] at h
            cases h
            obtain ⟨used, e1, e2⟩ := ih2 d2 w' hl
            exact ⟨i :: used, by rw [hi, e1]; rfl, by simp; omega⟩
          | throw e w2 => rw [hl] at h; cases h
          | abort w2 => rw [hl] at h; cases h
      | throw e w1 => exact ⟨(by intro w' h; cases h), (by intro d w' h; cases h)⟩
      | abort w1 => exact ⟨(by intro w' h; cases h), (by intro d w' h; cases h)⟩
      | wait w1 =>
        refine ⟨fun w' _ => ?_, (by intro d w' h; cases h)⟩
        rw [readData_wait hr]
        exact ha
    · refine ⟨(by intro w' h; cases h), ?_⟩
      intro d w' h
      cases h
      exact ⟨[], rfl, by simp⟩

theorem readPacket_wait {cfg : Cfg} {w w' : World} (hp : Progress w.ios) (h8 : 8 ≤ cfg.buffer.sizeMax)
    (h : readPacket cfg w = .wait w') : w.ios.length < cfg.buffer.sizeMax := by
  unfold readPacket at h
  obtain ⟨c1, c2⟩ := readLoop_count (w.ios.length + 1) w 8 hp (by omega)
  cases hr : readAll w 8 with
  | ok sz w1 =>
    rw [hr] at h
    obtain ⟨used, e1, e2⟩ := c2 sz w1 hr
    simp only [R.bind] at h
    split at h
    · cases h
    · split at h
      · have hp1 : Progress w1.ios := fun j hj => hp j (by rw [e1]; exact List.mem_append_right _ hj)
        have := (readLoop_count (w1.ios.length + 1) w1 (Buffer.leNat sz - 8) hp1 (by omega)).1 w' h
        have : w.ios.length = used.length + w1.ios.length := by rw [e1, List.length_append]
        omega
      · cases h
  | throw e w1 => rw [hr] at h; cases h
  | abort w1 => rw [hr] at h; cases h
  | wait w1 => have := c1 w1 hr; omega

theorem writePacket_uses {w w1 : World} {fs : List Field} (h : writePacket w fs = .ok () w1) :
    ∃ a, w.ios = a :: w1.ios := by
  unfold writePacket at h
  split at h
  · cases h
  · unfold writeData overlapped at h
    split at h
    · cases h
    · rename_i x rest hios
      simp only [R.bind] at h
      split at h
      · cases h
      · split at h <;> cases h
        exact ⟨_, hios⟩
    · rename_i x rest hios
      unfold handlePendingIo at h
      split at h <;> simp only [R.bind] at h <;> try cases h
      split at h
      · cases h
      · split at h <;> cases h
        exact ⟨_, hios⟩

theorem writePacket_wait {w w1 : World} {fs : List Field} (h : writePacket w fs = .wait w1) : w.ios = [] := by
  unfold writePacket at h
  split at h
  · cases h
  · unfold writeData at h
    rename_i bytes _
    cases ho : overlapped w (.write bytes) with
    | ok d w2 =>
      rw [ho] at h
      simp only [R.bind] at h
      split at h
      · cases h
      · split at h <;> cases h
    | throw e w2 => rw [ho] at h; cases h
    | abort w2 => rw [ho] at h; cases h
    | wait w2 => exact (overlapped_wait ho).1

theorem exchange_wait {cfg : Cfg} {w w' : World} {fs : List Field} (hp : Progress w.ios.tail)
    (h8 : 8 ≤ cfg.buffer.sizeMax)
    (h : (writePacket w fs).bind (fun _ w => readPacket cfg w) = .wait w') :
    w.ios.length ≤ cfg.buffer.sizeMax := by
  cases hr : writePacket w fs with
  | ok u w1 =>
    rw [hr] at h
    obtain ⟨a, ha⟩ := writePacket_uses hr
    rw [ha] at hp ⊢
    have := readPacket_wait hp h8 h
    simp only [List.length_cons]
    omega
  | throw e w1 => rw [hr] at h; cases h
  | abort w1 => rw [hr] at h; cases h
  | wait w1 => rw [writePacket_wait hr]; simp

theorem R.bind_wait {α β : Type} {r : R α} {f : α → World → R β} {w' : World}
    (hf : ∀ a w1, f a w1 ≠ .wait w') (h : r.bind f = .wait w') : r = .wait w' := by
  cases r with
  | ok a w1 => exact absurd h (hf a w1)
  | throw e w1 => cases h
  | abort w1 => cases h
  | wait w1 => simpa [R.bind] using h

theorem decoded_nowait {α : Type} {cfg : Cfg} {w w' : World} {r : Res α} : decoded cfg w r ≠ .wait w' := by
  cases r <;> exact fun h => by cases h

theorem bind_nowait {α β : Type} {r : R α} {f : α → World → R β} {w' : World} (h : r ≠ .wait w')
    (hf : ∀ a w1, f a w1 ≠ .wait w') : r.bind f ≠ .wait w' := fun he => h (R.bind_wait hf he)

theorem takeHandles_nowait {cfg : Cfg} {w w' : World} {o : SpawnOut} {p t : Int} :
    takeHandles cfg w o p t ≠ .wait w' := by
  unfold takeHandles
  refine bind_nowait ?_ ?_
  · rcases stealHandle_total w (handleFromInt64 cfg p) with ⟨h, w1, e⟩ | ⟨h, w1, e⟩ <;> rw [e] <;>
      exact fun h => by cases h
  · intro hp w1
    rcases stealHandle_total w1 (handleFromInt64 cfg t) with ⟨h, w2, e⟩ | ⟨h, w2, e⟩ <;> rw [e] <;>
      exact fun h => by cases h

theorem ok_nowait {α : Type} {a : α} {w w' : World} : R.ok a w ≠ .wait w' := fun h => by cases h

theorem spawnReply_nowait {cfg : Cfg} {w w' : World} {o : SpawnOut} {reply : List Nat} :
    spawnReply cfg w o reply ≠ .wait w' := by
  unfold spawnReply
  refine bind_nowait decoded_nowait fun r w1 => ?_
  split
  · exact bind_nowait decoded_nowait fun _ _ => bind_nowait decoded_nowait fun _ _ => ok_nowait
  · split
    · exact bind_nowait decoded_nowait fun _ _ => bind_nowait decoded_nowait fun _ _ =>
        bind_nowait decoded_nowait fun _ _ => bind_nowait takeHandles_nowait fun _ _ => ok_nowait
    · exact fun h => by cases h

/-! ## Filling the caller's array -/

theorem fillList_wire (pids : List Int) (hv : ∀ p ∈ pids, -2 ^ 31 ≤ p ∧ p < 2 ^ 31) :
    ∀ (pre : List Nat) (i : Nat) (mem : List Int), i + pids.length ≤ mem.length →
    fillList (pre ++ wire (pids.map Field.int32)) pids.length pre.length i mem =
      some (mem.take i ++ pids ++ mem.drop (i + pids.length),
        .ok () (pre ++ wire (pids.map Field.int32)).length) := by
  induction pids with
  | nil => intro pre i mem _; simp [fillList, wire]
  | cons p ps ih =>
    intro pre i mem hi
    simp only [List.length_cons] at hi
    have hb : pre ++ wire ((p :: ps).map Field.int32) =
        (pre ++ wireField (.int32 p)) ++ wire (ps.map Field.int32) := by
      simp [wire]
    have hg : getInt32 (pre ++ wire ((p :: ps).map Field.int32)) pre.length =
        .ok p (pre ++ wireField (.int32 p)).length := by
      have := Buffer.getField_wire ⟨0, fun _ => true⟩ (pre ++ wire ((p :: ps).map Field.int32)) pre.length
        (.int32 p) (hv p (by simp)) (by simp) (by
          refine ⟨by simp, ?_⟩
          rw [List.drop_left' rfl]
          simp [wire])
      obtain ⟨i, o, h1, h2⟩ := Buffer.bind_ok this
      cases h2
      rw [h1, List.length_append]
    simp only [List.length_cons, fillList]
    rw [hg]
    simp only
    rw [if_pos (by omega)]
    rw [hb, ih (fun q hq => hv q (by simp [hq])) (pre ++ wireField (.int32 p)) (i + 1) (mem.set i p)
      (by simp; omega)]
    congr 2
    rw [List.take_set, List.drop_set_of_lt (by omega)]
    rw [List.take_succ_eq_append_getElem (by omega)]
    rw [List.set_append_right _ _ (by simp; omega)]
    have : min i mem.length = i := by omega
    simp [List.length_take, this]
    congr 1
    omega

end Winpty.Client
