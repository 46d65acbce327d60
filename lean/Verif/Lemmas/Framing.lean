import Verif.Model.Framing
import Verif.Spec.Frame
import Verif.Lemmas.Buffer

namespace Winpty.Framing
open Winpty.Buffer Winpty.Spec

variable {σ : Type}

/-- What is observable of a run: handler state, bytes kept, aborted or not (the read-buffer limit is
left out). -/
def Run.view : Run σ → σ × Option (List Nat)
  | .running a => (a.handler, some a.inQueue)
  | .aborted s => (s, none)

theorem pollLoop_view_rbs (sm : Nat) (h : σ → List Nat → Option σ) (s : σ) (q : List Nat) (r1 r2 : Nat) :
    (pollLoop sm h s q r1).view = (pollLoop sm h s q r2).view := by
  induction hl : q.length using Nat.strongRecOn generalizing s q with
  | ind n ih =>
    subst hl
    rw [pollLoop, pollLoop]
    split
    · rfl
    · split
      · rfl
      · split
        · rfl
        · split
          · rfl
          · exact ih _ (by rw [List.length_drop]; omega) _ _ rfl

theorem arrive_view (sm : Nat) (h : σ → List Nat → Option σ) (r1 r2 : Run σ) (c : List Nat)
    (hv : r1.view = r2.view) : (arrive sm h r1 c).view = (arrive sm h r2 c).view := by
  cases r1 <;> cases r2 <;> simp [Run.view] at hv
  · simp only [arrive]; rw [hv.1, hv.2]; exact pollLoop_view_rbs ..
  · simp only [arrive, hv]

theorem take8_append (q c : List Nat) (h : 8 ≤ q.length) : (q ++ c).take 8 = q.take 8 := by
  rw [List.take_append_of_le_length h]

/-- Polling after the first part and again after the second is polling once on both. -/
theorem pollLoop_append (sm : Nat) (h : σ → List Nat → Option σ) (s : σ) (q c : List Nat) (rbs : Nat) :
    (arrive sm h (pollLoop sm h s q rbs) c).view = (pollLoop sm h s (q ++ c) rbs).view := by
  induction hl : q.length using Nat.strongRecOn generalizing s q with
  | ind n ih =>
    subst hl
    rw [pollLoop]
    split
    · rfl
    · rename_i h8
      split
      · rename_i hn
        rw [pollLoop, dif_neg (by rw [List.length_append]; omega), take8_append _ _ (by omega), dif_pos hn]
        rfl
      · rename_i hn
        split
        · simp only [arrive]; exact pollLoop_view_rbs ..
        · rename_i hle
          conv => rhs; rw [pollLoop, dif_neg (by rw [List.length_append]; omega),
              take8_append _ _ (by omega), dif_neg hn, if_neg (by rw [List.length_append]; omega),
              List.take_append_of_le_length (by omega)]
          split
          · rfl
          · rw [List.drop_append_of_le_length (by omega)]
            exact ih _ (by rw [List.length_drop]; omega) _ _ rfl

theorem arrivals_view (sm : Nat) (h : σ → List Nat → Option σ) (r1 r2 : Run σ) (cs : List (List Nat))
    (hv : r1.view = r2.view) : (arrivals sm h r1 cs).view = (arrivals sm h r2 cs).view := by
  induction cs generalizing r1 r2 with
  | nil => exact hv
  | cons c cs ih => exact ih _ _ (arrive_view sm h r1 r2 c hv)

theorem arrive_arrive (sm : Nat) (h : σ → List Nat → Option σ) (r : Run σ) (c d : List Nat) :
    (arrive sm h (arrive sm h r c) d).view = (arrive sm h r (c ++ d)).view := by
  cases r with
  | running a => simp only [arrive]; rw [← List.append_assoc]; exact pollLoop_append ..
  | aborted s => rfl

/-- Splitting the stream does not matter. -/
theorem arrivals_cons_view (sm : Nat) (h : σ → List Nat → Option σ) (r : Run σ) (c : List Nat) (cs : List (List Nat)) :
    (arrivals sm h r (c :: cs)).view = (arrive sm h r (c :: cs).flatten).view := by
  induction cs generalizing r c with
  | nil => simp [arrivals]
  | cons d cs ih =>
    show (arrivals sm h (arrive sm h r c) (d :: cs)).view = _
    rw [ih, arrive_arrive]; simp

theorem leNat_digits (n v : Nat) (h : v < 256 ^ n) : leNat (digits256 n v) = v := by
  rw [← leBytes_digits, leNat_leBytes, Nat.mod_eq_of_lt h]

theorem isPacket_size {sm : Nat} {p : List Nat} (hp : IsPacket sm p) : leNat (p.take 8) = p.length := by
  rw [hp.2.2.2, leNat_digits _ _ (by have := hp.2.2.1; omega)]

theorem pollLoop_packet (sm : Nat) (h : σ → List Nat → Option σ) (s : σ) (p q : List Nat) (rbs : Nat)
    (hp : IsPacket sm p) :
    pollLoop sm h s (p ++ q) rbs =
      match h s p with
      | none => .aborted s
      | some s' => pollLoop sm h s' q rbs := by
  have hsz := isPacket_size hp
  have h8 := hp.1
  have hsm := hp.2.1
  conv => lhs; rw [pollLoop, dif_neg (by rw [List.length_append]; omega), take8_append _ _ h8, hsz,
      dif_neg (by omega), if_neg (by rw [List.length_append]; omega)]
  cases hh : h s p <;> simp [hh]

theorem pollLoop_packets (sm : Nat) (h : σ → List Nat → Option σ) (s : σ) (ps : List (List Nat))
    (q : List Nat) (rbs : Nat) (hp : ∀ p ∈ ps, IsPacket sm p) :
    pollLoop sm h s (ps.flatten ++ q) rbs =
      if (handleAll h s ps).2 then pollLoop sm h (handleAll h s ps).1 q rbs
      else .aborted (handleAll h s ps).1 := by
  induction ps generalizing s with
  | nil => simp [handleAll]
  | cons p ps ih =>
    rw [List.flatten_cons, List.append_assoc, pollLoop_packet sm h s p _ rbs (hp p (by simp))]
    simp only [handleAll]
    by_cases hh : h s p = none
    · simp [hh]
    · obtain ⟨s', hs'⟩ := Option.ne_none_iff_exists'.1 hh
      simp only [hs']
      exact ih s' fun p' hp' => hp p' (List.mem_cons_of_mem _ hp')

theorem pollLoop_incomplete (sm : Nat) (h : σ → List Nat → Option σ) (s : σ) (r : List Nat) (rbs : Nat)
    (hr : IsIncomplete sm r) : (pollLoop sm h s r rbs).view = (s, some r) := by
  obtain ⟨p, hp, hlt, hpre⟩ := hr
  rw [pollLoop]
  split
  · rfl
  · have : leNat (r.take 8) = p.length := by
      rw [← isPacket_size hp, ← hpre, List.take_take, Nat.min_eq_left (by omega)]
    rw [this]
    have := hp.1; have := hp.2.1
    rw [dif_neg (by omega), if_pos hlt]; rfl

/-- The read-buffer limit always exceeds what is buffered, so the pipe keeps reading. -/
theorem pollLoop_room (sm : Nat) (h : σ → List Nat → Option σ) (s : σ) (q : List Nat) (rbs : Nat)
    (h8 : 8 ≤ rbs) (a : Agent σ) (ha : pollLoop sm h s q rbs = .running a) :
    a.inQueue.length < a.readBufferSize ∧ 8 ≤ a.readBufferSize := by
  induction hl : q.length using Nat.strongRecOn generalizing s q with
  | ind n ih =>
    subst hl
    rw [pollLoop] at ha
    split at ha
    · cases ha; exact ⟨by simpa using by omega, h8⟩
    · split at ha
      · cases ha
      · split at ha
        · cases ha
          constructor
          · dsimp only; split <;> omega
          · dsimp only; split <;> omega
        · split at ha
          · cases ha
          · exact ih _ (by rw [List.length_drop]; omega) _ _ ha rfl

/-! ## Client -/

theorem readData_cons (b : Nat) (bs : List Nat) (g : List Nat) (amount : Nat) :
    readData ⟨b :: bs, g⟩ amount = .ok ((b :: bs).take (min amount (max 1 (g.headD 0))))
      ⟨(b :: bs).drop (min amount (max 1 (g.headD 0))), g.tail⟩ := rfl

theorem readAllFuel_eq (fuel : Nat) (p : Pipe) (amount : Nat) (hf : amount ≤ fuel) :
    if amount ≤ p.bytes.length then
      ∃ g, readAllFuel fuel p amount = .ok (p.bytes.take amount) ⟨p.bytes.drop amount, g⟩
    else readAllFuel fuel p amount = .ioError := by
  induction fuel generalizing p amount with
  | zero =>
    obtain rfl : amount = 0 := by omega
    rw [if_pos (by omega)]
    exact ⟨p.grants, by simp [readAllFuel]⟩
  | succ fuel ih =>
    obtain ⟨bs, g⟩ := p
    by_cases h0 : amount = 0
    · subst h0
      rw [if_pos (by omega)]
      exact ⟨g, by simp [readAllFuel]⟩
    · cases bs with
      | nil =>
        rw [if_neg (by simpa using h0)]
        simp [readAllFuel, readData, Nat.pos_of_ne_zero h0]
      | cons b bs =>
        simp only [readAllFuel, if_pos (Nat.pos_of_ne_zero h0), readData_cons]
        generalize hk : min amount (max 1 (g.headD 0)) = k
        generalize hL : b :: bs = L
        have hLl : 0 < L.length := by rw [← hL]; simp
        have hk1 : 1 ≤ k := by omega
        have hk2 : k ≤ amount := by omega
        have hlen : (L.take k).length = min k L.length := List.length_take ..
        have := ih ⟨L.drop k, g.tail⟩ (amount - (L.take k).length) (by omega)
        simp only [List.length_drop] at this
        by_cases hc : amount ≤ L.length
        · rw [if_pos (by simpa using hc)]
          rw [if_pos (by omega)] at this
          obtain ⟨g', hg'⟩ := this
          refine ⟨g', ?_⟩
          rw [hg', hlen, Nat.min_eq_left (by omega)]
          simp only [List.drop_drop, CRes.ok.injEq, Pipe.mk.injEq, and_true]
          have hak : amount = k + (amount - k) := by omega
          refine ⟨?_, ?_⟩
          · conv => rhs; rw [hak, List.take_add]
          · congr 1; omega
        · rw [if_neg (by simpa using hc)]
          rw [if_neg (by omega)] at this
          rw [this]

theorem readAll_eq (p : Pipe) (amount : Nat) :
    if amount ≤ p.bytes.length then
      ∃ g, readAll p amount = .ok (p.bytes.take amount) ⟨p.bytes.drop amount, g⟩
    else readAll p amount = .ioError := readAllFuel_eq amount p amount (Nat.le_refl _)

end Winpty.Framing
