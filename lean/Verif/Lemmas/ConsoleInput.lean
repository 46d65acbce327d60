import Verif.Model.ConsoleInput
import Verif.Lemmas.Unicode
import Verif.Lemmas.DefaultInputMap
/-!
# Lemmas about input scanning: matchers, progress, prefix stability
-/
namespace Winpty.ConsoleInput
open Winpty.Unicode Winpty.InputMap Winpty.Spec

/-- A matcher step reads no byte outside non-empty input, consumes something from the front when it
succeeds (leaving something, if `inner`), and does not change its mind when input is appended. -/
structure Good {α : Type} (inner : Bool) (m : List Nat → MRes α) : Prop where
  safe : ∀ p, p ≠ [] → m p ≠ .overRead
  okStable : ∀ p q a r, m p = .ok a r → m (p ++ q) = .ok a (r ++ q)
  noStable : ∀ p q, p ≠ [] → m p = .noMatch → m (p ++ q) = .noMatch
  suffix : ∀ p a r, m p = .ok a r → ∃ c, c ≠ [] ∧ p = c ++ r
  more : inner = true → ∀ p a r, m p = .ok a r → r ≠ []

theorem Good.bind {α β : Type} {b : Bool} {m : List Nat → MRes α} {f : α → List Nat → MRes β}
    (hm : Good true m) (hf : ∀ a, Good b (f a)) : Good b fun p => (m p).bind f := by
  constructor
  · intro p hp
    have h1 := hm.safe p hp
    cases h : m p with
    | ok a r => exact (hf a).safe r (hm.more rfl p a r h)
    | overRead => exact absurd h h1
    | _ => simp [MRes.bind]
  · intro p q a r h
    cases h' : m p with
    | ok a' r' =>
      simp only [h', MRes.bind] at h
      simp only [hm.okStable p q a' r' h', MRes.bind]
      exact (hf a').okStable r' q a r h
    | _ => simp [h', MRes.bind] at h
  · intro p q hp h
    cases h' : m p with
    | ok a' r' =>
      simp only [h', MRes.bind] at h
      simp only [hm.okStable p q a' r' h', MRes.bind]
      exact (hf a').noStable r' q (hm.more rfl p a' r' h') h
    | noMatch => simp only [hm.noStable p q hp h', MRes.bind]
    | _ => simp [h', MRes.bind] at h
  · intro p a r h
    cases h' : m p with
    | ok a' r' =>
      simp only [h', MRes.bind] at h
      obtain ⟨c1, h1, e1⟩ := hm.suffix p a' r' h'
      obtain ⟨c2, _, e2⟩ := (hf a').suffix r' a r h
      exact ⟨c1 ++ c2, by simp [h1], by rw [e1, e2, List.append_assoc]⟩
    | _ => simp [h', MRes.bind] at h
  · intro hb p a r h
    cases h' : m p with
    | ok a' r' =>
      simp only [h', MRes.bind] at h
      exact (hf a').more hb r' a r h
    | _ => simp [h', MRes.bind] at h

theorem Good.map {α β : Type} {b : Bool} {m : List Nat → MRes α} (g : α → β) (hm : Good b m) :
    Good b fun p => (m p).bind fun a r => .ok (g a) r := by
  constructor
  · intro p hp
    have h1 := hm.safe p hp
    cases h : m p with
    | overRead => exact absurd h h1
    | _ => simp [MRes.bind]
  · intro p q a r h
    cases h' : m p with
    | ok a' r' =>
      simp only [h', MRes.bind, MRes.ok.injEq] at h
      simp only [hm.okStable p q a' r' h', MRes.bind, h]
    | _ => simp [h', MRes.bind] at h
  · intro p q hp h
    cases h' : m p with
    | noMatch => simp only [hm.noStable p q hp h', MRes.bind]
    | _ => simp [h', MRes.bind] at h
  · intro p a r h
    cases h' : m p with
    | ok a' r' =>
      simp only [h', MRes.bind, MRes.ok.injEq] at h
      rw [← h.2]; exact hm.suffix p a' r' h'
    | _ => simp [h', MRes.bind] at h
  · intro hb p a r h
    cases h' : m p with
    | ok a' r' =>
      simp only [h', MRes.bind, MRes.ok.injEq] at h
      rw [← h.2]; exact hm.more hb p a' r' h'
    | _ => simp [h', MRes.bind] at h

theorem good_expect (c : Nat) : Good true (expect c) := by
  constructor
  · intro p hp
    cases p with
    | nil => exact absurd rfl hp
    | cons b r => simp only [expect]; split <;> (try split) <;> simp
  · intro p q a r h
    cases p with
    | nil => simp [expect] at h
    | cons b t =>
      simp only [expect] at h
      split at h
      · split at h
        · simp at h
        · rename_i h1 h2
          simp only [MRes.ok.injEq, true_and] at h
          subst h
          simp [expect, h1, h2]
      · simp at h
  · intro p q hp h
    cases p with
    | nil => exact absurd rfl hp
    | cons b t =>
      simp only [expect] at h
      split at h
      · split at h <;> simp at h
      · rename_i h1; simp [expect, h1]
  · intro p a r h
    cases p with
    | nil => simp [expect] at h
    | cons b t =>
      simp only [expect] at h
      split at h
      · split at h
        · simp at h
        · simp only [MRes.ok.injEq, true_and] at h
          exact ⟨[b], by simp, by rw [h]; rfl⟩
      · simp at h
  · intro _ p a r h
    cases p with
    | nil => simp [expect] at h
    | cons b t =>
      simp only [expect] at h
      split at h
      · split at h
        · simp at h
        · rename_i h2
          simp only [MRes.ok.injEq, true_and] at h
          rw [← h]; exact h2
      · simp at h

theorem good_byteAdvance : Good true byteAdvance := by
  constructor
  · intro p hp
    cases p with
    | nil => exact absurd rfl hp
    | cons b r => simp only [byteAdvance]; split <;> simp
  · intro p q a r h
    cases p with
    | nil => simp [byteAdvance] at h
    | cons b t =>
      simp only [byteAdvance] at h
      split at h
      · simp at h
      · rename_i h2
        simp only [MRes.ok.injEq] at h
        obtain ⟨rfl, rfl⟩ := h
        simp [byteAdvance, h2]
  · intro p q hp h
    cases p with
    | nil => exact absurd rfl hp
    | cons b t =>
      simp only [byteAdvance] at h
      split at h <;> simp at h
  · intro p a r h
    cases p with
    | nil => simp [byteAdvance] at h
    | cons b t =>
      simp only [byteAdvance] at h
      split at h
      · simp at h
      · simp only [MRes.ok.injEq] at h
        exact ⟨[b], by simp, by rw [h.2]; rfl⟩
  · intro _ p a r h
    cases p with
    | nil => simp [byteAdvance] at h
    | cons b t =>
      simp only [byteAdvance] at h
      split at h
      · simp at h
      · rename_i h2
        simp only [MRes.ok.injEq] at h
        rw [← h.2]; exact h2

theorem good_byteFinal : Good false byteFinal := by
  constructor
  · intro p hp
    cases p with
    | nil => exact absurd rfl hp
    | cons b r => simp [byteFinal]
  · intro p q a r h
    cases p with
    | nil => simp [byteFinal] at h
    | cons b t =>
      simp only [byteFinal, MRes.ok.injEq] at h
      obtain ⟨rfl, rfl⟩ := h
      simp [byteFinal]
  · intro p q hp h
    cases p with
    | nil => exact absurd rfl hp
    | cons b t => simp [byteFinal] at h
  · intro p a r h
    cases p with
    | nil => simp [byteFinal] at h
    | cons b t =>
      simp only [byteFinal, MRes.ok.injEq] at h
      exact ⟨[b], by simp, by rw [h.2]; rfl⟩
  · intro h; cases h

theorem good_final (c : Nat) : Good false (final c) := by
  constructor
  · intro p hp
    cases p with
    | nil => exact absurd rfl hp
    | cons b r => simp only [final]; split <;> simp
  · intro p q a r h
    cases p with
    | nil => simp [final] at h
    | cons b t =>
      simp only [final] at h
      split at h
      · rename_i h1
        simp only [MRes.ok.injEq, true_and] at h
        subst h
        simp [final, h1]
      · simp at h
  · intro p q hp h
    cases p with
    | nil => exact absurd rfl hp
    | cons b t =>
      simp only [final] at h
      split at h
      · simp at h
      · rename_i h1; simp [final, h1]
  · intro p a r h
    cases p with
    | nil => simp [final] at h
    | cons b t =>
      simp only [final] at h
      split at h
      · simp only [MRes.ok.injEq, true_and] at h
        exact ⟨[b], by simp, by rw [h]; rfl⟩
      · simp at h
  · intro h; cases h

theorem good_finalMm : Good false finalMm := by
  constructor
  · intro p hp
    cases p with
    | nil => exact absurd rfl hp
    | cons b r => simp only [finalMm]; split <;> simp
  · intro p q a r h
    cases p with
    | nil => simp [finalMm] at h
    | cons b t =>
      simp only [finalMm] at h
      split at h
      · rename_i h1
        simp only [MRes.ok.injEq] at h
        obtain ⟨rfl, rfl⟩ := h
        simp [finalMm, h1]
      · simp at h
  · intro p q hp h
    cases p with
    | nil => exact absurd rfl hp
    | cons b t =>
      simp only [finalMm] at h
      split at h
      · simp at h
      · rename_i h1; simp [finalMm, h1]
  · intro p a r h
    cases p with
    | nil => simp [finalMm] at h
    | cons b t =>
      simp only [finalMm] at h
      split at h
      · simp only [MRes.ok.injEq] at h
        exact ⟨[b], by simp, by rw [h.2]; rfl⟩
      · simp at h
  · intro h; cases h

theorem scanIntLoop_stop {maxLen k acc b : Nat} {r : List Nat} (h : ¬ k + 1 < maxLen) :
    scanIntLoop maxLen k acc (b :: r) = .noMatch := by
  cases r <;> simp [scanIntLoop, h]

theorem good_scanIntLoop (maxLen k acc : Nat) : Good true (scanIntLoop maxLen k acc) := by
  suffices H : ∀ p k acc, (p ≠ [] → scanIntLoop maxLen k acc p ≠ .overRead) ∧
      (∀ q a r, scanIntLoop maxLen k acc p = .ok a r →
        scanIntLoop maxLen k acc (p ++ q) = .ok a (r ++ q)) ∧
      (∀ q, p ≠ [] → scanIntLoop maxLen k acc p = .noMatch → scanIntLoop maxLen k acc (p ++ q) = .noMatch) ∧
      (∀ a r, scanIntLoop maxLen k acc p = .ok a r → (∃ c, c ≠ [] ∧ p = c ++ r) ∧ r ≠ []) by
    exact ⟨fun p => (H p k acc).1, fun p => (H p k acc).2.1, fun p => (H p k acc).2.2.1,
      fun p a r h => ((H p k acc).2.2.2 a r h).1, fun _ p a r h => ((H p k acc).2.2.2 a r h).2⟩
  intro p
  induction p with
  | nil => intro k acc; simp [scanIntLoop]
  | cons b t ih =>
    intro k acc
    by_cases hk : k + 1 < maxLen
    · cases t with
      | nil => simp [scanIntLoop, hk]
      | cons b' t' =>
        by_cases hd : isDigit b' = true
        · obtain ⟨i1, i2, i3, i4⟩ := ih (k + 1) (acc * 10 + (b - 48))
          have e : ∀ q, scanIntLoop maxLen k acc (b :: b' :: t' ++ q) =
              scanIntLoop maxLen (k + 1) (acc * 10 + (b - 48)) (b' :: t' ++ q) := by
            intro q; simp [scanIntLoop, hk, hd]
          have e0 := e []
          rw [List.append_nil, List.append_nil] at e0
          rw [e0]
          refine ⟨fun _ => i1 (by simp), fun q a r h => ?_, fun q _ h => ?_, fun a r h => ?_⟩
          · rw [e]; exact i2 q a r h
          · rw [e]; exact i3 q (by simp) h
          · obtain ⟨⟨c, h1, h2⟩, h3⟩ := i4 a r h
            exact ⟨⟨b :: c, by simp, by rw [h2]; rfl⟩, h3⟩
        · have e : ∀ q, scanIntLoop maxLen k acc (b :: b' :: t' ++ q) =
              .ok (acc * 10 + (b - 48)) (b' :: t' ++ q) := by
            intro q; simp [scanIntLoop, hk, hd]
          have e0 := e []
          rw [List.append_nil, List.append_nil] at e0
          simp only [e0, e]
          refine ⟨by simp, fun q a r h => ?_, by simp, fun a r h => ?_⟩
          · simp only [MRes.ok.injEq] at h
            simp [← h.1, ← h.2]
          · simp only [MRes.ok.injEq] at h
            exact ⟨⟨[b], by simp, by rw [← h.2]; rfl⟩, by rw [← h.2]; simp⟩
    · simp [scanIntLoop_stop hk]

theorem good_scanInt (maxLen : Nat) : Good true (scanInt maxLen) := by
  have g := good_scanIntLoop maxLen 0 0
  constructor
  · intro p hp
    cases p with
    | nil => exact absurd rfl hp
    | cons b r =>
      simp only [scanInt]; split
      · exact g.safe _ (by simp)
      · simp
  · intro p q a r h
    cases p with
    | nil => simp [scanInt] at h
    | cons b t =>
      simp only [scanInt] at h
      split at h
      · rename_i h1
        simp only [scanInt, List.cons_append, h1, ↓reduceIte]
        exact g.okStable _ q a r h
      · simp at h
  · intro p q hp h
    cases p with
    | nil => exact absurd rfl hp
    | cons b t =>
      simp only [scanInt] at h
      split at h
      · rename_i h1
        simp only [scanInt, List.cons_append, h1, ↓reduceIte]
        exact g.noStable _ q (by simp) h
      · rename_i h1; simp [scanInt, h1]
  · intro p a r h
    cases p with
    | nil => simp [scanInt] at h
    | cons b t =>
      simp only [scanInt] at h
      split at h
      · exact g.suffix _ a r h
      · simp at h
  · intro _ p a r h
    cases p with
    | nil => simp [scanInt] at h
    | cons b t =>
      simp only [scanInt] at h
      split at h
      · exact g.more rfl _ a r h
      · simp at h

/-- Choosing between two matchers by the first byte. -/
theorem good_signed (maxLen : Nat) : Good true (scanSignedInt maxLen) := by
  have g1 : Good true fun p => (expect 45 p).bind fun _ r =>
      (scanInt maxLen r).bind fun n rest => MRes.ok (-(n : Int)) rest :=
    (good_expect 45).bind fun _ => (good_scanInt maxLen).map _
  have g2 : Good true fun p => (scanInt maxLen p).bind fun n rest => MRes.ok (n : Int) rest :=
    (good_scanInt maxLen).map _
  have e : ∀ b r, scanSignedInt maxLen (b :: r) = if b = 45 then
      (expect 45 (b :: r)).bind fun _ r =>
        (scanInt maxLen r).bind fun n rest => MRes.ok (-(n : Int)) rest
      else (scanInt maxLen (b :: r)).bind fun n rest => MRes.ok (n : Int) rest := by
    intro b r
    simp only [scanSignedInt, expect]
    by_cases hb : b = 45
    · by_cases hr : r = [] <;> simp [hb, hr, MRes.bind]
    · simp [hb]
  constructor
  · intro p hp
    cases p with
    | nil => exact absurd rfl hp
    | cons b r =>
      rw [e]; split
      · exact g1.safe _ (by simp)
      · exact g2.safe _ (by simp)
  · intro p q a r h
    cases p with
    | nil => simp [scanSignedInt] at h
    | cons b t =>
      rw [e] at h
      rw [List.cons_append, e]
      split at h
      · rename_i h1; rw [if_pos h1]; exact g1.okStable _ q a r h
      · rename_i h1; rw [if_neg h1]; exact g2.okStable _ q a r h
  · intro p q hp h
    cases p with
    | nil => exact absurd rfl hp
    | cons b t =>
      rw [e] at h
      rw [List.cons_append, e]
      split at h
      · rename_i h1; rw [if_pos h1]; exact g1.noStable _ q (by simp) h
      · rename_i h1; rw [if_neg h1]; exact g2.noStable _ q (by simp) h
  · intro p a r h
    cases p with
    | nil => simp [scanSignedInt] at h
    | cons b t =>
      rw [e] at h
      split at h
      · exact g1.suffix _ a r h
      · exact g2.suffix _ a r h
  · intro _ p a r h
    cases p with
    | nil => simp [scanSignedInt] at h
    | cons b t =>
      rw [e] at h
      split at h
      · exact g1.more rfl _ a r h
      · exact g2.more rfl _ a r h

theorem good_matchDsr : Good false matchDsr :=
  (good_expect _).bind fun _ => (good_expect _).bind fun _ => (good_scanInt _).bind fun _ =>
    (good_expect _).bind fun _ => (good_scanInt _).bind fun _ => good_final _

theorem good_matchMouseDefault : Good false matchMouseDefault :=
  (good_expect _).bind fun _ => (good_expect _).bind fun _ => (good_expect _).bind fun _ =>
    good_byteAdvance.bind fun _ => good_byteAdvance.bind fun _ => good_byteFinal.map _

theorem good_matchMouse1006 : Good false matchMouse1006 :=
  (good_expect _).bind fun _ => (good_expect _).bind fun _ => (good_expect _).bind fun _ =>
    (good_scanInt _).bind fun _ => (good_expect _).bind fun _ => (good_signed _).bind fun _ =>
    (good_expect _).bind fun _ => (good_signed _).bind fun _ => good_finalMm.map _

theorem good_matchMouse1015 : Good false matchMouse1015 :=
  (good_expect _).bind fun _ => (good_expect _).bind fun _ =>
    (good_scanInt _).bind fun _ => (good_expect _).bind fun _ => (good_signed _).bind fun _ =>
    (good_expect _).bind fun _ => (good_signed _).bind fun _ => (good_final _).map _

theorem good_matchMouseRecord : Good false matchMouseRecord := by
  have g1 := good_matchMouse1006
  have g2 := good_matchMouse1015
  have g3 := good_matchMouseDefault
  constructor
  · intro p hp
    have s1 := g1.safe p hp
    have s2 := g2.safe p hp
    have s3 := g3.safe p hp
    unfold matchMouseRecord
    cases h1 : matchMouse1006 p <;> simp_all
    cases h2 : matchMouse1015 p <;> simp_all
  · intro p q a r h
    unfold matchMouseRecord at h ⊢
    by_cases hp : p = []
    · subst hp; simp [matchMouse1006, expect, MRes.bind] at h
    cases h1 : matchMouse1006 p with
    | ok a1 r1 =>
      simp only [h1, MRes.ok.injEq] at h
      simp [g1.okStable p q a1 r1 h1, h]
    | noMatch =>
      simp only [h1] at h
      simp only [g1.noStable p q hp h1]
      cases h2 : matchMouse1015 p with
      | ok a1 r1 =>
        simp only [h2, MRes.ok.injEq] at h
        simp [g2.okStable p q a1 r1 h2, h]
      | noMatch =>
        simp only [h2] at h
        simp only [g2.noStable p q hp h2]
        exact g3.okStable p q a r h
      | _ => simp [h2] at h
    | _ => simp [h1] at h
  · intro p q hp h
    unfold matchMouseRecord at h ⊢
    cases h1 : matchMouse1006 p with
    | noMatch =>
      simp only [h1] at h
      simp only [g1.noStable p q hp h1]
      cases h2 : matchMouse1015 p with
      | noMatch =>
        simp only [h2] at h
        simp only [g2.noStable p q hp h2]
        exact g3.noStable p q hp h
      | _ => simp [h2] at h
    | _ => simp [h1] at h
  · intro p a r h
    unfold matchMouseRecord at h
    cases h1 : matchMouse1006 p with
    | ok a1 r1 =>
      simp only [h1, MRes.ok.injEq] at h
      rw [← h.2]; exact g1.suffix p a1 r1 h1
    | noMatch =>
      simp only [h1] at h
      cases h2 : matchMouse1015 p with
      | ok a1 r1 =>
        simp only [h2, MRes.ok.injEq] at h
        rw [← h.2]; exact g2.suffix p a1 r1 h2
      | noMatch => simp only [h2] at h; exact g3.suffix p a r h
      | _ => simp [h2] at h
    | _ => simp [h1] at h
  · intro h; cases h

end Winpty.ConsoleInput
