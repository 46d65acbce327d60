import Verif.Model.DebugClient

/-! # C50: debug flags are matched as whole comma-separated words -/
namespace Winpty.Spec.Debug

/-- The words written with a comma between each and the next. -/
def commaSeparated : List (List Nat) → List Nat
  | [] => []
  | [w] => w
  | w :: ws => w ++ 44 :: commaSeparated ws

/-- `w` is one of the comma-separated words of `s`. -/
def IsWordOf (w s : List Nat) : Prop :=
  ∃ ws, s = commaSeparated ws ∧ (∀ x ∈ ws, 44 ∉ x) ∧ w ∈ ws

end Winpty.Spec.Debug

namespace Winpty.DebugClient

open Winpty.Spec.Debug

theorem contains_iff (hay needle : List Nat) :
    contains hay needle = true ↔ ∃ a b, hay = a ++ needle ++ b := by
  induction hay with
  | nil =>
    simp only [contains, List.isPrefixOf_iff_prefix]
    constructor
    · rintro ⟨b, hb⟩; exact ⟨[], b, by simpa using hb.symm⟩
    · rintro ⟨a, b, h⟩
      have h' := h.symm
      simp only [List.append_eq_nil_iff] at h'
      rw [h'.1.2]
      exact ⟨[], rfl⟩
  | cons c cs ih =>
    simp only [contains]
    by_cases hp : needle.isPrefixOf (c :: cs) = true
    · rw [if_pos hp]
      obtain ⟨b, hb⟩ := List.isPrefixOf_iff_prefix.mp hp
      exact ⟨fun _ => ⟨[], b, by simpa using hb.symm⟩, fun _ => rfl⟩
    · rw [if_neg hp, ih]
      constructor
      · rintro ⟨a, b, h⟩; exact ⟨c :: a, b, by rw [h]; simp⟩
      · rintro ⟨a, b, h⟩
        cases a with
        | nil =>
          exact absurd (List.isPrefixOf_iff_prefix.mpr ⟨b, by simpa using h.symm⟩) hp
        | cons x a =>
          simp only [List.cons_append, List.cons.injEq] at h
          exact ⟨a, b, h.2⟩

/-- A comma before each word. -/
theorem commaSeparated_cons (ws : List (List Nat)) (h : ws ≠ []) :
    44 :: commaSeparated ws = ws.flatMap (fun w => 44 :: w) := by
  induction ws with
  | nil => exact absurd rfl h
  | cons w ws ih =>
    cases ws with
    | nil => simp [commaSeparated]
    | cons v vs =>
      have := ih (by simp)
      simp only [commaSeparated, List.flatMap_cons] at this ⊢
      rw [this]
      simp

theorem commaSeparated_append (as bs : List (List Nat)) (ha : as ≠ []) (hb : bs ≠ []) :
    commaSeparated (as ++ bs) = commaSeparated as ++ 44 :: commaSeparated bs := by
  have h1 := commaSeparated_cons (as ++ bs) (by simp [ha])
  rw [List.flatMap_append, ← commaSeparated_cons as ha, ← commaSeparated_cons bs hb] at h1
  simpa using h1

/-- Every string is made of words. -/
theorem exists_words (s : List Nat) :
    ∃ ws, ws ≠ [] ∧ s = commaSeparated ws ∧ ∀ x ∈ ws, 44 ∉ x := by
  induction s with
  | nil => exact ⟨[[]], by simp, rfl, by simp⟩
  | cons c cs ih =>
    obtain ⟨ws, hne, he, hc⟩ := ih
    by_cases h : c = 44
    · subst h
      refine ⟨[] :: ws, by simp, ?_, ?_⟩
      · have := commaSeparated_append [[]] ws (by simp) hne
        simp only [List.singleton_append] at this
        rw [this, ← he]
        simp [commaSeparated]
      · intro x hx
        rcases List.mem_cons.mp hx with rfl | hx
        · simp
        · exact hc x hx
    · cases ws with
      | nil => exact absurd rfl hne
      | cons w ws =>
        refine ⟨(c :: w) :: ws, by simp, ?_, ?_⟩
        · rw [he]
          cases ws <;> simp [commaSeparated]
        · intro x hx
          rcases List.mem_cons.mp hx with rfl | hx
          · have := hc w (List.mem_cons_self ..)
            simp only [List.mem_cons, not_or]
            exact ⟨fun e => h e.symm, this⟩
          · exact hc x (List.mem_cons_of_mem _ hx)

theorem infix_iff_word (s w : List Nat) (hw : 44 ∉ w) :
    (∃ a b, 44 :: (s ++ [44]) = a ++ (44 :: (w ++ [44])) ++ b) ↔ IsWordOf w s := by
  constructor
  · rintro ⟨a, b, h⟩
    -- what follows the word: nothing, or a comma and more words
    have hb : ∃ b', b = [] ∨ b = b' ++ [44] := by
      rcases List.eq_nil_or_concat b with h0 | ⟨b', x, h0⟩
      · exact ⟨[], Or.inl h0⟩
      · have h' : b = b' ++ [x] := by simpa using h0
        refine ⟨b', Or.inr ?_⟩
        rw [h'] at h
        have hl := congrArg List.getLast? h
        have e1 : (44 :: (s ++ [44])).getLast? = some 44 := by
          rw [← List.cons_append]; exact List.getLast?_concat
        have e2 : (a ++ (44 :: (w ++ [44])) ++ (b' ++ [x])).getLast? = some x := by
          rw [← List.append_assoc]; exact List.getLast?_concat
        rw [e1, e2] at hl
        simp only [Option.some.injEq] at hl
        rw [h', hl]
    obtain ⟨b', hb⟩ := hb
    obtain ⟨wb, hwb, eb, cb⟩ := exists_words b'
    cases a with
    | nil =>
      simp only [List.nil_append, List.cons_append, List.cons.injEq, true_and] at h
      rcases hb with rfl | rfl
      · have : s = w := by simpa using h
        subst this
        exact ⟨[s], rfl, by simpa using hw, by simp⟩
      · have : s = w ++ 44 :: b' := by
          have h2 : s ++ [44] = (w ++ 44 :: b') ++ [44] := by rw [h]; simp
          exact List.append_cancel_right h2
        refine ⟨w :: wb, ?_, ?_, by simp⟩
        · have := commaSeparated_append [w] wb (by simp) hwb
          simp only [List.singleton_append] at this
          rw [this, ← eb]
          simpa [commaSeparated] using ‹s = w ++ 44 :: b'›
        · intro x hx
          rcases List.mem_cons.mp hx with rfl | hx
          · exact hw
          · exact cb x hx
    | cons y a =>
      simp only [List.cons_append, List.cons.injEq] at h
      obtain ⟨wa, hwa, ea, ca⟩ := exists_words a
      rcases hb with rfl | rfl
      · have h2 : s ++ [44] = (a ++ 44 :: w) ++ [44] := by rw [h.2]; simp
        have h3 := List.append_cancel_right h2
        refine ⟨wa ++ [w], ?_, ?_, by simp⟩
        · rw [commaSeparated_append wa [w] hwa (by simp), ← ea, h3]
          rfl
        · intro x hx
          rcases List.mem_append.mp hx with hx | hx
          · exact ca x hx
          · rw [List.mem_singleton.mp hx]; exact hw
      · have h2 : s ++ [44] = (a ++ 44 :: (w ++ 44 :: b')) ++ [44] := by rw [h.2]; simp
        have h3 := List.append_cancel_right h2
        refine ⟨wa ++ ([w] ++ wb), ?_, ?_, by simp⟩
        · rw [commaSeparated_append wa _ hwa (by simp),
            commaSeparated_append [w] wb (by simp) hwb, ← ea, ← eb, h3]
          simp [commaSeparated]
        · intro x hx
          simp only [List.mem_append, List.mem_singleton] at hx
          rcases hx with hx | rfl | hx
          · exact ca x hx
          · exact hw
          · exact cb x hx
  · rintro ⟨ws, hs', hc, hmem⟩
    have hne : ws ≠ [] := fun e => by rw [e] at hmem; exact absurd hmem (by simp)
    obtain ⟨l, r, hlr⟩ := List.append_of_mem hmem
    have h1 := commaSeparated_cons ws hne
    rw [← hs', hlr, List.flatMap_append, List.flatMap_cons] at h1
    cases r with
    | nil =>
      refine ⟨l.flatMap (fun w => 44 :: w), [], ?_⟩
      rw [← List.cons_append, h1]
      simp
    | cons v r =>
      refine ⟨l.flatMap (fun w => 44 :: w), v ++ r.flatMap (fun w => 44 :: w) ++ [44], ?_⟩
      rw [← List.cons_append, h1]
      simp

end Winpty.DebugClient

namespace Winpty.Props

open Winpty.DebugClient Winpty.Spec.Debug

/-- C50.  For a value of `WINPTY_DEBUG` of at most 255 characters: a feature is on exactly when its
name is one of the comma-separated words of the value. -/
theorem C50_flag_is_word (value flag : List Nat) (hv : value.length ≤ 255)
    (hf : flag ≠ []) (hc : 44 ∉ flag) :
    ∃ r, hasDebugFlag (some value) flag = some r ∧ (r = true ↔ IsWordOf flag value) := by
  unfold hasDebugFlag
  have h1 : flag.contains comma = false := by
    rw [Bool.eq_false_iff]
    intro h
    exact hc (by simpa [comma] using h)
  rw [h1]
  by_cases h0 : value.length = 0
  · have hv0 : value = [] := List.eq_nil_of_length_eq_zero h0
    subst hv0
    refine ⟨false, by simp [getDebugConfig], ?_⟩
    constructor
    · intro h; exact absurd h (by decide)
    · intro h
      have := (infix_iff_word [] flag hc).mpr h
      obtain ⟨a, b, h⟩ := this
      have hl := congrArg List.length h
      cases flag with
      | nil => exact absurd rfl hf
      | cons x xs =>
        simp only [List.length_append, List.length_cons, List.length_nil] at hl
        omega
  · have hg : getDebugConfig (some value) = value := by
      unfold getDebugConfig
      simp only
      rw [if_neg (by omega)]
    rw [hg]
    simp only [Bool.false_eq_true, if_false, if_neg h0]
    refine ⟨_, rfl, ?_⟩
    rw [contains_iff]
    simpa [comma] using infix_iff_word value flag hc

/-- C50.  With the variable unset, or longer than the 255 characters that are supported, no feature
is on. -/
theorem C50_otherwise_off (env : Option (List Nat)) (flag : List Nat) (hc : 44 ∉ flag)
    (h : ∀ v, env = some v → 255 < v.length) : hasDebugFlag env flag = some false := by
  unfold hasDebugFlag
  have h1 : flag.contains comma = false := by
    rw [Bool.eq_false_iff]
    intro h
    exact hc (by simpa [comma] using h)
  have h2 : getDebugConfig env = [] := by
    unfold getDebugConfig
    cases env with
    | none => rfl
    | some v =>
      simp only
      rw [if_pos (Or.inr (by have := h v rfl; omega))]
  rw [h1, h2]
  simp

-- "trace,input": `input` is on, `put` and `trace,in` are not words of it
example : IsWordOf [105, 110] [116, 44, 105, 110] :=
  ⟨[[116], [105, 110]], rfl, by decide, by decide⟩
example : hasDebugFlag (some [116, 44, 105, 110]) [105, 110] = some true := by decide
example : hasDebugFlag (some [116, 44, 105, 110]) [105] = some false := by decide
example : hasDebugFlag (some [116, 44, 105, 110]) [44] = none := by decide

end Winpty.Props
