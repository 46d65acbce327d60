import Verif.Model.StringUtil

/-! # C45: bounded string copies always terminate and never overflow -/
namespace Winpty.StringUtil

theorem padLoop_eq (tail : List Nat) :
    ∀ pre : List Nat, padLoop (pre ++ tail) pre.length tail.length =
      some (pre ++ List.replicate tail.length 0) := by
  induction tail with
  | nil => intro pre; simp [padLoop]
  | cons t ts ih =>
    intro pre
    have hset : store (pre ++ t :: ts) pre.length 0 = some ((pre ++ [0]) ++ ts) := by
      unfold store
      rw [if_pos (by simp)]
      simp
    simp only [List.length_cons, padLoop, hset]
    have := ih (pre ++ [0])
    simp only [List.length_append, List.length_cons, List.length_nil, Nat.zero_add] at this
    rw [this]
    simp [List.replicate_succ]

/-- What the copy loop leaves in the array, the first `pre.length` units having been copied. -/
theorem copyLoop_eq (rest : List Nat) :
    ∀ (str pre tail : List Nat), (∀ c ∈ str, c ≠ 0) →
      copyLoop (pre ++ str ++ 0 :: rest) (pre ++ tail) pre.length tail.length =
        some (pre ++ str.take tail.length ++
          List.replicate (tail.length - str.length) 0) := by
  intro str pre tail
  induction tail generalizing str pre with
  | nil => intro _; simp [copyLoop]
  | cons t ts ih =>
    intro hs
    cases str with
    | nil =>
      simp only [List.length_cons, copyLoop]
      have hg : (pre ++ [] ++ 0 :: rest)[pre.length]? = some 0 := by simp
      rw [hg]
      simp only [if_true]
      have := padLoop_eq (t :: ts) pre
      simp only [List.length_cons] at this
      rw [this]
      simp
    | cons c cs =>
      simp only [List.length_cons, copyLoop]
      have hg : (pre ++ (c :: cs) ++ 0 :: rest)[pre.length]? = some c := by simp
      rw [hg]
      have hc : c ≠ 0 := hs c (List.mem_cons_self ..)
      have hset : store (pre ++ t :: ts) pre.length c = some ((pre ++ [c]) ++ ts) := by
        unfold store
        rw [if_pos (by simp)]
        simp
      simp only [if_neg hc, hset]
      have := ih cs (pre ++ [c]) (fun x hx => hs x (List.mem_cons_of_mem _ hx))
      simp only [List.length_append, List.length_cons, List.length_nil, Nat.zero_add] at this
      have e : pre ++ [c] ++ cs ++ 0 :: rest = pre ++ c :: cs ++ 0 :: rest := by simp
      rw [e] at this
      rw [this]
      simp

/-- A copy out of a longer source needs only its first `N` units. -/
theorem copyLoop_long (tail : List Nat) :
    ∀ (str pre : List Nat), (∀ c ∈ str, c ≠ 0) → tail.length ≤ str.length →
      copyLoop (pre ++ str) (pre ++ tail) pre.length tail.length =
        some (pre ++ str.take tail.length) := by
  induction tail with
  | nil => intro str pre _ _; simp [copyLoop]
  | cons t ts ih =>
    intro str pre hs hl
    cases str with
    | nil => simp at hl
    | cons c cs =>
      simp only [List.length_cons, copyLoop]
      have hg : (pre ++ (c :: cs))[pre.length]? = some c := by simp
      rw [hg]
      have hc : c ≠ 0 := hs c (List.mem_cons_self ..)
      have hset : store (pre ++ t :: ts) pre.length c = some ((pre ++ [c]) ++ ts) := by
        unfold store
        rw [if_pos (by simp)]
        simp
      simp only [if_neg hc, hset]
      have := ih cs (pre ++ [c]) (fun x hx => hs x (List.mem_cons_of_mem _ hx))
        (by simpa using hl)
      simp only [List.length_append, List.length_cons, List.length_nil, Nat.zero_add] at this
      have e : pre ++ [c] ++ cs = pre ++ c :: cs := by simp
      rw [e] at this
      rw [this]
      simp

theorem wcsnlenLoop_eq (rest : List Nat) :
    ∀ (n : Nat) (str pre : List Nat), (∀ c ∈ str, c ≠ 0) →
      wcsnlenLoop (pre ++ str ++ 0 :: rest) pre.length n = some (pre.length + min str.length n) := by
  intro n
  induction n with
  | zero => intro str pre _; simp [wcsnlenLoop]
  | succ n ih =>
    intro str pre hs
    cases str with
    | nil =>
      have hg : (pre ++ [] ++ 0 :: rest)[pre.length]? = some 0 := by simp
      simp [wcsnlenLoop]
    | cons c cs =>
      have hg : (pre ++ (c :: cs) ++ 0 :: rest)[pre.length]? = some c := by simp
      have hc : c ≠ 0 := hs c (List.mem_cons_self ..)
      simp only [wcsnlenLoop, hg, if_neg hc]
      have := ih cs (pre ++ [c]) (fun x hx => hs x (List.mem_cons_of_mem _ hx))
      simp only [List.length_append, List.length_cons, List.length_nil, Nat.zero_add] at this
      have e : pre ++ [c] ++ cs ++ 0 :: rest = pre ++ c :: cs ++ 0 :: rest := by simp
      rw [e] at this
      rw [this]
      simp only [List.length_cons, Option.some.injEq]
      omega

end Winpty.StringUtil

namespace Winpty.Props

open Winpty.StringUtil

/-- C45.  Copying the string `str` (terminated by a NUL unit, whatever follows it in memory) into
an array: the array keeps its size, no unit outside it is written and no unit after the source's
terminator is read (otherwise the outcome would be `none`), and it holds the longest prefix of the
string that fits, followed by NULs only. -/
theorem C45_copy (d str rest : List Nat) (hs : ∀ c ∈ str, c ≠ 0) :
    wcsncpy d (str ++ 0 :: rest) =
      some (str.take d.length ++ List.replicate (d.length - str.length) 0) := by
  have := copyLoop_eq rest str [] d hs
  simpa [wcsncpy] using this

/-- C45.  The result has exactly the size of the array. -/
theorem C45_copy_size (d str rest r : List Nat) (hs : ∀ c ∈ str, c ≠ 0)
    (h : wcsncpy d (str ++ 0 :: rest) = some r) : r.length = d.length := by
  rw [C45_copy d str rest hs] at h
  cases h
  simp only [List.length_append, List.length_take, List.length_replicate]
  omega

/-- C45.  When the source fills the array, only the first `N` units of the source are read: the
source need not even be terminated. -/
theorem C45_copy_no_overread (d str : List Nat) (hs : ∀ c ∈ str, c ≠ 0)
    (hl : d.length ≤ str.length) : wcsncpy d str = some (str.take d.length) := by
  have := copyLoop_long d str [] hs hl
  simpa [wcsncpy] using this

/-- C45.  The terminating variant: the array holds the longest prefix of the string that leaves room
for a terminator, then NULs, at least one. -/
theorem C45_copy_nul (d str rest : List Nat) (hs : ∀ c ∈ str, c ≠ 0) (hd : 0 < d.length) :
    wcsncpyNul d (str ++ 0 :: rest) =
      some (str.take (d.length - 1) ++
        List.replicate (d.length - min str.length (d.length - 1)) 0) := by
  unfold wcsncpyNul
  rw [C45_copy d str rest hs]
  have hlen : (str.take d.length ++ List.replicate (d.length - str.length) 0).length = d.length := by
    simp only [List.length_append, List.length_take, List.length_replicate]
    omega
  simp only [store, hlen]
  rw [if_pos (by omega)]
  congr 1
  by_cases hl : d.length ≤ str.length
  · have e0 : d.length - str.length = 0 := by omega
    rw [e0]
    simp only [List.replicate_zero, List.append_nil]
    have e1 : d.length - min str.length (d.length - 1) = 1 := by omega
    rw [e1]
    apply List.ext_getElem?
    intro i
    simp only [List.getElem?_set, List.length_take, List.getElem?_take, List.getElem?_append,
      List.replicate_one]
    by_cases h1 : d.length - 1 = i
    · subst h1
      rw [if_pos rfl, if_pos (by omega), if_neg (by omega)]
      have : d.length - 1 - min (d.length - 1) str.length = 0 := by omega
      rw [this]; rfl
    · rw [if_neg h1]
      by_cases h2 : i < d.length - 1
      · rw [if_pos (by omega), if_pos (by omega), if_pos (by omega)]
      · rw [if_neg (by omega), if_neg (by omega)]
        symm
        apply List.getElem?_eq_none
        simp only [List.length_cons, List.length_nil]
        omega
  · have e1 : str.take d.length = str := List.take_of_length_le (by omega)
    have e2 : str.take (d.length - 1) = str := List.take_of_length_le (by omega)
    have e3 : min str.length (d.length - 1) = str.length := by omega
    rw [e1, e2, e3]
    apply List.ext_getElem?
    intro i
    simp only [List.getElem?_set, List.getElem?_append, List.getElem?_replicate,
      List.length_append, List.length_replicate]
    by_cases h1 : d.length - 1 = i
    · subst h1
      rw [if_pos rfl, if_pos (by omega), if_neg (by omega), if_pos (by omega)]
    · rw [if_neg h1]

/-- C45.  So the terminating variant always leaves a terminator inside the array. -/
theorem C45_terminated (d str rest r : List Nat) (hs : ∀ c ∈ str, c ≠ 0) (hd : 0 < d.length)
    (h : wcsncpyNul d (str ++ 0 :: rest) = some r) : r.length = d.length ∧ r.getLast? = some 0 := by
  rw [C45_copy_nul d str rest hs hd] at h
  cases h
  constructor
  · simp only [List.length_append, List.length_take, List.length_replicate]
    omega
  · have : d.length - min str.length (d.length - 1) =
        (d.length - min str.length (d.length - 1) - 1) + 1 := by omega
    rw [this, List.replicate_succ']
    rw [← List.append_assoc]
    simp

/-- C45.  The bounded length is the length of the string or the bound, whichever is smaller, and
nothing after the terminator is read. -/
theorem C45_length (str rest : List Nat) (n : Nat) (hs : ∀ c ∈ str, c ≠ 0) :
    wcsnlen (str ++ 0 :: rest) n = some (min str.length n) := by
  have := wcsnlenLoop_eq rest n str [] hs
  simpa [wcsnlen] using this

-- a string that fits, one that is cut, and one that just fits without a terminator
example : wcsncpy [9, 9, 9, 9] [72, 105, 0, 7] = some [72, 105, 0, 0] := by decide
example : wcsncpy [9, 9] [72, 105, 33, 0] = some [72, 105] := by decide
example : wcsncpyNul [9, 9] [72, 105, 33, 0] = some [72, 0] := by decide
example : wcsncpyNul [9, 9, 9] [72, 105, 0] = some [72, 105, 0] := by decide
example : wcsnlen [72, 105, 0, 7] 9 = some 2 := by decide
-- an unterminated source that is too short is undefined behaviour
example : wcsncpy [9, 9, 9] [72, 105] = none := by decide

end Winpty.Props
