import Verif.Lemmas.ErrorObject

/-!
# C82: error objects

For every history of calls and of uses of their error objects, and whichever allocations succeed.
-/
namespace Winpty.Props

open Winpty.ErrorObject Winpty.Spec.ErrorObject
open Winpty.Client (Exn)

/-- C82.  A program that uses an error only between the call that gave it and its `winpty_error_free` never makes
the library use or free memory that is not its own, and never fails an assertion; the history runs to its end, with
one answer for every operation. -/
theorem C82_safe (env : Env) (ops : List Op) (hp : Proper ops) :
    ∃ s answers, run env start ops = some (s, answers) ∧ answers.length = ops.length := by
  obtain ⟨s, _, ans, _, h1, _, _, h4, _⟩ := run_inv env ops [] start [] (inv_start env) hp
  exact ⟨s, ans, h1, h4⟩

/-- C82.  What an error says does not change until it is freed, and it is the documented code and text of what went
wrong in its call, or - only if memory ran out - that memory ran out.  (A call that an exception leaves has given no
error: `C82_throws_partial`.) -/
theorem C82_says (env : Env) (ops : List Op) (hp : Proper ops) (s : State) (answers : List Answer)
    (hr : run env start ops = some (s, answers)) :
    ∃ says : Nat → Nat × String,
      (∀ i n : Nat, ops[i]? = some (.code n) → answers[i]? = some (.code (says n).1)) ∧
      (∀ i n : Nat, ops[i]? = some (.msg n) → answers[i]? = some (.text (says n).2)) ∧
      ∀ n e, (calls ops)[n]? = some (e, true) → s.got[n]? ≠ some .threw →
        says n = documented e ∨ says n = noMemory ∧ ∃ k, env.mem k = false := by
  obtain ⟨s', l, ans, _, h1, h2, _, h4, h5⟩ := run_inv env ops [] start [] (inv_start env) hp
  rw [h1] at hr
  cases hr
  simp only [List.nil_append] at h2 h5
  refine ⟨said (calls ops) s.got, ?_, ?_, fun n e hn => h2.says n e true hn rfl⟩
  · intro i n hi
    obtain ⟨hlt, _⟩ := List.getElem?_eq_some_iff.1 hi
    have ha : answers[i]? = some answers[i] := List.getElem?_eq_getElem (by omega)
    have := h5 i _ _ hi ha
    simp only [Right] at this
    rw [ha, this]
  · intro i n hi
    obtain ⟨hlt, _⟩ := List.getElem?_eq_some_iff.1 hi
    have ha : answers[i]? = some answers[i] := List.getElem?_eq_getElem (by omega)
    have := h5 i _ _ hi ha
    simp only [Right] at this
    rw [ha, this]

/-- C82.  Nothing leaks: once every error has been freed, no block is left, provided that no call was left by an
exception.  A call whose caller passes no place for the error leaves nothing to be freed. -/
theorem C82_no_leak (env : Env) (ops : List Op) (hp : Proper ops) (s : State) (answers : List Answer)
    (hr : run env start ops = some (s, answers)) (ht : Back.threw ∉ s.got)
    (hf : ∀ (n : Nat) e, (calls ops)[n]? = some (some e, true) → Op.free n ∈ ops) (a : Nat) :
    s.heap.blocks a = none := by
  obtain ⟨s', l, ans, _, h1, h2, _, h4, h5⟩ := run_inv env ops [] start [] (inv_start env) hp
  rw [h1] at hr
  cases hr
  rw [List.nil_append] at h2
  cases hb : s.heap.blocks a with
  | none => rfl
  | some b =>
    obtain ⟨⟨m, t⟩, k1, _⟩ := h2.only a (by rw [hb]; simp)
    cases m with
    | none => exact absurd (h2.leaked t k1) ht
    | some n =>
      obtain ⟨k2, k3⟩ := h2.kept n t k1
      exact absurd (hf n _ (h2.asked n t.a k2).choose_spec) k3

/-- C82.  An exception leaves a call only if memory has run out; otherwise every call returns (and by `C82_says` the
error of a failing call is then exactly the documented one). -/
theorem C82_throws_partial (env : Env) (ops : List Op) (hp : Proper ops) (s : State) (answers : List Answer)
    (hr : run env start ops = some (s, answers)) (hm : ∀ k, env.mem k = true) : Back.threw ∉ s.got := by
  obtain ⟨s', l, ans, _, h1, h2, _, h4, h5⟩ := run_inv env ops [] start [] (inv_start env) hp
  rw [h1] at hr
  cases hr
  intro ht
  obtain ⟨k, hk⟩ := h2.threw ht
  rw [hm] at hk
  cases hk

/-- The claim that fails: a call always returns, with an error if it failed. -/
def AlwaysReturns (env : Env) : Prop :=
  ∀ ops, Proper ops → ∀ s answers, run env start ops = some (s, answers) → Back.threw ∉ s.got

/-- C82, defect.  When memory has run out, reporting that fails as well: the message for the trace is converted
even if nothing is traced, this needs memory, and `std::bad_alloc` leaves the function of the C interface, after
`*err` has been set to null. -/
theorem C82_out_of_memory_defect : ¬ AlwaysReturns ⟨fun _ => false, fun _ => 3⟩ := by
  intro h
  have hp : Proper [.call (some .badAlloc) true] := by
    intro pre op post n h1 h2
    have hl := congrArg List.length h1
    simp at hl
    have h3 : pre = [] := List.length_eq_zero_iff.1 (by omega)
    subst h3
    simp at h1
    rw [← h1.1] at h2
    rcases h2 with h2 | h2 | h2 <;> cases h2
  have := h _ hp ⟨⟨0, 1, fun _ => none⟩, [.threw]⟩ [.back .threw] rfl
  simp at this

/-- A history: two failing calls, one without a place for the error, and one that succeeds; everything is read and
freed. -/
def errorHistory : List Op :=
  [.call (some (.lib 3 "Agent died")) true, .call (some (.winpty "x")) false, .call none true, .code 0,
   .call (some .decode) true, .msg 3, .free 0, .msg 2, .free 3, .free 2]

/-- Executable form of `Proper`. -/
private def properB (done : List Op) : List Op → Bool
  | [] => true
  | op :: ops =>
    (match op with
      | .call _ _ => true
      | .code n => decide (n < (calls done).length) && !done.contains (.free n)
      | .msg n => decide (n < (calls done).length) && !done.contains (.free n)
      | .free n => decide (n < (calls done).length) && !done.contains (.free n)) && properB (done ++ [op]) ops

private theorem properB_ok : ∀ (ops done : List Op), properB done ops = true →
    ∀ pre op post n, ops = pre ++ op :: post → About op n → n < (calls (done ++ pre)).length ∧ Op.free n ∉ done ++ pre := by
  intro ops
  induction ops with
  | nil => intro done _ pre op post n h; simp at h
  | cons o ops ih =>
    intro done hb pre op post n h ha
    simp only [properB, Bool.and_eq_true] at hb
    cases pre with
    | nil =>
      simp only [List.nil_append, List.cons.injEq] at h
      obtain ⟨rfl, _⟩ := h
      rw [List.append_nil]
      rcases ha with rfl | rfl | rfl <;> simpa using hb.1
    | cons p pre =>
      simp only [List.cons_append, List.cons.injEq] at h
      obtain ⟨rfl, h⟩ := h
      have := ih (done ++ [o]) hb.2 pre op post n h ha
      simpa using this

theorem errorHistory_proper : Proper errorHistory := by
  intro pre op post n h ha
  exact properB_ok errorHistory [] (by decide) pre op post n h ha

-- the history's answers
example : (run ⟨fun _ => true, fun _ => 3⟩ start errorHistory).map (·.2) =
    some [.back (.returned (.heap 1)), .back (.returned .null), .back (.returned .null), .code 3,
      .back (.returned (.static .badRpcPacket)), .text "Bad RPC packet", .done, .text "Success", .done, .done] := by
  decide +kernel

-- with memory for the object itself but not for the message's pointer, the error says so
example : (run ⟨fun k => k != 1, fun _ => 3⟩ start [.call (some (.lib 3 "Agent died")) true, .code 0, .msg 0]).map (·.2) =
    some [.back (.returned (.static .outOfMemory)), .code 1, .text "Out of memory"] := by decide +kernel

end Winpty.Props
