import Verif.Spec.ErrorObject

/-! # Lemmas about the memory of error objects -/
namespace Winpty.ErrorObject

open Winpty.Client (Exn)

/-- An error object with its two other blocks. -/
structure Triple where
  a : Nat
  p : Nat
  s : Nat
  code : Nat
  text : String

def Triple.at (t : Triple) (x : Nat) : Option Block :=
  if x = t.a then some (.error t.code none (some t.p))
  else if x = t.p then some (.pointer t.s)
  else if x = t.s then some (.string t.text 1) else none

def Fresh (h : Heap) : Prop := ∀ x, h.next ≤ x → h.blocks x = none

/-- The heap has this object more. -/
structure Adds (h h' : Heap) (t : Triple) : Prop where
  blocks : ∀ x, h'.blocks x = if x = t.a ∨ x = t.p ∨ x = t.s then t.at x else h.blocks x
  ap : t.a ≠ t.p
  as : t.a ≠ t.s
  ps : t.p ≠ t.s
  low : h.next ≤ t.a ∧ h.next ≤ t.p ∧ h.next ≤ t.s
  high : t.a < h'.next ∧ t.p < h'.next ∧ t.s < h'.next

structure Same (h h' : Heap) : Prop where
  blocks : ∀ x, h'.blocks x = h.blocks x
  next : h.next ≤ h'.next

theorem Same.refl (h : Heap) : Same h h := ⟨fun _ => rfl, Nat.le_refl _⟩

theorem temporaries_same (env : Env) : ∀ (n : Nat) (h : Heap),
    (∃ h', temporaries env n h = .ok () h' ∧ h'.blocks = h.blocks ∧ h'.next = h.next) ∨
    (∃ h', temporaries env n h = .throws h' ∧ h'.blocks = h.blocks ∧ h'.next = h.next ∧
      ∃ k, env.mem k = false) := by
  intro n
  induction n with
  | zero => intro h; exact .inl ⟨h, rfl, rfl, rfl⟩
  | succ n ih =>
    intro h
    rw [temporaries]
    by_cases hm : env.mem h.asked = true
    · rw [if_pos hm]
      exact ih _
    · rw [if_neg hm]
      exact .inr ⟨_, rfl, rfl, rfl, h.asked, by simpa using hm⟩

theorem fromLib_cases (env : Env) (code s : Nat) (t : String) (h : Heap) (hf : Fresh h) (hs : s < h.next)
    (hb : h.blocks s = some (.string t 1)) :
    (∃ h', fromLib env code s h = .throws h' ∧ (∀ x, h'.blocks x = h.blocks x) ∧ h.next ≤ h'.next ∧
      ∃ k, env.mem k = false) ∨
    (∃ h', fromLib env code s h = .ok (.heap h.next) h' ∧ h'.next = h.next + 2 ∧
      ∀ x, h'.blocks x = if x = h.next then some (.error code none (some (h.next + 1)))
        else if x = h.next + 1 then some (.pointer s)
        else if x = s then some (.string t 2) else h.blocks x) := by
  have e1 : s ≠ h.next := by omega
  have e2 : s ≠ h.next + 1 := by omega
  have f0 := hf h.next (Nat.le_refl _)
  by_cases m1 : env.mem h.asked = true
  · by_cases m2 : env.mem (h.asked + 1) = true
    · right
      simp only [fromLib, new, m1, m2, if_true, Res.bind, share, Heap.set, e1, e2, if_false, hb, guarded]
      refine ⟨_, rfl, rfl, ?_⟩
      intro x
      simp only []
      by_cases x1 : x = h.next
      · simp [x1]
      · by_cases x2 : x = s
        · simp [x2, e1, e2]
        · by_cases x3 : x = h.next + 1
          · simp [x1, x2, x3, show h.next + 1 ≠ s by omega]
          · simp [x1, x2, x3]
    · left
      simp only [fromLib, new, m1, m2, if_true, Res.bind, Heap.set, if_false, Bool.false_eq_true, guarded, deleteError]
      refine ⟨_, rfl, ?_, ?_, h.asked + 1, by simpa using m2⟩
      · intro x
        by_cases x1 : x = h.next
        · simp [x1, f0]
        · simp [x1]
      · simp only []; omega
  · left
    simp only [fromLib, new, m1, if_false, Bool.false_eq_true, Res.bind]
    exact ⟨_, rfl, fun _ => rfl, Nat.le_refl _, h.asked, by simpa using m1⟩

theorem fromWinpty_cases (env : Env) (t : String) (h : Heap) (hf : Fresh h) :
    (∃ h', fromWinpty env t h = .throws h' ∧ (∀ x, h'.blocks x = h.blocks x) ∧ h.next ≤ h'.next ∧
      ∃ k, env.mem k = false) ∨
    (∃ h', fromWinpty env t h = .ok (.heap h.next) h' ∧ h'.next = h.next + 3 ∧
      ∀ x, h'.blocks x = if x = h.next then some (.error 5 none (some (h.next + 2)))
        else if x = h.next + 2 then some (.pointer (h.next + 1))
        else if x = h.next + 1 then some (.string t 1) else h.blocks x) := by
  have f0 := hf h.next (Nat.le_refl _)
  have f1 := hf (h.next + 1) (by omega)
  have f2 := hf (h.next + 2) (by omega)
  by_cases m1 : env.mem h.asked = true
  · by_cases m2 : env.mem (h.asked + 1) = true
    · by_cases m3 : env.mem (h.asked + 1 + 1) = true
      · by_cases m4 : env.mem (h.asked + 1 + 1 + 1) = true
        · right
          simp only [fromWinpty, newText, new, m1, m2, m3, m4, if_true, Res.bind, share, unshare, Heap.set, guarded,
            guardedText]
          simp
          intro x
          by_cases x1 : x = h.next
          · simp [x1]
          · by_cases x2 : x = h.next + 1
            · simp [x2]
            · by_cases x3 : x = h.next + 2 <;> simp [x1, x2, x3]
        · left
          simp only [fromWinpty, newText, new, m1, m2, m3, m4, if_true, Res.bind, share, unshare, Heap.set, guarded,
            guardedText, deleteError]
          simp
          refine ⟨?_, by omega, h.asked + 1 + 1 + 1, by simpa using m4⟩
          intro x
          by_cases x1 : x = h.next
          · simp [x1, f0]
          · by_cases x2 : x = h.next + 1 <;> simp [x1, x2, f1]
      · left
        simp only [fromWinpty, newText, new, m1, m2, m3, if_true, Res.bind, share, unshare, Heap.set, guarded,
          guardedText, deleteError]
        simp
        refine ⟨?_, by omega, h.asked + 1 + 1, by simpa using m3⟩
        intro x
        by_cases x1 : x = h.next
        · simp [x1, f0]
        · by_cases x2 : x = h.next + 1 <;> simp [x1, x2, f1]
    · left
      simp only [fromWinpty, newText, new, m1, m2, if_true, Res.bind, Heap.set, if_false, Bool.false_eq_true, guarded, deleteError]
      refine ⟨_, rfl, ?_, ?_, h.asked + 1, by simpa using m2⟩
      · intro x
        by_cases x1 : x = h.next
        · simp [x1, f0]
        · simp [x1]
      · simp only []; omega
  · left
    simp only [fromWinpty, new, m1, if_false, Bool.false_eq_true, Res.bind]
    exact ⟨_, rfl, fun _ => rfl, Nat.le_refl _, h.asked, by simpa using m1⟩

/-- The last part of `translateException`. -/
def rest (env : Env) (p : Ptr) (wantErr : Bool) (h : Heap) : Res Ptr :=
  (traceError env p h).bind fun _ h =>
    if wantErr then .ok p h else (errorFree p h).bind fun _ h => .ok .null h

/-- The end of `API_CATCH`. -/
def finish (e : Exn) (s : Nat) (r : Res Ptr) : Res Back :=
  match r with
  | .ok p h' => (endExn e s h').bind fun _ h' => .ok (.returned p) h'
  | .throws h' => (endExn e s h').bind fun _ h' => .ok .threw h'
  | .wild => .wild
  | .assertFail => .assertFail

theorem catchAll_eq (env : Env) (e : Exn) (wantErr : Bool) (h : Heap) : catchAll env e wantErr h =
    finish e h.next ((handlers env e h.next (throwExn e h)).bind fun p h => rest env p wantErr h) := rfl

theorem rest_static (env : Env) (s : Static) (wantErr : Bool) (h : Heap) :
    (∃ h', rest env (.static s) wantErr h = .ok (if wantErr then .static s else .null) h' ∧
      h'.blocks = h.blocks ∧ h'.next = h.next) ∨
    (∃ h', rest env (.static s) wantErr h = .throws h' ∧ h'.blocks = h.blocks ∧ h'.next = h.next ∧
      ∃ k, env.mem k = false) := by
  simp only [rest, traceError, errorCode, errorMsg, Res.bind]
  rcases temporaries_same env (env.copies (staticError s).2) h with ⟨h', h1, h2, h3⟩ | ⟨h', h1, h2, h3, h4⟩
  · left
    rw [h1]
    cases wantErr <;> exact ⟨h', rfl, h2, h3⟩
  · right
    rw [h1]
    exact ⟨h', rfl, h2, h3, h4⟩

/-- An object in the heap is described and, if nobody wants it, deleted; `n` is the number of owners of its
text. -/
theorem rest_heap (env : Env) (a p s n code : Nat) (t : String) (wantErr : Bool) (h : Heap)
    (ha : h.blocks a = some (.error code none (some p))) (hp : h.blocks p = some (.pointer s))
    (hs : h.blocks s = some (.string t n)) (hn : 1 ≤ n) (dap : a ≠ p) (das : a ≠ s) (dps : p ≠ s) :
    (wantErr = true ∧ ∃ h', rest env (.heap a) wantErr h = .ok (.heap a) h' ∧ h'.blocks = h.blocks ∧
      h'.next = h.next) ∨
    (wantErr = false ∧ ∃ h', rest env (.heap a) wantErr h = .ok .null h' ∧ h'.next = h.next ∧
      ∀ x, h'.blocks x = if x = a then none else if x = p then none else if x = s then
        (if n = 1 then none else some (.string t (n - 1))) else h.blocks x) ∨
    (∃ h', rest env (.heap a) wantErr h = .throws h' ∧ h'.blocks = h.blocks ∧ h'.next = h.next ∧
      ∃ k, env.mem k = false) := by
  simp only [rest, traceError, errorCode, errorMsg, pointedText, Res.bind, ha, hp, hs]
  rcases temporaries_same env (env.copies t) h with ⟨h', h1, h2, h3⟩ | ⟨h', h1, h2, h3, h4⟩
  · rw [h1]
    cases wantErr with
    | true => exact .inl ⟨rfl, h', rfl, h2, h3⟩
    | false =>
      right; left
      simp only [Bool.false_eq_true, if_false, errorFree, deletePointer, deleteError, unshare, Heap.set, h2, ha, hp, hs, das.symm,
        dap, das, dps.symm, Res.bind]
      refine ⟨trivial, _, rfl, h3, ?_⟩
      intro x
      simp only []
      by_cases x1 : x = a
      · simp [x1]
      · by_cases x2 : x = s
        · simp only [x2, das.symm, dps.symm, if_true, if_false]
          by_cases hn1 : n = 1
          · simp [hn1]
          · rw [if_neg (by omega), if_neg hn1]
        · by_cases x3 : x = p <;> simp [x1, x2, x3, dps]
  · right; right
    rw [h1]
    exact ⟨h', rfl, h2, h3, h4⟩

theorem catchAll_static (env : Env) (e : Exn) (s : Static) (wantErr : Bool) (h h1 : Heap) (hf : Fresh h)
    (hb : ∀ x, h1.blocks x = (throwExn e h).blocks x) (hn : (throwExn e h).next ≤ h1.next) :
    (∃ h', finish e h.next (rest env (.static s) wantErr h1) =
      .ok (.returned (if wantErr then .static s else .null)) h' ∧ Same h h') ∨
    (∃ h', finish e h.next (rest env (.static s) wantErr h1) = .ok .threw h' ∧ Same h h' ∧
      ∃ k, env.mem k = false) := by
  have key : ∀ h2 : Heap, h2.blocks = h1.blocks → h2.next = h1.next →
      ∃ h3, endExn e h.next h2 = .ok () h3 ∧ Same h h3 := by
    intro h2 q1 q2
    have f0 := hf h.next (Nat.le_refl _)
    unfold endExn
    cases ht : exnText e with
    | none =>
      simp only [throwExn, ht] at hb hn
      simp only [Option.isSome_none, Bool.false_eq_true, if_false]
      exact ⟨h2, rfl, fun x => by rw [q1]; exact hb x, by omega⟩
    | some t =>
      simp only [throwExn, ht, Heap.set] at hb hn
      simp only [Option.isSome_some, if_true, unshare, q1, hb, if_true]
      refine ⟨_, rfl, ?_, ?_⟩
      · intro x
        simp only [Heap.set]
        by_cases x1 : x = h.next
        · simp [x1, f0]
        · simp [x1, q1, hb]
      · simp only [Heap.set]; omega
  rcases rest_static env s wantErr h1 with ⟨h2, r1, r2, r3⟩ | ⟨h2, r1, r2, r3, r4⟩
  · left
    rw [r1]
    obtain ⟨h3, k1, k2⟩ := key h2 r2 r3
    simp only [finish, k1, Res.bind]
    exact ⟨h3, rfl, k2⟩
  · right
    rw [r1]
    obtain ⟨h3, k1, k2⟩ := key h2 r2 r3
    simp only [finish, k1, Res.bind]
    exact ⟨h3, rfl, k2, r4⟩

/-- What a failing call leaves behind. -/
def After (env : Env) (e : Exn) (wantErr : Bool) (h : Heap) (r : Res Back) : Prop :=
  (∃ h' s, r = .ok (.returned (if wantErr then .static s else .null)) h' ∧ Same h h' ∧
    (staticError s = Spec.ErrorObject.documented (some e) ∨ s = .outOfMemory ∧ ∃ k, env.mem k = false)) ∨
  (∃ h', r = .ok (.returned .null) h' ∧ Same h h' ∧ wantErr = false) ∨
  (∃ h' t, r = .ok (.returned (.heap t.a)) h' ∧ Adds h h' t ∧ wantErr = true ∧
    (t.code, t.text) = Spec.ErrorObject.documented (some e)) ∨
  (∃ h', r = .ok .threw h' ∧ (∃ k, env.mem k = false) ∧ (Same h h' ∨ ∃ t, Adds h h' t))

theorem after_static (env : Env) (e : Exn) (s : Static) (wantErr : Bool) (h h1 : Heap) (hf : Fresh h)
    (hb : ∀ x, h1.blocks x = (throwExn e h).blocks x) (hn : (throwExn e h).next ≤ h1.next)
    (hd : staticError s = Spec.ErrorObject.documented (some e) ∨ s = .outOfMemory ∧ ∃ k, env.mem k = false) :
    After env e wantErr h (finish e h.next (rest env (.static s) wantErr h1)) := by
  rcases catchAll_static env e s wantErr h h1 hf hb hn with ⟨h', r1, r2⟩ | ⟨h', r1, r2, r3⟩
  · exact .inl ⟨h', s, r1, r2, hd⟩
  · exact .inr (.inr (.inr ⟨h', r1, r3, .inl r2⟩))

theorem catchAll_after (env : Env) (e : Exn) (wantErr : Bool) (h : Heap) (hf : Fresh h) :
    After env e wantErr h (catchAll env e wantErr h) := by
  rw [catchAll_eq]
  have f0 := hf h.next (Nat.le_refl _)
  cases e with
  | decode => exact after_static env .decode .badRpcPacket wantErr h _ hf (fun _ => rfl) (Nat.le_refl _) (.inl rfl)
  | badAlloc => exact after_static env .badAlloc .outOfMemory wantErr h _ hf (fun _ => rfl) (Nat.le_refl _) (.inl rfl)
  | other => exact after_static env .other .uncaughtException wantErr h _ hf (fun _ => rfl) (Nat.le_refl _) (.inl rfl)
  | lib code t =>
    have hf0 : Fresh (throwExn (.lib code t) h) := by
      intro x hx
      simp only [throwExn, exnText, Heap.set] at hx ⊢
      rw [if_neg (by omega)]
      exact hf x (by omega)
    have hlt : h.next < (throwExn (.lib code t) h).next := by simp [throwExn, exnText]
    have hat : (throwExn (.lib code t) h).blocks h.next = some (.string t 1) := by
      simp [throwExn, exnText, Heap.set]
    have hn0 : (throwExn (.lib code t) h).next = h.next + 1 := rfl
    rcases fromLib_cases env code h.next t _ hf0 hlt hat with ⟨h1, r1, r2, r3, r4⟩ | ⟨h1, r1, r2, r3⟩
    · simp only [handlers, r1, orOutOfMemory, Res.bind]
      exact after_static env (.lib code t) .outOfMemory wantErr h h1 hf r2 r3 (.inr ⟨rfl, r4⟩)
    · simp only [handlers, r1, orOutOfMemory, Res.bind]
      rw [hn0] at r2 r3
      have hold : ∀ x, x ≠ h.next → (throwExn (.lib code t) h).blocks x = h.blocks x := by
        intro x hx; simp [throwExn, exnText, Heap.set, hx]
      rw [hn0]
      have ba : h1.blocks (h.next + 1) = some (.error code none (some (h.next + 1 + 1))) := by rw [r3]; (simp; try omega)
      have bp : h1.blocks (h.next + 1 + 1) = some (.pointer h.next) := by rw [r3]; (simp; try omega)
      have bs : h1.blocks h.next = some (.string t 2) := by rw [r3]; (simp; try omega)
      have adds : ∀ h2 : Heap, h2.blocks = h1.blocks → h2.next = h1.next → ∃ h3,
          endExn (.lib code t) h.next h2 = .ok () h3 ∧
          Adds h h3 ⟨h.next + 1, h.next + 1 + 1, h.next, code, t⟩ := by
        intro h2 q1 q2
        simp only [endExn, exnText, Option.isSome_some, if_true, unshare, q1, bs]
        refine ⟨_, rfl, ?_, ?_, ?_, ?_, ?_, ?_⟩
        · intro x
          simp only [Heap.set, q1, r3, Triple.at]
          by_cases x1 : x = h.next
          · (simp [x1, Nat.add_assoc]; try omega)
          · by_cases x2 : x = h.next + 1
            · (simp [x2, Nat.add_assoc]; try omega)
            · by_cases x3 : x = h.next + 1 + 1
              · (simp [x3, Nat.add_assoc]; try omega)
              · (simp [x1, x2, x3, hold, Nat.add_assoc]; try omega)
        all_goals simp [Heap.set]
        all_goals omega
      rcases rest_heap env (h.next + 1) (h.next + 1 + 1) h.next 2 code t wantErr h1 ba bp bs (by omega) (by omega)
        (by omega) (by omega) with ⟨w, h2, k1, k2, k3⟩ | ⟨w, h2, k1, k2, k3⟩ | ⟨h2, k1, k2, k3, k4⟩
      · obtain ⟨h3, j1, j2⟩ := adds h2 k2 k3
        rw [k1]
        simp only [finish, j1, Res.bind]
        exact .inr (.inr (.inl ⟨h3, _, rfl, j2, w, rfl⟩))
      · rw [k1]
        have hs2 : h2.blocks h.next = some (.string t 1) := by rw [k3]; (simp; try omega)
        simp only [finish, endExn, exnText, Option.isSome_some, if_true, unshare, hs2, Res.bind]
        refine .inr (.inl ⟨_, rfl, ⟨?_, ?_⟩, w⟩)
        · intro x
          simp only [Heap.set, k3, r3]
          by_cases x1 : x = h.next
          · (simp [x1, f0, Nat.add_assoc]; try omega)
          · by_cases x2 : x = h.next + 1
            · (simp [x2, hf (h.next + 1) (by omega), Nat.add_assoc]; try omega)
            · by_cases x3 : x = h.next + 1 + 1
              · (simp [x3, hf (h.next + 1 + 1) (by omega), Nat.add_assoc]; try omega)
              · (simp [x1, x2, x3, hold, Nat.add_assoc]; try omega)
        · simp only [Heap.set]; omega
      · obtain ⟨h3, j1, j2⟩ := adds h2 k2 k3
        rw [k1]
        simp only [finish, j1, Res.bind]
        exact .inr (.inr (.inr ⟨h3, rfl, k4, .inr ⟨_, j2⟩⟩))
  | winpty t =>
    have hf0 : Fresh (throwExn (.winpty t) h) := by
      intro x hx
      simp only [throwExn, exnText, Heap.set] at hx ⊢
      rw [if_neg (by omega)]
      exact hf x (by omega)
    have hn0 : (throwExn (.winpty t) h).next = h.next + 1 := rfl
    rcases fromWinpty_cases env t _ hf0 with ⟨h1, r1, r2, r3, r4⟩ | ⟨h1, r1, r2, r3⟩
    · simp only [handlers, r1, orOutOfMemory, Res.bind]
      exact after_static env (.winpty t) .outOfMemory wantErr h h1 hf r2 r3 (.inr ⟨rfl, r4⟩)
    · simp only [handlers, r1, orOutOfMemory, Res.bind]
      rw [hn0] at r2 r3
      have hold : ∀ x, x ≠ h.next → (throwExn (.winpty t) h).blocks x = h.blocks x := by
        intro x hx; simp [throwExn, exnText, Heap.set, hx]
      have hold1 : (throwExn (.winpty t) h).blocks h.next = some (.string t 1) := by
        simp [throwExn, exnText, Heap.set]
      rw [hn0]
      have ba : h1.blocks (h.next + 1) = some (.error 5 none (some (h.next + 1 + 2))) := by rw [r3]; (simp; try omega)
      have bp : h1.blocks (h.next + 1 + 2) = some (.pointer (h.next + 1 + 1)) := by rw [r3]; (simp; try omega)
      have bs : h1.blocks (h.next + 1 + 1) = some (.string t 1) := by rw [r3]; (simp; try omega)
      have be : h1.blocks h.next = some (.string t 1) := by rw [r3]; (simp [hold1]; try omega)
      have adds : ∀ h2 : Heap, h2.blocks = h1.blocks → h2.next = h1.next → ∃ h3,
          endExn (.winpty t) h.next h2 = .ok () h3 ∧
          Adds h h3 ⟨h.next + 1, h.next + 1 + 2, h.next + 1 + 1, 5, t⟩ := by
        intro h2 q1 q2
        simp only [endExn, exnText, Option.isSome_some, if_true, unshare, q1, be]
        refine ⟨_, rfl, ?_, ?_, ?_, ?_, ?_, ?_⟩
        · intro x
          simp only [Heap.set, q1, r3, Triple.at]
          by_cases x1 : x = h.next
          · (simp [x1, f0, Nat.add_assoc]; try omega)
          · by_cases x2 : x = h.next + 1
            · (simp [x2, Nat.add_assoc]; try omega)
            · by_cases x3 : x = h.next + 1 + 1
              · (simp [x3, Nat.add_assoc]; try omega)
              · by_cases x4 : x = h.next + 1 + 2
                · (simp [x4, Nat.add_assoc]; try omega)
                · (simp [x1, x2, x3, x4, hold, Nat.add_assoc]; try omega)
        all_goals simp [Heap.set]
        all_goals omega
      rcases rest_heap env (h.next + 1) (h.next + 1 + 2) (h.next + 1 + 1) 1 5 t wantErr h1 ba bp bs (by omega)
        (by omega) (by omega) (by omega) with ⟨w, h2, k1, k2, k3⟩ | ⟨w, h2, k1, k2, k3⟩ | ⟨h2, k1, k2, k3, k4⟩
      · obtain ⟨h3, j1, j2⟩ := adds h2 k2 k3
        rw [k1]
        simp only [finish, j1, Res.bind]
        exact .inr (.inr (.inl ⟨h3, _, rfl, j2, w, rfl⟩))
      · rw [k1]
        have hs2 : h2.blocks h.next = some (.string t 1) := by rw [k3]; (simp [be]; try omega)
        simp only [finish, endExn, exnText, Option.isSome_some, if_true, unshare, hs2, Res.bind]
        refine .inr (.inl ⟨_, rfl, ⟨?_, ?_⟩, w⟩)
        · intro x
          simp only [Heap.set, k3, r3]
          by_cases x1 : x = h.next
          · (simp [x1, f0, Nat.add_assoc]; try omega)
          · by_cases x2 : x = h.next + 1
            · (simp [x2, hf (h.next + 1) (by omega), Nat.add_assoc]; try omega)
            · by_cases x3 : x = h.next + 1 + 1
              · (simp [x3, hf (h.next + 1 + 1) (by omega), Nat.add_assoc]; try omega)
              · by_cases x4 : x = h.next + 1 + 2
                · (simp [x4, hf (h.next + 1 + 2) (by omega), Nat.add_assoc]; try omega)
                · (simp [x1, x2, x3, x4, hold, Nat.add_assoc]; try omega)
        · simp only [Heap.set]; omega
      · obtain ⟨h3, j1, j2⟩ := adds h2 k2 k3
        rw [k1]
        simp only [finish, j1, Res.bind]
        exact .inr (.inr (.inr ⟨h3, rfl, k4, .inr ⟨_, j2⟩⟩))

open Winpty.Spec.ErrorObject

theorem calls_append : ∀ (a b : List Op), calls (a ++ b) = calls a ++ calls b := by
  intro a
  induction a with
  | nil => intro b; rfl
  | cons op a ih => intro b; cases op <;> simp [calls, ih]

/-- What the error of a call says. -/
def said (cs : List (Option Exn × Bool)) (got : List Back) (n : Nat) : Nat × String :=
  match got[n]? with
  | some (.returned (.static s)) => staticError s
  | some (.returned (.heap _)) => documented (cs[n]?.bind (·.1))
  | _ => (0, "Success")

def Triple.has (t : Triple) (x : Nat) : Prop := x = t.a ∨ x = t.p ∨ x = t.s

instance (t : Triple) (x : Nat) : Decidable (t.has x) := by unfold Triple.has; infer_instance

def Apart (t u : Option Nat × Triple) : Prop := ∀ x, t.2.has x → ¬ u.2.has x

structure Inv (env : Env) (ops : List Op) (s : State) (l : List (Option Nat × Triple)) : Prop where
  fresh : Fresh s.heap
  len : s.got.length = (calls ops).length
  past : ∀ n, Op.free n ∈ ops → n < (calls ops).length
  at_ : ∀ r ∈ l, ∀ x, r.2.has x → s.heap.blocks x = r.2.at x
  own : ∀ r ∈ l, r.2.a ≠ r.2.p ∧ r.2.a ≠ r.2.s ∧ r.2.p ≠ r.2.s
  apart : l.Pairwise Apart
  only : ∀ x, s.heap.blocks x ≠ none → ∃ r ∈ l, r.2.has x
  low : ∀ r ∈ l, ∀ x, r.2.has x → x < s.heap.next
  owned : ∀ n a, s.got[n]? = some (.returned (.heap a)) → Op.free n ∉ ops →
    ∃ t, (some n, t) ∈ l ∧ t.a = a ∧ (t.code, t.text) = documented ((calls ops)[n]?.bind (·.1))
  kept : ∀ n t, (some n, t) ∈ l → s.got[n]? = some (.returned (.heap t.a)) ∧ Op.free n ∉ ops
  leaked : ∀ t, (none, t) ∈ l → Back.threw ∈ s.got
  asked : ∀ (n a : Nat), s.got[n]? = some (.returned (.heap a)) → ∃ e, (calls ops)[n]? = some (some e, true)
  threw : Back.threw ∈ s.got → ∃ k, env.mem k = false
  says : ∀ n e w, (calls ops)[n]? = some (e, w) → w = true → s.got[n]? ≠ some .threw →
    said (calls ops) s.got n = documented e ∨
      said (calls ops) s.got n = noMemory ∧ ∃ k, env.mem k = false

theorem inv_start (env : Env) : Inv env [] start [] := by
  constructor <;> simp [start, Fresh, calls]

theorem Inv.got_lt {env : Env} {ops : List Op} {s : State} {l : List (Option Nat × Triple)} (h : Inv env ops s l)
    {n : Nat} (hn : n < (calls ops).length) (got : List Back) : (s.got ++ got)[n]? = s.got[n]? := by
  rw [List.getElem?_append_left (by rw [h.len]; exact hn)]

theorem said_more (cs more : List (Option Exn × Bool)) (got gmore : List Back) (n : Nat) (h1 : n < cs.length)
    (h2 : n < got.length) : said (cs ++ more) (got ++ gmore) n = said cs got n := by
  unfold said
  rw [List.getElem?_append_left h1, List.getElem?_append_left h2]

/-- After a call that has changed nothing in the heap, or has added an object. -/
theorem Inv.after_call {env : Env} {ops : List Op} {s : State} {l : List (Option Nat × Triple)} (h : Inv env ops s l)
    (e : Option Exn) (w : Bool) (b : Back) (h' : Heap) (add : Option (Option Nat × Triple))
    (hadd : (add = none ∧ Same s.heap h') ∨ ∃ m t, add = some (m, t) ∧ Adds s.heap h' t ∧
      (m = some s.got.length ∧ b = .returned (.heap t.a) ∧ (t.code, t.text) = documented e ∨
        m = none ∧ b = .threw))
    (hb : ∀ a, b = .returned (.heap a) → ∃ t e', add = some (some s.got.length, t) ∧ e = some e' ∧ w = true)
    (ht : b = .threw → ∃ k, env.mem k = false)
    (hs : w = true → b ≠ .threw → said [(e, w)] [b] 0 = documented e ∨
      said [(e, w)] [b] 0 = noMemory ∧ ∃ k, env.mem k = false) :
    Inv env (ops ++ [.call e w]) ⟨h', s.got ++ [b]⟩ (add.toList ++ l) := by
  have hc : calls (ops ++ [Op.call e w]) = calls ops ++ [(e, w)] := by rw [calls_append]; rfl
  have hold : ∀ x, x < s.heap.next → h'.blocks x = s.heap.blocks x := by
    intro x hx
    rcases hadd with ⟨_, k⟩ | ⟨m, t, _, k, _⟩
    · exact k.blocks x
    · rw [k.blocks, if_neg]
      have := k.low
      rintro (h | h | h) <;> omega
  have hfree : ∀ n, Op.free n ∉ ops ++ [Op.call e w] ↔ Op.free n ∉ ops := by simp
  have hnext : s.heap.next ≤ h'.next := by
    rcases hadd with ⟨_, k⟩ | ⟨m, t, _, k, _⟩
    · exact k.next
    · have := k.low; have := k.high; omega
  have hlow : ∀ r ∈ l, ∀ x, r.2.has x → x < s.heap.next := h.low
  have hnew : ∀ m t, add = some (m, t) → Adds s.heap h' t ∧
      (m = some s.got.length ∧ b = .returned (.heap t.a) ∧ (t.code, t.text) = documented e ∨
        m = none ∧ b = .threw) := by
    intro m t ha
    rcases hadd with ⟨k, _⟩ | ⟨m', t', k, k1, k2⟩
    · rw [k] at ha; cases ha
    · rw [k] at ha
      cases ha
      exact ⟨k1, k2⟩
  have hmem : ∀ r, r ∈ add.toList ++ l ↔ add = some r ∨ r ∈ l := by
    intro r
    rw [List.mem_append]
    cases add <;> simp [eq_comm]
  refine ⟨?_, ?_, ?_, ?_, ?_, ?_, ?_, ?_, ?_, ?_, ?_, ?_, ?_, ?_⟩
  · intro x hx
    rcases hadd with ⟨_, k⟩ | ⟨m, t, _, k, _⟩
    · have hx' : h'.next ≤ x := hx
      rw [k.blocks]; exact h.fresh x (by omega)
    · have hx' : h'.next ≤ x := hx
      rw [k.blocks, if_neg]
      · exact h.fresh x (by omega)
      · have := k.high
        rintro (h | h | h) <;> omega
  · simp [hc, h.len]
  · intro n hf
    have := h.past n (by simpa using hf)
    simp [hc]; omega
  · intro r hr x hx
    rcases (hmem r).1 hr with ha | hr
    · have k := (hnew r.1 r.2 ha).1
      exact (k.blocks x).trans (if_pos hx)
    · show h'.blocks x = _
      rw [hold x (hlow r hr x hx)]
      exact h.at_ r hr x hx
  · intro r hr
    rcases (hmem r).1 hr with ha | hr
    · have k := (hnew r.1 r.2 ha).1
      exact ⟨k.ap, k.as, k.ps⟩
    · exact h.own r hr
  · cases ha : add with
    | none => exact h.apart
    | some r =>
      show (r :: l).Pairwise Apart
      refine List.pairwise_cons.2 ⟨?_, h.apart⟩
      intro u hu x hx hux
      have k := (hnew r.1 r.2 ha).1.low
      have := hlow u hu x hux
      rcases hx with h | h | h <;> omega
  · intro x hx
    have hx' : h'.blocks x ≠ none := hx
    rcases hadd with ⟨_, k⟩ | ⟨m, t, ha, k, _⟩
    · rw [k.blocks] at hx'
      obtain ⟨r, h1, h2⟩ := h.only x hx'
      exact ⟨r, (hmem r).2 (.inr h1), h2⟩
    · by_cases hin : x = t.a ∨ x = t.p ∨ x = t.s
      · exact ⟨(m, t), (hmem _).2 (.inl ha), hin⟩
      · rw [k.blocks, if_neg hin] at hx'
        obtain ⟨r, h1, h2⟩ := h.only x hx'
        exact ⟨r, (hmem r).2 (.inr h1), h2⟩
  · intro r hr x hx
    show x < h'.next
    rcases (hmem r).1 hr with ha | hr
    · have k := (hnew r.1 r.2 ha).1.high
      rcases hx with h | h | h <;> omega
    · have := hlow r hr x hx
      omega
  · intro n a hg hf
    rw [hfree] at hf
    have hg' : (s.got ++ [b])[n]? = some (.returned (.heap a)) := hg
    by_cases hn : n < s.got.length
    · rw [List.getElem?_append_left hn] at hg'
      obtain ⟨t, h1, h2, h3⟩ := h.owned n a hg' hf
      refine ⟨t, (hmem _).2 (.inr h1), h2, ?_⟩
      rw [hc, List.getElem?_append_left (by rw [← h.len]; exact hn)]
      exact h3
    · have hl : n = s.got.length := by
        have := (List.getElem?_eq_some_iff.1 hg').1
        simp at this
        omega
      subst hl
      have hb' : b = .returned (.heap a) := by simpa using hg'
      obtain ⟨t, _, ht', _⟩ := hb a hb'
      obtain ⟨_, k⟩ := hnew _ _ ht'
      rcases k with ⟨_, k2, k3⟩ | ⟨k1, _⟩
      · refine ⟨t, (hmem _).2 (.inl ht'), ?_, ?_⟩
        · rw [hb'] at k2
          injection k2 with k2
          injection k2 with k2
          exact k2.symm
        · rw [hc, h.len]
          simpa using k3
      · cases k1
  · intro n t hr
    rw [hfree]
    rcases (hmem _).1 hr with ha | hr
    · obtain ⟨_, k⟩ := hnew _ _ ha
      rcases k with ⟨k1, k2, _⟩ | ⟨k1, _⟩
      · injection k1 with k1
        subst k1
        refine ⟨by simp [k2], ?_⟩
        intro hf
        have := h.past _ hf
        rw [h.len] at this
        omega
      · cases k1
    · obtain ⟨h1, h2⟩ := h.kept n t hr
      refine ⟨?_, h2⟩
      show (s.got ++ [b])[n]? = _
      rw [List.getElem?_append_left (List.getElem?_eq_some_iff.1 h1).1]
      exact h1
  · intro t hr
    show Back.threw ∈ s.got ++ [b]
    rcases (hmem _).1 hr with ha | hr
    · obtain ⟨_, k⟩ := hnew _ _ ha
      rcases k with ⟨k1, _⟩ | ⟨_, k2⟩
      · cases k1
      · simp [k2]
    · simp [h.leaked t hr]
  · intro n a hg
    have hg' : (s.got ++ [b])[n]? = some (.returned (.heap a)) := hg
    rw [hc]
    by_cases hn : n < s.got.length
    · rw [List.getElem?_append_left hn] at hg'
      rw [List.getElem?_append_left (by rw [← h.len]; exact hn)]
      exact h.asked n a hg'
    · have hl : n = s.got.length := by
        have := (List.getElem?_eq_some_iff.1 hg').1
        simp at this
        omega
      subst hl
      have hb' : b = .returned (.heap a) := by simpa using hg'
      obtain ⟨_, e', _, he, hw⟩ := hb a hb'
      rw [h.len]
      exact ⟨e', by simp [he, hw]⟩
  · intro hm
    have hm' : Back.threw ∈ s.got ++ [b] := hm
    rw [List.mem_append] at hm'
    rcases hm' with hm' | hm'
    · exact h.threw hm'
    · exact ht (by simpa using (List.mem_singleton.1 hm').symm)
  · intro n e' w' hn hw hg
    rw [hc] at hn ⊢
    have hg' : (s.got ++ [b])[n]? ≠ some .threw := hg
    show said _ (s.got ++ [b]) n = _ ∨ said _ (s.got ++ [b]) n = _ ∧ _
    by_cases hlt : n < (calls ops).length
    · have hlt' : n < s.got.length := by rw [h.len]; exact hlt
      rw [List.getElem?_append_left hlt] at hn
      rw [List.getElem?_append_left hlt'] at hg'
      rw [said_more _ _ _ _ _ hlt hlt']
      exact h.says n e' w' hn hw hg'
    · have hl : n = (calls ops).length := by
        have := (List.getElem?_eq_some_iff.1 hn).1
        simp at this
        omega
      have hl' : n = s.got.length := by rw [h.len]; exact hl
      have e1 : (calls ops ++ [(e, w)])[n]? = [(e, w)][0]? := by simp [hl]
      have e2 : (s.got ++ [b])[n]? = [b][0]? := by simp [hl']
      have es : said (calls ops ++ [(e, w)]) (s.got ++ [b]) n = said [(e, w)] [b] 0 := by
        unfold said
        rw [e1, e2]
      rw [es]
      rw [e1] at hn
      rw [e2] at hg'
      simp only [List.getElem?_cons_zero, Option.some.injEq, Prod.mk.injEq] at hn hg'
      obtain ⟨rfl, rfl⟩ := hn
      exact hs hw (fun hb => hg' (by rw [hb]))

theorem Inv.same {env : Env} {ops : List Op} {s : State} {l : List (Option Nat × Triple)} (h : Inv env ops s l)
    (op : Op) (n : Nat) (hop : op = .code n ∨ op = .msg n) : Inv env (ops ++ [op]) s l := by
  have hc : calls (ops ++ [op]) = calls ops := by
    rw [calls_append]
    rcases hop with rfl | rfl <;> simp [calls]
  have hf : ∀ n, Op.free n ∈ ops ++ [op] ↔ Op.free n ∈ ops := by
    intro m
    rcases hop with rfl | rfl <;> simp
  obtain ⟨a1, a2, a3, a4, a5, a6, a7, a8, a9, a10, a11, a12, a13, a14⟩ := h
  constructor
  all_goals try simp only [hc, hf]
  all_goals assumption

theorem Inv.freed {env : Env} {ops : List Op} {s : State} {l : List (Option Nat × Triple)} (h : Inv env ops s l)
    (n : Nat) (hn : n < (calls ops).length) (h' : Heap) (l' : List (Option Nat × Triple))
    (hsub : l'.Sublist l) (hkeep : ∀ r ∈ l, r.1 ≠ some n → r ∈ l') (hgone : ∀ t, (some n, t) ∉ l')
    (hb : ∀ r ∈ l', ∀ x, r.2.has x → h'.blocks x = s.heap.blocks x)
    (honly : ∀ x, h'.blocks x ≠ none → ∃ r ∈ l', r.2.has x) (hnext : h'.next = s.heap.next) :
    Inv env (ops ++ [.free n]) ⟨h', s.got⟩ l' := by
  have hc : calls (ops ++ [Op.free n]) = calls ops := by
    rw [calls_append]
    simp [calls]
  have hf : ∀ m, Op.free m ∈ ops ++ [Op.free n] ↔ Op.free m ∈ ops ∨ m = n := by
    intro m
    simp
  have hm : ∀ r, r ∈ l' → r ∈ l := fun r hr => hsub.subset hr
  refine ⟨?_, ?_, ?_, ?_, ?_, ?_, ?_, ?_, ?_, ?_, ?_, ?_, ?_, ?_⟩
  · intro x hx
    have hx' : h'.next ≤ x := hx
    cases hv : h'.blocks x with
    | none => rfl
    | some b =>
      obtain ⟨r, h1, h2⟩ := honly x (by rw [hv]; simp)
      have := h.low r (hm r h1) x h2
      omega
  · rw [hc]; exact h.len
  · intro m hm'
    rw [hc]
    rcases (hf m).1 hm' with k | k
    · exact h.past m k
    · rw [k]; exact hn
  · intro r hr x hx
    exact (hb r hr x hx).trans (h.at_ r (hm r hr) x hx)
  · exact fun r hr => h.own r (hm r hr)
  · exact h.apart.sublist hsub
  · exact honly
  · intro r hr x hx
    show x < h'.next
    rw [hnext]; exact h.low r (hm r hr) x hx
  · intro m a hg hfm
    rw [hf] at hfm
    obtain ⟨t, h1, h2, h3⟩ := h.owned m a hg (fun k => hfm (.inl k))
    refine ⟨t, hkeep _ h1 ?_, h2, by rw [hc]; exact h3⟩
    intro k
    injection k with k
    exact hfm (.inr k)
  · intro m t hr
    obtain ⟨h1, h2⟩ := h.kept m t (hm _ hr)
    refine ⟨h1, ?_⟩
    rw [hf]
    rintro (k | k)
    · exact h2 k
    · subst k
      exact hgone t hr
  · exact fun t hr => h.leaked t (hm _ hr)
  · rw [hc]; exact h.asked
  · exact h.threw
  · rw [hc]; exact h.says

/-- What the operations must answer. -/
def Right (cs : List (Option Exn × Bool)) (got : List Back) : Op → Answer → Prop
  | .call _ _, _ => True
  | .code n, a => a = .code (said cs got n).1
  | .msg n, a => a = .text (said cs got n).2
  | .free _, a => a = .done

theorem apart_eq : ∀ {l : List (Option Nat × Triple)}, l.Pairwise Apart → ∀ {r u}, r ∈ l → u ∈ l →
    ∀ {x}, r.2.has x → u.2.has x → r = u := by
  intro l
  induction l with
  | nil => intro _ r u hr; cases hr
  | cons t l ih =>
    intro hp r u hr hu x hx hy
    obtain ⟨h1, h2⟩ := List.pairwise_cons.1 hp
    rcases List.mem_cons.1 hr with er | hr'
    · rcases List.mem_cons.1 hu with eu | hu'
      · rw [er, eu]
      · rw [er] at hx
        exact absurd hy (h1 u hu' x hx)
    · rcases List.mem_cons.1 hu with eu | hu'
      · rw [eu] at hy
        exact absurd hx (h1 r hr' x hy)
      · exact ih h2 hr' hu' hx hy

theorem Inv.error {env : Env} {ops : List Op} {s : State} {l : List (Option Nat × Triple)} (h : Inv env ops s l)
    (n : Nat) (hf : Op.free n ∉ ops) :
    errorCode (s.ptr n) s.heap = .ok (said (calls ops) s.got n).1 s.heap ∧
    errorMsg (s.ptr n) s.heap = .ok (said (calls ops) s.got n).2 s.heap := by
  unfold State.ptr said
  cases hg : s.got[n]? with
  | none => exact ⟨rfl, rfl⟩
  | some b =>
    cases b with
    | threw => exact ⟨rfl, rfl⟩
    | returned p =>
      cases p with
      | null => exact ⟨rfl, rfl⟩
      | static t => exact ⟨rfl, rfl⟩
      | heap a =>
        obtain ⟨t, h1, rfl, h3⟩ := h.owned n a hg hf
        obtain ⟨o1, o2, o3⟩ := h.own _ h1
        have ba := h.at_ _ h1 t.a (.inl rfl)
        have bp := h.at_ _ h1 t.p (.inr (.inl rfl))
        have bs := h.at_ _ h1 t.s (.inr (.inr rfl))
        simp only [Triple.at, if_true] at ba bp bs
        rw [if_neg (Ne.symm o1)] at bp
        rw [if_neg (Ne.symm o2), if_neg (Ne.symm o3)] at bs
        simp only [errorCode, errorMsg, ba, pointedText, bp, bs, ← h3]
        exact ⟨trivial, trivial⟩

theorem step_free {env : Env} {ops : List Op} {s : State} {l : List (Option Nat × Triple)} (h : Inv env ops s l)
    (n : Nat) (hn : n < (calls ops).length) (hf : Op.free n ∉ ops) :
    ∃ h' l', errorFree (s.ptr n) s.heap = .ok () h' ∧ Inv env (ops ++ [.free n]) ⟨h', s.got⟩ l' := by
  have plain : (∀ a, s.got[n]? ≠ some (.returned (.heap a))) → Inv env (ops ++ [.free n]) ⟨s.heap, s.got⟩ l := by
    intro hno
    refine h.freed n hn s.heap l (List.Sublist.refl l) (fun r hr _ => hr) ?_ (fun _ _ _ _ => rfl) h.only rfl
    intro t hr
    exact hno _ (h.kept n t hr).1
  unfold State.ptr
  cases hg : s.got[n]? with
  | none => exact ⟨s.heap, l, rfl, plain (by rw [hg]; intro a; simp)⟩
  | some b =>
    cases b with
    | threw => exact ⟨s.heap, l, rfl, plain (by rw [hg]; intro a; simp)⟩
    | returned p =>
      cases p with
      | null => exact ⟨s.heap, l, rfl, plain (by rw [hg]; intro a; simp)⟩
      | static t => exact ⟨s.heap, l, rfl, plain (by rw [hg]; intro a; simp)⟩
      | heap a =>
        obtain ⟨t, h1, rfl, h3⟩ := h.owned n a hg hf
        obtain ⟨o1, o2, o3⟩ := h.own _ h1
        have ba := h.at_ _ h1 t.a (.inl rfl)
        have bp := h.at_ _ h1 t.p (.inr (.inl rfl))
        have bs := h.at_ _ h1 t.s (.inr (.inr rfl))
        simp only [Triple.at, if_true] at ba bp bs
        rw [if_neg (Ne.symm o1)] at bp
        rw [if_neg (Ne.symm o2), if_neg (Ne.symm o3)] at bs
        have o1' := Ne.symm o1
        have o2' := Ne.symm o2
        have o3' := Ne.symm o3
        have hblocks : ∃ h', errorFree (.heap t.a) s.heap = .ok () h' ∧ h'.next = s.heap.next ∧
            ∀ x, h'.blocks x = if t.has x then none else s.heap.blocks x := by
          simp only [errorFree, ba, deletePointer, bp, unshare, Heap.set, o3', if_false, bs, Res.bind, deleteError, o1,
            o2]
          refine ⟨_, rfl, rfl, ?_⟩
          intro x
          simp only [Triple.has]
          by_cases x1 : x = t.a
          · simp [x1]
          · by_cases x2 : x = t.s
            · simp [x2, o2', o3']
            · by_cases x3 : x = t.p <;> simp [x1, x2, x3, o3]
        obtain ⟨h', e1, e2, e3⟩ := hblocks
        refine ⟨h', l.filter (fun r => !decide (r.1 = some n)), e1, ?_⟩
        have hsame : ∀ r ∈ l, ∀ x, r.2.has x → t.has x → r.1 = some n := by
          intro r hr x hx ht
          rw [apart_eq h.apart hr h1 hx ht]
        have huniq : ∀ r ∈ l, r.1 = some n → r = (some n, t) := by
          intro r hr hrn
          have := (h.kept n r.2 (by rw [← hrn]; exact hr)).1
          rw [hg] at this
          injection this with this
          injection this with this
          injection this with this
          exact apart_eq h.apart hr h1 (x := t.a) (.inl this) (.inl rfl)
        refine h.freed n hn h' _ List.filter_sublist ?_ ?_ ?_ ?_ e2
        · intro r hr hne
          simp [List.mem_filter, hr, hne]
        · intro u hu
          simp [List.mem_filter] at hu
        · intro r hr x hx
          rw [List.mem_filter] at hr
          rw [e3, if_neg]
          intro ht
          have := hsame r hr.1 x hx ht
          simp [this] at hr
        · intro x hx
          rw [e3] at hx
          by_cases ht : t.has x
          · rw [if_pos ht] at hx; exact absurd rfl hx
          · rw [if_neg ht] at hx
            obtain ⟨r, k1, k2⟩ := h.only x hx
            refine ⟨r, ?_, k2⟩
            rw [List.mem_filter]
            refine ⟨k1, ?_⟩
            simp
            intro hrn
            exact ht (by rw [huniq r k1 hrn] at k2; exact k2)

theorem step_inv {env : Env} {ops : List Op} {s : State} {l : List (Option Nat × Triple)} (h : Inv env ops s l)
    (op : Op) (hop : ∀ n, About op n → n < (calls ops).length ∧ Op.free n ∉ ops) :
    ∃ ans more h' l', step env s op = .ok (ans, s.got ++ more) h' ∧
      Inv env (ops ++ [op]) ⟨h', s.got ++ more⟩ l' ∧ Right (calls ops) s.got op ans := by
  cases op with
  | code n =>
    obtain ⟨_, hf⟩ := hop n (.inl rfl)
    refine ⟨_, [], s.heap, l, ?_, by rw [List.append_nil]; exact h.same _ n (.inl rfl), rfl⟩
    rw [List.append_nil]
    simp only [step, (h.error n hf).1, Res.bind]
  | msg n =>
    obtain ⟨_, hf⟩ := hop n (.inr (.inl rfl))
    refine ⟨_, [], s.heap, l, ?_, by rw [List.append_nil]; exact h.same _ n (.inr rfl), rfl⟩
    rw [List.append_nil]
    simp only [step, (h.error n hf).2, Res.bind]
  | free n =>
    obtain ⟨hn, hf⟩ := hop n (.inr (.inr rfl))
    obtain ⟨h', l', e1, e2⟩ := step_free h n hn hf
    refine ⟨_, [], h', l', ?_, by rw [List.append_nil]; exact e2, rfl⟩
    rw [List.append_nil]
    simp only [step, e1, Res.bind]
  | call e w =>
    cases e with
    | none =>
      refine ⟨_, [_], s.heap, _, rfl, h.after_call none w _ _ none (.inl ⟨rfl, Same.refl _⟩) ?_ ?_ ?_, trivial⟩
      · intro a ha; cases ha
      · intro ha; cases ha
      · intro _ _; exact .inl rfl
    | some e =>
      have hA := catchAll_after env e w s.heap h.fresh
      rcases hA with ⟨h', t, r1, r2, r3⟩ | ⟨h', r1, r2, r3⟩ | ⟨h', t, r1, r2, r3, r4⟩ | ⟨h', r1, r2, r3⟩
      · simp only [step, r1, Res.bind]
        refine ⟨_, [_], h', _, rfl, h.after_call (some e) w _ _ none (.inl ⟨rfl, r2⟩) ?_ ?_ ?_, trivial⟩
        · intro a ha; cases w <;> cases ha
        · intro ha; cases w <;> cases ha
        · intro hw _
          subst hw
          rcases r3 with r3 | ⟨rfl, r4⟩
          · exact .inl r3
          · exact .inr ⟨rfl, r4⟩
      · simp only [step, r1, Res.bind]
        refine ⟨_, [_], h', _, rfl, h.after_call (some e) w _ _ none (.inl ⟨rfl, r2⟩) ?_ ?_ ?_, trivial⟩
        · intro a ha; cases ha
        · intro ha; cases ha
        · intro hw _; rw [r3] at hw; cases hw
      · simp only [step, r1, Res.bind]
        refine ⟨_, [_], h', _, rfl, h.after_call (some e) w _ _ (some (some s.got.length, t))
          (.inr ⟨_, t, rfl, r2, .inl ⟨rfl, rfl, r4⟩⟩) ?_ ?_ ?_, trivial⟩
        · intro a _; exact ⟨t, e, rfl, rfl, r3⟩
        · intro ha; cases ha
        · intro hw _; exact .inl rfl
      · simp only [step, r1, Res.bind]
        rcases r3 with r3 | ⟨t, r3⟩
        · refine ⟨_, [_], h', _, rfl, h.after_call (some e) w _ _ none (.inl ⟨rfl, r3⟩) ?_ (fun _ => r2) ?_, trivial⟩
          · intro a ha; cases ha
          · intro _ hb; exact absurd rfl hb
        · refine ⟨_, [_], h', _, rfl, h.after_call (some e) w _ _ (some (none, t))
            (.inr ⟨_, t, rfl, r3, .inr ⟨rfl, rfl⟩⟩) ?_ (fun _ => r2) ?_, trivial⟩
          · intro a ha; cases ha
          · intro _ hb; exact absurd rfl hb

theorem run_inv (env : Env) : ∀ (ops done : List Op) (s : State) (l : List (Option Nat × Triple)),
    Inv env done s l → Proper (done ++ ops) →
    ∃ s' l' ans more, run env s ops = some (s', ans) ∧ Inv env (done ++ ops) s' l' ∧ s'.got = s.got ++ more ∧
      ans.length = ops.length ∧ ∀ (i : Nat) (op : Op) (a : Answer), ops[i]? = some op → ans[i]? = some a →
        Right (calls (done ++ ops)) s'.got op a := by
  intro ops
  induction ops with
  | nil =>
    intro done s l h _
    exact ⟨s, l, [], [], rfl, by rw [List.append_nil]; exact h, by simp, rfl, by simp⟩
  | cons op ops ih =>
    intro done s l h hp
    have hop : ∀ n, About op n → n < (calls done).length ∧ Op.free n ∉ done :=
      fun n hn => hp done op ops n rfl hn
    obtain ⟨ans, more, h', l', e1, e2, e3⟩ := step_inv h op hop
    obtain ⟨s'', l'', as, more', f1, f2, f3, f4, f5⟩ := ih (done ++ [op]) _ l' e2 (by simpa using hp)
    refine ⟨s'', l'', ans :: as, more ++ more', ?_, by simpa using f2, by simp [f3], by simp [f4], ?_⟩
    · simp only [run, e1, f1, Option.map_some]
    · intro i op' a hi ha
      cases i with
      | succ i =>
        simp only [List.getElem?_cons_succ] at hi ha
        have := f5 i op' a hi ha
        simpa using this
      | zero =>
        simp only [List.getElem?_cons_zero, Option.some.injEq] at hi ha
        subst hi
        subst ha
        have hsaid : ∀ n, About op n → said (calls (done ++ op :: ops)) s''.got n = said (calls done) s.got n := by
          intro n hn
          have := (hop n hn).1
          rw [f3]
          simp only [List.append_assoc]
          rw [calls_append]
          exact said_more _ _ _ _ _ this (by rw [h.len]; exact this)
        cases op with
        | call e w => trivial
        | code n => simp only [Right] at e3 ⊢; rw [hsaid n (.inl rfl)]; exact e3
        | msg n => simp only [Right] at e3 ⊢; rw [hsaid n (.inr (.inl rfl))]; exact e3
        | free n => exact e3

end Winpty.ErrorObject
