import Verif.Model.OwnedHandle

/-! # C49: handles are closed exactly once -/
namespace Winpty.Spec.Own

open Winpty.OwnedHandle

/-- A value that can denote a handle: neither `nullptr` nor `INVALID_HANDLE_VALUE`
(all 64 bits set). -/
def isHandle (h : Nat) : Bool := decide (0 < h) && decide (h ≠ 18446744073709551615)

/-- Who is responsible for a handle, derived from the program's operations alone: `plain` lists the
handle values the program holds outside of objects, `held` gives the value in each object. -/
structure Owner where
  plain : Nat → Bool
  held : Nat → Nat

/-- Ownership before the program starts. -/
def Owner.start : Owner := ⟨fun _ => false, fun _ => 0⟩

/-- How each operation moves responsibility. -/
def Owner.step (o : Owner) : Op → Owner
  | .acquire h => { o with plain := upd o.plain h true }
  | .closePlain h => { o with plain := upd o.plain h false }
  | .new i => { o with held := upd o.held i 0 }
  | .adopt i h => { plain := upd o.plain h false, held := upd o.held i h }
  | .moveNew i j => { o with held := upd (upd o.held j 0) i (o.held j) }
  | .moveAssign i j =>
    { o with held := if i = j then upd o.held i 0 else upd (upd o.held j 0) i (o.held j) }
  | .dispose i => { o with held := upd o.held i 0 }
  | .release i =>
    { plain := if isHandle (o.held i) then upd o.plain (o.held i) true else o.plain
      held := upd o.held i 0 }
  | .destroy i => { o with held := upd o.held i 0 }

/-- The rules a program must follow: the system gives out handle values that nobody holds; the
program closes or adopts only plain handles it holds (or adopts the failure values `nullptr` and
`INVALID_HANDLE_VALUE`). -/
def Owner.Allowed (o : Owner) : Op → Prop
  | .acquire h => isHandle h = true ∧ o.plain h = false ∧ ∀ i, o.held i ≠ h
  | .closePlain h => o.plain h = true
  | .adopt _ h => isHandle h = true → o.plain h = true
  | _ => True

/-- A program that follows the rules throughout. -/
def Owner.Follows (o : Owner) : List Op → Prop
  | [] => True
  | op :: ops => o.Allowed op ∧ (o.step op).Follows ops

/-- Responsibility after a program. -/
def Owner.run (o : Owner) (ops : List Op) : Owner := ops.foldl Owner.step o

end Winpty.Spec.Own

namespace Winpty.OwnedHandle

open Winpty.Spec.Own

@[simp] theorem upd_self {α : Type} (f : Nat → α) (i : Nat) (v : α) : upd f i v i = v := by
  simp [upd]

theorem upd_ne {α : Type} (f : Nat → α) (i j : Nat) (v : α) (h : j ≠ i) : upd f i v j = f j := by
  simp [upd, h]

/-- The invariant linking the state to the ledger of responsibilities. -/
structure Inv (s : State) (o : Owner) : Prop where
  /-- objects hold what the ledger says; dead objects hold nothing -/
  held : ∀ i, (s.objs i).getD 0 = o.held i
  /-- only handles are held plainly -/
  plainH : ∀ h, o.plain h = true → isHandle h = true
  /-- what is held is open -/
  openPlain : ∀ h, o.plain h = true → s.opened h = true
  openHeld : ∀ i, isHandle (o.held i) = true → s.opened (o.held i) = true
  /-- nothing is held twice -/
  apart : ∀ i, isHandle (o.held i) = true → o.plain (o.held i) = false
  uniq : ∀ i j, isHandle (o.held i) = true → o.held i = o.held j → i = j
  /-- what is open is held -/
  owned : ∀ h, s.opened h = true → isHandle h = true ∧ (o.plain h = true ∨ ∃ i, o.held i = h)
  /-- the log -/
  count : ∀ h, s.acquired.count h = s.closed.count h + (if s.opened h then 1 else 0)
  fail : s.failures = 0

theorem isHandle_zero : isHandle 0 = false := rfl

theorem mustClose_eq (h : Nat) : mustClose h = isHandle h := by
  rcases Nat.eq_zero_or_pos h with rfl | h0
  · rfl
  · by_cases h1 : h = 18446744073709551615
    · subst h1; rfl
    · have : h ≠ 0 := by omega
      simp [mustClose, isHandle, invalidHandle, *]

theorem inv_init : Inv init Owner.start where
  held := fun _ => rfl
  plainH := fun _ h => absurd h (by simp [Owner.start])
  openPlain := fun _ h => absurd h (by simp [Owner.start])
  openHeld := fun _ h => absurd h (by simp [Owner.start, isHandle])
  apart := fun _ h => absurd h (by simp [Owner.start, isHandle])
  uniq := fun _ _ h => absurd h (by simp [Owner.start, isHandle])
  owned := fun _ h => absurd h (by simp [init])
  count := fun _ => by simp [init]
  fail := rfl

/-- Closing a handle (held by object `i` or plainly) keeps the books. -/
theorem count_close (acq cl : List Nat) (op : Nat → Bool) (h : Nat) (ho : op h = true)
    (hc : ∀ x, acq.count x = cl.count x + (if op x then 1 else 0)) (x : Nat) :
    acq.count x = (cl ++ [h]).count x + (if upd op h false x then 1 else 0) := by
  rw [hc x, List.count_append]
  by_cases hx : x = h
  · subst hx
    simp [ho]
  · rw [upd_ne _ _ _ _ hx]
    have : List.count x [h] = 0 := by
      rw [List.count_eq_zero]
      simp [hx]
    omega

/-- Emptying object `i` by closing what it holds. -/
theorem inv_dispose {s : State} {o : Owner} (inv : Inv s o) (i h : Nat) (nt : Bool)
    (hi : s.objs i = some h) :
    ∃ s', dispose s i h nt = (s', true) ∧ Inv s' { o with held := upd o.held i 0 } ∧
      s'.objs = upd s.objs i (some 0) := by
  have hh : o.held i = h := by rw [← inv.held i, hi]; rfl
  unfold dispose
  rw [mustClose_eq]
  by_cases hv : isHandle h = true
  · have hop : s.opened h = true := by rw [← hh]; exact inv.openHeld i (by rw [hh]; exact hv)
    rw [if_pos hv]
    unfold closeHandle
    rw [if_pos hop]
    refine ⟨_, rfl, ?_, rfl⟩
    constructor
    · intro j
      by_cases hj : j = i
      · subst hj; simp
      · show ((upd s.objs i (some 0)) j).getD 0 = upd o.held i 0 j
        rw [upd_ne _ _ _ _ hj, upd_ne _ _ _ _ hj]; exact inv.held j
    · exact inv.plainH
    · intro x hx
      show upd s.opened h false x = true
      have hne : x ≠ h := by
        intro e
        subst e
        have := inv.apart i (by rw [hh]; exact hv)
        rw [hh] at this
        have hx' : o.plain x = true := hx
        rw [hx'] at this
        exact absurd this (by decide)
      rw [upd_ne _ _ _ _ hne]
      exact inv.openPlain x hx
    · intro j hj
      by_cases hji : j = i
      · subst hji; simp [isHandle_zero] at hj
      · simp only [upd_ne _ _ _ _ hji] at hj ⊢
        have hne : o.held j ≠ h := by
          intro e
          exact hji (inv.uniq j i hj (by rw [e, hh]))
        rw [upd_ne _ _ _ _ hne]
        exact inv.openHeld j hj
    · intro j hj
      by_cases hji : j = i
      · subst hji; simp [isHandle_zero] at hj
      · simp only [upd_ne _ _ _ _ hji] at hj ⊢
        exact inv.apart j hj
    · intro a b ha hab
      by_cases hai : a = i
      · subst hai; simp [isHandle_zero] at ha
      · simp only [upd_ne _ _ _ _ hai] at ha hab
        by_cases hbi : b = i
        · subst hbi; simp only [upd_self] at hab; rw [hab] at ha; simp [isHandle_zero] at ha
        · simp only [upd_ne _ _ _ _ hbi] at hab
          exact inv.uniq a b ha hab
    · intro x hx
      have hx' : upd s.opened h false x = true := hx
      have hne : x ≠ h := by
        intro e; subst e; simp at hx'
      rw [upd_ne _ _ _ _ hne] at hx'
      obtain ⟨h1, h2⟩ := inv.owned x hx'
      refine ⟨h1, ?_⟩
      rcases h2 with h2 | ⟨j, hj⟩
      · exact Or.inl h2
      · right
        refine ⟨j, ?_⟩
        have hji : j ≠ i := by
          intro e; subst e; exact hne (by rw [← hj, hh])
        simp only [upd_ne _ _ _ _ hji]
        exact hj
    · intro x
      exact count_close s.acquired s.closed s.opened h hop inv.count x
    · exact inv.fail
  · rw [if_neg hv]
    refine ⟨_, rfl, ?_, rfl⟩
    constructor
    · intro j
      by_cases hj : j = i
      · subst hj; simp
      · show ((upd s.objs i (some 0)) j).getD 0 = upd o.held i 0 j
        rw [upd_ne _ _ _ _ hj, upd_ne _ _ _ _ hj]; exact inv.held j
    · exact inv.plainH
    · exact inv.openPlain
    · intro j hj
      by_cases hji : j = i
      · subst hji; simp [isHandle_zero] at hj
      · simp only [upd_ne _ _ _ _ hji] at hj ⊢
        exact inv.openHeld j hj
    · intro j hj
      by_cases hji : j = i
      · subst hji; simp [isHandle_zero] at hj
      · simp only [upd_ne _ _ _ _ hji] at hj ⊢
        exact inv.apart j hj
    · intro a b ha hab
      by_cases hai : a = i
      · subst hai; simp [isHandle_zero] at ha
      · simp only [upd_ne _ _ _ _ hai] at ha hab
        by_cases hbi : b = i
        · subst hbi; simp only [upd_self] at hab; rw [hab] at ha; simp [isHandle_zero] at ha
        · simp only [upd_ne _ _ _ _ hbi] at hab
          exact inv.uniq a b ha hab
    · intro x hx
      obtain ⟨h1, h2⟩ := inv.owned x hx
      refine ⟨h1, ?_⟩
      rcases h2 with h2 | ⟨j, hj⟩
      · exact Or.inl h2
      · right
        refine ⟨j, ?_⟩
        have hji : j ≠ i := by
          intro e; subst e
          rw [hh] at hj; subst hj; exact hv h1
        simp only [upd_ne _ _ _ _ hji]
        exact hj
    · exact inv.count
    · exact inv.fail

/-- Putting a value nobody else holds into object `i`, which holds nothing. -/
theorem inv_put {s : State} {o : Owner} (inv : Inv s o) (i : Nat) (v : Option Nat)
    (hi : o.held i = 0) (hv : v.getD 0 = 0) :
    Inv { s with objs := upd s.objs i v } { o with held := upd o.held i 0 } := by
  have he : upd o.held i 0 = o.held := by
    funext j
    by_cases hj : j = i
    · subst hj; simp [hi]
    · rw [upd_ne _ _ _ _ hj]
  rw [he]
  exact {
    held := by
      intro j
      by_cases hj : j = i
      · subst hj; simp only [upd_self]; rw [hv, hi]
      · show ((upd s.objs i v) j).getD 0 = _
        rw [upd_ne _ _ _ _ hj]; exact inv.held j
    plainH := inv.plainH
    openPlain := inv.openPlain
    openHeld := inv.openHeld
    apart := inv.apart
    uniq := inv.uniq
    owned := inv.owned
    count := inv.count
    fail := inv.fail }

/-- Moving what object `j` holds into object `i`, which holds nothing. -/
theorem inv_transfer {s : State} {o : Owner} (inv : Inv s o) (i j h : Nat) (hij : i ≠ j)
    (hi : o.held i = 0) (hj : s.objs j = some h) :
    Inv { s with objs := upd (upd s.objs j (some 0)) i (some h) }
      { o with held := upd (upd o.held j 0) i (o.held j) } := by
  have hh : o.held j = h := by rw [← inv.held j, hj]; rfl
  rw [hh]
  have val : ∀ k, k ≠ i → k ≠ j → upd (upd o.held j 0) i h k = o.held k := by
    intro k h1 h2; rw [upd_ne _ _ _ _ h1, upd_ne _ _ _ _ h2]
  have vali : upd (upd o.held j 0) i h i = h := by simp
  have valj : upd (upd o.held j 0) i h j = 0 := by rw [upd_ne _ _ _ _ (Ne.symm hij)]; simp
  -- every object holds what some object held before, and which one
  have src : ∀ k, isHandle (upd (upd o.held j 0) i h k) = true →
      ∃ k', o.held k' = upd (upd o.held j 0) i h k ∧ (k = i ↔ k' = j) ∧ (k ≠ i → k' = k) := by
    intro k hk
    by_cases h1 : k = i
    · subst h1
      exact ⟨j, by rw [vali, hh], by simp, fun e => absurd rfl e⟩
    · by_cases h2 : k = j
      · subst h2; rw [valj] at hk; simp [isHandle_zero] at hk
      · exact ⟨k, by rw [val k h1 h2], by simp [h1, h2], fun _ => rfl⟩
  constructor
  · intro k
    show ((upd (upd s.objs j (some 0)) i (some h)) k).getD 0 = upd (upd o.held j 0) i h k
    by_cases h1 : k = i
    · subst h1; simp
    · rw [upd_ne _ _ _ _ h1, upd_ne _ _ _ _ h1]
      by_cases h2 : k = j
      · subst h2; simp
      · rw [upd_ne _ _ _ _ h2, upd_ne _ _ _ _ h2]; exact inv.held k
  · exact inv.plainH
  · exact inv.openPlain
  · intro k hk
    obtain ⟨k', e, _⟩ := src k hk
    show s.opened (upd (upd o.held j 0) i h k) = true
    rw [← e]
    exact inv.openHeld k' (by rw [e]; exact hk)
  · intro k hk
    obtain ⟨k', e, _⟩ := src k hk
    show o.plain (upd (upd o.held j 0) i h k) = false
    rw [← e]
    exact inv.apart k' (by rw [e]; exact hk)
  · intro a b ha hab
    obtain ⟨a', ea, ia, na⟩ := src a ha
    have hb : isHandle (upd (upd o.held j 0) i h b) = true := by
      rw [← show upd (upd o.held j 0) i h a = upd (upd o.held j 0) i h b from hab]; exact ha
    obtain ⟨b', eb, ib, nb⟩ := src b hb
    have := inv.uniq a' b' (by rw [ea]; exact ha) (by rw [ea, eb]; exact hab)
    by_cases h1 : a = i
    · rw [h1]; symm; rw [ib, ← this, ← ia]; exact h1
    · by_cases h2 : b = i
      · exfalso
        rw [ib, ← this, ← ia] at h2; exact h1 h2
      · rw [← na h1, ← nb h2]; exact this
  · intro x hx
    obtain ⟨h1, h2⟩ := inv.owned x hx
    refine ⟨h1, ?_⟩
    rcases h2 with h2 | ⟨k, hk⟩
    · exact Or.inl h2
    · right
      by_cases e : k = j
      · subst e
        exact ⟨i, by show upd (upd o.held k 0) i h i = x; rw [vali, ← hk, hh]⟩
      · have hki : k ≠ i := by
          intro e'; subst e'; rw [hi] at hk; subst hk; simp [isHandle_zero] at h1
        exact ⟨k, by show upd (upd o.held j 0) i h k = x; rw [val k hki e, hk]⟩
  · exact inv.count
  · exact inv.fail

theorem inv_step {s : State} {o : Owner} (inv : Inv s o) (op : Op) (hal : o.Allowed op)
    {s' : State} (hs : step s op = some s') : Inv s' (o.step op) := by
  cases op with
  | acquire h =>
    obtain ⟨hv, hp, hn⟩ := hal
    simp only [step, Option.some.injEq] at hs
    subst hs
    have hcl : s.opened h = false := by
      cases e : s.opened h with
      | false => rfl
      | true =>
        obtain ⟨_, h2⟩ := inv.owned h e
        rcases h2 with h2 | ⟨i, hi⟩
        · rw [h2] at hp; exact absurd hp (by decide)
        · exact absurd hi (hn i)
    constructor
    · exact inv.held
    · intro x hx
      by_cases e : x = h
      · subst e; exact hv
      · have hx' : upd o.plain h true x = true := hx
        rw [upd_ne _ _ _ _ e] at hx'
        exact inv.plainH x hx'
    · intro x hx
      show upd s.opened h true x = true
      by_cases e : x = h
      · subst e; simp
      · have hx' : upd o.plain h true x = true := hx
        rw [upd_ne _ _ _ _ e] at hx' ⊢
        exact inv.openPlain x hx'
    · intro i hi
      show upd s.opened h true (o.held i) = true
      rw [upd_ne _ _ _ _ (hn i)]
      exact inv.openHeld i hi
    · intro i hi
      show upd o.plain h true (o.held i) = false
      rw [upd_ne _ _ _ _ (hn i)]
      exact inv.apart i hi
    · exact inv.uniq
    · intro x hx
      have hx' : upd s.opened h true x = true := hx
      by_cases e : x = h
      · subst e; exact ⟨hv, Or.inl (by simp [Owner.step])⟩
      · rw [upd_ne _ _ _ _ e] at hx'
        obtain ⟨h1, h2⟩ := inv.owned x hx'
        refine ⟨h1, ?_⟩
        rcases h2 with h2 | h2
        · left
          show upd o.plain h true x = true
          rw [upd_ne _ _ _ _ e]; exact h2
        · exact Or.inr h2
    · intro x
      show (s.acquired ++ [h]).count x = s.closed.count x + (if upd s.opened h true x then 1 else 0)
      rw [List.count_append, inv.count x]
      by_cases e : x = h
      · subst e; simp [hcl]
      · rw [upd_ne _ _ _ _ e]
        have : List.count x [h] = 0 := by rw [List.count_eq_zero]; simp [e]
        omega
    · exact inv.fail
  | closePlain h =>
    have hp : o.plain h = true := hal
    simp only [step, Option.some.injEq] at hs
    have hop := inv.openPlain h hp
    unfold closeHandle at hs
    rw [if_pos hop] at hs
    subst hs
    constructor
    · exact inv.held
    · intro x hx
      have hx' : upd o.plain h false x = true := hx
      have e : x ≠ h := by intro e; subst e; simp at hx'
      rw [upd_ne _ _ _ _ e] at hx'
      exact inv.plainH x hx'
    · intro x hx
      have hx' : upd o.plain h false x = true := hx
      have e : x ≠ h := by intro e; subst e; simp at hx'
      show upd s.opened h false x = true
      rw [upd_ne _ _ _ _ e] at hx' ⊢
      exact inv.openPlain x hx'
    · intro i hi
      have e : o.held i ≠ h := by
        intro e
        have := inv.apart i hi
        rw [e, hp] at this; exact absurd this (by decide)
      show upd s.opened h false (o.held i) = true
      rw [upd_ne _ _ _ _ e]
      exact inv.openHeld i hi
    · intro i hi
      show upd o.plain h false (o.held i) = false
      by_cases e : o.held i = h
      · rw [e]; simp
      · rw [upd_ne _ _ _ _ e]; exact inv.apart i hi
    · exact inv.uniq
    · intro x hx
      have hx' : upd s.opened h false x = true := hx
      have e : x ≠ h := by intro e; subst e; simp at hx'
      rw [upd_ne _ _ _ _ e] at hx'
      obtain ⟨h1, h2⟩ := inv.owned x hx'
      refine ⟨h1, ?_⟩
      rcases h2 with h2 | h2
      · left
        show upd o.plain h false x = true
        rw [upd_ne _ _ _ _ e]; exact h2
      · exact Or.inr h2
    · exact count_close s.acquired s.closed s.opened h hop inv.count
    · exact inv.fail
  | new i =>
    simp only [step] at hs
    cases hi : s.objs i with
    | some _ => rw [hi] at hs; exact absurd hs (by simp)
    | none =>
      rw [hi] at hs
      simp only [Option.some.injEq] at hs
      subst hs
      exact inv_put inv i (some 0) (by rw [← inv.held i, hi]; rfl) rfl
  | adopt i h =>
    simp only [step] at hs
    cases hi : s.objs i with
    | some _ => rw [hi] at hs; exact absurd hs (by simp)
    | none =>
      rw [hi] at hs
      simp only [Option.some.injEq] at hs
      subst hs
      have h0 : o.held i = 0 := by rw [← inv.held i, hi]; rfl
      have hfree : isHandle h = true → ∀ k, o.held k ≠ h := by
        intro hv k e
        have := inv.apart k (by rw [e]; exact hv)
        rw [e, hal hv] at this; exact absurd this (by decide)
      constructor
      · intro j
        show ((upd s.objs i (some h)) j).getD 0 = upd o.held i h j
        by_cases hj : j = i
        · subst hj; simp
        · rw [upd_ne _ _ _ _ hj, upd_ne _ _ _ _ hj]; exact inv.held j
      · intro x hx
        have hx' : upd o.plain h false x = true := hx
        have e : x ≠ h := by intro e; subst e; simp at hx'
        rw [upd_ne _ _ _ _ e] at hx'
        exact inv.plainH x hx'
      · intro x hx
        have hx' : upd o.plain h false x = true := hx
        have e : x ≠ h := by intro e; subst e; simp at hx'
        rw [upd_ne _ _ _ _ e] at hx'
        exact inv.openPlain x hx'
      · intro j hj
        have hj' : isHandle (upd o.held i h j) = true := hj
        show s.opened (upd o.held i h j) = true
        by_cases e : j = i
        · subst e
          simp only [upd_self] at hj' ⊢
          exact inv.openPlain h (hal hj')
        · rw [upd_ne _ _ _ _ e] at hj' ⊢
          exact inv.openHeld j hj'
      · intro j hj
        have hj' : isHandle (upd o.held i h j) = true := hj
        show upd o.plain h false (upd o.held i h j) = false
        by_cases e : j = i
        · subst e; simp
        · rw [upd_ne _ _ _ _ e] at hj' ⊢
          by_cases e2 : o.held j = h
          · rw [e2]; simp
          · rw [upd_ne _ _ _ _ e2]; exact inv.apart j hj'
      · intro a b ha hab
        have ha' : isHandle (upd o.held i h a) = true := ha
        have hab' : upd o.held i h a = upd o.held i h b := hab
        by_cases ea : a = i
        · subst ea
          by_cases eb : b = a
          · exact eb.symm
          · simp only [upd_self] at ha' hab'
            rw [upd_ne _ _ _ _ eb] at hab'
            exact absurd hab'.symm (hfree ha' b)
        · rw [upd_ne _ _ _ _ ea] at ha' hab'
          by_cases eb : b = i
          · subst eb
            simp only [upd_self] at hab'
            exact absurd hab' (hfree (by rw [← hab']; exact ha') a)
          · rw [upd_ne _ _ _ _ eb] at hab'
            exact inv.uniq a b ha' hab'
      · intro x hx
        obtain ⟨h1, h2⟩ := inv.owned x hx
        refine ⟨h1, ?_⟩
        by_cases e : x = h
        · exact Or.inr ⟨i, by show upd o.held i h i = x; rw [upd_self, e]⟩
        · rcases h2 with h2 | ⟨j, hj⟩
          · left
            show upd o.plain h false x = true
            rw [upd_ne _ _ _ _ e]; exact h2
          · right
            have hji : j ≠ i := by
              intro e'; subst e'; rw [h0] at hj; subst hj; simp [isHandle_zero] at h1
            exact ⟨j, by show upd o.held i h j = x; rw [upd_ne _ _ _ _ hji]; exact hj⟩
      · exact inv.count
      · exact inv.fail
  | moveNew i j =>
    simp only [step] at hs
    cases hi : s.objs i with
    | some _ => rw [hi] at hs; simp at hs
    | none =>
      cases hj : s.objs j with
      | none => rw [hi, hj] at hs; simp at hs
      | some h =>
        rw [hi, hj] at hs
        simp only [Option.some.injEq] at hs
        subst hs
        have hij : i ≠ j := by intro e; subst e; rw [hi] at hj; exact absurd hj (by simp)
        exact inv_transfer inv i j h hij (by rw [← inv.held i, hi]; rfl) hj
  | moveAssign i j =>
    simp only [step] at hs
    cases hi : s.objs i with
    | none => rw [hi] at hs; simp at hs
    | some hI =>
      cases hj : s.objs j with
      | none => rw [hi, hj] at hs; simp at hs
      | some hJ =>
        rw [hi, hj] at hs
        simp only at hs
        obtain ⟨s1, e1, inv1, o1⟩ := inv_dispose inv i hI false hi
        rw [e1] at hs
        simp only at hs
        by_cases hij : i = j
        · subst hij
          rw [o1, upd_self] at hs
          simp only [Option.some.injEq] at hs
          subst hs
          have := inv_put inv1 i (some 0) (by simp) rfl
          have e2 : upd (upd o.held i 0) i 0 = upd o.held i 0 := by
            funext k; by_cases hk : k = i
            · subst hk; simp
            · rw [upd_ne _ _ _ _ hk]
          have e3 : upd (upd s1.objs i (some 0)) i (some 0) = upd s1.objs i (some 0) := by
            funext k; by_cases hk : k = i
            · subst hk; simp
            · rw [upd_ne _ _ _ _ hk]
          rw [← o1, e3]
          simp only [e2] at this
          simpa [Owner.step] using this
        · have hj1 : s1.objs j = some hJ := by
            rw [o1, upd_ne _ _ _ _ (Ne.symm hij)]; exact hj
          rw [hj1] at hs
          simp only [Option.some.injEq] at hs
          subst hs
          have := inv_transfer inv1 i j hJ hij (by simp) hj1
          have e2 : upd (upd (upd o.held i 0) j 0) i (upd o.held i 0 j) =
              upd (upd o.held j 0) i (o.held j) := by
            funext k
            by_cases hk : k = i
            · subst hk; rw [upd_self, upd_self, upd_ne _ _ _ _ (Ne.symm hij)]
            · rw [upd_ne _ _ _ _ hk, upd_ne _ _ _ _ hk]
              by_cases hk2 : k = j
              · subst hk2; simp
              · rw [upd_ne _ _ _ _ hk2, upd_ne _ _ _ _ hk2, upd_ne _ _ _ _ hk]
          simp only [e2] at this
          simpa [Owner.step, hij] using this
  | dispose i =>
    simp only [step] at hs
    cases hi : s.objs i with
    | none => rw [hi] at hs; simp at hs
    | some h =>
      rw [hi] at hs
      obtain ⟨s1, e1, inv1, _⟩ := inv_dispose inv i h false hi
      simp only at hs
      rw [e1] at hs
      simp only [Option.some.injEq] at hs
      subst hs
      exact inv1
  | release i =>
    simp only [step] at hs
    cases hi : s.objs i with
    | none => rw [hi] at hs; simp at hs
    | some h =>
      rw [hi] at hs
      simp only [Option.some.injEq] at hs
      subst hs
      have hh : o.held i = h := by rw [← inv.held i, hi]; rfl
      have hne : ∀ k, k ≠ i → isHandle h = true → o.held k ≠ h := by
        intro k hk hv e
        exact hk ((inv.uniq i k (by rw [hh]; exact hv) (by rw [hh, e])).symm)
      -- the new set of plainly held handles
      have pl : ∀ x, (o.step (.release i)).plain x = true ↔
          (o.plain x = true ∨ (x = h ∧ isHandle h = true)) := by
        intro x
        show (if isHandle (o.held i) then upd o.plain (o.held i) true else o.plain) x = true ↔ _
        rw [hh]
        by_cases hv : isHandle h = true
        · rw [if_pos hv]
          by_cases e : x = h
          · subst e; simp [hv]
          · rw [upd_ne _ _ _ _ e]; simp [e]
        · rw [if_neg hv]; simp [hv]
      constructor
      · intro j
        show ((upd s.objs i (some 0)) j).getD 0 = upd o.held i 0 j
        by_cases hj : j = i
        · subst hj; simp
        · rw [upd_ne _ _ _ _ hj, upd_ne _ _ _ _ hj]; exact inv.held j
      · intro x hx
        rcases (pl x).mp hx with h1 | ⟨h1, h2⟩
        · exact inv.plainH x h1
        · rw [h1]; exact h2
      · intro x hx
        rcases (pl x).mp hx with h1 | ⟨h1, h2⟩
        · exact inv.openPlain x h1
        · subst h1
          show s.opened x = true
          rw [← hh]; exact inv.openHeld i (by rw [hh]; exact h2)
      · intro j hj
        have hj' : isHandle (upd o.held i 0 j) = true := hj
        show s.opened (upd o.held i 0 j) = true
        by_cases e : j = i
        · subst e; simp [isHandle_zero] at hj'
        · rw [upd_ne _ _ _ _ e] at hj' ⊢; exact inv.openHeld j hj'
      · intro j hj
        have hj' : isHandle (upd o.held i 0 j) = true := hj
        show (o.step (.release i)).plain (upd o.held i 0 j) = false
        by_cases e : j = i
        · subst e; simp [isHandle_zero] at hj'
        · rw [upd_ne _ _ _ _ e] at hj' ⊢
          rw [Bool.eq_false_iff]
          intro hp
          rcases (pl _).mp hp with h1 | ⟨h1, h2⟩
          · rw [inv.apart j hj'] at h1; exact absurd h1 (by decide)
          · exact hne j e h2 h1
      · intro a b ha hab
        have ha' : isHandle (upd o.held i 0 a) = true := ha
        have hab' : upd o.held i 0 a = upd o.held i 0 b := hab
        by_cases ea : a = i
        · subst ea; simp [isHandle_zero] at ha'
        · rw [upd_ne _ _ _ _ ea] at ha' hab'
          by_cases eb : b = i
          · subst eb; simp only [upd_self] at hab'; rw [hab'] at ha'; simp [isHandle_zero] at ha'
          · rw [upd_ne _ _ _ _ eb] at hab'
            exact inv.uniq a b ha' hab'
      · intro x hx
        obtain ⟨h1, h2⟩ := inv.owned x hx
        refine ⟨h1, ?_⟩
        rcases h2 with h2 | ⟨j, hj⟩
        · exact Or.inl ((pl x).mpr (Or.inl h2))
        · by_cases e : j = i
          · subst e
            left
            rw [hh] at hj
            exact (pl x).mpr (Or.inr ⟨hj.symm, by rw [hj]; exact h1⟩)
          · exact Or.inr ⟨j, by show upd o.held i 0 j = x; rw [upd_ne _ _ _ _ e]; exact hj⟩
      · exact inv.count
      · exact inv.fail
  | destroy i =>
    simp only [step] at hs
    cases hi : s.objs i with
    | none => rw [hi] at hs; simp at hs
    | some h =>
      rw [hi] at hs
      obtain ⟨s1, e1, inv1, o1⟩ := inv_dispose inv i h true hi
      simp only at hs
      rw [e1] at hs
      simp only [Option.some.injEq] at hs
      subst hs
      have := inv_put inv1 i none (by simp) rfl
      have e2 : upd (upd o.held i 0) i 0 = upd o.held i 0 := by
        funext k; by_cases hk : k = i
        · subst hk; simp
        · rw [upd_ne _ _ _ _ hk]
      simp only [e2] at this
      exact this

theorem inv_run (ops : List Op) : ∀ {s : State} {o : Owner}, Inv s o → o.Follows ops →
    ∀ s', run s ops = some s' → Inv s' (o.run ops) := by
  induction ops with
  | nil => intro s o inv _ s' h; simp only [run, Option.some.injEq] at h; subst h; exact inv
  | cons op ops ih =>
    intro s o inv hf s' h
    simp only [run] at h
    cases hs : step s op with
    | none => rw [hs] at h; exact absurd h (by simp)
    | some s1 =>
      rw [hs] at h
      exact ih (inv_step inv op hf.1 hs) hf.2 s' h

end Winpty.OwnedHandle

namespace Winpty.Props

open Winpty.OwnedHandle Winpty.Spec.Own

/-- C49.  In every program over owning handles that follows the rules, no `CloseHandle` call fails:
no handle is closed twice, and nothing that is not an open handle is ever closed. -/
theorem C49_no_double_close (ops : List Op) (s : State)
    (hf : Owner.start.Follows ops) (h : run init ops = some s) : s.failures = 0 :=
  (inv_run ops inv_init hf s h).fail

/-- C49.  At every moment the open handles are exactly those some live object holds and those the
program holds plainly, each of them only once. -/
theorem C49_open_iff_held (ops : List Op) (s : State)
    (hf : Owner.start.Follows ops) (h : run init ops = some s) (x : Nat) (hx : isHandle x = true) :
    (s.opened x = true ↔
      ((Owner.start.run ops).plain x = true ∨ ∃ i, s.objs i = some x)) ∧
    (∀ i j, s.objs i = some x → s.objs j = some x → i = j) ∧
    (∀ i, s.objs i = some x → (Owner.start.run ops).plain x = false) := by
  have inv := inv_run ops inv_init hf s h
  have hx0 : x ≠ 0 := by intro e; subst e; simp [isHandle] at hx
  have conv : ∀ i, s.objs i = some x ↔ (Owner.start.run ops).held i = x := by
    intro i
    rw [← inv.held i]
    cases e : s.objs i with
    | none => simp [Ne.symm hx0]
    | some v => simp
  refine ⟨⟨?_, ?_⟩, ?_, ?_⟩
  · intro ho
    rcases (inv.owned x ho).2 with h2 | ⟨i, hi⟩
    · exact Or.inl h2
    · exact Or.inr ⟨i, (conv i).mpr hi⟩
  · rintro (h1 | ⟨i, hi⟩)
    · exact inv.openPlain x h1
    · have := (conv i).mp hi
      rw [← this]; exact inv.openHeld i (by rw [this]; exact hx)
  · intro i j hi hj
    exact inv.uniq i j (by rw [(conv i).mp hi]; exact hx) (by rw [(conv i).mp hi, (conv j).mp hj])
  · intro i hi
    have := (conv i).mp hi
    rw [← this]; exact inv.apart i (by rw [this]; exact hx)

/-- C49.  When no object is alive any more, every handle the system ever gave out has been closed
exactly as often as it was given out, except those the program took out of objects or never put
into one, which are still open. -/
theorem C49_closed_once (ops : List Op) (s : State)
    (hf : Owner.start.Follows ops) (h : run init ops = some s) (hdead : ∀ i, s.objs i = none)
    (x : Nat) :
    s.acquired.count x =
      s.closed.count x + (if (Owner.start.run ops).plain x then 1 else 0) := by
  have inv := inv_run ops inv_init hf s h
  rw [inv.count x]
  congr 1
  cases ho : s.opened x with
  | true =>
    rcases (inv.owned x ho).2 with h2 | ⟨i, hi⟩
    · rw [h2]
    · have := inv.held i
      rw [hdead i, hi] at this
      have hx := (inv.owned x ho).1
      rw [← this] at hx
      exact absurd hx (by decide)
  | false =>
    cases hp : (Owner.start.run ops).plain x with
    | false => rfl
    | true =>
      rw [inv.openPlain x hp] at ho
      exact absurd ho (by decide)

/-- A program: two handles, one moved between three objects (self-assignment included), the other
one released. -/
def demoHandles : List Op :=
  [.acquire 4, .adopt 0 4, .acquire 8, .adopt 1 8, .new 2, .moveAssign 2 0, .moveNew 3 2,
   .moveAssign 3 1, .moveAssign 3 3, .acquire 12, .adopt 4 12, .release 4, .adopt 5 0,
   .destroy 5, .destroy 4, .destroy 3, .destroy 2, .destroy 1, .destroy 0]

example : (run init demoHandles).map (fun s => (s.acquired, s.closed, s.failures)) =
    some ([4, 8, 12], [4, 8], 0) := by decide

example : Owner.start.Follows demoHandles := by
  simp [demoHandles, Owner.Follows, Owner.Allowed, Owner.start, Owner.step, upd, isHandle,
    invalidHandle]
  refine ⟨fun i => ?_, fun i => ?_⟩
  · repeat' split
    all_goals decide
  · repeat' split
    all_goals decide

end Winpty.Props
