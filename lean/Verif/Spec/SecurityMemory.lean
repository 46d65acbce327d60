import Verif.Model.SecurityMemory

/-
Specification for the memory of security descriptors (C85), about two states of the memory: which blocks
and handles are live in each.
-/

namespace Winpty.Spec.SecurityMemory

open Winpty.SecurityMemory (Heap Block Kind)

/-- The addresses from `next` on have not been used. -/
def Fresh (h : Heap) : Prop := ∀ a, h.next ≤ a → h.live a = none

/-- The same blocks are live in both: nothing is left behind, and nothing of anybody else is released. -/
def Same (h h' : Heap) : Prop := ∀ a, h'.live a = h.live a

/-- What was live is live, unchanged. -/
def Kept (h h' : Heap) : Prop := ∀ a b, h.live a = some b → h'.live a = some b

/-- All that is live in the second but not in the first is the block at one address. -/
def OnlyNew (h h' : Heap) (a : Nat) : Prop := h.live a = none ∧ (∃ b, h'.live a = some b) ∧
  ∀ x, x ≠ a → h'.live x = h.live x

/-- A security descriptor at this address can be used: it is live, it points to one access control list, and that
is live too. -/
def Usable (h : Heap) (v : Nat) : Prop :=
  ∃ b, h.live v = some b ∧ b.kind = .localMem ∧
    ∃ acl, b.points = [acl] ∧ acl ≠ v ∧ ∃ c, h.live acl = some c ∧ c.kind = .localMem

/-- The blocks that are live in the second state but not in the first are as they were in a third one. -/
def StillThere (h h' later : Heap) : Prop :=
  ∀ a b, h.live a = none → h'.live a = some b → later.live a = some b

/-- From `later` to `after`, exactly the blocks are released that are live in `h'` but not in `h`. -/
def ReleasesThem (h h' later after : Heap) : Prop :=
  ∀ a, (h.live a = none ∧ h'.live a ≠ none → after.live a = none) ∧
    (¬ (h.live a = none ∧ h'.live a ≠ none) → after.live a = later.live a)

end Winpty.Spec.SecurityMemory
