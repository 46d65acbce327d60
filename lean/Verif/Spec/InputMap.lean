import Verif.Model.InputMap
/-!
# Specification of a longest-prefix map given by the history of registrations
-/
namespace Winpty.Spec
open Winpty.InputMap (Key)

/-- The key most recently registered for exactly this sequence. -/
def registered (regs : List (List Nat × Key)) (seq : List Nat) : Option Key :=
  (regs.filterMap fun r => if r.1 = seq then some r.2 else none).getLast?

/-- A registered key counts as one if it has a virtual key or a character. -/
def realKey (k : Key) : Prop := k.virtualKey ≠ 0 ∨ k.unicodeChar ≠ 0

/-- `seq` currently stands for key `k`. -/
def Maps (regs : List (List Nat × Key)) (seq : List Nat) (k : Key) : Prop :=
  registered regs seq = some k ∧ realKey k

end Winpty.Spec
