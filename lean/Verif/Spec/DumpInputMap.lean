import Verif.Spec.InputMap

/-!
# Specification of the dump of the key table (C87)
-/
namespace Winpty.Spec.DumpInputMap

/-- How a byte is shown: a control character as `^` and its letter, a space in quotes, the rest as it is. -/
def byteShown (b : Nat) : List Nat :=
  if b < 32 then [94, b + 64]
  else if b = 127 then [94, 63]
  else if b = 32 then [39, 32, 39]
  else [b]

/-- How a sequence is shown: its bytes with spaces between them. -/
def shown : List Nat → List Nat
  | [] => []
  | [b] => byteShown b
  | b :: c :: r => byteShown b ++ 32 :: shown (c :: r)

/-- A line: the sequence, an arrow, the text of the key. -/
def line (seq keyText : List Nat) : List Nat := shown seq ++ [32, 45, 62, 32] ++ keyText

end Winpty.Spec.DumpInputMap
