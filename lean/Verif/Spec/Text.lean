/-!
# Specification of numeric text

Uses Lean's own digit conversion (`Nat.toDigits`), independent of the model.
-/
namespace Winpty.Spec

/-- Character codes of a Lean string. -/
def codes (s : List Char) : List Nat := s.map Char.toNat

/-- Canonical decimal text of an integer: a minus sign if negative, no leading zeros. -/
def decimal (i : Int) : List Nat :=
  if i < 0 then codes ('-' :: Nat.toDigits 10 i.natAbs) else codes (Nat.toDigits 10 i.natAbs)

/-- Canonical lower-case hexadecimal text. -/
def hexadecimal (n : Nat) : List Nat := codes (Nat.toDigits 16 n)

/-- Hexadecimal text padded with zeros to a width. -/
def hexPadded (width n : Nat) : List Nat :=
  codes (List.replicate (width - (Nat.toDigits 16 n).length) '0' ++ Nat.toDigits 16 n)

/-- `value` is representable in a signed or unsigned C integer type of `size` bytes. -/
def Fits (size : Nat) (value : Int) : Prop := -2 ^ (8 * size - 1) ≤ value ∧ value < 2 ^ (8 * size)

/-- Value of the leading decimal digits of a text. -/
def scanDigits : Nat → List Nat → Nat
  | acc, [] => acc
  | acc, c :: r => if 48 ≤ c ∧ c < 58 then scanDigits (acc * 10 + (c - 48)) r else acc

/-- Leading white space (C `isspace`) is skipped. -/
def skipSpace : List Nat → List Nat
  | [] => []
  | c :: r => if c = 32 ∨ (9 ≤ c ∧ c ≤ 13) then skipSpace r else c :: r

/-- An optional sign, then digits. -/
def signedDigits : List Nat → Int
  | 45 :: r => -(scanDigits 0 r : Int)
  | 43 :: r => (scanDigits 0 r : Int)
  | s => (scanDigits 0 s : Int)

/-- The number denoted by a text according to the C library's `strtol` family in base 10, before any
range check. -/
def strtolValue (s : List Nat) : Int := signedDigits (skipSpace s)

end Winpty.Spec
