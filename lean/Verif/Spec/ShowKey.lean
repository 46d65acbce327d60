import Verif.Spec.Text
/-!
# Specification of the key viewer

Independent of the model.
-/
namespace Winpty.Spec.Keys

open Winpty.Spec (codes)

/-- A number in a base, filled up on the left to a width. -/
def column (fill : Char) (width base n : Nat) : List Nat :=
  codes (List.replicate (width - (Nat.toDigits base n).length) fill ++ Nat.toDigits base n)

/-- The line of a byte: decimal, octal and hexadecimal. -/
def byteLine (b : Nat) : List Nat :=
  codes ['\t'] ++ column ' ' 3 10 b ++ codes [' '] ++ column '0' 4 8 b ++ codes [' ', '0', 'x'] ++
    column '0' 2 16 b ++ codes ['\n']

/-- Caret notation: a control character is a caret and the letter 64 places further on (modulo 128);
any other character is itself. -/
def caret (b : Nat) : List Nat := if b < 32 ∨ b = 127 then [94, (b + 64) % 128] else [b]

/-- The value of a decimal digit; blanks count as 0. -/
def place (c : Nat) : Nat := if 48 ≤ c then c - 48 else 0

/-- Reading the table: the number in the three characters after each tab. -/
def table : List Nat → List Nat
  | 9 :: a :: b :: c :: rest => (100 * place a + 10 * place b + place c) :: table rest
  | _ :: rest => table rest
  | [] => []

/-- What the viewer reads: up to and including the first read that begins with Ctrl-D, or up to the end
of the input. -/
def viewed : List (List Nat) → List (List Nat)
  | [] => []
  | [] :: _ => []
  | (4 :: r) :: _ => [4 :: r]
  | r :: more => r :: viewed more

end Winpty.Spec.Keys
