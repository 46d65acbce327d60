import Verif.Model.Buffer

/-!
# Model of integer formatting, `src/shared/StringBuilder.h`, and of the agent's start-up parameters

Characters are their codes (`Nat`).
-/
namespace Winpty.StringBuilder
open Winpty.Buffer (toUnsigned)

/-- The `do … while` loop of `gdecOfInt`, src/shared/StringBuilder.h:98-103; `acc` is what has been
written so far (the code fills the array from its end). -/
def decLoop (u : Nat) (acc : List Nat) : List Nat :=
  if u / 10 ≠ 0 then decLoop (u / 10) ((48 + u % 10) :: acc) else (48 + u % 10) :: acc
termination_by u
decreasing_by omega

/-- The magnitude and sign of `gdecOfInt`, src/shared/StringBuilder.h:86-91, for a type of `size`
bytes: conversion to unsigned and unsigned negation, modulo `2^bits`. -/
def decMagnitude (size : Nat) (value : Int) : Nat :=
  if value < 0 then (2 ^ (8 * size) - toUnsigned (8 * size) value) % 2 ^ (8 * size)
  else toUnsigned (8 * size) value

/-- The characters `gdecOfInt` writes in front of the terminating NUL,
src/shared/StringBuilder.h:85-111. -/
def decText (size : Nat) (value : Int) : List Nat :=
  if value < 0 then 45 :: decLoop (decMagnitude size value) []
  else decLoop (decMagnitude size value) []

/-- `gdecOfInt`, src/shared/StringBuilder.h:85-111: `none` if the text and its NUL do not fit the
array of `sizeof(I) * 3 + 1 + 1` elements (an out-of-bounds write). -/
def gdecOfInt (size : Nat) (value : Int) : Option (List Nat) :=
  if (decText size value).length + 1 ≤ size * 3 + 1 + 1 then some (decText size value) else none

/-- `hex[digit]`, src/shared/StringBuilder.h:126-127. -/
def hexDigit (d : Nat) : Nat := if d < 10 then 48 + d else 97 + (d - 10)

/-- The loop that skips leading zeros, src/shared/StringBuilder.h:134-142.  `r` is the number of
digits left, `len - inIndex`, so `shift = 4 * (r - 1)`. -/
def hexSkip (u : Nat) : Nat → Nat
  | 0 => 0
  | 1 => 1
  | r + 2 => if (u >>> (4 * (r + 1))) &&& 0xF ≠ 0 then r + 2 else hexSkip u (r + 1)

/-- The loop that writes digits, src/shared/StringBuilder.h:143-147. -/
def hexEmit (u : Nat) : Nat → List Nat
  | 0 => []
  | r + 1 => hexDigit ((u >>> (4 * r)) &&& 0xF) :: hexEmit u r

/-- The characters `ghexOfInt` writes in front of the terminating NUL,
src/shared/StringBuilder.h:122-153. -/
def hexText (leadingZeros : Bool) (size : Nat) (value : Int) : List Nat :=
  hexEmit (toUnsigned (8 * size) value)
    (if leadingZeros then size * 2 else hexSkip (toUnsigned (8 * size) value) (size * 2))

/-- `ghexOfInt`, src/shared/StringBuilder.h:122-153: `none` if the array of `sizeof(I) * 2 + 1`
elements is exceeded. -/
def ghexOfInt (leadingZeros : Bool) (size : Nat) (value : Int) : Option (List Nat) :=
  if (hexText leadingZeros size value).length + 1 ≤ size * 2 + 1 then
    some (hexText leadingZeros size value)
  else none

end Winpty.StringBuilder
