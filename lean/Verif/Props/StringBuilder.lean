import Verif.Lemmas.StringBuilder

/-!
# C38: integer formatting
-/
namespace Winpty.Props
open Winpty.StringBuilder Winpty.Spec Winpty.Buffer

/-- Every value of every signed or unsigned integer type (of `size` bytes) is formatted as its
canonical decimal text, and the text with its terminator fits the buffer (`some`). -/
theorem C38_decimal (size : Nat) (hs : 0 < size) (value : Int) (hf : Fits size value) :
    gdecOfInt size value = some (decimal value) := by
  unfold gdecOfInt
  rw [decText_eq size value hs hf, if_pos (digits_len size value hs hf)]

/-- Hexadecimal: the canonical lower-case text of the two's-complement bits, within the buffer. -/
theorem C38_hex (size : Nat) (hs : 0 < size) (value : Int) :
    ghexOfInt false size value = some (hexadecimal ((value % 2 ^ (8 * size)).toNat)) ∧
    ghexOfInt true size value = some (hexPadded (2 * size) ((value % 2 ^ (8 * size)).toNat)) := by
  obtain ⟨s, rfl⟩ : ∃ s, size = s + 1 := ⟨size - 1, by omega⟩
  have hlt := toUnsigned_lt16 (s + 1) value
  have e : (value % 2 ^ (8 * (s + 1))).toNat = toUnsigned (8 * (s + 1)) value := rfl
  rw [e]
  have e2 : (s + 1) * 2 = 2 * s + 1 + 1 := by omega
  constructor
  · unfold ghexOfInt hexText
    rw [if_pos]
    · simp only [Bool.false_eq_true, ↓reduceIte, Option.some.injEq]
      rw [e2] at hlt ⊢
      exact hexText_eq _ _ hlt
    · simp only [Bool.false_eq_true, ↓reduceIte, hexEmit_length]
      have := hexSkip_le (toUnsigned (8 * (s + 1)) value) ((s + 1) * 2)
      omega
  · unfold ghexOfInt hexText
    rw [if_pos]
    · simp only [↓reduceIte, Option.some.injEq]
      rw [e2] at hlt ⊢
      rw [show 2 * (s + 1) = 2 * s + 1 + 1 by omega]
      exact hexEmit_padded _ _ hlt
    · simp only [↓reduceIte, hexEmit_length]; omega

/-- The decimal text read back by the C library rules is the value, whatever non-digit follows. -/
theorem C38_parses_back (size : Nat) (hs : 0 < size) (value : Int) (hf : Fits size value)
    (rest : List Nat) (hr : ∀ c, rest.head? = some c → ¬ (48 ≤ c ∧ c < 58)) :
    ∃ t, gdecOfInt size value = some t ∧ strtolValue (t ++ rest) = value :=
  ⟨_, C38_decimal size hs value hf, strtolValue_decimal value rest hr⟩

/-- Non-vacuity: the extreme values of 64-bit and 16-bit types. -/
example : Fits 8 (-2 ^ 63) ∧ Fits 8 (2 ^ 64 - 1) ∧ Fits 2 (-32768) ∧
    gdecOfInt 2 (-32768) = some (codes ['-', '3', '2', '7', '6', '8']) ∧
    ghexOfInt false 2 (-2) = some (codes ['f', 'f', 'f', 'e']) ∧
    ghexOfInt true 2 10 = some (codes ['0', '0', '0', 'a']) := by
  refine ⟨by unfold Fits; omega, by unfold Fits; omega, by unfold Fits; omega, ?_, by decide, by decide⟩
  rw [C38_decimal 2 (by omega) _ (by unfold Fits; omega)]
  decide

end Winpty.Props
