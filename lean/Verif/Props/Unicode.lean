import Verif.Model.Unicode
import Verif.Spec.Utf
import Verif.Lemmas.Unicode

/-!
# C04, C05: the UTF-8 and UTF-16 codecs

`Spec.utf8`, `Spec.utf16` are the encodings of the Unicode standard written with division and
remainder (`Spec/Utf.lean`); `model_agrees_with_lean_strings` ties them to Lean's own strings.
-/
namespace Winpty.Props
open Winpty.Unicode Winpty.Spec

/-- The encoder produces the standard encoding of every Unicode character, as implemented by Lean's
own `String` library. -/
theorem C04_encode_is_standard (c : Char) :
    encodeUtf8 c.toNat = (String.utf8EncodeChar c).map UInt8.toNat := by
  have hv : c.toNat < 0xD800 ∨ (0xDFFF < c.toNat ∧ c.toNat < 0x110000) := by
    have := c.valid
    simpa [UInt32.isValidChar, Nat.isValidChar] using this
  rw [encodeUtf8_eq, if_pos (show IsScalar c.toNat from hv)]
  unfold utf8 String.utf8EncodeChar
  simp only [show c.val.toNat = c.toNat from rfl]
  generalize c.toNat = n at *
  by_cases h1 : n < 0x80
  · rw [if_pos h1, if_pos (by omega)]; simp; omega
  by_cases h2 : n < 0x800
  · rw [if_neg h1, if_pos h2, if_neg (by omega), if_pos (by omega)]; simp; omega
  by_cases h3 : n < 0x10000
  · rw [if_neg h1, if_neg h2, if_pos h3, if_neg (by omega), if_neg (by omega), if_pos (by omega)]
    simp; omega
  · rw [if_neg h1, if_neg h2, if_neg h3, if_neg (by omega), if_neg (by omega), if_neg (by omega)]
    simp; omega

/-- What is not a scalar value (a surrogate or a number above 10FFFF) is refused. -/
theorem C04_encode_rejects (c : Nat) (h : ¬ IsScalar c) : encodeUtf8 c = [] := by
  rw [encodeUtf8_eq, if_neg h]

/-- The encoder never needs more than the four bytes its callers reserve, and stores bytes. -/
theorem C04_encode_fits (c : Nat) :
    (encodeUtf8 c).length ≤ 4 ∧ ∀ b ∈ encodeUtf8 c, b < 256 := by
  rw [encodeUtf8_eq]
  split
  · rename_i h
    exact ⟨by unfold utf8; repeat' split
              all_goals simp, utf8_bytes c h⟩
  · simp

/-- Round trip: decoding the encoding of a scalar value, whatever bytes follow, returns it. -/
theorem C04_roundtrip (c : Nat) (h : IsScalar c) (rest : List Nat) (hr : ∀ b ∈ rest, b < 256) :
    decodeUtf8 (encodeUtf8 c ++ rest) = .ok c := by
  rw [encodeUtf8_eq, if_pos h]; exact decode_utf8 c h rest hr

/-- Exactness: on a byte string, decoding succeeds with `c` exactly when the string begins with the
standard encoding of the scalar value `c`.  In particular overlong forms, encoded surrogates and
values above 10FFFF are all rejected. -/
theorem C04_decode_exact (bs : List Nat) (hb : ∀ b ∈ bs, b < 256) (c : Nat) :
    decodeUtf8 bs = .ok c ↔ IsScalar c ∧ ∃ rest, bs = utf8 c ++ rest := by
  constructor
  · exact decode_inv bs hb c
  · rintro ⟨h, t, rfl⟩
    exact decode_utf8 c h t (fun b m => hb b (by simp [m]))

/-- The lead byte announces the length of the character, and given that many bytes the decoder
never reads further. -/
theorem C04_length_and_bounds :
    (∀ c, IsScalar c → ∃ b t, encodeUtf8 c = b :: t ∧ utf8CharLength b = (encodeUtf8 c).length) ∧
    (∀ b t, utf8CharLength b ≤ (b :: t).length → decodeUtf8 (b :: t) ≠ .oob) := by
  constructor
  · intro c h
    obtain ⟨b, t, e, _, l⟩ := utf8_head c h
    rw [encodeUtf8_eq, if_pos h]
    exact ⟨b, t, e, l⟩
  · intro b t hl he
    rcases decode_oob _ he with h | ⟨b', t', e, h⟩
    · simp at h
    · cases e; omega

example : IsScalar 0x1F600 ∧ encodeUtf8 0x1F600 = [0xF0, 0x9F, 0x98, 0x80] := by decide
example : decodeUtf8 [0xC0, 0x80] = .invalid ∧ decodeUtf8 [0xED, 0xA0, 0x80] = .invalid ∧
    decodeUtf8 [0xF4, 0x90, 0x80, 0x80] = .invalid ∧ decodeUtf8 [0xE2, 0x82] = .oob := by decide

/-- Every scalar value is encoded as its standard UTF-16 form; anything else is refused. -/
theorem C05_encode_is_standard (c : Nat) :
    encodeUtf16 c = if IsScalar c then utf16 c else [] := encodeUtf16_eq c

/-- Supplementary characters become a high surrogate followed by a low surrogate, all others a
single unit that is not a surrogate; every unit fits in 16 bits. -/
theorem C05_shape (c : Nat) (h : IsScalar c) :
    (c < 0x10000 → encodeUtf16 c = [c]) ∧
    (0x10000 ≤ c → ∃ hi lo, encodeUtf16 c = [hi, lo] ∧
      0xD800 ≤ hi ∧ hi ≤ 0xDBFF ∧ 0xDC00 ≤ lo ∧ lo ≤ 0xDFFF ∧ decodeSurrogatePair hi lo = c) := by
  rw [encodeUtf16_eq, if_pos h]
  unfold IsScalar at h
  unfold utf16
  constructor
  · intro hc; rw [if_pos hc]
  · intro hc; rw [if_neg (by omega)]
    refine ⟨_, _, rfl, by omega, by omega, by omega, by omega, ?_⟩
    unfold decodeSurrogatePair
    omega

/-- Conversely every surrogate pair decodes to a supplementary scalar value whose encoding is that
pair, so no two pairs are confused. -/
theorem C05_roundtrip (hi lo : Nat) (h1 : 0xD800 ≤ hi) (h2 : hi ≤ 0xDBFF)
    (h3 : 0xDC00 ≤ lo) (h4 : lo ≤ 0xDFFF) :
    IsScalar (decodeSurrogatePair hi lo) ∧ 0x10000 ≤ decodeSurrogatePair hi lo ∧
      encodeUtf16 (decodeSurrogatePair hi lo) = [hi, lo] := by
  have e : decodeSurrogatePair hi lo = (hi - 0xD800) * 1024 + (lo - 0xDC00) + 0x10000 := by
    unfold decodeSurrogatePair; omega
  have hs : IsScalar (decodeSurrogatePair hi lo) := by rw [e]; unfold IsScalar; omega
  refine ⟨hs, by omega, ?_⟩
  rw [encodeUtf16_eq, if_pos hs]
  unfold utf16
  rw [if_neg (by omega), e]
  simp only [List.cons.injEq, and_true]
  omega

example : encodeUtf16 0x1F600 = [0xD83D, 0xDE00] ∧ decodeSurrogatePair 0xD83D 0xDE00 = 0x1F600 := by
  decide

end Winpty.Props
