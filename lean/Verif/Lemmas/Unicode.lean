import Verif.Model.Unicode
import Verif.Spec.Utf
import Verif.Lemmas.Bits

/-! Helper lemmas about the UTF codecs. -/
namespace Winpty.Unicode
open Winpty.Bits Winpty.Spec

theorem encodeUtf8_eq (c : Nat) : encodeUtf8 c = if IsScalar c then utf8 c else [] := by
  unfold encodeUtf8 IsScalar utf8
  simp only [and_1f, and_3f, and_0f, and_07, Nat.shiftRight_eq_div_pow, Nat.pow_zero, Nat.div_one]
  rw [or_80 (c % 64) (by omega), or_80 (c / 2 ^ 6 % 64) (by omega),
    or_80 (c / 2 ^ 12 % 64) (by omega), or_c0 _ (by omega), or_e0 _ (by omega), or_f0 _ (by omega)]
  repeat' split
  all_goals first
    | rfl
    | (exfalso; omega)
    | (simp only [List.cons.injEq, and_true]; omega)

theorem utf8CharLength_eq (b : Nat) (h : b < 256) :
    utf8CharLength b = if b < 128 then 1 else if b < 192 then 0 else if b < 224 then 2
      else if b < 240 then 3 else if b < 248 then 4 else 0 := by
  unfold utf8CharLength
  simp only [and_80 b h, and_e0 b h, and_f0 b h, and_f8 b h]
  repeat' split
  all_goals first
    | rfl
    | (exfalso; omega)

theorem utf8CharLength_le (b : Nat) : utf8CharLength b ≤ 4 := by
  unfold utf8CharLength; repeat' split
  all_goals omega

theorem dec2 (b0 b1 : Nat) : ((b0 &&& 0x1F) <<< 6) ||| (b1 &&& 0x3F) = b0 % 32 * 64 + b1 % 64 := by
  rw [and_1f, and_3f, shl_or _ _ _ (by omega)]

theorem dec3 (b0 b1 b2 : Nat) :
    ((b0 &&& 0x0F) <<< 12) ||| ((b1 &&& 0x3F) <<< 6) ||| (b2 &&& 0x3F)
      = b0 % 16 * 4096 + b1 % 64 * 64 + b2 % 64 := by
  have e : ((b0 &&& 0x0F) <<< 12) ||| ((b1 &&& 0x3F) <<< 6)
      = (b0 % 16 * 64 + b1 % 64) <<< 6 := by
    rw [and_0f, and_3f, shl_or _ _ _ (by rw [Nat.shiftLeft_eq]; omega)]
    simp only [Nat.shiftLeft_eq]; omega
  rw [e, and_3f, shl_or _ _ _ (by omega)]; omega

theorem dec4 (b0 b1 b2 b3 : Nat) :
    ((b0 &&& 0x07) <<< 18) ||| ((b1 &&& 0x3F) <<< 12) ||| ((b2 &&& 0x3F) <<< 6) ||| (b3 &&& 0x3F)
      = b0 % 8 * 262144 + b1 % 64 * 4096 + b2 % 64 * 64 + b3 % 64 := by
  have e1 : ((b0 &&& 0x07) <<< 18) ||| ((b1 &&& 0x3F) <<< 12)
      = (b0 % 8 * 64 + b1 % 64) <<< 12 := by
    rw [and_07, and_3f, shl_or _ _ _ (by rw [Nat.shiftLeft_eq]; omega)]
    simp only [Nat.shiftLeft_eq]; omega
  have e2 : ((b0 % 8 * 64 + b1 % 64) <<< 12) ||| ((b2 &&& 0x3F) <<< 6)
      = (b0 % 8 * 4096 + b1 % 64 * 64 + b2 % 64) <<< 6 := by
    rw [and_3f, shl_or _ _ _ (by rw [Nat.shiftLeft_eq]; omega)]
    simp only [Nat.shiftLeft_eq]; omega
  rw [e1, e2, and_3f, shl_or _ _ _ (by omega)]; omega

/-- The arithmetic reading of `decodeUtf8`. -/
def decArith (b0 : Nat) (rest : List Nat) : Dec :=
      if b0 < 128 then .ok b0
      else if b0 < 192 then .invalid
      else if b0 < 224 then
        match rest with
        | b1 :: _ =>
          if 128 ≤ b1 ∧ b1 < 192 ∧ 0x80 ≤ b0 % 32 * 64 + b1 % 64
          then .ok (b0 % 32 * 64 + b1 % 64) else .invalid
        | _ => .oob
      else if b0 < 240 then
        match rest with
        | b1 :: b2 :: _ =>
          if (128 ≤ b1 ∧ b1 < 192) ∧ (128 ≤ b2 ∧ b2 < 192) ∧
              IsScalar (b0 % 16 * 4096 + b1 % 64 * 64 + b2 % 64) ∧
              0x800 ≤ b0 % 16 * 4096 + b1 % 64 * 64 + b2 % 64
          then .ok (b0 % 16 * 4096 + b1 % 64 * 64 + b2 % 64) else .invalid
        | _ => .oob
      else if b0 < 248 then
        match rest with
        | b1 :: b2 :: b3 :: _ =>
          if (128 ≤ b1 ∧ b1 < 192) ∧ (128 ≤ b2 ∧ b2 < 192) ∧ (128 ≤ b3 ∧ b3 < 192) ∧
              IsScalar (b0 % 8 * 262144 + b1 % 64 * 4096 + b2 % 64 * 64 + b3 % 64) ∧
              0x10000 ≤ b0 % 8 * 262144 + b1 % 64 * 4096 + b2 % 64 * 64 + b3 % 64
          then .ok (b0 % 8 * 262144 + b1 % 64 * 4096 + b2 % 64 * 64 + b3 % 64) else .invalid
        | _ => .oob
      else .invalid

theorem decodeUtf8_cons (b0 : Nat) (rest : List Nat) (h0 : b0 < 256) (hr : ∀ b ∈ rest, b < 256) :
    decodeUtf8 (b0 :: rest) = decArith b0 rest := by
  unfold decArith
  simp only [decodeUtf8]
  rw [utf8CharLength_eq b0 h0]
  by_cases c1 : b0 < 128
  · simp [c1]
  by_cases c2 : b0 < 192
  · simp [c1, c2]
  by_cases c3 : b0 < 224
  · simp only [c1, c2, c3, if_true, if_false]
    match rest, hr with
    | [], _ => rfl
    | b1 :: t, hr =>
      have h1 := hr b1 (by simp)
      simp only [dec2, ne_eq, and_c0 b1 h1]
      repeat' split
      all_goals first
        | rfl
        | (exfalso; omega)
  by_cases c4 : b0 < 240
  · simp only [c1, c2, c3, c4, if_true, if_false]
    match rest, hr with
    | [], _ => rfl
    | [_], _ => rfl
    | b1 :: b2 :: t, hr =>
      have h1 := hr b1 (by simp)
      have h2 := hr b2 (by simp)
      simp only [dec3, ne_eq, and_c0 b1 h1, and_c0 b2 h2]
      have hlt : b0 % 16 * 4096 + b1 % 64 * 64 + b2 % 64 < 65536 := by omega
      generalize b0 % 16 * 4096 + b1 % 64 * 64 + b2 % 64 = n at *
      by_cases hn : IsScalar n
      · simp only [hn, true_and]
        unfold IsScalar at hn
        repeat' split
        all_goals first
          | rfl
          | (exfalso; omega)
      · simp only [hn, false_and, and_false, if_false]
        unfold IsScalar at hn
        repeat' split
        all_goals first
          | rfl
          | (exfalso; omega)
  by_cases c5 : b0 < 248
  · simp only [c1, c2, c3, c4, c5, if_true, if_false]
    match rest, hr with
    | [], _ => rfl
    | [_], _ => rfl
    | [_, _], _ => rfl
    | b1 :: b2 :: b3 :: t, hr =>
      have h1 := hr b1 (by simp)
      have h2 := hr b2 (by simp)
      have h3 := hr b3 (by simp)
      simp only [dec4, ne_eq, and_c0 b1 h1, and_c0 b2 h2, and_c0 b3 h3]
      have hlt : b0 % 8 * 262144 + b1 % 64 * 4096 + b2 % 64 * 64 + b3 % 64 < 8 * 262144 := by omega
      generalize b0 % 8 * 262144 + b1 % 64 * 4096 + b2 % 64 * 64 + b3 % 64 = n at *
      by_cases hn : IsScalar n
      · simp only [hn, true_and]
        unfold IsScalar at hn
        repeat' split
        all_goals first
          | rfl
          | (exfalso; omega)
      · simp only [hn, false_and, and_false, if_false]
        unfold IsScalar at hn
        repeat' split
        all_goals first
          | rfl
          | (exfalso; omega)
  · simp [c1, c2, c3, c4, c5]

theorem utf8_ne_nil (c : Nat) : utf8 c ≠ [] := by
  unfold utf8; repeat' split
  all_goals simp

theorem utf8_bytes (c : Nat) (h : IsScalar c) : ∀ b ∈ utf8 c, b < 256 := by
  unfold IsScalar at h
  unfold utf8
  repeat' split
  all_goals (simp; try omega)

theorem decode_utf8 (c : Nat) (h : IsScalar c) (rest : List Nat) (hr : ∀ b ∈ rest, b < 256) :
    decodeUtf8 (utf8 c ++ rest) = .ok c := by
  have hs := h
  unfold IsScalar at h
  unfold utf8
  split
  · rw [List.cons_append, decodeUtf8_cons _ _ (by omega) (by simpa using hr)]
    simp [decArith, *]
  split
  · rw [List.cons_append, decodeUtf8_cons _ _ (by omega) (by simp; exact ⟨by omega, hr⟩)]
    unfold decArith; rw [if_neg (by omega), if_neg (by omega), if_pos (by omega)]
    have e : (192 + c / 64) % 32 * 64 + (128 + c % 64) % 64 = c := by omega
    simp only [List.cons_append, e]
    rw [if_pos (by omega)]
  split
  · rw [List.cons_append, decodeUtf8_cons _ _ (by omega)
      (by simp; exact ⟨by omega, by omega, hr⟩)]
    unfold decArith
    rw [if_neg (by omega), if_neg (by omega), if_neg (by omega), if_pos (by omega)]
    have e : (224 + c / 4096) % 16 * 4096 + (128 + c / 64 % 64) % 64 * 64 + (128 + c % 64) % 64
        = c := by omega
    simp only [List.cons_append, e]
    rw [if_pos ⟨by omega, by omega, hs, by omega⟩]
  · rw [List.cons_append, decodeUtf8_cons _ _ (by omega)
      (by simp; exact ⟨by omega, by omega, by omega, hr⟩)]
    unfold decArith
    rw [if_neg (by omega), if_neg (by omega), if_neg (by omega), if_neg (by omega),
      if_pos (by omega)]
    have e : (240 + c / 262144) % 8 * 262144 + (128 + c / 4096 % 64) % 64 * 4096 +
        (128 + c / 64 % 64) % 64 * 64 + (128 + c % 64) % 64 = c := by omega
    simp only [List.cons_append, e]
    rw [if_pos ⟨by omega, by omega, by omega, hs, by omega⟩]

/-- If decoding succeeds, the bytes start with the (unique) encoding of the result. -/
theorem decode_inv (bs : List Nat) (hb : ∀ b ∈ bs, b < 256) (c : Nat)
    (h : decodeUtf8 bs = .ok c) : IsScalar c ∧ ∃ t, bs = utf8 c ++ t := by
  match bs, hb with
  | [], _ => simp [decodeUtf8] at h
  | b0 :: rest, hb =>
    have h0 := hb b0 (by simp)
    have hr : ∀ b ∈ rest, b < 256 := fun b m => hb b (by simp [m])
    rw [decodeUtf8_cons b0 rest h0 hr] at h
    unfold decArith at h
    split at h
    · cases h
      refine ⟨by unfold IsScalar; omega, rest, ?_⟩
      unfold utf8; simp [*]
    split at h
    · cases h
    split at h
    · split at h
      · split at h
        · rename_i _ b1 t hc
          cases h
          have h1 := hr b1 (by simp)
          refine ⟨by unfold IsScalar; omega, t, ?_⟩
          unfold utf8
          rw [if_neg (by omega), if_pos (by omega)]
          simp only [List.cons_append, List.nil_append, List.cons.injEq, and_true]
          omega
        · cases h
      · cases h
    split at h
    · split at h
      · split at h
        · rename_i _ b1 b2 t hc
          cases h
          have h1 := hr b1 (by simp)
          have h2 := hr b2 (by simp)
          refine ⟨hc.2.2.1, t, ?_⟩
          unfold utf8
          rw [if_neg (by omega), if_neg (by omega), if_pos (by omega)]
          simp only [List.cons_append, List.nil_append, List.cons.injEq, and_true]
          omega
        · cases h
      · cases h
    split at h
    · split at h
      · split at h
        · rename_i _ b1 b2 b3 t hc
          cases h
          have h1 := hr b1 (by simp)
          have h2 := hr b2 (by simp)
          have h3 := hr b3 (by simp)
          refine ⟨hc.2.2.2.1, t, ?_⟩
          unfold utf8
          rw [if_neg (by omega), if_neg (by omega), if_neg (by omega)]
          simp only [List.cons_append, List.nil_append, List.cons.injEq, and_true]
          omega
        · cases h
      · cases h
    · cases h

theorem utf8_head (c : Nat) (h : IsScalar c) :
    ∃ b t, utf8 c = b :: t ∧ b < 256 ∧ utf8CharLength b = (utf8 c).length := by
  unfold IsScalar at h
  unfold utf8
  repeat' split
  all_goals
    refine ⟨_, _, rfl, by omega, ?_⟩
    rw [utf8CharLength_eq _ (by omega)]
    simp only [List.length_cons, List.length_nil]
    repeat' split
    all_goals omega

/-- If decoding runs out of bytes, the lead byte announced more bytes than there are. -/
theorem decode_oob (bs : List Nat) (h : decodeUtf8 bs = .oob) :
    bs = [] ∨ ∃ b t, bs = b :: t ∧ bs.length < utf8CharLength b := by
  match bs with
  | [] => simp
  | b0 :: rest =>
    right
    refine ⟨b0, rest, rfl, ?_⟩
    rcases Nat.lt_or_ge (b0 :: rest).length (utf8CharLength b0) with hl | hl
    · exact hl
    exfalso
    have hle := utf8CharLength_le b0
    have key : ∀ n, utf8CharLength b0 = n → n ≤ (b0 :: rest).length → n ≤ 4 → False := by
      intro n hn hl h4
      simp only [decodeUtf8, hn] at h
      match n, rest with
      | 0, _ => simp at h
      | 1, _ => simp at h
      | 2, [] => simp at hl
      | 2, b1 :: _ => simp only at h; repeat' split at h
                      all_goals cases h
      | 3, [] => simp at hl
      | 3, [_] => simp at hl
      | 3, _ :: _ :: _ => simp only at h; repeat' split at h
                          all_goals cases h
      | 4, [] => simp at hl
      | 4, [_] => simp at hl
      | 4, [_, _] => simp at hl
      | 4, _ :: _ :: _ :: _ => simp only at h; repeat' split at h
                               all_goals cases h
      | n + 5, _ => omega
    exact key _ rfl hl hle

theorem encodeUtf16_eq (c : Nat) : encodeUtf16 c = if IsScalar c then utf16 c else [] := by
  unfold encodeUtf16 IsScalar utf16
  split
  · repeat' split
    all_goals first
      | rfl
      | (exfalso; omega)
  split
  · rw [if_pos (by omega)]
    simp only [and_3ff, Nat.shiftRight_eq_div_pow]
    rw [d800_or _ (by omega), dc00_or _ (by omega)]
  · rw [if_neg (by omega)]

end Winpty.Unicode
