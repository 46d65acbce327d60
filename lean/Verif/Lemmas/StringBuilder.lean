import Verif.Model.StringBuilder
import Verif.Spec.Text
import Verif.Lemmas.Bits

namespace Winpty.StringBuilder
open Winpty.Buffer Winpty.Spec

theorem digitChar_dec (d : Nat) (h : d < 10) : (Nat.digitChar d).toNat = 48 + d := by
  have : ∀ d, d < 10 → (Nat.digitChar d).toNat = 48 + d := by decide
  exact this d h

theorem digitChar_hex (d : Nat) (h : d < 16) : (Nat.digitChar d).toNat = hexDigit d := by
  have : ∀ d, d < 16 → (Nat.digitChar d).toNat = hexDigit d := by decide
  exact this d h

theorem decLoop_eq (u : Nat) (acc : List Nat) :
    decLoop u acc = codes (Nat.toDigits 10 u) ++ acc := by
  induction u using Nat.strongRecOn generalizing acc with
  | ind u ih =>
    rw [decLoop, Nat.toDigits_eq_if (by omega)]
    split
    · rw [if_neg (by omega), ih _ (by omega)]
      simp [codes, digitChar_dec _ (Nat.mod_lt u (by omega : 10 > 0))]
    · rw [if_pos (by omega)]
      have : u % 10 = u := Nat.mod_eq_of_lt (by omega)
      simp [codes, digitChar_dec u (by omega), this]

theorem toUnsigned_nonneg (bits : Nat) (i : Int) (h0 : 0 ≤ i) (h : i < 2 ^ bits) :
    toUnsigned bits i = i.natAbs := by
  unfold toUnsigned
  rw [Int.emod_eq_of_lt h0 h]
  omega

theorem toUnsigned_neg (bits : Nat) (i : Int) (h0 : i < 0) (h : -2 ^ bits ≤ i) :
    toUnsigned bits i = 2 ^ bits - i.natAbs := by
  unfold toUnsigned
  have hp : (2 ^ bits : Int) = ((2 ^ bits : Nat) : Int) := by simp
  rw [hp] at h ⊢
  generalize (2 ^ bits : Nat) = N at *
  have : i % (N : Int) = i + N := by
    by_cases he : i = -N
    · subst he; simp; omega
    · rw [← Int.add_emod_right, Int.emod_eq_of_lt (by omega) (by omega)]
  rw [this]
  omega

theorem decMagnitude_eq (size : Nat) (i : Int) (hs : 0 < size) (hf : Fits size i) :
    decMagnitude size i = i.natAbs := by
  unfold decMagnitude
  obtain ⟨h1, h2⟩ := hf
  have hpow : (2 ^ (8 * size) : Int) = 2 * 2 ^ (8 * size - 1) := by
    rw [← Int.pow_succ']; congr 1; omega
  have hpn : (2 ^ (8 * size) : Nat) = 2 * 2 ^ (8 * size - 1) := by
    rw [← Nat.pow_succ']; congr 1; omega
  have hc : (2 ^ (8 * size - 1) : Int) = ((2 ^ (8 * size - 1) : Nat) : Int) := by simp
  have hpos : 0 < 2 ^ (8 * size - 1) := Nat.pow_pos (by omega)
  split
  · rename_i hneg
    rw [toUnsigned_neg _ _ hneg (by omega)]
    rw [hpn] at *
    generalize 2 ^ (8 * size - 1) = N at *
    rw [Nat.mod_eq_of_lt (by omega)]
    omega
  · exact toUnsigned_nonneg _ _ (by omega) h2

theorem decText_eq (size : Nat) (i : Int) (hs : 0 < size) (hf : Fits size i) :
    decText size i = decimal i := by
  unfold decText decimal
  rw [decMagnitude_eq size i hs hf, decLoop_eq]
  simp [codes]

theorem digits_len (size : Nat) (i : Int) (hs : 0 < size) (hf : Fits size i) :
    (decimal i).length + 1 ≤ size * 3 + 1 + 1 := by
  have hle : (Nat.toDigits 10 i.natAbs).length ≤ size * 3 := by
    rw [Nat.length_toDigits_le_iff (by omega) (by omega)]
    obtain ⟨h1, h2⟩ := hf
    have hc : (2 ^ (8 * size) : Int) = ((2 ^ (8 * size) : Nat) : Int) := by simp
    have hc' : (2 ^ (8 * size - 1) : Int) = ((2 ^ (8 * size - 1) : Nat) : Int) := by simp
    have h3 : 2 ^ (8 * size - 1) < 2 ^ (8 * size) := Nat.pow_lt_pow_right (by omega) (by omega)
    have h4 : 2 ^ (8 * size) ≤ 10 ^ (size * 3) := by
      rw [Nat.mul_comm size 3, Nat.pow_mul, Nat.pow_mul]
      exact Nat.pow_le_pow_left (by decide) _
    omega
  unfold decimal codes
  split <;> simp <;> omega

/-! Parsing back -/

theorem scanDigits_append (acc : Nat) (ds : List Nat) (h : ∀ d ∈ ds, 48 ≤ d ∧ d < 58) (r : List Nat)
    (hr : ∀ c, r.head? = some c → ¬ (48 ≤ c ∧ c < 58)) (v : Nat)
    (hv : ds.foldl (fun a d => a * 10 + (d - 48)) acc = v) : scanDigits acc (ds ++ r) = v := by
  induction ds generalizing acc with
  | nil =>
    subst hv
    cases r with
    | nil => rfl
    | cons c r =>
      have := hr c rfl
      simp only [List.nil_append, scanDigits]
      rw [if_neg this]; rfl
  | cons d ds ih =>
    simp only [List.cons_append, scanDigits]
    rw [if_pos (h d (by simp))]
    exact ih _ (fun x hx => h x (List.mem_cons_of_mem _ hx)) hv

theorem toDigits10_codes (n : Nat) : (∀ d ∈ codes (Nat.toDigits 10 n), 48 ≤ d ∧ d < 58) ∧
    (codes (Nat.toDigits 10 n)).foldl (fun a d => a * 10 + (d - 48)) 0 = n := by
  induction n using Nat.strongRecOn with
  | ind n ih =>
    rw [Nat.toDigits_eq_if (by omega)]
    have hd := digitChar_dec (n % 10) (Nat.mod_lt _ (by omega))
    split
    · rename_i h
      have hd := digitChar_dec n h
      simp [codes, hd]; omega
    · obtain ⟨h1, h2⟩ := ih (n / 10) (by omega)
      constructor
      · intro d hd'
        simp only [codes, List.map_append, List.mem_append, List.map_cons, List.map_nil,
          List.mem_singleton] at hd'
        rcases hd' with h' | h'
        · exact h1 d h'
        · omega
      · simp only [codes, List.map_append, List.foldl_append, List.map_cons, List.map_nil,
          List.foldl_cons, List.foldl_nil, hd]
        simp only [codes] at h2
        rw [h2]; omega

theorem strtolValue_decimal (i : Int) (r : List Nat)
    (hr : ∀ c, r.head? = some c → ¬ (48 ≤ c ∧ c < 58)) : strtolValue (decimal i ++ r) = i := by
  obtain ⟨h1, h2⟩ := toDigits10_codes i.natAbs
  have key := scanDigits_append 0 _ h1 r hr _ h2
  unfold decimal
  split
  · simp only [codes, List.map_cons, List.cons_append] at key ⊢
    show strtolValue (45 :: _) = i
    simp only [strtolValue, skipSpace]
    rw [if_neg (by omega)]
    simp only [signedDigits]
    rw [key]; omega
  · generalize hL : codes (Nat.toDigits 10 i.natAbs) = L at *
    cases L with
    | nil =>
      have := @Nat.toDigits_ne_nil i.natAbs 10
      simp [codes] at hL
    | cons d L =>
      have hd := h1 d (by simp)
      simp only [strtolValue, List.cons_append, skipSpace]
      rw [if_neg (by omega)]
      have : signedDigits (d :: (L ++ r)) = scanDigits 0 (d :: (L ++ r)) := by
        unfold signedDigits; split
        · rename_i h; cases h; omega
        · rename_i h; cases h; omega
        · rfl
      rw [this, ← List.cons_append, key]; omega

/-! Hexadecimal -/

theorem shr_and (u k : Nat) : (u >>> (4 * k)) &&& 0xF = u / 16 ^ k % 16 := by
  rw [show (0xF : Nat) = 2 ^ 4 - 1 from rfl, Nat.and_two_pow_sub_one_eq_mod, Nat.shiftRight_eq_div_pow,
    Nat.pow_mul]

theorem hexEmit_succ (u r : Nat) : hexEmit u (r + 1) = hexEmit (u / 16) r ++ [hexDigit (u % 16)] := by
  induction r with
  | zero =>
    simp only [hexEmit, List.nil_append]
    rw [shr_and]; simp
  | succ r ih =>
    rw [hexEmit, ih, hexEmit]
    simp only [shr_and, List.cons_append]
    rw [Nat.div_div_eq_div_mul, Nat.pow_succ, Nat.mul_comm (16 ^ r) 16]

theorem hexSkip_succ (u r : Nat) : hexSkip u (r + 2) = hexSkip (u / 16) (r + 1) + 1 ∨
    (hexSkip u (r + 2) = 1 ∧ u / 16 % 16 ^ (r + 1) = 0) := by
  induction r with
  | zero =>
    simp only [hexSkip, shr_and]
    split
    · left; rfl
    · rename_i h; right; simp at h ⊢; omega
  | succ r ih =>
    rw [hexSkip]
    conv => lhs; rhs; rw [hexSkip]
    simp only [shr_and]
    have e : u / 16 ^ (r + 1 + 1) = u / 16 / 16 ^ (r + 1) := by
      rw [Nat.div_div_eq_div_mul, Nat.pow_succ _ (r + 1), Nat.mul_comm (16 ^ (r + 1)) 16]
    rw [e]
    split
    · left; rfl
    · rename_i h
      rcases ih with h' | ⟨h', h''⟩
      · left; exact h'
      · right
        refine ⟨h', ?_⟩
        rw [Nat.pow_succ, Nat.mod_mul, h'']
        simp at h
        simp [h]

theorem hexSkip_small (u r : Nat) (h : u < 16) : hexSkip u (r + 1) = 1 := by
  induction r with
  | zero => rfl
  | succ r ih =>
    rw [hexSkip, shr_and]
    have e : u / 16 ^ (r + 1) = 0 := by
      rw [Nat.div_eq_zero_iff]; right
      exact Nat.lt_of_lt_of_le h (Nat.le_self_pow (by omega) 16)
    rw [e]; simpa using ih

theorem hexText_eq (u r : Nat) (h : u < 16 ^ (r + 1)) :
    hexEmit u (hexSkip u (r + 1)) = hexadecimal u := by
  induction r generalizing u with
  | zero =>
    simp only [hexSkip, hexEmit, hexadecimal]
    rw [shr_and, Nat.toDigits_of_lt_base (by simpa using h)]
    simp [codes]
    rw [Nat.mod_eq_of_lt (by simpa using h), digitChar_hex _ (by simpa using h)]
  | succ r ih =>
    have hlt : u / 16 < 16 ^ (r + 1) := by
      rw [Nat.div_lt_iff_lt_mul (by omega)]; rw [Nat.pow_succ] at h; exact h
    unfold hexadecimal at *
    rw [Nat.toDigits_eq_if (by omega)]
    split
    · rename_i h16
      rw [hexSkip_small u (r + 1) h16]
      simp only [hexEmit, shr_and]
      simp [codes]
      rw [Nat.mod_eq_of_lt h16, digitChar_hex _ h16]
    · rename_i h16
      rcases hexSkip_succ u r with h' | ⟨_, h''⟩
      · rw [h', hexEmit_succ, ih _ hlt]
        simp [codes, digitChar_hex _ (Nat.mod_lt u (by omega : 16 > 0))]
      · rw [Nat.mod_eq_of_lt hlt] at h''
        omega

theorem toDigits_length_le (u r : Nat) (h : u < 16 ^ (r + 1)) : (Nat.toDigits 16 u).length ≤ r + 1 := by
  rw [Nat.length_toDigits_le_iff (by omega) (by omega)]; exact h

theorem hexEmit_padded (u r : Nat) (h : u < 16 ^ (r + 1)) : hexEmit u (r + 1) = hexPadded (r + 1) u := by
  induction r generalizing u with
  | zero =>
    have := hexText_eq u 0 h
    simp only [hexSkip] at this
    rw [this]
    unfold hexadecimal hexPadded
    rw [Nat.toDigits_of_lt_base (by simpa using h)]
    simp
  | succ r ih =>
    have hlt : u / 16 < 16 ^ (r + 1) := by
      rw [Nat.div_lt_iff_lt_mul (by omega)]; rw [Nat.pow_succ] at h; exact h
    rw [hexEmit_succ, ih _ hlt]
    unfold hexPadded
    conv => rhs; rw [Nat.toDigits_eq_if (by omega)]
    split
    · rename_i h16
      have h0 : u / 16 = 0 := by omega
      rw [h0, Nat.toDigits_zero]
      simp only [codes, List.length_singleton]
      rw [show r + 1 + 1 - 1 = r + 1 from rfl, show r + 1 - 1 = r from rfl, Nat.mod_eq_of_lt h16,
        ← digitChar_hex _ h16, List.replicate_succ']
      simp
    · simp [codes, digitChar_hex _ (Nat.mod_lt u (by omega : 16 > 0))]

theorem hexEmit_length (u r : Nat) : (hexEmit u r).length = r := by
  induction r with
  | zero => rfl
  | succ r ih => simp [hexEmit, ih]

theorem hexSkip_le (u r : Nat) : hexSkip u r ≤ r := by
  induction r with
  | zero => simp [hexSkip]
  | succ r ih =>
    cases r with
    | zero => simp [hexSkip]
    | succ r =>
      rw [hexSkip]
      split
      · omega
      · omega

theorem toUnsigned_lt16 (size : Nat) (i : Int) : toUnsigned (8 * size) i < 16 ^ (size * 2) := by
  unfold toUnsigned
  have hp : (2 ^ (8 * size) : Int) = ((2 ^ (8 * size) : Nat) : Int) := by simp
  rw [hp]
  have h1 : (2 : Nat) ^ (8 * size) = 16 ^ (size * 2) := by
    rw [show (16 : Nat) = 2 ^ 4 from rfl, ← Nat.pow_mul]; congr 1; omega
  rw [h1]
  have hpos : 0 < 16 ^ (size * 2) := Nat.pow_pos (by omega)
  generalize 16 ^ (size * 2) = N at *
  have := Int.emod_lt_of_pos i (b := (N : Int)) (by omega)
  have := Int.emod_nonneg i (b := (N : Int)) (by omega)
  omega

end Winpty.StringBuilder
