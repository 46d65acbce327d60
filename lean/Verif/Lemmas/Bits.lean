/-! Bit-operation facts used by several property files. -/
namespace Winpty.Bits

theorem and_mask (x n m : Nat) (h : m = 2 ^ n - 1) : x &&& m = x % 2 ^ n := by
  subst h; exact Nat.and_two_pow_sub_one_eq_mod x n

theorem and_1f (x : Nat) : x &&& 0x1F = x % 32 := and_mask x 5 _ rfl
theorem and_3f (x : Nat) : x &&& 0x3F = x % 64 := and_mask x 6 _ rfl
theorem and_0f (x : Nat) : x &&& 0x0F = x % 16 := and_mask x 4 _ rfl
theorem and_07 (x : Nat) : x &&& 0x07 = x % 8 := and_mask x 3 _ rfl
theorem and_3ff (x : Nat) : x &&& 0x3FF = x % 1024 := and_mask x 10 _ rfl

theorem or_add (i a b : Nat) (h : b < 2 ^ i) : 2 ^ i * a ||| b = 2 ^ i * a + b :=
  (Nat.two_pow_add_eq_or_of_lt h a).symm

theorem or_80 (x : Nat) (h : x < 64) : x ||| 0x80 = 128 + x := by
  rw [Nat.or_comm]; exact or_add 6 2 x (by omega)
theorem or_c0 (x : Nat) (h : x < 32) : x ||| 0xC0 = 192 + x := by
  rw [Nat.or_comm]; exact or_add 5 6 x (by omega)
theorem or_e0 (x : Nat) (h : x < 16) : x ||| 0xE0 = 224 + x := by
  rw [Nat.or_comm]; exact or_add 4 14 x (by omega)
theorem or_f0 (x : Nat) (h : x < 8) : x ||| 0xF0 = 240 + x := by
  rw [Nat.or_comm]; exact or_add 3 30 x (by omega)
theorem d800_or (x : Nat) (h : x < 1024) : 0xD800 ||| x = 0xD800 + x :=
  or_add 10 54 x (by omega)
theorem dc00_or (x : Nat) (h : x < 1024) : 0xDC00 ||| x = 0xDC00 + x :=
  or_add 10 55 x (by omega)

theorem shl_or (a b n : Nat) (h : b < 2 ^ n) : (a <<< n) ||| b = a * 2 ^ n + b := by
  rw [Nat.shiftLeft_eq, Nat.mul_comm]; exact or_add n a b h

/-- A property of all bytes follows from checking every one of the 256 values. -/
theorem byte_forall {P : Nat → Prop} (h : ∀ b : Fin 256, P b.val) : ∀ b, b < 256 → P b :=
  fun b hb => h ⟨b, hb⟩

theorem and_80 : ∀ b, b < 256 → (b &&& 0x80 = 0 ↔ b < 128) :=
  byte_forall (by decide +kernel)
theorem and_e0 : ∀ b, b < 256 → (b &&& 0xE0 = 0xC0 ↔ 192 ≤ b ∧ b < 224) :=
  byte_forall (by decide +kernel)
theorem and_f0 : ∀ b, b < 256 → (b &&& 0xF0 = 0xE0 ↔ 224 ≤ b ∧ b < 240) :=
  byte_forall (by decide +kernel)
theorem and_f8 : ∀ b, b < 256 → (b &&& 0xF8 = 0xF0 ↔ 240 ≤ b ∧ b < 248) :=
  byte_forall (by decide +kernel)
theorem and_c0 : ∀ b, b < 256 → (b &&& 0xC0 = 0x80 ↔ 128 ≤ b ∧ b < 192) :=
  byte_forall (by decide +kernel)

end Winpty.Bits
