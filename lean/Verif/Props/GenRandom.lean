import Verif.Model.GenRandom
import Verif.Props.Startup
import Verif.Props.StringBuilder

/-!
# C41: what is in a name
-/
namespace Winpty.Props
open Winpty.Startup Winpty.Spec Winpty.StringBuilder Winpty.GenRandom

/-- The bytes the system gives a process that asks for 16: from `RtlGenRandom` if there is such a function, else from
`CryptGenRandom` if a context can be had. -/
def sixteen (os : Os) : Option (List Nat) :=
  match os.rtlGenRandom with
  | some f => f 16
  | none => if os.acquires then os.cryptGenRandom 16 else none

/-- The contract of the system: as many bytes as asked for. -/
def GivesBytes (os : Os) : Prop := ∀ bytes, sixteen os = some bytes → bytes.length = 16 ∧ ∀ b ∈ bytes, b < 256

set_option maxRecDepth 100000 in
private theorem byte_text : ∀ b < 256, [hexDigit (b >>> 4), hexDigit (b &&& 0xF)] = hexPadded 2 b := by
  decide +kernel

private theorem random_text (bytes : List Nat) (h : ∀ b ∈ bytes, b < 256) :
    randomHexString bytes = bytes.flatMap (hexPadded 2) := by
  induction bytes with
  | nil => rfl
  | cons b bytes ih =>
    have h1 := byte_text b (h b (by simp))
    have h2 := ih (fun c hc => h c (by simp [hc]))
    unfold randomHexString at h2 ⊢
    rw [List.flatMap_cons, List.flatMap_cons, h1, h2]

private theorem bytes_eq (os : Os) : randomBytes os (construct os) 16 = (sixteen os).getD [] := by
  unfold randomBytes sixteen construct fillBuffer
  cases hr : os.rtlGenRandom with
  | some f =>
    simp only []
    cases hf : f 16 <;> simp
  | none =>
    simp only []
    cases ha : os.acquires with
    | false => simp
    | true =>
      simp only [if_true]
      cases hf : os.cryptGenRandom 16 <;> simp

/-- C41.  A name is the process id, the number of the name, the time and, if the system gives random bytes, all 16 of
them with two hexadecimal digits each; without them the name ends with the time. -/
theorem C41_name (os : Os) (ho : GivesBytes os) (pid k time : Nat) (hp : pid < 2 ^ 32) (ht : time < 2 ^ 64) :
    newName os pid k time = decimal pid ++ 45 :: decimal (counterAt k) ++ 45 :: hexadecimal time ++
      (match sixteen os with
        | some bytes => 45 :: bytes.flatMap (hexPadded 2)
        | none => []) := by
  have hx : hexText false 8 time = hexadecimal time := by
    have hu : Buffer.toUnsigned 64 (time : Int) = time := by
      unfold Buffer.toUnsigned
      omega
    have := hexText_eq time 15 (by omega)
    simpa [hexText, hu] using this
  unfold newName uniqueName
  rw [bytes_eq, decText_eq 4 (pid : Int) (by omega) ⟨by omega, by omega⟩, decText_eq 4 _ (by omega) (counterAt_range k), hx]
  cases hs : sixteen os with
  | none => simp [randomHexString]
  | some bytes =>
    obtain ⟨h1, h2⟩ := ho bytes hs
    have h3 := random_text bytes h2
    have h4 : (randomHexString bytes).isEmpty = false := by
      cases bytes with
      | nil => simp at h1
      | cons b bytes => simp [randomHexString]
    rw [Option.getD_some, if_neg (by rw [h4]; simp), h3]

private theorem padded_inj : ∀ b < 256, ∀ c < 256, hexDigit (b >>> 4) = hexDigit (c >>> 4) →
    hexDigit (b &&& 0xF) = hexDigit (c &&& 0xF) → b = c := by
  intro b hb c hc h1 h2
  have e1 : ∀ x, x < 256 → x >>> 4 < 16 := by intro x hx; rw [Nat.shiftRight_eq_div_pow]; omega
  have e2 : ∀ x : Nat, x &&& 15 = x % 16 := fun x => Nat.and_two_pow_sub_one_eq_mod x 4
  have inj : ∀ x y, x < 16 → y < 16 → hexDigit x = hexDigit y → x = y := by
    intro x y hx hy h
    unfold hexDigit at h
    split at h <;> split at h <;> omega
  have a := inj _ _ (e1 b hb) (e1 c hc) h1
  rw [e2, e2] at h2
  have d := inj _ _ (by omega) (by omega) h2
  rw [Nat.shiftRight_eq_div_pow, Nat.shiftRight_eq_div_pow] at a
  omega

/-- C41.  All of the randomness is in the name: in names that are otherwise alike, different bytes give different
names, so a name is as hard to guess as the 16 bytes. -/
theorem C41_all_bits (pid : Nat) (k : Int) (time : Nat) : ∀ (r r' : List Nat), r.length = r'.length →
    (∀ b ∈ r, b < 256) → (∀ b ∈ r', b < 256) → uniqueName pid k time r = uniqueName pid k time r' → r = r' := by
  have key : ∀ (r r' : List Nat), r.length = r'.length → (∀ b ∈ r, b < 256) → (∀ b ∈ r', b < 256) →
      randomHexString r = randomHexString r' → r = r' := by
    intro r
    induction r with
    | nil => intro r' h _ _ _; exact (List.length_eq_zero_iff.1 (by simpa using h.symm)).symm
    | cons b r ih =>
      intro r' h h1 h2 he
      cases r' with
      | nil => simp at h
      | cons c r' =>
        simp only [randomHexString, List.flatMap_cons, List.cons_append, List.nil_append, List.cons.injEq] at he
        rw [padded_inj b (h1 b (by simp)) c (h2 c (by simp)) he.1 he.2.1,
          ih r' (by simpa using h) (fun x hx => h1 x (by simp [hx])) (fun x hx => h2 x (by simp [hx])) he.2.2]
  intro r r' h h1 h2 he
  have hl : ∀ x : List Nat, (randomHexString x).isEmpty = x.isEmpty := by
    intro x; cases x <;> simp [randomHexString]
  unfold uniqueName at he
  have he' := List.append_cancel_left he
  rw [hl, hl] at he'
  cases r with
  | nil => exact (List.length_eq_zero_iff.1 (by simpa using h.symm)).symm
  | cons b r =>
    cases r' with
    | nil => simp at h
    | cons c r' =>
      simp only [List.isEmpty_cons, Bool.false_eq_true, if_false, List.cons.injEq, true_and] at he'
      exact key _ _ h h1 h2 he'

/-- C41.  The context for `CryptGenRandom` is released if and only if one was acquired. -/
theorem C41_context (os : Os) : (contexts os).1 = (contexts os).2 := by
  unfold contexts construct
  cases os.rtlGenRandom <;> rfl

-- the first name of process 7, with and without random bytes
example : newName ⟨some (fun n => some (List.replicate n 0xA5)), true, fun _ => none⟩ 7 1 0x1F =
    codes "7-1-1f-a5a5a5a5a5a5a5a5a5a5a5a5a5a5a5a5".toList ∧
    newName ⟨none, false, fun _ => some []⟩ 7 1 0x1F = codes "7-1-1f".toList := by decide +kernel

end Winpty.Props
