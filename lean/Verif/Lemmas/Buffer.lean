import Verif.Model.Buffer
import Verif.Spec.Rpc

/-! Helper lemmas about RPC buffers. -/
namespace Winpty.Buffer
open Winpty.Spec

theorem leBytes_length (n v : Nat) : (leBytes n v).length = n := by
  induction n generalizing v with
  | zero => rfl
  | succ n ih => simp [leBytes, ih]

theorem leBytes_lt (n v : Nat) : ∀ b ∈ leBytes n v, b < 256 := by
  induction n generalizing v with
  | zero => simp [leBytes]
  | succ n ih =>
    intro b hb
    simp only [leBytes, List.mem_cons] at hb
    rcases hb with rfl | hb
    · omega
    · exact ih _ b hb

theorem leBytes_digits (n v : Nat) : leBytes n v = digits256 n v := by
  induction n generalizing v with
  | zero => rfl
  | succ n ih =>
    rw [leBytes, ih]
    unfold digits256
    rw [List.range_succ_eq_map]
    simp only [List.map_cons, List.map_map, Nat.pow_zero, Nat.div_one, List.cons.injEq, true_and]
    apply List.map_congr_left
    intro k _
    simp only [Function.comp, Nat.pow_succ]
    rw [Nat.div_div_eq_div_mul, Nat.mul_comm]

theorem leNat_leBytes (n v : Nat) : leNat (leBytes n v) = v % 256 ^ n := by
  induction n generalizing v with
  | zero => simp [leBytes, leNat, Nat.mod_one]
  | succ n ih =>
    rw [leBytes, leNat, ih, Nat.pow_succ, Nat.mul_comm (256 ^ n), Nat.mod_mul]

theorem leBytes_leNat (bs : List Nat) (h : ∀ b ∈ bs, b < 256) :
    leBytes bs.length (leNat bs) = bs := by
  induction bs with
  | nil => rfl
  | cons b bs ih =>
    have hb := h b (by simp)
    simp only [List.length_cons, leBytes, leNat]
    rw [show (b + 256 * leNat bs) % 256 = b by omega,
      show (b + 256 * leNat bs) / 256 = leNat bs by omega,
      ih (fun x m => h x (by simp [m]))]

theorem leNat_lt (bs : List Nat) (h : ∀ b ∈ bs, b < 256) : leNat bs < 256 ^ bs.length := by
  induction bs with
  | nil => simp [leNat]
  | cons b bs ih =>
    have hb := h b (by simp)
    have := ih (fun x m => h x (by simp [m]))
    simp only [List.length_cons, leNat, Nat.pow_succ]
    omega

theorem toUnsigned_32 (i : Int) (h : -2 ^ 31 ≤ i ∧ i < 2 ^ 31) :
    toUnsigned 32 i = (if i < 0 then (i + 2 ^ 32).toNat else i.toNat) := by
  unfold toUnsigned; split <;> omega

theorem toUnsigned_64 (i : Int) (h : -2 ^ 63 ≤ i ∧ i < 2 ^ 63) :
    toUnsigned 64 i = (if i < 0 then (i + 2 ^ 64).toNat else i.toNat) := by
  unfold toUnsigned; split <;> omega

theorem toSigned_toUnsigned_32 (i : Int) (h : -2 ^ 31 ≤ i ∧ i < 2 ^ 31) :
    toSigned 32 (toUnsigned 32 i) = i := by
  rw [toUnsigned_32 i h]; unfold toSigned; split <;> split <;> omega

theorem toSigned_toUnsigned_64 (i : Int) (h : -2 ^ 63 ≤ i ∧ i < 2 ^ 63) :
    toSigned 64 (toUnsigned 64 i) = i := by
  rw [toUnsigned_64 i h]; unfold toSigned; split <;> split <;> omega

theorem toSigned_32_valid (u : Nat) (h : u < 2 ^ 32) :
    (-2 ^ 31 ≤ toSigned 32 u ∧ toSigned 32 u < 2 ^ 31) ∧ toUnsigned 32 (toSigned 32 u) = u := by
  unfold toSigned toUnsigned
  split <;> (constructor <;> omega)

theorem toSigned_64_valid (u : Nat) (h : u < 2 ^ 64) :
    (-2 ^ 63 ≤ toSigned 64 u ∧ toSigned 64 u < 2 ^ 63) ∧ toUnsigned 64 (toSigned 64 u) = u := by
  unfold toSigned toUnsigned
  split <;> (constructor <;> omega)

theorem unitBytes_length (s : List Nat) : (unitBytes s).length = s.length * 2 := by
  induction s with
  | nil => rfl
  | cons a s ih =>
    simp only [unitBytes, List.flatMap_cons, List.length_append, leBytes_length,
      List.length_cons] at *
    omega

theorem unitsOf_unitBytes (s : List Nat) (h : ∀ u ∈ s, u < 2 ^ 16) : unitsOf (unitBytes s) = s := by
  induction s with
  | nil => rfl
  | cons a s ih =>
    have ha := h a (by simp)
    have := ih (fun x m => h x (by simp [m]))
    simp only [unitBytes, List.flatMap_cons, leBytes, List.cons_append, List.nil_append,
      unitsOf] at *
    rw [this]
    congr 1
    omega

theorem unitBytes_unitsOf (bs : List Nat) (h : ∀ b ∈ bs, b < 256) (k : Nat)
    (hl : bs.length = k * 2) :
    unitBytes (unitsOf bs) = bs ∧ (unitsOf bs).length = k ∧ ∀ u ∈ unitsOf bs, u < 2 ^ 16 := by
  induction k generalizing bs with
  | zero =>
    have : bs = [] := by apply List.eq_nil_of_length_eq_zero; omega
    subst this; simp [unitsOf, unitBytes]
  | succ k ih =>
    match bs, h, hl with
    | b0 :: b1 :: t, h, hl =>
      have h0 := h b0 (by simp)
      have h1 := h b1 (by simp)
      obtain ⟨e1, e2, e3⟩ := ih t (fun x m => h x (by simp [m])) (by simp at hl; omega)
      simp only [unitBytes] at e1
      refine ⟨?_, by simp [unitsOf, e2], ?_⟩
      · simp only [unitsOf, unitBytes, List.flatMap_cons, e1]
        simp only [leBytes, List.cons_append, List.nil_append]
        rw [show (b0 + 256 * b1) % 256 = b0 by omega,
          show (b0 + 256 * b1) / 256 % 256 = b1 by omega]
      · intro u hu
        simp only [unitsOf, List.mem_cons] at hu
        rcases hu with rfl | hu
        · omega
        · exact e3 u hu
    | [_], _, hl => simp at hl; omega
    | [], _, hl => simp at hl

/-! ### Writing -/

theorem putField_eq (buf : List Nat) (f : Field) (sm : Nat) (h : ValidField sm f) :
    putField buf f = buf ++ wireField f := by
  cases f with
  | int32 i =>
    simp only [putField, putInt32, putRawData, wireField, leBytes_digits, toUnsigned_32 i h,
      tagInt32]
    simp
  | int64 i =>
    simp only [putField, putInt64, putRawData, wireField, leBytes_digits, toUnsigned_64 i h,
      tagInt64]
    simp
  | wstring s =>
    simp only [putField, putWString, putRawData, wireField, unitBytes, tagWString]
    have : (fun v => leBytes 2 v) = digits256 2 := funext fun v => leBytes_digits 2 v
    rw [show leBytes 2 = digits256 2 from this, leBytes_digits]
    simp

theorem putFields_eq (buf : List Nat) (fs : List Field) (sm : Nat) (h : ∀ f ∈ fs, ValidField sm f) :
    putFields buf fs = buf ++ wire fs := by
  induction fs generalizing buf with
  | nil => simp [putFields, wire]
  | cons f fs ih =>
    simp only [putFields, List.foldl_cons]
    rw [putField_eq buf f sm (h f (by simp))]
    have := ih (buf ++ wireField f) (fun x m => h x (by simp [m]))
    simp only [putFields] at this
    rw [this]; simp [wire]

/-! ### Reading -/

theorem getRawData_append (pre mid post : List Nat) :
    getRawData (pre ++ mid ++ post) pre.length mid.length
      = .ok mid (pre.length + mid.length) := by
  unfold getRawData
  rw [if_neg (by simp), if_neg (by simp)]
  congr 1
  rw [List.append_assoc, List.drop_left, List.take_left]

theorem getRawData_at (buf : List Nat) (off len : Nat) (mid : List Nat)
    (h : (buf.drop off).take len = mid) (hl : mid.length = len) (ho : off ≤ buf.length) :
    getRawData buf off len = .ok mid (off + len) := by
  unfold getRawData
  have : len ≤ buf.length - off := by
    rw [← hl, ← h, List.length_take, List.length_drop]; omega
  rw [if_neg (by omega), if_neg (by omega), h]

theorem getRawData_ok {buf : List Nat} {off len : Nat} {v : List Nat} {off' : Nat}
    (h : getRawData buf off len = .ok v off') :
    off' = off + len ∧ off' ≤ buf.length ∧ v = (buf.drop off).take len ∧ v.length = len := by
  unfold getRawData at h
  split at h
  · cases h
  split at h
  · cases h
  cases h
  refine ⟨rfl, by omega, rfl, ?_⟩
  rw [List.length_take, List.length_drop]; omega

theorem bind_ok {α β : Type} {r : Res α} {f : α → Nat → Res β} {b : β} {off' : Nat}
    (h : r.bind f = .ok b off') : ∃ a off1, r = .ok a off1 ∧ f a off1 = .ok b off' := by
  cases r with
  | ok a off1 => exact ⟨a, off1, rfl, h⟩
  | decodeError => cases h
  | allocError => cases h
  | assertFail => cases h

/-- `x` is at offset `off` of `buf`. -/
def At (buf : List Nat) (off : Nat) (x : List Nat) : Prop :=
  off ≤ buf.length ∧ (buf.drop off).take x.length = x

theorem At.append {buf : List Nat} {off : Nat} {x y : List Nat} (h : At buf off (x ++ y)) :
    At buf off x ∧ At buf (off + x.length) y := by
  obtain ⟨h1, h2⟩ := h
  have hlen : off + (x ++ y).length ≤ buf.length := by
    have := congrArg List.length h2
    simp only [List.length_take, List.length_drop, List.length_append] at *
    omega
  have hx : (buf.drop off).take x.length = x := by
    have := congrArg (List.take x.length) h2
    rw [List.take_take, List.take_left] at this
    simpa using this
  refine ⟨⟨h1, hx⟩, by simp at hlen; omega, ?_⟩
  have := congrArg (List.drop x.length) h2
  rw [List.drop_left, List.drop_take, List.drop_drop] at this
  simpa using this

theorem At.join {buf : List Nat} {off : Nat} {x y : List Nat} (hx : At buf off x)
    (hy : At buf (off + x.length) y) : At buf off (x ++ y) := by
  obtain ⟨h1, h2⟩ := hx
  obtain ⟨h3, h4⟩ := hy
  refine ⟨h1, ?_⟩
  rw [List.length_append, List.take_add, h2, List.drop_drop, h4]

theorem At.getRaw {buf : List Nat} {off : Nat} {x : List Nat} (h : At buf off x) :
    getRawData buf off x.length = .ok x (off + x.length) :=
  getRawData_at buf off x.length x h.2 rfl h.1

theorem getRaw_at {buf : List Nat} {off len : Nat} {v : List Nat} {off' : Nat}
    (h : getRawData buf off len = .ok v off') :
    At buf off v ∧ v.length = len ∧ off' = off + len ∧ off' ≤ buf.length := by
  obtain ⟨h1, h2, h3, h4⟩ := getRawData_ok h
  refine ⟨⟨by omega, ?_⟩, h4, h1, h2⟩
  rw [h4, ← h3]

theorem wireField_bytes (f : Field) (sm : Nat) (h : ValidField sm f) :
    ∀ b ∈ wireField f, b < 256 := by
  have hd : ∀ n v, ∀ b ∈ digits256 n v, b < 256 := by
    intro n v b hb
    rw [← leBytes_digits] at hb
    exact leBytes_lt n v b hb
  intro b hb
  cases f with
  | int32 i =>
    simp only [wireField, List.mem_cons] at hb
    rcases hb with rfl | hb
    · omega
    · exact hd _ _ b hb
  | int64 i =>
    simp only [wireField, List.mem_cons] at hb
    rcases hb with rfl | hb
    · omega
    · exact hd _ _ b hb
  | wstring s =>
    simp only [wireField, List.mem_cons, List.mem_append, List.cons_append, List.mem_flatMap] at hb
    rcases hb with rfl | hb | ⟨u, _, hb⟩
    · omega
    · exact hd _ _ b hb
    · exact hd _ _ b hb

theorem digits256_length (n v : Nat) : (digits256 n v).length = n := by simp [digits256]

theorem getField_wire (cfg : Cfg) (buf : List Nat) (off : Nat) (f : Field)
    (hv : ValidField cfg.sizeMax f)
    (ha : ∀ s, f = .wstring s → s ≠ [] → cfg.canAlloc s.length = true)
    (h : At buf off (wireField f)) :
    getField cfg buf off f.ty = .ok f (off + (wireField f).length) := by
  cases f with
  | int32 i =>
    rw [wireField, ← toUnsigned_32 i hv, ← leBytes_digits] at h ⊢
    obtain ⟨h1, h2⟩ := At.append (x := [0]) (y := leBytes 4 (toUnsigned 32 i)) h
    have r1 := h1.getRaw
    have r2 := h2.getRaw
    rw [leBytes_length] at r2
    simp only [List.length_cons, List.length_nil, Nat.zero_add] at r1 r2
    simp only [Field.ty, getField, getInt32, r1, Res.bind, leNat, tagInt32, r2]
    have e : leNat (leBytes 4 (toUnsigned 32 i)) = toUnsigned 32 i := by
      rw [leNat_leBytes]; apply Nat.mod_eq_of_lt; unfold toUnsigned; omega
    simp [e, toSigned_toUnsigned_32 i hv, leBytes_length]
  | int64 i =>
    rw [wireField, ← toUnsigned_64 i hv, ← leBytes_digits] at h ⊢
    obtain ⟨h1, h2⟩ := At.append (x := [1]) (y := leBytes 8 (toUnsigned 64 i)) h
    have r1 := h1.getRaw
    have r2 := h2.getRaw
    rw [leBytes_length] at r2
    simp only [List.length_cons, List.length_nil, Nat.zero_add] at r1 r2
    simp only [Field.ty, getField, getInt64, r1, Res.bind, leNat, tagInt64, r2]
    have e : leNat (leBytes 8 (toUnsigned 64 i)) = toUnsigned 64 i := by
      rw [leNat_leBytes]; apply Nat.mod_eq_of_lt; unfold toUnsigned; omega
    simp [e, toSigned_toUnsigned_64 i hv, leBytes_length]
  | wstring s =>
    obtain ⟨hu, hl, hl64⟩ := hv
    have eb : s.flatMap (digits256 2) = unitBytes s := by
      unfold unitBytes
      rw [show leBytes 2 = digits256 2 from funext fun v => leBytes_digits 2 v]
    rw [wireField, ← leBytes_digits, eb] at h ⊢
    obtain ⟨h1, h2⟩ := At.append (x := [2]) (y := leBytes 8 s.length ++ unitBytes s) h
    obtain ⟨h2, h3⟩ := At.append h2
    have r1 := h1.getRaw
    have r2 := h2.getRaw
    have r3 := h3.getRaw
    rw [leBytes_length] at r2 r3
    rw [unitBytes_length] at r3
    simp only [List.length_cons, List.length_nil, Nat.zero_add] at r1 r2 r3
    have e : leNat (leBytes 8 s.length) = s.length := by
      rw [leNat_leBytes]; apply Nat.mod_eq_of_lt; omega
    simp only [Field.ty, getField, getWString, r1, Res.bind, leNat, tagWString, r2, e]
    rw [if_pos trivial, if_neg (by omega)]
    by_cases hz : s = []
    · subst hz; simp [unitBytes, leBytes_length]
    · have hpos : s.length > 0 := List.length_pos_iff.mpr hz
      rw [if_pos hpos, if_pos (ha s rfl hz)]
      simp only [r3, unitsOf_unitBytes s hu]
      simp [unitBytes_length, leBytes_length]
      omega

/-- Inversion: a successful read of a field found exactly its wire form at the offset. -/
theorem getField_ok (cfg : Cfg) (buf : List Nat) (hb : ∀ b ∈ buf, b < 256) (off : Nat) (t : FieldTy)
    (f : Field) (off' : Nat) (h : getField cfg buf off t = .ok f off') :
    f.ty = t ∧ ValidField cfg.sizeMax f ∧ At buf off (wireField f) ∧
      off' = off + (wireField f).length ∧ off' ≤ buf.length := by
  have hsub : ∀ {o x}, At buf o x → ∀ b ∈ x, b < 256 := by
    intro o x hx b hm
    apply hb b
    rw [← hx.2] at hm
    exact List.mem_of_mem_drop (List.mem_of_mem_take hm)
  cases t with
  | int32 =>
    obtain ⟨i, o1, h1, h2⟩ := bind_ok h
    obtain ⟨tag, o2, h3, h4⟩ := bind_ok h1
    split at h4
    · rename_i ht
      obtain ⟨v, o3, h5, h6⟩ := bind_ok h4
      cases h2; cases h6
      obtain ⟨a1, l1, e1, b1⟩ := getRaw_at h3
      obtain ⟨a2, l2, e2, b2⟩ := getRaw_at h5
      have hlt := leNat_lt v (hsub a2)
      rw [l2] at hlt
      obtain ⟨hv, hu⟩ := toSigned_32_valid (leNat v) (by omega)
      have etag : tag = [0] := by
        match tag, l1 with
        | [x], _ => simp [leNat, tagInt32] at ht; simp [ht]
      have ev : wireField (.int32 (toSigned 32 (leNat v))) = tag ++ v := by
        rw [wireField, ← toUnsigned_32 _ hv, ← leBytes_digits, hu, etag]
        have := leBytes_leNat v (hsub a2)
        rw [l2] at this
        simp [this]
      refine ⟨rfl, hv, ?_, ?_, b2⟩
      · rw [ev]; exact a1.join (by rw [l1, ← e1]; exact a2)
      · rw [ev, e2, e1, List.length_append, l1, l2]
    · cases h4
  | int64 =>
    obtain ⟨i, o1, h1, h2⟩ := bind_ok h
    obtain ⟨tag, o2, h3, h4⟩ := bind_ok h1
    split at h4
    · rename_i ht
      obtain ⟨v, o3, h5, h6⟩ := bind_ok h4
      cases h2; cases h6
      obtain ⟨a1, l1, e1, b1⟩ := getRaw_at h3
      obtain ⟨a2, l2, e2, b2⟩ := getRaw_at h5
      have hlt := leNat_lt v (hsub a2)
      rw [l2] at hlt
      obtain ⟨hv, hu⟩ := toSigned_64_valid (leNat v) (by omega)
      have etag : tag = [1] := by
        match tag, l1 with
        | [x], _ => simp [leNat, tagInt64] at ht; simp [ht]
      have ev : wireField (.int64 (toSigned 64 (leNat v))) = tag ++ v := by
        rw [wireField, ← toUnsigned_64 _ hv, ← leBytes_digits, hu, etag]
        have := leBytes_leNat v (hsub a2)
        rw [l2] at this
        simp [this]
      refine ⟨rfl, hv, ?_, ?_, b2⟩
      · rw [ev]; exact a1.join (by rw [l1, ← e1]; exact a2)
      · rw [ev, e2, e1, List.length_append, l1, l2]
    · cases h4
  | wstring =>
    obtain ⟨s, o1, h1, h2⟩ := bind_ok h
    obtain ⟨tag, o2, h3, h4⟩ := bind_ok h1
    split at h4
    · rename_i ht
      obtain ⟨v, o3, h5, h6⟩ := bind_ok h4
      cases h2
      obtain ⟨a1, l1, e1, b1⟩ := getRaw_at h3
      obtain ⟨a2, l2, e2, b2⟩ := getRaw_at h5
      have hlt := leNat_lt v (hsub a2)
      rw [l2] at hlt
      have etag : tag = [2] := by
        match tag, l1 with
        | [x], _ => simp [leNat, tagWString] at ht; simp [ht]
      have ev8 : leBytes 8 (leNat v) = v := by
        have := leBytes_leNat v (hsub a2); rwa [l2] at this
      split at h6
      · cases h6
      rename_i hsz
      split at h6
      · rename_i hpos
        split at h6
        · obtain ⟨bs, o4, h7, h8⟩ := bind_ok h6
          cases h8
          obtain ⟨a3, l3, e3, b3⟩ := getRaw_at h7
          obtain ⟨u1, u2, u3⟩ := unitBytes_unitsOf bs (hsub a3) (leNat v) l3
          have ev : wireField (.wstring (unitsOf bs)) = tag ++ (v ++ bs) := by
            rw [wireField, ← leBytes_digits, u2, ev8, etag]
            have eb : (unitsOf bs).flatMap (digits256 2) = unitBytes (unitsOf bs) := by
              unfold unitBytes
              rw [show leBytes 2 = digits256 2 from funext fun v => leBytes_digits 2 v]
            rw [eb, u1]; rfl
          refine ⟨rfl, ⟨u3, by omega, by omega⟩, ?_, ?_, b3⟩
          · rw [ev]
            refine a1.join ?_
            rw [l1, ← e1]
            refine a2.join ?_
            rw [l2, ← e2]; exact a3
          · rw [ev, e3, e2, e1]; simp only [List.length_append, l1, l2, l3]; omega
        · cases h6
      · rename_i hz
        cases h6
        have hv0 : leNat v = 0 := by omega
        have ev : wireField (.wstring []) = tag ++ v := by
          rw [wireField, ← leBytes_digits, etag, ← ev8, hv0]; rfl
        refine ⟨rfl, ⟨by simp, by simp, by simp⟩, ?_, ?_, b2⟩
        · rw [ev]; exact a1.join (by rw [l1, ← e1]; exact a2)
        · rw [ev, e2, e1, List.length_append, l1, l2]
    · cases h4

theorem getRaw_noassert {buf : List Nat} {off len : Nat} (h : off ≤ buf.length) :
    getRawData buf off len ≠ .assertFail := by
  unfold getRawData; rw [if_neg (by omega)]; split <;> simp

theorem getField_noassert (cfg : Cfg) (buf : List Nat) (off : Nat) (t : FieldTy)
    (h : off ≤ buf.length) : getField cfg buf off t ≠ .assertFail := by
  intro hc
  have step : ∀ {α β : Type} {r : Res α} {f : α → Nat → Res β}, r.bind f = .assertFail →
      r = .assertFail ∨ ∃ a o, r = .ok a o ∧ f a o = .assertFail := by
    intro α β r f hr
    cases r with
    | ok a o => exact .inr ⟨a, o, rfl, hr⟩
    | decodeError => cases hr
    | allocError => cases hr
    | assertFail => exact .inl rfl
  cases t with
  | int32 =>
    rcases step hc with h1 | ⟨a, o, h1, h2⟩
    · rcases step h1 with h2 | ⟨a, o, h2, h3⟩
      · exact getRaw_noassert h h2
      · have := (getRawData_ok h2).2.1
        split at h3
        · rcases step h3 with h4 | ⟨_, _, _, h5⟩
          · exact getRaw_noassert this h4
          · cases h5
        · cases h3
    · cases h2
  | int64 =>
    rcases step hc with h1 | ⟨a, o, h1, h2⟩
    · rcases step h1 with h2 | ⟨a, o, h2, h3⟩
      · exact getRaw_noassert h h2
      · have := (getRawData_ok h2).2.1
        split at h3
        · rcases step h3 with h4 | ⟨_, _, _, h5⟩
          · exact getRaw_noassert this h4
          · cases h5
        · cases h3
    · cases h2
  | wstring =>
    rcases step hc with h1 | ⟨a, o, h1, h2⟩
    · rcases step h1 with h2 | ⟨a, o, h2, h3⟩
      · exact getRaw_noassert h h2
      · have hb := (getRawData_ok h2).2.1
        split at h3
        · rcases step h3 with h4 | ⟨v, o2, h4, h5⟩
          · exact getRaw_noassert hb h4
          · have hb2 := (getRawData_ok h4).2.1
            split at h5
            · cases h5
            split at h5
            · split at h5
              · rcases step h5 with h6 | ⟨_, _, _, h6⟩
                · exact getRaw_noassert hb2 h6
                · cases h6
              · cases h5
            · cases h5
        · cases h3
    · cases h2

theorem getFields_ok (cfg : Cfg) (buf : List Nat) (hb : ∀ b ∈ buf, b < 256) (off : Nat)
    (ts : List FieldTy) (fs : List Field) (off' : Nat) (ho : off ≤ buf.length)
    (h : getFields cfg buf off ts = .ok fs off') :
    fs.map Field.ty = ts ∧ (∀ f ∈ fs, ValidField cfg.sizeMax f) ∧ At buf off (wire fs) ∧
      off' = off + (wire fs).length ∧ off' ≤ buf.length := by
  induction ts generalizing off fs with
  | nil =>
    cases h
    exact ⟨rfl, by simp, ⟨ho, by simp [wire]⟩, by simp [wire], ho⟩
  | cons t ts ih =>
    obtain ⟨f, o1, h1, h2⟩ := bind_ok h
    obtain ⟨gs, o2, h3, h4⟩ := bind_ok h2
    cases h4
    obtain ⟨a1, a2, a3, a4, a5⟩ := getField_ok cfg buf hb off t f o1 h1
    obtain ⟨b1, b2, b3, b4, b5⟩ := ih o1 gs a5 h3
    refine ⟨by simp [a1, b1], ?_, ?_, ?_, b5⟩
    · intro x hx
      rcases List.mem_cons.mp hx with rfl | hx
      · exact a2
      · exact b2 x hx
    · rw [a4] at b3
      have := a3.join b3
      simpa [wire] using this
    · rw [b4, a4]; simp [wire]; omega

theorem getFields_wire (cfg : Cfg) (buf : List Nat) (off : Nat) (fs : List Field)
    (hv : ∀ f ∈ fs, ValidField cfg.sizeMax f)
    (ha : ∀ s, Field.wstring s ∈ fs → s ≠ [] → cfg.canAlloc s.length = true)
    (h : At buf off (wire fs)) :
    getFields cfg buf off (fs.map Field.ty) = .ok fs (off + (wire fs).length) := by
  induction fs generalizing off with
  | nil => simp [getFields, wire]
  | cons f fs ih =>
    have hw : wire (f :: fs) = wireField f ++ wire fs := by simp [wire]
    rw [hw] at h ⊢
    obtain ⟨h1, h2⟩ := h.append
    have r1 := getField_wire cfg buf off f (hv f (by simp))
      (fun s e hn => ha s (by simp [e]) hn) h1
    have r2 := ih (off + (wireField f).length) (fun x m => hv x (by simp [m]))
      (fun s m hn => ha s (by simp [m]) hn) h2
    simp only [List.map_cons, getFields, r1, Res.bind, r2, List.length_append]
    congr 1; omega

theorem getFields_noassert (cfg : Cfg) (buf : List Nat) (hb : ∀ b ∈ buf, b < 256) (off : Nat)
    (ts : List FieldTy) (h : off ≤ buf.length) : getFields cfg buf off ts ≠ .assertFail := by
  induction ts generalizing off with
  | nil => simp [getFields]
  | cons t ts ih =>
    intro hc
    simp only [getFields] at hc
    generalize hr : getField cfg buf off t = r at hc
    cases r with
    | ok f o =>
      simp only [Res.bind] at hc
      have ho := (getField_ok cfg buf hb off t f o hr).2.2.2.2
      have := ih o ho
      generalize hr2 : getFields cfg buf o ts = r2 at hc this
      cases r2 with
      | ok => cases hc
      | decodeError => cases hc
      | allocError => cases hc
      | assertFail => exact this rfl
    | decodeError => cases hc
    | allocError => cases hc
    | assertFail => exact getField_noassert cfg buf off t h hr

theorem bind_alloc {α β : Type} {r : Res α} {f : α → Nat → Res β} (hr : r.bind f = .allocError) :
    r = .allocError ∨ ∃ a o, r = .ok a o ∧ f a o = .allocError := by
  cases r with
  | ok a o => exact .inr ⟨a, o, rfl, hr⟩
  | decodeError => cases hr
  | allocError => exact .inl rfl
  | assertFail => cases hr

theorem getRaw_noalloc (buf : List Nat) (o n : Nat) : getRawData buf o n ≠ .allocError := by
  unfold getRawData; repeat' split
  all_goals simp

theorem getField_noalloc (cfg : Cfg) (buf : List Nat) (hal : ∀ n, cfg.canAlloc n = true)
    (o : Nat) (t : FieldTy) : getField cfg buf o t ≠ .allocError := by
  intro hc
  cases t with
  | int32 =>
    rcases bind_alloc hc with h1 | ⟨_, _, _, h2⟩
    · rcases bind_alloc h1 with h2 | ⟨_, _, _, h3⟩
      · exact getRaw_noalloc _ _ _ h2
      · split at h3
        · rcases bind_alloc h3 with h4 | ⟨_, _, _, h5⟩
          · exact getRaw_noalloc _ _ _ h4
          · cases h5
        · cases h3
    · cases h2
  | int64 =>
    rcases bind_alloc hc with h1 | ⟨_, _, _, h2⟩
    · rcases bind_alloc h1 with h2 | ⟨_, _, _, h3⟩
      · exact getRaw_noalloc _ _ _ h2
      · split at h3
        · rcases bind_alloc h3 with h4 | ⟨_, _, _, h5⟩
          · exact getRaw_noalloc _ _ _ h4
          · cases h5
        · cases h3
    · cases h2
  | wstring =>
    rcases bind_alloc hc with h1 | ⟨_, _, _, h2⟩
    · rcases bind_alloc h1 with h2 | ⟨_, _, _, h3⟩
      · exact getRaw_noalloc _ _ _ h2
      · split at h3
        · rcases bind_alloc h3 with h4 | ⟨v, _, _, h5⟩
          · exact getRaw_noalloc _ _ _ h4
          · split at h5
            · cases h5
            split at h5
            · split at h5
              · rcases bind_alloc h5 with h6 | ⟨_, _, _, h6⟩
                · exact getRaw_noalloc _ _ _ h6
                · cases h6
              · rename_i hn; exact hn (hal _)
            · cases h5
        · cases h3
    · cases h2

theorem getFields_noalloc (cfg : Cfg) (buf : List Nat) (hal : ∀ n, cfg.canAlloc n = true)
    (ts : List FieldTy) : ∀ o, getFields cfg buf o ts ≠ .allocError := by
  induction ts with
  | nil => intro o; simp [getFields]
  | cons t ts ih =>
    intro o hc
    rcases bind_alloc hc with h1 | ⟨_, _, _, h2⟩
    · exact getField_noalloc cfg buf hal _ _ h1
    · rcases bind_alloc h2 with h3 | ⟨_, _, _, h4⟩
      · exact ih _ h3
      · cases h4

end Winpty.Buffer
