import Verif.Spec.AdapterMain
import Verif.Lemmas.Unicode
import Verif.Props.Argv
import Verif.Props.FindProgram

/-!
# Lemmas: the command line in different encodings
-/
namespace Winpty.AdapterMain

open Winpty.Argv Winpty.Spec Winpty.Spec.Start

/-- An encoding that keeps ASCII. -/
structure Ascii (f : Nat → List Nat) : Prop where
  low : ∀ c, c < 128 → f c = [c]
  high : ∀ c, 128 ≤ c → f c ≠ [] ∧ ∀ x ∈ f c, 128 ≤ x

theorem ascii_utf8 : Ascii utf8 := by
  constructor
  · intro c h; unfold utf8; rw [if_pos (by omega)]
  · intro c h
    refine ⟨utf8_ne c, ?_⟩
    unfold utf8
    repeat' split
    all_goals simp; try omega
where utf8_ne (c : Nat) : utf8 c ≠ [] := by unfold utf8; repeat' split
                                            all_goals simp

theorem ascii_utf16 : Ascii utf16 := by
  constructor
  · intro c h; unfold utf16; rw [if_pos (by omega)]
  · intro c h
    unfold utf16
    split
    all_goals simp; try omega

theorem escBody_high (q : Bool) (bs : Nat) (xs r : List Nat) (hx : xs ≠ []) (h : ∀ x ∈ xs, 128 ≤ x) :
    escBody q bs (xs ++ r) = List.replicate bs 92 ++ xs ++ escBody q 0 r := by
  induction xs generalizing bs with
  | nil => exact absurd rfl hx
  | cons x xs ih =>
    have h0 := h x (by simp)
    simp only [List.cons_append, escBody]
    rw [if_neg (by omega), if_neg (by omega)]
    cases xs with
    | nil => simp
    | cons y ys => rw [ih 0 (by simp) fun z hz => h z (by simp_all)]; simp

theorem flatMap_replicate {f : Nat → List Nat} (hf : Ascii f) (n c : Nat) (hc : c < 128) :
    (List.replicate n c).flatMap f = List.replicate n c := by
  induction n with
  | zero => rfl
  | succ n ih => rw [List.replicate_succ, List.flatMap_cons, ih, hf.low c hc]; rfl

theorem escBody_encode {f : Nat → List Nat} (hf : Ascii f) (q : Bool) (bs : Nat) (t : List Nat) :
    escBody q bs (t.flatMap f) = (escBody q bs t).flatMap f := by
  induction t generalizing bs with
  | nil =>
    simp only [List.flatMap_nil, escBody]
    split
    · rw [List.flatMap_append, flatMap_replicate hf _ _ (by decide), List.flatMap_cons, hf.low 34 (by decide)]
      rfl
    · rw [flatMap_replicate hf _ _ (by decide)]
  | cons c t ih =>
    by_cases hc : c < 128
    · rw [List.flatMap_cons, hf.low c hc]
      simp only [List.cons_append, List.nil_append, escBody]
      split
      · exact ih _
      · split
        · rw [List.flatMap_append, flatMap_replicate hf _ _ (by decide), List.flatMap_cons,
            hf.low 34 (by decide), ih]; rfl
        · rw [List.flatMap_append, flatMap_replicate hf _ _ (by decide), List.flatMap_cons,
            hf.low c hc, ih]; rfl
    · obtain ⟨h1, h2⟩ := hf.high c (by omega)
      rw [List.flatMap_cons, escBody_high q bs _ _ h1 h2, ih]
      simp only [escBody]
      rw [if_neg (by omega), if_neg (by omega), List.flatMap_append,
        flatMap_replicate hf _ _ (by decide), List.flatMap_cons]
      simp

theorem mem_encode {f : Nat → List Nat} (hf : Ascii f) (t : List Nat) (c : Nat) (hc : c < 128) :
    c ∈ t.flatMap f ↔ c ∈ t := by
  rw [List.mem_flatMap]
  constructor
  · rintro ⟨a, ha, h⟩
    by_cases h1 : a < 128
    · rw [hf.low a h1] at h
      simp at h; rw [h]; exact ha
    · have := (hf.high a (by omega)).2 c h; omega
  · intro h; exact ⟨c, h, by rw [hf.low c hc]; simp⟩

theorem encode_nil {f : Nat → List Nat} (hf : Ascii f) (t : List Nat) : t.flatMap f = [] ↔ t = [] := by
  cases t with
  | nil => simp
  | cons c t =>
    simp only [List.flatMap_cons, List.append_eq_nil_iff, reduceCtorEq, iff_false, not_and]
    intro h
    by_cases hc : c < 128
    · rw [hf.low c hc] at h; cases h
    · exact absurd h (hf.high c (by omega)).1

theorem escArg_encode {f : Nat → List Nat} (hf : Ascii f) (t : List Nat) :
    escArg (t.flatMap f) = (escArg t).flatMap f := by
  have hq : needsQuote (t.flatMap f) = needsQuote t := by
    unfold needsQuote
    have e : ∀ c, c < 128 → (t.flatMap f).contains c = t.contains c := by
      intro c hc
      rw [Bool.eq_iff_iff, List.contains_iff_mem, List.contains_iff_mem, mem_encode hf t c hc]
    rw [e 32 (by decide), e 9 (by decide)]
    congr 1
    rw [Bool.eq_iff_iff, List.isEmpty_iff, List.isEmpty_iff, encode_nil hf]
  unfold escArg
  rw [hq]
  split
  · rw [List.flatMap_cons, hf.low 34 (by decide), escBody_encode hf]; rfl
  · exact escBody_encode hf _ _ _

theorem restArgs_encode {f : Nat → List Nat} (hf : Ascii f) (as : List (List Nat)) :
    restArgs (as.map fun a => a.flatMap f) = (restArgs as).flatMap f := by
  induction as with
  | nil => rfl
  | cons a as ih =>
    simp only [List.map_cons, restArgs]
    rw [escArg_encode hf, ih, List.cons_append, List.cons_append, List.flatMap_cons,
      hf.low 32 (by decide), List.flatMap_append]; rfl

/-- Building a command line commutes with encoding it. -/
theorem argv_encode {f : Nat → List Nat} (hf : Ascii f) (as : List (List Nat)) :
    argvToCommandLine (as.map fun a => a.flatMap f) = (argvToCommandLine as).flatMap f := by
  cases as with
  | nil => rfl
  | cons a as =>
    simp only [List.map_cons, argvToCommandLine]
    rw [escArg_encode hf, restArgs_encode hf, List.flatMap_append]

theorem escBody_mem (q : Bool) (bs : Nat) (t : List Nat) : ∀ c ∈ escBody q bs t, c ∈ t ∨ c = 34 ∨ c = 92 := by
  induction t generalizing bs with
  | nil =>
    intro c hc
    simp only [escBody] at hc
    split at hc <;> simp at hc <;> omega
  | cons d t ih =>
    intro c hc
    simp only [escBody] at hc
    split at hc
    · rcases ih _ c hc with h | h
      · exact .inl (by simp [h])
      · exact .inr h
    · split at hc
      · simp only [List.mem_append, List.mem_replicate, List.mem_cons] at hc
        rcases hc with h | h | h
        · omega
        · omega
        · rcases ih _ c h with h | h
          · exact .inl (by simp [h])
          · exact .inr h
      · simp only [List.mem_append, List.mem_replicate, List.mem_cons] at hc
        rcases hc with h | h | h
        · omega
        · exact .inl (by simp [h])
        · rcases ih _ c h with h | h
          · exact .inl (by simp [h])
          · exact .inr h

theorem argv_mem (as : List (List Nat)) :
    ∀ c ∈ argvToCommandLine as, (∃ a ∈ as, c ∈ a) ∨ c = 34 ∨ c = 92 ∨ c = 32 := by
  have hesc : ∀ a c, c ∈ escArg a → c ∈ a ∨ c = 34 ∨ c = 92 := by
    intro a c h
    unfold escArg at h
    split at h
    · rcases List.mem_cons.1 h with h | h
      · exact .inr (.inl h)
      · exact escBody_mem _ _ _ c h
    · exact escBody_mem _ _ _ c h
  have hrest : ∀ as c, c ∈ restArgs as → (∃ a ∈ as, c ∈ a) ∨ c = 34 ∨ c = 92 ∨ c = 32 := by
    intro as
    induction as with
    | nil => intro c h; simp [restArgs] at h
    | cons a as ih =>
      intro c h
      simp only [restArgs, List.cons_append, List.mem_cons, List.mem_append] at h
      rcases h with h | h | h
      · omega
      · rcases hesc a c h with h | h | h
        · exact .inl ⟨a, by simp, h⟩
        · omega
        · omega
      · rcases ih c h with ⟨b, hb, h⟩ | h
        · exact .inl ⟨b, by simp [hb], h⟩
        · exact .inr h
  cases as with
  | nil => intro c h; simp [argvToCommandLine] at h
  | cons a as =>
    intro c h
    simp only [argvToCommandLine, List.mem_append] at h
    rcases h with h | h
    · rcases hesc a c h with h | h | h
      · exact .inl ⟨a, by simp, h⟩
      · omega
      · omega
    · rcases hrest as c h with ⟨b, hb, h⟩ | h
      · exact .inl ⟨b, by simp [hb], h⟩
      · exact .inr h

/-! ## The conversions -/

theorem utf16Text_length_le (cs : List Nat) : (utf16Text cs).length ≤ (utf8Text cs).length := by
  induction cs with
  | nil => simp [utf16Text, utf8Text]
  | cons c cs ih =>
    have : (utf16 c).length ≤ (utf8 c).length := by
      unfold utf16 utf8
      repeat' split
      all_goals simp
      all_goals omega
    simp only [utf16Text, utf8Text, List.flatMap_cons, List.length_append] at *
    omega

theorem heapMbsToWcs_text {loc : Locale} (hl : Utf8 loc) (cs : List Nat) (h : ∀ c ∈ cs, IsScalar c) :
    heapMbsToWcs loc (utf8Text cs) = some (utf16Text cs) := by
  have := utf16Text_length_le cs
  simp only [heapMbsToWcs, hl.widen cs h]
  rw [if_pos (by omega)]

theorem storeChars_fits (room : Nat) (cs : List (List Nat)) (h : cs.flatten.length < room) :
    storeChars room cs = (cs.flatten, true) := by
  induction cs generalizing room with
  | nil => simp at h; simp [storeChars]; omega
  | cons c cs ih =>
    simp only [List.flatten_cons, List.length_append] at h
    simp only [storeChars]
    rw [if_pos (by omega), ih _ (by omega)]
    simp

theorem heapWcsToMbs_fits (loc : Locale) (ws : List Nat)
    (hs : ∀ chars, loc.narrow ws = some chars → chars.flatten.length ≤ 3 * ws.length) :
    heapWcsToMbs loc ws = match loc.narrow ws with
      | none => .null
      | some chars => .text chars.flatten := by
  unfold heapWcsToMbs
  split <;> rename_i h
  · rw [h]
  · rename_i chars
    have := hs chars h
    simp only [h, storeChars_fits (ws.length * 3 + 1) chars (by omega)]
    rw [if_neg (by omega)]
    simp

theorem wcsToMbs_text {loc : Locale} (hl : Utf8 loc) (cs : List Nat) (h : ∀ c ∈ cs, IsScalar c) :
    wcsToMbs loc (utf16Text cs) = some (utf8Text cs) := by
  unfold wcsToMbs
  rw [heapWcsToMbs_fits loc _ fun chars hc => hl.short _ _ hc, hl.narrow cs h]
  simp [utf8Text, List.flatMap]

theorem wcsToMbs_some {loc : Locale} (hl : Utf8 loc) (ws : List Nat) : ∃ m, wcsToMbs loc ws = some m := by
  unfold wcsToMbs
  rw [heapWcsToMbs_fits loc _ fun chars hc => hl.short _ _ hc]
  cases loc.narrow ws with
  | none => exact ⟨[], rfl⟩
  | some chars => exact ⟨_, rfl⟩

theorem points_scalar (s : String) : ∀ c ∈ points s, IsScalar c := by
  intro c hc
  simp only [points, codes, List.mem_map] at hc
  obtain ⟨ch, _, rfl⟩ := hc
  have h : UInt32.isValidChar ch.val := ch.valid
  unfold UInt32.isValidChar Nat.isValidChar at h
  have e : ch.toNat = ch.val.toNat := rfl
  unfold IsScalar
  omega

theorem bytes_eq (s : String) : bytes s = utf8Text (points s) := by
  have h := points_scalar s
  unfold bytes utf8Text points codes at *
  rw [List.flatMap_map]
  simp only [List.mem_map] at h
  generalize s.toList = l at *
  induction l with
  | nil => rfl
  | cons c l ih =>
    rw [List.flatMap_cons, List.flatMap_cons, ih fun x hx => h x (by obtain ⟨a, ha, e⟩ := hx; exact ⟨a, by simp [ha], e⟩),
      Unicode.encodeUtf8_eq, if_pos (h c.toNat ⟨c, by simp, rfl⟩)]

end Winpty.AdapterMain
