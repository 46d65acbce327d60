import Verif.Props.ConsoleInput
/-!
# The records of a key press
-/
namespace Winpty.ConsoleInput
open Winpty.Unicode Winpty.InputMap Winpty.Spec

/-- A record under a condition. -/
def krIf (c : Bool) (down : Bool) (vk state : Nat) : List Rec := if c then [.key down vk 0 state] else []

/-- The modifiers pressed before the key. -/
def modDowns (ctrl lAlt rAlt shift : Bool) : List Rec :=
  krIf ctrl true VK_CONTROL (orIf ctrl 0 LEFT_CTRL_PRESSED) ++
  krIf lAlt true VK_MENU (orIf lAlt (orIf ctrl 0 LEFT_CTRL_PRESSED) LEFT_ALT_PRESSED) ++
  krIf rAlt true VK_MENU
    (orIf rAlt (orIf lAlt (orIf ctrl 0 LEFT_CTRL_PRESSED) LEFT_ALT_PRESSED) RIGHT_ALT_PRESSED ||| ENHANCED_KEY) ++
  krIf shift true VK_SHIFT (orIf shift (orIf rAlt (orIf lAlt (orIf ctrl 0 LEFT_CTRL_PRESSED) LEFT_ALT_PRESSED)
    RIGHT_ALT_PRESSED) SHIFT_PRESSED)

/-- The modifiers released after the key. -/
def modUps (ctrl lAlt rAlt shift : Bool) : List Rec :=
  krIf shift false VK_SHIFT (orIf rAlt (orIf lAlt (orIf ctrl 0 LEFT_CTRL_PRESSED) LEFT_ALT_PRESSED)
    RIGHT_ALT_PRESSED) ++
  krIf rAlt false VK_MENU (orIf lAlt (orIf ctrl 0 LEFT_CTRL_PRESSED) LEFT_ALT_PRESSED ||| ENHANCED_KEY) ++
  krIf lAlt false VK_MENU (orIf ctrl 0 LEFT_CTRL_PRESSED) ++
  krIf ctrl false VK_CONTROL 0

/-- The modifier state while the key is down. -/
def modState (ctrl lAlt rAlt shift enh : Bool) : Nat :=
  orIf enh (orIf shift (orIf rAlt (orIf lAlt (orIf ctrl 0 LEFT_CTRL_PRESSED) LEFT_ALT_PRESSED)
    RIGHT_ALT_PRESSED) SHIFT_PRESSED) ENHANCED_KEY

/-- The records of the key itself. -/
def mainRecs (vt : Bool) (vk dn up st vtc vts : Nat) : List Rec :=
  (if vt then (reencodeChars vk vtc vts).map fun u => Rec.key true 0 u 0
    else (encodeUtf16 dn).map fun u => Rec.key true vk u st) ++
  (encodeUtf16 up).map fun u => Rec.key false vk u st

/-- All records of a key press. -/
def pressRecs (vt : Bool) (vk dn up w vtc vts : Nat) : List Rec :=
  modDowns (has w LEFT_CTRL_PRESSED) (has w LEFT_ALT_PRESSED) (has w RIGHT_ALT_PRESSED) (has w SHIFT_PRESSED) ++
  mainRecs vt vk dn up (modState (has w LEFT_CTRL_PRESSED) (has w LEFT_ALT_PRESSED) (has w RIGHT_ALT_PRESSED)
    (has w SHIFT_PRESSED) (has w ENHANCED_KEY)) vtc vts ++
  modUps (has w LEFT_CTRL_PRESSED) (has w LEFT_ALT_PRESSED) (has w RIGHT_ALT_PRESSED) (has w SHIFT_PRESSED)

/-- Does a key press go to the window as messages? -/
def asMessage (vt : Bool) (vk w : Nat) : Bool :=
  vt && isArrowKey vk && !has w LEFT_CTRL_PRESSED && !has w LEFT_ALT_PRESSED && !has w RIGHT_ALT_PRESSED &&
    !has w SHIFT_PRESSED

theorem recIf_eq (c : Bool) (s : St) (d : Bool) (vk k : Nat) :
    recIf c s d vk k = { s with records := s.records ++ krIf c d vk k } := by
  cases c <;> simp [recIf, krIf, appendInputRecord]

theorem main_eq (s : St) (vk dn up st vtc vts : Nat) :
    appendCPInputRecords (if s.escapeInputEnabled then reencodeEscapedKeyPress s vk vtc vts
      else appendCPInputRecords s true vk dn st) false vk up st =
    { s with records := s.records ++ mainRecs s.escapeInputEnabled vk dn up st vtc vts } := by
  unfold mainRecs
  cases h : s.escapeInputEnabled <;> simp [reencodeEscapedKeyPress, appendCPInputRecords, h]

theorem appendKeyPress_eq (s : St) (vk dn up w vtc vts : Nat) :
    appendKeyPress s vk dn up w vtc vts =
      if asMessage s.escapeInputEnabled vk w then
        { flushInputRecords s with out := (flushInputRecords s).out ++ [.keyMsg true vk, .keyMsg false vk] }
      else { s with records := s.records ++ pressRecs s.escapeInputEnabled vk dn up w vtc vts } := by
  unfold appendKeyPress asMessage
  simp only
  split
  · rfl
  · rw [main_eq]
    simp only [recIf_eq, pressRecs, modDowns, modUps, modState, List.append_assoc]

/-- The virtual key and state chosen for a character. -/
def charVk (sys : Sys) (c : Nat) : Nat :=
  if c > 0xFFFF then 0 else if sys.vkKeyScan c = -1 then 0
  else Winpty.Buffer.toUnsigned 16 (sys.vkKeyScan c) &&& 0xFF

/-- The modifiers the layout needs for a character. -/
def charMods (sys : Sys) (c : Nat) : Nat :=
  if c > 0xFFFF then 0 else if sys.vkKeyScan c = -1 then 0
  else scanState (Winpty.Buffer.toUnsigned 16 (sys.vkKeyScan c))

theorem appendChar_eq (sys : Sys) (s : St) (c : Nat) :
    appendChar sys s c false = appendKeyPress s (charVk sys c) c c (charMods sys c) c 0 := by
  unfold appendChar charVk charMods
  by_cases h : c > 0xFFFF
  · simp [h]
  · by_cases h' : sys.vkKeyScan c = -1 <;> simp [h, h']

/-- With Alt, a character that needs Ctrl is sent without its code. -/
def altCut (sys : Sys) (c : Nat) : Bool := has (charMods sys c) LEFT_CTRL_PRESSED

theorem appendChar_alt_eq (sys : Sys) (s : St) (c : Nat) :
    appendChar sys s c true = appendKeyPress s (charVk sys c) (if altCut sys c then 0 else c) 0
      (charMods sys c ||| LEFT_ALT_PRESSED) c LEFT_ALT_PRESSED := by
  unfold appendChar charVk altCut charMods has
  by_cases h : c > 0xFFFF
  · simp [h]
  · by_cases h' : sys.vkKeyScan c = -1 <;> simp [h, h']

/-! ## Text -/

theorem typed_append (a b : List Out) : typed (a ++ b) = typed a ++ typed b := by simp [typed]

theorem typed_krIf (c d : Bool) (vk k : Nat) : typed ((krIf c d vk k).map Out.record) = [] := by
  cases c <;> cases d <;> simp [krIf, typed, charOf]

theorem typed_downs (vk st : Nat) (us : List Nat) (h : ∀ u ∈ us, u ≠ 0) :
    typed ((us.map fun u => Rec.key true vk u st).map Out.record) = us := by
  induction us with
  | nil => rfl
  | cons u us ih =>
    have := ih fun v hv => h v (List.mem_cons_of_mem _ hv)
    have h0 : u ≠ 0 := h u (by simp)
    simp only [typed, List.map_cons, List.filterMap_cons, charOf, h0, ↓reduceIte] at this ⊢
    rw [this]

theorem typed_ups (vk st : Nat) (us : List Nat) :
    typed ((us.map fun u => Rec.key false vk u st).map Out.record) = [] := by
  induction us with
  | nil => rfl
  | cons u us ih => simpa [typed, charOf] using ih

theorem typed_press (vt : Bool) (vk dn up w vtc vts : Nat) :
    typed ((pressRecs vt vk dn up w vtc vts).map Out.record) =
      typed ((mainRecs vt vk dn up (modState (has w LEFT_CTRL_PRESSED) (has w LEFT_ALT_PRESSED)
        (has w RIGHT_ALT_PRESSED) (has w SHIFT_PRESSED) (has w ENHANCED_KEY)) vtc vts).map Out.record) := by
  simp only [pressRecs, modDowns, modUps, List.map_append, typed_append, typed_krIf, List.nil_append,
    List.append_nil]

theorem isKey_press (vt : Bool) (vk dn up w vtc vts : Nat) :
    ∀ e ∈ (pressRecs vt vk dn up w vtc vts).map Out.record, isKeyRecord e = true := by
  have hk : ∀ c d vk k, ∀ e ∈ (krIf c d vk k).map Out.record, isKeyRecord e = true := by
    intro c d vk k e he
    cases c <;> simp [krIf] at he
    subst he; rfl
  have hm : ∀ (us : List Nat) d vk k, ∀ e ∈ (us.map fun u => Rec.key d vk u k).map Out.record,
      isKeyRecord e = true := by
    intro us d vk k e he
    simp only [List.map_map, List.mem_map, Function.comp] at he
    obtain ⟨u, _, rfl⟩ := he
    rfl
  have key : ∀ (a b : List Rec), (∀ e ∈ a.map Out.record, isKeyRecord e = true) →
      (∀ e ∈ b.map Out.record, isKeyRecord e = true) → ∀ e ∈ (a ++ b).map Out.record, isKeyRecord e = true := by
    intro a b ha hb e he
    rw [List.map_append, List.mem_append] at he
    rcases he with he | he
    · exact ha e he
    · exact hb e he
  unfold pressRecs modDowns modUps mainRecs
  cases vt <;> simp only [Bool.false_eq_true, ↓reduceIte] <;>
    repeat' first | apply hk | apply hm | (refine key _ _ ?_ ?_)

theorem utf16_ne_zero (c : Nat) (h : IsScalar c) (h0 : c ≠ 0) : ∀ u ∈ encodeUtf16 c, u ≠ 0 := by
  rw [encodeUtf16_eq, if_pos h]
  unfold utf16
  split
  · simpa using h0
  · intro u hu
    simp at hu
    omega

/-! ## Scanning one character -/

theorem utf8_bound (c : Nat) (h : IsScalar c) (rest : List Nat) (hr : ∀ b ∈ rest, b < 256) :
    ∀ b ∈ utf8 c ++ rest, b < 256 := by
  intro b hb
  rcases List.mem_append.1 hb with hb | hb
  · exact utf8_bytes c h b hb
  · exact hr b hb

theorem utf8_first (c : Nat) {b : Nat} {t : List Nat} (e : utf8 c = b :: t) (k : Nat)
    (hk : k < 128) (hne : c ≠ k) : b ≠ k := by
  unfold utf8 at e
  repeat' split at e
  all_goals (simp only [List.cons.injEq] at e; omega)

theorem scanUtf8_char (sys : Sys) (s : St) (c : Nat) (h : IsScalar c) (rest : List Nat)
    (hr : ∀ b ∈ rest, b < 256) :
    scanUtf8 sys s (utf8 c ++ rest) = .consumed (utf8 c).length (appendChar sys s c false) := by
  obtain ⟨b, t, e, hb, l⟩ := utf8_head c h
  have hd := decode_utf8 c h rest hr
  have hpos : (utf8 c).length ≠ 0 := by simp [utf8_ne_nil c]
  rw [e] at hd hpos ⊢
  rw [e] at l
  simp only [List.cons_append, scanUtf8] at hd ⊢
  rw [l, if_neg hpos, if_neg (by simp), appendUtf8Char, hd]

theorem scanAlt_char (sys : Sys) (s : St) (c : Nat) (h : IsScalar c) (hc : c ≠ 27) (rest : List Nat)
    (hr : ∀ b ∈ rest, b < 256) :
    scanAlt sys s (utf8 c ++ rest) = .consumed (utf8 c).length (appendChar sys s c false) := by
  rw [← scanUtf8_char sys s c h rest hr]
  obtain ⟨b, t, e, _, _⟩ := utf8_head c h
  have hb := utf8_first c e 27 (by omega) hc
  rw [e, List.cons_append]
  unfold scanAlt
  split
  · rename_i heq
    simp at heq
    exact absurd heq.1 hb
  · rfl

theorem scanInput_char (sys : Sys) {root : Node} (hr : Holds root table) (env : Env) (s : St) (c : Nat)
    (h : IsScalar c) (h3 : c ≠ 3) (h27 : c ≠ 27) (h127 : c ≠ 127) (rest : List Nat)
    (hb : ∀ b ∈ rest, b < 256) (eof : Bool) :
    scanInput sys root env s (utf8 c ++ rest) eof = .consumed (utf8 c).length (appendChar sys s c false) := by
  rw [← scanAlt_char sys s c h h27 rest hb]
  obtain ⟨b, t, e, _, _⟩ := utf8_head c h
  have b3 := utf8_first c e 3 (by omega) h3
  have b27 := utf8_first c e 27 (by omega) h27
  have b127 := utf8_first c e 127 (by omega) h127
  obtain ⟨l0, li⟩ := table_lookup_none hr (t ++ rest) b27 b127 b3
  rw [e, List.cons_append]
  simp only [scanInput, b3, false_and, ↓reduceIte, b27, scanMap, l0, li]
  simp

theorem utf8Text_bytes (cs : List Nat) (h : ∀ c ∈ cs, IsScalar c) : ∀ b ∈ utf8Text cs, b < 256 := by
  intro b hb
  simp only [utf8Text, List.mem_flatMap] at hb
  obtain ⟨c, hc, hb⟩ := hb
  exact utf8_bytes c (h c hc) b hb

theorem scanLoop_text (sys : Sys) {root : Node} (hr : Holds root table) (env : Nat → Env) (eof : Bool)
    (cs : List Nat) (h : ∀ c ∈ cs, IsScalar c ∧ c ≠ 3 ∧ c ≠ 27 ∧ c ≠ 127) (fuel pos : Nat) (s : St)
    (hf : (utf8Text cs).length ≤ fuel) :
    scanLoop sys root env eof fuel pos s (utf8Text cs) =
      some (cs.foldl (fun s c => appendChar sys s c false) s, []) := by
  induction cs generalizing fuel pos s with
  | nil => cases fuel <;> rfl
  | cons c cs ih =>
    obtain ⟨hc, h3, h27, h127⟩ := h c (by simp)
    have hcs : ∀ d ∈ cs, IsScalar d ∧ d ≠ 3 ∧ d ≠ 27 ∧ d ≠ 127 := fun d hd => h d (List.mem_cons_of_mem _ hd)
    have hsc := scanInput_char sys hr (env pos) s c hc h3 h27 h127 (utf8Text cs)
      (utf8Text_bytes cs fun d hd => (hcs d hd).1) eof
    have hpos : 0 < (utf8 c).length := List.length_pos_iff.2 (utf8_ne_nil c)
    have e : utf8Text (c :: cs) = utf8 c ++ utf8Text cs := rfl
    rw [e] at hf ⊢
    obtain ⟨b, t, eb, _, _⟩ := utf8_head c hc
    cases fuel with
    | zero => simp at hf; exact absurd hf.1 (utf8_ne_nil c)
    | succ fuel =>
      have hl : (utf8Text cs).length ≤ fuel := by simp at hf; omega
      have hdrop : (utf8 c ++ utf8Text cs).drop (utf8 c).length = utf8Text cs := by simp
      rw [eb, List.cons_append] at hsc hdrop ⊢
      rw [scanLoop, hsc]
      simp only [hdrop]
      rw [ih hcs fuel _ _ hl]
      rfl

end Winpty.ConsoleInput
