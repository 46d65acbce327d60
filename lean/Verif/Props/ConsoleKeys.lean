import Verif.Lemmas.ConsoleEffect
/-!
# C09, C10: text and key presses
-/
namespace Winpty.ConsoleInput
open Winpty.Unicode Winpty.InputMap Winpty.Spec

theorem charVk_eq (sys : Sys) (c : Nat) : charVk sys c = layoutKey sys c := by
  unfold charVk layoutKey Winpty.Buffer.toUnsigned
  by_cases h : c > 0xFFFF
  · rw [if_pos h, if_neg (by omega)]
  · rw [if_neg h]
    by_cases h' : sys.vkKeyScan c = -1
    · rw [if_pos h', if_neg (by simp [h'])]
    · rw [if_neg h', if_pos ⟨by omega, h'⟩, show (0xFF : Nat) = 2 ^ 8 - 1 from rfl, Nat.and_two_pow_sub_one_eq_mod]
      omega

theorem escapedKey_none (vk : Nat) (h : vk ∉ specialKeys) : escapedKey vk = .none ∧ vk ≠ VK_BACK ∧
    isArrowKey vk = false := by
  simp only [specialKeys, List.mem_cons, List.not_mem_nil, or_false, not_or] at h
  simp [escapedKey, isArrowKey, VK_UP, VK_DOWN, VK_LEFT, VK_RIGHT, VK_HOME, VK_END, VK_CLEAR, VK_F1, VK_F2, VK_F3,
    VK_F4, VK_F5, VK_F6, VK_F7, VK_F8, VK_F9, VK_F10, VK_F11, VK_F12, VK_INSERT, VK_DELETE, VK_PRIOR, VK_NEXT,
    VK_BACK, h]

/-- One character of text. -/
theorem appendChar_text (sys : Sys) (s : St) (c : Nat) (hc : IsScalar c) (h0 : c ≠ 0)
    (hvt : s.escapeInputEnabled = false ∨ layoutKey sys c ∉ specialKeys) :
    ∃ rs, appendChar sys s c false = { s with records := s.records ++ rs } ∧
      typed (rs.map Out.record) = utf16 c ∧ ∀ e ∈ rs.map Out.record, isKeyRecord e = true := by
  have hm : asMessage s.escapeInputEnabled (charVk sys c) (charMods sys c) = false := by
    unfold asMessage
    rcases hvt with h | h
    · simp [h]
    · rw [← charVk_eq] at h
      simp [(escapedKey_none _ h).2.2]
  refine ⟨_, by rw [appendChar_eq, appendKeyPress_eq, if_neg (by simp [hm])], ?_, isKey_press _ _ _ _ _ _ _⟩
  have h16 : encodeUtf16 c = utf16 c := by rw [encodeUtf16_eq, if_pos hc]
  have hnz := utf16_ne_zero c hc h0
  rw [h16] at hnz
  rw [typed_press]
  unfold mainRecs
  rw [List.map_append, typed_append, typed_ups, List.append_nil]
  cases he : s.escapeInputEnabled with
  | false =>
    simp only [Bool.false_eq_true, ↓reduceIte]
    rw [h16]
    exact typed_downs _ _ _ hnz
  | true =>
    have h : layoutKey sys c ∉ specialKeys := by
      rcases hvt with h | h
      · rw [he] at h; cases h
      · exact h
    rw [← charVk_eq] at h
    obtain ⟨e1, e2, _⟩ := escapedKey_none _ h
    have : reencodeChars (charVk sys c) c 0 = utf16 c := by
      unfold reencodeChars
      rw [e1]
      simp [e2, h0, h16]
    simp only [↓reduceIte, this]
    exact typed_downs _ _ _ hnz

theorem text_fold (sys : Sys) (cs : List Nat) (s : St) (h : ∀ c ∈ cs, IsScalar c ∧ c ≠ 0)
    (hvt : s.escapeInputEnabled = false ∨ ∀ c ∈ cs, layoutKey sys c ∉ specialKeys) :
    ∃ rs, cs.foldl (fun s c => appendChar sys s c false) s = { s with records := s.records ++ rs } ∧
      typed (rs.map Out.record) = utf16Text cs ∧ ∀ e ∈ rs.map Out.record, isKeyRecord e = true := by
  induction cs generalizing s with
  | nil => exact ⟨[], by simp, rfl, by simp⟩
  | cons c cs ih =>
    obtain ⟨hc, h0⟩ := h c (by simp)
    obtain ⟨rs, e1, e2, e3⟩ := appendChar_text sys s c hc h0 (hvt.imp_right fun h => h c (by simp))
    have hs : (appendChar sys s c false).escapeInputEnabled = s.escapeInputEnabled := by rw [e1]
    obtain ⟨rs', f1, f2, f3⟩ := ih (appendChar sys s c false) (fun d hd => h d (List.mem_cons_of_mem _ hd))
      (by rw [hs]; exact hvt.imp_right fun h d hd => h d (List.mem_cons_of_mem _ hd))
    refine ⟨rs ++ rs', ?_, ?_, ?_⟩
    · rw [List.foldl_cons, f1, e1]; simp
    · rw [List.map_append, typed_append, e2, f2]; rfl
    · intro e he
      rw [List.map_append, List.mem_append] at he
      exact he.elim (e3 e) (f3 e)

end Winpty.ConsoleInput

namespace Winpty.Props
open Winpty.ConsoleInput Winpty.InputMap Winpty.Spec Winpty.Unicode

/-- **C09.**  Text without the control characters NUL, Ctrl-C, ESC and DEL, written as UTF-8 in any
chunks while nothing is pending, is delivered at once as key records and nothing else, and the
characters of the key-down records are exactly the UTF-16 encoding of the text.  If the console asked
for VT input, the layout must not claim that a navigation, function or Backspace key types one of the
characters. -/
theorem C09_text (sys : Sys) (root : Node) (hr : setAll newNode defaultRegs = some root) (env : Nat → Env)
    (o : Obj) (hq : o.queue = []) (hrec : o.st.records = []) (cs : List Nat)
    (h : ∀ c ∈ cs, IsScalar c ∧ c ≠ 0 ∧ c ≠ 3 ∧ c ≠ 27 ∧ c ≠ 127)
    (hvt : o.st.escapeInputEnabled = false ∨ ∀ c ∈ cs, layoutKey sys c ∉ specialKeys)
    (chunks : List (Nat × List Nat)) (hc : (chunks.map (·.2)).flatten = utf8Text cs) :
    ∃ o' new, writeAll sys root env o chunks = some o' ∧ o'.queue = [] ∧
      events o'.st.out = events o.st.out ++ new ∧ typed new = utf16Text cs ∧
      ∀ e ∈ new, isKeyRecord e = true := by
  obtain ⟨o1, o2, a1, a2, a3, a4, _, _, _, a8, a9⟩ := C07_chunking sys root hr env o hrec chunks
    [(0, utf8Text cs)] (by simpa using hc)
  refine ⟨o1, ?_⟩
  rw [a1, a3, a4]
  by_cases hn : utf8Text cs = []
  · rw [hn] at a2
    cases a2
    refine ⟨[], rfl, hq, by simp, ?_, by simp⟩
    cases cs with
    | nil => rfl
    | cons c cs =>
      have : utf8 c ++ utf8Text cs = [] := hn
      exact absurd (List.append_eq_nil_iff.1 this).1 (utf8_ne_nil c)
  · obtain ⟨o3, s3, q3, e1, e2, e3, e4, _, e6⟩ := writeAll_spec (sys := sys) (default_wf hr) env
      [(0, utf8Text cs)] o (by simpa using hn)
    rw [a2] at e1
    cases e1
    simp only [hq, List.nil_append, List.map_cons, List.map_nil, List.flatten_cons, List.flatten_nil,
      List.append_nil] at e2
    rw [scanLoop_text sys (default_holds hr) env false cs
      (fun c hc => ⟨(h c hc).1, (h c hc).2.2.1, (h c hc).2.2.2.1, (h c hc).2.2.2.2⟩) _ _ _ (Nat.le_refl _)] at e2
    cases e2
    obtain ⟨rs, f1, f2, f3⟩ := text_fold sys cs o.st (fun c hc => ⟨(h c hc).1, (h c hc).2.1⟩) hvt
    refine ⟨rs.map Out.record, rfl, e4, ?_, f2, f3⟩
    have hR := ((R_iff _ _).1 e3).2.2.2.2.2.2.2
    rw [f1] at hR
    simp only [e6, hrec, List.map_nil, List.append_nil, List.nil_append] at hR
    have hf : (rs.map Out.record).filter (· ≠ Out.dsr) = rs.map Out.record := by
      apply List.filter_eq_self.2
      intro e he
      simp only [List.mem_map] at he
      obtain ⟨r, _, rfl⟩ := he
      simp
    unfold events
    rw [hR, List.filter_append, hf]

/-- Beside C09: "Aé😀" on a layout where A needs Shift. -/
example (root : Node) (hr : setAll newNode defaultRegs = some root) :
    ∃ o' new, writeAll ⟨fun c => if c = 65 then 0x141 else -1⟩ root (fun _ => ⟨0, 0, 0⟩) {}
        [(1, [65, 0xC3]), (2, [0xA9, 0xF0, 0x9F]), (3, [0x98, 0x80])] = some o' ∧ o'.queue = [] ∧
      events o'.st.out = events [] ++ new ∧ typed new = [65, 0xE9, 0xD83D, 0xDE00] ∧
      ∀ e ∈ new, isKeyRecord e = true :=
  C09_text _ root hr _ {} rfl rfl [65, 0xE9, 0x1F600] (by decide) (.inl rfl) _ (by decide)


end Winpty.Props

namespace Winpty.ConsoleInput
open Winpty.Unicode Winpty.InputMap Winpty.Spec

theorem keyboards_append (h : List HeldKey) (a b : List Out) :
    keyboards h (a ++ b) = (keyboards h a).bind fun h => keyboards h b := by
  induction a generalizing h with
  | nil => rfl
  | cons e a ih =>
    simp only [List.cons_append, keyboards]
    cases keyboard h e with
    | none => rfl
    | some h' => simpa using ih h'

theorem keyOf_plain (vk st : Nat) (h : vk ≠ 0x10 ∧ vk ≠ 0x11 ∧ vk ≠ 0x12) : keyOf vk st = .plain vk := by
  simp [keyOf, modifierBit, h]

/-- Pressing or releasing the main key, possibly with a surrogate pair. -/
theorem keyboards_down (held : List HeldKey) (vk st c : Nat) (hc : IsScalar c)
    (hvk : vk ≠ 0x10 ∧ vk ≠ 0x11 ∧ vk ≠ 0x12) (hn : HeldKey.plain vk ∉ held)
    (hst : st &&& 0xFF = heldBits held) :
    keyboards held (((encodeUtf16 c).map fun u => Rec.key true vk u st).map Out.record) =
      some (.plain vk :: held) := by
  have hb : heldBits (.plain vk :: held) = heldBits held := rfl
  rw [encodeUtf16_eq, if_pos hc]
  unfold utf16
  unfold IsScalar at hc
  split
  · simp only [List.map_cons, List.map_nil, keyboards, keyboard, keyOf_plain _ _ hvk]
    rw [if_neg (by omega), if_pos trivial, if_pos ⟨hn, by rw [hb, hst]⟩]
    rfl
  · simp only [List.map_cons, List.map_nil, keyboards, keyboard, keyOf_plain _ _ hvk]
    rw [if_neg (by omega), if_pos trivial, if_pos ⟨hn, by rw [hb, hst]⟩, Option.bind_some, if_pos (by omega),
      if_pos (by rw [hb, hst])]
    rfl

theorem keyboards_up (held : List HeldKey) (vk st c : Nat) (hc : IsScalar c)
    (hvk : vk ≠ 0x10 ∧ vk ≠ 0x11 ∧ vk ≠ 0x12) (hst : st &&& 0xFF = heldBits held) :
    keyboards (.plain vk :: held) (((encodeUtf16 c).map fun u => Rec.key false vk u st).map Out.record) =
      some held := by
  rw [encodeUtf16_eq, if_pos hc]
  unfold utf16
  unfold IsScalar at hc
  split
  · simp only [List.map_cons, List.map_nil, keyboards, keyboard, keyOf_plain _ _ hvk]
    rw [if_neg (by omega), if_neg (by decide), if_pos ⟨trivial, hst⟩]
    rfl
  · simp only [List.map_cons, List.map_nil, keyboards, keyboard, keyOf_plain _ _ hvk]
    rw [if_neg (by omega), if_neg (by decide), if_pos ⟨trivial, hst⟩, Option.bind_some, if_pos (by omega), if_pos hst]
    rfl

/-- The modifiers held while the main key is pressed. -/
def modHeld (ctrl lAlt rAlt shift : Bool) : List HeldKey :=
  (if shift then [.modifier 0x10] else []) ++ (if rAlt then [.modifier 0x01] else []) ++
  (if lAlt then [.modifier 0x02] else []) ++ (if ctrl then [.modifier 0x08] else [])

theorem keyboards_modDowns (a b c d : Bool) :
    keyboards [] ((modDowns a b c d).map Out.record) = some (modHeld a b c d) := by
  cases a <;> cases b <;> cases c <;> cases d <;> decide

theorem keyboards_modUps (a b c d : Bool) :
    keyboards (modHeld a b c d) ((modUps a b c d).map Out.record) = some [] := by
  cases a <;> cases b <;> cases c <;> cases d <;> decide

theorem modState_bits (a b c d e : Bool) : modState a b c d e &&& 0xFF = heldBits (modHeld a b c d) := by
  cases a <;> cases b <;> cases c <;> cases d <;> cases e <;> decide

theorem modHeld_plain (a b c d : Bool) (vk : Nat) : HeldKey.plain vk ∉ modHeld a b c d := by
  cases a <;> cases b <;> cases c <;> cases d <;> simp [modHeld]

/-- A whole key press, without VT input. -/
theorem keyboards_press (vk dn up w vtc vts : Nat) (hvk : vk ≠ 0x10 ∧ vk ≠ 0x11 ∧ vk ≠ 0x12)
    (hd : IsScalar dn) (hu : IsScalar up) :
    keyboards [] ((pressRecs false vk dn up w vtc vts).map Out.record) = some [] := by
  unfold pressRecs mainRecs
  simp only [Bool.false_eq_true, ↓reduceIte, List.map_append, keyboards_append, keyboards_modDowns,
    Option.bind_some]
  rw [keyboards_down _ _ _ _ hd hvk (modHeld_plain _ _ _ _ _) (modState_bits _ _ _ _ _), Option.bind_some,
    keyboards_up _ _ _ _ hu hvk (modState_bits _ _ _ _ _), Option.bind_some, keyboards_modUps]

/-! The modifier events alone, with or without VT input. -/

theorem filter_main (vt : Bool) (vk dn up st vtc vts : Nat) (hvk : vk ≠ 0x10 ∧ vk ≠ 0x11 ∧ vk ≠ 0x12) :
    ((mainRecs vt vk dn up st vtc vts).map Out.record).filter isModifier = [] := by
  have hz : ∀ st, modifierBit 0 st = none := fun st => by simp [modifierBit]
  have hv : ∀ st, modifierBit vk st = none := fun st => by simp [modifierBit, hvk]
  rw [List.filter_eq_nil_iff]
  intro e he
  unfold mainRecs at he
  cases vt <;> simp only [Bool.false_eq_true, ↓reduceIte, List.map_append, List.map_map, List.mem_append,
    List.mem_map, Function.comp] at he
  all_goals
    rcases he with ⟨u, _, rfl⟩ | ⟨u, _, rfl⟩ <;> simp [isModifier, hz, hv]

theorem filter_mods (a b c d : Bool) :
    ((modDowns a b c d).map Out.record).filter isModifier = (modDowns a b c d).map Out.record ∧
    ((modUps a b c d).map Out.record).filter isModifier = (modUps a b c d).map Out.record := by
  cases a <;> cases b <;> cases c <;> cases d <;> decide

theorem keyboards_press_mods (vt : Bool) (vk dn up w vtc vts : Nat) (hvk : vk ≠ 0x10 ∧ vk ≠ 0x11 ∧ vk ≠ 0x12) :
    keyboards [] (((pressRecs vt vk dn up w vtc vts).map Out.record).filter isModifier) = some [] := by
  unfold pressRecs
  simp only [List.map_append, List.filter_append, filter_main vt vk dn up _ vtc vts hvk, (filter_mods _ _ _ _).1,
    (filter_mods _ _ _ _).2, List.append_nil, keyboards_append, keyboards_modDowns, keyboards_modUps,
    Option.bind_some]

/-- Facts about the keys in the table. -/
theorem table_keys : table.all (fun x => x.2.virtualKey ≠ 0x10 && x.2.virtualKey ≠ 0x11 &&
    x.2.virtualKey ≠ 0x12 && x.2.unicodeChar < 128) = true := by decide +kernel

theorem table_key {seq : List Nat} {k : Key} (h : (seq, k) ∈ table) :
    (k.virtualKey ≠ 0x10 ∧ k.virtualKey ≠ 0x11 ∧ k.virtualKey ≠ 0x12) ∧ k.unicodeChar < 128 := by
  have := List.all_eq_true.1 table_keys _ h
  simpa [and_assoc] using this

theorem scalar_small (c : Nat) (h : c < 128) : IsScalar c := .inl (by omega)

/-- Everything delivered so far, including records not yet flushed. -/
def sent (s : St) : List Out := s.out ++ s.records.map .record

theorem sent_flush (s : St) : sent (flushInputRecords s) = sent s := by simp [sent, flushInputRecords]

/-- What one step adds to what was delivered. -/
inductive Added (sys : Sys) (env : Env) (s s' : St) : List Out → Prop
  | nothing : Added sys env s s' []
  | ctrlC : Added sys env s s' [.ctrlC]
  | mouse (x y : Int) (buttons flags ctrl : Nat) : Added sys env s s' [.record (.mouse x y buttons flags ctrl)]
  | message (vk : Nat) (h : s.escapeInputEnabled = true) (ha : isArrowKey vk = true) : Added sys env s s' [.keyMsg true vk, .keyMsg false vk]
  | press (vk dn up w vtc vts : Nat) (hv : (∃ c, vk = layoutKey sys c) ∨
      (vk ≠ 0x10 ∧ vk ≠ 0x11 ∧ vk ≠ 0x12)) (hd : IsScalar dn) (hu : IsScalar up) :
      Added sys env s s' ((pressRecs s.escapeInputEnabled vk dn up w vtc vts).map .record)

theorem sent_press (s : St) (vk dn up w vtc vts : Nat) :
    sent (appendKeyPress s vk dn up w vtc vts) = sent s ++
      (if asMessage s.escapeInputEnabled vk w then [.keyMsg true vk, .keyMsg false vk]
       else (pressRecs s.escapeInputEnabled vk dn up w vtc vts).map .record) ∧
    (appendKeyPress s vk dn up w vtc vts).escapeInputEnabled = s.escapeInputEnabled := by
  rw [appendKeyPress_eq]
  split <;> simp [sent, flushInputRecords]

theorem added_press (sys : Sys) (env : Env) (s s' : St) (vk dn up w vtc vts : Nat)
    (hv : (∃ c, vk = layoutKey sys c) ∨ (vk ≠ 0x10 ∧ vk ≠ 0x11 ∧ vk ≠ 0x12)) (hd : IsScalar dn) (hu : IsScalar up) :
    Added sys env s s' (if asMessage s.escapeInputEnabled vk w then [.keyMsg true vk, .keyMsg false vk]
       else (pressRecs s.escapeInputEnabled vk dn up w vtc vts).map .record) := by
  split
  · rename_i h
    unfold asMessage at h
    simp only [Bool.and_eq_true] at h
    exact .message vk h.1.1.1.1.1 h.1.1.1.1.2
  · exact .press vk dn up w vtc vts hv hd hu

theorem pushMouse_sent (s : St) (x y : Int) (b f c : Nat) :
    (sent (pushMouse s (.mouse x y b f c)) = sent s ∨
     sent (pushMouse s (.mouse x y b f c)) = sent s ++ [.record (.mouse x y b f c)]) ∧
    (pushMouse s (.mouse x y b f c)).escapeInputEnabled = s.escapeInputEnabled := by
  unfold pushMouse
  split
  · exact ⟨.inr (by simp [sent]), rfl⟩
  · exact ⟨.inl rfl, rfl⟩

theorem effect_added {sys : Sys} {env : Env} {item : List Nat} {s s' : St} (h : Effect sys env item s s') :
    s'.escapeInputEnabled = s.escapeInputEnabled ∧ ∃ new, sent s' = sent s ++ new ∧ Added sys env s s' new := by
  cases h with
  | ctrlC => exact ⟨rfl, _, by simp [sent, flushInputRecords], .ctrlC⟩
  | report => exact ⟨rfl, [], by simp [sent], .nothing⟩
  | skip => exact ⟨rfl, [], by simp, .nothing⟩
  | mouse r _ =>
    have aux : ∀ (t : St) x y b f c, t.escapeInputEnabled = s.escapeInputEnabled → sent t = sent s →
        (pushMouse t (.mouse x y b f c)).escapeInputEnabled = s.escapeInputEnabled ∧
        ∃ new, sent (pushMouse t (.mouse x y b f c)) = sent s ++ new ∧
          Added sys env s (handleMouse env s r) new := by
      intro t x y b f c h1 h2
      obtain ⟨h3, h4⟩ := pushMouse_sent t x y b f c
      refine ⟨h4.trans h1, ?_⟩
      rcases h3 with h3 | h3
      · exact ⟨[], by rw [h3, h2, List.append_nil], .nothing⟩
      · exact ⟨_, by rw [h3, h2], .mouse _ _ _ _ _⟩
    have key : ∀ t, t = handleMouse env s r → t.escapeInputEnabled = s.escapeInputEnabled ∧
        ∃ new, sent t = sent s ++ new ∧ Added sys env s (handleMouse env s r) new := by
      intro t ht
      unfold handleMouse at ht
      simp only at ht
      split at ht
      · split at ht
        · subst ht; exact aux _ _ _ _ _ _ rfl rfl
        · split at ht
          · subst ht; exact aux _ _ _ _ _ _ rfl rfl
          · subst ht; exact ⟨rfl, [], by simp, .nothing⟩
      · subst ht; exact aux _ _ _ _ _ _ rfl rfl
    exact key _ rfl
  | key k hk =>
    obtain ⟨h1, h2⟩ := table_key hk
    unfold appendMatch
    simp only
    obtain ⟨e1, e2⟩ := sent_press s k.virtualKey
      (if has k.keyState LEFT_CTRL_PRESSED && has k.keyState LEFT_ALT_PRESSED then 0 else k.unicodeChar)
      (if has k.keyState LEFT_ALT_PRESSED then 0 else
        (if has k.keyState LEFT_CTRL_PRESSED && has k.keyState LEFT_ALT_PRESSED then 0 else k.unicodeChar))
      k.keyState k.unicodeChar k.keyState
    refine ⟨e2, _, e1, added_press _ _ _ _ _ _ _ _ _ _ (.inr h1) (scalar_small _ ?_) (scalar_small _ ?_)⟩
    · split <;> omega
    · split
      · omega
      · split <;> omega
  | char c alt hc _ =>
    cases alt with
    | false =>
      rw [appendChar_eq]
      obtain ⟨e1, e2⟩ := sent_press s (charVk sys c) c c (charMods sys c) c 0
      exact ⟨e2, _, e1, added_press _ _ _ _ _ _ _ _ _ _ (.inl ⟨c, charVk_eq sys c⟩) hc hc⟩
    | true =>
      rw [appendChar_alt_eq]
      obtain ⟨e1, e2⟩ := sent_press s (charVk sys c) (if altCut sys c then 0 else c) 0
        (charMods sys c ||| LEFT_ALT_PRESSED) c LEFT_ALT_PRESSED
      refine ⟨e2, _, e1, added_press _ _ _ _ _ _ _ _ _ _ (.inl ⟨c, charVk_eq sys c⟩) ?_ (scalar_small 0 (by omega))⟩
      split
      · exact scalar_small 0 (by omega)
      · exact hc

end Winpty.ConsoleInput

namespace Winpty.Props
open Winpty.ConsoleInput Winpty.InputMap Winpty.Spec Winpty.Unicode

/-- The layout never claims that Shift, Ctrl or Alt types a character. -/
def OrdinaryLayout (sys : Sys) : Prop := ∀ c, layoutKey sys c ≠ 0x10 ∧ layoutKey sys c ≠ 0x11 ∧ layoutKey sys c ≠ 0x12

/-- **C10** for a console that has not asked for VT input: after any history, all events delivered are a
possible history of a keyboard on which, at the end, no key is down: every key pressed is released, in
reverse order, and each event carries exactly the modifiers that are down at that moment. -/
theorem C10_keyboard (sys : Sys) (root : Node) (hr : setAll newNode defaultRegs = some root)
    (hl : OrdinaryLayout sys) (env : Nat → Env) (ops : List Op) (hb : ∀ b ∈ written ops, b < 256)
    (hm : ∀ m, .mode m ∈ ops → m &&& 0x200 = 0) :
    ∃ o, execAll sys root env {} ops = some o ∧ keyboards [] o.st.out = some [] := by
  obtain ⟨o, ho⟩ := execAll_total sys root env {} ops
  refine ⟨o, ho, ?_⟩
  have hv : ∀ {vk : Nat}, ((∃ c, vk = layoutKey sys c) ∨ (vk ≠ 0x10 ∧ vk ≠ 0x11 ∧ vk ≠ 0x12)) →
      vk ≠ 0x10 ∧ vk ≠ 0x11 ∧ vk ≠ 0x12 := by
    rintro vk (⟨c, rfl⟩ | h)
    · exact hl c
    · exact h
  have inv := execAll_inv (default_holds hr)
    (fun s => keyboards [] s.out = some [] ∧ keyboards [] (sent s) = some [] ∧ s.escapeInputEnabled = false)
    (o := {}) (o' := o) (ops := ops) (sys := sys) (env := env) ?_ ?_ ?_ hb ?_ ?_ ho (by simp) ⟨rfl, rfl, rfl⟩
  · exact inv.1
  · intro e _ s s' ⟨h0, h1, h2⟩ heff
    obtain ⟨h3, new, h4, h5⟩ := effect_added heff
    have hnew : keyboards [] new = some [] := by
      cases h5 with
      | nothing => rfl
      | ctrlC => rfl
      | mouse => rfl
      | message vk h _ => rw [h2] at h; cases h
      | press vk dn up w vtc vts h hd hu => rw [h2]; exact keyboards_press _ _ _ _ _ _ (hv h) hd hu
    have hs' : keyboards [] (sent s') = some [] := by rw [h4, keyboards_append, h1]; exact hnew
    refine ⟨?_, hs', h3.trans h2⟩
    cases heff with
    | ctrlC =>
      have : sent s ++ [Out.ctrlC] = { flushInputRecords s with out := (flushInputRecords s).out ++ [Out.ctrlC] }.out := rfl
      rw [← this, keyboards_append, h1]; rfl
    | report => exact h0
    | skip => exact h0
    | mouse r _ =>
      have : (handleMouse e s r).out = s.out := by
        unfold handleMouse pushMouse
        simp only
        repeat' split
        all_goals rfl
      rw [this]; exact h0
    | key k hk =>
      unfold appendMatch
      simp only
      rw [appendKeyPress_eq, if_neg (by simp [asMessage, h2])]
      exact h0
    | char c alt hc _ =>
      cases alt
      · rw [appendChar_eq, appendKeyPress_eq, if_neg (by simp [asMessage, h2])]
        exact h0
      · rw [appendChar_alt_eq, appendKeyPress_eq, if_neg (by simp [asMessage, h2])]
        exact h0
  · intro s ⟨_, h1, h2⟩
    exact ⟨by simpa [flushInputRecords, sent] using h1, by rw [sent_flush]; exact h1, h2⟩
  · intro s ⟨h0, _, h2⟩ hrec _
    have : keyboards [] (s.out ++ [Out.dsr]) = some [] := by rw [keyboards_append, h0]; rfl
    exact ⟨this, by simpa [sent, hrec] using this, h2⟩
  · intro m s hmem ⟨h0, h1, _⟩
    exact ⟨h0, h1, by simp [updateInputFlags, has, hm m hmem]⟩
  · intro r s _ h
    exact h

/-- Beside C10: Ctrl-Shift-Left, Alt-é and an emoji, on a layout where é is AltGr-E. -/
example (root : Node) (hr : setAll newNode defaultRegs = some root) :
    ∃ o, execAll ⟨fun c => if c = 0xE9 then 0x645 else -1⟩ root (fun _ => ⟨0, 0, 0⟩) {}
      [.mode 0x11, .write 5 [27, 91, 49, 59, 54, 68, 27, 0xC3, 0xA9, 0xF0, 0x9F], .write 6 [0x98, 0x80, 27], .poll 2000] =
        some o ∧ keyboards [] o.st.out = some [] :=
  C10_keyboard _ root hr (by intro c; unfold layoutKey; simp only; split <;> (try split) <;> decide) _ _ (by decide)
    (by intro m hm; simp at hm; subst hm; decide)

/-- **C10** for any console mode, VT input included: the events about modifier keys alone are a possible
history of a keyboard, so that every modifier pressed is released in reverse order, with the right
state, and none is left down.

What is missing from the full property: with VT input the main key's own events are not balanced (see
`C10_vt_unbalanced`). -/
theorem C10_modifiers_partial (sys : Sys) (root : Node) (hr : setAll newNode defaultRegs = some root)
    (hl : OrdinaryLayout sys) (env : Nat → Env) (ops : List Op) (hb : ∀ b ∈ written ops, b < 256) :
    ∃ o, execAll sys root env {} ops = some o ∧ o.st.records = [] ∧
      keyboards [] (o.st.out.filter isModifier) = some [] := by
  obtain ⟨o, ho⟩ := execAll_total sys root env {} ops
  have hv : ∀ {vk : Nat}, ((∃ c, vk = layoutKey sys c) ∨ (vk ≠ 0x10 ∧ vk ≠ 0x11 ∧ vk ≠ 0x12)) →
      vk ≠ 0x10 ∧ vk ≠ 0x11 ∧ vk ≠ 0x12 := by
    rintro vk (⟨c, rfl⟩ | h)
    · exact hl c
    · exact h
  have hrec : ∀ (ops : List Op) (o o' : Obj), o.st.records = [] → execAll sys root env o ops = some o' →
      o'.st.records = [] := by
    intro ops
    induction ops with
    | nil => intro o o' h he; cases he; exact h
    | cons op ops ih =>
      intro o o' h he
      obtain ⟨o1, h1⟩ := exec_total sys root env o op
      rw [execAll, h1, Option.bind_some] at he
      refine ih o1 o' ?_ he
      cases op with
      | write now bytes =>
        by_cases hbs : bytes = []
        · subst hbs; cases h1; exact h
        · obtain ⟨_, _, o2, e1, _, _, _, _, _, e7⟩ := writeInput_spec sys root env now o bytes hbs
          simp only [exec] at h1
          rw [e1] at h1; cases h1; exact e7
      | poll now =>
        simp only [exec, flushIncompleteEscapeCode] at h1
        split at h1
        · obtain ⟨s', c, q', e1, _⟩ := doWrite_total sys root env true o.pos o.st o.queue
          rw [e1] at h1; cases h1; rfl
        · cases h1; exact h
      | mode m => cases h1; exact h
      | window r => cases h1; exact h
  have hrec := hrec ops {} o rfl ho
  refine ⟨o, ho, hrec, ?_⟩
  have inv := execAll_inv (default_holds hr)
    (fun s => keyboards [] ((sent s).filter isModifier) = some [])
    (o := {}) (o' := o) (ops := ops) (sys := sys) (env := env) ?_ ?_ ?_ hb ?_ ?_ ho (by simp) rfl
  · simpa [sent, hrec] using inv
  · intro e _ s s' h1 heff
    obtain ⟨h3, new, h4, h5⟩ := effect_added heff
    have hnew : keyboards [] (new.filter isModifier) = some [] := by
      cases h5 with
      | nothing => rfl
      | ctrlC => rfl
      | mouse => rfl
      | message vk h _ => rfl
      | press vk dn up w vtc vts h hd hu => exact keyboards_press_mods _ _ _ _ _ _ _ (hv h)
    rw [h4, List.filter_append, keyboards_append, h1]; exact hnew
  · intro s h
    rw [sent_flush]; exact h
  · intro s h0 hrec _
    have : keyboards [] ((s.out ++ [Out.dsr]).filter isModifier) = some [] := by
      rw [List.filter_append]
      simpa [sent, hrec, isModifier] using h0
    simpa [sent, hrec] using this
  · intro m s _ h
    exact h
  · intro r s _ h
    exact h

/-- With VT input, typing "A" sends the letter as a key-down record without key and without Shift,
and then releases a key that was never pressed: the events are not those of a keyboard. -/
theorem C10_vt_unbalanced (root : Node) (hr : setAll newNode defaultRegs = some root) :
    ∃ o, execAll ⟨fun c => if c = 65 then 0x141 else -1⟩ root (fun _ => ⟨0, 0, 0⟩) {} [.mode 0x200, .write 0 [65]] = some o ∧
      o.st.out = [.record (.key true 0x10 0 0x10), .record (.key true 0 65 0), .record (.key false 65 65 0x10),
        .record (.key false 0x10 0 0)] ∧ keyboards [] o.st.out = none := by
  have h := scanInput_char ⟨fun c => if c = 65 then 0x141 else -1⟩ (default_holds hr) ⟨0, 0, 0⟩
    (updateInputFlags 0x200 {}) 65 (by decide) (by decide) (by decide) (by decide) [] (by simp) false
  refine ⟨⟨flushInputRecords (appendChar ⟨fun c => if c = 65 then 0x141 else -1⟩ (updateInputFlags 0x200 {}) 65 false),
    [], 1, 0, 0⟩, ?_, ?_, ?_⟩
  · simp only [execAll, exec, Option.bind_some, writeInput, doWrite, List.nil_append, List.length_cons, List.length_nil, scanLoop]
    rw [show (65 :: ([] : List Nat)) = utf8 65 ++ [] from rfl, h]
    rfl
  · decide
  · decide

end Winpty.Props
