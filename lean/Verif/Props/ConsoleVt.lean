import Verif.Lemmas.ConsoleVt
/-!
# C15: VT input is understood as the same key
-/

namespace Winpty.Props
open Winpty.ConsoleInput Winpty.InputMap Winpty.Spec Winpty.Unicode

theorem has_low (w b : Nat) (hb : 0xFF &&& b = b) : has w b = has (w &&& 0xFF) b := by
  unfold has; rw [Nat.and_assoc, hb]

theorem pressRecs_low (vk dn up w w' c s c' s' : Nat) (h : w &&& 0xFF = w' &&& 0xFF) :
    ((pressRecs false vk dn up w c s).map Out.record).map ignoreEnhanced =
      ((pressRecs false vk dn up w' c' s').map Out.record).map ignoreEnhanced := by
  have hl : ∀ b, 0xFF &&& b = b → has w b = has w' b := fun b hb => by
    rw [has_low w b hb, has_low w' b hb, h]
  have hm : ∀ (a b c d e e' : Bool), modState a b c d e &&& 0xFF = modState a b c d e' &&& 0xFF := by decide
  unfold pressRecs mainRecs
  simp only [hl LEFT_CTRL_PRESSED (by decide), hl LEFT_ALT_PRESSED (by decide), hl RIGHT_ALT_PRESSED (by decide),
    hl SHIFT_PRESSED (by decide), Bool.false_eq_true, ↓reduceIte, List.map_append, List.map_map]
  congr 2
  congr 1 <;>
  · apply List.map_congr_left
    intro u _
    simp only [Function.comp, ignoreEnhanced, hm _ _ _ _ (has w ENHANCED_KEY) (has w' ENHANCED_KEY)]

/-- The keys sent to the window as messages when no modifier is down. -/
theorem arrow_iff (vk : Nat) : isArrowKey vk = true ↔ vk ∈ [0x23, 0x24, 0x25, 0x26, 0x27, 0x28] := by
  unfold isArrowKey VK_UP VK_DOWN VK_LEFT VK_RIGHT VK_HOME VK_END
  simp only [Bool.or_eq_true, decide_eq_true_eq, beq_iff_eq, List.mem_cons, List.not_mem_nil, or_false]
  omega

/-- **C15.**  A console that asked for VT input receives a navigation, function or Backspace key, however
the terminal encoded it, either (arrows, Home and End without modifier) as a press and release of that
key sent to its window, or as key-down characters that are themselves a terminal's encoding of the same
key: written to an agent whose console did not ask for VT input, they are delivered as the very events
the original bytes give there, up to the "enhanced" bit. -/
theorem C15_same_key (sys : Sys) (root : Node) (hr : setAll newNode defaultRegs = some root)
    (env : Nat → Env) (o plain : Obj) (hq : o.queue = []) (hrec : o.st.records = [])
    (hq' : plain.queue = []) (hrec' : plain.st.records = [])
    (hvt : o.st.escapeInputEnabled = true) (hvt' : plain.st.escapeInputEnabled = false)
    (u : List Nat) (k : Key) (hu : (u, k) ∈ defaultRegs) (hs : k.virtualKey ∈ specialKeys) (hrep : ¬ IsReport u)
    (chunks : List (Nat × List Nat)) (hc : (chunks.map (·.2)).flatten = u) :
    ∃ o' new, writeAll sys root env o chunks = some o' ∧ o'.queue = [] ∧
      events o'.st.out = events o.st.out ++ new ∧
      ((k.virtualKey ∈ [0x23, 0x24, 0x25, 0x26, 0x27, 0x28] ∧ k.keyState &&& 0x1F = 0 ∧
          new = [.keyMsg true k.virtualKey, .keyMsg false k.virtualKey]) ∨
       ∃ o1 o2 new1 new2,
        writeAll sys root env plain [(0, u)] = some o1 ∧ o1.queue = [] ∧
        events o1.st.out = events plain.st.out ++ new1 ∧
        writeAll sys root env plain [(0, typed new)] = some o2 ∧ o2.queue = [] ∧
        events o2.st.out = events plain.st.out ++ new2 ∧
        new2.map ignoreEnhanced = new1.map ignoreEnhanced ∧
        .record (.key true k.virtualKey (if k.virtualKey = 8 then 8 else 0) k.keyState) ∈ new1) := by
  rw [defaultRegs_eq] at hu
  obtain ⟨k', b1, b2, b3, b4, b5, b6, b7, b8, b9⟩ := back hu hs
  have hne : ∀ {u : List Nat} {k : Key}, (u, k) ∈ table → k.virtualKey ∈ specialKeys →
      u ≠ [27, 91, 77] ∧ u ≠ [3] := by
    have hz : (table.all fun x => !specialKeys.contains x.2.virtualKey || (x.1 != [27, 91, 77] && x.1 != [3])) = true := by
      decide +kernel
    intro u k h hs
    have := List.all_eq_true.1 hz _ h
    simp only [Bool.or_eq_true, Bool.not_eq_true', Bool.and_eq_true, bne_iff_ne] at this
    rcases this with h | h
    · rw [← Bool.not_eq_true, List.contains_iff_mem] at h; exact absurd hs h
    · exact h
  obtain ⟨m1, m2⟩ := hne hu hs
  obtain ⟨n1, n2⟩ := hne b1 (by rw [b2]; exact hs)
  obtain ⟨o', w1, w2, w3, w4, w5⟩ := write_key sys hr env o hq hrec hu hrep m1 (.inl m2) chunks hc
  refine ⟨o', _, w1, w2, w5, ?_⟩
  rw [hvt]
  by_cases hmsg : asMessage true k.virtualKey k.keyState = true
  · left
    have hm := hmsg
    unfold asMessage at hm
    simp only [Bool.and_eq_true, Bool.true_and, Bool.not_eq_true'] at hm
    obtain ⟨⟨⟨⟨a1, a2⟩, a3⟩, a4⟩, a5⟩ := hm
    refine ⟨(arrow_iff _).1 a1, ?_, by unfold keyEvents; rw [if_pos hmsg]⟩
    have : ∀ st ∈ tableStates, has st LEFT_CTRL_PRESSED = false → has st LEFT_ALT_PRESSED = false →
      has st RIGHT_ALT_PRESSED = false → has st SHIFT_PRESSED = false → st &&& 0x1F = 0 := by decide
    exact this _ b5 a2 a3 a4 a5
  · right
    obtain ⟨o1, x1, x2, x3, x4, x5⟩ := write_key sys hr env plain hq' hrec' hu hrep m1 (.inl m2) [(0, u)] (by simp)
    obtain ⟨o2, y1, y2, y3, y4, y5⟩ := write_key sys hr env plain hq' hrec' b1 b7 n1 (.inl n2)
      [(0, reencodeChars k.virtualKey k.unicodeChar k.keyState)] (by simp)
    have ht : typed (keyEvents true k) = reencodeChars k.virtualKey k.unicodeChar k.keyState := by
      have hz : ∀ c ∈ reencodeChars k.virtualKey k.unicodeChar k.keyState, c ≠ 0 := by
        have hz : (table.all fun x => x.1.all fun c => c != 0) = true := by decide +kernel
        have := List.all_eq_true.1 hz _ b1
        simpa using this
      unfold keyEvents
      rw [if_neg hmsg, typed_press]
      unfold mainRecs
      rw [List.map_append, typed_append, typed_ups, List.append_nil]
      simp only [↓reduceIte]
      exact typed_downs _ _ _ hz
    rw [hvt'] at x5 y5
    rw [ht]
    refine ⟨o1, o2, _, _, x1, x2, x5, y1, y2, y5, ?_, ?_⟩
    · have hl : ∀ b, 0xFF &&& b = b → has k'.keyState b = has k.keyState b := fun b hb => by
        rw [has_low k'.keyState b hb, has_low k.keyState b hb, b4]
      unfold keyEvents
      simp only [asMessage, Bool.false_and, Bool.false_eq_true, if_false, b2, b3,
        hl LEFT_CTRL_PRESSED (by decide), hl LEFT_ALT_PRESSED (by decide)]
      exact pressRecs_low _ _ _ _ _ _ _ _ _ b4
    · have hst : ∀ st ∈ tableStates, modState (has st LEFT_CTRL_PRESSED) (has st LEFT_ALT_PRESSED)
          (has st RIGHT_ALT_PRESSED) (has st SHIFT_PRESSED) (has st ENHANCED_KEY) = st := by decide
      have hca : ∀ st ∈ tableStates, st &&& 0x18 = 0 → has st LEFT_CTRL_PRESSED = false := by decide
      have hdn : (if has k.keyState LEFT_CTRL_PRESSED && has k.keyState LEFT_ALT_PRESSED then 0 else k.unicodeChar) =
          (if k.virtualKey = 8 then 8 else 0) := by
        rw [b8]
        by_cases h8 : k.virtualKey = 8
        · rw [hca _ b5 (b9.resolve_left (fun h => h h8))]; simp
        · simp [h8]
      have henc : ∀ n, n = 8 ∨ n = 0 → encodeUtf16 n = [n] := by rintro n (rfl | rfl) <;> decide
      unfold keyEvents
      simp only [asMessage, Bool.false_and, Bool.false_eq_true, if_false]
      rw [hdn]
      unfold pressRecs mainRecs
      rw [hst _ b5, henc (if k.virtualKey = 8 then 8 else 0) (by split <;> simp)]
      simp

/-- **C15.**  Shift-Tab reaches a console that asked for VT input as the characters ESC `[` `Z`, which is how
terminals send it, and a console that did not as the Tab key pressed with Shift down. -/
theorem C15_shift_tab (sys : Sys) (root : Node) (hr : setAll newNode defaultRegs = some root)
    (env : Nat → Env) (o : Obj) (hq : o.queue = []) (hrec : o.st.records = [])
    (chunks : List (Nat × List Nat)) (hc : (chunks.map (·.2)).flatten = [27, 91, 90]) :
    ∃ o' new, writeAll sys root env o chunks = some o' ∧ o'.queue = [] ∧
      events o'.st.out = events o.st.out ++ new ∧
      (o.st.escapeInputEnabled = true → typed new = [27, 91, 90]) ∧
      (o.st.escapeInputEnabled = false →
        new = [.record (.key true 0x10 0 0x10), .record (.key true 9 9 0x10),
          .record (.key false 9 9 0x10), .record (.key false 0x10 0 0)]) := by
  have hu : ([27, 91, 90], Key.mk 9 9 0x10) ∈ table := by
    have h : (table.any fun r => seqEq r.1 [27, 91, 90] && decide (r.2 = Key.mk 9 9 0x10)) = true := by
      decide +kernel
    obtain ⟨⟨a, b⟩, hr, he⟩ := List.any_eq_true.1 h
    rw [Bool.and_eq_true, decide_eq_true_eq] at he
    have e1 := seqEq_eq he.1
    have e2 := he.2
    simp only at e1 e2
    subst e1; subst e2
    exact hr
  have hrep : ¬ IsReport [27, 91, 90] := by
    rintro ⟨_, _, _, _, h⟩
    have := congrArg List.length h
    simp at this
    omega
  obtain ⟨o', w1, w2, w3, w4, w5⟩ := write_key sys hr env o hq hrec hu hrep (by decide) (.inl (by decide)) chunks hc
  refine ⟨o', _, w1, w2, w5, ?_, ?_⟩
  · intro hvt
    rw [hvt]
    decide +kernel
  · intro hvt
    rw [hvt]
    decide +kernel

/-- Beside C15: urxvt's Ctrl-Left, and Alt-Backspace. -/
example : ∃ k u, (u, k) ∈ defaultRegs ∧ k.virtualKey ∈ specialKeys ∧ ¬ IsReport u ∧ u = [27, 79, 100] := by
  rw [defaultRegs_eq]
  have h : (table.any fun r => seqEq r.1 [27, 79, 100] && decide (r.2 = Key.mk 0x25 0 0x108)) = true := by
    decide +kernel
  obtain ⟨r, hr, he⟩ := List.any_eq_true.1 h
  rw [Bool.and_eq_true, decide_eq_true_eq] at he
  refine ⟨r.2, r.1, hr, by rw [he.2]; decide, ?_, seqEq_eq he.1⟩
  rw [seqEq_eq he.1]
  rintro ⟨_, _, _, _, h⟩
  simp at h
example : reencodeChars 0x25 0 0x8 = [27, 91, 49, 59, 53, 68] ∧ reencodeChars 8 8 2 = [27, 127] := by decide

end Winpty.Props
