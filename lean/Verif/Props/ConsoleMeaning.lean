import Verif.Props.ConsoleVt
/-!
# C52: every item of input means what it should
-/
namespace Winpty.ConsoleInput
open Winpty.Unicode Winpty.InputMap Winpty.Spec Winpty.Props

theorem table_states : (table.all fun x => tableStates.contains x.2.keyState) = true := by decide +kernel

theorem press_main (vk dn up st c s : Nat) (hst : st ∈ tableStates) (hdn : dn < 128) :
    Out.record (.key true vk dn st) ∈ (pressRecs false vk dn up st c s).map Out.record := by
  have h : ∀ st ∈ tableStates, modState (has st LEFT_CTRL_PRESSED) (has st LEFT_ALT_PRESSED)
      (has st RIGHT_ALT_PRESSED) (has st SHIFT_PRESSED) (has st ENHANCED_KEY) = st := by decide
  have hm : Rec.key true vk dn st ∈ mainRecs false vk dn up st c s := by
    unfold mainRecs
    simp only [Bool.false_eq_true, if_false]
    rw [List.mem_append]
    left
    rw [List.mem_map]
    refine ⟨dn, ?_, rfl⟩
    unfold encodeUtf16
    rw [if_pos (by omega), if_neg (by omega)]
    simp
  unfold pressRecs
  rw [h st hst]
  exact List.mem_map_of_mem (by simp [hm])

/-- The meaning of one step. -/
theorem effect_meaning {sys : Sys} {env : Env} {item : List Nat} {s s' : St} (h : Effect sys env item s s') :
    s'.escapeInputEnabled = s.escapeInputEnabled ∧ ∃ new, sent s' = sent s ++ new ∧ Out.dsr ∉ new ∧
      Meaning table s.escapeInputEnabled item new := by
  have nodsr : ∀ rs : List Rec, Out.dsr ∉ rs.map Out.record := by
    intro rs h; simp at h
  have press : ∀ (vk dn up w vtc vts : Nat), Out.dsr ∉ (if asMessage s.escapeInputEnabled vk w then
      [.keyMsg true vk, .keyMsg false vk] else (pressRecs s.escapeInputEnabled vk dn up w vtc vts).map .record) := by
    intro vk dn up w vtc vts
    split
    · simp
    · exact nodsr _
  cases h with
  | ctrlC h => subst h; exact ⟨rfl, _, by simp [sent, flushInputRecords], by simp, .interrupt⟩
  | report h => exact ⟨rfl, [], by simp [sent], by simp, .report _ h⟩
  | skip part alt h hi => exact ⟨rfl, [], by simp, by simp, .invalid _ part alt h hi⟩
  | mouse r hm =>
    obtain ⟨h1, new, h2, h3⟩ := effect_added (sys := sys) (env := env) (s := s) (.mouse r hm)
    have hrec : ∃ rs : List Rec, sent (handleMouse env s r) = sent s ++ rs.map Out.record ∧ rs.length ≤ 1 ∧
        ∀ e ∈ rs, ∃ x y b f c, e = .mouse x y b f c := by
      have aux : ∀ (t : St) x y b f c, sent t = sent s →
          ∃ rs : List Rec, sent (pushMouse t (.mouse x y b f c)) = sent s ++ rs.map Out.record ∧ rs.length ≤ 1 ∧
          ∀ e ∈ rs, ∃ x y b f c, e = .mouse x y b f c := by
        intro t x y b f c h1
        rcases (pushMouse_sent t x y b f c).1 with h2 | h2
        · exact ⟨[], by simp [h2, h1], by simp, by simp⟩
        · exact ⟨[.mouse x y b f c], by simp [h2, h1], by simp, by simp⟩
      unfold handleMouse
      simp only
      split
      · split
        · exact aux _ _ _ _ _ _ rfl
        · split
          · exact aux _ _ _ _ _ _ rfl
          · exact ⟨[], by simp, by simp, by simp⟩
      · exact aux _ _ _ _ _ _ rfl
    obtain ⟨rs, e1, e2, e3⟩ := hrec
    refine ⟨h1, _, e1, nodsr _, .mouse _ r _ hm (by simpa using e2) ?_⟩
    intro e he
    simp only [List.mem_map] at he
    obtain ⟨x, hx, rfl⟩ := he
    obtain ⟨x, y, b, f, c, rfl⟩ := e3 _ hx
    exact ⟨x, y, b, f, c, rfl⟩
  | key k hk =>
    obtain ⟨h1, h2⟩ := table_key hk
    have hst := List.all_eq_true.1 table_states _ hk
    simp only [List.contains_iff_mem] at hst
    unfold appendMatch
    simp only
    obtain ⟨e1, e2⟩ := sent_press s k.virtualKey
      (if has k.keyState LEFT_CTRL_PRESSED && has k.keyState LEFT_ALT_PRESSED then 0 else k.unicodeChar)
      (if has k.keyState LEFT_ALT_PRESSED then 0 else
        (if has k.keyState LEFT_CTRL_PRESSED && has k.keyState LEFT_ALT_PRESSED then 0 else k.unicodeChar))
      k.keyState k.unicodeChar k.keyState
    refine ⟨e2, _, e1, press _ _ _ _ _ _, .key _ k _ hk ?_⟩
    intro hvt
    rw [hvt]
    simp only [asMessage, Bool.false_and, Bool.false_eq_true, if_false]
    exact ⟨isKey_press _ _ _ _ _ _ _, _, press_main _ _ _ _ _ _ hst (by split <;> omega)⟩
  | char c alt hc hi =>
    cases alt with
    | false =>
      rw [appendChar_eq]
      obtain ⟨e1, e2⟩ := sent_press s (charVk sys c) c c (charMods sys c) c 0
      refine ⟨e2, _, e1, press _ _ _ _ _ _, .char _ c false _ hc hi ?_⟩
      intro hvt
      rw [hvt]
      simp only [asMessage, Bool.false_and, Bool.false_eq_true, if_false]
      refine ⟨isKey_press _ _ _ _ _ _ _, fun _ h0 => ?_⟩
      rw [typed_press]
      unfold mainRecs
      rw [List.map_append, typed_append, typed_ups, List.append_nil]
      simp only [Bool.false_eq_true, ↓reduceIte]
      have h16 : encodeUtf16 c = utf16 c := by rw [encodeUtf16_eq, if_pos hc]
      have hnz := utf16_ne_zero c hc h0
      rw [h16] at hnz ⊢
      exact typed_downs _ _ _ hnz
    | true =>
      rw [appendChar_alt_eq]
      obtain ⟨e1, e2⟩ := sent_press s (charVk sys c) (if altCut sys c then 0 else c) 0
        (charMods sys c ||| LEFT_ALT_PRESSED) c LEFT_ALT_PRESSED
      refine ⟨e2, _, e1, press _ _ _ _ _ _, .char _ c true _ hc hi ?_⟩
      intro hvt
      rw [hvt]
      simp only [asMessage, Bool.false_and, Bool.false_eq_true, if_false]
      exact ⟨isKey_press _ _ _ _ _ _ _, by simp⟩

theorem run_meanings {sys : Sys} {root : Node} (hr : Holds root table) {env : Nat → Env} {eof : Bool} {pos : Nat}
    {s s' : St} {q rest : List Nat} {items : List (List Nat)} (h : Run sys root env eof pos s q items s' rest)
    (hb : ∀ b ∈ q, b < 256) :
    q = items.flatten ++ rest ∧ ∃ new, sent s' = sent s ++ new ∧ Out.dsr ∉ new ∧
      Meanings table s.escapeInputEnabled items new := by
  induction h with
  | done => exact ⟨rfl, [], by simp, by simp, .nil⟩
  | pending => exact ⟨rfl, [], by simp, by simp, .nil⟩
  | step pos s s1 s2 item queue rest items hi h _ ih =>
    obtain ⟨e1, new', e2, e3, e4⟩ := ih fun b hb' => hb b (by simp [hb'])
    have he := scanInput_effect hr hb h
    rw [List.take_left'] at he
    · obtain ⟨h1, new, h2, h3, h4⟩ := effect_meaning he
      refine ⟨by rw [e1]; simp, new ++ new', by rw [e2, h2, List.append_assoc], by simp [h3, e3], ?_⟩
      rw [h1] at e4
      exact .cons _ _ _ _ h4 e4
    · rfl

end Winpty.ConsoleInput

namespace Winpty.Props
open Winpty.ConsoleInput Winpty.InputMap Winpty.Spec Winpty.Unicode

/-- **C52.**  Whatever bytes arrive, in whatever chunks: the bytes pending before and the new ones are cut
into items, and only the start of a further item stays pending; the events delivered are, in
order, the meanings of the items and nothing else. -/
theorem C52_meaning (sys : Sys) (root : Node) (hr : setAll newNode defaultRegs = some root) (env : Nat → Env)
    (o : Obj) (hrec : o.st.records = []) (hq : ∀ b ∈ o.queue, b < 256)
    (chunks : List (Nat × List Nat)) (hb : ∀ c ∈ chunks, ∀ b ∈ c.2, b < 256)
    (hne : (chunks.map (·.2)).flatten ≠ []) :
    ∃ o' items new, writeAll sys root env o chunks = some o' ∧
      o.queue ++ (chunks.map (·.2)).flatten = items.flatten ++ o'.queue ∧
      events o'.st.out = events o.st.out ++ new ∧
      Meanings defaultRegs o.st.escapeInputEnabled items new := by
  obtain ⟨o1, s1, q1, e1, e2, e3, e4, e5, e6⟩ := writeAll_spec (sys := sys) (default_wf hr) env chunks o hne
  obtain ⟨items, hrun⟩ := run_of_loop e2
  have hb' : ∀ b ∈ o.queue ++ (chunks.map (·.2)).flatten, b < 256 := by
    intro b hm
    simp only [List.mem_append, List.mem_flatten, List.mem_map] at hm
    rcases hm with hm | ⟨_, ⟨c, hc, rfl⟩, hm⟩
    · exact hq b hm
    · exact hb c hc b hm
  obtain ⟨f1, new, f2, f3, f4⟩ := run_meanings (default_holds hr) hrun hb'
  refine ⟨o1, items, new, e1, by rw [e4]; exact f1, ?_, by rw [defaultRegs_eq]; exact f4⟩
  have hR := ((R_iff _ _).1 e3).2.2.2.2.2.2.2
  have h1 : o1.st.out ++ o1.st.records.map Out.record = o1.st.out := by rw [e6]; simp
  have h2 : sent o.st = o.st.out := by unfold sent; rw [hrec]; simp
  unfold sent at f2 h2
  rw [h1, f2, h2, List.filter_append] at hR
  have hf : new.filter (· ≠ Out.dsr) = new := by
    apply List.filter_eq_self.2
    intro e he
    simp only [ne_eq, decide_eq_true_eq]
    rintro rfl
    exact f3 he
  rw [hf] at hR
  exact hR

/-- Ctrl-C typed while nothing is pending: a console in processed-input mode is interrupted and sees no
key; in any other mode it sees the C key with Ctrl and is not interrupted. -/
theorem C52_ctrl_c (sys : Sys) (root : Node) (hr : setAll newNode defaultRegs = some root) (env : Nat → Env)
    (now : Nat) (o : Obj) (hrec : o.st.records = []) (hq : o.queue = []) (hvt : o.st.escapeInputEnabled = false) :
    ∃ o' new, writeInput sys root env now o [3] = some o' ∧ o'.queue = [] ∧
      events o'.st.out = events o.st.out ++ new ∧
      ((env o.pos).mode &&& 1 ≠ 0 → new = [.ctrlC]) ∧
      ((env o.pos).mode &&& 1 = 0 → .record (.key true 0x43 3 0x08) ∈ new ∧ .ctrlC ∉ new) := by
  by_cases hm : (env o.pos).mode &&& 1 = 0
  · have hmem : ([3], Key.mk 0x43 3 0x08) ∈ table := by
      have h : (table.any fun r => seqEq r.1 [3] && decide (r.2 = Key.mk 0x43 3 0x08)) = true := by decide +kernel
      obtain ⟨r, hr, he⟩ := List.any_eq_true.1 h
      rw [Bool.and_eq_true, decide_eq_true_eq] at he
      rw [← seqEq_eq he.1, ← he.2]; exact hr
    have hs := scanInput_key sys (default_holds hr) (env o.pos) o.st hmem
      (by rintro ⟨_, _, _, _, h⟩; simp at h) (by decide) (.inr hm)
    have hw : ∃ o', writeInput sys root env now o [3] = some o' ∧ o'.queue = [] ∧
        o'.st = flushInputRecords (appendMatch o.st ⟨0x43, 3, 0x08⟩) := by
      refine ⟨Obj.mk (flushInputRecords (appendMatch o.st ⟨0x43, 3, 0x08⟩)) [] (o.pos + 1) now o.mouseMode, ?_, ?_, ?_⟩
      · simp [writeInput, doWrite, hq, scanLoop, hs]
      · rfl
      · rfl
    obtain ⟨o', w1, w2, w3⟩ := hw
    refine ⟨o', (pressRecs false 0x43 3 3 0x08 3 0x08).map Out.record, w1, w2, ?_, fun h => absurd hm h,
      fun _ => ⟨?_, ?_⟩⟩
    · rw [w3]
      have : appendMatch o.st ⟨0x43, 3, 0x08⟩ = appendKeyPress o.st 0x43 3 3 0x08 3 0x08 := rfl
      rw [this, appendKeyPress_eq, hvt]
      simp only [asMessage, Bool.false_and, Bool.false_eq_true, if_false, flushInputRecords, hrec, List.nil_append]
      unfold events
      rw [List.filter_append]
      congr 1
    · decide
    · decide
  · have hs : scanInput sys root (env o.pos) o.st [3] false = .consumed 1
        { flushInputRecords o.st with out := (flushInputRecords o.st).out ++ [.ctrlC] } := by
      simp only [scanInput]
      rw [if_pos ⟨trivial, hm⟩]
    refine ⟨Obj.mk
      (flushInputRecords { flushInputRecords o.st with out := (flushInputRecords o.st).out ++ [.ctrlC] })
      [] (o.pos + 1) now o.mouseMode, [.ctrlC], ?_, rfl, ?_, fun _ => rfl, fun h => absurd h hm⟩
    · simp [writeInput, doWrite, hq, scanLoop, hs]
    · simp [events, flushInputRecords, hrec]

/-- Beside C52: Ctrl-C, an arrow key, an invalid byte and an incomplete sequence. -/
example (sys : Sys) (root : Node) (hr : setAll newNode defaultRegs = some root) :
    ∃ o' items new, writeAll sys root (fun _ => ⟨1, 0, 0⟩) {} [(0, [3, 27, 91]), (1, [65, 0xFF, 27, 91])] = some o' ∧
      [3, 27, 91, 65, 0xFF, 27, 91] = items.flatten ++ o'.queue ∧
      events o'.st.out = new ∧ Meanings defaultRegs false items new := by
  obtain ⟨o', items, new, h1, h2, h3, h4⟩ := C52_meaning sys root hr (fun _ => ⟨1, 0, 0⟩) {} rfl (by simp)
    [(0, [3, 27, 91]), (1, [65, 0xFF, 27, 91])] (by decide) (by decide)
  exact ⟨o', items, new, h1, h2, h3, h4⟩

/-- Beside `C52_ctrl_c`: a console in the usual mode. -/
example (root : Node) (hr : setAll newNode defaultRegs = some root) :
    ∃ o' new, writeInput ⟨fun _ => -1⟩ root (fun _ => ⟨0x1F7, 0, 0⟩) 0 {} [3] = some o' ∧ o'.queue = [] ∧
      events o'.st.out = new ∧ new = [.ctrlC] := by
  obtain ⟨o', new, h1, h2, h3, h4, _⟩ := C52_ctrl_c ⟨fun _ => -1⟩ root hr (fun _ => ⟨0x1F7, 0, 0⟩) 0 {} rfl rfl rfl
  exact ⟨o', new, h1, h2, h3, h4 (by decide)⟩

end Winpty.Props
