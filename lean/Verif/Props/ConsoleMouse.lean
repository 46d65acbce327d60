import Verif.Props.ConsolePending
/-!
# C13, C14: mouse input
-/
namespace Winpty.ConsoleInput
open Winpty.Unicode Winpty.InputMap Winpty.Spec Winpty.Buffer

theorem and_pow_ne (n k : Nat) : n &&& 2 ^ k ≠ 0 ↔ n / 2 ^ k % 2 = 1 := by
  have h : n &&& 2 ^ k = 2 ^ k * (n.testBit k).toNat := by
    apply Nat.eq_of_testBit_eq
    intro i
    rw [Nat.testBit_and, Nat.testBit_two_pow]
    cases hb : n.testBit k with
    | true =>
      simp only [Bool.toNat_true, Nat.mul_one, Nat.testBit_two_pow]
      by_cases e : k = i
      · subst e; simp [hb]
      · simp [e]
    | false =>
      by_cases e : k = i
      · subst e; simp [hb]
      · simp [e]
  rw [h, Nat.testBit_eq_decide_div_mod_eq]
  by_cases e : n / 2 ^ k % 2 = 1
  · simp [e]
  · simp [e]

theorem flag_bit (f : Int) (k : Nat) (hk : k ≤ 6) : toUnsigned 32 f &&& 2 ^ k ≠ 0 ↔ bit f k = true := by
  rw [and_pow_ne]
  unfold bit toUnsigned
  have : k = 0 ∨ k = 1 ∨ k = 2 ∨ k = 3 ∨ k = 4 ∨ k = 5 ∨ k = 6 := by omega
  rw [decide_eq_true_eq]
  rcases this with rfl | rfl | rfl | rfl | rfl | rfl | rfl <;> omega

theorem wheel_bit (r : MouseRecord) : toUnsigned 32 r.flags &&& 0x40 ≠ 0 ↔ isWheel r = true := by
  rw [show (0x40 : Nat) = 2 ^ 6 from rfl, flag_bit _ _ (by omega)]
  unfold bit isWheel
  rfl

theorem button_code (r : MouseRecord) : toUnsigned 32 r.flags &&& 3 = buttonCode r := by
  rw [show (3 : Nat) = 2 ^ 2 - 1 from rfl, Nat.and_two_pow_sub_one_eq_mod]
  unfold toUnsigned buttonCode
  omega

theorem ctrl_bits (r : MouseRecord) : mouseCtrl (toUnsigned 32 r.flags) = reportModifiers r := by
  have h2 := flag_bit r.flags 2 (by omega)
  have h3 := flag_bit r.flags 3 (by omega)
  have h4 := flag_bit r.flags 4 (by omega)
  simp only [Nat.reducePow] at h2 h3 h4
  unfold mouseCtrl reportModifiers
  simp only [h2, h3, h4]
  cases bit r.flags 2 <;> cases bit r.flags 3 <;> cases bit r.flags 4 <;> rfl

theorem mousePos_eq {left right coord : Int} (h1 : -32768 ≤ left) (h2 : left ≤ right) (h3 : right ≤ 32767)
    (h4 : right - left < 32767) :
    mousePos left (toShort (right - left + 1)) coord = nearest left right (left + coord) := by
  unfold mousePos nearest
  simp only [toShort_eq]
  have hw : short (right - left + 1) = right - left + 1 := by unfold short; omega
  rw [hw]
  have hs : ∀ v, left ≤ v → v ≤ right → short v = v := by intro v _ _; unfold short; omega
  rw [hs]
  · repeat' split
    all_goals omega
  · omega
  · omega

/-! ## The buttons -/

theorem find_append {α : Type} (p : α → Bool) (l : List α) (a : α) :
    (l ++ [a]).reverse.find? p = if p a then some a else l.reverse.find? p := by
  rw [List.reverse_append, List.reverse_singleton, List.singleton_append, List.find?_cons]
  cases p a <;> rfl

theorem held_append (before : List MouseRecord) (r : MouseRecord) (b : Nat) :
    buttonHeld (before ++ [r]) b = if concerns b r then (decide (buttonCode r = b) && !r.release) else buttonHeld before b := by
  unfold buttonHeld
  rw [find_append]
  cases concerns b r <;> rfl

theorem code_lt (r : MouseRecord) : buttonCode r < 4 := by unfold buttonCode; omega

theorem and_flag (before : List MouseRecord) (b : Nat) (hb : b < 3) :
    (buttonBits before &&& relevantFlag b = 0) ↔ buttonHeld before b = false := by
  unfold buttonBits
  have : b = 0 ∨ b = 1 ∨ b = 2 := by omega
  rcases this with rfl | rfl | rfl <;>
  cases buttonHeld before 0 <;> cases buttonHeld before 1 <;> cases buttonHeld before 2 <;> decide

/-- `mouseButton` keeps track of the buttons. -/
theorem mouseButton_bits (env : Env) (before : List MouseRecord) (dc : DoubleClick) (r : MouseRecord)
    (hw : isWheel r = false) :
    (mouseButton env (buttonBits before) dc r (buttonCode r)).1 = buttonBits (before ++ [r]) := by
  have e : ∀ b, buttonHeld (before ++ [r]) b =
      if buttonCode r = b ∨ buttonCode r = 3 then (decide (buttonCode r = b) && !r.release) else buttonHeld before b := by
    intro b
    rw [held_append]
    simp [concerns, hw]
  have hcode := code_lt r
  have hflag := and_flag before
  unfold mouseButton
  by_cases h3 : buttonCode r = 3
  · simp only [h3, if_pos]
    unfold buttonBits
    rw [e, e, e]
    simp [h3]
  · rw [if_neg h3]
    have hf := hflag (buttonCode r) (by omega)
    have hc : buttonCode r = 0 ∨ buttonCode r = 1 ∨ buttonCode r = 2 := by omega
    simp only
    cases hrel : r.release with
    | true =>
      simp only [if_pos]
      unfold buttonBits
      rw [e, e, e]
      rcases hc with hc | hc | hc <;> simp only [hc, hrel] <;>
      cases buttonHeld before 0 <;> cases buttonHeld before 1 <;> cases buttonHeld before 2 <;> decide
    | false =>
      have key : buttonBits before ||| relevantFlag (buttonCode r) = buttonBits (before ++ [r]) := by
        unfold buttonBits
        rw [e, e, e]
        rcases hc with hc | hc | hc <;> simp only [hc, hrel] <;>
        cases buttonHeld before 0 <;> cases buttonHeld before 1 <;> cases buttonHeld before 2 <;> decide
      simp only [Bool.false_eq_true, ↓reduceIte]
      split
      · split <;> exact key
      · rename_i hne
        rw [hf] at hne
        rw [← key]
        simp only [Bool.not_eq_false] at hne
        unfold buttonBits
        rcases hc with hc | hc | hc <;> rw [hc] at hne ⊢ <;> rw [hne] <;>
        cases buttonHeld before 0 <;> cases buttonHeld before 1 <;> cases buttonHeld before 2 <;> rfl

/-- The state of the mouse after a history of reports. -/
def mouseState : List MouseInput → Nat × DoubleClick
  | ms => ms.foldl (fun s m =>
      if isWheel m.report then s
      else ((mouseButton ⟨0, m.tick, m.doubleClickTime⟩ s.1 s.2 m.report (buttonCode m.report)).1,
            (mouseButton ⟨0, m.tick, m.doubleClickTime⟩ s.1 s.2 m.report (buttonCode m.report)).2.1)) (0, {})

/-- Whether the code reports a double click. -/
def doubleClicked (before : List MouseInput) (m : MouseInput) : Bool :=
  !isWheel m.report && (mouseButton ⟨0, m.tick, m.doubleClickTime⟩ (mouseState before).1 (mouseState before).2 m.report
    (buttonCode m.report)).2.2

theorem mouseState_append (before : List MouseInput) (m : MouseInput) :
    mouseState (before ++ [m]) = if isWheel m.report then mouseState before
      else ((mouseButton ⟨0, m.tick, m.doubleClickTime⟩ (mouseState before).1 (mouseState before).2 m.report
              (buttonCode m.report)).1,
            (mouseButton ⟨0, m.tick, m.doubleClickTime⟩ (mouseState before).1 (mouseState before).2 m.report
              (buttonCode m.report)).2.1) := by
  simp [mouseState, List.foldl_append]

theorem buttonBits_wheel (before : List MouseRecord) (r : MouseRecord) (hw : isWheel r = true) :
    buttonBits (before ++ [r]) = buttonBits before := by
  unfold buttonBits
  simp [held_append, concerns, hw]

theorem snoc_induction {α : Type} {P : List α → Prop} (h0 : P []) (h1 : ∀ l a, P l → P (l ++ [a])) (l : List α) : P l := by
  have : P l.reverse.reverse := by
    induction l.reverse with
    | nil => exact h0
    | cons a l ih => rw [List.reverse_cons]; exact h1 _ _ ih
  rwa [List.reverse_reverse] at this

theorem mouseState_bits (before : List MouseInput) : (mouseState before).1 = buttonBits (before.map (·.report)) := by
  induction before using snoc_induction with
  | h0 => rfl
  | h1 before m ih =>
    rw [mouseState_append, List.map_append, List.map_singleton]
    split
    · rename_i hw; rw [buttonBits_wheel _ _ hw, ih]
    · rename_i hw
      simp only
      rw [ih, mouseButton_bits _ _ _ _ (by simpa using hw)]

/-- What is remembered for detecting double clicks. -/
theorem mouseState_click (before : List MouseInput) (hb : (mouseState before).2.button ≠ 0) :
    ∃ b earlier first later, b < 3 ∧ before = earlier ++ first :: later ∧ presses b first.report ∧
      buttonHeld (earlier.map (·.report)) b = false ∧ doubleClicked earlier first = false ∧
      (mouseState before).2.button = relevantFlag b ∧ (mouseState before).2.x = first.report.x ∧
      (mouseState before).2.y = first.report.y ∧ (mouseState before).2.tick = first.tick := by
  induction before using snoc_induction with
  | h0 => exact absurd rfl hb
  | h1 before m ih =>
    have keep : (mouseState (before ++ [m])).2.button = (mouseState before).2.button →
        (mouseState (before ++ [m])).2.x = (mouseState before).2.x →
        (mouseState (before ++ [m])).2.y = (mouseState before).2.y →
        (mouseState (before ++ [m])).2.tick = (mouseState before).2.tick →
        ∃ b earlier first later, b < 3 ∧ before ++ [m] = earlier ++ first :: later ∧ presses b first.report ∧
        buttonHeld (earlier.map (·.report)) b = false ∧ doubleClicked earlier first = false ∧
        (mouseState (before ++ [m])).2.button = relevantFlag b ∧ (mouseState (before ++ [m])).2.x = first.report.x ∧
        (mouseState (before ++ [m])).2.y = first.report.y ∧ (mouseState (before ++ [m])).2.tick = first.tick := by
      intro e1 e2 e3 e4
      obtain ⟨b, earlier, first, later, h0, h1, h2, h3, h4, h5, h6, h7, h8⟩ := ih (by rw [← e1]; exact hb)
      exact ⟨b, earlier, first, later ++ [m], h0, by rw [h1]; simp, h2, h3, h4, by rw [e1, h5], by rw [e2, h6],
        by rw [e3, h7], by rw [e4, h8]⟩
    rw [mouseState_append] at hb keep ⊢
    cases hw : isWheel m.report with
    | true =>
      simp only [hw, ↓reduceIte] at hb keep ⊢
      exact keep trivial trivial trivial trivial
    | false =>
      simp only [hw, Bool.false_eq_true, ↓reduceIte] at hb keep ⊢
      have hd : doubleClicked before m = (mouseButton ⟨0, m.tick, m.doubleClickTime⟩ (mouseState before).1
        (mouseState before).2 m.report (buttonCode m.report)).2.2 := by simp [doubleClicked, hw]
      have hbits := mouseState_bits before
      have hcode := code_lt m.report
      revert hb keep hd
      unfold mouseButton
      by_cases h3 : buttonCode m.report = 3
      · simp only [h3, ↓reduceIte]
        intro hb keep hd
        exact keep trivial trivial trivial trivial
      · rw [if_neg h3]
        simp only
        cases hrel : m.report.release with
        | true =>
          simp only [↓reduceIte]
          intro hb keep hd
          split at hb
          · rename_i he
            rw [if_pos he] at keep ⊢
            exact keep rfl rfl rfl rfl
          · exact absurd rfl hb
        | false =>
          simp only [Bool.false_eq_true, ↓reduceIte]
          split
          · rename_i h0
            split
            · intro hb; exact absurd rfl hb
            · intro hb keep hd
              refine ⟨buttonCode m.report, before, m, [], by omega, rfl, ⟨hw, rfl, hrel⟩, ?_, hd, rfl, rfl, rfl, rfl⟩
              rw [hbits] at h0
              exact (and_flag _ _ (by omega)).1 h0
          · intro hb keep hd
            exact keep rfl rfl rfl rfl

theorem relevantFlag_inj {a b : Nat} (ha : a < 3) (hb : b < 3) (h : relevantFlag a = relevantFlag b) : a = b := by
  have h1 : a = 0 ∨ a = 1 ∨ a = 2 := by omega
  have h2 : b = 0 ∨ b = 1 ∨ b = 2 := by omega
  rcases h1 with rfl | rfl | rfl <;> rcases h2 with rfl | rfl | rfl <;> first | rfl | exact absurd h (by decide)

theorem doubleClick_allowed (before : List MouseInput) (m : MouseInput) (ht : m.tick < 2 ^ 32)
    (htb : ∀ p ∈ before, p.tick < 2 ^ 32)
    (h : doubleClicked before m = true) : DoubleClickAllowed doubleClicked before m := by
  unfold doubleClicked at h
  rw [Bool.and_eq_true] at h
  obtain ⟨hw, h⟩ := h
  have hw : isWheel m.report = false := by simpa using hw
  have hcode := code_lt m.report
  have hbits := mouseState_bits before
  unfold mouseButton at h
  by_cases h3 : buttonCode m.report = 3
  · simp [h3] at h
  · rw [if_neg h3] at h
    simp only at h
    cases hrel : m.report.release with
    | true => simp [hrel] at h
    | false =>
      simp only [hrel, Bool.false_eq_true, ↓reduceIte] at h
      split at h
      · rename_i h0
        split at h
        · rename_i hc
          obtain ⟨c1, ⟨c2, c3⟩, c4⟩ := hc
          obtain ⟨b, earlier, first, later, g0, g1, g2, g3, g4, g5, g6, g7, g8⟩ := mouseState_click before (by
            rw [c1]; unfold relevantFlag; split
            · decide
            · split <;> decide)
          have hb : b = buttonCode m.report := relevantFlag_inj g0 (by omega) (by rw [← g5, c1])
          subst hb
          rw [hbits] at h0
          refine ⟨_, g0, ⟨hw, rfl, hrel⟩, (and_flag _ _ g0).1 h0, earlier, first, later, g1, g2, g3, g4, by rw [← g6, c2],
            by rw [← g7, c3], _, c4, ?_⟩
          have hft : first.tick < 2 ^ 32 := htb first (by rw [g1]; simp)
          rw [g8]
          omega
        · cases h
      · cases h

/-- A first press is remembered until another button is used. -/
theorem mouseState_keep (earlier : List MouseInput) (first : MouseInput) (b : Nat) (hb : b < 3)
    (hp : presses b first.report) (hu : buttonHeld (earlier.map (·.report)) b = false)
    (hd : doubleClicked earlier first = false) (later : List MouseInput)
    (hl : ∀ p ∈ later, isWheel p.report = true ∨ buttonCode p.report = 3 ∨
      buttonCode p.report = b ∧ p.report.release = true) :
    (mouseState (earlier ++ first :: later)).2.button = relevantFlag b ∧
    (mouseState (earlier ++ first :: later)).2.x = first.report.x ∧
    (mouseState (earlier ++ first :: later)).2.y = first.report.y ∧
    (mouseState (earlier ++ first :: later)).2.tick = first.tick := by
  induction later using snoc_induction with
  | h0 =>
    obtain ⟨p1, p2, p3⟩ := hp
    rw [mouseState_append, if_neg (by simp [p1])]
    unfold doubleClicked at hd
    rw [p1, Bool.not_false, Bool.true_and] at hd
    revert hd
    unfold mouseButton
    rw [if_neg (by omega)]
    simp only [p3, Bool.false_eq_true, ↓reduceIte, mouseState_bits, p2]
    have hz := (and_flag _ b hb).2 hu
    rw [if_pos hz]
    split
    · intro h; cases h
    · intro _; exact ⟨rfl, rfl, rfl, rfl⟩
  | h1 later p ih =>
    obtain ⟨i1, i2, i3, i4⟩ := ih fun q hq => hl q (by simp [hq])
    rw [show earlier ++ first :: (later ++ [p]) = (earlier ++ first :: later) ++ [p] by simp, mouseState_append]
    split
    · exact ⟨i1, i2, i3, i4⟩
    · rename_i hw
      simp only
      unfold mouseButton
      rcases hl p (by simp) with h | h | ⟨h, hr⟩
      · exact absurd h hw
      · rw [if_pos h]
        exact ⟨i1, i2, i3, i4⟩
      · rw [if_neg (by omega)]
        simp only [hr, ↓reduceIte, h, i1]
        exact ⟨trivial, i2, i3, i4⟩

theorem doubleClick_required (before : List MouseInput) (m : MouseInput)
    (htb : ∀ p ∈ before, p.tick < 2 ^ 32)
    (h : DoubleClickRequired doubleClicked before m) : doubleClicked before m = true := by
  obtain ⟨b, hb, ⟨p1, p2, p3⟩, hu, earlier, first, later, he, hp, hu', hd, hl, hx, hy, delay, h1, h2, h3⟩ := h
  obtain ⟨k1, k2, k3, k4⟩ := mouseState_keep earlier first b hb hp hu' hd later hl
  rw [← he] at k1 k2 k3 k4
  have hft : first.tick < 2 ^ 32 := htb first (by rw [he]; simp)
  have hz := (and_flag _ b hb).2 hu
  unfold doubleClicked mouseButton
  rw [p1, if_neg (by omega)]
  simp only [p3, Bool.false_eq_true, ↓reduceIte, mouseState_bits, p2, hz, k1, k2, k3, k4, hx, hy, and_self, true_and]
  rw [if_pos (by rw [h3]; omega)]
  rfl

/-! ## One report -/

theorem scanInput_mouse (sys : Sys) (root : Node) (env : Env) (s : St) {u : List Nat} {r : MouseRecord}
    (h : MouseReport u r) (rest : List Nat) (eof : Bool) :
    scanInput sys root env s (u ++ rest) eof = .consumed u.length (handleMouse env s r) := by
  have h1 := mouse_no_dsr h rest
  have h2 := mouse_accept h rest
  obtain ⟨t, rfl⟩ : ∃ t, u = 27 :: t := by cases h <;> exact ⟨_, rfl⟩
  simp only [List.cons_append] at h1 h2 ⊢
  simp only [scanInput, scanEsc, scanMouse, h1, h2]
  simp
  omega

theorem bits_lt (before : List MouseRecord) : buttonBits before < 8 := by
  unfold buttonBits; repeat' split
  all_goals omega

theorem wheel_or (hi b : Nat) (hb : b < 8) : hi * 65536 ||| b = hi * 65536 + b := by
  rw [Nat.mul_comm]
  exact (Nat.two_pow_add_eq_or_of_lt (i := 16) (by omega) hi).symm

/-- The reports so far determine the state of the mouse. -/
def MInv (before : List MouseInput) (s : St) : Prop := (s.mouseButtonState, s.doubleClick) = mouseState before

/-- The circumstances of a report. -/
def inputOf (env : Env) (s : St) (r : MouseRecord) : MouseInput :=
  ⟨r, env.tick, env.doubleClickTime, s.rect, s.mouseInputEnabled && !s.quickEditEnabled⟩

theorem handleMouse_eq (env : Env) (s : St) (r : MouseRecord) (before : List MouseInput) (hw : WindowOk s.rect)
    (hi : MInv before s) :
    handleMouse env s r =
      { s with
        mouseButtonState := (mouseState (before ++ [inputOf env s r])).1
        doubleClick := (mouseState (before ++ [inputOf env s r])).2
        records := s.records ++
          (mouseEvent (doubleClicked before (inputOf env s r)) before (inputOf env s r)).toList } := by
  obtain ⟨w1, w2, w3, w4, w5, w6, w7, w8⟩ := hw
  have hx := mousePos_eq (coord := r.x) w1 w2 w3 w4
  have hy := mousePos_eq (coord := r.y) w5 w6 w7 w8
  have hb1 : s.mouseButtonState = (mouseState before).1 := congrArg Prod.fst hi
  have hb2 : s.doubleClick = (mouseState before).2 := congrArg Prod.snd hi
  have hbits := mouseState_bits before
  have hlt := bits_lt (before.map (·.report))
  rw [mouseState_append]
  unfold handleMouse pushMouse
  simp only [wheel_bit, button_code, ctrl_bits, Rect.width, Rect.height, hx, hy]
  cases hwh : isWheel r with
  | true =>
    have he : isWheel (inputOf env s r).report = true := hwh
    simp only [he, ↓reduceIte, mouseEvent]
    rw [hb1, hb2]
    simp only [inputOf]
    by_cases hw' : (s.mouseInputEnabled && !s.quickEditEnabled) = true
    · simp only [hw', ↓reduceIte, Bool.not_true, Bool.false_eq_true, hbits]
      rw [show (0x00780000 : Nat) = 120 * 65536 from rfl, show (0xff880000 : Nat) = (65536 - 120) * 65536 from rfl,
        wheel_or _ _ hlt, wheel_or _ _ hlt, ← hbits, ← hb1, ← hb2]
      by_cases c0 : buttonCode r = 0
      · simp only [c0, ↓reduceIte, MOUSE_WHEELED, Option.toList_some]
      · by_cases c1 : buttonCode r = 1
        · simp only [c0, c1, ↓reduceIte, MOUSE_WHEELED, Option.toList_some]
          rfl
        · simp only [c0, c1, ↓reduceIte, Option.toList_none, List.append_nil]
    · have hw'' : (s.mouseInputEnabled && !s.quickEditEnabled) = false := by simpa using hw'
      simp only [hw'', Bool.false_eq_true, ↓reduceIte, Bool.not_false, Option.toList_none, List.append_nil, ← hb1, ← hb2]
      split
      · rfl
      · split <;> rfl
  | false =>
    have he : isWheel (inputOf env s r).report = false := hwh
    simp only [he, Bool.false_eq_true, ↓reduceIte, mouseEvent]
    have hm : ∀ b dc code, mouseButton env b dc r code = mouseButton ⟨0, (inputOf env s r).tick,
      (inputOf env s r).doubleClickTime⟩ b dc (inputOf env s r).report code := fun _ _ _ => rfl
    have hr : (inputOf env s r).report = r := rfl
    have hd : doubleClicked before (inputOf env s r) = (mouseButton env (mouseState before).1 (mouseState before).2 r
        (buttonCode r)).2.2 := by
      unfold doubleClicked; rw [he, hr]; rfl
    rw [hb1, hb2, ← hm, hd]
    have hbb := mouseButton_bits env (before.map (·.report)) (mouseState before).2 r hwh
    rw [← hbits] at hbb
    have hflags : ∀ d : Bool, ((if toUnsigned 32 r.flags &&& 0x20 ≠ 0 then MOUSE_MOVED else 0) ||| (if d then DOUBLE_CLICK else 0)) =
        (if bit r.flags 5 then 1 else 0) + (if d then 2 else 0) := by
      intro d
      have := flag_bit r.flags 5 (by omega)
      simp only [Nat.reducePow] at this
      simp only [this]
      cases bit r.flags 5 <;> cases d <;> rfl
    rw [hflags, hbb]
    simp only [inputOf]
    by_cases hw' : (s.mouseInputEnabled && !s.quickEditEnabled) = true
    · simp only [hw', ↓reduceIte, Bool.not_true, Bool.false_eq_true]
      rw [← hbb]; rfl
    · have hw'' : (s.mouseInputEnabled && !s.quickEditEnabled) = false := by simpa using hw'
      simp only [hw'', Bool.false_eq_true, ↓reduceIte, Bool.not_false, Option.toList_none, List.append_nil]
      rw [← hbb]

theorem mouseRecords_append (a b : List Out) : mouseRecords (a ++ b) = mouseRecords a ++ mouseRecords b := by
  simp [mouseRecords]

theorem mouseRecords_event (d : Bool) (before : List MouseInput) (m : MouseInput) :
    mouseRecords ((mouseEvent d before m).toList.map Out.record) = (mouseEvent d before m).toList := by
  unfold mouseEvent
  simp only
  repeat' split
  all_goals rfl

theorem mouseRecords_keys (new : List Out) (h : ∀ e ∈ new, isKeyRecord e = true) : mouseRecords new = [] := by
  unfold mouseRecords
  rw [List.filterMap_eq_nil_iff]
  intro e he
  have := h e he
  cases e with
  | record r =>
    cases r with
    | key => rfl
    | mouse => simp [isKeyRecord] at this
  | _ => rfl

/-- Everything about the mouse that other input does not change. -/
def SameMouse (s s' : St) : Prop :=
  s'.mouseButtonState = s.mouseButtonState ∧ s'.doubleClick = s.doubleClick ∧ s'.rect = s.rect ∧
  s'.mouseInputEnabled = s.mouseInputEnabled ∧ s'.quickEditEnabled = s.quickEditEnabled ∧
  mouseRecords (sent s') = mouseRecords (sent s)

theorem same_press (s : St) (vk dn up w vtc vts : Nat) : SameMouse s (appendKeyPress s vk dn up w vtc vts) := by
  have hk := isKey_press s.escapeInputEnabled vk dn up w vtc vts
  rw [appendKeyPress_eq]
  split
  · refine ⟨rfl, rfl, rfl, rfl, rfl, ?_⟩
    simp only [sent, flushInputRecords, List.map_nil, List.append_nil, mouseRecords_append]
    simp [mouseRecords]
  · refine ⟨rfl, rfl, rfl, rfl, rfl, ?_⟩
    simp only [sent, List.map_append]
    rw [← List.append_assoc, mouseRecords_append, mouseRecords_keys _ hk, List.append_nil]

theorem effect_other {sys : Sys} {env : Env} {item : List Nat} {s s' : St} (h : Effect sys env item s s')
    (hn : ¬ ∃ r, MouseReport item r) : SameMouse s s' := by
  cases h with
  | ctrlC =>
    refine ⟨rfl, rfl, rfl, rfl, rfl, ?_⟩
    simp only [sent, flushInputRecords, List.map_nil, List.append_nil, mouseRecords_append]
    simp [mouseRecords]
  | report => exact ⟨rfl, rfl, rfl, rfl, rfl, rfl⟩
  | skip => exact ⟨rfl, rfl, rfl, rfl, rfl, rfl⟩
  | mouse r h => exact absurd ⟨r, h⟩ hn
  | key k hk => exact same_press _ _ _ _ _ _ _
  | char c alt hc _ =>
    cases alt with
    | false => rw [appendChar_eq]; exact same_press _ _ _ _ _ _ _
    | true => rw [appendChar_alt_eq]; exact same_press _ _ _ _ _ _ _

/-! ## Sequences of items -/

/-- `ms` are the mouse reports among the items of the input stream from offset `pos` on, each with the
clock at the moment its item is handled. -/
inductive Tracks (env : Nat → Env) : Nat → List (List Nat) → List MouseInput → Prop
  | nil (pos : Nat) : Tracks env pos [] []
  | other (pos : Nat) (item : List Nat) (items : List (List Nat)) (ms : List MouseInput)
      (h : ¬ ∃ r, MouseReport item r) (ht : Tracks env (pos + item.length) items ms) :
      Tracks env pos (item :: items) ms
  | mouse (pos : Nat) (item : List Nat) (items : List (List Nat)) (m : MouseInput) (ms : List MouseInput)
      (h : MouseReport item m.report) (h1 : m.tick = (env pos).tick)
      (h2 : m.doubleClickTime = (env pos).doubleClickTime) (ht : Tracks env (pos + item.length) items ms) :
      Tracks env pos (item :: items) (m :: ms)

theorem Tracks.append {env : Nat → Env} {pos : Nat} {i1 i2 : List (List Nat)} {m1 m2 : List MouseInput}
    (h1 : Tracks env pos i1 m1) (h2 : Tracks env (pos + i1.flatten.length) i2 m2) :
    Tracks env pos (i1 ++ i2) (m1 ++ m2) := by
  induction h1 with
  | nil pos => simpa using h2
  | other pos item items ms h ht ih =>
    exact .other _ _ _ _ h (ih (by simpa [Nat.add_assoc] using h2))
  | mouse pos item items m ms h e1 e2 ht ih =>
    exact .mouse _ _ _ _ _ h e1 e2 (ih (by simpa [Nat.add_assoc] using h2))

theorem run_mouse {sys : Sys} {root : Node} (hr : Holds root table) {env : Nat → Env} {eof : Bool}
    {pos : Nat} {s s' : St} {q q' : List Nat} {items : List (List Nat)}
    (h : Winpty.Props.Run sys root env eof pos s q items s' q') (hb : ∀ b ∈ q, b < 256)
    (before : List MouseInput) (hw : WindowOk s.rect) (hi : MInv before s) :
    ∃ ms, Tracks env pos items ms ∧
      (∀ m ∈ ms, m.window = s.rect ∧ m.wanted = (s.mouseInputEnabled && !s.quickEditEnabled)) ∧
      MInv (before ++ ms) s' ∧ s'.rect = s.rect ∧ s'.mouseInputEnabled = s.mouseInputEnabled ∧
      s'.quickEditEnabled = s.quickEditEnabled ∧
      mouseRecords (sent s') = mouseRecords (sent s) ++ mouseEvents doubleClicked before ms := by
  induction h generalizing before with
  | done pos s => exact ⟨[], .nil _, by simp, by simpa using hi, rfl, rfl, rfl, by simp [mouseEvents]⟩
  | pending pos s queue h => exact ⟨[], .nil _, by simp, by simpa using hi, rfl, rfl, rfl, by simp [mouseEvents]⟩
  | step pos s s1 s2 item queue rest items hne h hr' ih =>
    have hb' : ∀ b ∈ queue, b < 256 := fun b hb' => hb b (List.mem_append_right _ hb')
    by_cases hm : ∃ r, MouseReport item r
    · obtain ⟨r, hm⟩ := hm
      rw [scanInput_mouse sys root (env pos) s hm queue eof] at h
      simp only [Scan.consumed.injEq, true_and] at h
      have he := handleMouse_eq (env pos) s r before hw hi
      rw [h] at he
      obtain ⟨ms, e1, e2, e3, e4, e5, e6, e7⟩ := ih hb' (before ++ [inputOf (env pos) s r]) (by rw [he]; exact hw)
        (by rw [he]; rfl)
      refine ⟨inputOf (env pos) s r :: ms, .mouse _ _ _ _ _ hm rfl rfl e1, ?_, ?_, ?_, ?_, ?_, ?_⟩
      · intro m hmem
        rcases List.mem_cons.1 hmem with rfl | hmem
        · exact ⟨rfl, rfl⟩
        · have := e2 m hmem
          rw [he] at this
          exact this
      · rw [List.append_cons]; exact e3
      · rw [e4, he]
      · rw [e5, he]
      · rw [e6, he]
      · rw [e7, mouseEvents, ← List.append_assoc]
        congr 1
        rw [he]
        simp only [sent, List.map_append]
        rw [← List.append_assoc, mouseRecords_append, mouseRecords_event]
    · have heff := scanInput_effect hr hb h
      rw [List.take_left' rfl] at heff
      obtain ⟨g1, g2, g3, g4, g5, g6⟩ := effect_other heff hm
      obtain ⟨ms, e1, e2, e3, e4, e5, e6, e7⟩ := ih hb' before (by rw [g3]; exact hw)
        (by unfold MInv; rw [g1, g2]; exact hi)
      refine ⟨ms, .other _ _ _ _ hm e1, ?_, e3, by rw [e4, g3], by rw [e5, g4], by rw [e6, g5], by rw [e7, g6]⟩
      intro m hmem
      have := e2 m hmem
      rw [g3, g4, g5] at this
      exact this

end Winpty.ConsoleInput

namespace Winpty.Props
open Winpty.ConsoleInput Winpty.InputMap Winpty.Spec Winpty.Unicode

/-- The visible window after some operations. -/
def windowAfter (ops : List Op) : Rect :=
  ops.foldl (fun w op => match op with
    | .window r => r
    | _ => w) {}

/-- Whether the console wants mouse input after some operations: the last mode seen has
`ENABLE_MOUSE_INPUT` (0x10) and not `ENABLE_QUICK_EDIT_MODE` (0x40). -/
def wantsMouse (ops : List Op) : Bool :=
  ops.foldl (fun w op => match op with
    | .mode m => m.testBit 4 && !m.testBit 6
    | _ => w) false

end Winpty.Props

namespace Winpty.ConsoleInput
open Winpty.Unicode Winpty.InputMap Winpty.Spec Winpty.Props

theorem has_bit (m k : Nat) : has m (2 ^ k) = m.testBit k := by
  unfold has
  rw [Nat.testBit_eq_decide_div_mod_eq, Bool.eq_iff_iff]
  simp only [decide_eq_true_eq, bne_iff_ne]
  exact and_pow_ne m k

/-- What is true between operations. -/
structure Between (ops : List Op) (before : List MouseInput) (o : Obj) : Prop where
  window : o.st.rect = windowAfter ops
  wanted : (o.st.mouseInputEnabled && !o.st.quickEditEnabled) = wantsMouse ops
  mouse : MInv before o.st
  records : o.st.records = []
  bytes : ∀ b ∈ o.queue, b < 256

theorem cut_not_mouse {cut part : List Nat} (h : cut = part ∨ cut = 27 :: part) (hp : CutCharacter part) :
    ¬ ∃ r, MouseReport cut r := by
  obtain ⟨b, t, rfl, hb⟩ := hp
  rintro ⟨r, hm⟩
  have : ∃ t, cut = 27 :: 91 :: t := by cases hm <;> exact ⟨_, rfl⟩
  obtain ⟨t', ht⟩ := this
  rcases h with rfl | rfl
  · simp at ht; omega
  · simp at ht; omega

/-- One operation. -/
theorem exec_mouse {sys : Sys} {root : Node} (hr : Holds root table) {env : Nat → Env} {ops : List Op}
    {before : List MouseInput} {o o' : Obj} (hi : Between ops before o) (hw : WindowOk (windowAfter ops))
    {op : Op} (hb : ∀ b ∈ written [op], b < 256) (h : exec sys root env o op = some o') :
    ∃ items ms, o.queue ++ written [op] = items.flatten ++ o'.queue ∧ o'.pos = o.pos + items.flatten.length ∧
      Tracks env o.pos items ms ∧ (∀ m ∈ ms, m.window = windowAfter ops ∧ m.wanted = wantsMouse ops) ∧
      Between (ops ++ [op]) (before ++ ms) o' ∧
      mouseRecords o'.st.out = mouseRecords o.st.out ++ mouseEvents doubleClicked before ms := by
  obtain ⟨i1, i2, i3, i4, i5⟩ := hi
  have hsent : sent o.st = o.st.out := by simp [sent, i4]
  cases op with
  | mode m =>
    cases h
    refine ⟨[], [], by simp [written], by simp, .nil _, by simp, ⟨?_, ?_, by rw [List.append_nil]; exact i3, i4, i5⟩, by simp [mouseEvents, updateInputFlags]⟩
    · simp [windowAfter, List.foldl_append] at i1 ⊢; exact i1
    · simp only [updateInputFlags, wantsMouse, List.foldl_append, List.foldl_cons, List.foldl_nil]
      rw [← has_bit m 4, ← has_bit m 6]; rfl
  | window r =>
    cases h
    refine ⟨[], [], by simp [written], by simp, .nil _, by simp, ⟨?_, ?_, by rw [List.append_nil]; exact i3, i4, i5⟩, by simp [mouseEvents]⟩
    · simp [windowAfter, List.foldl_append]
    · simp [wantsMouse, List.foldl_append] at i2 ⊢; exact i2
  | write now bytes =>
    have hw1 : written [Op.write now bytes] = bytes := by simp [written]
    have hwin : windowAfter (ops ++ [Op.write now bytes]) = windowAfter ops := by simp [windowAfter, List.foldl_append]
    have hwant : wantsMouse (ops ++ [Op.write now bytes]) = wantsMouse ops := by simp [wantsMouse, List.foldl_append]
    rw [hw1] at hb ⊢
    simp only [exec, writeInput] at h
    split at h
    · rename_i h0
      have h0 : bytes = [] := by simpa using h0
      cases h
      exact ⟨[], [], by simp [h0], by simp, .nil _, by simp, ⟨by rw [hwin]; exact i1, by rw [hwant]; exact i2,
        by simpa using i3, i4, i5⟩, by simp [mouseEvents]⟩
    · obtain ⟨s1, c, q1, h1, h2, h3, _⟩ := doWrite_total sys root env false o.pos o.st (o.queue ++ bytes)
      have hbb : ∀ b ∈ o.queue ++ bytes, b < 256 := by
        intro b hb'
        rcases List.mem_append.1 hb' with hb' | hb'
        · exact i5 b hb'
        · exact hb b hb'
      obtain ⟨items, hrun⟩ := run_of_loop h2
      obtain ⟨r1, r2, _⟩ := run_flatten hrun
      obtain ⟨ms, e1, e2, e3, e4, e5, e6, e7⟩ := run_mouse hr hrun hbb before (by rw [i1]; exact hw) i3
      rw [h1] at h
      simp only at h
      have hq1 : ∀ b ∈ q1, b < 256 := fun b hb' => hbb b (by rw [r1]; exact List.mem_append_right _ hb')
      have hout : mouseRecords (flushInputRecords s1).out = mouseRecords o.st.out ++ mouseEvents doubleClicked before ms := by
        rw [← hsent, ← e7]; rfl
      have hpos : o.pos + ((o.queue ++ bytes).length - q1.length) = o.pos + items.flatten.length := by
        rw [r1, List.length_append]; omega
      have e2' : ∀ m ∈ ms, m.window = windowAfter ops ∧ m.wanted = wantsMouse ops := by
        intro m hm; rw [← i1, ← i2]; exact e2 m hm
      split at h
      · cases h
        refine ⟨items, ms, r1, hpos, e1, e2', ⟨by rw [hwin, ← i1]; exact e4, by rw [hwant, ← i2, ← e5, ← e6]; rfl,
          e3, rfl, hq1⟩, ?_⟩
        simp only
        rw [mouseRecords_append, hout]
        simp [mouseRecords]
      · cases h
        exact ⟨items, ms, r1, hpos, e1, e2', ⟨by rw [hwin, ← i1]; exact e4, by rw [hwant, ← i2, ← e5, ← e6]; rfl,
          e3, rfl, hq1⟩, hout⟩
  | poll now =>
    have hw1 : written [Op.poll now] = [] := by simp [written]
    have hwin : windowAfter (ops ++ [Op.poll now]) = windowAfter ops := by simp [windowAfter, List.foldl_append]
    have hwant : wantsMouse (ops ++ [Op.poll now]) = wantsMouse ops := by simp [wantsMouse, List.foldl_append]
    rw [hw1, List.append_nil]
    simp only [exec, flushIncompleteEscapeCode] at h
    split at h
    · obtain ⟨s1, c, q1, h1, h2, h3, _⟩ := doWrite_total sys root env true o.pos o.st o.queue
      obtain ⟨items, hrun⟩ := run_of_loop h2
      obtain ⟨r1, r2, r3⟩ := run_flatten hrun
      obtain ⟨ms, e1, e2, e3, e4, e5, e6, e7⟩ := run_mouse hr hrun i5 before (by rw [i1]; exact hw) i3
      rw [h1] at h
      cases h
      have hcut : Tracks env (o.pos + items.flatten.length) (if q1 = [] then [] else [q1]) [] := by
        split
        · exact .nil _
        · rcases r3 with r3 | r3
          · contradiction
          · obtain ⟨part, p1, p2⟩ := scanInput_incomplete_eof
              (fun b hb => i5 b (by rw [r1]; exact List.mem_append_right _ hb)) r3
            exact .other _ _ _ _ (cut_not_mouse p1 p2) (.nil _)
      have hfl : items.flatten ++ q1 = (items ++ (if q1 = [] then [] else [q1])).flatten := by
        split <;> simp_all
      refine ⟨items ++ (if q1 = [] then [] else [q1]), ms, by rw [List.append_nil, ← hfl, r1], ?_,
        by have := e1.append hcut; rwa [List.append_nil] at this, ?_, ⟨by rw [hwin, ← i1]; exact e4,
        by rw [hwant, ← i2, ← e5, ← e6]; rfl, e3, rfl, by simp⟩, ?_⟩
      · rw [← hfl, ← r1]
      · intro m hm; rw [← i1, ← i2]; exact e2 m hm
      · rw [← hsent, ← e7]; rfl
    · cases h
      exact ⟨[], [], by simp, by simp, .nil _, by simp, ⟨by rw [hwin]; exact i1, by rw [hwant]; exact i2,
        by simpa using i3, i4, i5⟩, by simp [mouseEvents]⟩

theorem mouseEvents_append (d : List MouseInput → MouseInput → Bool) (before a b : List MouseInput) :
    mouseEvents d before (a ++ b) = mouseEvents d before a ++ mouseEvents d (before ++ a) b := by
  induction a generalizing before with
  | nil => simp [mouseEvents]
  | cons m a ih => simp [mouseEvents, ih]

theorem execAll_mouse {sys : Sys} {root : Node} (hr : Holds root table) {env : Nat → Env} (ops : List Op) :
    ∀ (done : List Op) (before : List MouseInput) (o : Obj), Between done before o → WindowOk (windowAfter done) →
      (∀ b ∈ written ops, b < 256) → (∀ r, .window r ∈ ops → WindowOk r) →
      ∃ (o' : Obj) (items : List (List Nat)) (log : List (List MouseInput)), execAll sys root env o ops = some o' ∧
        o.queue ++ written ops = items.flatten ++ o'.queue ∧ o'.pos = o.pos + items.flatten.length ∧
        Tracks env o.pos items log.flatten ∧ log.length = ops.length ∧
        (∀ i ms, log[i]? = some ms → ∀ m ∈ ms, m.window = windowAfter (done ++ ops.take i) ∧
          m.wanted = wantsMouse (done ++ ops.take i)) ∧
        Between (done ++ ops) (before ++ log.flatten) o' ∧
        mouseRecords o'.st.out = mouseRecords o.st.out ++ mouseEvents doubleClicked before log.flatten := by
  induction ops with
  | nil =>
    intro done before o hi hw hb hwin
    exact ⟨o, [], [], rfl, by simp [written], by simp, .nil _, rfl, by simp, by simpa using hi, by simp [mouseEvents]⟩
  | cons op ops ih =>
    intro done before o hi hw hb hwin
    obtain ⟨o1, h1⟩ := exec_total sys root env o op
    have hwr : written (op :: ops) = written [op] ++ written ops := by cases op <;> simp [written]
    rw [hwr] at hb
    obtain ⟨items, ms, a1, a2, a3, a4, a5, a6⟩ := exec_mouse hr hi hw
      (fun b hb' => hb b (List.mem_append_left _ hb')) h1
    have hw1 : WindowOk (windowAfter (done ++ [op])) := by
      simp only [windowAfter, List.foldl_append, List.foldl_cons, List.foldl_nil]
      cases op with
      | window r => exact hwin r (by simp)
      | _ => exact hw
    obtain ⟨o2, items2, log, b0, b1, b2, b3, b4, b5, b6, b7⟩ := ih (done ++ [op]) (before ++ ms) o1 a5 hw1
      (fun b hb' => hb b (List.mem_append_right _ hb')) (fun r hr => hwin r (List.mem_cons_of_mem _ hr))
    refine ⟨o2, items ++ items2, ms :: log, by rw [execAll, h1, Option.bind_some, b0], ?_, ?_, ?_, by simp [b4], ?_, ?_, ?_⟩
    · rw [hwr, ← List.append_assoc, a1, List.append_assoc, b1, List.flatten_append, List.append_assoc]
    · rw [b2, a2]; simp [Nat.add_assoc]
    · rw [List.flatten_cons]
      exact a3.append (by rw [← a2]; exact b3)
    · intro i ms' hm
      cases i with
      | zero => simp at hm; subst hm; simpa using a4
      | succ i =>
        have := b5 i ms' (by simpa using hm)
        simpa using this
    · simpa using b6
    · rw [b7, a6, List.flatten_cons, mouseEvents_append, List.append_assoc]

end Winpty.ConsoleInput

namespace Winpty.Props
open Winpty.ConsoleInput Winpty.InputMap Winpty.Spec Winpty.Unicode

/-- **C13, C14.**  In any history the mouse records the console receives are exactly the events the
specification gives for the mouse reports in the input (`Tracks`: the reports are those items of the
input stream that are mouse reports).  Each report is judged by the window and the console mode in force
when it is handled, `log[i]` being the reports handled by operation `i`.  So the position is that of the
report, moved into the visible window; nothing is sent if the console does not want mouse input; the
button state is exactly the buttons pressed and not yet released; and a double click is only reported
where `DoubleClickAllowed` and always where `DoubleClickRequired`. -/
theorem C14_mouse_records (sys : Sys) (root : Node) (hr : setAll newNode defaultRegs = some root)
    (env : Nat → Env) (ht : ∀ i, (env i).tick < 2 ^ 32) (ops : List Op) (hb : ∀ b ∈ written ops, b < 256)
    (hw : ∀ r, .window r ∈ ops → WindowOk r) :
    ∃ (o : Obj) (items : List (List Nat)) (log : List (List MouseInput))
      (double : List MouseInput → MouseInput → Bool),
      execAll sys root env {} ops = some o ∧ written ops = items.flatten ++ o.queue ∧
      Tracks env 0 items log.flatten ∧ log.length = ops.length ∧
      (∀ i ms, log[i]? = some ms → ∀ m ∈ ms, m.window = windowAfter (ops.take i) ∧
        m.wanted = wantsMouse (ops.take i)) ∧
      mouseRecords o.st.out = mouseEvents double [] log.flatten ∧
      ∀ before m after, log.flatten = before ++ m :: after →
        (double before m = true → DoubleClickAllowed double before m) ∧
        (DoubleClickRequired double before m → double before m = true) := by
  obtain ⟨o, items, log, h1, h2, h3, h4, h5, h6, h7, h8⟩ := execAll_mouse (sys := sys) (default_holds hr) (env := env)
    ops [] [] {} ⟨rfl, rfl, rfl, rfl, by simp⟩ (by unfold windowAfter WindowOk; simp) hb hw
  refine ⟨o, items, log, doubleClicked, h1, by simpa using h2, h4, h5, by simpa using h6, by simpa [mouseRecords] using h8, ?_⟩
  have hticks : ∀ {pos items ms}, Tracks env pos items ms → ∀ m ∈ ms, m.tick < 2 ^ 32 := by
    intro pos items ms h
    induction h with
    | nil => simp
    | other _ _ _ _ _ _ ih => exact ih
    | mouse _ _ _ m _ _ e _ _ ih =>
      intro m' hm
      rcases List.mem_cons.1 hm with rfl | hm
      · rw [e]; exact ht _
      · exact ih m' hm
  intro before m after he
  have := hticks h4
  rw [he] at this
  exact ⟨doubleClick_allowed before m (this m (by simp)) (fun p hp => this p (by simp [hp])),
    doubleClick_required before m (fun p hp => this p (by simp [hp]))⟩

/-- **C13.**  In any history, every operation adds to what the console receives only mouse records inside
the window that is visible at that time, and none at all if the console does not want mouse input. -/
theorem C13_in_window (sys : Sys) (root : Node) (hr : setAll newNode defaultRegs = some root)
    (env : Nat → Env) (ops : List Op) (op : Op) (hb : ∀ b ∈ written (ops ++ [op]), b < 256)
    (hw : ∀ r, .window r ∈ ops → WindowOk r) :
    ∃ o o' new, execAll sys root env {} ops = some o ∧ exec sys root env o op = some o' ∧
      mouseRecords o'.st.out = mouseRecords o.st.out ++ new ∧ (wantsMouse ops = false → new = []) ∧
      ∀ x y b f c, .mouse x y b f c ∈ new →
        (windowAfter ops).left ≤ x ∧ x ≤ (windowAfter ops).right ∧
        (windowAfter ops).top ≤ y ∧ y ≤ (windowAfter ops).bottom := by
  have hwr : ∀ (a : List Op), written (a ++ [op]) = written a ++ written [op] := by
    intro a
    induction a with
    | nil => rfl
    | cons c a ih => cases c <;> simp [written, ih]
  rw [hwr] at hb
  obtain ⟨o, items, log, h1, h2, h3, h4, h5, h6, h7, h8⟩ := execAll_mouse (sys := sys) (default_holds hr) (env := env)
    ops [] [] {} ⟨rfl, rfl, rfl, rfl, by simp⟩ (by unfold windowAfter WindowOk; simp)
    (fun b hb' => hb b (List.mem_append_left _ hb')) hw
  have hwin : WindowOk (windowAfter ops) := by
    have : ∀ (l : List Op), (∀ r, .window r ∈ l → WindowOk r) → WindowOk (windowAfter l) := by
      intro l
      induction l using snoc_induction with
      | h0 => intro _; unfold windowAfter WindowOk; simp
      | h1 l a ih =>
        intro hl
        unfold windowAfter
        rw [List.foldl_append]
        cases a with
        | window r => exact hl r (by simp)
        | _ => exact ih fun r hr => hl r (by simp [hr])
    exact this ops hw
  obtain ⟨o', ho'⟩ := exec_total sys root env o op
  rw [List.nil_append] at h7
  obtain ⟨_, ms, _, _, a3, a4, a5, a6⟩ := exec_mouse (default_holds hr) h7 hwin
    (fun b hb' => hb b (List.mem_append_right _ hb')) ho'
  clear a3 a5
  refine ⟨o, o', _, h1, ho', a6, ?_, ?_⟩
  · intro hno
    have : ∀ bef, mouseEvents doubleClicked bef ms = [] := by
      clear a6
      induction ms with
      | nil => intro _; rfl
      | cons m ms ih =>
        intro bef
        have hm := (a4 m (by simp)).2
        rw [hno] at hm
        rw [mouseEvents, ih (fun m' hm' => a4 m' (by simp [hm'])) _]
        simp [mouseEvent, hm]
    exact this _
  · have hn : ∀ lo hi v, lo ≤ hi → lo ≤ nearest lo hi v ∧ nearest lo hi v ≤ hi := by
      intro lo hi v h; unfold nearest; repeat' split
      all_goals omega
    obtain ⟨_, w2, _, _, _, w6, _, _⟩ := hwin
    have : ∀ bef x y b f c, .mouse x y b f c ∈ mouseEvents doubleClicked bef ms →
        (windowAfter ops).left ≤ x ∧ x ≤ (windowAfter ops).right ∧
        (windowAfter ops).top ≤ y ∧ y ≤ (windowAfter ops).bottom := by
      clear a6
      induction ms with
      | nil => intro _ _ _ _ _ _ h; simp [mouseEvents] at h
      | cons m ms ih =>
        intro bef x y b f c h
        rw [mouseEvents, List.mem_append] at h
        rcases h with h | h
        · have hm := (a4 m (by simp)).1
          have e : x = nearest m.window.left m.window.right (m.window.left + m.report.x) ∧
              y = nearest m.window.top m.window.bottom (m.window.top + m.report.y) := by
            revert h
            unfold mouseEvent
            simp only
            repeat' split
            all_goals simp
            all_goals
              intro e1 e2 _ _ _
              exact ⟨e1, e2⟩
          rw [hm] at e
          have n1 := hn _ _ ((windowAfter ops).left + m.report.x) w2
          have n2 := hn _ _ ((windowAfter ops).top + m.report.y) w6
          rw [e.1, e.2]
          exact ⟨n1.1, n1.2, n2.1, n2.2⟩
        · exact ih (fun m' hm' => a4 m' (by simp [hm'])) _ x y b f c h
    exact this _

/-- **C13, not typed as text.**  A mouse report arriving while nothing is pending, in any chunking, is
consumed completely and adds nothing but at most one mouse record. -/
theorem C13_not_typed (sys : Sys) (root : Node) (hr : setAll newNode defaultRegs = some root)
    (env : Nat → Env) (o : Obj) (hq : o.queue = []) (hrec : o.st.records = []) (report : List Nat) (r : MouseRecord)
    (h : MouseReport report r) (chunks : List (Nat × List Nat)) (hc : (chunks.map (·.2)).flatten = report) :
    ∃ o' new, writeAll sys root env o chunks = some o' ∧ o'.queue = [] ∧
      events o'.st.out = events o.st.out ++ new ∧ new.length ≤ 1 ∧
      ∀ e ∈ new, ∃ x y b f c, e = .record (.mouse x y b f c) := by
  have hne : report ≠ [] := by cases h <;> simp
  obtain ⟨o1, s1, q1, e1, e2, e3, e4, _, e6⟩ := writeAll_spec (sys := sys) (default_wf hr) env chunks o
    (by rw [hc]; exact hne)
  rw [hc, hq, List.nil_append] at e2
  have hs := scanInput_mouse sys root (env o.pos) o.st h [] false
  rw [List.append_nil] at hs
  have hl : scanLoop sys root env false report.length o.pos o.st report = some (handleMouse (env o.pos) o.st r, []) := by
    revert hs
    cases report with
    | nil => exact absurd rfl hne
    | cons b t => intro hs; rw [List.length_cons, scanLoop, hs]; simp [scanLoop]
  rw [hl] at e2
  cases e2
  have hh : ∃ rs : List Rec, (handleMouse (env o.pos) o.st r).records = o.st.records ++ rs ∧ rs.length ≤ 1 ∧
      (∀ e ∈ rs, ∃ x y b f c, e = .mouse x y b f c) ∧ (handleMouse (env o.pos) o.st r).out = o.st.out := by
    have aux : ∀ (t : St) x y b f c, t.records = o.st.records → t.out = o.st.out →
        ∃ rs : List Rec, (pushMouse t (.mouse x y b f c)).records = o.st.records ++ rs ∧ rs.length ≤ 1 ∧
        (∀ e ∈ rs, ∃ x y b f c, e = .mouse x y b f c) ∧ (pushMouse t (.mouse x y b f c)).out = o.st.out := by
      intro t x y b f c h1 h2
      unfold pushMouse
      split
      · exact ⟨[.mouse x y b f c], by simp [h1], by simp, by simp, h2⟩
      · exact ⟨[], by simp [h1], by simp, by simp, h2⟩
    unfold handleMouse
    simp only
    split
    · split
      · exact aux _ _ _ _ _ _ rfl rfl
      · split
        · exact aux _ _ _ _ _ _ rfl rfl
        · exact ⟨[], by simp, by simp, by simp, rfl⟩
    · exact aux _ _ _ _ _ _ rfl rfl
  obtain ⟨rs, f1, f2, f3, f4⟩ := hh
  refine ⟨o1, rs.map Out.record, e1, e4, ?_, by simpa using f2, ?_⟩
  · have hR := ((R_iff _ _).1 e3).2.2.2.2.2.2.2
    simp only [f1, f4, e6, hrec, List.map_nil, List.append_nil, List.nil_append] at hR
    have hf : (rs.map Out.record).filter (· ≠ Out.dsr) = rs.map Out.record := by
      apply List.filter_eq_self.2
      intro e he
      simp only [List.mem_map] at he
      obtain ⟨r, _, rfl⟩ := he
      simp
    unfold events
    rw [hR, List.filter_append, hf]
  · intro e he
    simp only [List.mem_map] at he
    obtain ⟨r', hr', rfl⟩ := he
    obtain ⟨x, y, b, f, c, rfl⟩ := f3 r' hr'
    exact ⟨x, y, b, f, c, rfl⟩

/-- Beside C13 and C14: a press at (500, 4) in a window of 80 columns whose top line is 10. -/
example : WindowOk ⟨0, 10, 79, 34⟩ ∧ MouseReport [27, 91, 60, 48, 59, 53, 48, 48, 59, 52, 77] ⟨false, 0, 499, 3⟩ ∧
    mouseEvent false [] ⟨⟨false, 0, 499, 3⟩, 7, 500, ⟨0, 10, 79, 34⟩, true⟩ = some (.mouse 79 13 1 0 0) ∧
    wantsMouse [.mode 0x10, .window ⟨0, 10, 79, 34⟩] = true :=
  ⟨by unfold WindowOk; decide,
   MouseReport.sgr [48] [53, 48, 48] [52] false (by unfold IsDigits; decide) (.inl (by unfold IsDigits; decide))
     (.inl (by unfold IsDigits; decide)), by decide, by decide⟩

/-- Beside C14: press, release and press of the left button at one place, 100 ms apart: the second press
is a double click. -/
example : doubleClicked [⟨⟨false, 0, 4, 4⟩, 0, 500, {}, true⟩, ⟨⟨true, 0, 4, 4⟩, 50, 500, {}, true⟩]
      ⟨⟨false, 0, 4, 4⟩, 100, 500, {}, true⟩ = true ∧
    doubleClicked [⟨⟨false, 0, 4, 4⟩, 0, 500, {}, true⟩, ⟨⟨true, 0, 4, 4⟩, 50, 500, {}, true⟩]
      ⟨⟨false, 0, 5, 4⟩, 100, 500, {}, true⟩ = false := by decide

end Winpty.Props
