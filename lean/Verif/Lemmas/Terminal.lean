import Verif.Lemmas.Vt

/-! # The output loop of `sendLine` against the emulator -/
namespace Winpty.Terminal

open Winpty.Spec Winpty.Spec.Vt Winpty.Spec.Screen
open Winpty.ConsoleLine (Cell)
open Winpty.Unicode (encodeUtf8 decodeSurrogatePair)

/-! ## Characters of a line -/

theorem hi_mask (x n k : Nat) (hx : x < 2 ^ (n + k)) : x &&& ((2 ^ n - 1) <<< k) = x / 2 ^ k * 2 ^ k := by
  apply Nat.eq_of_testBit_eq
  intro i
  rw [Nat.testBit_and, Nat.testBit_shiftLeft, Nat.testBit_mul_two_pow, Nat.testBit_div_two_pow,
    Nat.testBit_two_pow_sub_one]
  by_cases hk : k ≤ i
  · have e : k + (i - k) = i := by omega
    simp only [ge_iff_le, hk, decide_true, Bool.true_and]
    by_cases hn : i - k < n
    · simp [hn, Nat.sub_add_cancel hk]
    · have : x.testBit i = false := by
        apply Nat.testBit_lt_two_pow
        exact Nat.lt_of_lt_of_le hx (Nat.pow_le_pow_right (by omega) (by omega))
      simp [hn, Nat.sub_add_cancel hk, this]
  · simp [hk]

theorem and_f800 (x : Nat) (hx : x < 65536) : x &&& 0xF800 = 0xD800 ↔ 0xD800 ≤ x ∧ x < 0xE000 := by
  have := hi_mask x 5 11 (by simpa using hx)
  simp only [Nat.reducePow, Nat.reduceSub, Nat.reduceShiftLeft] at this
  rw [this]; omega

theorem and_fc00 (x y : Nat) (hx : x < 65536) (hy : y = 0xD800 ∨ y = 0xDC00) :
    x &&& 0xFC00 = y ↔ y ≤ x ∧ x < y + 0x400 := by
  have := hi_mask x 6 10 (by simpa using hx)
  simp only [Nat.reducePow, Nat.reduceSub, Nat.reduceShiftLeft] at this
  rw [this]; omega

theorem lead_iff (c : Cell) : (c.attr &&& 0x100 ≠ 0) ↔ isLead c = true := and_bit c.attr 8
theorem trail_iff (c : Cell) : (c.attr &&& 0x200 ≠ 0) ↔ isTrail c = true := and_bit c.attr 9

theorem cellWidth_one (a : Cell) (rest : List Cell) (h : isLead a = false) :
    cellWidth (a :: rest) = 1 := by
  unfold cellWidth
  cases rest with
  | nil => rfl
  | cons b r =>
    have : ¬ (a.attr &&& 0x100 ≠ 0) := by rw [lead_iff, h]; decide
    simp only [isFullWidthCharacter, this, decide_false, Bool.false_and]
    rfl

theorem cellWidth_two (a b : Cell) (rest : List Cell) (h : isLead a = true) (h' : isTrail b = true)
    (hc : b.ch = a.ch) : cellWidth (a :: b :: rest) = 2 := by
  have h1 : (a.attr &&& 0x100 ≠ 0) := by rw [lead_iff, h]
  have h2 : (b.attr &&& 0x200 ≠ 0) := by rw [trail_iff, h']
  simp only [cellWidth, isFullWidthCharacter, h1, h2, hc, ne_eq, not_false_eq_true, decide_true,
    Bool.and_true, if_true]

theorem decodeSurrogatePair_eq (a b : Nat) (h1 : 0xD800 ≤ a) (h2 : a < 0xDC00) (h3 : 0xDC00 ≤ b)
    (h4 : b < 0xE000) :
    decodeSurrogatePair a b = 0x10000 + (a - 0xD800) * 0x400 + (b - 0xDC00) := by
  unfold decodeSurrogatePair; omega

/-- The scan of a well-formed line finds the character the specification finds. -/
theorem scan_glyph (a : Cell) (rest : List Cell) (gs : List Glyph)
    (hch : ∀ c ∈ a :: rest, c.ch < 65536) (h : glyphsOf (a :: rest) = some gs) :
    ∃ g gs', gs = g :: gs' ∧ (g.cells = 1 ∨ g.cells = 2) ∧ g.cells ≤ (a :: rest).length ∧
      g.attr = a.attr ∧ IsScalar g.code ∧
      scanUnicodeScalarValue (a :: rest) = some (g.cells, g.code) ∧
      glyphsOf ((a :: rest).drop g.cells) = some gs' := by
  have ha := hch a (List.mem_cons_self ..)
  unfold glyphsOf at h
  by_cases hsur : (isHigh a || isLow a) = true
  · rw [if_pos hsur] at h
    have hsur' : 0xD800 ≤ a.ch ∧ a.ch < 0xE000 := by
      simp only [isHigh, isLow, Bool.or_eq_true, decide_eq_true_eq] at hsur; omega
    cases rest with
    | nil => simp at h
    | cons b rest' =>
      simp only at h
      have hb := hch b (by simp)
      by_cases hc : (isHigh a && isLow b && !isLead a && !isLead b) = true
      · rw [if_pos hc] at h
        simp only [Bool.and_eq_true, Bool.not_eq_true', isHigh, isLow, decide_eq_true_eq] at hc
        obtain ⟨⟨⟨h1, h2⟩, h3⟩, h4⟩ := hc
        cases hg : glyphsOf rest' with
        | none => rw [hg] at h; simp at h
        | some gs' =>
          rw [hg] at h
          simp only [Option.map_some, Option.some.injEq] at h
          refine ⟨_, gs', h.symm, Or.inr rfl, by simp, rfl, ?_, ?_, hg⟩
          · unfold IsScalar; simp only; omega
          · simp only [scanUnicodeScalarValue]
            rw [if_pos ((and_f800 _ ha).mpr hsur'), cellWidth_one a _ h3]
            simp only [List.drop_succ_cons, List.drop_zero]
            rw [if_neg, cellWidth_one b _ h4, decodeSurrogatePair_eq _ _ h1.1 h1.2 h2.1 h2.2]
            have f1 := (and_fc00 _ 0xD800 ha (Or.inl rfl)).mpr h1
            have f2 := (and_fc00 _ 0xDC00 hb (Or.inr rfl)).mpr h2
            rw [f1, f2]
            simp
      · rw [if_neg hc] at h; simp at h
  · rw [if_neg hsur] at h
    have hsur' : ¬ (0xD800 ≤ a.ch ∧ a.ch < 0xE000) := by
      simp only [isHigh, isLow, Bool.or_eq_true, decide_eq_true_eq] at hsur; omega
    have hscal : IsScalar a.ch := by unfold IsScalar; omega
    by_cases hl : isLead a = true
    · rw [if_pos hl] at h
      cases rest with
      | nil => simp at h
      | cons b rest' =>
        simp only at h
        by_cases hc : (isTrail b && decide (b.ch = a.ch)) = true
        · rw [if_pos hc] at h
          simp only [Bool.and_eq_true, decide_eq_true_eq] at hc
          cases hg : glyphsOf rest' with
          | none => rw [hg] at h; simp at h
          | some gs' =>
            rw [hg] at h
            simp only [Option.map_some, Option.some.injEq] at h
            refine ⟨_, gs', h.symm, Or.inr rfl, by simp, rfl, hscal, ?_, hg⟩
            simp only [scanUnicodeScalarValue]
            rw [if_neg (by rw [and_f800 _ ha]; exact hsur'), cellWidth_two a b _ hl hc.1 hc.2]
        · rw [if_neg hc] at h; simp at h
    · rw [if_neg hl] at h
      cases hg : glyphsOf rest with
      | none => rw [hg] at h; simp at h
      | some gs' =>
        rw [hg] at h
        simp only [Option.map_some, Option.some.injEq] at h
        refine ⟨_, gs', h.symm, Or.inl rfl, by simp, rfl, hscal, ?_, by simpa using hg⟩
        simp only [scanUnicodeScalarValue]
        rw [if_neg (by rw [and_f800 _ ha]; exact hsur'), cellWidth_one a _ (by simpa using hl)]

theorem wanted_append (a b : List Glyph) : wanted (a ++ b) = wanted a ++ wanted b := by
  simp [wanted]

theorem wanted_one_length (g : Glyph) (h : 1 ≤ g.cells) : (wanted [g]).length = g.cells := by
  simp [wanted]; omega

theorem wanted_length (l : List Cell) (gs : List Glyph) (hch : ∀ c ∈ l, c.ch < 65536)
    (h : glyphsOf l = some gs) : (wanted gs).length = l.length := by
  induction hn : l.length using Nat.strongRecOn generalizing l gs with
  | _ n ih =>
    cases l with
    | nil => simp only [glyphsOf, Option.some.injEq] at h; subst h; exact hn
    | cons a rest =>
      obtain ⟨g, gs', rfl, hc, hle, _, _, _, h'⟩ := scan_glyph a rest gs hch h
      have := ih ((a :: rest).drop g.cells).length (by rw [List.length_drop, ← hn]; omega) _ gs'
        (fun c hc => hch c (List.mem_of_mem_drop hc)) h' rfl
      rw [show g :: gs' = [g] ++ gs' from rfl, wanted_append, List.length_append, this,
        wanted_one_length g (by omega), List.length_drop]
      omega

/-- Splitting a line where a character begins. -/
theorem glyphsOf_split (p q : List Cell) (gs gs₁ : List Glyph) (hch : ∀ c ∈ p ++ q, c.ch < 65536)
    (h : glyphsOf (p ++ q) = some gs) (h₁ : glyphsOf p = some gs₁) :
    ∃ gs₂, glyphsOf q = some gs₂ ∧ gs = gs₁ ++ gs₂ := by
  induction hn : p.length using Nat.strongRecOn generalizing p gs gs₁ with
  | _ n ih =>
    cases p with
    | nil =>
      simp only [glyphsOf, Option.some.injEq] at h₁
      subst h₁
      exact ⟨gs, by simpa using h, rfl⟩
    | cons a rest =>
      obtain ⟨g, gs', rfl, hc, hle, ha, _, hs, h'⟩ :=
        scan_glyph a rest gs₁ (fun c hc => hch c (List.mem_append_left _ hc)) h₁
      obtain ⟨g2, gs2', rfl, hc2, hle2, ha2, _, hs2, h2'⟩ :=
        scan_glyph a (rest ++ q) gs hch h
      have hg : g2 = g := by
        -- the first character is determined by the cells of the prefix
        unfold glyphsOf at h₁
        rw [List.cons_append] at h
        unfold glyphsOf at h
        by_cases c1 : (isHigh a || isLow a) = true
        · rw [if_pos c1] at h h₁
          cases rest with
          | nil => simp at h₁
          | cons b rest' =>
            simp only [List.cons_append] at h h₁
            by_cases c2 : (isHigh a && isLow b && !isLead a && !isLead b) = true
            · rw [if_pos c2] at h h₁
              simp only [Option.map_eq_some_iff, List.cons.injEq] at h h₁
              obtain ⟨_, _, h, _⟩ := h
              obtain ⟨_, _, h₁, _⟩ := h₁
              rw [← h, ← h₁]
            · rw [if_neg c2] at h₁; simp at h₁
        · rw [if_neg c1] at h h₁
          by_cases c2 : isLead a = true
          · rw [if_pos c2] at h h₁
            cases rest with
            | nil => simp at h₁
            | cons b rest' =>
              simp only [List.cons_append] at h h₁
              by_cases c3 : (isTrail b && decide (b.ch = a.ch)) = true
              · rw [if_pos c3] at h h₁
                simp only [Option.map_eq_some_iff, List.cons.injEq] at h h₁
                obtain ⟨_, _, h, _⟩ := h
                obtain ⟨_, _, h₁, _⟩ := h₁
                rw [← h, ← h₁]
              · rw [if_neg c3] at h₁; simp at h₁
          · rw [if_neg c2] at h h₁
            simp only [Option.map_eq_some_iff, List.cons.injEq] at h h₁
            obtain ⟨_, _, h, _⟩ := h
            obtain ⟨_, _, h₁, _⟩ := h₁
            rw [← h, ← h₁]
      subst hg
      rw [← List.cons_append, List.drop_append_of_le_length hle] at h2'
      obtain ⟨gs₂, e1, e2⟩ := ih ((a :: rest).drop g2.cells).length
        (by rw [List.length_drop, ← hn]; omega) _ gs2' gs'
        (by
          intro c hc
          rcases List.mem_append.mp hc with hc | hc
          · exact hch c (List.mem_append_left _ (List.mem_of_mem_drop hc))
          · exact hch c (List.mem_append_right _ hc)) h2' h' rfl
      exact ⟨gs₂, e1, by rw [e2]; rfl⟩

/-- The cells of the first characters of a line. -/
theorem glyphsOf_take (l : List Cell) (gs₁ gs₂ : List Glyph) (hch : ∀ c ∈ l, c.ch < 65536)
    (h : glyphsOf l = some (gs₁ ++ gs₂)) :
    glyphsOf (l.take (wanted gs₁).length) = some gs₁ := by
  induction gs₁ generalizing l with
  | nil => simp [wanted, glyphsOf]
  | cons g gs₁ ih =>
    cases l with
    | nil => simp [glyphsOf] at h
    | cons a rest =>
      obtain ⟨g', gs', he, hc, hle, ha, _, hs, h'⟩ := scan_glyph a rest _ hch h
      simp only [List.cons_append, List.cons.injEq] at he
      obtain ⟨rfl, rfl⟩ := he
      have ih' := ih _ (fun c hc => hch c (List.mem_of_mem_drop hc)) h'
      rw [show g :: gs₁ = [g] ++ gs₁ from rfl, wanted_append, List.length_append,
        wanted_one_length g (by omega)]
      -- split off the first character
      have hsplit : (a :: rest).take (g.cells + (wanted gs₁).length)
          = (a :: rest).take g.cells ++ ((a :: rest).drop g.cells).take (wanted gs₁).length := by
        rw [List.take_add]
      rw [hsplit]
      unfold glyphsOf at h
      by_cases c1 : (isHigh a || isLow a) = true
      · rw [if_pos c1] at h
        cases rest with
        | nil => simp at h
        | cons b rest' =>
          simp only at h
          by_cases c2 : (isHigh a && isLow b && !isLead a && !isLead b) = true
          · rw [if_pos c2] at h
            simp only [Option.map_eq_some_iff, List.cons_append, List.cons.injEq] at h
            obtain ⟨_, _, h, _⟩ := h
            subst h
            simp only [List.take_succ_cons, List.take_zero, List.cons_append, List.nil_append]
            unfold glyphsOf
            rw [if_pos c1]
            simp only
            rw [if_pos c2, ih']
            rfl
          · rw [if_neg c2] at h; simp at h
      · rw [if_neg c1] at h
        by_cases c2 : isLead a = true
        · rw [if_pos c2] at h
          cases rest with
          | nil => simp at h
          | cons b rest' =>
            simp only at h
            by_cases c3 : (isTrail b && decide (b.ch = a.ch)) = true
            · rw [if_pos c3] at h
              simp only [Option.map_eq_some_iff, List.cons_append, List.cons.injEq] at h
              obtain ⟨_, _, h, _⟩ := h
              subst h
              simp only [List.take_succ_cons, List.take_zero, List.cons_append, List.nil_append]
              unfold glyphsOf
              rw [if_neg c1, if_pos c2]
              simp only
              rw [if_pos c3, ih']
              rfl
            · rw [if_neg c3] at h; simp at h
        · rw [if_neg c2] at h
          simp only [Option.map_eq_some_iff, List.cons_append, List.cons.injEq] at h
          obtain ⟨_, _, h, _⟩ := h
          subst h
          simp only [List.take_succ_cons, List.take_zero, List.cons_append, List.nil_append]
          unfold glyphsOf
          rw [if_neg c1, if_neg c2, ih']
          rfl

theorem fixSpecialCharacters_eq (c : Nat) : fixSpecialCharacters c = shownCode c := by
  unfold shownCode
  split <;> first
    | rfl
    | (unfold fixSpecialCharacters
       repeat rw [if_neg (by first | assumption | (intro h; simp_all))])

/-! ## Writing characters -/

/-- The beginning of a row shows these characters. -/
def RowPre (oc : Bool) (row : Nat → Shown) (gs : List Glyph) : Prop :=
  ∀ k w, (wanted gs)[k]? = some w → Shows oc (row k) w

theorem print_fits (cfg : Cfg) (e : Emu) (c : Nat) (h : e.col + cfg.cw c ≤ cfg.width) :
    print cfg e c = place cfg e c := by
  unfold print; rw [if_neg (by omega)]

/-- Placing a character extends what the row shows. -/
theorem place_pre (cfg : Cfg) (oc : Bool) (e : Emu) (gs : List Glyph) (g : Glyph)
    (hpos : 1 ≤ g.cells) (hw : cfg.cw (shownCode g.code) = g.cells)
    (hcol : e.col = (wanted gs).length) (hpre : RowPre oc (e.rows e.row) gs)
    (hg : oc = true → Renders e.gfx g.attr) :
    RowPre oc ((place cfg e (shownCode g.code)).rows e.row) (gs ++ [g]) := by
  intro k w hk
  simp only [place]
  rw [wanted_append] at hk
  by_cases h1 : k < (wanted gs).length
  · rw [List.getElem?_append_left h1] at hk
    rw [if_neg (by omega)]
    exact hpre k w hk
  · rw [List.getElem?_append_right (by omega)] at hk
    have hlt := (List.getElem?_eq_some_iff.mp hk).1
    rw [wanted_one_length g hpos] at hlt
    rw [hw, if_pos ⟨trivial, by omega, by omega⟩]
    simp only [wanted, List.flatMap_cons, List.flatMap_nil, List.append_nil] at hk hcol h1
    by_cases h2 : k = e.col
    · rw [if_pos h2]
      rw [hcol] at h2
      rw [h2, Nat.sub_self] at hk
      simp only [List.getElem?_cons_zero, Option.some.injEq] at hk
      subst hk
      exact ⟨rfl, hg⟩
    · rw [if_neg h2]
      have : ∃ j, k - (List.flatMap (fun g => (some (shownCode g.code), g.attr) ::
          List.replicate (g.cells - 1) (none, g.attr)) gs).length = j + 1 := by
        refine ⟨k - (List.flatMap (fun g => (some (shownCode g.code), g.attr) ::
          List.replicate (g.cells - 1) (none, g.attr)) gs).length - 1, ?_⟩
        omega
      obtain ⟨j, hj⟩ := this
      rw [hj, List.getElem?_cons_succ, List.getElem?_replicate] at hk
      by_cases hj' : j < g.cells - 1
      · rw [if_pos hj'] at hk
        simp only [Option.some.injEq] at hk
        subst hk
        exact ⟨rfl, hg⟩
      · rw [if_neg hj'] at hk; exact absurd hk (by simp)

/-! ## The loop -/

/-- What holds before each iteration: the bytes collected so far consist of a part that will be
written (whose effect on the emulator is known) and pending spaces. -/
structure LoopInv (cfg : Cfg) (oc : Bool) (e0 e : Emu) (gsK gsP : List Glyph) (s : Loop) : Prop where
  bytes : ∃ K, s.termLine = K ++ List.replicate gsP.length 0x20 ∧ s.trimmedLineLength = K.length ∧
    e = feed cfg e0 K
  tc : s.trimmedCellCount = (wanted gsK).length
  ground : e.parse = .ground
  row : e.row = e0.row
  top : e.top = e0.top
  vis : e.cursorVisible = e0.cursorVisible
  modes : e.modes = e0.modes
  title : e.title = e0.title
  others : ∀ r, r ≠ e0.row → e.rows r = e0.rows r
  col : e.col = (wanted gsK).length
  pre : RowPre oc (e.rows e0.row) gsK
  spaces : ∀ g ∈ gsP, g.code = 0x20 ∧ g.cells = 1 ∧
    (oc = true → ((g.attr &&& colorAttributeMask : Nat) : Int) = s.remoteColor)
  colour : oc = true → s.remoteColor = -1 ∨
    ∃ a : Nat, s.remoteColor = ((a &&& colorAttributeMask : Nat) : Int) ∧ e.gfx = gfxOf a
  erased : s.alreadyErasedLine = true → gsP = [] ∧
    ∀ k, (wanted gsK).length ≤ k → charOf (e.rows e0.row k) = some 0x20

theorem wanted_spaces_length (gs : List Glyph) (h : ∀ g ∈ gs, g.code = 0x20 ∧ g.cells = 1) :
    (wanted gs).length = gs.length := by
  induction gs with
  | nil => rfl
  | cons g gs ih =>
    rw [show g :: gs = [g] ++ gs from rfl, wanted_append, List.length_append,
      ih (fun x hx => h x (List.mem_cons_of_mem _ hx)), wanted_one_length g
        (by have := (h g (List.mem_cons_self ..)).2; omega), (h g (List.mem_cons_self ..)).2]
    simp; omega

/-- Writing the pending spaces. -/
theorem feed_spaces (cfg : Cfg) (oc : Bool) (hcw : cfg.cw 0x20 = 1) (gsP : List Glyph)
    (e : Emu) (gsK : List Glyph) (hg : e.parse = .ground) (hcol : e.col = (wanted gsK).length)
    (hpre : RowPre oc (e.rows e.row) gsK)
    (hsp : ∀ g ∈ gsP, g.code = 0x20 ∧ g.cells = 1 ∧ (oc = true → Renders e.gfx g.attr))
    (hw : e.col + gsP.length ≤ cfg.width) :
    ∃ e', e' = feed cfg e (List.replicate gsP.length 0x20) ∧ e'.parse = .ground ∧ e'.row = e.row ∧
      e'.top = e.top ∧ e'.cursorVisible = e.cursorVisible ∧ e'.modes = e.modes ∧
      e'.title = e.title ∧ (∀ r, r ≠ e.row → e'.rows r = e.rows r) ∧
      e'.col = (wanted (gsK ++ gsP)).length ∧ RowPre oc (e'.rows e.row) (gsK ++ gsP) ∧
      e'.gfx = e.gfx := by
  induction gsP generalizing e gsK with
  | nil =>
    refine ⟨e, rfl, hg, rfl, rfl, rfl, rfl, rfl, fun _ _ => rfl, ?_, ?_, rfl⟩
    · rw [List.append_nil]; exact hcol
    · rw [List.append_nil]; exact hpre
  | cons g gsP ih =>
    obtain ⟨h1, h2, h3⟩ := hsp g (List.mem_cons_self ..)
    simp only [List.length_cons] at hw
    have hsc : shownCode g.code = 0x20 := by rw [h1]; rfl
    have hb : byte cfg e 0x20 = place cfg e (shownCode g.code) := by
      rw [hsc, ← print_fits cfg e 0x20 (by omega)]
      simp [byte, hg, groundByte]
    have hpre' := place_pre cfg oc e gsK g (by omega) (by rw [hsc, hcw, h2]) hcol hpre h3
    have hcol' : (place cfg e (shownCode g.code)).col = (wanted (gsK ++ [g])).length := by
      simp only [place]
      rw [hsc, hcw, wanted_append, List.length_append, wanted_one_length g (by omega), hcol, h2]
    obtain ⟨e', p1, p2, p3, p4, p5, p6, p7, p8, p9, p10, p11⟩ :=
      ih (place cfg e (shownCode g.code)) (gsK ++ [g]) (by exact hg) hcol' hpre'
        (fun x hx => hsp x (List.mem_cons_of_mem _ hx))
        (by simp only [place]; rw [hsc, hcw]; omega)
    refine ⟨e', ?_, p2, p3, p4, p5, p6, p7, ?_, ?_, ?_, p11⟩
    · rw [p1, List.length_cons, List.replicate_succ, feed_cons, hb]
    · intro r hr
      rw [p8 r hr]
      simp only [place]
      funext k
      rw [if_neg (by intro hh; exact hr hh.1)]
    · rw [p9]; simp
    · have : gsK ++ g :: gsP = gsK ++ [g] ++ gsP := by simp
      rw [this]; exact p10

section
variable (cfg : Cfg) (oc : Bool)

/-- Pending spaces become part of what is written. -/
theorem LoopInv.flush {e0 e : Emu} {gsK gsP : List Glyph} {s : Loop}
    (h : LoopInv cfg oc e0 e gsK gsP s) (hcw : cfg.cw 0x20 = 1)
    (hw : (wanted gsK).length + gsP.length ≤ cfg.width) :
    ∃ e', LoopInv cfg oc e0 e' (gsK ++ gsP) []
      ⟨s.termLine, s.termLine.length, (wanted (gsK ++ gsP)).length, s.alreadyErasedLine,
        s.remoteColor⟩ := by
  obtain ⟨K, k1, k2, k3⟩ := h.bytes
  have hsp : ∀ g ∈ gsP, g.code = 0x20 ∧ g.cells = 1 ∧ (oc = true → Renders e.gfx g.attr) := by
    intro g hg
    obtain ⟨h1, h2, h3⟩ := h.spaces g hg
    refine ⟨h1, h2, fun ho => ?_⟩
    rcases h.colour ho with hc | ⟨a, ha, hgx⟩
    · have := h3 ho; omega
    · have := h3 ho
      rw [ha] at this
      rw [hgx, gfxOf_mask a g.attr (by omega)]
      exact gfxOf_renders g.attr
  obtain ⟨e', p1, p2, p3, p4, p5, p6, p7, p8, p9, p10, p11⟩ :=
    feed_spaces cfg oc hcw gsP e gsK h.ground h.col (by rw [h.row]; exact h.pre) hsp
      (by rw [h.col]; exact hw)
  refine ⟨e', ⟨⟨s.termLine, by simp, rfl, ?_⟩, rfl, p2, ?_, ?_, ?_, ?_, ?_, ?_, p9, ?_, by simp, ?_, ?_⟩⟩
  · rw [p1, k1, feed_append, ← k3]
  · rw [p3, h.row]
  · rw [p4, h.top]
  · rw [p5, h.vis]
  · rw [p6, h.modes]
  · rw [p7, h.title]
  · intro r hr
    rw [p8 r (by rw [h.row]; exact hr), h.others r hr]
  · rw [← h.row]; exact p10
  · intro ho
    rcases h.colour ho with hc | ⟨a, ha, hgx⟩
    · exact Or.inl hc
    · exact Or.inr ⟨a, ha, by rw [p11]; exact hgx⟩
  · intro he
    obtain ⟨hp, hk⟩ := h.erased he
    subst hp
    refine ⟨rfl, ?_⟩
    intro k hk'
    rw [List.append_nil] at hk'
    have : e' = e := p1
    rw [this]
    exact hk k hk'

/-- The colour part of an iteration. -/
theorem LoopInv.color {e0 e : Emu} {gsK gsP : List Glyph} {s : Loop}
    (h : LoopInv cfg oc e0 e gsK gsP s) (hcw : cfg.cw 0x20 = 1)
    (hw : (wanted gsK).length + gsP.length ≤ cfg.width) (i : Nat)
    (hi : i = (wanted gsK).length + gsP.length) (attr : Nat) (hne : s.alreadyErasedLine = false) :
    ∃ e' gsK' gsP', LoopInv cfg oc e0 e' gsK' gsP' (loopColor oc s i attr) ∧
      gsK' ++ gsP' = gsK ++ gsP ∧
      (wanted gsK').length + gsP'.length = (wanted gsK).length + gsP.length ∧
      (loopColor oc s i attr).alreadyErasedLine = false ∧
      (oc = true → (loopColor oc s i attr).remoteColor = ((attr &&& colorAttributeMask : Nat) : Int) ∧
        Renders e'.gfx attr) := by
  unfold loopColor
  by_cases ho : oc = true
  · rw [if_pos ho]
    by_cases hc : ((attr &&& colorAttributeMask : Nat) : Int) ≠ s.remoteColor
    · rw [if_pos hc]
      obtain ⟨e1, h1⟩ := h.flush cfg oc hcw hw
      obtain ⟨K, k1, k2, k3⟩ := h1.bytes
      simp only [List.length_nil, List.replicate_zero, List.append_nil] at k1
      subst k1
      have hlen : (wanted (gsK ++ gsP)).length = i := by
        rw [wanted_append, List.length_append, wanted_spaces_length gsP
          (fun g hg => ⟨(h.spaces g hg).1, (h.spaces g hg).2.1⟩), hi]
      refine ⟨{ e1 with gfx := gfxOf attr }, gsK ++ gsP, [], ?_, by simp, ?_, hne, fun _ => ⟨rfl, gfxOf_renders attr⟩⟩
      · refine ⟨⟨_, by simp, rfl, ?_⟩, hlen.symm, h1.ground, h1.row, h1.top, h1.vis, h1.modes, h1.title,
          h1.others, h1.col, h1.pre, by simp, fun _ => Or.inr ⟨attr, rfl, rfl⟩, ?_⟩
        · rw [feed_append, ← k3, feed_outputSetColor cfg h1.ground]
        · intro he; exact absurd he (by simp [hne])
      · simp only [List.length_nil]; omega
    · rw [if_neg hc]
      refine ⟨e, gsK, gsP, h, rfl, rfl, hne, fun _ => ?_⟩
      have hc' : ((attr &&& colorAttributeMask : Nat) : Int) = s.remoteColor := by omega
      refine ⟨hc'.symm, ?_⟩
      rcases h.colour ho with hm | ⟨a, ha, hgx⟩
      · omega
      · rw [hgx, gfxOf_mask a attr (by omega)]; exact gfxOf_renders attr
  · rw [if_neg ho]
    exact ⟨e, gsK, gsP, h, rfl, rfl, hne, fun h' => absurd h' ho⟩

theorem encodeOr_eq (c : Nat) (h : IsScalar c) : encodeOr c = utf8 c := by
  unfold encodeOr
  rw [Winpty.Unicode.encodeUtf8_eq, if_pos h, if_neg (Winpty.Unicode.utf8_ne_nil c)]

theorem shownCode_scalar (c : Nat) (h : IsScalar c) : IsScalar (shownCode c) := by
  unfold shownCode
  split <;> first | exact h | (unfold IsScalar; omega)

/-- The character part of an iteration. -/
theorem LoopInv.char {e0 e : Emu} {gsK gsP : List Glyph} {s : Loop}
    (h : LoopInv cfg oc e0 e gsK gsP s) (hcw : cfg.cw 0x20 = 1) (g : Glyph)
    (hcells : 1 ≤ g.cells) (hscal : IsScalar g.code) (hshow : Showable cfg g)
    (next : Nat) (hn : next = (wanted gsK).length + gsP.length + g.cells) (hw : next ≤ cfg.width)
    (last : Bool) (hne : s.alreadyErasedLine = false)
    (hcol : oc = true → s.remoteColor = ((g.attr &&& colorAttributeMask : Nat) : Int) ∧
      Renders e.gfx g.attr) :
    ∃ e' gsK' gsP', LoopInv cfg oc e0 e' gsK' gsP' (loopChar false s next last g.code) ∧
      gsK' ++ gsP' = gsK ++ gsP ++ [g] ∧ (wanted gsK').length + gsP'.length = next ∧
      (last = false → (loopChar false s next last g.code).alreadyErasedLine = false) ∧
      (last = true → gsP' ≠ [] ∨ (loopChar false s next last g.code).alreadyErasedLine = true) := by
  obtain ⟨hprint, hwidth⟩ := hshow
  unfold loopChar
  by_cases hsp : g.code = 0x20
  · rw [if_pos hsp]
    have hc1 : g.cells = 1 := by
      rw [hsp] at hwidth
      have : shownCode 0x20 = 0x20 := rfl
      rw [this, hcw] at hwidth; exact hwidth.symm
    obtain ⟨K, k1, k2, k3⟩ := h.bytes
    refine ⟨e, gsK, gsP ++ [g], ?_, by simp, by simp; omega, fun _ => hne,
      fun _ => Or.inl (by simp)⟩
    refine ⟨⟨K, ?_, k2, k3⟩, h.tc, h.ground, h.row, h.top, h.vis, h.modes, h.title, h.others, h.col,
      h.pre, ?_, h.colour, ?_⟩
    · simp only [k1, List.length_append, List.length_cons, List.length_nil, List.replicate_succ',
        List.append_assoc]
    · intro x hx
      rcases List.mem_append.mp hx with hx | hx
      · exact h.spaces x hx
      · simp only [List.mem_singleton] at hx
        subst hx
        exact ⟨hsp, hc1, fun ho => (hcol ho).1.symm⟩
    · intro he; exact absurd he (by simp [hne])
  · rw [if_neg hsp]
    obtain ⟨e1, h1⟩ := h.flush cfg oc hcw (by omega)
    have hlen : (wanted (gsK ++ gsP)).length + g.cells = next := by
      rw [wanted_append, List.length_append, wanted_spaces_length gsP
        (fun g hg => ⟨(h.spaces g hg).1, (h.spaces g hg).2.1⟩), hn]
    have hgfx : oc = true → Renders e1.gfx g.attr := by
      intro ho
      rcases h1.colour ho with hm | ⟨a, ha, hgx⟩
      · have := (hcol ho).1; simp only at hm; omega
      · have := (hcol ho).1
        simp only at ha
        rw [hgx, gfxOf_mask a g.attr (by omega)]; exact gfxOf_renders _
    obtain ⟨K, k1, k2, k3⟩ := h1.bytes
    simp only [List.length_nil, List.replicate_zero, List.append_nil] at k1
    subst k1
    have hc1 := h1.col
    -- the erase before the last character
    let e2 : Emu := if last then
        { e1 with rows := fun r k => if r = e1.row ∧ min e1.col (cfg.width - 1) ≤ k
                    then .erased e1.gfx.bg else e1.rows r k }
      else e1
    have hfeed2 : feed cfg e1 (if last = true ∧ ¬ false = true then csi ++ [0x30, 0x4b] else []) = e2 := by
      cases hl : last with
      | true =>
        rw [if_pos (by simp)]
        simp only [e2, hl, if_true]
        exact feed_eraseLine cfg h1.ground
      | false =>
        rw [if_neg (by simp)]
        simp only [e2, hl]
        rfl
    have hmin : min e1.col (cfg.width - 1) = (wanted (gsK ++ gsP)).length := by omega
    have g2 : e2.parse = .ground := by simp only [e2]; split <;> exact h1.ground
    have r2 : e2.row = e0.row := by simp only [e2]; split <;> exact h1.row
    have t2 : e2.top = e0.top := by simp only [e2]; split <;> exact h1.top
    have v2 : e2.cursorVisible = e0.cursorVisible := by simp only [e2]; split <;> exact h1.vis
    have m2 : e2.modes = e0.modes := by simp only [e2]; split <;> exact h1.modes
    have ti2 : e2.title = e0.title := by simp only [e2]; split <;> exact h1.title
    have x2 : e2.gfx = e1.gfx := by simp only [e2]; split <;> rfl
    have c2 : e2.col = (wanted (gsK ++ gsP)).length := by simp only [e2]; split <;> exact hc1
    have o2 : ∀ r, r ≠ e0.row → e2.rows r = e0.rows r := by
      intro r hr
      rw [← h1.others r hr]
      simp only [e2]; split
      · funext k; simp only; rw [if_neg (by intro hh; exact hr (by rw [hh.1, h1.row]))]
      · rfl
    have p2 : RowPre oc (e2.rows e2.row) (gsK ++ gsP) := by
      intro k w hk
      have hk' := (List.getElem?_eq_some_iff.mp hk).1
      have := h1.pre k w hk
      rw [r2]
      simp only [e2]; split
      · simp only; rw [if_neg (by omega)]; exact this
      · exact this
    have er2 : last = true → ∀ k, (wanted (gsK ++ gsP)).length ≤ k →
        charOf (e2.rows e0.row k) = some 0x20 := by
      intro hl k hk
      simp only [e2, hl, if_true]
      rw [if_pos ⟨h1.row.symm, by omega⟩]
      rfl
    have hplace : feed cfg e2 (encodeOr (fixSpecialCharacters g.code))
        = place cfg e2 (shownCode g.code) := by
      rw [fixSpecialCharacters_eq, encodeOr_eq _ (shownCode_scalar _ hscal),
        feed_utf8 cfg g2 _ (shownCode_scalar _ hscal) hprint, print_fits]
      rw [c2, hwidth]; omega
    have hpre' := place_pre cfg oc e2 (gsK ++ gsP) g hcells hwidth c2 p2
      (by rw [x2]; exact hgfx)
    have hlen' : (wanted (gsK ++ gsP ++ [g])).length = next := by
      rw [wanted_append _ [g], List.length_append, wanted_one_length g hcells, hlen]
    refine ⟨place cfg e2 (shownCode g.code), gsK ++ gsP ++ [g], [], ?_, by simp,
      by simp only [List.length_nil]; omega, ?_, ?_⟩
    · refine ⟨⟨_, by simp, rfl, ?_⟩, hlen'.symm, g2, r2, t2, v2, m2, ti2, ?_, ?_, ?_, by simp, ?_, ?_⟩
      · rw [feed_append, feed_append, ← k3, hfeed2, hplace]
      · intro r hr
        rw [← o2 r hr]
        simp only [place]
        funext k
        rw [if_neg (by intro hh; exact hr (by rw [hh.1, r2]))]
      · simp only [place]
        rw [c2, hwidth, hlen']; exact hlen
      · rw [← r2]; exact hpre'
      · intro ho
        rcases h1.colour ho with hm | ⟨a, ha, hgx⟩
        · exact Or.inl hm
        · exact Or.inr ⟨a, ha, by simp only [place]; rw [x2]; exact hgx⟩
      · intro he
        simp only [hne, Bool.false_or] at he
        refine ⟨rfl, ?_⟩
        intro k hk
        rw [hlen'] at hk
        simp only [place]
        rw [if_neg (by rw [c2, hwidth]; omega)]
        exact er2 he k (by omega)
    · intro hl
      simp only [hne, hl, Bool.or_false]
    · intro hl
      exact Or.inr (by simp only [hl, Bool.or_true])

theorem loop_trimmed (plain : Bool) (fuel : Nat) (cells : List Cell) (i : Nat) (s s' : Loop)
    (h : outputLoop plain oc fuel cells i s = some s') (hi : s.trimmedCellCount ≤ i) :
    s.trimmedCellCount ≤ s'.trimmedCellCount := by
  induction fuel generalizing cells i s with
  | zero =>
    cases cells with
    | nil => simp only [outputLoop, Option.some.injEq] at h; subst h; exact Nat.le_refl _
    | cons c cs => simp [outputLoop] at h
  | succ fuel ih =>
    cases cells with
    | nil => simp only [outputLoop, Option.some.injEq] at h; subst h; exact Nat.le_refl _
    | cons c cs =>
      simp only [outputLoop] at h
      split at h
      · simp at h
      · next cc ch hs =>
        have h1 : s.trimmedCellCount ≤ (loopColor oc s i c.attr).trimmedCellCount ∧
            (loopColor oc s i c.attr).trimmedCellCount ≤ i := by
          unfold loopColor; split
          · split
            · exact ⟨hi, Nat.le_refl _⟩
            · exact ⟨Nat.le_refl _, hi⟩
          · exact ⟨Nat.le_refl _, hi⟩
        have h2 : ∀ last, (loopColor oc s i c.attr).trimmedCellCount ≤
              (loopChar plain (loopColor oc s i c.attr) (i + cc) last ch).trimmedCellCount ∧
            (loopChar plain (loopColor oc s i c.attr) (i + cc) last ch).trimmedCellCount ≤ i + cc := by
          intro last
          unfold loopChar; split
          · exact ⟨Nat.le_refl _, by simp only; omega⟩
          · exact ⟨by simp only; omega, Nat.le_refl _⟩
        have := ih _ _ _ h (h2 _).2
        have := (h2 (decide (cc = (c :: cs).length))).1
        omega

/-- The whole loop. -/
theorem loop_spec (hcw : cfg.cw 0x20 = 1) (fuel : Nat) (cells : List Cell) (i : Nat) (s : Loop)
    (e0 e : Emu) (gsK gsP gsR : List Glyph) (hf : cells.length ≤ fuel)
    (h : LoopInv cfg oc e0 e gsK gsP s) (hi : i = (wanted gsK).length + gsP.length)
    (hch : ∀ c ∈ cells, c.ch < 65536) (hgs : glyphsOf cells = some gsR)
    (hshow : ∀ g ∈ gsR, Showable cfg g) (hw : i + cells.length ≤ cfg.width)
    (hne : s.alreadyErasedLine = true → cells = []) :
    ∃ s' e' gsK' gsP', outputLoop false oc fuel cells i s = some s' ∧
      LoopInv cfg oc e0 e' gsK' gsP' s' ∧ gsK' ++ gsP' = gsK ++ gsP ++ gsR ∧
      (wanted gsK').length + gsP'.length = i + cells.length ∧
      (cells ≠ [] ∨ gsP ≠ [] ∨ s.alreadyErasedLine = true →
        gsP' ≠ [] ∨ s'.alreadyErasedLine = true) := by
  induction fuel generalizing cells i s e gsK gsP gsR with
  | zero =>
    have : cells = [] := List.length_eq_zero_iff.mp (by omega)
    subst this
    simp only [glyphsOf, Option.some.injEq] at hgs
    subst hgs
    exact ⟨s, e, gsK, gsP, by simp [outputLoop], h, by simp, by simp [hi],
      fun hq => hq.elim (fun x => absurd rfl x) id⟩
  | succ fuel ih =>
    cases cells with
    | nil =>
      simp only [glyphsOf, Option.some.injEq] at hgs
      subst hgs
      exact ⟨s, e, gsK, gsP, by simp [outputLoop], h, by simp, by simp [hi],
      fun hq => hq.elim (fun x => absurd rfl x) id⟩
    | cons c cs =>
      have hne' : s.alreadyErasedLine = false := by
        cases hh : s.alreadyErasedLine with
        | false => rfl
        | true => exact absurd (hne hh) (by simp)
      obtain ⟨g, gs', rfl, hcc, hle, hattr, hscal, hscan, hrest⟩ := scan_glyph c cs gsR hch hgs
      simp only [outputLoop, hscan]
      obtain ⟨e1, gsK1, gsP1, h1, he1, hl1, hn1, hc1⟩ :=
        h.color cfg oc hcw (by omega) i hi c.attr hne'
      obtain ⟨e2, gsK2, gsP2, h2, he2, hl2, hn2, hm2⟩ :=
        h1.char cfg oc hcw g (by omega) hscal (hshow g (List.mem_cons_self ..)) (i + g.cells)
          (by omega) (by omega) (decide (g.cells = (c :: cs).length)) hn1 (by rw [hattr]; exact hc1)
      obtain ⟨s', e', gsK', gsP', q1, q2, q3, q4, q5⟩ :=
        ih ((c :: cs).drop g.cells) (i + g.cells) _ e2 gsK2 gsP2 gs'
          (by rw [List.length_drop]; simp only [List.length_cons] at hf ⊢; omega) h2 hl2.symm
          (fun x hx => hch x (List.mem_of_mem_drop hx)) hrest
          (fun x hx => hshow x (List.mem_cons_of_mem _ hx))
          (by rw [List.length_drop]; omega)
          (by
            intro he
            by_cases hl : g.cells = (c :: cs).length
            · rw [hl, List.drop_length]
            · have := hn2 (by simpa using hl)
              rw [this] at he; exact absurd he (by decide))
      refine ⟨s', e', gsK', gsP', q1, q2, ?_, ?_, ?_⟩
      · rw [q3, he2, he1]; simp
      · rw [q4, List.length_drop]; omega
      · intro _
        refine q5 ?_
        by_cases hl : g.cells = (c :: cs).length
        · exact Or.inr (hm2 (by simpa using hl))
        · refine Or.inl (fun hd => hl ?_)
          have := List.drop_eq_nil_iff.mp hd
          omega

end

end Winpty.Terminal
