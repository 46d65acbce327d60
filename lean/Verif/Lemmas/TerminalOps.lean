import Verif.Lemmas.Terminal
import Verif.Spec.Terminal

/-! # The terminal writer against the emulator, operation by operation -/
namespace Winpty.Terminal

open Winpty.Spec Winpty.Spec.Vt Winpty.Spec.Screen Winpty.Spec.Term
open Winpty.ConsoleLine (Cell)

def mouseModes : List Nat := [1000, 1002, 1003, 1015, 1006]

/-- The state of the writer `t`, of the emulator `e` that has read everything written, and what the
history asks for, agree; `off` translates line numbers to rows. -/
structure Rel (cfg : Cfg) (e0 : Emu) (oc : Bool) (t : Term) (e : Emu) (w : Want) (off : Int) :
    Prop where
  fed : e = feed cfg e0 t.out
  ground : e.parse = .ground
  plain : t.plainMode = false
  ocEq : t.outputColor = oc
  row : e.row = t.remoteLine + off
  cur : w.cur = t.remoteLine
  col : (e.col : Int) = t.remoteColumn
  colLe : e.col ≤ cfg.width
  wcol : ∀ c, w.col = some c → t.remoteColumn = c
  topLe : ∀ l, InWindow cfg w l → e.top ≤ l + off
  bot : w.highest + off < e.top + cfg.height
  curWin : InWindow cfg w w.cur
  curLe : w.cur ≤ w.highest
  data : t.lineDataValid = true → (t.lineData.length : Int) = t.remoteColumn ∧
    (∀ c ∈ t.lineData, c.ch < 65536) ∧
    ∃ gs, glyphsOf t.lineData = some gs ∧ RowPre oc (e.rows e.row) gs
  colour : oc = true → t.remoteColor = -1 ∨
    ∃ a : Nat, t.remoteColor = ((a &&& colorAttributeMask : Nat) : Int) ∧ e.gfx = gfxOf a
  sent : ∀ l cells, w.sent l = some cells → RowShows cfg oc (e.rows (l + off)) cells
  hid : t.cursorHidden = true → e.cursorVisible = false
  vis : w.stale = false → e.cursorVisible = !t.cursorHidden
  shown : w.shown = true → e.cursorVisible = true
  hidden : w.hidden = true → e.cursorVisible = false
  mouse : t.mouseModeEnabled = w.mouse
  modes : ∀ n ∈ mouseModes, e.modes n = w.mouse

section
variable {cfg : Cfg} {e0 : Emu} {oc : Bool} {t : Term} {e : Emu} {w : Want} {off : Int}

/-- Hiding the cursor, in a context where its visibility is not determined by the history. -/
theorem hide_spec (h : Rel cfg e0 oc t e w off) :
    ∃ e', e' = { e with cursorVisible := false } ∧
      e' = feed cfg e0 (hideTerminalCursor t).out ∧ e'.parse = .ground ∧
      ∃ out, hideTerminalCursor t = { t with out := out, cursorHidden := true } := by
  refine ⟨_, rfl, ?_⟩
  have hp := h.plain
  unfold hideTerminalCursor
  rw [if_pos (by rw [hp]; simp)]
  by_cases hh : t.cursorHidden = true
  · rw [if_pos hh]
    have he : { e with cursorVisible := false } = e := by
      have := h.hid hh
      cases e; simp only at this; subst this; rfl
    rw [he]
    refine ⟨h.fed, h.ground, t.out, ?_⟩
    cases t; simp only at hh; subst hh; rfl
  · rw [if_neg hh]
    refine ⟨?_, h.ground, t.out ++ (csi ++ [0x3f, 0x32, 0x35, 0x6c]), rfl⟩
    simp only [write]
    rw [feed_append, ← h.fed, feed_hide cfg h.ground]

theorem rel_hide (h : Rel cfg e0 oc t e w off) :
    ∃ e', Rel cfg e0 oc (hideTerminalCursor t) e' (w.step .hide) off ∧ e'.rows = e.rows ∧
      e'.top = e.top := by
  obtain ⟨e', he, hf, hg, out, ht⟩ := hide_spec h
  refine ⟨e', ?_, by rw [he], by rw [he]⟩
  rw [ht] at hf ⊢
  subst he
  exact { fed := hf, ground := hg, plain := h.plain, ocEq := h.ocEq, row := h.row, cur := h.cur,
          col := h.col, colLe := h.colLe, wcol := h.wcol, topLe := h.topLe, bot := h.bot,
          curWin := h.curWin, curLe := h.curLe, data := h.data, colour := h.colour,
          sent := h.sent, hid := fun _ => rfl, vis := fun _ => rfl,
          shown := fun hs => absurd hs (by simp [Want.step]), hidden := fun _ => rfl,
          mouse := h.mouse, modes := h.modes }

theorem feed_newLines (cfg : Cfg) (n : Nat) (e : Emu) (hg : e.parse = .ground)
    (hb : e.row < e.top + cfg.height) :
    feed cfg e (newLines n) =
      { e with col := if n = 0 then e.col else 0
               row := e.row + n
               top := max e.top (e.row + n - cfg.height + 1) } := by
  induction n generalizing e with
  | zero =>
    simp only [newLines, feed_nil, if_true, Int.natCast_zero, Int.add_zero]
    rw [show max e.top (e.row - ↑cfg.height + 1) = e.top by omega]
  | succ n ih =>
    simp only [newLines]
    rw [feed_append, feed_crlf cfg hg, ih _ (by exact hg)
      (by simp only [lineFeed]; split <;> omega)]
    simp only [lineFeed]
    rw [if_neg (by omega : ¬ n + 1 = 0)]
    have e1 : (if n = 0 then 0 else 0) = (0 : Nat) := by split <;> rfl
    have e2 : e.row + 1 + (n : Int) = e.row + ((n + 1 : Nat) : Int) := by omega
    have e3 : max (if e.row = e.top + ↑cfg.height - 1 then e.top + 1 else e.top)
        (e.row + 1 + (n : Int) - ↑cfg.height + 1) = max e.top (e.row + ((n + 1 : Nat) : Int) - ↑cfg.height + 1) := by
      split <;> omega
    rw [e1, e3, e2]

theorem move_eq (t : Term) (line : Int) (hp : t.plainMode = false) (hne : line ≠ t.remoteLine) :
    moveTerminalToLine t line =
      { hideTerminalCursor t with
        remoteLine := line, lineDataValid := true, lineData := [], remoteColumn := 0
        out := (hideTerminalCursor t).out ++
          if line < t.remoteLine then
            [0x0d] ++ csi ++ outUInt (toUInt32 (t.remoteLine - line)) ++ [0x41]
          else newLines (line - t.remoteLine).toNat } := by
  have h1 : (hideTerminalCursor t).remoteLine = t.remoteLine := by
    unfold hideTerminalCursor; repeat' split
    all_goals rfl
  have h2 : (hideTerminalCursor t).plainMode = false := by
    unfold hideTerminalCursor; repeat' split
    all_goals exact hp
  simp only [moveTerminalToLine]
  rw [if_neg hne, h1]
  by_cases hlt : line < t.remoteLine
  · simp only [hlt, if_true, write]
    rw [if_neg (by rw [h2]; simp)]
  · simp only [hlt, if_false, write]

/-- Moving to the row of a line. -/
theorem rel_move (hcfg : CfgOk cfg) (h : Rel cfg e0 oc t e w off) (line : Int)
    (hin : InWindow cfg w line) :
    ∃ e', Rel cfg e0 oc (moveTerminalToLine t line) e' (w.move line) off ∧ e'.rows = e.rows ∧
      e.top ≤ e'.top := by
  obtain ⟨hw, hh, hh2, hcw⟩ := hcfg
  by_cases hl : line = t.remoteLine
  · have ht : moveTerminalToLine t line = t := by
      unfold moveTerminalToLine; rw [if_pos hl]
    have hwc : line = w.cur := by rw [hl, h.cur]
    have hwm : w.move line = w := by
      have hm : max w.highest line = w.highest := by
        have := h.curLe; rw [hwc]; omega
      unfold Want.move
      rw [hm, hwc]
      simp only [if_true, decide_true, Bool.and_true, ne_eq, not_true_eq_false, decide_false,
        Bool.or_false]
    rw [ht, hwm]
    exact ⟨e, h, rfl, Int.le_refl _⟩
  · obtain ⟨e1, he1, hf1, hg1, out, ht1⟩ := hide_spec h
    have hne : line ≠ w.cur := by rw [h.cur]; exact hl
    have htop := h.topLe line hin
    have hbot := h.bot
    have hcl := h.curLe
    have hrow := h.row
    have hcur := h.cur
    have htop2 := h.topLe w.cur h.curWin
    have hcw2 := h.curWin
    unfold InWindow at hin hcw2
    -- the emulator after the movement
    let top' : Int := if line < t.remoteLine then e.top
      else max e.top (line + off - cfg.height + 1)
    have hfeed : feed cfg e1 (if line < t.remoteLine then
          [0x0d] ++ csi ++ outUInt (toUInt32 (t.remoteLine - line)) ++ [0x41]
        else newLines (line - t.remoteLine).toNat)
        = { e1 with col := 0, row := line + off, top := top' } := by
      have r1 : e1.row = e.row := by rw [he1]
      have t1 : e1.top = e.top := by rw [he1]
      by_cases hlt : line < t.remoteLine
      · simp only [hlt, if_true]
        rw [feed_up cfg hg1]
        have hn : ((toUInt32 (t.remoteLine - line) : Nat) : Int) = t.remoteLine - line := by
          unfold toUInt32; omega
        have hr : max e1.top (e1.row - ((max (toUInt32 (t.remoteLine - line)) 1 : Nat) : Int)) = line + off := by
          rw [r1, t1]; omega
        have htp : top' = e1.top := by simp only [top', hlt, if_true]; exact t1.symm
        rw [htp, ← hr]
      · simp only [hlt, if_false]
        rw [feed_newLines cfg _ _ hg1 (by rw [r1, t1]; omega), if_neg (by omega), r1, t1]
        have hr : e.row + ((line - t.remoteLine).toNat : Int) = line + off := by omega
        have htp : top' = max e.top (line + off - cfg.height + 1) := by
          simp only [top', hlt, if_false]
        rw [htp, hr]
    have htop' : e.top ≤ top' := by
      simp only [top']; split <;> omega
    have hbt : top' ≤ line + off ∧ max w.highest line + off < top' + cfg.height ∧
        (top' ≤ e.top ∨ top' ≤ max w.highest line + off - cfg.height + 1) := by
      simp only [top']; split <;> omega
    rw [move_eq t line h.plain hl]
    refine ⟨{ e1 with col := 0, row := line + off, top := top' }, ?_, by rw [he1], htop'⟩
    rw [ht1] at hf1 ⊢
    subst he1
    have hstale : (w.move line).stale = false := by
      simp only [Want.move]; simp [hne]
    have hshown : (w.move line).shown = false := by
      simp only [Want.move]; simp [hne]
    refine { fed := ?_, ground := hg1, plain := h.plain, ocEq := h.ocEq, row := rfl, cur := rfl,
             col := rfl, colLe := Nat.zero_le _, wcol := ?_, topLe := ?_, bot := hbt.2.1,
             curWin := ?_, curLe := ?_, data := ?_, colour := h.colour,
             sent := h.sent, hid := fun _ => rfl, vis := fun _ => rfl,
             shown := ?_, hidden := fun _ => rfl,
             mouse := h.mouse, modes := h.modes }
    · simp only at hf1 ⊢
      rw [feed_append, ← hf1, hfeed]
    · intro c hc
      simp only [Want.move] at hc
      rw [if_neg hne] at hc
      simp only [Option.some.injEq] at hc
      exact hc
    · intro l hl'
      unfold InWindow at hl'
      simp only [Want.move] at hl'
      have := h.topLe l ⟨hl'.1, by omega⟩
      simp only
      omega
    · unfold InWindow; simp only [Want.move]; omega
    · simp only [Want.move]; omega
    · intro _
      refine ⟨rfl, by simp, [], rfl, ?_⟩
      intro k x hk
      simp [wanted] at hk
    · intro hs; rw [hshown] at hs; exact absurd hs (by decide)

theorem wanted_spaces (gs : List Glyph) (h : ∀ g ∈ gs, g.code = 0x20 ∧ g.cells = 1) :
    wanted gs = gs.map fun g => (some 0x20, g.attr) := by
  induction gs with
  | nil => rfl
  | cons g gs ih =>
    rw [show g :: gs = [g] ++ gs from rfl, wanted_append,
      ih (fun x hx => h x (List.mem_cons_of_mem _ hx))]
    obtain ⟨h1, h2⟩ := h g (List.mem_cons_self ..)
    have h3 : shownCode 0x20 = 0x20 := rfl
    simp only [wanted, List.flatMap_cons, List.flatMap_nil, h1, h2, h3, Nat.sub_self,
      List.replicate_zero, List.append_nil, List.map_append, List.map_cons, List.map_nil]

/-- The end of `sendLine`, after the cursor may have been hidden. -/
theorem finish_spec (hcfg : CfgOk cfg) (h : Rel cfg e0 oc t e w off) (cells : List Cell)
    (hok : LineOk cfg cells) (hv : t.lineDataValid = true)
    (hpre : cells.take t.lineData.length = t.lineData) (hlt : t.lineData.length < cells.length)
    (s : Loop)
    (hloop : outputLoop false oc cells.length (cells.drop t.lineData.length) t.lineData.length
      ⟨[], 0, t.lineData.length, false, t.remoteColor⟩ = some s) :
    s.trimmedCellCount ≤ cells.length ∧
    ∃ e', Rel cfg e0 oc
      { t with
        remoteColor := s.remoteColor
        out := t.out ++ s.termLine.take s.trimmedLineLength ++
          (if s.alreadyErasedLine then [] else csi ++ [0x30, 0x4b])
        lineData := t.lineData ++
          (cells.drop t.lineData.length).take (s.trimmedCellCount - t.lineData.length)
        remoteColumn := s.trimmedCellCount } e'
      { w with col := none, sent := fun l => if l = w.cur then some cells else w.sent l } off ∧
      (∀ r, r ≠ w.cur + off → e'.rows r = e.rows r) ∧ e'.top = e.top := by
  obtain ⟨hw, hh, hh2, hcw⟩ := hcfg
  obtain ⟨hne, hlen, hch, gs, hgs, hshow⟩ := hok
  obtain ⟨d1, d2, gs0, d3, d4⟩ := h.data hv
  have hsplit : glyphsOf (t.lineData ++ cells.drop t.lineData.length) = some gs := by
    rw [← hgs]; congr 1
    have := List.take_append_drop t.lineData.length cells
    rw [hpre] at this; exact this
  obtain ⟨gsR, hgsR, hgs'⟩ := glyphsOf_split t.lineData (cells.drop t.lineData.length) gs gs0
    (by
      intro c hc
      rcases List.mem_append.mp hc with hc | hc
      · exact d2 c hc
      · exact hch c (List.mem_of_mem_drop hc)) hsplit d3
  have hn0 : (wanted gs0).length = t.lineData.length := wanted_length _ _ d2 d3
  have hcol0 : e.col = t.lineData.length := by
    have := h.col; omega
  have hinv : LoopInv cfg oc e e gs0 [] ⟨[], 0, t.lineData.length, false, t.remoteColor⟩ :=
    ⟨⟨[], rfl, rfl, rfl⟩, hn0.symm, h.ground, rfl, rfl, rfl, rfl, rfl, fun _ _ => rfl,
      by rw [hn0, hcol0], d4, by simp, h.colour, by simp⟩
  obtain ⟨s', e1, gsK, gsP, q1, q2, q3, q4, q5⟩ :=
    loop_spec cfg oc hcw cells.length (cells.drop t.lineData.length) t.lineData.length _ e e gs0 []
      gsR (by rw [List.length_drop]; omega) hinv (by rw [hn0]; rfl)
      (fun c hc => hch c (List.mem_of_mem_drop hc)) hgsR
      (fun g hg => hshow g (by rw [hgs']; exact List.mem_append_right _ hg))
      (by rw [List.length_drop]; omega) (by simp)
  rw [hloop] at q1
  simp only [Option.some.injEq] at q1
  subst q1
  rw [List.append_nil, ← hgs'] at q3
  have q5' := q5 (Or.inl (by intro hd; have := List.drop_eq_nil_iff.mp hd; omega))
  have htc : t.lineData.length ≤ s.trimmedCellCount :=
    loop_trimmed oc false _ _ _ _ _ hloop (Nat.le_refl _)
  have htc2 := q2.tc
  have hlenq : (wanted gsK).length + gsP.length = cells.length := by
    rw [q4, List.length_drop]; omega
  refine ⟨by omega, ?_⟩
  obtain ⟨K, k1, k2, k3⟩ := q2.bytes
  have hK : s.termLine.take s.trimmedLineLength = K := by
    rw [k1, k2, List.take_left]
  -- the emulator after the final erase
  let e2 : Emu := if s.alreadyErasedLine then e1 else
    { e1 with rows := fun r k => if r = e1.row ∧ min e1.col (cfg.width - 1) ≤ k
                then .erased e1.gfx.bg else e1.rows r k }
  have hfeed : feed cfg e1 (if s.alreadyErasedLine then [] else csi ++ [0x30, 0x4b]) = e2 := by
    cases hl : s.alreadyErasedLine with
    | true => simp only [e2, hl, if_true]; rfl
    | false =>
      simp only [e2, hl, Bool.false_eq_true, if_false]
      exact feed_eraseLine cfg q2.ground
  have g2 : e2.parse = .ground := by simp only [e2]; split <;> exact q2.ground
  have r2 : e2.row = e.row := by simp only [e2]; split <;> exact q2.row
  have t2 : e2.top = e.top := by simp only [e2]; split <;> exact q2.top
  have v2 : e2.cursorVisible = e.cursorVisible := by simp only [e2]; split <;> exact q2.vis
  have m2 : e2.modes = e.modes := by simp only [e2]; split <;> exact q2.modes
  have x2 : e2.gfx = e1.gfx := by simp only [e2]; split <;> rfl
  have c2 : e2.col = (wanted gsK).length := by simp only [e2]; split <;> exact q2.col
  have o2 : ∀ r, r ≠ e.row → e2.rows r = e.rows r := by
    intro r hr
    rw [← q2.others r hr]
    simp only [e2]; split
    · rfl
    · funext k; simp only; rw [if_neg (by intro hh; exact hr (by rw [hh.1, q2.row]))]
  have hmin : s.alreadyErasedLine = false → min e1.col (cfg.width - 1) = (wanted gsK).length := by
    intro hl
    rcases q5' with hp | hp
    · have : 0 < gsP.length := List.length_pos_iff.mpr hp
      rw [q2.col]; omega
    · rw [hl] at hp; exact absurd hp (by decide)
  have p2 : RowPre oc (e2.rows e.row) gsK := by
    intro k x hk
    have hk' := (List.getElem?_eq_some_iff.mp hk).1
    have := q2.pre k x hk
    simp only [e2]; split
    · exact this
    · next hl =>
      have := hmin (by simpa using hl)
      simp only; rw [if_neg (by omega)]; assumption
  have hrow : RowShows cfg oc (e2.rows e.row) cells := by
    refine ⟨gs, hgs, ?_, ?_⟩
    · intro k x hk
      rw [← q3, wanted_append] at hk
      by_cases h1 : k < (wanted gsK).length
      · rw [List.getElem?_append_left h1] at hk
        exact p2 k x hk
      · rw [List.getElem?_append_right (by omega), wanted_spaces gsP
          (fun g hg => ⟨(q2.spaces g hg).1, (q2.spaces g hg).2.1⟩), List.getElem?_map] at hk
        simp only [Option.map_eq_some_iff] at hk
        obtain ⟨g, hg, rfl⟩ := hk
        have hgm := List.mem_of_getElem? hg
        have hnil : gsP ≠ [] := List.ne_nil_of_mem hgm
        have hl : s.alreadyErasedLine = false := by
          cases hh : s.alreadyErasedLine with
          | false => rfl
          | true => exact absurd (q2.erased hh).1 hnil
        have hmm := hmin hl
        simp only [e2, hl, Bool.false_eq_true, if_false]
        rw [if_pos ⟨q2.row.symm, by omega⟩]
        refine ⟨rfl, fun ho => ?_⟩
        simp only
        intro hwb
        have hcs := (q2.spaces g hgm).2.2 ho
        have hgx : e1.gfx = gfxOf g.attr := by
          rcases q2.colour ho with hm | ⟨a, ha, hgx⟩
          · omega
          · rw [hgx]; exact gfxOf_mask _ _ (by omega)
        rw [hgx]
        exact (gfxOf_looks g.attr).2.2.2.2.2 hwb
    · intro k hk _
      cases hl : s.alreadyErasedLine with
      | true =>
        simp only [e2, hl, if_true]
        have := (q2.erased hl).1
        rw [this] at hlenq
        exact (q2.erased hl).2 k (by simp only [List.length_nil] at hlenq; omega)
      | false =>
        simp only [e2, hl, Bool.false_eq_true, if_false]
        rw [if_pos ⟨q2.row.symm, by have := hmin hl; omega⟩]
        rfl
  have hld : t.lineData ++ (cells.drop t.lineData.length).take (s.trimmedCellCount - t.lineData.length)
      = cells.take (wanted gsK).length := by
    have h1 : cells.take (t.lineData.length + (s.trimmedCellCount - t.lineData.length))
        = cells.take t.lineData.length ++
          (cells.drop t.lineData.length).take (s.trimmedCellCount - t.lineData.length) :=
      List.take_add
    rw [hpre] at h1
    rw [← h1]; congr 1; omega
  have hcur : w.cur + off = e.row := by rw [h.row, h.cur]
  refine ⟨e2, ?_, by rw [hcur]; exact o2, t2⟩
  rw [hld]
  refine { fed := ?_, ground := g2, plain := h.plain, ocEq := h.ocEq, row := by rw [r2]; exact h.row,
           cur := h.cur, col := by simp only; rw [c2]; omega, colLe := by rw [c2]; omega,
           wcol := by intro c hc; exact absurd hc (by simp),
           topLe := by rw [t2]; exact h.topLe,
           bot := by rw [t2]; exact h.bot, curWin := h.curWin, curLe := h.curLe, data := ?_,
           colour := ?_, sent := ?_, hid := by rw [v2]; exact h.hid, vis := by rw [v2]; exact h.vis,
           shown := by rw [v2]; exact h.shown, hidden := by rw [v2]; exact h.hidden,
           mouse := h.mouse, modes := by rw [m2]; exact h.modes }
  · simp only
    rw [hK, feed_append, feed_append, ← h.fed, ← k3, hfeed]
  · intro _
    simp only
    refine ⟨?_, fun c hc => hch c (List.mem_of_mem_take hc), gsK, ?_, ?_⟩
    · rw [List.length_take]; omega
    · exact glyphsOf_take cells gsK gsP hch (by rw [q3]; exact hgs)
    · rw [r2]; exact p2
  · intro ho
    rw [x2]; exact q2.colour ho
  · intro l cs hl
    simp only at hl
    by_cases hlc : l = w.cur
    · rw [if_pos hlc] at hl
      simp only [Option.some.injEq] at hl
      subst hl
      rw [hlc, hcur]; exact hrow
    · rw [if_neg hlc] at hl
      rw [o2 _ (by rw [← hcur]; omega)]
      exact h.sent l cs hl

theorem checkAppend_spec (h : Rel cfg e0 oc t e w off) (cells : List Cell) (hne : cells ≠ []) :
    ∃ valid, checkAppend t cells = some valid ∧
      (valid = true → t.lineDataValid = true ∧ cells.take t.lineData.length = t.lineData ∧
        t.lineData.length < cells.length) := by
  unfold checkAppend
  by_cases hv : t.lineDataValid = true
  · rw [if_pos hv]
    obtain ⟨d1, _⟩ := h.data hv
    rw [if_neg (by omega)]
    by_cases hc : t.remoteColumn > 0
    · rw [if_pos hc]
      refine ⟨_, rfl, ?_⟩
      rw [h.plain]
      simp only [Bool.false_eq_true, if_false, Bool.and_eq_true, decide_eq_true_eq]
      exact fun hh => ⟨hv, hh.2, hh.1⟩
    · rw [if_neg hc]
      refine ⟨_, rfl, fun _ => ?_⟩
      have hz : t.lineData.length = 0 := by omega
      have hz' : t.lineData = [] := List.length_eq_zero_iff.mp hz
      rw [hz']
      exact ⟨hv, rfl, List.length_pos_iff.mpr hne⟩
  · rw [if_neg hv]
    exact ⟨false, rfl, by simp⟩

/-- After the possible return to the beginning of the row. -/
theorem startRow_spec (h : Rel cfg e0 oc t e w off) (cells : List Cell) (hne : cells ≠ [])
    (valid : Bool)
    (hva : valid = true → t.lineDataValid = true ∧ cells.take t.lineData.length = t.lineData ∧
        t.lineData.length < cells.length) :
    ∃ e', Rel cfg e0 oc (startRow t valid) e' { w with col := none, shown := false } off ∧
      (startRow t valid).lineDataValid = true ∧
      cells.take (startRow t valid).lineData.length = (startRow t valid).lineData ∧
      (startRow t valid).lineData.length < cells.length ∧ e'.rows = e.rows ∧ e'.top = e.top := by
  unfold startRow
  cases valid with
  | true =>
    obtain ⟨v1, v2, v3⟩ := hva rfl
    rw [if_pos rfl]
    refine ⟨e, ?_, rfl, v2, v3, rfl, rfl⟩
    have ht : { t with lineDataValid := true } = t := by cases t; simp only at v1; subst v1; rfl
    rw [ht]
    exact { fed := h.fed, ground := h.ground, plain := h.plain, ocEq := h.ocEq, row := h.row,
            cur := h.cur, col := h.col, colLe := h.colLe,
            wcol := by intro c hc; exact absurd hc (by simp), topLe := h.topLe, bot := h.bot,
            curWin := h.curWin, curLe := h.curLe, data := h.data, colour := h.colour,
            sent := h.sent, hid := h.hid, vis := h.vis,
            shown := by intro hc; exact absurd hc (by simp), hidden := h.hidden,
            mouse := h.mouse, modes := h.modes }
  | false =>
    obtain ⟨e1, he1, hf1, hg1, out, ht1⟩ := hide_spec h
    have hp := h.plain
    simp only [Bool.false_eq_true, if_false]
    rw [ht1] at hf1 ⊢
    simp only [write, hp, Bool.false_eq_true, if_false] at hf1 ⊢
    refine ⟨{ e1 with col := 0 }, ?_, trivial, rfl, List.length_pos_iff.mpr hne, by rw [he1],
      by rw [he1]⟩
    subst he1
    refine { fed := ?_, ground := hg1, plain := rfl, ocEq := h.ocEq, row := h.row, cur := h.cur,
             col := rfl, colLe := Nat.zero_le _,
             wcol := by intro c hc; exact absurd hc (by simp), topLe := h.topLe, bot := h.bot,
             curWin := h.curWin, curLe := h.curLe, data := ?_, colour := h.colour,
             sent := h.sent, hid := fun _ => rfl, vis := fun _ => rfl,
             shown := by intro hc; exact absurd hc (by simp), hidden := fun _ => rfl,
             mouse := h.mouse, modes := h.modes }
    · simp only
      rw [feed_append, ← hf1, feed_cr cfg hg1]
    · intro _
      refine ⟨rfl, by simp, [], rfl, ?_⟩
      intro k x hk
      simp [wanted] at hk

/-- Sending a line. -/
theorem rel_send (hcfg : CfgOk cfg) (h : Rel cfg e0 oc t e w off) (line : Int) (cells : List Cell)
    (cursorColumn : Int) (hin : InWindow cfg w line) (hok : LineOk cfg cells) :
    ∃ t' e', sendLine t line cells cursorColumn = some t' ∧
      Rel cfg e0 oc t' e' (w.step (.send line cells cursorColumn)) off ∧
      (∀ r, r ≠ line + off → e'.rows r = e.rows r) ∧ e.top ≤ e'.top := by
  obtain ⟨e1, h1, hr1, ht1⟩ := rel_move hcfg h line hin
  obtain ⟨valid, c1, c2⟩ := checkAppend_spec h1 cells hok.1
  obtain ⟨e2, h2, s1, s2, s3, s4, s5⟩ := startRow_spec h1 cells hok.1 valid c2
  have hlen : 1 ≤ cells.length := List.length_pos_iff.mpr hok.1
  unfold sendLine
  rw [if_neg (by omega)]
  simp only [c1]
  generalize hT : startRow (moveTerminalToLine t line) valid = T at *
  rw [h2.plain, h2.ocEq]
  -- the loop does not stop
  have hloop : ∃ s, outputLoop false oc cells.length (cells.drop T.lineData.length) T.lineData.length
      ⟨[], 0, T.lineData.length, false, T.remoteColor⟩ = some s := by
    obtain ⟨hne, hlen, hch, gs, hgs, hshow⟩ := hok
    obtain ⟨d1, d2, gs0, d3, d4⟩ := h2.data s1
    have hsplit : glyphsOf (T.lineData ++ cells.drop T.lineData.length) = some gs := by
      rw [← hgs]; congr 1
      have := List.take_append_drop T.lineData.length cells
      rw [s2] at this; exact this
    obtain ⟨gsR, hgsR, hgs'⟩ := glyphsOf_split T.lineData (cells.drop T.lineData.length) gs gs0
      (by
        intro c hc
        rcases List.mem_append.mp hc with hc | hc
        · exact d2 c hc
        · exact hch c (List.mem_of_mem_drop hc)) hsplit d3
    have hn0 : (wanted gs0).length = T.lineData.length := wanted_length _ _ d2 d3
    have hcol0 : e2.col = T.lineData.length := by
      have := h2.col; omega
    have hinv : LoopInv cfg oc e2 e2 gs0 [] ⟨[], 0, T.lineData.length, false, T.remoteColor⟩ :=
      ⟨⟨[], rfl, rfl, rfl⟩, hn0.symm, h2.ground, rfl, rfl, rfl, rfl, rfl, fun _ _ => rfl,
        by rw [hn0, hcol0], d4, by simp, h2.colour, by simp⟩
    obtain ⟨s', _, _, _, q1, _⟩ :=
      loop_spec cfg oc hcfg.2.2.2 cells.length (cells.drop T.lineData.length) T.lineData.length _
        e2 e2 gs0 [] gsR (by rw [List.length_drop]; omega) hinv (by rw [hn0]; rfl)
        (fun c hc => hch c (List.mem_of_mem_drop hc)) hgsR
        (fun g hg => hshow g (by rw [hgs']; exact List.mem_append_right _ hg))
        (by rw [List.length_drop]; omega) (by simp)
    exact ⟨s', q1⟩
  obtain ⟨s, hs⟩ := hloop
  simp only [hs]
  -- the terminal after the cursor may have been hidden
  have hmid : ∃ T3 e3, (if cursorColumn ≠ -1 ∧ (s.trimmedCellCount : Int) > cursorColumn then
        hideTerminalCursor { T with remoteColor := s.remoteColor }
        else { T with remoteColor := s.remoteColor }) = { T3 with remoteColor := s.remoteColor } ∧
      Rel cfg e0 oc T3 e3 { w.move line with col := none, shown := false } off ∧
      T3.lineDataValid = true ∧ T3.lineData = T.lineData ∧ T3.remoteColor = T.remoteColor ∧
      e3.rows = e2.rows ∧ e3.top = e2.top := by
    by_cases hc : cursorColumn ≠ -1 ∧ (s.trimmedCellCount : Int) > cursorColumn
    · simp only [if_pos hc]
      obtain ⟨e3, he3, hf3, hg3, out, ht3⟩ := hide_spec h2
      refine ⟨hideTerminalCursor T, e3, ?_, ?_, ?_, ?_, ?_, by rw [he3], by rw [he3]⟩
      · unfold hideTerminalCursor
        simp only [write]
        repeat' split
        all_goals rfl
      · rw [ht3] at hf3 ⊢
        subst he3
        exact { fed := hf3, ground := hg3, plain := h2.plain, ocEq := h2.ocEq, row := h2.row,
                cur := h2.cur, col := h2.col, colLe := h2.colLe, wcol := h2.wcol, topLe := h2.topLe,
                bot := h2.bot, curWin := h2.curWin, curLe := h2.curLe, data := h2.data,
                colour := h2.colour, sent := h2.sent, hid := fun _ => rfl, vis := fun _ => rfl,
                shown := by intro hc; exact absurd hc (by simp), hidden := fun _ => rfl,
                mouse := h2.mouse, modes := h2.modes }
      · rw [ht3]; exact s1
      · rw [ht3]
      · rw [ht3]
    · simp only [if_neg hc]
      exact ⟨T, e2, rfl, h2, s1, rfl, rfl, rfl, rfl⟩
  obtain ⟨T3, e3, m1, m2, m3, m4, m5, m6, m7⟩ := hmid
  obtain ⟨f1, e4, f2, f3, f4⟩ := finish_spec hcfg m2 cells hok m3 (by rw [m4]; exact s2)
    (by rw [m4]; exact s3) s (by rw [m4, m5]; exact hs)
  have hp3 := m2.plain
  unfold finishLine
  simp only [m1]
  rw [if_neg (by omega)]
  refine ⟨_, e4, rfl, ?_, ?_, ?_⟩
  · have hpl : ∀ o, (write { T3 with remoteColor := s.remoteColor } o).plainMode = false := fun _ => hp3
    cases hl : s.alreadyErasedLine with
    | true =>
      rw [hl] at f2
      simp only [if_true, List.append_nil] at f2
      simp only [not_true_eq_false, false_and, if_false]
      exact f2
    | false =>
      rw [hl] at f2
      simp only [Bool.false_eq_true, if_false] at f2
      simp only [hpl, Bool.false_eq_true, not_false_eq_true, and_self, if_true]
      exact f2
  · intro r hr
    rw [f3 r hr, m6, s4, hr1]
  · rw [f4, m7, s5]; exact ht1

/-- Placing the cursor. -/
theorem rel_show (hcfg : CfgOk cfg) (h : Rel cfg e0 oc t e w off) (column line : Int)
    (hin : InWindow cfg w line) (h0 : 0 ≤ column) (hw : column < cfg.width) :
    ∃ e', Rel cfg e0 oc (showTerminalCursor t column line) e' (w.step (.show column line)) off ∧
      e'.rows = e.rows ∧ e.top ≤ e'.top := by
  obtain ⟨e1, h1, hr1, ht1⟩ := rel_move hcfg h line hin
  unfold showTerminalCursor
  simp only [Want.step]
  generalize hT : moveTerminalToLine t line = T at *
  generalize hW : w.move line = W at *
  rw [if_pos (by rw [h1.plain]; simp)]
  -- the column
  have hcolumn : ∃ T2 e2, (if T.remoteColumn ≠ column then
        { write T (csi ++ formatInt (column + 1) ++ [0x47]) with
          lineDataValid := decide (column = 0), lineData := [], remoteColumn := column }
        else T) = T2 ∧ Rel cfg e0 oc T2 e2 { W with col := some column } off ∧
      e2.rows = e1.rows ∧ e2.top = e1.top := by
    by_cases hc : T.remoteColumn = column
    · rw [if_neg (by simpa using hc)]
      refine ⟨T, e1, rfl, ?_, rfl, rfl⟩
      exact { fed := h1.fed, ground := h1.ground, plain := h1.plain, ocEq := h1.ocEq, row := h1.row,
              cur := h1.cur, col := h1.col, colLe := h1.colLe,
              wcol := by intro c hcc; simp only [Option.some.injEq] at hcc; rw [← hcc]; exact hc,
              topLe := h1.topLe, bot := h1.bot, curWin := h1.curWin, curLe := h1.curLe,
              data := h1.data, colour := h1.colour, sent := h1.sent, hid := h1.hid, vis := h1.vis,
              shown := h1.shown, hidden := h1.hidden, mouse := h1.mouse, modes := h1.modes }
    · rw [if_pos hc]
      refine ⟨_, { e1 with col := column.toNat }, rfl, ?_, rfl, rfl⟩
      simp only [write]
      refine { fed := ?_, ground := h1.ground, plain := h1.plain, ocEq := h1.ocEq, row := h1.row,
               cur := h1.cur, col := ?_, colLe := ?_,
               wcol := by intro c hcc; simp only [Option.some.injEq] at hcc; exact hcc,
               topLe := h1.topLe, bot := h1.bot, curWin := h1.curWin, curLe := h1.curLe,
               data := ?_, colour := h1.colour, sent := h1.sent, hid := h1.hid, vis := h1.vis,
               shown := h1.shown, hidden := h1.hidden, mouse := h1.mouse, modes := h1.modes }
      · simp only
        rw [feed_append, ← h1.fed, feed_column cfg h1.ground column h0 hw]
      · simp only; omega
      · simp only; omega
      · intro hv
        simp only [decide_eq_true_eq] at hv
        refine ⟨by simp [hv], by simp, [], rfl, ?_⟩
        intro k x hk
        simp [wanted] at hk
  obtain ⟨T2, e2, m1, h2, m2, m3⟩ := hcolumn
  rw [m1]
  by_cases hh : T2.cursorHidden = true
  · rw [if_pos hh]
    refine ⟨{ e2 with cursorVisible := true }, ?_, by rw [← hr1, ← m2], by simp only; rw [m3]; exact ht1⟩
    simp only [write]
    exact { fed := by simp only; rw [feed_append, ← h2.fed, feed_show cfg h2.ground]
            ground := h2.ground, plain := h2.plain, ocEq := h2.ocEq, row := h2.row,
            cur := h2.cur, col := h2.col, colLe := h2.colLe, wcol := h2.wcol, topLe := h2.topLe,
            bot := h2.bot, curWin := h2.curWin, curLe := h2.curLe, data := h2.data,
            colour := h2.colour, sent := h2.sent, hid := by intro hc; exact absurd hc (by simp),
            vis := fun _ => rfl, shown := fun _ => rfl,
            hidden := by intro hc; exact absurd hc (by simp),
            mouse := h2.mouse, modes := h2.modes }
  · rw [if_neg hh]
    refine ⟨e2, ?_, by rw [m2, hr1], by rw [m3]; exact ht1⟩
    have hhf : T2.cursorHidden = false := by simpa using hh
    exact { fed := h2.fed, ground := h2.ground, plain := h2.plain, ocEq := h2.ocEq, row := h2.row,
            cur := h2.cur, col := h2.col, colLe := h2.colLe, wcol := h2.wcol, topLe := h2.topLe,
            bot := h2.bot, curWin := h2.curWin, curLe := h2.curLe, data := h2.data,
            colour := h2.colour, sent := h2.sent, hid := h2.hid, vis := h2.vis
            shown := by
              intro hs
              simp only [Bool.not_eq_true'] at hs
              rw [h2.vis hs, hhf]; rfl
            hidden := by intro hc; exact absurd hc (by simp),
            mouse := h2.mouse, modes := h2.modes }

/-- Clearing the screen. -/
theorem rel_clear (hcfg : CfgOk cfg) (h : Rel cfg e0 oc t e w off) (line : Int) :
    ∃ e', Rel cfg e0 oc (reset t true line) e' (w.step (.clear line)) (e.top - line) ∧
      (∀ r, ¬ (e.top ≤ r ∧ r < e.top + cfg.height) → e'.rows r = e.rows r) ∧
      (∀ r k, e.top ≤ r ∧ r < e.top + cfg.height → e'.rows r k = .erased none) ∧
      e'.top = e.top := by
  obtain ⟨hw, hh, hh2, hcw⟩ := hcfg
  unfold reset
  rw [if_pos (by rw [h.plain]; simp)]
  refine ⟨{ e with rows := fun r k => if e.top ≤ r ∧ r < e.top + cfg.height then .erased none
                                else e.rows r k
                   gfx := Gfx.default
                   row := e.top
                   col := 0 }, ?_, ?_, ?_, rfl⟩
  · simp only [write, Want.step]
    refine { fed := ?_, ground := h.ground, plain := h.plain, ocEq := h.ocEq, row := ?_, cur := rfl,
             col := rfl, colLe := Nat.zero_le _,
             wcol := by intro c hc; simp only [Option.some.injEq] at hc; exact hc,
             topLe := ?_, bot := ?_,
             curWin := ?_, curLe := Int.le_refl _, data := ?_, colour := fun _ => Or.inl rfl,
             sent := ?_, hid := ?_, vis := ?_, shown := h.shown, hidden := h.hidden,
             mouse := h.mouse, modes := h.modes }
    · simp only
      rw [feed_append, ← h.fed, feed_clear cfg h.ground hh hw]
    · simp only; omega
    · intro l hl
      unfold InWindow at hl
      simp only at hl ⊢
      omega
    · simp only; omega
    · unfold InWindow; simp only; omega
    · intro _
      refine ⟨rfl, by simp, [], rfl, ?_⟩
      intro k x hk
      simp [wanted] at hk
    · intro l cs hl; exact absurd hl (by simp)
    · intro hc; exact absurd hc (by simp)
    · intro hs
      simp only [Bool.or_eq_false_iff, Bool.not_eq_false'] at hs
      simp only
      rw [h.shown hs.2]; rfl
  · intro r hr; funext k; simp only; rw [if_neg hr]
  · intro r k hr; simp only; rw [if_pos hr]

theorem outUInt_modes : outUInt 1000 = [0x31, 0x30, 0x30, 0x30] ∧ outUInt 1002 = [0x31, 0x30, 0x30, 0x32] ∧
    outUInt 1003 = [0x31, 0x30, 0x30, 0x33] ∧ outUInt 1005 = [0x31, 0x30, 0x30, 0x35] ∧
    outUInt 1006 = [0x31, 0x30, 0x30, 0x36] ∧ outUInt 1015 = [0x31, 0x30, 0x31, 0x35] := by
  decide +kernel

/-- Switching a mode other than the cursor's. -/
theorem feed_mode (cfg : Cfg) {e : Emu} (h : e.parse = .ground) (n : Nat) (hn : n ≠ 25) (on : Bool) :
    feed cfg e (csi ++ 0x3f :: (outUInt n ++ [if on then 0x68 else 0x6c])) =
      { e with modes := fun k => if k = n then on else e.modes k } := by
  cases on with
  | true =>
    simp only [if_true]
    rw [feed_priv cfg h n 0x68 (by decide)]
    simp only [dispatch, if_true, List.foldl_cons, List.foldl_nil, setMode]
    rw [if_neg hn]
  | false =>
    simp only [Bool.false_eq_true, if_false]
    rw [feed_priv cfg h n 0x6c (by decide)]
    simp only [dispatch, if_true, List.foldl_cons, List.foldl_nil, setMode]
    rw [if_neg (by decide), if_neg hn]

def modeBytes (ms : List (Nat × Bool)) : List Nat :=
  ms.flatMap fun m => csi ++ 0x3f :: (outUInt m.1 ++ [if m.2 then 0x68 else 0x6c])

theorem feed_modes (cfg : Cfg) (ms : List (Nat × Bool)) (e : Emu) (h : e.parse = .ground)
    (hn : ∀ m ∈ ms, m.1 ≠ 25) :
    feed cfg e (modeBytes ms) =
      { e with modes := ms.foldl (fun f m => fun k => if k = m.1 then m.2 else f k) e.modes } := by
  induction ms generalizing e with
  | nil => rfl
  | cons m ms ih =>
    unfold modeBytes at ih ⊢
    rw [List.flatMap_cons, feed_append, feed_mode cfg h m.1 (hn m (List.mem_cons_self ..)),
      ih _ (by exact h) (fun x hx => hn x (List.mem_cons_of_mem _ hx))]
    rfl

def mouseOn : List (Nat × Bool) :=
  [(1005, false), (1000, true), (1002, true), (1003, true), (1015, true), (1006, true)]

def mouseOff : List (Nat × Bool) :=
  [(1006, false), (1015, false), (1003, false), (1002, false), (1000, false)]

theorem enableMouseMode_eq (t : Term) (on : Bool) :
    enableMouseMode t on = if t.mouseModeEnabled = on ∨ t.plainMode then t
      else write { t with mouseModeEnabled := on } (modeBytes (if on then mouseOn else mouseOff)) := by
  have h1 : modeBytes mouseOn =
        csi ++ [0x3f, 0x31, 0x30, 0x30, 0x35, 0x6c] ++ csi ++ [0x3f, 0x31, 0x30, 0x30, 0x30, 0x68] ++
        csi ++ [0x3f, 0x31, 0x30, 0x30, 0x32, 0x68] ++ csi ++ [0x3f, 0x31, 0x30, 0x30, 0x33, 0x68] ++
        csi ++ [0x3f, 0x31, 0x30, 0x31, 0x35, 0x68] ++ csi ++ [0x3f, 0x31, 0x30, 0x30, 0x36, 0x68] := by
    decide +kernel
  have h2 : modeBytes mouseOff =
        csi ++ [0x3f, 0x31, 0x30, 0x30, 0x36, 0x6c] ++ csi ++ [0x3f, 0x31, 0x30, 0x31, 0x35, 0x6c] ++
        csi ++ [0x3f, 0x31, 0x30, 0x30, 0x33, 0x6c] ++ csi ++ [0x3f, 0x31, 0x30, 0x30, 0x32, 0x6c] ++
        csi ++ [0x3f, 0x31, 0x30, 0x30, 0x30, 0x6c] := by
    decide +kernel
  unfold enableMouseMode
  cases on with
  | true => simp only [if_true, h1]
  | false => simp only [Bool.false_eq_true, if_false, h2]

/-- Requesting mouse reports. -/
theorem rel_mouse (h : Rel cfg e0 oc t e w off) (on : Bool) :
    ∃ e', Rel cfg e0 oc (enableMouseMode t on) e' (w.step (.mouse on)) off ∧
      e'.rows = e.rows ∧ e'.top = e.top := by
  rw [enableMouseMode_eq]
  simp only [Want.step]
  by_cases hc : t.mouseModeEnabled = on
  · rw [if_pos (Or.inl hc)]
    have hw : { w with mouse := on } = w := by
      have := h.mouse
      rw [hc] at this; subst this; rfl
    rw [hw]
    exact ⟨e, h, rfl, rfl⟩
  · rw [if_neg (by rw [h.plain]; simpa using hc)]
    refine ⟨{ e with modes := List.foldl (fun f m => fun k => if k = m.1 then m.2 else f k) e.modes
                                (if on then mouseOn else mouseOff) }, ?_, rfl, rfl⟩
    simp only [write]
    refine { fed := ?_
             ground := h.ground, plain := h.plain, ocEq := h.ocEq, row := h.row,
             cur := h.cur, col := h.col, colLe := h.colLe, wcol := h.wcol, topLe := h.topLe,
             bot := h.bot, curWin := h.curWin, curLe := h.curLe, data := h.data,
             colour := h.colour, sent := h.sent, hid := h.hid,
             vis := h.vis, shown := h.shown, hidden := h.hidden,
             mouse := rfl, modes := ?_ }
    · simp only
      rw [feed_append, ← h.fed, feed_modes cfg _ _ h.ground (by cases on <;> decide)]
    · intro n hn
      simp only [mouseModes, List.mem_cons, List.not_mem_nil, or_false] at hn
      cases on <;> rcases hn with rfl | rfl | rfl | rfl | rfl <;> rfl

/-- The writer at the start: the agent resets it, without clearing, before anything else. -/
theorem rel_start (hcfg : CfgOk cfg) (e0 : Emu) (oc : Bool) (line : Int) (hf : FreshEmu cfg e0) :
    Rel cfg e0 oc (reset (init false oc) false line) e0 (Want.start line) (e0.row - line) := by
  obtain ⟨hw, hh, hh2, hcw⟩ := hcfg
  obtain ⟨f1, f2, f3, f4, f5, f6⟩ := hf
  unfold reset
  simp only [Bool.false_eq_true, false_and, if_false, init, Want.start]
  refine { fed := rfl, ground := f1, plain := rfl, ocEq := rfl, row := ?_,
           cur := rfl, col := by rw [f2]; rfl, colLe := by omega,
           wcol := by intro c hc; simp only [Option.some.injEq] at hc; exact hc,
           topLe := ?_, bot := ?_, curWin := ?_, curLe := Int.le_refl _, data := ?_,
           colour := fun _ => Or.inl rfl, sent := by intro l cs hl; exact absurd hl (by simp),
           hid := by intro hc; exact absurd hc (by simp),
           vis := fun _ => f5, shown := fun _ => f5,
           hidden := by intro hc; exact absurd hc (by simp),
           mouse := rfl, modes := fun n _ => f6 n }
  · simp only; omega
  · intro l hl
    unfold InWindow at hl
    simp only at hl
    omega
  · simp only; omega
  · unfold InWindow; simp only; omega
  · intro _
    refine ⟨rfl, by simp, [], rfl, ?_⟩
    intro k x hk
    simp [wanted] at hk

end

/-! ## Histories -/

/-- Carrying out a request; `none` is an aborted assertion. -/
def perform (t : Term) : Op → Option Term
  | .clear line => some (reset t true line)
  | .send line cells cursorColumn => sendLine t line cells cursorColumn
  | .show column line => some (showTerminalCursor t column line)
  | .hide => some (hideTerminalCursor t)
  | .mouse on => some (enableMouseMode t on)

def performAll : Term → List Op → Option Term
  | t, [] => some t
  | t, op :: ops => match perform t op with
    | none => none
    | some t' => performAll t' ops

theorem rel_step {cfg : Cfg} {e0 : Emu} {oc : Bool} {t : Term} {e : Emu} {w : Want} {off : Int}
    (hcfg : CfgOk cfg) (h : Rel cfg e0 oc t e w off) (op : Op) (hok : OpOk cfg w op) :
    ∃ t' e' off', perform t op = some t' ∧ Rel cfg e0 oc t' e' (w.step op) off' := by
  cases op with
  | clear line => obtain ⟨e', h', _⟩ := rel_clear hcfg h line; exact ⟨_, e', _, rfl, h'⟩
  | send line cells cc =>
    obtain ⟨t', e', p, h', _⟩ := rel_send hcfg h line cells cc hok.1 hok.2
    exact ⟨t', e', off, p, h'⟩
  | «show» column line =>
    obtain ⟨e', h', _⟩ := rel_show hcfg h column line hok.1 hok.2.1 hok.2.2
    exact ⟨_, e', off, rfl, h'⟩
  | hide => obtain ⟨e', h', _⟩ := rel_hide h; exact ⟨_, e', off, rfl, h'⟩
  | mouse on => obtain ⟨e', h', _⟩ := rel_mouse h on; exact ⟨_, e', off, rfl, h'⟩

theorem rel_run {cfg : Cfg} {e0 : Emu} {oc : Bool} (hcfg : CfgOk cfg) (ops : List Op) (t : Term)
    (e : Emu) (w : Want) (off : Int) (h : Rel cfg e0 oc t e w off) (hok : OpsOk cfg w ops) :
    ∃ t' e' off', performAll t ops = some t' ∧ Rel cfg e0 oc t' e' (w.run ops) off' := by
  induction ops generalizing t e w off with
  | nil => exact ⟨t, e, off, rfl, h⟩
  | cons op ops ih =>
    obtain ⟨t1, e1, off1, p1, h1⟩ := rel_step hcfg h op hok.1
    obtain ⟨t2, e2, off2, p2, h2⟩ := ih t1 e1 _ off1 h1 hok.2
    exact ⟨t2, e2, off2, by simp only [performAll, p1]; exact p2, h2⟩

end Winpty.Terminal
