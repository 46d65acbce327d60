import Verif.Lemmas.TerminalOps

/-!
# What the terminal shows (C17, C18, C21, C22, C23, C53)

`Spec/Vt.lean` is the terminal, `Spec/Screen.lean` says what a console line should look like on it,
`Spec/Terminal.lean` what a history of requests asks for.  `performAll` carries the requests out
with the code's `Terminal` object; its `out` is everything written to the pipe.  The object starts
as the agent starts it: reset, without clearing, to the number of the console window's top line.
-/
namespace Winpty.Props

open Winpty.Terminal Winpty.Spec Winpty.Spec.Vt Winpty.Spec.Screen Winpty.Spec.Term
open Winpty.ConsoleLine (Cell)

/-- The agent's terminal object before the first request. -/
def startTerm (colour : Bool) (line : Int) : Term := reset (init false colour) false line

/-- C17.  After any history of requests (lines of characters the terminal can show, within the
window), nothing was aborted, and the terminal shows every line sent since the screen was last
cleared in the row of its line number — also those that have scrolled off the top; the ones in the
window are on the screen.  `off` is the same for all lines: the row of the cursor's line is the
cursor's row. -/
theorem C17_sent_lines_shown (cfg : Cfg) (hcfg : CfgOk cfg) (e0 : Emu) (he : FreshEmu cfg e0)
    (colour : Bool) (line : Int) (ops : List Op) (hok : OpsOk cfg (Want.start line) ops) :
    ∃ t off, performAll (startTerm colour line) ops = some t ∧
      (feed cfg e0 t.out).row = ((Want.start line).run ops).cur + off ∧
      (∀ l cells, ((Want.start line).run ops).sent l = some cells →
        RowShows cfg colour ((feed cfg e0 t.out).rows (l + off)) cells) ∧
      ∀ l, InWindow cfg ((Want.start line).run ops) l → l ≤ ((Want.start line).run ops).highest →
        (feed cfg e0 t.out).top ≤ l + off ∧ l + off < (feed cfg e0 t.out).top + cfg.height := by
  obtain ⟨t, e, off, p, h⟩ := rel_run hcfg ops _ e0 _ _ (rel_start hcfg e0 colour line he) hok
  have hf := h.fed
  subst hf
  refine ⟨t, off, p, ?_, h.sent, ?_⟩
  · rw [h.row, h.cur]
  · intro l hl hh
    have := h.topLe l hl
    have := h.bot
    omega

/-- C17, one request at a time: sending a line changes no row but its own; placing or hiding the
cursor and switching the mouse change no row at all; clearing changes only rows on the screen, so
the scrollback stays. -/
theorem C17_nothing_else_changes (cfg : Cfg) (hcfg : CfgOk cfg) (e0 : Emu) (he : FreshEmu cfg e0)
    (colour : Bool) (line : Int) (ops : List Op) (op : Op)
    (hok : OpsOk cfg (Want.start line) ops) (hop : OpOk cfg ((Want.start line).run ops) op) :
    ∃ t t' off, performAll (startTerm colour line) ops = some t ∧ perform t op = some t' ∧
      (feed cfg e0 t.out).row = ((Want.start line).run ops).cur + off ∧
      (feed cfg e0 t.out).top ≤ (feed cfg e0 t'.out).top ∧
      match op with
      | .send l _ _ => ∀ r, r ≠ l + off → (feed cfg e0 t'.out).rows r = (feed cfg e0 t.out).rows r
      | .clear _ =>
        (∀ r, r < (feed cfg e0 t.out).top → (feed cfg e0 t'.out).rows r = (feed cfg e0 t.out).rows r) ∧
        ∀ r k, (feed cfg e0 t.out).top ≤ r → r < (feed cfg e0 t.out).top + cfg.height →
          (feed cfg e0 t'.out).rows r k = .erased none
      | _ => (feed cfg e0 t'.out).rows = (feed cfg e0 t.out).rows := by
  obtain ⟨t, e, off, p, h⟩ := rel_run hcfg ops _ e0 _ _ (rel_start hcfg e0 colour line he) hok
  have hf := h.fed
  subst hf
  have hrow : (feed cfg e0 t.out).row = ((Want.start line).run ops).cur + off := by
    rw [h.row, h.cur]
  cases op with
  | clear l =>
    obtain ⟨e', h', h1, h2, h3⟩ := rel_clear hcfg h l
    have hf' := h'.fed
    subst hf'
    exact ⟨t, _, off, p, rfl, hrow, Int.le_of_eq h3.symm, fun r hr => h1 r (by omega),
      fun r k a b => h2 r k ⟨a, b⟩⟩
  | send l cells cc =>
    obtain ⟨t', e', p', h', h1, h2⟩ := rel_send hcfg h l cells cc hop.1 hop.2
    have hf' := h'.fed
    subst hf'
    exact ⟨t, t', off, p, p', hrow, h2, h1⟩
  | «show» c l =>
    obtain ⟨e', h', h1, h2⟩ := rel_show hcfg h c l hop.1 hop.2.1 hop.2.2
    have hf' := h'.fed
    subst hf'
    exact ⟨t, _, off, p, rfl, hrow, h2, h1⟩
  | hide =>
    obtain ⟨e', h', h1, h2⟩ := rel_hide h
    have hf' := h'.fed
    subst hf'
    exact ⟨t, _, off, p, rfl, hrow, Int.le_of_eq h2.symm, h1⟩
  | mouse on =>
    obtain ⟨e', h', h1, h2⟩ := rel_mouse h on
    have hf' := h'.fed
    subst hf'
    exact ⟨t, _, off, p, rfl, hrow, Int.le_of_eq h2.symm, h1⟩

/-- C18.  After any history of requests the terminal's cursor is on the screen, in the row that
shows the line last sent or in which the cursor was last placed, and in the column in which it was
placed (the first column after clearing).  Rows are identified as in C17: by what they show. -/
theorem C18_cursor_position (cfg : Cfg) (hcfg : CfgOk cfg) (e0 : Emu) (he : FreshEmu cfg e0)
    (colour : Bool) (line : Int) (ops : List Op) (hok : OpsOk cfg (Want.start line) ops) :
    ∃ t off, performAll (startTerm colour line) ops = some t ∧
      (∀ l cells, ((Want.start line).run ops).sent l = some cells →
        RowShows cfg colour ((feed cfg e0 t.out).rows (l + off)) cells) ∧
      (feed cfg e0 t.out).row = ((Want.start line).run ops).cur + off ∧
      (feed cfg e0 t.out).top ≤ (feed cfg e0 t.out).row ∧
      (feed cfg e0 t.out).row < (feed cfg e0 t.out).top + cfg.height ∧
      (∀ c, ((Want.start line).run ops).col = some c → ((feed cfg e0 t.out).col : Int) = c) := by
  obtain ⟨t, e, off, p, h⟩ := rel_run hcfg ops _ e0 _ _ (rel_start hcfg e0 colour line he) hok
  have hf := h.fed
  subst hf
  have hrow : (feed cfg e0 t.out).row = ((Want.start line).run ops).cur + off := by
    rw [h.row, h.cur]
  have h1 := h.topLe _ h.curWin
  have h2 := h.bot
  have h3 := h.curLe
  refine ⟨t, off, p, h.sent, hrow, by omega, by omega, ?_⟩
  intro c hc
  rw [h.col]; exact h.wcol c hc

/-- C21.  Whatever the terminal was doing with colours before, after the colour sequence for an
attribute word it renders text as the attribute word says, and nothing else has changed. -/
theorem C21_colours (cfg : Cfg) (e : Emu) (h : e.parse = .ground) (attr : Nat) :
    ∃ g, feed cfg e (outputSetColor (attr &&& colorAttributeMask)) = { e with gfx := g } ∧
      Renders g attr :=
  ⟨gfxOf attr, feed_outputSetColor cfg h attr, gfxOf_renders attr⟩

/-- C21 for whole histories: with colours on, every character of a sent line is shown in the
rendition its cell asks for; blanks at the end of the line, which are erased rather than written,
have the background asked for (unless that is white) and show no text.  Missing: the white background of such blanks, which is not
shown (`C21_white_blank_defect`). -/
theorem C21_line_colours_partial (cfg : Cfg) (hcfg : CfgOk cfg) (e0 : Emu) (he : FreshEmu cfg e0)
    (line : Int) (ops : List Op) (hok : OpsOk cfg (Want.start line) ops) :
    ∃ t off, performAll (startTerm true line) ops = some t ∧
      (feed cfg e0 t.out).row = ((Want.start line).run ops).cur + off ∧
      ∀ l cells gs, ((Want.start line).run ops).sent l = some cells → glyphsOf cells = some gs →
        ∀ k c attr, (wanted gs)[k]? = some (c, attr) →
          match (feed cfg e0 t.out).rows (l + off) k with
          | .glyph ch g => some ch = c ∧ Renders g attr
          | .tail g => c = none ∧ Renders g attr
          | .erased bg => c = some 0x20 ∧ (wantBack attr ≠ white →
              (match bg with | some n => Ink.palette n | none => .defaultBack) = wantBackInk attr) := by
  obtain ⟨t, off, p, hrow, hs, _⟩ := C17_sent_lines_shown cfg hcfg e0 he true line ops hok
  refine ⟨t, off, p, hrow, ?_⟩
  intro l cells gs hl hgs k c attr hk
  obtain ⟨gs', hgs', h1, _⟩ := hs l cells hl
  rw [hgs] at hgs'
  simp only [Option.some.injEq] at hgs'
  subst hgs'
  have := h1 k _ hk
  obtain ⟨a, b⟩ := this
  generalize (feed cfg e0 t.out).rows (l + off) k = s at *
  cases s with
  | glyph ch g => exact ⟨a, b rfl⟩
  | tail g => exact ⟨a.symm, b rfl⟩
  | erased bg => exact ⟨a.symm, b rfl⟩

/-- C22.  After any history the terminal's mouse modes (button, drag and motion reports in both
extended encodings) are on exactly if the last request was to switch them on. -/
theorem C22_mouse_mode (cfg : Cfg) (hcfg : CfgOk cfg) (e0 : Emu) (he : FreshEmu cfg e0)
    (colour : Bool) (line : Int) (ops : List Op) (hok : OpsOk cfg (Want.start line) ops) :
    ∃ t, performAll (startTerm colour line) ops = some t ∧
      ∀ n ∈ [1000, 1002, 1003, 1006, 1015],
        (feed cfg e0 t.out).modes n = ((Want.start line).run ops).mouse := by
  obtain ⟨t, e, off, p, h⟩ := rel_run hcfg ops _ e0 _ _ (rel_start hcfg e0 colour line he) hok
  have hf := h.fed
  subst hf
  refine ⟨t, p, fun n hn => h.modes n ?_⟩
  simp only [List.mem_cons, List.not_mem_nil, or_false] at hn
  simp only [mouseModes, List.mem_cons, List.not_mem_nil, or_false]
  omega

/-- What `Want.mouse` is. -/
theorem C22_last_request (line : Int) (ops : List Op) :
    ((Want.start line).run ops).mouse =
      ((ops.filterMap fun op => match op with | .mouse on => some on | _ => none).getLast?.getD false) := by
  have key : ∀ (ops : List Op) (w : Want), (w.run ops).mouse =
      ((ops.filterMap fun op => match op with | .mouse on => some on | _ => none).getLast?.getD w.mouse) := by
    intro ops
    induction ops with
    | nil => intro w; rfl
    | cons op ops ih =>
      intro w
      unfold Want.run at ih ⊢
      rw [List.foldl_cons, ih]
      cases op with
      | mouse on =>
        simp only [List.filterMap_cons, Want.step, List.getLast?_cons]
        cases List.getLast? (List.filterMap (fun op => match op with | .mouse on => some on | _ => none) ops) <;> rfl
      | _ => rfl
  exact key ops _

/-- C23, hiding: after a request to hide the cursor, until it is placed again, it is not visible. -/
theorem C23_hidden (cfg : Cfg) (hcfg : CfgOk cfg) (e0 : Emu) (he : FreshEmu cfg e0)
    (colour : Bool) (line : Int) (ops : List Op) (hok : OpsOk cfg (Want.start line) ops)
    (hh : ((Want.start line).run ops).hidden = true) :
    ∃ t, performAll (startTerm colour line) ops = some t ∧
      (feed cfg e0 t.out).cursorVisible = false := by
  obtain ⟨t, e, off, p, h⟩ := rel_run hcfg ops _ e0 _ _ (rel_start hcfg e0 colour line he) hok
  have hf := h.fed
  subst hf
  exact ⟨t, p, h.hidden hh⟩

/-- C23, placing (partial).  After the cursor is placed visibly it is visible, provided that the
screen was not cleared while it was hidden (`Want.shown` is false then, until the cursor is hidden
or moved again).  What is missing — that it is visible also after such a clearing — is false:
`C23_defect`. -/
theorem C23_shown_partial (cfg : Cfg) (hcfg : CfgOk cfg) (e0 : Emu) (he : FreshEmu cfg e0)
    (colour : Bool) (line : Int) (ops : List Op) (hok : OpsOk cfg (Want.start line) ops)
    (hs : ((Want.start line).run ops).shown = true) :
    ∃ t, performAll (startTerm colour line) ops = some t ∧
      (feed cfg e0 t.out).cursorVisible = true := by
  obtain ⟨t, e, off, p, h⟩ := rel_run hcfg ops _ e0 _ _ (rel_start hcfg e0 colour line he) hok
  have hf := h.fed
  subst hf
  exact ⟨t, p, h.shown hs⟩

/-! ## A concrete terminal -/

/-- 8 by 3; characters from U+1100 on are two columns wide. -/
def demoCfg : Cfg := ⟨8, 3, fun c => if c < 0x1100 then 1 else 2⟩

def demoEmu : Emu :=
  ⟨fun _ _ => .erased none, 0, 1, 0, Gfx.default, true, fun _ => false, [], .ground⟩

def demoLine (s : String) : List Cell := s.toList.map fun c => ⟨c.toNat, 0x07⟩

/-- Scrolls, goes back, appends, rewrites, uses colours, a double-width character, a surrogate
pair, trailing blanks, a full row, and clears. -/
def demoOps : List Op :=
  [.send 10 (demoLine "ab") (-1), .send 10 (demoLine "abcd   ") 4, .show 4 10,
   .send 11 [⟨0x61, 0x1f⟩, ⟨0x4e2d, 0x107⟩, ⟨0x4e2d, 0x207⟩, ⟨0xd83d, 0x4007⟩, ⟨0xde00, 0x4007⟩,
             ⟨0x20, 0x07⟩, ⟨0x62, 0x8070⟩, ⟨0x63, 0xf0⟩] (-1),
   .mouse true, .send 13 (demoLine "12345678") (-1), .send 12 (demoLine "       ") 2, .show 3 12,
   .hide, .send 12 (demoLine "x  y") (-1), .show 7 13]

theorem demo_ok : OpsOk demoCfg (Want.start 10) demoOps := by
  have hl : ∀ s : List Cell, s ≠ [] → s.length ≤ 8 → (s.all fun c => decide (c.ch < 65536)) = true →
      ((glyphsOf s).any fun gs => gs.all fun g => decide (Showable demoCfg g)) = true →
      LineOk demoCfg s := by
    intro s h1 h2 h3 h4
    refine ⟨h1, h2, by simpa using h3, ?_⟩
    simp only [Option.any_eq_true] at h4
    obtain ⟨gs, hg, ha⟩ := h4
    exact ⟨gs, hg, by simpa using ha⟩
  simp only [demoOps, OpsOk, OpOk, and_true, true_and]
  refine ⟨⟨?_, hl _ ?_ ?_ ?_ ?_⟩, ⟨?_, hl _ ?_ ?_ ?_ ?_⟩, ?_, ⟨?_, hl _ ?_ ?_ ?_ ?_⟩,
    ⟨?_, hl _ ?_ ?_ ?_ ?_⟩, ⟨?_, hl _ ?_ ?_ ?_ ?_⟩, ?_, ⟨?_, hl _ ?_ ?_ ?_ ?_⟩, ?_⟩ <;>
    first | decide +kernel | (simp only [InWindow, Want.step, Want.start, Want.move, demoCfg]; decide)

theorem demo_cfg : CfgOk demoCfg := by unfold CfgOk demoCfg; decide
theorem demo_fresh : FreshEmu demoCfg demoEmu := by
  refine ⟨rfl, rfl, ?_, ?_, rfl, fun _ => rfl⟩ <;> decide

/-- Beside C17, C18, C22: the hypotheses hold, and the last row shows `12345678`. -/
example : ∃ t off, performAll (startTerm true 10) demoOps = some t ∧
    RowShows demoCfg true ((feed demoCfg demoEmu t.out).rows (13 + off)) (demoLine "12345678") ∧
    (feed demoCfg demoEmu t.out).row = 13 + off ∧ ((feed demoCfg demoEmu t.out).col : Int) = 7 := by
  obtain ⟨t, off, h1, h2, h3, _, _, h4⟩ :=
    C18_cursor_position demoCfg demo_cfg demoEmu demo_fresh true 10 demoOps demo_ok
  exact ⟨t, off, h1, h2 13 _ rfl, h3, h4 7 rfl⟩

example : ∃ t, performAll (startTerm true 10) demoOps = some t ∧
    (feed demoCfg demoEmu t.out).modes 1006 = true := by
  obtain ⟨t, h1, h2⟩ := C22_mouse_mode demoCfg demo_cfg demoEmu demo_fresh true 10 demoOps demo_ok
  exact ⟨t, h1, h2 1006 (by decide)⟩

/-- Beside C23. -/
example : ((Want.start 10).run demoOps).shown = true ∧
    ((Want.start 10).run (demoOps ++ [.hide, .send 13 (demoLine "a") (-1)])).hidden = true := by
  decide +kernel

/-! ## Defects -/

/-- C23 is violated: if the screen is cleared while the cursor is hidden (the window was resized
while a program had hidden the cursor), placing the cursor afterwards does not make it visible. -/
theorem C23_defect :
    OpsOk demoCfg (Want.start 10) [.hide, .clear 10, .show 0 10] ∧
    ∃ t, performAll (startTerm true 10) [.hide, .clear 10, .show 0 10] = some t ∧
      (feed demoCfg demoEmu t.out).cursorVisible = false := by
  refine ⟨?_, _, rfl, by decide +kernel⟩
  simp only [OpsOk, OpOk, InWindow, Want.step, Want.start, demoCfg]
  decide

/-- C53 is violated: a line feed character in a console cell is written to the terminal as it is,
so the terminal's cursor leaves the row of the line (the character in the next cell appears in the
row below). -/
theorem C53_defect :
    ∃ t, performAll (startTerm false 10) [.send 10 [⟨0x0a, 7⟩, ⟨0x41, 7⟩] (-1)] = some t ∧
      (feed demoCfg demoEmu t.out).row = demoEmu.row + 1 ∧
      (feed demoCfg demoEmu t.out).rows (demoEmu.row + 1) 0 = .glyph 0x41 Gfx.default := by
  refine ⟨_, rfl, ?_, ?_⟩ <;> decide +kernel

/-- The colour of trailing blanks on a white background is not shown: white is shown as inverse
video, and erasing does not use it. -/
theorem C21_white_blank_defect :
    OpsOk demoCfg (Want.start 10) [.send 10 [⟨0x20, 0xf0⟩] (-1)] ∧ wantBackInk 0xf0 = .defaultFore ∧
    ∃ t, performAll (startTerm true 10) [.send 10 [⟨0x20, 0xf0⟩] (-1)] = some t ∧
      (feed demoCfg demoEmu t.out).rows demoEmu.row 0 = .erased none := by
  refine ⟨?_, by decide, _, rfl, by decide +kernel⟩
  refine ⟨⟨?_, ?_, ?_, ?_, [⟨0x20, 1, 0xf0⟩], ?_, ?_⟩, trivial⟩
  · simp only [InWindow, Want.start, demoCfg]; decide
  · simp
  · simp [demoCfg]
  · simp
  · decide
  · intro g hg; simp only [List.mem_singleton] at hg; subst hg; decide

/-- A surrogate pair that the console completes later: the first half was shown as `?` and stays,
because the line is taken to be a continuation of what was sent. -/
theorem C17_surrogate_append_defect :
    glyphsOf [⟨0xd83d, 7⟩, ⟨0xde00, 7⟩] = some [⟨0x1f600, 2, 7⟩] ∧
    ∃ t, performAll (startTerm false 10)
        [.send 10 [⟨0xd83d, 7⟩] (-1), .send 10 [⟨0xd83d, 7⟩, ⟨0xde00, 7⟩] (-1)] = some t ∧
      (feed demoCfg demoEmu t.out).rows demoEmu.row 0 = .glyph 0x3f Gfx.default ∧
      (feed demoCfg demoEmu t.out).rows demoEmu.row 1 = .glyph 0x3f Gfx.default := by
  refine ⟨by decide, _, rfl, ?_, ?_⟩ <;> decide +kernel

end Winpty.Props
