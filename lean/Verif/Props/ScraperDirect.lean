import Verif.Props.ScraperResize

/-!
# C69: direct mode

When a program gives the console's buffer another height than 3000 lines, the agent shows the window
alone, row by row.
-/
namespace Winpty.Props

open Winpty.Scraper
open Winpty.Spec.Scrape
open Winpty.SmallRect
open Winpty.ConsoleLine (Cell)
open Winpty.Agent (TermCall)
open Winpty.Spec.Term

/-- C69.  In every history, in direct mode what was sent since the terminal was last cleared are the
rows of the window, under the numbers 0, 1, …: the last contents sent for a row are those the row had
when it was last read; other rows were not sent. -/
theorem C69_window_sent_partial (sys : Sys) (hs : SysOk sys) (H W line : Int) (n : Nat) (hn : n < 2 ^ 32) (s : S)
    (c : Con) (rows : Int → Option (List Cell)) (calls : List TermCall)
    (h : History sys H W line n s c (.direct rows) calls) (w : Want)
    (hw : w = (Want.start line).run (calls.map opOf)) :
    w.base = 0 ∧ (∀ l cells, rows l = some cells → ∃ x, w.sent l = some x ∧ SameLine x cells) ∧
    ∀ l, rows l = none → w.sent l = none := by
  subst hw
  have hinv : DirectInv H n s c rows _ := (history_inv hs h hn).1
  exact ⟨hinv.base, hinv.lines, hinv.only⟩

theorem sent_le_highest : ∀ (ops : List Op) (w : Want), (∀ l, w.sent l ≠ none → l ≤ w.highest) →
    ∀ l, (w.run ops).sent l ≠ none → l ≤ (w.run ops).highest := by
  intro ops
  induction ops with
  | nil => intro w h; exact h
  | cons op ops ih =>
    intro w h
    refine ih (w.step op) ?_
    intro l hl
    cases op with
    | clear m => exact absurd rfl hl
    | send m cells col =>
      have e1 : (w.step (.send m cells col)).highest = max w.highest m := rfl
      have e2 : (w.step (.send m cells col)).sent l = if l = m then some cells else w.sent l := rfl
      rw [e1]
      rw [e2] at hl
      by_cases hm : l = m
      · omega
      · rw [if_neg hm] at hl
        have := h l hl
        omega
    | «show» col m =>
      have e1 : (w.step (.show col m)).highest = max w.highest m := rfl
      have := h l hl
      omega
    | hide => exact h l hl
    | mouse on => exact h l hl

/-- C69, C17.  What a terminal emulator shows in direct mode: the rows of the window, one below the
other, on the screen. -/
theorem C69_terminal_shows_partial (sys : Sys) (hs : SysOk sys) (H W line : Int) (n : Nat) (hn : n < 2 ^ 32) (s : S)
    (c : Con) (rows : Int → Option (List Cell)) (calls : List TermCall)
    (h : History sys H W line n s c (.direct rows) calls)
    (cfg : Spec.Vt.Cfg) (hcfg : CfgOk cfg) (hh : H ≤ cfg.height) (hw : W ≤ cfg.width)
    (hl : ∀ l cells col, .sendLine l cells col ∈ calls → LineOk cfg cells)
    (e0 : Spec.Vt.Emu) (he : FreshEmu cfg e0) (colour : Bool) :
    ∃ (term : Terminal.Term) (off : Int),
      Terminal.performAll (startTerm colour line) (calls.map opOf) = some term ∧
      ∀ l cells, 0 ≤ l → rows l = some cells →
        (Spec.Vt.feed cfg e0 term.out).top ≤ l + off ∧
        l + off < (Spec.Vt.feed cfg e0 term.out).top + cfg.height ∧
        ∃ x, SameLine x cells ∧
          Spec.Screen.RowShows cfg colour ((Spec.Vt.feed cfg e0 term.out).rows (l + off)) x := by
  obtain ⟨hi, hok⟩ := history_inv hs h hn
  have hinv : DirectInv H n s c rows _ := hi
  obtain ⟨term, off, hp, _, hrows, hscreen⟩ := C17_sent_lines_shown cfg hcfg e0 he colour line
    (calls.map opOf) (hok cfg hh hw hl)
  refine ⟨term, off, hp, ?_⟩
  intro l cells h0 hc
  obtain ⟨x, h1, h2⟩ := hinv.lines l cells hc
  have hhi := hinv.highest
  obtain ⟨k1, k2⟩ := hscreen l ⟨by rw [hinv.base]; exact h0, by omega⟩
    (sent_le_highest _ _ (fun l hl => absurd rfl hl) l (by rw [h1]; exact fun h => by cases h))
  exact ⟨k1, k2, x, h2, hrows l x h1⟩

/-- C69.  A poll of a console whose buffer has not 3000 lines goes through, whatever programs did; the
terminal is cleared if the console was scrolling before, and only then, and first. -/
theorem C69_poll_goes_through (sys : Sys) (hs : SysOk sys) (H W line : Int) (n : Nat) (hn : n < 2 ^ 32)
    (s : S) (c : Con) (sh : Shown) (calls : List TermCall) (h : History sys H W line n s c sh calls)
    (frozen : Bool) (v : SyncViews) (hi : DirectInfoOk v.first.info) (hx : 1 ≤ s.ptySize.x)
    (hy : 1 ≤ s.ptySize.y) (hH : shownRows v.first.info s.ptySize ≤ H)
    (ha : Anything c (directContent sys frozen v)) :
    ∃ r before after, scrapeBuffer sys s frozen v = some r ∧ r.calls = before ++ after ∧ ¬ Clears after ∧
      ((∃ t, sh = .scrolling t ∧ before = [.reset true 0]) ∨ (∃ rows, sh = .direct rows ∧ before = [])) := by
  obtain ⟨r, he, hd, _⟩ := directPoll_spec (history_inv hs h hn).1 hs frozen hi hx hy hH ha
  obtain ⟨s1, before, after, lines, h1, h2, h3, _, h4, _⟩ := hd.calls
  refine ⟨r, before, after, he, h1, ?_, ?_⟩
  · obtain ⟨cc, cl, cc', cl', hc, _⟩ := h4.shape
    rintro ⟨b, m, hm⟩
    rw [hc] at hm
    unfold emitted at hm
    simp only [List.mem_append] at hm
    rcases hm with (hm | hm) | hm
    · split at hm <;> simp at hm
    · obtain ⟨l, _, h⟩ := List.mem_map.mp hm; cases h
    · split at hm <;> simp at hm
  · cases sh with
    | scrolling t => exact .inl ⟨t, rfl, h3 t rfl⟩
    | direct rows => exact .inr ⟨rows, rfl, h2 rows rfl⟩

/-- C69.  So does a resize. -/
theorem C69_resize_goes_through (sys : Sys) (hs : SysOk sys) (H W line : Int) (n : Nat) (hn : n < 2 ^ 32)
    (s : S) (c : Con) (sh : Shown) (calls : List TermCall) (h : History sys H W line n s c sh calls)
    (frozen : Bool) (size : Coord) (v : SyncViews) (hi : DirectInfoOk v.first.info) (hx : 1 ≤ size.x)
    (hy : 1 ≤ size.y) (hH : shownRows v.first.info size ≤ H) (ha : Anything c v.resize.last) :
    (resizeWindow sys s frozen size v).isSome := by
  obtain ⟨r, he, _⟩ := directResize_spec (history_inv hs h hn).1 hs frozen hi hx hy hH ha
  rw [he]; rfl

/-- C69.  And so does the poll that finds that the buffer has 3000 lines again: it first clears the
terminal, and does not clear it again. -/
theorem C69_back_goes_through (sys : Sys) (hs : SysOk sys) (H W line : Int) (n : Nat)
    (hn : n + 1 < 2 ^ 32) (s : S) (c : Con) (rows : Int → Option (List Cell)) (calls : List TermCall)
    (h : History sys H W line n s c (.direct rows) calls) (frozen : Bool) (v : SyncViews)
    (hi : InfoOk v.first.info) (hH : v.first.info.window.height ≤ H)
    (hinfo : (directContent sys frozen v).info = v.first.info) (ha : Anything c (directContent sys frozen v))
    (hrows : 1 ≤ s.ptySize.y ∧ s.ptySize.y ≤ 2000) :
    ∃ r after, scrapeBuffer sys s frozen v = some r ∧
      r.calls = .reset true v.first.info.window.top :: after ∧ ¬ Clears after := by
  have hinv : DirectInv H n s c rows _ := (history_inv hs h (by omega)).1
  obtain ⟨r, after, he, h1, h2, _⟩ := back_through hinv hs frozen false hi hH hn
    (con := directContent sys frozen v) (by simp only [Bool.or_false]; rfl) hinfo ha hrows
  exact ⟨r, after, he, h1, h2⟩

/-- C69.  What a poll in direct mode reads lies in the buffer, and is not larger than the terminal. -/
theorem C69_reads_inside (sys : Sys) (hs : SysOk sys) (H W line : Int) (n : Nat) (hn : n < 2 ^ 32)
    (s : S) (c : Con) (sh : Shown) (calls : List TermCall) (h : History sys H W line n s c sh calls)
    (frozen : Bool) (v : SyncViews) (hi : DirectInfoOk v.first.info) (hx : 1 ≤ s.ptySize.x)
    (hy : 1 ≤ s.ptySize.y) (hH : shownRows v.first.info s.ptySize ≤ H)
    (ha : Anything c (directContent sys frozen v)) (r : Result) (he : scrapeBuffer sys s frozen v = some r)
    (area : Rect) (harea : area = r.state.readBuffer.rect) :
    0 ≤ area.left ∧ area.left ≤ area.right ∧ area.right < v.first.info.size.x ∧
    0 ≤ area.top ∧ area.top ≤ area.bottom ∧ area.bottom < v.first.info.size.y ∧
    area.right - area.left < s.ptySize.x ∧ area.bottom - area.top < s.ptySize.y := by
  obtain ⟨r', he', hd, _⟩ := directPoll_spec (history_inv hs h hn).1 hs frozen hi hx hy hH ha
  rw [he, Option.some.injEq] at he'
  subst he'
  obtain ⟨c1, r1, c2, r2, hcx, hry, _⟩ := scrapeRect_eq s hi hx hy
  have hx' : shownCols v.first.info s.ptySize ≤ s.ptySize.x := by unfold shownCols; omega
  have hy' : shownRows v.first.info s.ptySize ≤ s.ptySize.y := by unfold shownRows; omega
  obtain ⟨_, _, _, g1, _, _, g2, _, _⟩ := hi
  rw [harea, hd.read]
  simp only
  omega

/-- C69.  The rows sent by a poll in direct mode are rows of the window that the terminal shows, each
is sent at most once, and in ascending order. -/
theorem C69_in_order (sys : Sys) (hs : SysOk sys) (H W line : Int) (n : Nat) (hn : n < 2 ^ 32)
    (s : S) (c : Con) (sh : Shown) (calls : List TermCall) (h : History sys H W line n s c sh calls)
    (frozen : Bool) (v : SyncViews) (hi : DirectInfoOk v.first.info) (hx : 1 ≤ s.ptySize.x)
    (hy : 1 ≤ s.ptySize.y) (hH : shownRows v.first.info s.ptySize ≤ H)
    (ha : Anything c (directContent sys frozen v)) (r : Result) (he : scrapeBuffer sys s frozen v = some r) :
    (sentLines r.calls).Pairwise (· < ·) ∧
    ∀ l ∈ sentLines r.calls, 0 ≤ l ∧ l < shownRows v.first.info s.ptySize := by
  obtain ⟨r', he', hd, _⟩ := directPoll_spec (history_inv hs h hn).1 hs frozen hi hx hy hH ha
  rw [he, Option.some.injEq] at he'
  subst he'
  obtain ⟨s1, before, after, lines, _, _, _, hp, h4, h5⟩ := hd.calls
  rw [h5]
  refine ⟨h4.order, ?_⟩
  rw [← hp]; exact h4.range

/-- C69.  A row that has not changed since the last poll is not sent again. -/
theorem C69_only_changes_sent (sys : Sys) (hs : SysOk sys) (H W line : Int) (n : Nat) (hn : n < 2 ^ 32)
    (s : S) (c : Con) (sh : Shown) (calls : List TermCall) (h : History sys H W line n s c sh calls)
    (frozen : Bool) (v : SyncViews) (hi : DirectInfoOk v.first.info) (hx : 1 ≤ s.ptySize.x)
    (hy : 1 ≤ s.ptySize.y) (hH : shownRows v.first.info s.ptySize ≤ H)
    (ha : Anything c (directContent sys frozen v)) (r : Result) (he : scrapeBuffer sys s frozen v = some r)
    (frozen2 : Bool) (v2 : SyncViews) (hi2 : DirectInfoOk v2.first.info)
    (hH2 : shownRows v2.first.info s.ptySize ≤ H) (ha2 : Anything r.con (directContent sys frozen2 v2))
    (r2 : Result) (he2 : scrapeBuffer sys r.state frozen2 v2 = some r2) (l : Int) (h0 : 0 ≤ l)
    (h1 : l < shownRows v.first.info s.ptySize) (h2 : l < shownRows v2.first.info s.ptySize)
    (hsame : windowRow (directContent sys frozen2 v2) v2.first.info s.ptySize v2.mask l =
      windowRow (directContent sys frozen v) v.first.info s.ptySize v.mask l) :
    l ∉ sentLines r2.calls := by
  obtain ⟨r', he', hd, hpty, _⟩ := directPoll_spec (history_inv hs h hn).1 hs frozen hi hx hy hH ha
  rw [he, Option.some.injEq] at he'
  subst he'
  have hinv := hd.inv
  rw [← hd.left] at hinv
  obtain ⟨r2', he2', _, _, hsent⟩ := directPoll_spec (sh := .direct _) hinv hs frozen2 hi2
    (by rw [hpty]; exact hx) (by rw [hpty]; exact hy) (by rw [hpty]; exact hH2) ha2
  rw [he2, Option.some.injEq] at he2'
  subst he2'
  obtain ⟨obs, hrec⟩ := hd.recorded l.toNat (by omega)
  rw [show ((l.toNat : Nat) : Int) = l by omega] at hrec
  rw [hpty] at hsent
  have := hsent _ rfl l.toNat (by omega)
  rw [show ((l.toNat : Nat) : Int) = l by omega] at this
  exact this ⟨obs, by rw [hsame]; exact hrec⟩

/-- C69.  After a poll in direct mode the terminal's cursor is where the console's is, counted from
the corner of the window, if the console shows a cursor and it is in the part of the window that the
terminal shows; otherwise it is hidden. -/
theorem C69_cursor (sys : Sys) (hs : SysOk sys) (H W line : Int) (n : Nat) (hn : n < 2 ^ 32)
    (s : S) (c : Con) (sh : Shown) (calls : List TermCall) (h : History sys H W line n s c sh calls)
    (frozen : Bool) (v : SyncViews) (hi : DirectInfoOk v.first.info) (hx : 1 ≤ s.ptySize.x)
    (hy : 1 ≤ s.ptySize.y) (hH : shownRows v.first.info s.ptySize ≤ H)
    (ha : Anything c (directContent sys frozen v)) (r : Result) (he : scrapeBuffer sys s frozen v = some r)
    (w : Want) (hw : w = (Want.start line).run ((calls ++ r.calls).map opOf)) (col row : Int)
    (hcol : col = v.first.info.cursor.x - v.first.info.window.left)
    (hrow : row = v.first.info.cursor.y - v.first.info.window.top) :
    if v.cursorVisible = true ∧ 0 ≤ col ∧ col < shownCols v.first.info s.ptySize ∧ 0 ≤ row ∧
      row < shownRows v.first.info s.ptySize
    then w.cur = row ∧ w.col = some col ∧ w.hidden = false else w.hidden = true := by
  obtain ⟨r', he', hd, _⟩ := directPoll_spec (history_inv hs h hn).1 hs frozen hi hx hy hH ha
  rw [he, Option.some.injEq] at he'
  subst he'
  obtain ⟨s1, before, after, lines, h1, _, _, hp, h4, _⟩ := hd.calls
  obtain ⟨cc, cl, cc', cl', hc, hcc⟩ := h4.shape
  have hcur := cursor_shown s1 hi (by rw [hp]; exact hx) (by rw [hp]; exact hy) v.cursorVisible
  rw [hp, ← hcol, ← hrow] at hcur
  rw [← hcol, ← hrow] at hcc
  rw [hw, h1, hc]
  by_cases hsh : directCursorShown s1 v.first.info v.cursorVisible = true
  · rw [if_pos (hcur.mp hsh)]
    obtain ⟨rfl, rfl⟩ := hcc hsh
    simp only [emitted, hsh, if_true, List.nil_append, List.map_append, List.map_cons, List.map_nil,
      run_append, opOf]
    exact ⟨rfl, rfl, rfl⟩
  · rw [if_neg (fun g => hsh (hcur.mpr g))]
    simp only [emitted, hsh, Bool.false_eq_true, if_false, List.append_nil, List.map_append,
      List.map_cons, List.map_nil, run_append, opOf]
    generalize ((Want.start line).run (calls.map opOf)).run (before.map opOf) = w0
    have hk : ∀ (lines : List Int) (w : Want), w.hidden = true →
        (w.run ((sendsOf (windowRow (directContent sys frozen v) v.first.info s.ptySize v.mask) cl' cc'
          lines).map opOf)).hidden = true := by
      intro lines
      induction lines with
      | nil => intro w h; exact h
      | cons l lines ih =>
        intro w h
        refine ih _ ?_
        simp only [opOf, Want.step, Want.move, h, Bool.true_or]
    exact hk lines _ rfl

/-! ## Examples and defects -/

/-- Ten rows of `width` columns, a window of `rows` rows from row 4 on that begins in column `left`. -/
def demoDirect (width left rows : Int) : Con :=
  ⟨(demoCon 0).screen, ⟨⟨width, 10⟩, ⟨left, 4, left + 2, 4 + rows - 1⟩, ⟨left + 1, 5⟩⟩⟩

theorem demoDirect_anything (c : Con) (width left rows : Int) : Anything c (demoDirect width left rows) :=
  ⟨fun i n _ _ h => absurd (show MarkerAt (demoCon 0) i n from h) (demoCon_no_marker 0 i n)⟩

theorem demoDirect_ok (width left rows : Int) (h : 0 ≤ left ∧ left + 2 < width ∧ width ≤ 100 ∧ 1 ≤ rows ∧
    rows ≤ 6) : DirectInfoOk (demoDirect width left rows).info := by
  unfold DirectInfoOk demoDirect; dsimp only; omega

deriving instance DecidableEq for Agent.TermCall

/-- A console that was scrolling, then was given ten rows, two of which the window shows. -/
theorem demo_direct : ∃ r, scrapeBuffer demoSys (Scraper.init ⟨3, 2⟩ 500).1 true
      (demoViews (demoDirect 3 0 2)) = some r ∧
    History demoSys 2 3 500 0 r.state r.con
      (.direct (directRows (fun _ => none) (demoDirect 3 0 2) (demoDirect 3 0 2).info ⟨3, 2⟩ 0xFFFF))
      r.calls ∧ r.state.ptySize = ⟨3, 2⟩ := by
  have hx : DirectInfoOk (demoViews (demoDirect 3 0 2)).first.info := demoDirect_ok 3 0 2 (by decide)
  obtain ⟨r, _, _, he, _⟩ := C69_poll_goes_through demoSys demoSys_ok 2 3 500 0 (by decide) _ _ _ _
    (demo_start 500 (by decide) (by decide)) true (demoViews (demoDirect 3 0 2)) hx (by decide) (by decide)
    (by decide) (demoDirect_anything _ 3 0 2)
  refine ⟨r, he, ?_, ?_⟩
  · have := History.directPoll true _ (demo_start 500 (by decide) (by decide)) hx (by decide) (by decide)
      (by decide) (by decide) he (demoDirect_anything _ 3 0 2)
    rw [List.nil_append] at this
    exact this
  · have : (scrapeBuffer demoSys (Scraper.init ⟨3, 2⟩ 500).1 true (demoViews (demoDirect 3 0 2))).map
        (fun r => r.state.ptySize) = some ⟨3, 2⟩ := by decide +kernel
    rw [he] at this
    simpa using this

/-- The terminal is cleared, both rows are sent, and the cursor is shown in the second row. -/
example : (scrapeBuffer demoSys (Scraper.init ⟨3, 2⟩ 500).1 true (demoViews (demoDirect 3 0 2))).map
    (fun r => (r.calls, r.state.directMode)) = some
    ([.reset true 0, .sendLine 0 [⟨0x45, 7⟩, ⟨0x20, 7⟩, ⟨0x20, 7⟩] (-1),
      .sendLine 1 [⟨0x46, 7⟩, ⟨0x20, 7⟩, ⟨0x20, 7⟩] 1, .showCursor 1 1], true) := by
  decide +kernel

/-- The hypotheses of `C69_only_changes_sent` and `C69_cursor` can be met, in direct mode too. -/
example : ∃ s c rows calls r, History demoSys 2 3 500 0 s c (.direct rows) calls ∧
    DirectInfoOk (demoViews (demoDirect 3 0 2)).first.info ∧ 1 ≤ s.ptySize.x ∧ 1 ≤ s.ptySize.y ∧
    shownRows (demoViews (demoDirect 3 0 2)).first.info s.ptySize ≤ 2 ∧
    Anything c (directContent demoSys true (demoViews (demoDirect 3 0 2))) ∧
    scrapeBuffer demoSys s true (demoViews (demoDirect 3 0 2)) = some r ∧ sentLines r.calls = [] := by
  obtain ⟨r, he, h, hp⟩ := demo_direct
  have hx : 1 ≤ r.state.ptySize.x := by rw [hp]; decide
  have hy : 1 ≤ r.state.ptySize.y := by rw [hp]; decide
  have hH : shownRows (demoViews (demoDirect 3 0 2)).first.info r.state.ptySize ≤ 2 := by rw [hp]; decide
  obtain ⟨r2, _, _, he2, _⟩ := C69_poll_goes_through demoSys demoSys_ok 2 3 500 0 (by decide) _ _ _ _ h true
    (demoViews (demoDirect 3 0 2)) (demoDirect_ok 3 0 2 (by decide)) hx hy hH (demoDirect_anything _ 3 0 2)
  refine ⟨_, _, _, _, r2, h, demoDirect_ok 3 0 2 (by decide), hx, hy, hH, demoDirect_anything _ 3 0 2, he2, ?_⟩
  have hr := C69_in_order demoSys demoSys_ok 2 3 500 0 (by decide) _ _ _ _ h true
    (demoViews (demoDirect 3 0 2)) (demoDirect_ok 3 0 2 (by decide)) hx hy hH (demoDirect_anything _ 3 0 2) r2 he2
  have hc := C69_only_changes_sent demoSys demoSys_ok 2 3 500 0 (by decide) _ _ _ _
    (demo_start 500 (by decide) (by decide)) true (demoViews (demoDirect 3 0 2)) (demoDirect_ok 3 0 2 (by decide)) (by decide)
    (by decide) (by decide) (demoDirect_anything _ 3 0 2) r he true (demoViews (demoDirect 3 0 2))
    (demoDirect_ok 3 0 2 (by decide)) (by decide) (demoDirect_anything _ 3 0 2) r2 he2
  cases hl : sentLines r2.calls with
  | nil => rfl
  | cons l ls =>
    have hm : l ∈ sentLines r2.calls := by rw [hl]; exact List.mem_cons_self ..
    obtain ⟨h1, h2⟩ := hr.2 l hm
    rw [hp] at h2
    exact absurd hm (hc l h1 h2 h2 rfl)

/-- The hypotheses of `C69_back_goes_through` can be met. -/
example : ∃ s c rows calls, History demoSys 2 3 500 0 s c (.direct rows) calls ∧
    InfoOk (demoViews (demoCon 300)).first.info ∧
    (demoViews (demoCon 300)).first.info.window.height ≤ 2 ∧
    (directContent demoSys true (demoViews (demoCon 300))).info = (demoViews (demoCon 300)).first.info ∧
    Anything c (directContent demoSys true (demoViews (demoCon 300))) ∧
    1 ≤ s.ptySize.y ∧ s.ptySize.y ≤ 2000 := by
  obtain ⟨r, _, h, hp⟩ := demo_direct
  exact ⟨_, _, _, _, h, demoCon_ok 300 (by decide) (by decide), by decide, rfl,
    ⟨fun i n _ _ h => absurd h (demoCon_no_marker 300 i n)⟩, by rw [hp]; decide, by rw [hp]; decide⟩

/-- C69.  A defect: when the window becomes less high, the terminal goes on showing rows that were
below; here the window has one row left, and the second one is still shown. -/
theorem C69_stale_rows_defect :
    ∃ s c rows calls v r, History demoSys 2 3 500 0 s c (.direct rows) calls ∧
      DirectInfoOk v.first.info ∧ scrapeBuffer demoSys s true v = some r ∧
      History demoSys 2 3 500 0 r.state r.con
        (.direct (directRows rows v.first v.first.info s.ptySize v.mask)) (calls ++ r.calls) ∧
      v.first.info.window.bottom - v.first.info.window.top + 1 = 1 ∧
      ∃ x, ((Want.start 500).run ((calls ++ r.calls).map opOf)).sent 1 = some x ∧
        SameLine x [⟨0x46, 7⟩, ⟨0x20, 7⟩, ⟨0x20, 7⟩] := by
  obtain ⟨r, he, h, hp⟩ := demo_direct
  have hx : 1 ≤ r.state.ptySize.x := by rw [hp]; decide
  have hy : 1 ≤ r.state.ptySize.y := by rw [hp]; decide
  have hH : shownRows (demoViews (demoDirect 3 0 1)).first.info r.state.ptySize ≤ 2 := by rw [hp]; decide
  obtain ⟨r2, _, _, he2, _⟩ := C69_poll_goes_through demoSys demoSys_ok 2 3 500 0 (by decide) _ _ _ _ h true
    (demoViews (demoDirect 3 0 1)) (demoDirect_ok 3 0 1 (by decide)) hx hy hH (demoDirect_anything _ 3 0 1)
  have h2 := History.directPoll true (demoViews (demoDirect 3 0 1)) h (demoDirect_ok 3 0 1 (by decide)) hx hy hH
    (by rw [hp]; decide) he2 (demoDirect_anything _ 3 0 1)
  refine ⟨_, _, _, _, demoViews (demoDirect 3 0 1), r2, h, demoDirect_ok 3 0 1 (by decide), he2, h2, by decide, ?_⟩
  refine (C69_window_sent_partial demoSys demoSys_ok 2 3 500 0 (by decide) _ _ _ _ h2 _ rfl).2.1 1 _ ?_
  rw [hp]
  show directRows _ (demoDirect 3 0 1) (demoDirect 3 0 1).info ⟨3, 2⟩ 0xFFFF 1 = _
  decide +kernel

/-- C69.  A defect: when the terminal is resized in direct mode, the window read is the one from before
the resize: here the buffer becomes three columns wide, the window having begun in column 3, and the
agent reads the columns 3 to 5, none of which is there any more. -/
theorem C69_stale_window_defect :
    ∃ s c sh calls v r, History demoSys 2 3 500 0 s c sh calls ∧ DirectInfoOk v.first.info ∧
      Anything c v.resize.last ∧ resizeWindow demoSys s true ⟨3, 2⟩ v = some r ∧
      .resizeBuffer ⟨3, 10⟩ ∈ r.requests ∧ 3 ≤ r.state.readBuffer.rect.left := by
  refine ⟨(Scraper.init ⟨3, 2⟩ 500).1, demoCon 500, .scrolling (Track.start 500), [],
    demoViews (demoDirect 6 3 2), ?_⟩
  have hk : (resizeWindow demoSys (Scraper.init ⟨3, 2⟩ 500).1 true ⟨3, 2⟩
      (demoViews (demoDirect 6 3 2))).map
      (fun r => (decide (Request.resizeBuffer ⟨3, 10⟩ ∈ r.requests), r.state.readBuffer.rect.left)) =
      some (true, 3) := by decide +kernel
  cases he : resizeWindow demoSys (Scraper.init ⟨3, 2⟩ 500).1 true ⟨3, 2⟩
      (demoViews (demoDirect 6 3 2)) with
  | none => rw [he] at hk; cases hk
  | some r =>
    rw [he] at hk
    simp only [Option.map_some, Option.some.injEq, Prod.mk.injEq, decide_eq_true_eq] at hk
    exact ⟨r, demo_start 500 (by decide) (by decide), demoDirect_ok 6 3 2 (by decide), demoDirect_anything _ 6 3 2, rfl, hk.1,
      by omega⟩

end Winpty.Props
