import Verif.Spec.ScraperIdle
import Verif.Lemmas.TerminalIdle
import Verif.Props.ScraperDirect

/-!
# C72: polling a console in which nothing changes

The agent polls the console every 25 milliseconds.  A poll that finds everything as the one before
found it sends no lines, does not clear the terminal, and writes nothing at all.
-/
namespace Winpty.Props

open Winpty.Scraper
open Winpty.Spec.Scrape
open Winpty.SmallRect
open Winpty.ConsoleLine (Cell)
open Winpty.Agent (TermCall)
open Winpty.Spec.Term

theorem shows {sys : Sys} (hs : SysOk sys) {H W line : Int} {n : Nat} (hn : n + 1 < 2 ^ 32) {s : S}
    {c : Con} {t : Track} {calls : List TermCall} (h : Session sys H W line n s c t calls) {frozen : Bool}
    {v : SyncViews} (hv : Happens sys H W c t frozen v) {r : Result}
    (he : scrapeBuffer sys s frozen v = some r) :
    Shows False s v.first.info v.cursorVisible v.mask (contentOf sys frozen v r) r := by
  have hinv := (session_inv hs h (by omega)).1
  rcases hv.what with ⟨k, k', hr, hg⟩ | ⟨hup, hr⟩
  · obtain ⟨r', he', _, _, _, hsh, _⟩ := poll_spec hinv sys hs frozen v hv.info hv.height hn hr hg
    rw [he, Option.some.injEq] at he'
    subst he'
    obtain ⟨b, l, h1, h2, h3, _⟩ := hsh.ends
    exact ⟨hsh.rest, b, l, h1, h2, h3, fun g => g.elim⟩
  · obtain ⟨r', he', _, _, _, hsh, _⟩ := poll_up_spec hinv sys hs frozen v hv.info hv.height hn hup hr
    rw [he, Option.some.injEq] at he'
    subst he'
    exact hsh

theorem rowCells_idle {v v' : SyncViews} {c c' : Con} (h : Idle v v' c c') (y : Int) (h0 : 0 ≤ y)
    (h1 : v.first.info.window.top - 1 ≤ y) (h2 : y ≤ v.first.info.window.bottom) :
    rowCells { c' with info := v'.first.info } v'.mask y = rowCells { c with info := v.first.info } v.mask y := by
  unfold rowCells
  dsimp only
  rw [h.info, h.mask]
  apply List.map_congr_left
  intro x hx
  rw [List.mem_range] at hx
  rw [h.cells x y (by omega) (by omega) h0 h1 h2]

/-- C25, C18.  In every history, after a poll the terminal's cursor is in the line that the console's
cursor is in, and in the same column, if the console shows a cursor and it is in the window; otherwise
it is hidden. -/
theorem C25_cursor (sys : Sys) (hs : SysOk sys) (H W line : Int) (n : Nat) (hn : n + 1 < 2 ^ 32) (s : S)
    (c : Con) (t t' : Track) (calls : List TermCall) (h : Session sys H W line n s c t calls)
    (frozen : Bool) (v : SyncViews) (hv : Happens sys H W c t frozen v) (r : Result)
    (he : scrapeBuffer sys s frozen v = some r)
    (h' : Session sys H W line (n + 1) r.state r.con t' (calls ++ r.calls))
    (w : Want) (hw : w = (Want.start line).run ((calls ++ r.calls).map opOf))
    (info : Info) (hinfo : info = v.first.info) :
    if v.cursorVisible = true ∧ info.window.left ≤ info.cursor.x ∧ info.cursor.x ≤ info.window.right ∧
      info.window.top ≤ info.cursor.y ∧ info.cursor.y ≤ info.window.bottom
    then w.cur = info.cursor.y + t'.offset ∧ w.col = some info.cursor.x ∧ w.hidden = false
    else w.hidden = true := by
  subst hinfo
  obtain ⟨b, lines, h1, _, h3, _⟩ := (shows hs hn h hv he).ends
  have hoff := (session_inv hs h' hn).1.offset
  have hcur : cursorShown v.first.info v.cursorVisible = true ↔
      (v.cursorVisible = true ∧ v.first.info.window.left ≤ v.first.info.cursor.x ∧
        v.first.info.cursor.x ≤ v.first.info.window.right ∧
        v.first.info.window.top ≤ v.first.info.cursor.y ∧
        v.first.info.cursor.y ≤ v.first.info.window.bottom) := by
    unfold cursorShown Rect.containsCoord
    simp only [Bool.and_eq_true, decide_eq_true_eq, and_assoc, ge_iff_le]
  rw [hw, h1]
  by_cases hsh : cursorShown v.first.info v.cursorVisible = true
  · rw [if_pos (hcur.mp hsh)]
    simp only [emitted, hsh, if_true, List.nil_append, List.map_append, List.map_cons, List.map_nil,
      run_append, opOf]
    rw [← hoff]
    exact ⟨rfl, rfl, rfl⟩
  · rw [if_neg (fun g => hsh (hcur.mpr g))]
    simp only [emitted, hsh, Bool.false_eq_true, if_false, List.append_nil, List.map_append,
      List.map_cons, List.map_nil, run_append, opOf]
    generalize ((Want.start line).run (calls.map opOf)).run (b.map opOf) = w0
    have hk : ∀ (lines : List TermCall) (w : Want),
        (∀ call ∈ lines, ∃ l cells col, call = TermCall.sendLine l cells col) → w.hidden = true →
        (w.run (lines.map opOf)).hidden = true := by
      intro lines
      induction lines with
      | nil => intro w _ h; exact h
      | cons l lines ih =>
        intro w hl h
        refine ih _ (fun x hx => hl x (List.mem_cons_of_mem _ hx)) ?_
        obtain ⟨_, _, _, rfl⟩ := hl l (List.mem_cons_self ..)
        simp only [opOf, Want.step, Want.move, h, Bool.true_or]
    exact hk lines _ h3 rfl

/-- C72.  In every history: a poll that finds everything as the one before found it, no lines having
scrolled out in between, sends no lines and does not clear the terminal; it only says again where the
cursor is, or that it is hidden, and nothing is written for that. -/
theorem C72_idle_poll (sys : Sys) (hs : SysOk sys) (H W line : Int) (n : Nat) (hn : n + 2 < 2 ^ 32) (s : S)
    (c : Con) (t : Track) (calls : List TermCall) (h : Session sys H W line n s c t calls)
    (frozen : Bool) (v : SyncViews) (hv : Happens sys H W c t frozen v) (r : Result)
    (he : scrapeBuffer sys s frozen v = some r)
    (frozen2 : Bool) (v2 : SyncViews) (hr : RanUntil sys frozen2 r.con v2 0 0) (r2 : Result)
    (he2 : scrapeBuffer sys r.state frozen2 v2 = some r2)
    (hidle : Idle v v2 (contentOf sys frozen v r) (contentOf sys frozen2 v2 r2)) :
    (r2.calls = [.hideCursor] ∨ ∃ col l, r2.calls = [.showCursor col l]) ∧
    ∀ term, Terminal.performAll term ((calls ++ r.calls ++ r2.calls).map opOf) =
      Terminal.performAll term ((calls ++ r.calls).map opOf) := by
  obtain ⟨_, t', h'⟩ := polled hs (by omega) h hv he
  have hsh := shows hs (by omega) h hv he
  have hinv := (session_inv hs h' (by omega)).1
  have hi2 : InfoOk v2.first.info := by rw [hidle.info]; exact hv.info
  have hH2 : v2.first.info.window.height ≤ H := by rw [hidle.info]; exact hv.height
  have h0 : 0 ≤ v.first.info.window.top := hv.info.2.2.2.2.2.2.1
  obtain ⟨r', he', hcase, _, _, hsh2, _⟩ := poll_spec hinv sys hs frozen2 v2 hi2 hH2 (by omega) hr
    (fun g => absurd g (by decide))
  rw [he2, Option.some.injEq] at he'
  subst he'
  have hoff : r2.state.scrolledCount = r.state.scrolledCount := by
    rcases hcase with ⟨_, g, _⟩ | ⟨_, _, g, _⟩
    · rw [g.offset, hinv.offset]
      simp only [Track.scrape, ite_self]
      omega
    · omega
  obtain ⟨b, lines, h1, _, h3, _⟩ := hsh.ends
  obtain ⟨b2, lines2, k1, _, _, k4⟩ := hsh2.ends
  obtain ⟨rfl, rfl⟩ := k4 rfl (by
    have := hsh.rest.congr (Q' := fun y => rowCells { contentOf sys frozen2 v2 r2 with info := v2.first.info }
      v2.mask y) (fun y g0 g1 g2 => rowCells_idle hidle y g0 g1 g2) h0
    rw [← hidle.info] at this
    exact this)
  rw [hidle.info, hidle.cursor, hoff, List.nil_append] at k1
  constructor
  · rw [k1]
    unfold emitted
    split
    · exact .inr ⟨_, _, rfl⟩
    · exact .inl rfl
  · intro term
    rw [k1, h1, ← List.append_assoc calls b]
    exact performAll_again term (calls ++ b) _ _ _ lines h3

/-- C72.  The same for a console whose buffer a program gave another height. -/
theorem C72_idle_direct (sys : Sys) (hs : SysOk sys) (H W line : Int) (n : Nat) (hn : n < 2 ^ 32)
    (s : S) (c : Con) (sh : Shown) (calls : List TermCall) (h : History sys H W line n s c sh calls)
    (frozen : Bool) (v : SyncViews) (hi : DirectInfoOk v.first.info) (hx : 1 ≤ s.ptySize.x)
    (hy : 1 ≤ s.ptySize.y) (hH : shownRows v.first.info s.ptySize ≤ H)
    (ha : Anything c (directContent sys frozen v)) (r : Result) (he : scrapeBuffer sys s frozen v = some r)
    (frozen2 : Bool) (v2 : SyncViews) (ha2 : Anything r.con (directContent sys frozen2 v2)) (r2 : Result)
    (he2 : scrapeBuffer sys r.state frozen2 v2 = some r2)
    (hidle : Idle v v2 (directContent sys frozen v) (directContent sys frozen2 v2)) :
    (r2.calls = [.hideCursor] ∨ ∃ col l, r2.calls = [.showCursor col l]) ∧
    ∀ term, Terminal.performAll term ((calls ++ r.calls ++ r2.calls).map opOf) =
      Terminal.performAll term ((calls ++ r.calls).map opOf) := by
  obtain ⟨r', he', hd, hpty, _⟩ := directPoll_spec (history_inv hs h hn).1 hs frozen hi hx hy hH ha
  rw [he, Option.some.injEq] at he'
  subst he'
  have hinv := hd.inv
  rw [← hd.left] at hinv
  have hi2 : DirectInfoOk v2.first.info := by rw [hidle.info]; exact hi
  have hH2 : shownRows v2.first.info s.ptySize ≤ H := by rw [hidle.info]; exact hH
  obtain ⟨r2', he2', hd2, _⟩ := directPoll_spec (sh := .direct _) hinv hs frozen2 hi2
    (by rw [hpty]; exact hx) (by rw [hpty]; exact hy) (by rw [hpty]; exact hH2) ha2
  rw [he2, Option.some.injEq] at he2'
  subst he2'
  obtain ⟨s1, b, after, lines, h1, _, _, hp, h4, _⟩ := hd.calls
  obtain ⟨s2, b2, after2, lines2, k1, k2, _, kp, k4, k5⟩ := hd2.calls
  have hb2 : b2 = [] := k2 _ rfl
  obtain ⟨_, _, _, _, hcx, hry, _⟩ := scrapeRect_eq s hi hx hy
  have hnone : lines2 = [] := by
    cases hl : lines2 with
    | nil => rfl
    | cons l ls =>
      have hm : l ∈ lines2 := by rw [hl]; exact List.mem_cons_self ..
      obtain ⟨g1, g2⟩ := k4.range l hm
      rw [kp, hpty, hidle.info] at g2
      refine absurd (k5.symm ▸ hm) (C69_only_changes_sent sys hs H W line n hn s c sh calls h frozen v hi hx hy
        hH ha r he frozen2 v2 hi2 hH2 ha2 r2 he2 l g1 g2 (by rw [hidle.info]; exact g2) ?_)
      unfold windowRow
      rw [hidle.info, hidle.mask]
      apply List.map_congr_left
      intro x hx'
      rw [List.mem_range] at hx'
      obtain ⟨_, _, _, q1, _, _, q2, _, _⟩ := hi
      rw [hidle.cells _ _ (by omega) (by omega) (by omega) (by omega)
        (by unfold shownRows at g2; omega)]
  subst hnone
  obtain ⟨cc, cl, cc', cl', hc, hcc⟩ := h4.shape
  obtain ⟨dc, dl, dc', dl', kc, kcc⟩ := k4.shape
  have hsame : directCursorShown s2 v2.first.info v2.cursorVisible =
      directCursorShown s1 v.first.info v.cursorVisible := by
    rw [hidle.info, hidle.cursor, Bool.eq_iff_iff,
      cursor_shown s2 hi (by rw [kp, hpty]; exact hx) (by rw [kp, hpty]; exact hy),
      cursor_shown s1 hi (by rw [hp]; exact hx) (by rw [hp]; exact hy), kp, hp, hpty]
  rw [hsame] at kc kcc
  rw [hb2, List.nil_append, kc] at k1
  have hsends : sendsOf (windowRow (directContent sys frozen2 v2) v2.first.info r.state.ptySize v2.mask)
    dl' dc' [] = [] := rfl
  rw [hsends] at k1
  constructor
  · rw [k1]
    unfold emitted
    split
    · exact .inr ⟨_, _, rfl⟩
    · exact .inl rfl
  · intro term
    have hem : emitted (directCursorShown s1 v.first.info v.cursorVisible) dc dl [] =
        emitted (directCursorShown s1 v.first.info v.cursorVisible) cc cl [] := by
      by_cases g : directCursorShown s1 v.first.info v.cursorVisible = true
      · obtain ⟨rfl, rfl⟩ := hcc g
        obtain ⟨rfl, rfl⟩ := kcc g
        rw [hidle.info]
      · unfold emitted
        simp only [g, Bool.false_eq_true, if_false]
    rw [k1, hem, h1, hc, ← List.append_assoc calls b]
    refine performAll_again term (calls ++ b) _ _ _ _ ?_
    intro call hcall
    obtain ⟨l, _, rfl⟩ := List.mem_map.mp hcall
    exact ⟨_, _, _, rfl⟩

/-! ## Examples -/

/-- The hypotheses of `C72_idle_poll` can be met. -/
example : ∃ r r2, Session demoSys 2 3 500 0 (Scraper.init ⟨3, 2⟩ 500).1 (demoCon 500) (Track.start 500) [] ∧
    Happens demoSys 2 3 (demoCon 500) (Track.start 500) true (demoViews (demoCon 500)) ∧
    scrapeBuffer demoSys (Scraper.init ⟨3, 2⟩ 500).1 true (demoViews (demoCon 500)) = some r ∧
    RanUntil demoSys true r.con (demoViews r.con) 0 0 ∧
    scrapeBuffer demoSys r.state true (demoViews r.con) = some r2 ∧
    Idle (demoViews (demoCon 500)) (demoViews r.con)
      (contentOf demoSys true (demoViews (demoCon 500)) r) (contentOf demoSys true (demoViews r.con) r2) := by
  obtain ⟨r, he, hs, hscreen⟩ := demo_poll 500 (by decide) (by decide) true
  have hinfo : r.con.info = (demoCon 500).info := by
    have : (scrapeBuffer demoSys (Scraper.init ⟨3, 2⟩ 500).1 true (demoViews (demoCon 500))).map
        (fun r => r.con.info) = some (demoCon 500).info := by decide +kernel
    rw [he] at this
    exact Option.some.inj this
  have hran : RanUntil demoSys true r.con (demoViews r.con) 0 0 := by
    refine .still 0 rfl ⟨by simp [demoViews, hinfo, demoCon], by simp [demoViews, hinfo, demoCon]⟩
      ⟨fun x y _ _ => by simp [demoViews], ?_, Int.le_refl _⟩
    intro i n h0 _ hm
    rw [hinfo]
    simp only [demoCon]
    apply Int.not_le.mp
    intro hle
    have h1 := hm 0 0x53 (markerText_zero n)
    simp only [demoViews, Int.natCast_zero, Int.add_zero] at h1
    rw [hscreen 0 i (by omega)] at h1
    simp only [demoCon, if_true] at h1
    omega
  have hi1 : (demoViews r.con).first.info = (demoCon 500).info := hinfo
  have h2 := C25_poll_goes_through demoSys demoSys_ok 2 3 500 1 (by decide) _ _ _ _ hs true (demoViews r.con)
    (by rw [hi1]; exact demoCon_ok 500 (by decide) (by decide)) (by rw [hi1]; decide) 0 0 hran
    (fun g => absurd g (by decide))
  obtain ⟨r2, he2⟩ := Option.isSome_iff_exists.mp h2
  refine ⟨r, r2, demo_start 500 (by decide) (by decide), (demo_first 500 (by decide) (by decide) true).1, he,
    hran, he2, ⟨hinfo, rfl, rfl, ?_⟩⟩
  intro x y _ _ _ hy _
  simp only [demoViews, demoCon] at hy
  exact hscreen x y (by omega)

/-- What is written: the first poll sends both lines, and the second writes nothing. -/
example : (scrapeBuffer demoSys (Scraper.init ⟨3, 2⟩ 500).1 true (demoViews (demoCon 500))).bind
    (fun r => (scrapeBuffer demoSys r.state true (demoViews r.con)).bind fun r2 =>
      (Terminal.performAll (startTerm true 500) (r.calls.map opOf)).bind fun t1 =>
      (Terminal.performAll (startTerm true 500) ((r.calls ++ r2.calls).map opOf)).map fun t2 =>
        (r2.calls, decide (t1.out = []), decide (t2.out = t1.out))) =
      some ([.showCursor 1 500], false, true) := by
  decide +kernel

/-- The hypotheses of `C72_idle_direct` can be met. -/
example : ∃ r r2, History demoSys 2 3 500 0 (Scraper.init ⟨3, 2⟩ 500).1 (demoCon 500)
      (.scrolling (Track.start 500)) [] ∧
    DirectInfoOk (demoViews (demoDirect 3 0 2)).first.info ∧
    Anything (demoCon 500) (directContent demoSys true (demoViews (demoDirect 3 0 2))) ∧
    scrapeBuffer demoSys (Scraper.init ⟨3, 2⟩ 500).1 true (demoViews (demoDirect 3 0 2)) = some r ∧
    Anything r.con (directContent demoSys true (demoViews (demoDirect 3 0 2))) ∧
    scrapeBuffer demoSys r.state true (demoViews (demoDirect 3 0 2)) = some r2 ∧
    Idle (demoViews (demoDirect 3 0 2)) (demoViews (demoDirect 3 0 2))
      (directContent demoSys true (demoViews (demoDirect 3 0 2)))
      (directContent demoSys true (demoViews (demoDirect 3 0 2))) := by
  obtain ⟨r, he, h, hp⟩ := demo_direct
  obtain ⟨r2, _, _, he2, _⟩ := C69_poll_goes_through demoSys demoSys_ok 2 3 500 0 (by decide) _ _ _ _ h true
    (demoViews (demoDirect 3 0 2)) (demoDirect_ok 3 0 2 (by decide)) (by rw [hp]; decide) (by rw [hp]; decide)
    (by rw [hp]; decide) (demoDirect_anything _ 3 0 2)
  exact ⟨r, r2, demo_start 500 (by decide) (by decide), demoDirect_ok 3 0 2 (by decide),
    demoDirect_anything _ 3 0 2, he, demoDirect_anything _ 3 0 2, he2, rfl, rfl, rfl, fun _ _ _ _ _ _ _ => rfl⟩

end Winpty.Props
