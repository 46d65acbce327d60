import Verif.Props.Scraper
import Verif.Lemmas.ScraperResize

/-!
# C25, C26: resizing a scrolling console
-/
namespace Winpty.Props

open Winpty.Scraper
open Winpty.Spec.Scrape
open Winpty.SmallRect
open Winpty.ConsoleLine (Cell)
open Winpty.Agent (TermCall)
open Winpty.Spec.Term

/-- C25, C26.  The agent resizes a console after whatever history of polls and resizes, whatever
programs have written and let scroll out, and also if the window has moved upward (unless the marker
has come to row 0 exactly, see `C26_resize_abort_defect`): it first transfers everything, as a poll
does; then it blanks everything above the window, but nothing in it; and it leaves a marker, if there
is one, at least 200 rows above where the window is then and above where a window of the new height
will be at the end of the buffer.  It does not abort. -/
theorem C26_resize (sys : Sys) (hs : SysOk sys) (H W line : Int) (n : Nat) (hn : n + 1 < 2 ^ 32) (s : S)
    (c : Con) (t : Track) (calls : List TermCall) (h : Session sys H W line n s c t calls)
    (frozen : Bool) (size : Coord) (hsize : 1 ≤ size.y ∧ size.y ≤ 2000) (v : SyncViews)
    (hv : Happens sys H W c t true v)
    (h0 : ∀ k : Nat, Ran k c v.first → (k : Int) ≠ s.syncRow ∨ 432 ≤ v.first.info.window.top) :
    ∃ r, resizeWindow sys s frozen size v = some r ∧
      (∀ x y, v.first.info.window.top ≤ y → r.con.screen x y = v.first.screen x y) ∧
      (∀ x y, 0 ≤ x → x < v.first.info.size.x → 0 ≤ y → y < v.first.info.window.top →
        r.con.screen x y = ⟨0x20, 7⟩ ∨
        (r.state.syncRow ≠ -1 ∧ x = 0 ∧ r.state.syncRow ≤ y ∧ y < r.state.syncRow + 16)) ∧
      (r.state.syncRow = -1 ∨
        (1 ≤ r.state.syncRow ∧ r.state.syncRow + 16 + 200 ≤ v.first.info.window.top ∧
         r.state.syncRow + 16 + 200 ≤ 3000 - size.y ∧ MarkerAt r.con r.state.syncRow r.state.syncCounter)) ∧
      (∃ top, askedTop r.requests = some top) ∧
      ∃ t', Polls sys c t true v r t' ∧
        Transferred t' ((Want.start line).run ((calls ++ r.calls).map opOf)) := by
  have hinv := (session_inv hs h (by omega)).1
  have hinv' := hinv.pty size
  have hc := hinv.core
  have hcnt := hinv.count
  have hoff := hinv.offset
  have htt := hc.top
  have hin := hc.inBuf
  have hlow := low_le s
  have hft : frozenThroughout sys true = true := by simp [frozenThroughout]
  have hi := hv.info
  have hi' := hi
  obtain ⟨hi1, hi2, _, _, _, _, hw0, hwb, hw3, _⟩ := hi'
  have hwhat : (∃ k, Ran k c v.first ∧ Noticeable t k) ∨
      (v.first.info.window.top < t.windowTop ∧ Anything c v.first) := by
    rcases hv.what with ⟨k, k', hr, hg⟩ | ⟨g1, g2⟩
    · cases hr with
      | still _ _ _ hr => exact .inl ⟨k, hr, hg⟩
      | running _ _ _ _ _ _ hf => rw [hft] at hf; cases hf
    · cases g2 with
      | still _ _ g => exact .inr ⟨g1, g⟩
      | running hf => rw [hft] at hf; cases hf
  have hkn : Known s v.first := by
    rcases hwhat with ⟨k, hr, _⟩ | ⟨_, ha⟩
    · exact hinv.known.ran hr
    · intro i m g1 g2 g3
      obtain ⟨i', g4, g5⟩ := ha.genuine i m g1 g2 g3
      exact hinv.known i' m g4 g2 g5
  have hfirst : s.dirtyWindowTop = -1 →
      s.scrapedLineCount ≤ v.first.info.window.top + s.scrolledCount := by
    intro g
    rcases hwhat with ⟨k, hr, _⟩ | ⟨g0, _⟩
    · have h1 := hinv.top
      have h2 := hr.down
      rw [low_first g] at h1
      omega
    · have := hinv.seen; omega
  obtain ⟨s', c', calls', he, hcase⟩ := frozen_spec hinv'.core hi hv.height sys hs v.cursorVisible v.first
    v.mask hi2 hi1 hkn (by simp only; omega) hinv'.row hfirst
  have hpty := scrape_pty he
  simp only at hpty
  -- the poll
  have hpoll : scrapeBuffer sys { s with ptySize := size } true v =
      some ⟨s', c', true, calls', [], v.first.info⟩ := by
    rw [scrapeBuffer_scrolling sys true (s := { s with ptySize := size }) hc.mode hi1, hft]
    exact syncScrolling_still sys _ v he
  have hpolls : ∀ r : Result, r.calls = calls' → r.frozen = true → ∃ t', Polls sys c t true v r t' := by
    intro r hr hf
    rcases hwhat with ⟨k, hran, hg⟩ | ⟨g1, g2⟩
    · have hru : RanUntil sys true c v k k := .still k hft ⟨hi2, hi1⟩ hran
      by_cases hcl : Clears r.calls
      · exact ⟨_, .cleared hru hg hcl⟩
      · exact ⟨_, .kept hru hg hcl⟩
    · exact ⟨_, .movedUp g1 (.still hft ⟨hi2, hi1⟩ g2)⟩
  -- what the scrape has left
  have key : s'.directMode = false ∧ 0 ≤ s'.scrolledCount ∧ c'.info = v.first.info ∧
      (s'.syncRow = -1 ∨ (1 ≤ s'.syncRow ∧ s'.syncRow + 216 ≤ v.first.info.window.top)) ∧
      (∀ x y, v.first.info.window.top - 200 ≤ y → c'.screen x y = v.first.screen x y) := by
    obtain ⟨t', hp⟩ := hpolls ⟨s', c', true, calls', [], v.first.info⟩ rfl rfl
    have hpi := polls_inv hinv' hs hi hv.height hn hpoll hp
    have hend : endOf sys true v ⟨s', c', true, calls', [], v.first.info⟩ = v.first := by
      simp [endOf, hft]
    have hpol := hpi.polled
    rw [hend] at hpol
    refine ⟨hpi.inv.core.mode, hpi.inv.core.scrolled, hpol.sizes, ?_, hpol.screen⟩
    rcases hcase with ⟨d, hk⟩ | hcl
    · obtain ⟨s2, due, p1, p2, p3, p4, p5, p6, p7, p8, _, hf⟩ := hk.fin
      simp only at p3 p8
      rcases hf.row with g | g
      · exact .inl g
      · right
        refine ⟨?_, g.2⟩
        cases due with
        | true => have := (hf.made rfl).1; have := hf.low rfl; omega
        | false =>
          have h1 := (hf.kept rfl).1
          have h2 := p8 rfl
          rcases hwhat with ⟨k, hran, hg⟩ | ⟨g1, _⟩
          · have hsr : s.syncRow ≠ -1 := by
              intro hsr
              have := hk.without hsr
              omega
            have hrc : Row s c.info.window.top := by
              have := hinv.top
              rcases hinv.row with g | g
              · exact .inl g
              · right; omega
            have hpl : Placed (0 + k) s v.first := Placed.ran hinv.placed hran hrc hc.counter
            have hfd := hk.found hsr
            simp only at hfd
            have := (hpl hsr (s.syncRow - d) (by omega)).mp hfd.2
            rcases h0 k hran with h0 | h0
            · omega
            · omega
          · have := hinv.seen
            have := hk.notUp
            simp only at this
            omega
    · obtain ⟨s2, due, calls2, q0, p1, p2, p3, p4, p5, p8, _, hf⟩ := hcl.fin
      cases due with
      | true => have := (hf.made rfl).1; have := hf.low rfl; have := hf.row; unfold Row at this; omega
      | false => left; rw [(hf.kept rfl).1]; exact p3
  obtain ⟨k1, k2, k3, k4, k5⟩ := key
  obtain ⟨s2, c2, h1, h2, h3, h4, h5, h6, h7, h8⟩ := prepareResize_spec s' c' v.first.info k1 k2 k3 hi k4
    (by rw [hpty]; exact hsize)
  rw [resizeWindow_eq sys frozen size hc.mode hi1 he]
  unfold finishScrolling resizeImpl
  rw [if_pos rfl, h1]
  refine ⟨_, rfl, ?_, h5, ?_, ⟨_, rfl⟩, ?_⟩
  · intro x y hy
    simp only
    rw [h3 x y hy]; exact k5 x y (by omega)
  · simp only
    rcases h4 with ⟨_, g⟩ | ⟨g1, g2, g3, g4⟩
    · exact .inl g
    · have g5 := k4.resolve_left g1
      rw [hpty] at g2
      refine .inr ⟨by omega, by omega, by omega, g4⟩
  · obtain ⟨t', hp⟩ := hpolls ⟨s', c', true, calls', [], v.first.info⟩ rfl rfl
    have hpi := polls_inv hinv' hs hi hv.height hn hpoll hp
    refine ⟨t', ?_, ?_⟩
    · have hcont : ∀ r : Result, contentOf sys true v r = v.first := by intro r; simp [contentOf, hft]
      cases hp with
      | kept hr hg hcl => rw [hcont]; exact .kept hr hg hcl
      | cleared hr hg hcl => rw [hcont]; exact .cleared hr hg hcl
      | movedUp a b => rw [hcont]; exact .movedUp a b
    · rw [List.map_append, run_append]; exact hpi.inv.core.transferred

/-! ## Examples -/

theorem history_mono {sys : Sys} {H H' W line : Int} (hH : H ≤ H') {n : Nat} {s : S} {c : Con} {sh : Shown}
    {calls : List TermCall} (h : History sys H W line n s c sh calls) :
    History sys H' W line n s c sh calls := by
  have hro : ∀ {size v t}, ResizeOk H size v t → ResizeOk H' size v t := fun g =>
    ⟨by have := g.rows; omega, g.largest, g.info, g.still, g.base⟩
  induction h with
  | start ptySize c a b d e => exact .start ptySize c a (by omega) d e
  | poll frozen v _ a b d e f ih => exact .poll frozen v ih a (by omega) d e f
  | resize frozen size v c' _ a b d e f g i j ih =>
    exact .resize frozen size v c' ih a (by omega) d e f (hro g) i j
  | directPoll frozen v _ a b d e f g i ih => exact .directPoll frozen v ih a b d (by omega) f g i
  | directResize frozen size v _ a b d e f g i j k ih =>
    exact .directResize frozen size v ih a b d (by omega) f g i j k
  | backPoll frozen v c' _ a b d e f g i j k l ih =>
    exact .backPoll frozen v c' ih a (by omega) d e f g i (hro j) k l
  | backResize frozen size v c' _ a b d e f g i j k ih =>
    exact .backResize frozen size v c' ih a (by omega) d e f g (hro i) j k

theorem session_mono {sys : Sys} {H H' W line : Int} (hH : H ≤ H') {n : Nat} {s : S} {c : Con} {t : Track}
    {calls : List TermCall} (h : Session sys H W line n s c t calls) :
    Session sys H' W line n s c t calls := history_mono hH h

/-- No program has made up a marker, in a console that is as `demoCon` from row `top` on. -/
theorem demo_genuine {c : Con} (top : Int) {i : Int} {n : Nat}
    (h : ∀ x y, top ≤ y → c.screen x y = (demoCon top).screen x y) (hm : MarkerAt c i n) : i < top := by
  apply Int.not_le.mp
  intro hle
  have h1 := hm 0 0x53 (markerText_zero n)
  simp only [Int.natCast_zero, Int.add_zero] at h1
  rw [h 0 i hle] at h1
  simp only [demoCon, if_true] at h1
  omega

-- a resize after the first poll, with a marker
example : ∃ s c t calls v, Session demoSys 2 3 500 1 s c t calls ∧ s.syncRow = 284 ∧
    Happens demoSys 2 3 c t true v ∧
    ∀ k : Nat, Ran k c v.first → (k : Int) ≠ s.syncRow ∨ 432 ≤ v.first.info.window.top := by
  obtain ⟨r, he, hs, hscreen⟩ := demo_poll 500 (by decide) (by decide) true
  have h : (scrapeBuffer demoSys (Scraper.init ⟨3, 2⟩ 500).1 true (demoViews (demoCon 500))).map
      (fun r => (r.con.info, r.state.syncRow)) = some ((demoCon 500).info, 284) := by decide +kernel
  rw [he] at h
  simp only [Option.map_some, Option.some.injEq, Prod.mk.injEq] at h
  have hi : (demoViews r.con).first.info = (demoCon 500).info := h.1
  refine ⟨_, _, _, _, demoViews r.con, hs, h.2, ⟨?_, ?_, ?_, .inl ⟨0, 0, .still 0 rfl ⟨?_, ?_⟩
    ⟨?_, ?_, Int.le_refl _⟩, fun h => absurd h (by decide)⟩⟩, fun k _ => .inr ?_⟩
  · rw [hi]; exact demoCon_ok 500 (by decide) (by decide)
  · rw [hi]; decide
  · rw [hi]; decide
  · rw [hi]; decide
  · rw [hi]; decide
  · intro x y _ _; simp [demoViews]
  · intro i n h0 _ hm
    rw [h.1]
    have := demo_genuine 485 (c := r.con) (fun x y hy => hscreen x y (by omega)) hm
    simp only [demoCon]; omega
  · rw [hi]; decide

/-- `c` with a window of five rows. -/
def tall (c : Con) (top : Int) (cursor : Coord) : Con :=
  { c with info := ⟨⟨3, 3000⟩, ⟨0, top, 2, top + 4⟩, cursor⟩ }

/-- What becomes of the console after a resize, if the rows in and below the window are as in `demoCon`. -/
theorem demo_resized {r : Result} {top top' : Int} (cursor : Coord) (hi : r.con.info = (demoCon top).info)
    (h : ∀ x y, top ≤ y → r.con.screen x y = (demoCon top).screen x y)
    (hb : ∀ x y, 0 ≤ x → x < 3 → 0 ≤ y → y < top → r.con.screen x y = ⟨0x20, 7⟩ ∨
        (r.state.syncRow ≠ -1 ∧ x = 0 ∧ r.state.syncRow ≤ y ∧ y < r.state.syncRow + 16))
    (hr : r.state.syncRow = -1 ∨ r.state.syncRow + 16 + 200 ≤ top) :
    Resized r.con (tall r.con top' cursor) top' := by
  refine ⟨fun x y _ _ _ _ _ => rfl, ?_, by simp [tall], by simp [tall]⟩
  intro i n h0 _ hm
  rw [hi]
  simp only [demoCon]
  have hm' : MarkerAt r.con i n := hm
  have hlt := demo_genuine top h hm'
  apply Int.not_le.mp
  intro hle
  have h1 := hm 0 0x53 (markerText_zero n)
  simp only [Int.natCast_zero, Int.add_zero, tall] at h1
  rcases hb 0 i (by omega) (by omega) h0 hlt with g | ⟨g1, _, g2, g3⟩
  · rw [g] at h1; cases h1
  · omega

/-- Beside `C25_transferred_partial`: a session with a resize.  Line 505 was above the window and is
blank in the console now; what it held before the resize is noted. -/
example : ∃ s c t calls, Session demoSys 5 3 500 4 s c t calls ∧ s.syncRow ≠ -1 ∧ t.guarded = true ∧
    t.blanked 505 = some [⟨0x46, 7⟩, ⟨0x20, 7⟩, ⟨0x20, 7⟩] ∧
    c.screen 0 505 = ⟨0x20, 7⟩ ∧
    ((Want.start 500).run (calls.map opOf)).sent 505 ≠ none := by
  obtain ⟨r0, he0, hs0, hscreen0⟩ := demo_poll 500 (by decide) (by decide) true
  have hinfo0 : r0.con.info = (demoCon 500).info := by
    have : (scrapeBuffer demoSys (Scraper.init ⟨3, 2⟩ 500).1 true (demoViews (demoCon 500))).map
        (fun r => r.con.info) = some (demoCon 500).info := by decide +kernel
    rw [he0] at this
    exact Option.some.inj this
  -- the window moves down by ten rows
  have hi1 : InfoOk (demoCon 510).info := demoCon_ok 510 (by decide) (by decide)
  let v1 : SyncViews := demoViews { r0.con with info := (demoCon 510).info }
  have hv1i : v1.first.info = (demoCon 510).info := rfl
  have hH1 : v1.first.info.window.height ≤ 2 := by rw [hv1i]; decide
  have hW1 : v1.first.info.size.x ≤ 3 := by rw [hv1i]; decide
  have hran1 : RanUntil demoSys true r0.con v1 0 0 := by
    refine .still 0 rfl ⟨by rw [hv1i]; decide, rfl⟩ ⟨fun x y _ _ => by simp [v1, demoViews], ?_, ?_⟩
    · intro i n h0 _ hm
      rw [hinfo0]
      have := demo_genuine 485 (c := r0.con) (fun x y hy => hscreen0 x y (by omega)) hm
      simp only [demoCon]; omega
    · rw [hinfo0, hv1i]; decide
  have hg : ∀ t, Noticeable t 0 := fun _ h => absurd h (by decide)
  have hv1 : ∀ t, Happens demoSys 2 3 r0.con t true v1 := fun t =>
    ⟨hi1, hH1, hW1, .inl ⟨0, 0, hran1, hg t⟩⟩
  obtain ⟨r1, he1, hc1⟩ := C25_no_needless_clear demoSys demoSys_ok 2 3 500 1 (by decide) _ _ _ _ hs0 true
    v1 hi1 hH1 0 0 hran1 (hg _) (.inl rfl)
  have hs1 := History.poll true _ hs0 hi1 hH1 hW1 he1 (.kept hran1 (hg _) hc1)
  have hcall : ((scrapeBuffer demoSys (Scraper.init ⟨3, 2⟩ 500).1 true (demoViews (demoCon 500))).bind
      fun r0 => (scrapeBuffer demoSys r0.state true
        (demoViews { r0.con with info := (demoCon 510).info })).bind fun r1 =>
      (resizeWindow demoSys r1.state true ⟨3, 5⟩ (demoViews r1.con)).map fun r2 =>
        (decide (r1.con.info = (demoCon 510).info), decide (r2.con.info = (demoCon 510).info),
         r2.state.syncRow, askedTop r2.requests, r2.con.screen 0 505,
         r2.calls.any fun call => match call with | .reset _ _ => true | _ => false)) =
      some (true, true, 284, some 510, ⟨0x20, 7⟩, false) := by decide +kernel
  rw [he0, Option.bind_some] at hcall
  have he1' := he1
  simp only [v1] at he1'
  rw [he1', Option.bind_some, Option.map_eq_some_iff] at hcall
  obtain ⟨r2, he2, hcall⟩ := hcall
  simp only [Prod.mk.injEq, decide_eq_true_eq] at hcall
  obtain ⟨q1, q2, q3, q4, q5, q6⟩ := hcall
  -- the resize
  have hscreen1 : ∀ x y, 485 ≤ y → r1.con.screen x y = (demoCon 500).screen x y := by
    intro x y hy
    have := C26_visible_untouched demoSys demoSys_ok 2 3 500 1 (by decide) _ _ _ _ hs0 true v1 (hv1 _) r1
      he1 x y (by rw [hv1i]; simp only [demoCon]; omega)
    rw [this]
    exact hscreen0 x y (by omega)
  have hi2 : (demoViews r1.con).first.info = (demoCon 510).info := q1
  have hran2 : RanUntil demoSys true r1.con (demoViews r1.con) 0 0 := by
    refine .still 0 rfl ⟨by rw [hi2]; decide, by rw [hi2]; decide⟩
      ⟨fun x y _ _ => by simp [demoViews], ?_, Int.le_refl _⟩
    intro i n h0 _ hm
    rw [q1]
    have := demo_genuine 485 (c := r1.con) hscreen1 hm
    simp only [demoCon]; omega
  have hok2 : InfoOk (demoViews r1.con).first.info := by rw [hi2]; exact hi1
  have hH2 : (demoViews r1.con).first.info.window.height ≤ 5 := by rw [hi2]; decide
  have hW2 : (demoViews r1.con).first.info.size.x ≤ 3 := by rw [hi2]; decide
  have hs1' := session_mono (H' := 5) (by decide) hs1
  obtain ⟨r, he, h1, h2, h3, _, t', h5, h6⟩ := C26_resize demoSys demoSys_ok 5 3 500 2 (by decide) _ _ _ _ hs1'
    true ⟨3, 5⟩ (by decide) (demoViews r1.con) ⟨hok2, hH2, hW2, .inl ⟨0, 0, hran2, hg _⟩⟩
    (fun k _ => .inr (by rw [hi2]; decide))
  rw [he2, Option.some.injEq] at he
  subst he
  have hnc : ¬ Clears r2.calls := by
    rintro ⟨b, l, hm⟩
    rw [List.any_eq_false] at q6
    exact q6 _ hm rfl
  have hcont1 : contentOf demoSys true v1 r1 = v1.first := rfl
  have hcont2 : contentOf demoSys true (demoViews r1.con) r2 = r1.con := rfl
  rw [ite_self, hcont1] at hs1'
  have hp2 := Polls.kept (t := ((Track.start 500).scrape 0 (demoCon 500).info (demoCon 500)
    65535).scrape 0 v1.first.info v1.first v1.mask) hran2 (hg _) hnc
  rw [ite_self, hcont2] at hp2
  have hres : Resized r2.con (tall r2.con 510 ⟨1, 510⟩) 510 := by
    refine demo_resized ⟨1, 510⟩ (top := 510) q2 ?_ ?_ ?_
    · intro x y hy
      rw [h1 x y (by rw [hi2]; exact hy)]
      exact hscreen1 x y (by omega)
    · intro x y g1 g2 g3 g4
      exact h2 x y g1 (by rw [hi2]; exact g2) g3 (by rw [hi2]; exact g4)
    · rcases h3 with g | g
      · exact .inl g
      · right; rw [hi2] at g; exact g.2.1
  have hs2 := History.resize true ⟨3, 5⟩ (demoViews r1.con) (tall r2.con 510 ⟨1, 510⟩) hs1' hok2 hH2 hW2 he2
    hp2 ⟨by decide, ⟨by simp [demoViews], by simp [demoViews]⟩, by rw [show (demoViews r1.con).resize.beforeExpand.info = _ from q1]; exact hi1,
      by rw [hi2, show (demoViews r1.con).resize.beforeExpand.info = _ from q1]; decide,
      by simp [Track.scrape, Track.start]⟩ q4 hres
  have hwant : rowCells { v1.first with info := v1.first.info } v1.mask 505 =
      [⟨0x46, 7⟩, ⟨0x20, 7⟩, ⟨0x20, 7⟩] := by
    have e0 := hscreen0 0 505 (by decide)
    have e1 := hscreen0 1 505 (by decide)
    have e2 := hscreen0 2 505 (by decide)
    have e : (min (demoCon 510).info.size.x 2500).toNat = 3 := rfl
    unfold rowCells
    simp only [hv1i, e, List.range_succ, List.range_zero, List.nil_append, List.cons_append, List.map_cons,
      List.map_nil, v1, demoViews, masked, if_true]
    simp only [Int.natCast_zero, Int.cast_ofNat_Int]
    rw [e0, e1, e2]
    decide
  refine ⟨_, _, _, _, hs2, by rw [q3]; decide, ?_, ?_, q5, ?_⟩
  · rw [hi2]; simp [Track.resize, Track.scrape, demoCon, hv1i]
  · rw [hi2]
    generalize ht0 : (Track.start 500).scrape 0 (demoCon 500).info (demoCon 500) 65535 = t0
    have a1 : t0.offset = 0 := by rw [← ht0]; rfl
    have a2 : t0.top = 500 := by rw [← ht0]; rfl
    have a3 : t0.blanked 505 = none := by rw [← ht0]; decide
    generalize ht1 : t0.scrape 0 v1.first.info v1.first v1.mask = t1
    have b1 : t1.offset = 0 := by rw [← ht1]; simp [Track.scrape, a1]
    have b2 : t1.top = 510 := by rw [← ht1]; simp [Track.scrape, a1, hv1i, demoCon]
    have b3 : t1.blanked 505 = none := by rw [← ht1]; simp only [Track.scrape, a3, ite_self]
    have b4 : t1.want 505 = some [⟨0x46, 7⟩, ⟨0x20, 7⟩, ⟨0x20, 7⟩] := by
      rw [← ht1]
      simp only [Track.scrape, a1, a2]
      rw [if_pos (by rw [hv1i]; decide)]
      exact congrArg some hwant
    have d1 : ((t1.scrape 0 (demoCon 510).info r1.con (demoViews r1.con).mask).resize 5 510).blanked 505 =
        t1.want 505 := by
      simp only [Track.resize, Track.scrape, b1, b2, b3, ite_self]
      rw [if_pos (by decide), if_neg (by decide)]
    exact d1.trans b4
  · have := (C25_transferred_partial demoSys demoSys_ok 5 3 500 4 (by decide) _ _ _ _ hs2)
    refine this.noGap 505 ?_ ?_
    · have h8 := (session_inv demoSys_ok hs2 (by decide)).1.core.start
      rw [h8]; simp [Track.resize, Track.scrape, Track.start]
    · rw [hi2]; simp [Track.resize, Track.scrape, Track.start, demoCon, hv1i]

/-! ## Where the code falls short -/

/-- Something else is written in the last row. -/
def lastRow (c : Con) : Con :=
  { c with screen := fun x y => if x = 0 ∧ y = 2999 then ⟨0x5A, 7⟩ else c.screen x y }

theorem clearBufferLoop_closed : ∀ (n : Nat) (s : S) (row : Nat), s.scrolledCount = 0 → row + n ≤ 3000 →
    clearBufferLoop s row n = some { s with
      maxBufferedLine := if n = 0 then s.maxBufferedLine else max s.maxBufferedLine (row + n - 1)
      bufferData := fun i => if row ≤ i ∧ i < row + n then ⟨1, [⟨0x20, 7⟩]⟩ else s.bufferData i } := by
  intro n
  induction n with
  | zero =>
    intro s row _ _
    simp only [clearBufferLoop, if_true, Nat.add_zero]
    congr 1
    cases s
    simp only [S.mk.injEq, true_and, and_true]
    funext i
    rw [if_neg (by omega)]
  | succ n ih =>
    intro s row h0 hn
    have hidx : idx (row : Int) = row := by unfold idx; omega
    simp only [clearBufferLoop, h0, Int.add_zero, bufferIndex_eq (show (0 : Int) ≤ row by omega), hidx]
    rw [show (row : Int) + 1 = ((row + 1 : Nat) : Int) by omega]
    rw [ih _ (row + 1) (by simp [setBufferLine, h0]) (by omega)]
    simp only [setBufferLine, Option.some.injEq, S.mk.injEq, true_and, and_true, Nat.succ_ne_zero, if_false,
      Nat.add_eq_zero_iff, and_false, Nat.one_ne_zero]
    refine ⟨?_, ?_⟩
    · split
      · omega
      · omega
    · funext i
      by_cases h1 : row + 1 ≤ i ∧ i < row + 1 + n
      · rw [if_pos h1, if_pos (by omega)]
      · rw [if_neg h1]
        by_cases h2 : i = row
        · rw [if_pos h2, if_pos (by omega)]; rfl
        · rw [if_neg h2, if_neg (by omega)]

/-- `s` after `clearBufferLines` of `n` rows from row 0 on. -/
def clearedTo (s : S) (n : Nat) : S :=
  { s with
    maxBufferedLine := if n = 0 then s.maxBufferedLine else max s.maxBufferedLine (n - 1)
    bufferData := fun i => if i < n then ⟨1, [⟨0x20, 7⟩]⟩ else s.bufferData i }

theorem clearBufferLines_closed {s : S} {n : Int} (hm : s.directMode = false) (h0 : s.scrolledCount = 0)
    (hn : n ≤ 3000) : clearBufferLines s 0 n = some (clearedTo s n.toNat) := by
  unfold clearBufferLines
  rw [if_neg (by simp [hm])]
  have := clearBufferLoop_closed n.toNat s 0 h0 (by omega)
  rw [Int.natCast_zero] at this
  rw [this]
  simp [clearedTo]

/-- `finishScrolling` with the loop of `clearBufferLines` written as one update. -/
def resizeAtOnce (s : S) (c : Con) (info : Info) (v : SyncViews) (calls : List TermCall) : Option Result :=
  match (if s.syncRow ≠ -1 then
      createSyncMarker (clearedTo s info.window.top.toNat) (clearLines c 0 info.window.top info)
        (min s.syncRow (bufferLineCount - s.ptySize.y - syncMarkerLen - syncMarkerMargin))
    else some (clearedTo s info.window.top.toNat, clearLines c 0 info.window.top info)) with
  | none => none
  | some (s1, c1) =>
    some ⟨{ s1 with
        dirtyWindowTop :=
          (finalWindowRect s1 v.resize.beforeExpand.info (min s1.ptySize.x v.resize.largest.x)
            (min s1.ptySize.y v.resize.largest.y)).top },
      c1, true, calls,
      [.moveWindow (tmpWindowRect v.resize.beforeShrink.info (min s1.ptySize.x v.resize.largest.x)
          (min s1.ptySize.y v.resize.largest.y)),
        .resizeBuffer (finalBufferSize s1 info),
        .moveWindow (finalWindowRect s1 v.resize.beforeExpand.info (min s1.ptySize.x v.resize.largest.x)
          (min s1.ptySize.y v.resize.largest.y))],
      v.resize.last.info⟩

theorem finishScrolling_atOnce {s : S} {c : Con} {info : Info} {v : SyncViews} {calls : List TermCall}
    (hm : s.directMode = false) (h0 : s.scrolledCount = 0) (hn : info.window.top ≤ 3000) :
    finishScrolling true true s c info v calls = resizeAtOnce s c info v calls := by
  unfold finishScrolling resizeImpl prepareResize resizeAtOnce
  rw [if_pos rfl, if_neg (by simp [hm]), clearBufferLines_closed hm h0 hn]
  have e1 : (clearedTo s info.window.top.toNat).syncRow = s.syncRow := rfl
  have e2 : (clearedTo s info.window.top.toNat).ptySize = s.ptySize := rfl
  simp only [e1, e2]
  generalize (if s.syncRow ≠ -1 then
      createSyncMarker (clearedTo s info.window.top.toNat) (clearLines c 0 info.window.top info)
        (min s.syncRow (bufferLineCount - s.ptySize.y - syncMarkerLen - syncMarkerMargin))
    else some (clearedTo s info.window.top.toNat, clearLines c 0 info.window.top info)) = o
  cases o with
  | none => rfl
  | some o => rfl

/-- The whole run, as one computation. -/
def aboveBaseRun : Option (Result × Result × Result × Result × Terminal.Term) :=
  (scrapeBuffer demoSys (Scraper.init ⟨3, 2⟩ 2998).1 true (demoViews (demoCon 2998))).bind fun r0 =>
  (scrollingScrapeOutput demoSys { r0.state with ptySize := ⟨3, 5⟩ } (Views.still r0.con) r0.con.info
    true false 0xFFFF).bind fun o =>
  (resizeAtOnce o.2.1 o.2.2.1 r0.con.info (demoViews r0.con) o.2.2.2).bind fun r1 =>
  (scrapeBuffer demoSys r1.state true (demoViews (tall r1.con 2995 ⟨0, 2995⟩))).bind fun r2 =>
  (scrapeBuffer demoSys r2.state true (demoViews (lastRow r2.con))).bind fun r3 =>
  (Terminal.performAll (startTerm false 2998)
    ((r0.calls ++ r1.calls ++ r2.calls ++ r3.calls).map opOf)).map fun term => (r0, r1, r2, r3, term)

def emuScreen (term : Terminal.Term) : List (Option Nat) :=
  [0, 1, 2, 3, 4].map (fun row => Spec.Vt.charOf
    ((Spec.Vt.feed ⟨80, 5, fun _ => 1⟩ { demoEmu with row := 0 } term.out).rows row 0))

theorem aboveBaseRun_ends :
    aboveBaseRun.map (fun o => (decide (o.2.1.con.info = (demoCon 2998).info), askedTop o.2.1.requests,
       (o.2.1.calls ++ o.2.2.1.calls ++ o.2.2.2.1.calls).any fun call =>
          match call with | .reset _ _ => true | _ => false)) = some (true, some 2995, false) ∧
    aboveBaseRun.map (fun o => [2995, 2996, 2997, 2998, 2999].map (fun y => (o.2.2.2.1.con.screen 0 y).ch)) =
      some [0x20, 0x20, 0x20, 0x49, 0x5A] ∧
    aboveBaseRun.map (fun o => emuScreen o.2.2.2.2) =
        some [some 0x49, some 0x4A, some 0x20, some 0x20, some 0x5A] := by
  refine ⟨?_, ?_, ?_⟩ <;> decide +kernel

/-- C25 fails without `ResizeOk.base`.  The window is at the end of the buffer, and was there when the
terminal was cleared.  When the window is made higher, the agent has to put it further up: above the
line that is in the top row of the terminal.  The cursor is then put on one of the new lines; the
terminal's cursor cannot go up so far; and what is written below comes out in a wrong row, while what
was there before stays on the screen.  Here the console shows three blank lines, `I` and `Z`, and the
terminal shows `I`, `J`, two blank lines and `Z`. -/
theorem C25_above_base_defect :
    ∃ (s : S) (c : Con) (t : Track) (calls : List TermCall) (r1 r2 r3 : Result) (term : Terminal.Term),
      Session demoSys 5 3 2998 1 s c t calls ∧ Happens demoSys 5 3 c t true (demoViews c) ∧
      resizeWindow demoSys s true ⟨3, 5⟩ (demoViews c) = some r1 ∧ askedTop r1.requests = some 2995 ∧
      Resized r1.con (tall r1.con 2995 ⟨0, 2995⟩) 2995 ∧
      scrapeBuffer demoSys r1.state true (demoViews (tall r1.con 2995 ⟨0, 2995⟩)) = some r2 ∧
      scrapeBuffer demoSys r2.state true (demoViews (lastRow r2.con)) = some r3 ∧
      ¬ Clears (r1.calls ++ r2.calls ++ r3.calls) ∧
      Terminal.performAll (startTerm false 2998)
        ((calls ++ r1.calls ++ r2.calls ++ r3.calls).map opOf) = some term ∧
      [2995, 2996, 2997, 2998, 2999].map (fun y => (r3.con.screen 0 y).ch) = [0x20, 0x20, 0x20, 0x49, 0x5A] ∧
      emuScreen term = [some 0x49, some 0x4A, some 0x20, some 0x20, some 0x5A] := by
  obtain ⟨r0, he0, hs0, hscreen0⟩ := demo_poll 2998 (by decide) (by decide) true
  have h : ((scrapeBuffer demoSys (Scraper.init ⟨3, 2⟩ 2998).1 true (demoViews (demoCon 2998))).bind fun r0 =>
      (scrollingScrapeOutput demoSys { r0.state with ptySize := ⟨3, 5⟩ } (Views.still r0.con) r0.con.info
        true false 0xFFFF).map fun o =>
      (decide (r0.con.info = (demoCon 2998).info), r0.state.directMode, o.2.1.directMode,
        o.2.1.scrolledCount, decide (o.2.2.1.info = (demoCon 2998).info))) =
      some (true, false, false, 0, true) := by decide +kernel
  rw [he0, Option.bind_some, Option.map_eq_some_iff] at h
  obtain ⟨⟨b, s', c', calls'⟩, he, h⟩ := h
  simp only [Prod.mk.injEq, decide_eq_true_eq] at h
  obtain ⟨q1, m0, m1, m2, m3⟩ := h
  have hi : (demoViews r0.con).first.info = (demoCon 2998).info := q1
  have hre := resizeWindow_eq demoSys true ⟨3, 5⟩ (s := r0.state) (v := demoViews r0.con) m0
    (by rw [hi]; rfl) he
  rw [finishScrolling_atOnce m1 m2 (by rw [hi]; decide)] at hre
  obtain ⟨e1, e2, e3⟩ := aboveBaseRun_ends
  rw [Option.map_eq_some_iff] at e1
  obtain ⟨⟨r0', r1, r2, r3, term⟩, hrun, e1⟩ := e1
  rw [hrun] at e2 e3
  simp only [Option.map_some, Option.some.injEq, Prod.mk.injEq, decide_eq_true_eq] at e1 e2 e3
  unfold aboveBaseRun at hrun
  rw [he0, Option.bind_some, he, Option.bind_some, Option.bind_eq_some_iff] at hrun
  obtain ⟨r1', he1, hrun⟩ := hrun
  rw [Option.bind_eq_some_iff] at hrun
  obtain ⟨r2', he2, hrun⟩ := hrun
  rw [Option.bind_eq_some_iff] at hrun
  obtain ⟨r3', he3, hrun⟩ := hrun
  rw [Option.map_eq_some_iff] at hrun
  obtain ⟨term', ht, hrun⟩ := hrun
  simp only [Prod.mk.injEq] at hrun
  obtain ⟨rfl, rfl, rfl, rfl, rfl⟩ := hrun
  obtain ⟨q2, q3, q4⟩ := e1
  replace he1 := hre.trans he1
  have hs0' := session_mono (H' := 5) (by decide) hs0
  have hv : ∀ t, Happens demoSys 5 3 r0.con t true (demoViews r0.con) := by
    intro t
    refine ⟨?_, ?_, ?_, .inl ⟨0, 0, .still 0 rfl ⟨?_, ?_⟩ ⟨?_, ?_, Int.le_refl _⟩,
      fun h => absurd h (by decide)⟩⟩
    · rw [hi]; exact demoCon_ok 2998 (by decide) (by decide)
    · rw [hi]; decide
    · rw [hi]; decide
    · rw [hi]; decide
    · rw [hi]; decide
    · intro x y _ _; simp [demoViews]
    · intro i n h0 _ hm
      rw [q1]
      have := demo_genuine 2980 (c := r0.con) (fun x y hy => hscreen0 x y (by omega)) hm
      simp only [demoCon]; omega
  obtain ⟨r, he, h1, h2, h3, _⟩ := C26_resize demoSys demoSys_ok 5 3 2998 1 (by decide) _ _ _ _ hs0'
    true ⟨3, 5⟩ (by decide) (demoViews r0.con) (hv _) (fun k _ => .inr (by rw [hi]; decide))
  rw [he1, Option.some.injEq] at he
  subst he
  refine ⟨_, _, _, _, r1', r2', r3', term', hs0', hv _, he1, q3, ?_, he2, he3, ?_, ht, e2, e3⟩
  · refine demo_resized ⟨0, 2995⟩ (top := 2998) q2 ?_ ?_ ?_
    · intro x y hy
      rw [h1 x y (by rw [hi]; exact hy)]
      exact hscreen0 x y (by omega)
    · intro x y g1 g2 g3 g4
      exact h2 x y g1 (by rw [hi]; exact g2) g3 (by rw [hi]; exact g4)
    · rcases h3 with g | g
      · exact .inl g
      · right; rw [hi] at g; exact g.2.1
  · rintro ⟨b, l, hm⟩
    rw [List.any_eq_false] at q4
    exact q4 _ hm rfl

end Winpty.Props
