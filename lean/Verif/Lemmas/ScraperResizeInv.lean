import Verif.Lemmas.ScraperResize
import Verif.Spec.ScraperSession

/-! A resize keeps up the invariant of scraping. -/
namespace Winpty.Scraper

open Winpty.Spec.Scrape
open Winpty.SmallRect
open Winpty.ConsoleLine (Cell Obj Rep)
open Winpty.Agent (TermCall)
open Winpty.Spec.Term

/-! ## What preparing a resize does -/

theorem no_marker_cleared {c : Con} {info : Info} (hinfo : c.info = info) (hi : InfoOk info) {i : Int} {n : Nat}
    (h0 : 0 ≤ i) (hlt : i < info.window.top) (hm : MarkerAt (clearLines c 0 info.window.top info) i n) :
    False := by
  obtain ⟨hs1, hs2, hs3, _, _, _, ht0, htb, hb, _⟩ := hi
  have hcs := clearLines_screen c 0 info.window.top
  rw [hinfo] at hcs
  have h1 := hm 0 0x53 (markerText_zero n)
  simp only [Int.natCast_zero, Int.add_zero] at h1
  rw [hcs, if_pos ⟨⟨by omega, by omega⟩, ⟨h0, by omega⟩, h0, by omega⟩] at h1
  cases h1

/-- The state and the console after preparing a resize. -/
structure Prepared (s : S) (c : Con) (info : Info) (s' : S) (c' : Con) : Prop where
  same : s' = { s with maxBufferedLine := s'.maxBufferedLine, bufferData := s'.bufferData,
                       syncRow := s'.syncRow, syncCounter := s'.syncCounter }
  sizes : c'.info = info
  blank : ∀ l, s.scrolledCount ≤ l → l < info.window.top + s.scrolledCount →
    ∃ o, s'.bufferData (idx l) = ConsoleLine.blank o 7
  others : ∀ i, (∀ l, s.scrolledCount ≤ l → l < info.window.top + s.scrolledCount → idx l ≠ i) →
    s'.bufferData i = s.bufferData i
  maxLo : s.maxBufferedLine ≤ s'.maxBufferedLine
  maxHi : s'.maxBufferedLine ≤ max s.maxBufferedLine (info.window.top + s.scrolledCount - 1)
  without : s.syncRow = -1 → s'.syncRow = -1 ∧ s'.syncCounter = s.syncCounter
  row : s.syncRow ≠ -1 → s'.syncRow = min s.syncRow (3000 - s.ptySize.y - 216) ∧ 1 ≤ s'.syncRow ∧
    s'.syncCounter = (s.syncCounter + 1) % 2 ^ 32
  placed : s'.syncRow ≠ -1 → MarkerAt c' s'.syncRow s'.syncCounter
  only : ∀ i n, 0 ≤ i → n < 2 ^ 32 → i < info.window.top → MarkerAt c' i n →
    s'.syncRow ≠ -1 ∧ i = s'.syncRow ∧ n = s'.syncCounter

theorem prepareResize_prepared {s : S} {c : Con} {info : Info} (hm : s.directMode = false)
    (hscr : 0 ≤ s.scrolledCount) (hinfo : c.info = info) (hi : InfoOk info)
    (hrow : s.syncRow = -1 ∨ (0 ≤ s.syncRow ∧ s.syncRow + 216 ≤ info.window.top))
    {s' : S} {c' : Con} (h : prepareResize s c info = some (s', c')) : Prepared s c info s' c' := by
  have hi' := hi
  obtain ⟨hs1, hs2, hs3, _, _, _, ht0, htb, hb, _⟩ := hi'
  unfold prepareResize clearBufferLines at h
  rw [hm] at h
  simp only [Bool.false_eq_true, if_false] at h
  obtain ⟨s1, h1, h2, h3, _, h5, h6, h7⟩ := clearBufferLoop_spec info.window.top.toNat s 0 (by omega)
  rw [h1] at h
  simp only at h
  have e1 : s1.syncRow = s.syncRow := by rw [h2]
  have e2 : s1.ptySize = s.ptySize := by rw [h2]
  have e3 : s1.syncCounter = s.syncCounter := by rw [h2]
  have hc1i : (clearLines c 0 info.window.top info).info = info := hinfo
  have hno : ∀ i n, 0 ≤ i → i < info.window.top →
      ¬ MarkerAt (clearLines c 0 info.window.top info) i n :=
    fun i n g1 g2 g3 => no_marker_cleared hinfo hi g1 g2 g3
  by_cases hsr : s.syncRow = -1
  · rw [if_neg (by rw [e1]; simp [hsr])] at h
    simp only [Option.some.injEq, Prod.mk.injEq] at h
    obtain ⟨rfl, rfl⟩ := h
    constructor
    · rw [h2]
    · exact hc1i
    · intro l g1 g2; exact h3 l (by omega) (by omega)
    · intro i hi; exact h5 i (fun l g1 g2 => hi l (by omega) (by omega))
    · exact h6
    · omega
    · intro _; exact ⟨by rw [e1]; exact hsr, e3⟩
    · intro g; exact absurd hsr g
    · intro g; exact absurd (by rw [e1]; exact hsr) g
    · intro i n g1 _ g2 g3; exact absurd g3 (hno i n g1 g2)
  · rw [if_pos (by rw [e1]; exact hsr)] at h
    have hr := hrow.resolve_left hsr
    have hmin : min s1.syncRow (bufferLineCount - s1.ptySize.y - syncMarkerLen - syncMarkerMargin) =
        min s.syncRow (3000 - s.ptySize.y - 216) := by
      rw [e1, e2]; simp only [bufferLineCount, syncMarkerLen, syncMarkerMargin]; omega
    rw [hmin] at h
    generalize hR : min s.syncRow (3000 - s.ptySize.y - 216) = R at h
    have hR1 : 1 ≤ R := by
      unfold createSyncMarker at h
      split at h
      · cases h
      · omega
    obtain ⟨s2, c2, h8, h9⟩ := createSyncMarker_spec s1 (clearLines c 0 info.window.top info) R hR1
      (by rw [hc1i]; exact hs2) (by rw [hc1i, hs1]; omega)
    rw [h8] at h
    simp only [Option.some.injEq, Prod.mk.injEq] at h
    obtain ⟨rfl, rfl⟩ := h
    have hst := h9.state
    have f1 : s2.syncRow = R := by rw [hst]
    have f2 : s2.bufferData = s1.bufferData := by rw [hst]
    have f3 : s2.maxBufferedLine = s1.maxBufferedLine := by rw [hst]
    constructor
    · rw [hst, h2]
    · rw [h9.info]; exact hc1i
    · intro l g1 g2; rw [f2]; exact h3 l (by omega) (by omega)
    · intro i hi; rw [f2]; exact h5 i (fun l g1 g2 => hi l (by omega) (by omega))
    · omega
    · omega
    · intro g; exact absurd g hsr
    · intro _; exact ⟨by rw [f1, hR], by omega, by rw [hst, e3]⟩
    · intro _; rw [f1]; exact h9.placed
    · intro i n g1 gn g2 g3
      rcases h9.only i n g1 gn g3 with ⟨g4, g5⟩ | g4
      · exact ⟨by omega, by omega, g5⟩
      · exact absurd g4 (hno i n g1 g2)

/-! ## Where the window is put -/

theorem finalTop (s : S) (info : Info) (cols vis rows lo : Int) (hi : InfoOk info) (hv : 1 ≤ vis ∧ vis ≤ rows)
    (hr : rows ≤ 3000) (hd : s.dirtyLineCount ≤ 3000) (h1 : lo ≤ 3000 - rows) (h2 : lo ≤ info.window.top) :
    lo ≤ (finalWindowRect s info cols vis).top := by
  obtain ⟨hs1, _, _, _, _, _, ht0, htb, hb, hc0, hc1, _⟩ := hi
  have hw : lo ≤ (wantedWindowRect s info cols vis).top ∧ (wantedWindowRect s info cols vis).top ≤ 3000 ∧
      (wantedWindowRect s info cols vis).bottom = (wantedWindowRect s info cols vis).top + vis - 1 ∧
      0 ≤ (wantedWindowRect s info cols vis).top := by
    unfold wantedWindowRect mk4
    simp only [hs1, short]
    split
    · rename_i g; simp only; omega
    · simp only; omega
  unfold finalWindowRect
  split
  · rename_i hc
    simp only [cursorInWindow, Bool.and_eq_true, decide_eq_true_eq] at hc
    unfold Rect.ensureLineIncluded
    generalize wantedWindowRect s info cols vis = r at *
    split
    · simp only [mk4, short]; omega
    · split
      · simp only [mk4, short, Rect.height]; omega
      · exact hw.1
  · exact hw.1

/-! ## The invariant -/

theorem resize_blanked {t : Track} {rows top l : Int} :
    (t.resize rows top).blanked l =
      if t.offset ≤ l ∧ l < t.top then (match t.blanked l with
        | some old => some old
        | none => t.want l) else t.blanked l := rfl

theorem resize_blanked_keep {t : Track} {rows top l : Int} {old : List Cell} (h : t.blanked l = some old) :
    (t.resize rows top).blanked l = some old := by
  rw [resize_blanked, h]; split <;> rfl

set_option maxHeartbeats 800000 in
theorem resize_inv {H : Int} {n : Nat} {s : S} {c : Con} {t : Track} {w : Want} (hv : Inv H n s c t w)
    {info : Info} (hinfo : c.info = info) (hi : InfoOk info)
    (htop : s.scrapedLineCount = info.window.top + s.scrolledCount) (hdw : s.dirtyWindowTop ≠ -1)
    (hn : n + 1 < 2 ^ 32) {s1 : S} {c1 c2 : Con} (h : prepareResize s c info = some (s1, c1))
    {rows T : Int} (hrows : s.ptySize.y = rows) (hrH : rows ≤ H)
    (hT0 : 0 ≤ T) (hT : min (3000 - rows) info.window.top ≤ T) (hbase : t.base ≤ 3000 - rows + t.offset)
    (hres : Resized c1 c2 T) :
    Inv H (n + 1) { s1 with dirtyWindowTop := T } c2 (t.resize rows T) w := by
  have hc := hv.core
  have hoff := hv.offset
  have hcnt := hv.count
  have hlow := low_le s
  have hin := hc.inBuf
  have hi' := hi
  obtain ⟨hs1, hs2, hs3, _, _, _, ht0, htb, hb, _⟩ := hi'
  have hrow : s.syncRow = -1 ∨ (0 ≤ s.syncRow ∧ s.syncRow + 216 ≤ info.window.top) := by
    rcases hv.row with g | g
    · exact .inl g
    · right; omega
  have hp := prepareResize_prepared hc.mode hc.scrolled hinfo hi hrow h
  have hsame := hp.same
  have e1 : s1.directMode = s.directMode := by rw [hsame]
  have e2 : s1.scrolledCount = s.scrolledCount := by rw [hsame]
  have e3 : s1.scrapedLineCount = s.scrapedLineCount := by rw [hsame]
  have e4 : s1.dirtyLineCount = s.dirtyLineCount := by rw [hsame]
  have hlow' : low { s1 with dirtyWindowTop := T } = min s.scrapedLineCount (T + s.scrolledCount) := by
    unfold low; simp only; rw [if_neg (by omega), e2, e3]
  have hmax1 := hp.maxLo
  have hmax2 := hp.maxHi
  have hmh := hc.maxHi
  have hdeep := hc.deep hdw
  have hdirty := hc.dirty
  have hstart := hc.start
  have hcb := hc.base
  have hsy : s1.syncRow = -1 ∨ (1 ≤ s1.syncRow ∧ s1.syncRow + 216 ≤ info.window.top ∧
      s1.syncRow + 216 ≤ 3000 - rows) := by
    by_cases g : s.syncRow = -1
    · exact .inl (hp.without g).1
    · obtain ⟨g1, g2, _⟩ := hp.row g
      have := hrow.resolve_left g
      right; omega
  have hcn : s1.syncCounter ≤ s.syncCounter + 1 ∧ s.syncCounter ≤ s1.syncCounter := by
    by_cases g : s.syncRow = -1
    · rw [(hp.without g).2]; omega
    · rw [(hp.row g).2.2, Nat.mod_eq_of_lt (by omega)]; omega
  -- the markers in the console after the resize
  have hback : ∀ i m, 0 ≤ i → m < 2 ^ 32 → MarkerAt c2 i m →
      s1.syncRow ≠ -1 ∧ i = s1.syncRow ∧ m = s1.syncCounter := by
    intro i m g1 g2 g3
    have hg := hres.genuine i m g1 g2 g3
    have hw2 := hres.width
    rw [hp.sizes] at hg
    refine hp.only i m g1 g2 (by omega) (MarkerAt.congr (fun j hj => ?_) g3)
    exact (hres.kept 0 (i + j) (by omega) (by rw [hp.sizes]; omega) (by omega) (by omega)
      (by rw [hp.sizes]; omega)).symm
  -- the records of the blanked lines
  have hsentAbove : ∀ l, low { s1 with dirtyWindowTop := T } ≤ l → l < s.scrapedLineCount →
      w.sent l ≠ none := by
    intro l g1 g2
    rw [hlow'] at g1
    exact hc.noGap l (by omega) g2
  have hflag : ∀ l, s.scrolledCount ≤ l → l < s.scrapedLineCount → w.sent l ≠ none →
      (t.resize rows T).blanked l ≠ none := by
    intro l g1 g2 g3
    rw [resize_blanked, if_pos (by have := hc.top; omega)]
    cases hb : t.blanked l with
    | some old => exact fun g => by cases g
    | none => exact fun g => g3 (hc.only l g)
  have hidx : ∀ l, s.scrapedLineCount ≤ l → l ≤ s.maxBufferedLine →
      s1.bufferData (idx l) = s.bufferData (idx l) := by
    intro l g1 g2
    apply hp.others
    intro l' g3 g4 g5
    have := idx_inj (a := l') (b := l) (by omega) (by omega) g5
    omega
  have hcore : Core H { s1 with dirtyWindowTop := T } (t.resize rows T) w := by
    have hhigh := hc.highest
    constructor <;> (try rw [hlow'])
    · simp only; rw [e1]; exact hc.mode
    · simp only; rw [e2]; exact hc.scrolled
    · simp only; rw [e2, e3]; omega
    · simp only; have := hc.maxLo; omega
    · simp only; rw [e4, e2]; omega
    · simp only; rw [e4]; exact hdirty
    · intro _; simp only; rw [e3, e4, e2]; exact hdeep
    · intro i
      simp only
      by_cases hx : ∃ l, s.scrolledCount ≤ l ∧ l < info.window.top + s.scrolledCount ∧ idx l = i
      · obtain ⟨l, g1, g2, g3⟩ := hx
        obtain ⟨o, ho⟩ := hp.blank l g1 g2
        rw [← g3, ho]; exact ⟨_, _, ConsoleLine.rep_blank _ _⟩
      · rw [hp.others i (fun l g1 g2 g3 => hx ⟨l, g1, g2, g3⟩)]
        exact hc.objs i
    · intro l g1 g2
      simp only at g2 ⊢
      by_cases hl : l < s.scrapedLineCount
      · have hsn := hsentAbove l (by rw [hlow']; exact g1) hl
        cases hs : w.sent l with
        | none => exact absurd hs hsn
        | some x =>
          obtain ⟨o, ho⟩ := hp.blank l (by omega) (by omega)
          refine ⟨_, _, x, by rw [ho]; exact ConsoleLine.rep_blank _ _, rfl, .inr ⟨?_, SameLine.refl (by simp)⟩⟩
          exact hflag l (by omega) hl hsn
      · obtain ⟨rec, obs, cells, r1, r2, r3⟩ := hc.recs l (by omega) (by omega)
        refine ⟨rec, obs, cells, by rw [hidx l (by omega) (by omega)]; exact r1, r2, ?_⟩
        rcases r3 with r3 | ⟨r3, r4⟩
        · exact .inl r3
        · refine .inr ⟨?_, r4⟩
          rw [resize_blanked, if_neg (by have := hc.top; omega)]
          exact r3
    · intro l cells hl
      simp only
      rw [e3]
      rcases hc.lines l cells hl with h1 | ⟨h1, h2, h3, h4⟩ | ⟨old, x, h1, h2, h3, h4⟩
      · exact .inl h1
      · exact .inr (.inl ⟨h1, h2, h3, by omega⟩)
      · exact .inr (.inr ⟨old, x, resize_blanked_keep h1, h2, h3, h4⟩)
    · intro l old hl
      rw [resize_blanked] at hl
      split at hl
      · rename_i hr
        cases hb : t.blanked l with
        | some old' =>
          rw [hb] at hl
          simp only [Option.some.injEq] at hl
          subst hl
          exact hc.olds l _ hb
        | none =>
          rw [hb] at hl
          simp only at hl
          rcases hc.lines l old hl with ⟨x, h1, h2⟩ | ⟨_, _, h3, _⟩ | ⟨o, x, h1, _⟩
          · exact ⟨x, h1, .inl h2⟩
          · have := hc.top; omega
          · rw [hb] at h1; cases h1
      · exact hc.olds l old hl
    · exact hc.only
    · intro l hl; exact hc.unsent l (by simp only at hl; omega)
    · simp only; rw [e3]; exact hc.noGap
    · omega
    · exact hstart
    · simp only; rw [e2]; omega
    · simp only; rw [e3]; exact hc.top
    · simp only; omega
    · intro l g1 g2
      simp only at g2 ⊢
      by_cases hl : l < s.scrapedLineCount
      · have hsn := hsentAbove l (by rw [hlow']; exact g1) hl
        obtain ⟨o, ho⟩ := hp.blank l (by omega) (by omega)
        refine ⟨_, _, by rw [ho]; exact ConsoleLine.rep_blank _ _, ?_, ?_⟩
        · intro h; exact absurd h (hflag l (by omega) hl hsn)
        · intro _
          refine ⟨⟨by simp, by simp⟩, ?_⟩
          intro col c h
          split at h
          · simp only [Option.some.injEq] at h; exact h.symm
          · cases h
      · obtain ⟨rec, obs, r1, r2, r3⟩ := hc.kept l (by omega) (by omega)
        have hb : (t.resize rows T).blanked l = t.blanked l := by
          rw [resize_blanked, if_neg (by have := hc.top; omega)]
        refine ⟨rec, obs, by rw [hidx l (by omega) (by omega)]; exact r1, ?_, ?_⟩
        · rw [hb]; exact r2
        · rw [hb]; exact r3
  constructor
  · exact hcore
  · rw [hlow']
    unfold Row
    simp only
    rw [e2]
    rcases hsy with g | g
    · exact .inl g
    · right; omega
  · intro i m g1 g2 g3
    exact Nat.le_of_eq (hback i m g1 g2 g3).2.2
  · intro g i hi0
    simp only at g ⊢
    constructor
    · intro hm
      have := hback i _ hi0 (by omega) hm
      omega
    · intro he
      have hs := hsy.resolve_left g
      have hw2 := hres.width
      have : i = s1.syncRow := by omega
      rw [this]
      refine MarkerAt.congr (fun j hj => ?_) (hp.placed g)
      exact hres.kept 0 (s1.syncRow + j) (by omega) (by rw [hp.sizes]; omega) (by omega) (by omega)
        (by rw [hp.sizes]; omega)
  · simp only; rw [e2]; exact hoff
  · exact ⟨rfl, Int.le_trans (by decide) hT0⟩
  · rw [hlow']; simp only; rw [e2]; have := hres.down; omega
  · intro _; exact hres.down
  · simp only; omega
  · intro hg
    obtain ⟨g1, g2⟩ := hv.guard hg
    obtain ⟨g3, g4, _⟩ := hp.row g1
    simp only [Track.resize]
    omega

/-! ## A resize is a poll of a frozen console, and a change of the sizes -/

theorem resizeWindow_eq (sys : Sys) {s : S} (frozen : Bool) (size : Coord) {v : SyncViews}
    (hm : s.directMode = false) (hy : v.first.info.size.y = 3000) {b : Bool} {s' : S} {c' : Con}
    {calls : List TermCall}
    (h : scrollingScrapeOutput sys { s with ptySize := size } (Views.still v.first) v.first.info
      v.cursorVisible false v.mask = some (b, s', c', calls)) :
    resizeWindow sys s frozen size v = finishScrolling true true s' c' v.first.info v calls := by
  unfold resizeWindow syncConsoleContentAndSize
  have hcm : changeMode { s with ptySize := size } v.first.info = ({ s with ptySize := size }, []) :=
    changeMode_same (s := { s with ptySize := size }) hm hy
  rw [hcm]
  simp only [hm] at h
  simp only [hm, Bool.false_eq_true, if_false, leavesDirect, Bool.and_false, Bool.or_true]
  unfold syncScrolling
  simp only [if_true, h, List.nil_append]

theorem resizeWindow_poll (sys : Sys) {s : S} (frozen : Bool) (size : Coord) {v : SyncViews}
    (hm : s.directMode = false) (hy : v.first.info.size.y = 3000) {r : Result}
    (h : resizeWindow sys s frozen size v = some r) :
    ∃ r0, scrapeBuffer sys { s with ptySize := size } true v = some r0 ∧ r0.frozen = true ∧
      r.frozen = true ∧ r.calls = r0.calls ∧ r0.state.ptySize = size ∧
      resizeImpl r0.state r0.con v.first.info v.resize = some (r.state, r.con, r.requests) := by
  cases he : scrollingScrapeOutput sys { s with ptySize := size } (Views.still v.first) v.first.info
      v.cursorVisible false v.mask with
  | none =>
    unfold resizeWindow syncConsoleContentAndSize at h
    have hcm : changeMode { s with ptySize := size } v.first.info = ({ s with ptySize := size }, []) :=
      changeMode_same (s := { s with ptySize := size }) hm hy
    rw [hcm] at h
    simp only [hm, Bool.false_eq_true, if_false, leavesDirect, Bool.and_false, Bool.or_true] at h he
    unfold syncScrolling at h
    simp only [if_true, he] at h
    cases h
  | some o =>
    obtain ⟨b, s', c', calls⟩ := o
    rw [resizeWindow_eq sys frozen size hm hy he] at h
    have hpty := scrape_pty he
    refine ⟨⟨s', c', true, calls, [], v.first.info⟩, ?_, rfl, ?_⟩
    · rw [scrapeBuffer_scrolling sys true (s := { s with ptySize := size }) hm hy]
      have : frozenThroughout sys true = true := by simp [frozenThroughout]
      rw [this]
      exact syncScrolling_still sys _ v he
    · unfold finishScrolling at h
      rw [if_pos rfl] at h
      split at h
      · cases h
      · rename_i hres
        simp only [Option.some.injEq] at h
        subst h
        exact ⟨rfl, rfl, hpty, hres⟩

theorem Inv.pty {H : Int} {n : Nat} {s : S} {c : Con} {t : Track} {w : Want} (h : Inv H n s c t w)
    (size : Coord) : Inv H n { s with ptySize := size } c t w := by
  obtain ⟨hc, a, b, c, d, e, f, g, h, i⟩ := h
  refine ⟨?_, a, b, c, d, e, f, g, h, i⟩
  obtain ⟨a, b, c, d, e, f, g, h, i, j, k, l, m, n, o, p, q, r, s, u⟩ := hc
  exact ⟨a, b, c, d, e, f, g, h, i, j, k, l, m, n, o, p, q, r, s, u⟩

/-- What a poll of a session leaves. -/
structure PollsInv (H : Int) (n : Nat) (sys : Sys) (frozen : Bool) (v : SyncViews) (w : Want)
    (r : Result) (t : Track) : Prop where
  inv : Inv H n r.state r.con t (w.run (r.calls.map opOf))
  polled : Polled H w v.first.info (endOf sys frozen v r) r
  top : t.top = v.first.info.window.top + t.offset
  windowTop : t.windowTop = v.first.info.window.top

theorem polls_inv {H : Int} {n : Nat} {s : S} {c : Con} {t t' : Track} {w : Want} (hv : Inv H n s c t w)
    {sys : Sys} (hs : SysOk sys) {frozen : Bool} {v : SyncViews} (hi : InfoOk v.first.info)
    (hH : v.first.info.window.height ≤ H) (hn : n + 1 < 2 ^ 32) {r : Result}
    (he : scrapeBuffer sys s frozen v = some r) (hp : Polls sys c t frozen v r t') :
    PollsInv H (n + 1) sys frozen v w r t' := by
  cases hp with
  | kept hr hg hc =>
    obtain ⟨r', he', hcase, _, _, _, hp⟩ := poll_spec hv sys hs frozen v hi hH hn hr hg
    rw [he, Option.some.injEq] at he'
    subst he'
    rcases hcase with ⟨_, g, _⟩ | ⟨g, _⟩
    · refine ⟨g, hp, ?_, rfl⟩
      simp only [Track.scrape]; omega
    · exact absurd g hc
  | cleared hr hg hc =>
    obtain ⟨r', he', hcase, _, _, _, hp⟩ := poll_spec hv sys hs frozen v hi hH hn hr hg
    rw [he, Option.some.injEq] at he'
    subst he'
    rcases hcase with ⟨g, _⟩ | ⟨_, _, _, g⟩
    · exact absurd hc g
    · refine ⟨g, hp, ?_, rfl⟩
      simp only [Track.scrape, Track.start]; omega
  | movedUp hup hr =>
    obtain ⟨r', he', _, hf, g, _, hp⟩ := poll_up_spec hv sys hs frozen v hi hH hn hup hr
    rw [he, Option.some.injEq] at he'
    subst he'
    refine ⟨g, ?_, ?_, rfl⟩
    · unfold endOf; rw [hf]; exact hp
    · simp only [Track.scrape, Track.start]; omega

/-- What changing the sizes after a poll leaves. -/
theorem after_resize {H : Int} {n : Nat} {s : S} {c c' : Con} {t : Track} {w : Want}
    (hinv : Inv H n s c t w) {size : Coord} {v : SyncViews} (hpty : s.ptySize = size)
    (hi : InfoOk v.first.info) (hsizes : c.info = v.first.info)
    (hwt : t.windowTop = v.first.info.window.top) (hpt : t.top = v.first.info.window.top + t.offset)
    (hn : n + 1 < 2 ^ 32) {s' : S} {cl : Con} {requests : List Request}
    (himpl : resizeImpl s c v.first.info v.resize = some (s', cl, requests))
    (hok : ResizeOk H size v t) {top : Int} (htop : askedTop requests = some top)
    (hres : Resized cl c' top) : Inv H (n + 1) s' c' (t.resize size.y top) w := by
  unfold resizeImpl at himpl
  cases hprep : prepareResize s c v.first.info with
  | none => rw [hprep] at himpl; cases himpl
  | some o =>
    obtain ⟨s1, c1⟩ := o
    rw [hprep] at himpl
    simp only [Option.some.injEq, Prod.mk.injEq] at himpl
    obtain ⟨h1, h2, h3⟩ := himpl
    rw [← h3] at htop
    simp only [askedTop, List.getLast?_cons_cons, List.getLast?_singleton, Option.bind_some,
      Option.some.injEq] at htop
    rw [htop] at h1
    rw [← h1]
    rw [← h2] at hres
    have hlater := hinv.seen
    have hct := hinv.core.top
    have hoff := hinv.offset
    have hi' := hi
    obtain ⟨_, _, _, _, _, _, hw0, hwb, hw3, _⟩ := hi'
    have hscr : s.scrapedLineCount = v.first.info.window.top + s.scrolledCount := by omega
    have hprp := prepareResize_prepared hinv.core.mode hinv.core.scrolled hsizes hi (by
      have := low_le s
      rcases hinv.row with g | g
      · exact .inl g
      · right; omega) hprep
    have hd : s1.dirtyLineCount = s.dirtyLineCount := by rw [hprp.same]
    have hpy : s1.ptySize = size := by rw [hprp.same]; exact hpty
    have hr := hok.rows
    have hT : min (3000 - size.y) v.first.info.window.top ≤ top := by
      rw [← htop]
      refine finalTop s1 _ _ _ size.y _ hok.info ?_ hr.2.1 ?_ (by omega) ?_
      · rw [hpy]; have := hok.largest; omega
      · have := hinv.core.dirty; omega
      · exact hok.still
    exact resize_inv hinv hsizes hi hscr (by omega) (by omega) hprep (by rw [hpty]) hr.2.2 (by omega) hT
      hok.base hres

/-- What a resize of a session leaves. -/
theorem resized_inv {H : Int} {n : Nat} {s : S} {c c' : Con} {t t' : Track} {w : Want}
    (hv : Inv H n s c t w) {sys : Sys} (hs : SysOk sys) {frozen : Bool} {size : Coord} {v : SyncViews}
    (hi : InfoOk v.first.info) (hH : v.first.info.window.height ≤ H) (hn : n + 2 < 2 ^ 32) {r : Result}
    (he : resizeWindow sys s frozen size v = some r) (hp : Polls sys c t true v r t')
    (hok : ResizeOk H size v t') {top : Int} (htop : askedTop r.requests = some top)
    (hres : Resized r.con c' top) :
    Inv H (n + 2) r.state c' (t'.resize size.y top) (w.run (r.calls.map opOf)) ∧
    ∃ r0, r.calls = r0.calls ∧ Polled H w v.first.info v.first r0 := by
  have hft : frozenThroughout sys true = true := by simp [frozenThroughout]
  obtain ⟨r0, h0, f0, f1, hcalls, hpty, himpl⟩ := resizeWindow_poll sys frozen size hv.core.mode hi.1 he
  have hcont : contentOf sys true v r = contentOf sys true v r0 := by simp [contentOf, hft]
  have hp0 : Polls sys c t true v r0 t' := by
    cases hp with
    | kept hr hg hc =>
      have := Polls.kept (r := r0) hr hg (by rw [← hcalls]; exact hc)
      rw [hcont, f1]
      rwa [f0] at this
    | cleared hr hg hc =>
      have := Polls.cleared (r := r0) hr hg (by rw [← hcalls]; exact hc)
      rwa [← hcont] at this
    | movedUp hup hr =>
      have := Polls.movedUp (r := r0) hup hr
      rwa [← hcont] at this
  have hpi := polls_inv (hv.pty size) hs hi hH (by omega) h0 hp0
  have hend : endOf sys true v r0 = v.first := by simp [endOf, hft]
  have hpol := hpi.polled
  rw [hend] at hpol
  refine ⟨?_, r0, hcalls, hpol⟩
  rw [hcalls]
  exact after_resize hpi.inv hpty hi hpol.sizes hpi.windowTop hpi.top (by omega) himpl hok htop hres

end Winpty.Scraper
