import Verif.Lemmas.ScraperScrape

/-! Polls of a scrolling console, and the invariant that holds between them. -/
namespace Winpty.Scraper

open Winpty.Spec.Scrape
open Winpty.SmallRect
open Winpty.ConsoleLine (Cell Obj Rep)
open Winpty.Agent (TermCall)
open Winpty.Spec.Term

/-- The invariant after `n` polls, the console being `c`. -/
structure Inv (H : Int) (n : Nat) (s : S) (c : Con) (t : Track) (w : Want) : Prop where
  core : Core H s t w
  row : Row s (low s - s.scrolledCount)
  known : Known s c
  placed : Placed 0 s c
  offset : s.scrolledCount = t.offset
  seen : s.dirtyWindowTop = t.windowTop ∧ -1 ≤ t.windowTop
  top : low s - s.scrolledCount ≤ c.info.window.top
  window : s.dirtyWindowTop ≠ -1 → s.dirtyWindowTop ≤ c.info.window.top
  count : s.syncCounter ≤ n
  guard : t.guarded = true → s.syncRow ≠ -1 ∧ t.safe ≤ s.syncRow

theorem low_first {s : S} (h : s.dirtyWindowTop = -1) : low s = s.scrapedLineCount := by
  unfold low; rw [if_pos h]

theorem want_scrape (t : Track) (k : Nat) (info : Info) (content : Con) (mask : Nat) (scrolled f : Int)
    (h1 : scrolled = t.offset + k) (h2 : f = min t.top (info.window.top + scrolled)) :
    (t.scrape k info content mask).top = info.window.top + scrolled ∧
    (t.scrape k info content mask).base = t.base ∧
    (∀ l, (t.scrape k info content mask).want l =
      if f ≤ l ∧ l ≤ info.window.bottom + scrolled then
        some (rowCells { content with info := info } mask (l - scrolled)) else t.want l) ∧
    ∀ l, (t.scrape k info content mask).blanked l =
      if (f ≤ l ∧ l ≤ info.window.bottom + scrolled) ∧
          ¬ Blanked (rowCells { content with info := info } mask (l - scrolled)) then none
      else t.blanked l := by
  have e : min t.top (info.window.top + t.offset + k) = f := by omega
  refine ⟨by simp only [Track.scrape]; omega, rfl, ?_, ?_⟩
  · intro l
    simp only [Track.scrape]
    rw [e, show info.window.bottom + t.offset + k = info.window.bottom + scrolled by omega,
      show l - t.offset - k = l - scrolled by omega]
  · intro l
    simp only [Track.scrape]
    rw [e, show info.window.bottom + t.offset + k = info.window.bottom + scrolled by omega,
      show l - t.offset - k = l - scrolled by omega]

/-- After a scrape that kept everything. -/
theorem inv_kept {H : Int} {n : Nat} {s : S} {t : Track} {w : Want} {marker c content : Con} {info : Info}
    {visible : Bool} {mask : Nat} {d : Int} {s' : S} {c' : Con} {calls : List TermCall} (j m : Nat)
    (h : Core H s t w) (hk : Kept H s t w marker c content info visible mask d s' c' calls)
    (hoff : s.scrolledCount = t.offset + j) (hpl : Placed m s c)
    (hm : s.syncRow ≠ -1 → MarkerAt c (s.syncRow - d) s.syncCounter) (hm0 : s.syncRow = -1 → m = 0)
    (hcount : s.syncCounter ≤ n) (htop : info.window.top ≤ c.info.window.top) (h0 : 0 ≤ info.window.top) :
    d = m ∧ Inv H (n + 1) s' c' (t.scrape (j + m) info content mask) (w.run (calls.map opOf)) := by
  obtain ⟨s2, due, p1, p2, p3, p4, p5, _, _, hdue, ⟨hl2, _⟩, hf⟩ := hk.fin
  have hd0 := hk.nonneg
  have hdm : d = m := by
    by_cases hs : s.syncRow = -1
    · rw [hk.without hs, hm0 hs]; rfl
    · have := (hpl hs (s.syncRow - d) (by have := (hk.found hs).1; omega)).mp (hm hs)
      omega
  refine ⟨hdm, ?_⟩
  have hscr : s2.scrolledCount = t.offset + ((j + m : Nat) : Int) := by
    rw [p1, hoff]; simp only [Int.natCast_add]; omega
  obtain ⟨w1, w0, w2, w3⟩ := want_scrape t (j + m) info content mask s2.scrolledCount (low s2) hscr
    (by rw [hl2, h.top])
  have hsc := hf.scrolled
  have hsp := hf.scraped
  have hcnt := hf.count
  have hlow : low s' - s'.scrolledCount = info.window.top := by
    unfold low; rw [hf.window, hsc, hsp, if_neg (by omega)]; omega
  constructor
  · exact hf.core _ w1 w0 w2 w3
  · rw [hlow]; exact hf.row
  · exact hf.known
  · apply hf.placed
    intro hs2 i hi
    by_cases hs : s.syncRow = -1
    · rw [p3, hs, hk.without hs] at hs2; exact absurd (by omega) hs2
    · have := hpl hs i hi
      rw [p4, this, p3]
      omega
  · rw [hsc, hscr]; rfl
  · rw [hf.window]
    exact ⟨rfl, Int.le_trans (by decide) h0⟩
  · rw [hlow, hf.sizes]; exact htop
  · intro _; rw [hf.window, hf.sizes]; exact htop
  · omega
  · intro hg
    simp only [Track.scrape, decide_eq_true_eq] at hg ⊢
    cases due with
    | true => have := (hf.made rfl).1; omega
    | false => have := (hf.kept rfl).1; have := hdue rfl; omega

/-- After a scrape that cleared the terminal. -/
theorem inv_cleared {H : Int} {n : Nat} {s : S} {w : Want} {c : Con} {info : Info}
    {visible : Bool} {mask : Nat} {s' : S} {c' : Con} {calls : List TermCall}
    (hc : Cleared H s w c info visible mask s' c' calls)
    (hcount : s.syncCounter ≤ n) (htop : info.window.top ≤ c.info.window.top)
    (h0 : 0 ≤ info.window.top) : Inv H (n + 1) s' c'
      { (Track.start info.window.top).scrape 0 info c mask with
        guarded := decide (431 ≤ info.window.top ∧
          ¬ (s.dirtyWindowTop ≠ -1 ∧ info.window.top < s.dirtyWindowTop)) }
      (w.run (calls.map opOf)) := by
  obtain ⟨s2, due, calls', hcalls, p1, p2, p3, p4, p5, hdue, hl2, hf⟩ := hc.fin
  subst hcalls
  obtain ⟨w1, w0, w2, w3⟩ := want_scrape (Track.start info.window.top) 0 info c mask s2.scrolledCount
    (low s2) (by rw [p1]; rfl) (by rw [hl2, p1]; simp [Track.start])
  have hsc := hf.scrolled
  have hsp := hf.scraped
  have hlow : low s' - s'.scrolledCount = info.window.top := by
    unfold low; rw [hf.window, hsc, hsp, if_neg (by omega)]; omega
  have hcnt := hf.count
  have hrun : w.run ((TermCall.reset true info.window.top :: calls').map opOf) =
      (w.step (.clear info.window.top)).run (calls'.map opOf) := rfl
  rw [hrun]
  constructor
  · exact hf.core _ w1 w0 w2 w3
  · rw [hlow]; exact hf.row
  · exact hf.known
  · apply hf.placed
    intro hs2; exact absurd p3 hs2
  · rw [hsc, p1]; rfl
  · rw [hf.window]
    exact ⟨rfl, Int.le_trans (by decide) h0⟩
  · rw [hlow, hf.sizes]; exact htop
  · intro _; rw [hf.window, hf.sizes]; exact htop
  · omega
  · intro hg
    simp only [Track.scrape, Track.start, decide_eq_true_eq] at hg ⊢
    cases due with
    | true => have := (hf.made rfl).1; omega
    | false => have := hdue hg.2 rfl; omega

/-! ## `scrapeBuffer` in scrolling mode -/

theorem changeMode_same {s : S} {info : Info} (hm : s.directMode = false) (hy : info.size.y = 3000) :
    changeMode s info = (s, []) := by
  unfold changeMode bufferLineCount
  rw [if_neg]
  simp [hm, hy]

theorem scrapeBuffer_scrolling (sys : Sys) {s : S} (frozen : Bool) {v : SyncViews}
    (hm : s.directMode = false) (hy : v.first.info.size.y = 3000) :
    scrapeBuffer sys s frozen v =
      syncScrolling sys s (frozenThroughout sys frozen) false v v.first [] := by
  unfold scrapeBuffer syncConsoleContentAndSize
  rw [changeMode_same hm hy]
  simp only [hm, Bool.false_eq_true, if_false, leavesDirect, Bool.and_false, frozenThroughout,
    Bool.or_false]

theorem syncScrolling_still (sys : Sys) (s : S) (v : SyncViews) {s' : S} {c' : Con} {b : Bool}
    {calls : List TermCall}
    (h : scrollingScrapeOutput sys s (Views.still v.first) v.first.info v.cursorVisible false v.mask =
      some (b, s', c', calls)) :
    syncScrolling sys s true false v v.first [] = some ⟨s', c', true, calls, [], v.first.info⟩ := by
  unfold syncScrolling
  simp only [if_true, h, finishScrolling, Bool.false_eq_true, if_false, List.nil_append]

theorem syncScrolling_done (sys : Sys) (s : S) (v : SyncViews) {s' : S} {c' : Con}
    {calls : List TermCall}
    (h : scrollingScrapeOutput sys s v.tentative v.first.info v.cursorVisible true v.mask =
      some (true, s', c', calls)) :
    syncScrolling sys s false false v v.first [] = some ⟨s', c', false, calls, [], v.first.info⟩ := by
  unfold syncScrolling
  simp only [Bool.false_eq_true, if_false, h, finishScrolling, List.nil_append]

theorem syncScrolling_again (sys : Sys) (s : S) (v : SyncViews) {s1 s' : S} {c1 c' : Con} {b : Bool}
    {calls : List TermCall}
    (h : scrollingScrapeOutput sys s v.tentative v.first.info v.cursorVisible true v.mask =
      some (false, s1, c1, []))
    (h' : scrollingScrapeOutput sys s1 (Views.still v.frozen) v.first.info v.cursorVisible false v.mask =
      some (b, s', c', calls)) :
    syncScrolling sys s false false v v.first [] = some ⟨s', c', true, calls, [], v.first.info⟩ := by
  unfold syncScrolling
  simp only [Bool.false_eq_true, if_false, h, h', finishScrolling, List.nil_append]

/-! ## A poll -/

theorem kept_not_clears {H : Int} {s : S} {t : Track} {w : Want} {marker c content : Con} {info : Info}
    {visible : Bool} {mask : Nat} {d : Int} {s' : S} {c' : Con} {calls : List TermCall}
    (hk : Kept H s t w marker c content info visible mask d s' c' calls) : ¬ Clears calls := by
  obtain ⟨s2, due, _, _, _, _, _, _, _, _, _, hf⟩ := hk.fin
  obtain ⟨m, n, shown, cl, cc, he, _⟩ := hf.shape
  rw [he]; exact emitted_not_clears _ _ _ _ _ _

theorem cleared_clears {H : Int} {s : S} {w : Want} {c : Con} {info : Info}
    {visible : Bool} {mask : Nat} {s' : S} {c' : Con} {calls : List TermCall}
    (hc : Cleared H s w c info visible mask s' c' calls) : Clears calls := by
  obtain ⟨s2, due, calls', hcalls, _⟩ := hc.fin
  exact ⟨true, info.window.top, by rw [hcalls]; simp⟩

/-- Lines are sent one after the other, beginning at or before the first one never sent. -/
def InOrder (w : Want) (calls : List TermCall) : Prop :=
  ∃ m n shown cl cc R, calls = emitted shown cc cl (sends R cl cc m n) ∧
    (0 < n → ∀ l, w.base ≤ l → l < m → w.sent l ≠ none)

/-- What a poll does, besides keeping up the invariant. -/
structure Polled (H : Int) (w : Want) (info : Info) (content : Con) (r : Result) : Prop where
  ok : ∀ cfg : Spec.Vt.Cfg, H ≤ cfg.height → info.size.x ≤ cfg.width →
    (∀ line cells col, .sendLine line cells col ∈ r.calls → LineOk cfg cells) →
    OpsOk cfg w (r.calls.map opOf)
  screen : ∀ x y, info.window.top - 200 ≤ y → r.con.screen x y = content.screen x y
  order : (¬ Clears r.calls ∧ InOrder w r.calls) ∨
    (∃ calls, r.calls = .reset true info.window.top :: calls ∧ ¬ Clears calls ∧
      InOrder (w.step (.clear info.window.top)) calls)
  read : r.state.readBuffer.rect.left = 0 ∧ r.state.readBuffer.rect.right < info.size.x ∧
    0 ≤ r.state.readBuffer.rect.top ∧ r.state.readBuffer.rect.bottom < 3000
  sizes : r.con.info = content.info

theorem kept_polled {H : Int} {s : S} {t : Track} {w : Want} {marker c content : Con} {info : Info}
    {visible : Bool} {mask : Nat} {d : Int} {s' : S} {c' : Con} {calls : List TermCall} {fz : Bool} {reqs : List Request}
    {fi : Info} (h : Core H s t w)
    (hk : Kept H s t w marker c content info visible mask d s' c' calls) :
    Polled H w info c ⟨s', c', fz, calls, reqs, fi⟩ := by
  have hnc := kept_not_clears hk
  obtain ⟨s2, due, _, p2, _, _, p5, _, _, _, ⟨hl2, hl12⟩, hf⟩ := hk.fin
  refine ⟨hf.ok, hf.screen, .inl ⟨hnc, ?_⟩, hf.read, hf.sizes⟩
  obtain ⟨m, n, shown, cl, cc, he, h1, h2⟩ := hf.shape
  refine ⟨m, n, shown, cl, cc, _, he, ?_⟩
  intro hn l g1 g2
  by_cases hl : l < s.scrapedLineCount
  · exact h.noGap l g1 hl
  · rcases h2 hn with g | g
    · obtain ⟨_, _, cells, _, r2, _⟩ := h.recs l (by omega) (by omega)
      rw [r2]; exact fun h => by cases h
    · omega

theorem cleared_polled {H : Int} {s : S} {w : Want} {c : Con} {info : Info}
    {visible : Bool} {mask : Nat} {s' : S} {c' : Con} {calls : List TermCall} {fz : Bool} {reqs : List Request}
    {fi : Info} (hc : Cleared H s w c info visible mask s' c' calls) (h0 : 0 ≤ info.window.top) :
    Polled H w info c ⟨s', c', fz, calls, reqs, fi⟩ := by
  obtain ⟨s2, due, calls', hcalls, _, p2, _, _, p5, _, hl2, hf⟩ := hc.fin
  subst hcalls
  obtain ⟨m, n, shown, cl, cc, he, h1, h2⟩ := hf.shape
  refine ⟨?_, hf.screen, .inr ⟨calls', rfl, by rw [he]; exact emitted_not_clears _ _ _ _ _ _, m, n, shown, cl, cc, _,
    he, ?_⟩, hf.read, hf.sizes⟩
  · intro cfg g1 g2 g3
    exact ⟨trivial, hf.ok cfg g1 g2 (fun line cells col hm => g3 line cells col (List.mem_cons_of_mem _ hm))⟩
  · intro hn l g1 g2
    have hb : (w.step (.clear info.window.top)).base = info.window.top := rfl
    rw [hb] at g1
    rcases h2 hn with g | g
    · omega
    · omega

/-- The first line that is sent was never sent, or is not as it was. -/
def FirstChanged (t : Track) (w : Want) (k : Nat) (info : Info) (content : Con) (mask : Nat)
    (calls : List TermCall) : Prop :=
  ∀ l rest, sentLines calls = l :: rest → w.sent l = none ∨
    ((t.blanked l = none →
        t.want l ≠ some (rowCells { content with info := info } mask (l - t.offset - k))) ∧
      (t.blanked l ≠ none →
        ¬ Blanked (rowCells { content with info := info } mask (l - t.offset - k))))

theorem kept_why {H : Int} {s : S} {t : Track} {w : Want} {marker c content : Con} {info : Info}
    {visible : Bool} {mask : Nat} {d : Int} {s' : S} {c' : Con} {calls : List TermCall}
    (hk : Kept H s t w marker c content info visible mask d s' c' calls) (k : Nat)
    (hd : s.scrolledCount + d = t.offset + k) : FirstChanged t w k info content mask calls := by
  obtain ⟨s2, due, p1, _, _, _, _, _, _, _, _, hf⟩ := hk.fin
  intro l rest h
  have := hf.why l rest h
  rw [p1, hd, show l - (t.offset + (k : Int)) = l - t.offset - k by omega] at this
  exact this

/-- What a poll sends, and the state it leaves: a second one without changes in between (`still`)
sends no lines. -/
structure Shows (still : Prop) (s : S) (info : Info) (visible : Bool) (mask : Nat) (content : Con)
    (r : Result) : Prop where
  rest : Rest r.state info (fun row => rowCells { content with info := info } mask row)
  ends : ∃ before lines, r.calls = before ++ emitted (cursorShown info visible) info.cursor.x
      (info.cursor.y + r.state.scrolledCount) lines ∧
    (before = [] ∨ before = [.reset true info.window.top]) ∧
    (∀ call ∈ lines, ∃ l cells col, call = TermCall.sendLine l cells col) ∧
    (still → Rest s info (fun row => rowCells { content with info := info } mask row) →
      before = [] ∧ lines = [])

theorem kept_shows {H : Int} {s : S} {t : Track} {w : Want} {marker c content : Con} {info : Info}
    {visible : Bool} {mask : Nat} {d : Int} {s' : S} {c' : Con} {calls : List TermCall} {fz : Bool}
    {reqs : List Request} {fi : Info} {s0 : S} {still : Prop}
    (hk : Kept H s t w marker c content info visible mask d s' c' calls)
    (h : still → d = 0 ∧ ∀ Q, Rest s0 info Q → Rest s info Q) :
    Shows still s0 info visible mask content ⟨s', c', fz, calls, reqs, fi⟩ := by
  obtain ⟨lines, g1, g2, g3⟩ := hk.ends
  obtain ⟨s2, due, p1, _, _, _, _, _, _, _, _, hf⟩ := hk.fin
  refine ⟨hf.rest, [], lines, ?_, .inl rfl, g2, fun g hq => ⟨rfl, ?_⟩⟩
  · simp only; rw [hf.scrolled, p1]; exact g1
  · obtain ⟨k1, k2⟩ := h g
    exact g3 k1 (k2 _ hq)

theorem cleared_shows {H : Int} {s : S} {w : Want} {c : Con} {info : Info} {visible : Bool}
    {mask : Nat} {s' : S} {c' : Con} {calls : List TermCall} {fz : Bool} {reqs : List Request}
    {fi : Info} {s0 : S} {still : Prop} (hc : Cleared H s w c info visible mask s' c' calls)
    (h : ¬ still) : Shows still s0 info visible mask c ⟨s', c', fz, calls, reqs, fi⟩ := by
  obtain ⟨s2, due, calls', hcalls, _, _, _, _, _, _, _, hf⟩ := hc.fin
  obtain ⟨lines, g1, g2, g3⟩ := hf.ends
  refine ⟨hf.rest, [_], lines, ?_, .inr rfl, g2, fun g => absurd g h⟩
  simp only
  rw [hcalls, g1, hf.scrolled]
  rfl

/-- A poll while the program only writes and scrolls. -/
theorem poll_spec {H : Int} {n : Nat} {s : S} {c : Con} {t : Track} {w : Want} (hv : Inv H n s c t w)
    (sys : Sys) (hs : SysOk sys) (frozen : Bool) (v : SyncViews) (hi : InfoOk v.first.info)
    (hH : v.first.info.window.height ≤ H) (hn : n + 1 < 2 ^ 32) {k k' : Nat}
    (hr : RanUntil sys frozen c v k k') (hg : 0 < k' → t.guarded = true) :
    ∃ r, scrapeBuffer sys s frozen v = some r ∧
      ((¬ Clears r.calls ∧
        Inv H (n + 1) r.state r.con
          (t.scrape (if r.frozen then k' else k) v.first.info (contentOf sys frozen v r) v.mask)
          (w.run (r.calls.map opOf)) ∧
        ((0 < if r.frozen then k' else k) ∨
            (0 ≤ t.windowTop ∧ t.windowTop < v.first.info.window.top) →
          ∀ l, t.top ≤ l → l ≤ v.first.info.window.bottom + t.offset + ((if r.frozen then k' else k : Nat)) →
            (w.run (r.calls.map opOf)).sent l ≠ none) ∧
        FirstChanged t w (if r.frozen then k' else k) v.first.info (contentOf sys frozen v r) v.mask
          r.calls) ∨
       (Clears r.calls ∧ t.safe < k' ∧ 0 < k' ∧
        Inv H (n + 1) r.state r.con
          ((Track.start v.first.info.window.top).scrape 0 v.first.info (contentOf sys frozen v r) v.mask)
          (w.run (r.calls.map opOf)))) ∧
      (frozenThroughout sys frozen = true → r.frozen = true) ∧
      (Clears r.calls → r.frozen = true) ∧
      Shows (k' = 0) s v.first.info v.cursorVisible v.mask (contentOf sys frozen v r) r ∧
      Polled H w v.first.info
        (if frozenThroughout sys frozen then v.first else if r.frozen then v.frozen
          else v.tentative.recheck) r := by
  have hc := hv.core
  have hcnt := hv.count
  have htop := hv.top
  have hoff := hv.offset
  have htt := hc.top
  rw [scrapeBuffer_scrolling sys frozen hc.mode hi.1]
  have hin := hc.inBuf
  have hlf : s.dirtyWindowTop = -1 → s.scrapedLineCount - s.scrolledCount ≤ c.info.window.top := by
    intro g; rw [← low_first g]; exact htop
  have hwin := hv.window
  have hseen := hv.seen
  have hsync : s.syncRow = -1 → k' = 0 := by
    intro h
    by_cases hk : 0 < k'
    · exact absurd h (hv.guard (hg hk)).1
    · omega
  have hi' := hi
  obtain ⟨_, _, _, _, _, _, hw0, _, hw3, _⟩ := hi'
  cases hr with
  | still k hft hsz hran =>
    have hdown := hran.down
    obtain ⟨s', c', calls, he, hcase⟩ := frozen_spec hc hi hH sys hs v.cursorVisible v.first v.mask
      hsz.1 hsz.2 (hv.known.ran hran) (by omega) hv.row (by intro g; have := hlf g; omega)
    rw [hft, syncScrolling_still sys s v he]
    refine ⟨_, rfl, ?_⟩
    have hcont : contentOf sys frozen v ⟨s', c', true, calls, [], v.first.info⟩ = v.first := by
      simp [contentOf, hft]
    rw [hcont]
    simp only [if_true, ite_self]
    have hpl : Placed k s v.first := by
      have := Placed.ran hv.placed hran (by
        have hr := hv.row
        rcases hr with g | g
        · exact .inl g
        · right; omega) hc.counter
      rwa [Nat.zero_add] at this
    rcases hcase with ⟨d, hk⟩ | hcl
    · refine ⟨.inl ⟨kept_not_clears hk, ?_, ?_, ?_⟩, fun _ => trivial, fun _ => trivial,
        kept_shows hk (fun g => ⟨?_, fun _ h => h⟩), kept_polled hc hk⟩
      · have := (inv_kept 0 k hc hk (by rw [hoff]; simp) hpl (fun g => (hk.found g).2) hsync hcnt
          (Int.le_refl _) hw0).2
        rwa [Nat.zero_add] at this
      · have hdk := (inv_kept 0 k hc hk (by rw [hoff]; simp) hpl (fun g => (hk.found g).2) hsync hcnt
          (Int.le_refl _) hw0).1
        obtain ⟨s2, due, p1, p2, p3, p4, p5, p6, hdirty, hdue, ⟨hl2, _⟩, hf⟩ := hk.fin
        intro hmoved l g1 g2
        refine hf.all (hdirty ?_) l (by omega) (by omega)
        rcases hmoved with g | ⟨g, g'⟩
        · left; omega
        · right; omega
      · have hdk := (inv_kept 0 k hc hk (by rw [hoff]; simp) hpl (fun g => (hk.found g).2) hsync hcnt
          (Int.le_refl _) hw0).1
        exact kept_why hk k (by omega)
      · have hdk := (inv_kept 0 k hc hk (by rw [hoff]; simp) hpl (fun g => (hk.found g).2) hsync hcnt
          (Int.le_refl _) hw0).1
        omega
    · have hnu : ¬ (s.dirtyWindowTop ≠ -1 ∧ v.first.info.window.top < s.dirtyWindowTop) := by
        rintro ⟨g1, g2⟩
        have := hwin g1
        omega
      have hlost := hcl.why.resolve_right hnu
      have hk : (k : Int) > s.syncRow := by
        apply Int.not_le.mp
        intro hle
        exact hlost.2 (s.syncRow - k) (by omega) (by omega)
          ((hpl hlost.1 (s.syncRow - k) (by omega)).mpr (by omega))
      have hk0 : 0 < k := by
        have := (hv.row.resolve_left hlost.1).1; omega
      refine ⟨.inr ⟨cleared_clears hcl, ?_, hk0, ?_⟩, fun _ => trivial, fun _ => trivial,
        cleared_shows hcl (by omega), cleared_polled hcl hw0⟩
      · have := (hv.guard (hg hk0)).2; omega
      · have := inv_cleared hcl hcnt (Int.le_refl _) hw0
        have hgd : ((Track.start v.first.info.window.top).scrape 0 v.first.info v.first v.mask).guarded =
            decide (431 ≤ v.first.info.window.top ∧
              ¬ (s.dirtyWindowTop ≠ -1 ∧ v.first.info.window.top < s.dirtyWindowTop)) := by
          simp only [Track.scrape, Track.start, hnu, not_false_eq_true, and_true]
          exact decide_eq_decide.mpr (by omega)
        rw [← hgd] at this
        exact this
  | running k₀ k₁ k₂ k₃ k₄ k₅ hft hsz1 hsz2 hran0 hran1 hran2 hran3 hran4 hran5 =>
    have hd0 := hran0.down
    have hd1 := hran1.down
    have hd2 := hran2.down
    have hd3 := hran3.down
    have hd4 := hran4.down
    have hd5 := hran5.down
    have hrc : Row s c.info.window.top := by
      rcases hv.row with g | g
      · exact .inl g
      · right; omega
    have hranM := Ran.trans hran0 hran1
    have hranMR := Ran.trans (Ran.trans hran2 hran3) hran4
    have hranR := Ran.trans hranM hranMR
    have hkr : Known s v.tentative.recheck := hv.known.ran hranR
    rw [hft]
    rcases tentative_spec hc hi hH sys hs v.cursorVisible v.tentative v.mask hsz1.1 hsz1.2 hkr
      (by omega) hv.row (by intro g; have := hlf g; omega) with ⟨d, s1, he, hgu⟩ | ⟨d, s', calls, he, hk, hcheck, hmr⟩
    · -- the second attempt
      have e1 := hgu.scrolled
      obtain ⟨e2, e3⟩ := hgu.sync
      have e4 := hgu.scraped
      have hd00 := hgu.nonneg
      -- how far the first attempt got
      have hj : ∃ j m : Nat, d = j ∧ j + m = k₀ + k₁ + k₂ + k₃ + k₄ + k₅ ∧ Placed m s1 v.frozen ∧
          Known s1 v.frozen := by
        have hpf : Placed (k₀ + k₁ + k₂ + k₃ + k₄ + k₅) s v.frozen := by
          have := Placed.ran hv.placed (Ran.trans hranR hran5) hrc hc.counter
          rwa [show 0 + (k₀ + k₁ + (k₂ + k₃ + k₄) + k₅) = k₀ + k₁ + k₂ + k₃ + k₄ + k₅ by omega] at this
        have hkf : Known s1 v.frozen := by
          unfold Known
          rw [e3]; exact hkr.ran hran5
        by_cases hsr : s.syncRow = -1
        · refine ⟨0, k₀ + k₁ + k₂ + k₃ + k₄ + k₅, hgu.without hsr, by omega, ?_, hkf⟩
          intro g; rw [e2, hgu.without hsr] at g; exact absurd (by omega) g
        · have hle := hgu.le hsr
          have hbound : d ≤ ((k₀ + k₁ + k₂ + k₃ + k₄ + k₅ : Nat) : Int) := by
            rcases hgu.found hsr with g | g
            · omega
            · have hpm : Placed (0 + (k₀ + k₁)) s v.tentative.marker :=
                Placed.ran hv.placed hranM hrc hc.counter
              have := (hpm hsr (s.syncRow - d) (by omega)).mp g
              omega
          refine ⟨d.toNat, (k₀ + k₁ + k₂ + k₃ + k₄ + k₅) - d.toNat, by omega, by omega, ?_, hkf⟩
          intro _ i hi0
          rw [e3, hpf hsr i hi0, e2]
          omega
      obtain ⟨j, m, hdj, hjm, hpl, hkf⟩ := hj
      have hsync1 : s1.syncRow = -1 → s.syncRow = -1 := by
        intro g
        apply Decidable.byContradiction
        intro hsr
        have := hgu.le hsr
        omega
      have hdw1 : s1.dirtyWindowTop = -1 ∨ s1.dirtyWindowTop ≤ v.first.info.window.top := by
        rcases hgu.window with g | ⟨_, g, _⟩
        · by_cases g' : s.dirtyWindowTop = -1
          · left; omega
          · right; have := hwin g'; omega
        · right; omega
      have hf1 : s1.dirtyWindowTop = -1 →
          s1.scrapedLineCount ≤ v.first.info.window.top + s1.scrolledCount := by
        intro g
        rcases hgu.window with g' | ⟨_, g', _⟩
        · have := hlf (by omega); omega
        · omega
      have hcnt1 : s1.syncCounter ≤ n := by omega
      obtain ⟨s', c', calls, he', hcase⟩ := frozen_spec hgu.core hi hH sys hs v.cursorVisible v.frozen
        v.mask hsz2.1 hsz2.2 hkf (by omega) hgu.row hf1
      rw [syncScrolling_again sys s v he he']
      refine ⟨_, rfl, ?_⟩
      have hcont : contentOf sys frozen v ⟨s', c', true, calls, [], v.first.info⟩ = v.frozen := by
        simp [contentOf, hft]
      rw [hcont]
      simp only [Bool.false_eq_true, if_false, if_true, true_and, implies_true]
      have htf : v.first.info.window.top ≤ v.frozen.info.window.top := by omega
      have hm0 : s1.syncRow = -1 → m = 0 := by
        intro g
        have := hsync (hsync1 g)
        omega
      rcases hcase with ⟨d', hk⟩ | hcl
      · obtain ⟨hdm, hinv⟩ := inv_kept (n := n) j m hgu.core hk (by rw [e1, hoff, hdj]) hpl
          (fun g => (hk.found g).2) hm0 hcnt1 htf hw0
        rw [hjm] at hinv
        refine ⟨.inl ⟨kept_not_clears hk, hinv, ?_, kept_why hk _ (by omega)⟩,
          kept_shows hk (fun g => ⟨by omega, hgu.rest (by omega)⟩), kept_polled hgu.core hk⟩
        obtain ⟨s2, due, p1, p2, p3, p4, p5, p6, hdirty, hdue, ⟨hl2, _⟩, hf⟩ := hk.fin
        intro hmoved l g1 g2
        refine hf.all ?_ l (by omega) (by omega)
        by_cases hx : 0 < d'
        · exact hdirty (.inl hx)
        · by_cases hy : 0 < d
          · have := hgu.marked hy
            omega
          · rcases hmoved with g | ⟨g, g'⟩
            · omega
            · rcases hgu.window with g4 | ⟨_, g4, g5⟩
              · exact hdirty (.inr (by omega))
              · have := g5 (by omega) (by omega)
                omega
      · have hnu : ¬ (s1.dirtyWindowTop ≠ -1 ∧ v.first.info.window.top < s1.dirtyWindowTop) := by
          rintro ⟨g1, g2⟩
          rcases hdw1 with g | g
          · exact g1 g
          · omega
        have hlost := hcl.why.resolve_right hnu
        have hk : (m : Int) > s1.syncRow := by
          apply Int.not_le.mp
          intro hle
          exact hlost.2 (s1.syncRow - m) (by omega) (by omega)
            ((hpl hlost.1 (s1.syncRow - m) (by omega)).mpr (by omega))
        have hk0 : 0 < m := by
          have := (hgu.row.resolve_left hlost.1).1; omega
        refine ⟨.inr ⟨cleared_clears hcl, ?_, by omega, ?_⟩, cleared_shows hcl (by omega),
          cleared_polled hcl hw0⟩
        · have := (hv.guard (hg (by omega))).2; omega
        · have := inv_cleared hcl hcnt1 htf hw0
          have hgd : ((Track.start v.first.info.window.top).scrape 0 v.first.info v.frozen v.mask).guarded =
              decide (431 ≤ v.first.info.window.top ∧
                ¬ (s1.dirtyWindowTop ≠ -1 ∧ v.first.info.window.top < s1.dirtyWindowTop)) := by
            simp only [Track.scrape, Track.start, hnu, not_false_eq_true, and_true]
            exact decide_eq_decide.mpr (by omega)
          rw [← hgd] at this
          exact this
    · rw [syncScrolling_done sys s v he]
      refine ⟨_, rfl, ?_⟩
      have hcont : contentOf sys frozen v ⟨s', v.tentative.recheck, false, calls, [], v.first.info⟩ =
          v.tentative.content := by
        simp [contentOf, hft]
      rw [hcont]
      simp only [Bool.false_eq_true, if_false, false_implies, true_and]
      have hpl : Placed (k₀ + k₁ + k₂ + k₃ + k₄) s v.tentative.recheck := by
        have := Placed.ran hv.placed hranR hrc hc.counter
        rwa [show 0 + (k₀ + k₁ + (k₂ + k₃ + k₄)) = k₀ + k₁ + k₂ + k₃ + k₄ by omega] at this
      obtain ⟨hdm, hinv⟩ := inv_kept (n := n) 0 (k₀ + k₁ + k₂ + k₃ + k₄) hc hk (by rw [hoff]; simp) hpl
        hmr (by intro g; have := hsync g; omega) hcnt (by omega) hw0
      rw [Nat.zero_add] at hinv
      refine ⟨.inl ⟨kept_not_clears hk, hinv, ?_, kept_why hk _ (by omega)⟩, fun g => absurd g (kept_not_clears hk),
        kept_shows hk (fun g => ⟨by omega, fun _ h => h⟩), kept_polled hc hk⟩
      obtain ⟨s2, due, p1, p2, p3, p4, p5, p6, hdirty, hdue, ⟨hl2, _⟩, hf⟩ := hk.fin
      intro hmoved l g1 g2
      refine hf.all (hdirty ?_) l (by omega) (by omega)
      rcases hmoved with g | ⟨g, g'⟩
      · left; omega
      · right; omega

/-- A poll after the window has moved upward. -/
theorem poll_up_spec {H : Int} {n : Nat} {s : S} {c : Con} {t : Track} {w : Want} (hv : Inv H n s c t w)
    (sys : Sys) (hs : SysOk sys) (frozen : Bool) (v : SyncViews) (hi : InfoOk v.first.info)
    (hH : v.first.info.window.height ≤ H) (hn : n + 1 < 2 ^ 32)
    (hup : v.first.info.window.top < t.windowTop) (hr : AnythingUntil sys frozen c v) :
    ∃ r, scrapeBuffer sys s frozen v = some r ∧ Clears r.calls ∧ r.frozen = true ∧
      Inv H (n + 1) r.state r.con
        { (Track.start v.first.info.window.top).scrape 0 v.first.info (contentOf sys frozen v r) v.mask with
          guarded := false }
        (w.run (r.calls.map opOf)) ∧
      Shows False s v.first.info v.cursorVisible v.mask (contentOf sys frozen v r) r ∧
      Polled H w v.first.info (if frozenThroughout sys frozen then v.first else v.frozen) r := by
  have hc := hv.core
  have hcnt := hv.count
  have hoff := hv.offset
  have htt := hc.top
  have hin := hc.inBuf
  have hdw := hv.seen
  rw [scrapeBuffer_scrolling sys frozen hc.mode hi.1]
  have hi' := hi
  obtain ⟨_, _, _, _, _, _, hw0, _, hw3, _⟩ := hi'
  have hknown : ∀ c', Anything c c' → Known s c' := by
    intro c' ha i m g1 g2 g3
    obtain ⟨i', g4, g5⟩ := ha.genuine i m g1 g2 g3
    exact hv.known i' m g4 g2 g5
  cases hr with
  | still hft hsz hany =>
    obtain ⟨s', c', calls, he, hcase⟩ := frozen_spec hc hi hH sys hs v.cursorVisible v.first v.mask
      hsz.1 hsz.2 (hknown _ hany) (by omega) hv.row (by intro g; omega)
    rw [hft, syncScrolling_still sys s v he]
    refine ⟨_, rfl, ?_⟩
    have hcont : contentOf sys frozen v ⟨s', c', true, calls, [], v.first.info⟩ = v.first := by
      simp [contentOf, hft]
    rw [hcont]
    rcases hcase with ⟨d, hk⟩ | hcl
    · rcases hk.notUp with g | g
      · omega
      · omega
    · refine ⟨cleared_clears hcl, rfl, ?_, cleared_shows hcl id, cleared_polled hcl hw0⟩
      have := inv_cleared hcl hcnt (Int.le_refl _) hw0
      rw [decide_eq_false (by
        intro g; exact g.2 ⟨by omega, by omega⟩)] at this
      exact this
  | running hft hsz1 hsz2 hany1 hany2 hdown =>
    rw [hft]
    rcases tentative_spec hc hi hH sys hs v.cursorVisible v.tentative v.mask hsz1.1 hsz1.2 (hknown _ hany1)
      (by omega) hv.row (by intro g; omega) with ⟨d, s1, he, hgu⟩ | ⟨d, s', calls, he, hk, _, _⟩
    · have e1 := hgu.scrolled
      obtain ⟨e2, e3⟩ := hgu.sync
      have e4 := hgu.scraped
      have hdw1 : s1.dirtyWindowTop = s.dirtyWindowTop := by
        rcases hgu.window with g | ⟨g, _⟩
        · exact g
        · omega
      have hkf : Known s1 v.frozen := by unfold Known; rw [e3]; exact hknown _ hany2
      obtain ⟨s', c', calls, he', hcase⟩ := frozen_spec hgu.core hi hH sys hs v.cursorVisible v.frozen
        v.mask hsz2.1 hsz2.2 hkf (by omega) hgu.row (by intro g; omega)
      rw [syncScrolling_again sys s v he he']
      refine ⟨_, rfl, ?_⟩
      have hcont : contentOf sys frozen v ⟨s', c', true, calls, [], v.first.info⟩ = v.frozen := by
        simp [contentOf, hft]
      rw [hcont]
      rcases hcase with ⟨d, hk⟩ | hcl
      · rcases hk.notUp with g | g
        · omega
        · omega
      · refine ⟨cleared_clears hcl, rfl, ?_, cleared_shows hcl id, cleared_polled hcl hw0⟩
        have := inv_cleared (n := n) hcl (by omega) hdown hw0
        rw [decide_eq_false (by
          intro g; exact g.2 ⟨by omega, by omega⟩)] at this
        exact this
    · rcases hk.notUp with g | g
      · omega
      · omega

end Winpty.Scraper
