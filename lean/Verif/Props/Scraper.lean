import Verif.Spec.ScraperSession
import Verif.Lemmas.ScraperDirect
import Verif.Props.Terminal

/-!
# C25, C26: what the scraper transfers, and its sync markers
-/
namespace Winpty.Props

open Winpty.Scraper
open Winpty.Spec.Scrape
open Winpty.SmallRect
open Winpty.ConsoleLine (Cell)
open Winpty.Agent (TermCall)
open Winpty.Spec.Term

theorem session_inv {sys : Sys} {H W line : Int} (hs : SysOk sys) {n : Nat} {s : S} {c : Con} {t : Track}
    {calls : List TermCall} (h : Session sys H W line n s c t calls) (hn : n < 2 ^ 32) :
    Inv H n s c t ((Want.start line).run (calls.map opOf)) ∧
    ∀ cfg : Spec.Vt.Cfg, H ≤ cfg.height → W ≤ cfg.width →
      (∀ l cells col, .sendLine l cells col ∈ calls → LineOk cfg cells) →
      OpsOk cfg (Want.start line) (calls.map opOf) := history_inv hs h hn

/-- C25 (partial: not for programs that let lines scroll out before there is a marker, see
`Noticeable` and `C25_unmarked_scroll_defect`; for resizes see `ResizeOk` and `C25_above_base_defect`).
After every history of polls and resizes, what was sent to the terminal is exactly what had to be
transferred: each line from the top of the first window to the bottom of the last one, under its own
number (`Track` numbers the lines so that a line keeps its number when it scrolls), with the contents
it had when it was last in or just above the window; no number was left out; nothing else was sent.
Only blank lines at the bottom of the window may be missing, and a line that the agent blanked for a
resize may be left as it was when it was blanked (`Track.resize`). -/
theorem C25_transferred_partial (sys : Sys) (hs : SysOk sys) (H W line : Int) (n : Nat) (hn : n < 2 ^ 32) (s : S)
    (c : Con) (t : Track) (calls : List TermCall) (h : Session sys H W line n s c t calls) :
    Transferred t ((Want.start line).run (calls.map opOf)) :=
  (session_inv hs h hn).1.core.transferred

/-- C25, C26.  No poll aborts the agent: whatever programs wrote and let scroll out, the next poll
goes through, and it is one of those a session consists of. -/
theorem C25_poll_goes_through (sys : Sys) (hs : SysOk sys) (H W line : Int) (n : Nat)
    (hn : n + 1 < 2 ^ 32) (s : S) (c : Con) (t : Track) (calls : List TermCall)
    (h : Session sys H W line n s c t calls) (frozen : Bool) (v : SyncViews) (hi : InfoOk v.first.info)
    (hH : v.first.info.window.height ≤ H) (k k' : Nat) (hr : RanUntil sys frozen c v k k')
    (hg : Noticeable t k') : (scrapeBuffer sys s frozen v).isSome := by
  obtain ⟨r, he, _⟩ := poll_spec (session_inv hs h (by omega)).1 sys hs frozen v hi hH hn hr hg
  rw [he]; rfl

/-- C25.  The same after the window has moved upward, whatever programs did to the lines; and then the
terminal is cleared. -/
theorem C25_moved_up_clears (sys : Sys) (hs : SysOk sys) (H W line : Int) (n : Nat)
    (hn : n + 1 < 2 ^ 32) (s : S) (c : Con) (t : Track) (calls : List TermCall)
    (h : Session sys H W line n s c t calls) (frozen : Bool) (v : SyncViews)
    (hi : InfoOk v.first.info) (hH : v.first.info.window.height ≤ H)
    (hup : v.first.info.window.top < t.windowTop) (hr : AnythingUntil sys frozen c v) :
    ∃ r, scrapeBuffer sys s frozen v = some r ∧ Clears r.calls := by
  obtain ⟨r, he, hc, _⟩ := poll_up_spec (session_inv hs h (by omega)).1 sys hs frozen v hi hH hn hup hr
  exact ⟨r, he, hc⟩

/-- C25.  The terminal is not cleared without need: not unless the window moved upward or lines
scrolled out, more than are above the marker (up to 432 lines above the window, or, after a resize,
above the highest row the window could be moved to, `Track.safe`). -/
theorem C25_no_needless_clear (sys : Sys) (hs : SysOk sys) (H W line : Int) (n : Nat)
    (hn : n + 1 < 2 ^ 32) (s : S) (c : Con) (t : Track) (calls : List TermCall)
    (h : Session sys H W line n s c t calls) (frozen : Bool) (v : SyncViews) (hi : InfoOk v.first.info)
    (hH : v.first.info.window.height ≤ H) (k k' : Nat) (hr : RanUntil sys frozen c v k k')
    (hg : Noticeable t k') (hk : k' = 0 ∨ k' ≤ t.safe) :
    ∃ r, scrapeBuffer sys s frozen v = some r ∧ ¬ Clears r.calls := by
  obtain ⟨r, he, hcase, _⟩ := poll_spec (session_inv hs h (by omega)).1 sys hs frozen v hi hH hn hr hg
  refine ⟨r, he, ?_⟩
  rcases hcase with ⟨g, _⟩ | ⟨_, g1, g2, _⟩
  · exact g
  · omega

/-- C25.  When lines have scrolled out or the window has moved down (and the terminal was not
cleared), every line of the window is sent, also blank ones, so that the terminal scrolls as far as
the console did. -/
theorem C25_scrolled_window_sent (sys : Sys) (hs : SysOk sys) (H W line : Int) (n : Nat)
    (hn : n + 1 < 2 ^ 32) (s : S) (c : Con) (t : Track) (calls : List TermCall)
    (h : Session sys H W line n s c t calls) (frozen : Bool) (v : SyncViews) (hi : InfoOk v.first.info)
    (hH : v.first.info.window.height ≤ H) (k k' : Nat) (hr : RanUntil sys frozen c v k k')
    (hg : Noticeable t k') (r : Result) (he : scrapeBuffer sys s frozen v = some r)
    (hc : ¬ Clears r.calls) (j : Nat) (hj : j = if r.frozen then k' else k)
    (hmoved : 0 < j ∨ (0 ≤ t.windowTop ∧ t.windowTop < v.first.info.window.top)) (l : Int) (h1 : t.top ≤ l)
    (h2 : l ≤ v.first.info.window.bottom + t.offset + j) :
    ((Want.start line).run ((calls ++ r.calls).map opOf)).sent l ≠ none := by
  obtain ⟨r', he', hcase, _⟩ := poll_spec (session_inv hs h (by omega)).1 sys hs frozen v hi hH hn hr hg
  rw [he, Option.some.injEq] at he'
  subst he'
  subst hj
  rw [List.map_append, run_append]
  rcases hcase with ⟨_, _, g, _⟩ | ⟨g, _⟩
  · exact g hmoved l h1 h2
  · exact absurd g hc

/-- C25.  Nothing is sent without need: a poll that does not clear the terminal begins with a line
that was not sent since the terminal was last cleared, or that is not as it was when it was last
read; or the agent had blanked it for a resize and it is no longer blank.  (The lines after it are
sent as well, see `C25_in_order`.) -/
theorem C25_only_changes_sent (sys : Sys) (hs : SysOk sys) (H W line : Int) (n : Nat)
    (hn : n + 1 < 2 ^ 32) (s : S) (c : Con) (t : Track) (calls : List TermCall)
    (h : Session sys H W line n s c t calls) (frozen : Bool) (v : SyncViews) (hi : InfoOk v.first.info)
    (hH : v.first.info.window.height ≤ H) (k k' : Nat) (hr : RanUntil sys frozen c v k k')
    (hg : Noticeable t k') (r : Result) (he : scrapeBuffer sys s frozen v = some r)
    (hc : ¬ Clears r.calls) (j : Nat) (hj : j = if r.frozen then k' else k) (l : Int) (rest : List Int)
    (hfirst : sentLines r.calls = l :: rest) (now : List Cell)
    (hnow : now = rowCells { contentOf sys frozen v r with info := v.first.info } v.mask
      (l - t.offset - j)) :
    ((Want.start line).run (calls.map opOf)).sent l = none ∨
    (t.blanked l = none ∧ t.want l ≠ some now) ∨ (t.blanked l ≠ none ∧ ¬ Blanked now) := by
  obtain ⟨r', he', hcase, _⟩ := poll_spec (session_inv hs h (by omega)).1 sys hs frozen v hi hH hn hr hg
  rw [he, Option.some.injEq] at he'
  subst he'
  subst hj
  subst hnow
  rcases hcase with ⟨_, _, _, g⟩ | ⟨g, _⟩
  · rcases g l rest hfirst with g | ⟨g1, g2⟩
    · exact .inl g
    · by_cases hb : t.blanked l = none
      · exact .inr (.inl ⟨hb, g1 hb⟩)
      · exact .inr (.inr ⟨hb, g2 hb⟩)
  · exact absurd g hc

/-! ## Every poll -/

theorem polled {sys : Sys} (hs : SysOk sys) {H W line : Int} {n : Nat} (hn : n + 1 < 2 ^ 32) {s : S}
    {c : Con} {t : Track} {calls : List TermCall} (h : Session sys H W line n s c t calls) {frozen : Bool}
    {v : SyncViews} (hv : Happens sys H W c t frozen v) {r : Result}
    (he : scrapeBuffer sys s frozen v = some r) :
    Polled H ((Want.start line).run (calls.map opOf)) v.first.info (endOf sys frozen v r) r ∧
    (∃ t', Session sys H W line (n + 1) r.state r.con t' (calls ++ r.calls)) := by
  have hinv := (session_inv hs h (by omega)).1
  rcases hv.what with ⟨k, k', hr, hg⟩ | ⟨hup, hr⟩
  · obtain ⟨r', he', hcase, _, _, _, hp⟩ := poll_spec hinv sys hs frozen v hv.info hv.height hn hr hg
    rw [he, Option.some.injEq] at he'
    subst he'
    refine ⟨hp, ?_⟩
    by_cases hc : Clears r.calls
    · exact ⟨_, .poll frozen v h hv.info hv.height hv.width he (.cleared hr hg hc)⟩
    · exact ⟨_, .poll frozen v h hv.info hv.height hv.width he (.kept hr hg hc)⟩
  · obtain ⟨r', he', _, hf, _, _, hp⟩ := poll_up_spec hinv sys hs frozen v hv.info hv.height hn hup hr
    rw [he, Option.some.injEq] at he'
    subst he'
    refine ⟨?_, ?_⟩
    · unfold endOf
      rw [hf]
      exact hp
    · exact ⟨_, .poll frozen v h hv.info hv.height hv.width he (.movedUp hup hr)⟩

theorem sentLines_emitted (shown : Bool) (cc cl : Int) (R : Int → List Cell) (m : Int) (n : Nat) :
    sentLines (emitted shown cc cl (sends R cl cc m n)) = (List.range n).map fun i : Nat => m + i := by
  have h : sentLines (sends R cl cc m n) = (List.range n).map fun i : Nat => m + i := by
    unfold sentLines sends
    rw [List.filterMap_map]
    induction List.range n with
    | nil => rfl
    | cons a l ih => simp only [Function.comp, List.filterMap_cons, List.map_cons] at ih ⊢; rw [ih]
  unfold emitted
  cases shown <;> simp [sentLines] at h ⊢ <;> exact h

/-- C25.  In every poll lines are sent one after the other, in the order of their numbers and without
leaving a number out, and no line is sent before every line above it has been sent; a poll that
clears the terminal does so first. -/
theorem C25_in_order (sys : Sys) (hs : SysOk sys) (H W line : Int) (n : Nat) (hn : n + 1 < 2 ^ 32) (s : S)
    (c : Con) (t : Track) (calls : List TermCall) (h : Session sys H W line n s c t calls)
    (frozen : Bool) (v : SyncViews) (hv : Happens sys H W c t frozen v) (r : Result)
    (he : scrapeBuffer sys s frozen v = some r) :
    ∃ (before after : List TermCall) (first : Int) (count : Nat),
      r.calls = before ++ after ∧ (before = [] ∨ before = [.reset true v.first.info.window.top]) ∧
      ¬ Clears after ∧ sentLines after = (List.range count).map (fun i : Nat => first + i) ∧
      (0 < count → ∀ l, ((Want.start line).run ((calls ++ before).map opOf)).base ≤ l → l < first →
        ((Want.start line).run ((calls ++ before).map opOf)).sent l ≠ none) := by
  obtain ⟨hp, _⟩ := polled hs hn h hv he
  rcases hp.order with ⟨hc, m, k, shown, cl, cc, R, hcalls, hb⟩ |
      ⟨calls', hr, hc, m, k, shown, cl, cc, R, hcalls, hb⟩
  · refine ⟨[], r.calls, m, k, rfl, .inl rfl, hc, ?_, ?_⟩
    · rw [hcalls]; exact sentLines_emitted _ _ _ _ _ _
    · rw [List.append_nil]; exact hb
  · refine ⟨[.reset true v.first.info.window.top], calls', m, k, hr, .inr rfl, hc, ?_, ?_⟩
    · rw [hcalls]; exact sentLines_emitted _ _ _ _ _ _
    · rw [List.map_append, run_append]; exact hb

/-- C25, C17 (partial as `C25_transferred_partial` is).  What a terminal emulator shows in the end: a row for each line that had to be
transferred, in the order of the lines, with the contents the line had when it was last in or just
above the window (a blank line at the bottom of the window may be missing, and a line that the agent
blanked for a resize, and that is still blank, may be shown as it was before). -/
theorem C25_terminal_shows_partial (sys : Sys) (hs : SysOk sys) (H W line : Int) (n : Nat) (hn : n < 2 ^ 32) (s : S)
    (c : Con) (t : Track) (calls : List TermCall) (h : Session sys H W line n s c t calls)
    (cfg : Spec.Vt.Cfg) (hcfg : CfgOk cfg) (hh : H ≤ cfg.height) (hw : W ≤ cfg.width)
    (hl : ∀ l cells col, .sendLine l cells col ∈ calls → LineOk cfg cells)
    (e0 : Spec.Vt.Emu) (he : FreshEmu cfg e0) (colour : Bool) :
    ∃ (term : Terminal.Term) (off : Int),
      Terminal.performAll (startTerm colour line) (calls.map opOf) = some term ∧
      ∀ l cells, t.want l = some cells →
        (∃ x, SameLine x cells ∧
          Spec.Screen.RowShows cfg colour ((Spec.Vt.feed cfg e0 term.out).rows (l + off)) x) ∨
        (AllBlank cells ∧ t.top ≤ l) ∨
        (∃ old x, t.blanked l = some old ∧ Blanked cells ∧ SameLine x old ∧
          Spec.Screen.RowShows cfg colour ((Spec.Vt.feed cfg e0 term.out).rows (l + off)) x) := by
  obtain ⟨hinv, hok⟩ := session_inv hs h hn
  obtain ⟨term, off, hp, _, hrows, _⟩ := C17_sent_lines_shown cfg hcfg e0 he colour line (calls.map opOf)
    (hok cfg hh hw hl)
  refine ⟨term, off, hp, ?_⟩
  intro l cells hw
  rcases hinv.core.transferred.lines l cells hw with ⟨x, h1, h2⟩ | ⟨_, h2, h3⟩ |
      ⟨old, x, h1, h2, h3, h4⟩
  · exact .inl ⟨x, h2, hrows l x h1⟩
  · exact .inr (.inl ⟨h2, h3⟩)
  · exact .inr (.inr ⟨old, x, h1, h2, h4, hrows l x h3⟩)

/-! ## C26 -/

/-- C26.  In every history, the row where the agent takes its marker to be lies in the buffer, at
least 200 rows above the window (also above where a resize has just put it), and the marker stands
there and nowhere else. -/
theorem C26_in_range (sys : Sys) (hs : SysOk sys) (H W line : Int) (n : Nat) (hn : n < 2 ^ 32) (s : S)
    (c : Con) (t : Track) (calls : List TermCall) (h : Session sys H W line n s c t calls) :
    s.syncRow = -1 ∨
    (0 ≤ s.syncRow ∧ s.syncRow + 16 + 200 ≤ t.top - t.offset ∧ t.top - t.offset < 3000 ∧
      (0 ≤ t.windowTop → s.syncRow + 16 + 200 ≤ t.windowTop) ∧
      ∀ i, 0 ≤ i → (MarkerAt c i s.syncCounter ↔ i = s.syncRow)) := by
  have hinv := (session_inv hs h hn).1
  have h1 := hinv.core.inBuf
  have h2 := hinv.core.top
  have h3 := hinv.offset
  have h4 := low_le s
  rcases hinv.row with g | g
  · exact .inl g
  · refine .inr ⟨by omega, by omega, by omega, ?_, ?_⟩
    · intro h0
      have h5 := hinv.seen
      have h6 : low s ≤ s.dirtyWindowTop + s.scrolledCount := by
        unfold low; rw [if_neg (by omega)]; omega
      omega
    intro i hi
    have := hinv.placed (by omega) i hi
    rw [this]; omega

/-- C26.  After `k` lines have scrolled out the marker is found exactly `k` rows further up, or, if
there are not as many, it is not found: no other line is taken for it. -/
theorem C26_found (sys : Sys) (hs : SysOk sys) (H W line : Int) (n : Nat) (hn : n < 2 ^ 32) (s : S)
    (c : Con) (t : Track) (calls : List TermCall) (h : Session sys H W line n s c t calls)
    (hm : s.syncRow ≠ -1) (k : Nat) (c' : Con) (hr : Ran k c c') :
    findSyncMarker sys s c' = some (if k ≤ s.syncRow then s.syncRow - k else -1) := by
  have hinv := (session_inv hs h hn).1
  have h1 := hinv.core.inBuf
  have h2 := hinv.row.resolve_left hm
  have h4 := low_le s
  have h3 := hinv.top
  have hpl := Placed.ran hinv.placed hr (.inr ⟨h2.1, by omega⟩) hinv.core.counter hm
  obtain ⟨r, hf, hc⟩ := findSyncMarker_spec sys hs s c' h2.1 (by omega)
  rw [hf]
  congr 1
  rcases hc with ⟨g1, g2⟩ | ⟨g1, g2, g3, g4⟩
  · rw [if_neg, g1]
    intro hk
    exact g2 (s.syncRow - k) (by omega) (by omega) ((hpl _ (by omega)).mpr (by omega))
  · have := (hpl r g1).mp g3
    rw [if_pos (by omega)]
    omega

/-- C26.  A new marker differs from every marker that can be read in the buffer and from the one in
use before. -/
theorem C26_markers_differ (sys : Sys) (hs : SysOk sys) (H W line : Int) (n : Nat) (hn : n + 1 < 2 ^ 32)
    (s : S) (c : Con) (t : Track) (calls : List TermCall) (h : Session sys H W line n s c t calls)
    (row : Int) (s' : S) (c' : Con) (hm : createSyncMarker s c row = some (s', c')) :
    markerText s'.syncCounter ≠ markerText s.syncCounter ∧
    ∀ i m, 0 ≤ i → m < 2 ^ 32 → MarkerAt c i m → markerText s'.syncCounter ≠ markerText m := by
  have hinv := (session_inv hs h (by omega)).1
  have hc := hinv.count
  have hs' : s'.syncCounter = s.syncCounter + 1 := by
    unfold createSyncMarker at hm
    split at hm
    · cases hm
    · simp only [Option.some.injEq, Prod.mk.injEq] at hm
      rw [← hm.1]
      exact Nat.mod_eq_of_lt (by omega)
  have hne : ∀ m, m ≤ s.syncCounter → markerText s'.syncCounter ≠ markerText m := by
    intro m hm he
    have := markerText_inj s'.syncCounter m (by omega) (by omega) (fun j ch hj => by rw [← he]; exact hj)
    omega
  exact ⟨hne _ (Nat.le_refl _), fun i m h1 h2 h3 => hne m (hinv.known i m h1 h2 h3)⟩

/-- C26.  A marker can be written at every row from 1 to 2984, with every number, over everything; the
rows outside of it and of the blank row above it stay as they are.  It is then found after any number
of lines have scrolled out, exactly where it is, if no program imitates it. -/
theorem C26_every_row (sys : Sys) (hs : SysOk sys) (s : S) (c : Con) (row : Int) (h1 : 1 ≤ row)
    (h2 : row + 16 ≤ 3000) (hx : 1 ≤ c.info.size.x) (hy : c.info.size.y = 3000) :
    ∃ s' c', createSyncMarker s c row = some (s', c') ∧
      s'.syncRow = row ∧ s'.syncCounter = (s.syncCounter + 1) % 2 ^ 32 ∧
      (∀ x y, y < row - 1 ∨ row + 16 ≤ y → c'.screen x y = c.screen x y) ∧
      (∀ x, 0 ≤ x → x < c.info.size.x → (c'.screen x (row - 1)).ch = 0x20) ∧
      ∀ (c'' : Con) (k : Nat),
        (∀ x y, 0 ≤ y → y + k < row + 16 → c''.screen x y = c'.screen x (y + k)) →
        (∀ i, 0 ≤ i → i ≠ row - k → ¬ MarkerAt c'' i s'.syncCounter) →
        findSyncMarker sys s' c'' = some (if k ≤ row then row - k else -1) := by
  obtain ⟨s', c', he, hc⟩ := createSyncMarker_spec s c row h1 hx (by omega)
  have hr : s'.syncRow = row := by rw [hc.state]
  refine ⟨s', c', he, hr, by rw [hc.state], hc.other, ?_, ?_⟩
  · intro x g1 g2
    unfold createSyncMarker at he
    rw [if_neg (by omega)] at he
    simp only [Option.some.injEq, Prod.mk.injEq] at he
    rw [← he.2]
    simp only [writeColumn]
    rw [if_neg (by omega), clearLines_screen,
      if_pos ⟨⟨g1, g2⟩, ⟨by omega, by omega⟩, by omega, by simp only [syncMarkerLen]; omega⟩]
  · intro c'' k hk hno
    obtain ⟨r, hf, hcase⟩ := findSyncMarker_spec sys hs s' c'' (by omega) (by omega)
    rw [hf]
    congr 1
    rcases hcase with ⟨g1, g2⟩ | ⟨g1, g2, g3, g4⟩
    · rw [if_neg, g1]
      intro hle
      refine g2 (row - k) (by omega) (by omega) (MarkerAt.congr (fun j hj => ?_) hc.placed)
      rw [hk 0 (row - k + j) (by omega) (by omega), show row - (k : Int) + j + k = row + j by omega]
    · have : r = row - k := Decidable.byContradiction fun h => hno r g1 h g3
      rw [if_pos (by omega), this]

/-- C26.  Different numbers give different markers. -/
theorem C26_texts_differ (s₁ s₂ : S) (h1 : s₁.syncCounter < 2 ^ 32) (h2 : s₂.syncCounter < 2 ^ 32)
    (h : (syncMarkerText s₁).map (·.ch) = (syncMarkerText s₂).map (·.ch)) :
    s₁.syncCounter = s₂.syncCounter := by
  rw [syncMarkerText_eq, syncMarkerText_eq, List.map_map, List.map_map] at h
  have e : ∀ l : List Nat, List.map ((fun c : Cell => c.ch) ∘ fun ch => (⟨ch, 7⟩ : Cell)) l = l := by
    intro l; induction l with
    | nil => rfl
    | cons a l ih => simp only [List.map_cons, ih]; rfl
  rw [e, e] at h
  exact markerText_inj _ _ h1 h2 (fun j ch hj => by rw [← h]; exact hj)

/-- C26.  A poll changes nothing in the window, nor in the 200 rows above it. -/
theorem C26_visible_untouched (sys : Sys) (hs : SysOk sys) (H W line : Int) (n : Nat) (hn : n + 1 < 2 ^ 32)
    (s : S) (c : Con) (t : Track) (calls : List TermCall) (h : Session sys H W line n s c t calls)
    (frozen : Bool) (v : SyncViews) (hv : Happens sys H W c t frozen v) (r : Result)
    (he : scrapeBuffer sys s frozen v = some r) (x y : Int) (hy : v.first.info.window.top - 200 ≤ y) :
    r.con.screen x y = (endOf sys frozen v r).screen x y :=
  (polled hs hn h hv he).1.screen x y hy

/-- C26.  The lines a poll reads lie in the buffer. -/
theorem C26_reads_in_buffer (sys : Sys) (hs : SysOk sys) (H W line : Int) (n : Nat) (hn : n + 1 < 2 ^ 32)
    (s : S) (c : Con) (t : Track) (calls : List TermCall) (h : Session sys H W line n s c t calls)
    (frozen : Bool) (v : SyncViews) (hv : Happens sys H W c t frozen v) (r : Result)
    (he : scrapeBuffer sys s frozen v = some r) :
    r.state.readBuffer.rect.left = 0 ∧ r.state.readBuffer.rect.right < v.first.info.size.x ∧
    0 ≤ r.state.readBuffer.rect.top ∧ r.state.readBuffer.rect.bottom < v.first.info.size.y := by
  have := (polled hs hn h hv he).1.read
  rw [hv.info.1]
  exact this

/-! ## An example -/

def demoSys : Sys := ⟨true, true, 2500⟩

theorem demoSys_ok : SysOk demoSys := .inl rfl

/-- Three columns; the rows begin with one of the letters `A` to `J`. -/
def demoCon (top : Int) : Con :=
  ⟨fun x y => if x = 0 then ⟨0x41 + (y % 10).toNat, 7⟩ else ⟨0x20, 7⟩,
   ⟨⟨3, 3000⟩, ⟨0, top, 2, top + 1⟩, ⟨1, top⟩⟩⟩

theorem demoCon_ok (top : Int) (h0 : 0 ≤ top) (h1 : top ≤ 2998) : InfoOk (demoCon top).info := by
  unfold InfoOk demoCon; refine ⟨rfl, ?_⟩; dsimp only; omega

theorem demoCon_height (top : Int) (_ : 0 ≤ top) (_ : top ≤ 2998) :
    (demoCon top).info.window.height = 2 := by
  simp only [demoCon, Rect.height, short]; omega

theorem demoCon_no_marker (top i : Int) (n : Nat) : ¬ MarkerAt (demoCon top) i n := by
  intro h
  have := h 0 0x53 (markerText_zero n)
  simp only [demoCon, if_true] at this
  omega

def demoViews (c : Con) : SyncViews := ⟨c, true, Views.still c, c, 0xFFFF, ⟨⟨80, 25⟩, c, c, c⟩⟩

theorem demo_start (top : Int) (h0 : 0 ≤ top) (h1 : top ≤ 2998) :
    Session demoSys 2 3 top 0 (Scraper.init ⟨3, 2⟩ top).1 (demoCon top) (Track.start top) [] :=
  .start ⟨3, 2⟩ (demoCon top) (demoCon_ok top h0 h1) (by rw [demoCon_height top h0 h1]; decide) rfl
    (fun i n _ _ => demoCon_no_marker top i n)

theorem demo_ran (top top' : Int) (hle : top ≤ top') :
    Ran 0 (demoCon top) (demoCon top') :=
  ⟨fun x r _ _ => by simp [demoCon], fun i n _ _ h => absurd h (demoCon_no_marker top' i n), hle⟩

theorem demo_first (top : Int) (h0 : 0 ≤ top) (h1 : top ≤ 2998) (frozen : Bool) :
    Happens demoSys 2 3 (demoCon top) (Track.start top) frozen (demoViews (demoCon top)) ∧
    RanUntil demoSys frozen (demoCon top) (demoViews (demoCon top)) 0 0 := by
  have hr := demo_ran top top (Int.le_refl _)
  have hz : SizeOk (demoCon top) := ⟨by simp only [demoCon]; omega, rfl⟩
  have : RanUntil demoSys frozen (demoCon top) (demoViews (demoCon top)) 0 0 := by
    cases frozen with
    | true => exact .still 0 rfl hz hr
    | false => exact .running 0 0 0 0 0 0 rfl hz hz hr hr hr hr hr hr
  refine ⟨⟨demoCon_ok top h0 h1, ?_, ?_, .inl ⟨0, 0, this, fun h => absurd h (by decide)⟩⟩, this⟩
  · show (demoCon top).info.window.height ≤ 2
    rw [demoCon_height top h0 h1]; decide
  · simp [demoViews, demoCon]

/-- The first poll of a session. -/
theorem demo_poll (top : Int) (h0 : 0 ≤ top) (h1 : top ≤ 2998) (frozen : Bool) :
    ∃ r, scrapeBuffer demoSys (Scraper.init ⟨3, 2⟩ top).1 frozen (demoViews (demoCon top)) = some r ∧
      Session demoSys 2 3 top 1 r.state r.con
        ((Track.start top).scrape 0 (demoCon top).info (demoCon top) 0xFFFF) r.calls ∧
      (∀ x y, top - 200 ≤ y → r.con.screen x y = (demoCon top).screen x y) := by
  obtain ⟨hh, hr⟩ := demo_first top h0 h1 frozen
  have hg : Noticeable (Track.start top) 0 := fun h => absurd h (by decide)
  obtain ⟨r, he, hc⟩ := C25_no_needless_clear demoSys demoSys_ok 2 3 top 0 (by decide) _ _ _ _
    (demo_start top h0 h1) frozen (demoViews (demoCon top)) hh.info hh.height 0 0 hr hg (.inl rfl)
  refine ⟨r, he, ?_, ?_⟩
  · have := History.poll frozen _ (demo_start top h0 h1) hh.info hh.height hh.width he (.kept hr hg hc)
    have e : contentOf demoSys frozen (demoViews (demoCon top)) r = demoCon top := by
      unfold contentOf demoViews Views.still
      split
      · rfl
      · split <;> rfl
    rw [e, ite_self, List.nil_append] at this
    exact this
  · intro x y hy
    have := C26_visible_untouched demoSys demoSys_ok 2 3 top 0 (by decide) _ _ _ _
      (demo_start top h0 h1) frozen _ hh r he x y hy
    rw [this]
    have e : endOf demoSys frozen (demoViews (demoCon top)) r = demoCon top := by
      unfold endOf demoViews Views.still
      split
      · rfl
      · split <;> rfl
    rw [e]

/-- One line scrolls out. -/
def scrollOne (c : Con) : Con :=
  { c with screen := fun x y => if y < 2999 then c.screen x (y + 1) else ⟨0x20, 7⟩ }

-- the hypotheses can be met: a marker has been made, a line scrolls out, and the agent polls again;
-- the window moves upward, and the agent polls again
example : ∃ s c t calls, Session demoSys 2 3 500 1 s c t calls ∧ s.syncRow ≠ -1 ∧ t.guarded = true ∧
    RanUntil demoSys true c (demoViews (scrollOne c)) 1 1 ∧ Noticeable t 1 ∧
    Happens demoSys 2 3 c t true (demoViews (scrollOne c)) ∧
    Happens demoSys 2 3 c t true (demoViews (demoCon 100)) := by
  obtain ⟨r, he, hs, hscreen⟩ := demo_poll 500 (by decide) (by decide) true
  have hinv := (session_inv demoSys_ok hs (by decide)).1
  have hinfo : r.con.info = (demoCon 500).info := by
    have : (scrapeBuffer demoSys (Scraper.init ⟨3, 2⟩ 500).1 true (demoViews (demoCon 500))).map
        (fun r => r.con.info) = some (demoCon 500).info := by decide +kernel
    rw [he] at this
    exact Option.some.inj this
  have hran : Ran 1 r.con (scrollOne r.con) := by
    refine ⟨?_, ?_, Int.le_refl _⟩
    · intro x y h0 h1
      rw [hinfo] at h1
      simp only [demoCon] at h1
      simp only [scrollOne]
      rw [if_pos (by omega)]
      rfl
    · intro i n h0 _ hm
      rw [hinfo]
      simp only [demoCon]
      apply Int.not_le.mp
      intro hle
      have h1 := hm 0 0x53 (markerText_zero n)
      simp only [scrollOne, Int.natCast_zero, Int.add_zero] at h1
      split at h1
      · rw [hscreen 0 (i + 1) (by omega)] at h1
        simp only [demoCon, if_true] at h1
        omega
      · cases h1
  have hru : RanUntil demoSys true r.con (demoViews (scrollOne r.con)) 1 1 :=
    .still 1 rfl ⟨by simp [demoViews, scrollOne, hinfo, demoCon], by simp [demoViews, scrollOne, hinfo, demoCon]⟩
      hran
  have hi1 : (demoViews (scrollOne r.con)).first.info = (demoCon 500).info := hinfo
  refine ⟨_, _, _, _, hs, ?_, rfl, hru, fun _ => rfl, ⟨?_, ?_, ?_, .inl ⟨1, 1, hru, fun _ => rfl⟩⟩,
    ⟨demoCon_ok 100 (by decide) (by decide), ?_, by decide, .inr ⟨by decide,
      .still rfl ⟨by decide, by decide⟩ ⟨fun i n _ _ h => absurd h (demoCon_no_marker 100 i n)⟩⟩⟩⟩
  · exact (hinv.guard rfl).1
  · rw [hi1]; exact demoCon_ok 500 (by decide) (by decide)
  · rw [hi1]; decide
  · rw [hi1]; decide
  · decide

-- what the first poll sends: both lines of the window, and where the cursor is
example : (scrapeBuffer demoSys (Scraper.init ⟨3, 2⟩ 500).1 true (demoViews (demoCon 500))).map
    (fun r => (sentLines r.calls, r.state.syncRow, r.state.syncCounter)) = some ([500, 501], 284, 1) := by
  decide +kernel

-- nothing changes: nothing is sent; the second row changes: it is sent
example : (scrapeBuffer demoSys (Scraper.init ⟨3, 2⟩ 500).1 true (demoViews (demoCon 500))).bind
    (fun r => (scrapeBuffer demoSys r.state true (demoViews r.con)).bind fun r2 =>
      (scrapeBuffer demoSys r2.state true (demoViews
        { r2.con with screen := fun x y => if y = 501 ∧ x = 1 then ⟨0x2A, 7⟩ else r2.con.screen x y })).map
        fun r3 => (sentLines r.calls, sentLines r2.calls, sentLines r3.calls)) =
      some ([500, 501], [], [501]) := by
  decide +kernel

/-! ## Where the code falls short -/

/-- C25 fails without `Noticeable`: as long as the window has not come down to row 431 there is no
marker.  A program that then prints more than the buffer holds between two polls makes the agent lose
lines: with a window at the top of the buffer, a program lets, for example, 10 lines scroll out; the
agent numbers the lines as if nothing had scrolled out, and some numbers are never used. -/
theorem C25_unmarked_scroll_defect :
    ∃ (s : S) (c : Con) (t : Track) (calls : List TermCall) (v : SyncViews) (r : Result),
      Session demoSys 2 3 0 1 s c t calls ∧ InfoOk v.first.info ∧ RanUntil demoSys true c v 10 10 ∧
      scrapeBuffer demoSys s true v = some r ∧ ¬ Clears r.calls ∧
      ¬ Transferred (t.scrape 10 v.first.info (contentOf demoSys true v r) v.mask)
        ((Want.start 0).run ((calls ++ r.calls).map opOf)) := by
  obtain ⟨r0, he0, hs, _⟩ := demo_poll 0 (by decide) (by decide) true
  have hinfo : r0.con.info = (demoCon 0).info := by
    have : (scrapeBuffer demoSys (Scraper.init ⟨3, 2⟩ 0).1 true (demoViews (demoCon 0))).map
        (fun r => r.con.info) = some (demoCon 0).info := by decide +kernel
    rw [he0] at this
    exact Option.some.inj this
  have htop : r0.con.info.window.top = 0 := by rw [hinfo]; rfl
  have hran : ∀ k, RanUntil demoSys true r0.con (demoViews (demoCon 2998)) k k := by
    intro k
    refine .still k rfl ⟨by decide, by decide⟩ ⟨?_, ?_, ?_⟩
    · intro x y h0 h1; rw [htop] at h1; omega
    · intro i n _ _ h; exact absurd h (demoCon_no_marker 2998 i n)
    · rw [htop]; decide
  have hi : InfoOk (demoViews (demoCon 2998)).first.info := demoCon_ok 2998 (by decide) (by decide)
  have hg : ∀ t, Noticeable t 0 := fun _ h => absurd h (by decide)
  obtain ⟨r, he, hc⟩ := C25_no_needless_clear demoSys demoSys_ok 2 3 0 1 (by decide) _ _ _ _ hs true
    (demoViews (demoCon 2998)) hi (by decide) 0 0 (hran 0) (hg _) (.inl rfl)
  refine ⟨_, _, _, _, _, r, hs, hi, hran 10, he, hc, ?_⟩
  have h2 := History.poll true _ hs hi (by decide) (by decide) he (.kept (hran 0) (hg _) hc)
  have h3 := C25_transferred_partial demoSys demoSys_ok 2 3 0 2 (by decide) _ _ _ _ h2
  intro h4
  have h5 := h3.only 3005 (by rw [ite_self]; simp [Track.scrape, Track.start, demoViews, demoCon])
  refine h4.noGap 3005 ?_ ?_ h5
  · have := h3.base
    rw [ite_self] at this
    simp only [Track.scrape, Track.start, demoViews, demoCon] at this
    omega
  · simp only [Track.scrape, Track.start, demoViews, demoCon]
    omega

/-- C26 fails if the window moves upward during a poll that does not freeze the console at first: the
agent then writes its marker, and blanks, into the window.  (`info` was found before the console was
frozen, and is not found again after.) -/
theorem C26_stale_info_defect :
    ∃ (v : SyncViews) (r : Result),
      Session demoSys 2 3 1000 0 (Scraper.init ⟨3, 2⟩ 1000).1 (demoCon 1000) (Track.start 1000) [] ∧
      InfoOk v.first.info ∧ InfoOk v.frozen.info ∧
      scrapeBuffer demoSys (Scraper.init ⟨3, 2⟩ 1000).1 false v = some r ∧ r.frozen = true ∧
      ∃ y, v.frozen.info.window.top ≤ y ∧ y ≤ v.frozen.info.window.bottom ∧
        (v.frozen.screen 0 y).ch = 0x41 ∧ (r.con.screen 0 y).ch ≠ 0x41 := by
  have h : ((scrapeBuffer demoSys (Scraper.init ⟨3, 2⟩ 1000).1 false
      { demoViews (demoCon 1000) with frozen := demoCon 790 }).map fun r =>
        (r.frozen, (r.con.screen 0 790).ch)) = some (true, 0x43) := by decide +kernel
  rw [Option.map_eq_some_iff] at h
  obtain ⟨r, he, hr⟩ := h
  simp only [Prod.mk.injEq] at hr
  exact ⟨_, r, demo_start 1000 (by decide) (by decide), demoCon_ok 1000 (by decide) (by decide),
    demoCon_ok 790 (by decide) (by decide), he, hr.1, 790, by decide, by decide, by decide,
    by rw [hr.2]; decide⟩

/-- 215 lines scroll out, and the window stays where it is. -/
def scrollMany (c : Con) : Con :=
  { c with screen := fun x y => if y < 2785 then c.screen x (y + 215) else ⟨0x20, 7⟩ }

/-- C26, C25: a resize can abort the agent.  A marker at row 0 is not replaced until the window has
come down to row 432; a resize tries to write a new one there, which fails an assertion.  With the
window at row 431, a program that moves the lines up by 215 (without moving the window) brings the
marker to row 0. -/
theorem C26_resize_abort_defect :
    ∃ (s : S) (c : Con) (t : Track) (calls : List TermCall) (v : SyncViews) (r : Result),
      Session demoSys 2 3 431 1 s c t calls ∧ RanUntil demoSys true c v 215 215 ∧ Noticeable t 215 ∧
      InfoOk v.first.info ∧ scrapeBuffer demoSys s true v = some r ∧ r.state.syncRow = 0 ∧
      resizeWindow demoSys r.state true ⟨80, 25⟩ (demoViews r.con) = none := by
  obtain ⟨r1, he1, hs, hscreen⟩ := demo_poll 431 (by decide) (by decide) true
  have h : ((scrapeBuffer demoSys (Scraper.init ⟨3, 2⟩ 431).1 true (demoViews (demoCon 431))).bind
      fun r1 => (scrapeBuffer demoSys r1.state true (demoViews (scrollMany r1.con))).map fun r2 =>
        (decide (r1.con.info = (demoCon 431).info), r2.state.syncRow,
          (resizeWindow demoSys r2.state true ⟨80, 25⟩ (demoViews r2.con)).isNone)) =
      some (true, 0, true) := by decide +kernel
  rw [he1, Option.bind_some, Option.map_eq_some_iff] at h
  obtain ⟨r2, he2, h⟩ := h
  simp only [Prod.mk.injEq, decide_eq_true_eq] at h
  obtain ⟨hinfo, hrow, hnone⟩ := h
  have hi : (demoViews (scrollMany r1.con)).first.info = (demoCon 431).info := hinfo
  refine ⟨_, _, _, _, _, r2, hs, ?_, fun _ => rfl, ?_, he2, hrow, Option.isNone_iff_eq_none.mp hnone⟩
  · refine .still 215 rfl ⟨?_, ?_⟩ ⟨?_, ?_, Int.le_refl _⟩
    · rw [hi]; decide
    · rw [hi]; decide
    · intro x y h0 h1
      rw [hinfo] at h1
      simp only [demoCon] at h1
      simp only [demoViews, scrollMany]
      rw [if_pos (by omega)]
      rfl
    · intro i n h0 _ hm
      rw [hinfo]
      simp only [demoCon]
      apply Int.not_le.mp
      intro hle
      have h1 := hm 0 0x53 (markerText_zero n)
      simp only [demoViews, scrollMany, Int.natCast_zero, Int.add_zero] at h1
      split at h1
      · rw [hscreen 0 (i + 215) (by omega)] at h1
        simp only [demoCon, if_true] at h1
        omega
      · cases h1
  · rw [hi]; exact demoCon_ok 431 (by decide) (by decide)

end Winpty.Props
