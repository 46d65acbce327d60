import Verif.Lemmas.ScraperEmit

/-! The parts of a scrape that find out what has moved, and whole scrapes. -/
namespace Winpty.Scraper

open Winpty.Spec.Scrape
open Winpty.SmallRect
open Winpty.ConsoleLine (Cell Obj Rep)
open Winpty.Agent (TermCall)
open Winpty.Spec.Term

/-- The marker, if there is one, is at least 200 lines above row `b`. -/
def Row (s : S) (b : Int) : Prop := s.syncRow = -1 ∨ (0 ≤ s.syncRow ∧ s.syncRow + 216 ≤ b)

/-- No marker in the console has a higher number than the last one made. -/
def Known (s : S) (c : Con) : Prop :=
  ∀ i n, 0 ≤ i → n < 2 ^ 32 → MarkerAt c i n → n ≤ s.syncCounter

/-- The marker in use is `k` lines above where it was last seen (or has scrolled out). -/
def Placed (k : Nat) (s : S) (c : Con) : Prop :=
  s.syncRow ≠ -1 → ∀ i, 0 ≤ i → (MarkerAt c i s.syncCounter ↔ i + k = s.syncRow)

theorem MarkerAt.congr {c c' : Con} {i j : Int} {n : Nat}
    (h : ∀ k : Nat, k < 16 → c'.screen 0 (j + k) = c.screen 0 (i + k)) (hm : MarkerAt c i n) :
    MarkerAt c' j n := by
  intro k ch hk
  have hlt := (List.getElem?_eq_some_iff.mp hk).1
  rw [markerText_length] at hlt
  rw [h k hlt]
  exact hm k ch hk

theorem Ran.back {k : Nat} {c c' : Con} (h : Ran k c c') {i : Int} {n : Nat} (hi : 0 ≤ i)
    (hn : n < 2 ^ 32) (hm : MarkerAt c' i n) : MarkerAt c (i + k) n := by
  have hg := h.genuine i n hi hn hm
  refine MarkerAt.congr (fun j hj => ?_) hm
  rw [h.kept 0 (i + j) (by omega) (by omega), show i + (j : Int) + k = i + k + j by omega]

theorem Ran.trans {k k' : Nat} {c c' c'' : Con} (h : Ran k c c') (h' : Ran k' c' c'') :
    Ran (k + k') c c'' := by
  have hd := h.down
  constructor
  · intro x r h0 h1
    simp only [Int.natCast_add] at h1
    rw [h'.kept x r h0 (by omega), h.kept x (r + k') (by omega) (by omega)]
    congr 1
    simp only [Int.natCast_add]
    omega
  · intro i n hi hn hm
    have := h.genuine (i + k') n (by omega) hn (Ran.back h' hi hn hm)
    simp only [Int.natCast_add]
    omega
  · have := h'.down; omega

theorem Known.ran {k : Nat} {s : S} {c c' : Con} (hk : Known s c) (h : Ran k c c') : Known s c' := by
  intro i n hi hn hm
  exact hk (i + k) n (by omega) hn (Ran.back h hi hn hm)

theorem Placed.ran {k j : Nat} {s : S} {c c' : Con} (hp : Placed j s c) (h : Ran k c c')
    (hr : Row s c.info.window.top) (hn : s.syncCounter < 2 ^ 32) : Placed (j + k) s c' := by
  intro hs i hi
  have hr' : 0 ≤ s.syncRow ∧ s.syncRow + 216 ≤ c.info.window.top := hr.resolve_left hs
  simp only [Int.natCast_add]
  constructor
  · intro hm
    have := (hp hs (i + k) (by omega)).mp (Ran.back h hi hn hm)
    omega
  · intro he
    have hm := (hp hs (i + k) (by omega)).mpr (by omega)
    refine MarkerAt.congr (fun l hl => ?_) hm
    rw [h.kept 0 (i + l) (by omega) (by omega), show i + (l : Int) + k = i + k + l by omega]

/-! ## Parts of the state that do not matter to the lines -/

theorem Core.same {H : Int} {s s' : S} {t : Track} {w : Want} (h : Core H s t w)
    (h1 : s' = { s with syncRow := s'.syncRow, syncCounter := s'.syncCounter,
                        readBuffer := s'.readBuffer })
    (h2 : s'.syncCounter < 2 ^ 32) : Core H s' t w := by
  obtain ⟨a, b, c, d, e, f, g, i, j, k, l, m, n, o, p, q, r, u, _, z⟩ := h
  rw [h1]
  exact ⟨a, b, c, d, e, f, g, i, j, k, l, m, n, o, p, q, r, u, h2, z⟩

theorem Ready.same {s s' : S} {info : Info} (h : Ready s info)
    (h1 : s' = { s with syncRow := s'.syncRow, syncCounter := s'.syncCounter,
                        readBuffer := s'.readBuffer }) : Ready s' info := by
  obtain ⟨a, b, c, d⟩ := h
  rw [h1]
  exact ⟨a, b, c, d⟩

/-! ## Resetting -/

theorem core_reset {H : Int} {s : S} (w : Want) {top : Int} (hH : 1 ≤ H)
    (ht : 0 ≤ top ∧ top ≤ 2999) (hm : s.directMode = false) (hn : s.syncCounter < 2 ^ 32) :
    Core H (resetConsoleTracking s true top).1 (Track.start top) (w.step (.clear top)) := by
  have hlow : low (resetConsoleTracking s true top).1 = top := by simp [low, resetConsoleTracking]
  constructor <;> (try rw [hlow]) <;> simp only [resetConsoleTracking, Track.start, Want.step]
  · exact hm
  · omega
  · omega
  · omega
  · omega
  · omega
  · intro h; exact absurd rfl h
  · intro i; exact ⟨_, _, ConsoleLine.rep_reset _⟩
  · intro l h1 h2; omega
  · intro l cells h; cases h
  · intro l old h; cases h
  · intro _ _; trivial
  · intro _ _; trivial
  · intro l h1 h2; omega
  · omega
  · omega
  · exact hn
  · intro l h1 h2; omega

/-! ## The marker -/

/-- The state after `d` lines have scrolled out. -/
def shifted (s : S) (d : Int) (window : Rect) : S :=
  if d = 0 then s
  else markEntireWindowDirty
    { s with scrolledCount := s.scrolledCount + d, syncRow := s.syncRow - d } window

theorem trackMarker_spec (sys : Sys) (hs : SysOk sys) (s : S) (c : Con) (window : Rect)
    (tentative : Bool) (b : Int) (hb : b ≤ 2999) (hr : Row s b) :
    (s.syncRow ≠ -1 ∧ (∀ i, 0 ≤ i → i ≤ s.syncRow → ¬ MarkerAt c i s.syncCounter) ∧
      trackMarker sys s c window tentative =
        if tentative then .bail s
        else .go (resetConsoleTracking s true window.top).1 [.reset true window.top]) ∨
    (∃ d, 0 ≤ d ∧ (s.syncRow = -1 → d = 0) ∧
      (s.syncRow ≠ -1 → d ≤ s.syncRow ∧ MarkerAt c (s.syncRow - d) s.syncCounter) ∧
      trackMarker sys s c window tentative = .go (shifted s d window) []) := by
  unfold trackMarker
  by_cases h0 : s.syncRow = -1
  · refine .inr ⟨0, by omega, fun _ => rfl, fun h => absurd h0 h, ?_⟩
    rw [if_pos h0]
    simp [shifted]
  · rw [if_neg h0]
    obtain ⟨h1, h2⟩ := hr.resolve_left h0
    obtain ⟨r, hf, hcase⟩ := findSyncMarker_spec sys hs s c h1 (by omega)
    rw [hf]
    simp only
    rcases hcase with ⟨e, hno⟩ | ⟨r0, r1, hm, _⟩
    · refine .inl ⟨h0, hno, ?_⟩
      rw [if_pos e]
      rfl
    · refine .inr ⟨s.syncRow - r, by omega, fun h => absurd h h0, fun _ =>
        ⟨by omega, by rw [show s.syncRow - (s.syncRow - r) = r by omega]; exact hm⟩, ?_⟩
      rw [if_neg (by omega)]
      by_cases he : r = s.syncRow
      · rw [if_neg (by simp [he])]
        subst he
        simp [shifted]
      · rw [if_pos he, if_neg (by omega)]
        unfold shifted
        rw [if_neg (by omega), show s.syncRow - (s.syncRow - r) = r by omega]

/-- The fields of a state after scrolling. -/
theorem shifted_fields (s : S) (d : Int) (window : Rect) :
    (shifted s d window).directMode = s.directMode ∧
    (shifted s d window).scrolledCount = s.scrolledCount + d ∧
    (shifted s d window).syncRow = s.syncRow - d ∧
    (shifted s d window).syncCounter = s.syncCounter ∧
    (shifted s d window).scrapedLineCount = s.scrapedLineCount ∧
    (shifted s d window).maxBufferedLine = s.maxBufferedLine ∧
    (shifted s d window).bufferData = s.bufferData ∧
    (shifted s d window).dirtyWindowTop = s.dirtyWindowTop ∧
    (shifted s d window).dirtyLineCount =
      if d = 0 then s.dirtyLineCount else max s.dirtyLineCount (window.top + window.height) := by
  unfold shifted
  by_cases h : d = 0
  · subst h; simp
  · simp only [if_neg h, markEntireWindowDirty, and_self]

theorem core_shifted {H : Int} {s : S} {t : Track} {w : Want} (h : Core H s t w) {info : Info}
    (hi : InfoOk info) {d : Int} (h0 : 0 ≤ d) (h1 : s.syncRow = -1 → d = 0)
    (h2 : s.syncRow ≠ -1 → d ≤ s.syncRow)
    (hr : Row s (low s - s.scrolledCount)) :
    Core H (shifted s d info.window) t w ∧
    Row (shifted s d info.window)
      (low (shifted s d info.window) - (shifted s d info.window).scrolledCount) ∧
    low s ≤ low (shifted s d info.window) := by
  have hh := height_eq hi
  obtain ⟨_, _, _, _, _, _, ht0, htb, hb, _⟩ := hi
  obtain ⟨e1, e2, e3, e4, e5, e6, e7, e8, e9⟩ := shifted_fields s d info.window
  have hd : s.dirtyLineCount ≤ (shifted s d info.window).dirtyLineCount ∧
      (shifted s d info.window).dirtyLineCount ≤ 3000 := by
    have := h.dirty
    rw [e9]; split <;> omega
  have hsc := h.scrolled
  have hin := h.inBuf
  have hmx := h.maxHi
  have hdd := h.dirty
  have hls := low_le s
  have hroom : d ≤ low s - s.scrolledCount ∧ (s.syncRow ≠ -1 → s.syncRow + 216 ≤ low s - s.scrolledCount) := by
    rcases hr with hx | ⟨hx, hy⟩
    · rw [h1 hx]; omega
    · have := h2 (by omega); omega
  have hl1 : low s ≤ low (shifted s d info.window) := by
    unfold low; rw [e8, e5, e2]; split <;> omega
  have hl2 : low s - s.scrolledCount - d ≤
      low (shifted s d info.window) - (shifted s d info.window).scrolledCount := by
    rw [e2]; omega
  refine ⟨?_, ?_, hl1⟩
  · constructor
    · rw [e1]; exact h.mode
    · rw [e2]; omega
    · rw [e5]; omega
    · rw [e6]; exact h.maxLo
    · rw [e6, e2]; omega
    · omega
    · rw [e8, e5, e2]; intro g; have := h.deep g; omega
    · rw [e7]; exact h.objs
    · rw [e6, e7]; intro l g1 g2; exact h.recs l (by omega) g2
    · rw [e5, e6]; exact h.lines
    · exact h.olds
    · exact h.only
    · rw [e6]; exact h.unsent
    · rw [e5]; exact h.noGap
    · have := h.base; omega
    · exact h.start
    · have := h.highest; rw [e2]; omega
    · rw [e5]; exact h.top
    · rw [e4]; exact h.counter
    · rw [e6, e7]; intro l g1 g2; exact h.kept l (by omega) g2
  · unfold Row
    rw [e3]
    rcases hr with hx | ⟨hx, hy⟩
    · rw [h1 hx]; left; omega
    · right; have := h2 (by omega); omega

/-! ## The window -/

theorem core_dirty {H : Int} {s : S} {t : Track} {w : Want} (h : Core H s t w) {info : Info}
    (hi : InfoOk info) {d : Int} (hd : s.dirtyLineCount ≤ d ∧ d ≤ 3000) (hdt : info.window.top ≤ d)
    (hf : low s ≤ info.window.top + s.scrolledCount) :
    Core H { s with dirtyWindowTop := info.window.top, dirtyLineCount := d } t w := by
  obtain ⟨_, _, _, _, _, _, ht0, htb, hb, _⟩ := hi
  have hl : low { s with dirtyWindowTop := info.window.top, dirtyLineCount := d } =
      min s.scrapedLineCount (info.window.top + s.scrolledCount) := by
    unfold low; simp only; rw [if_neg (by omega)]
  have hls := low_le s
  have hin := h.inBuf
  have hmx := h.maxHi
  have hdd := h.dirty
  have hbs := h.base
  have hhi := h.highest
  have hdp : s.scrapedLineCount ≤ d + s.scrolledCount := by
    by_cases g : s.dirtyWindowTop = -1
    · unfold low at hf; rw [if_pos g] at hf; omega
    · have := h.deep g; omega
  constructor <;> (try rw [hl])
  · exact h.mode
  · exact h.scrolled
  · simp only; omega
  · exact h.maxLo
  · simp only; omega
  · simp only; omega
  · intro _; exact hdp
  · exact h.objs
  · intro l g1 g2; exact h.recs l (by omega) g2
  · exact h.lines
  · exact h.olds
  · exact h.only
  · exact h.unsent
  · exact h.noGap
  · omega
  · exact h.start
  · simp only; omega
  · exact h.top
  · exact h.counter
  · intro l g1 g2; exact h.kept l (by omega) g2

/-- What looking at the window does when the window has not moved upward. -/
structure Tracked (H : Int) (s : S) (t : Track) (w : Want) (info : Info) (s' : S) : Prop where
  core : Core H s' t w
  ready : Ready s' info
  same : s' = { s with dirtyWindowTop := info.window.top, dirtyLineCount := s'.dirtyLineCount }
  grows : s.dirtyLineCount ≤ s'.dirtyLineCount
  moved : s.dirtyWindowTop ≠ -1 → s.dirtyWindowTop < info.window.top →
    info.window.bottom + 1 ≤ s'.dirtyLineCount
  still : ∀ Q, Rest s info Q → s' = s

theorem setDirty_tracked {H : Int} {s s1 : S} {t : Track} {w : Want} (h : Core H s t w) {info : Info}
    (hi : InfoOk info) (hf : low s ≤ info.window.top + s.scrolledCount)
    (h1 : s1 = { s with dirtyLineCount := s1.dirtyLineCount }) (h2 : s.dirtyLineCount ≤ s1.dirtyLineCount)
    (h3 : s1.dirtyLineCount ≤ 3000)
    (hm : s.dirtyWindowTop ≠ -1 → s.dirtyWindowTop < info.window.top →
      info.window.bottom + 1 ≤ s1.dirtyLineCount)
    (hst : s.dirtyWindowTop = info.window.top → s1 = s) :
    Tracked H s t w info (setDirty s1 info.window info.cursor) := by
  have hi' := hi
  obtain ⟨_, _, _, _, _, _, ht0, htb, hb, hc0, hc1, _⟩ := hi'
  have he : setDirty s1 info.window info.cursor =
      { s with dirtyWindowTop := info.window.top,
               dirtyLineCount := (setDirty s1 info.window info.cursor).dirtyLineCount } := by
    unfold setDirty
    rw [h1]
  have hd : s1.dirtyLineCount ≤ (setDirty s1 info.window info.cursor).dirtyLineCount ∧
      (setDirty s1 info.window info.cursor).dirtyLineCount ≤ 3000 ∧
      1 ≤ (setDirty s1 info.window info.cursor).dirtyLineCount ∧
      info.window.top ≤ (setDirty s1 info.window info.cursor).dirtyLineCount ∧
      info.cursor.y + 1 ≤ (setDirty s1 info.window info.cursor).dirtyLineCount := by
    simp only [setDirty]; omega
  have hstill : ∀ Q, Rest s info Q → setDirty s1 info.window info.cursor = s := by
    intro Q hq
    rw [hst hq.window]
    have h4 := hq.dirty
    have h5 := hq.window
    unfold setDirty
    rw [show max (max s.dirtyLineCount (info.cursor.y + 1)) info.window.top = s.dirtyLineCount by omega,
      ← h5]
  generalize setDirty s1 info.window info.cursor = s' at he hd hstill
  constructor
  · rw [he]; exact core_dirty h hi (by omega) (by omega) hf
  · constructor
    · rw [he]
    · omega
    · omega
    · omega
  · exact he
  · omega
  · intro g1 g2; have := hm g1 g2; omega
  · exact hstill

theorem trackWindow_spec {H : Int} {s : S} {t : Track} {w : Want} (h : Core H s t w) {info : Info}
    (hi : InfoOk info) (tentative : Bool) (hH : 1 ≤ H)
    (hf : s.dirtyWindowTop = -1 → s.scrapedLineCount ≤ info.window.top + s.scrolledCount) :
    (s.dirtyWindowTop ≠ -1 ∧ info.window.top < s.dirtyWindowTop ∧
      ((tentative = true ∧ trackWindow s info.window info.cursor tentative = .bail s) ∨
       (tentative = false ∧ ∃ s',
          trackWindow s info.window info.cursor tentative = .go s' [.reset true info.window.top] ∧
          Tracked H (resetConsoleTracking s true info.window.top).1 (Track.start info.window.top)
            (w.step (.clear info.window.top)) info s'))) ∨
    ((s.dirtyWindowTop = -1 ∨ s.dirtyWindowTop ≤ info.window.top) ∧ ∃ s',
      trackWindow s info.window info.cursor tentative = .go s' [] ∧ Tracked H s t w info s') := by
  have hh := height_eq hi
  have hi' := hi
  obtain ⟨_, _, _, _, _, _, ht0, htb, hb, hc0, hc1, _⟩ := hi'
  have hpos : ∀ x : S, ¬ ¬ (setDirty x info.window info.cursor).dirtyLineCount ≥ 1 := by
    intro x; simp only [setDirty]; omega
  have hdirty := h.dirty
  unfold trackWindow
  by_cases h1 : s.dirtyWindowTop = -1
  · refine .inr ⟨.inl h1, _, ?_, setDirty_tracked h hi (by unfold low; rw [if_pos h1]; exact hf h1) rfl (Int.le_refl _) hdirty.2
      (fun g => absurd h1 g) (fun _ => rfl)⟩
    rw [if_neg (by simp [h1])]
    simp only
    rw [if_neg (hpos _)]
  · have hfirst : s.dirtyWindowTop ≤ info.window.top →
        low s ≤ info.window.top + s.scrolledCount := by
      unfold low; rw [if_neg h1]; omega
    rw [if_pos h1]
    by_cases h2 : info.window.top > s.dirtyWindowTop
    · refine .inr ⟨.inr (by omega), _, ?_, setDirty_tracked (s1 := markEntireWindowDirty s info.window) h hi
        (hfirst (by omega)) rfl ?_ ?_ ?_ (fun g => by omega)⟩
      · rw [if_pos h2]
        simp only
        rw [if_neg (hpos _)]
      · simp only [markEntireWindowDirty]; omega
      · simp only [markEntireWindowDirty]; omega
      · intro _ _; simp only [markEntireWindowDirty]; omega
    · rw [if_neg h2]
      by_cases h3 : info.window.top < s.dirtyWindowTop
      · rw [if_pos h3]
        refine .inl ⟨h1, h3, ?_⟩
        cases tentative with
        | true => exact .inl ⟨rfl, rfl⟩
        | false =>
          refine .inr ⟨rfl, setDirty (resetConsoleTracking s true info.window.top).1 info.window
            info.cursor, ?_, setDirty_tracked
            (core_reset w hH ⟨ht0, by omega⟩ h.mode h.counter) hi ?_ rfl (Int.le_refl _) ?_ ?_ (fun _ => rfl)⟩
          · simp only [Bool.false_eq_true, if_false]
            rw [if_neg (hpos _)]
            rfl
          · simp [resetConsoleTracking, low]
          · simp [resetConsoleTracking]
          · intro g; simp [resetConsoleTracking] at g
      · rw [if_neg h3]
        refine .inr ⟨.inr (by omega), _, ?_, setDirty_tracked h hi (hfirst (by omega)) rfl
          (Int.le_refl _) hdirty.2 (fun _ g => by omega) (fun _ => rfl)⟩
        simp only
        rw [if_neg (hpos _)]

/-! ## Reading -/

theorem readLines_spec {H : Int} {s : S} {t : Track} {w : Want} (h : Core H s t w) {info : Info}
    (hi : InfoOk info) (hr : Ready s info) (sys : Sys) (hs : SysOk sys) (c : Con) (mask : Nat) :
    ∃ b, readLines sys s c info mask = some { s with readBuffer := b } ∧
      (b.rect.left = 0 ∧ b.rect.right < info.size.x ∧ 0 ≤ b.rect.top ∧ b.rect.bottom < 3000) ∧
      ∀ r, firstReadLine s info.window ≤ r → r < stopReadLine s info.window →
        rowAt b b.rect.width r = some (rowCells { c with info := info } mask r) ∧
        rowCells { c with info := info } mask r ≠ [] := by
  have hh := height_eq hi
  have hi' := hi
  obtain ⟨_, hx1, hx2, _, _, _, ht0, htb, hb, _⟩ := hi'
  have hin := h.inBuf
  have hd := h.dirty
  have hp := hr.pos
  obtain ⟨hf1, hf2⟩ := hr.first ht0
  have h1 : 0 ≤ firstReadLine s info.window := by
    unfold firstReadLine; rw [hf1]; omega
  have h2 : firstReadLine s info.window < stopReadLine s info.window := by
    unfold firstReadLine stopReadLine; rw [hf1]; omega
  have h3 : stopReadLine s info.window ≤ 3000 := by unfold stopReadLine; omega
  obtain ⟨b, hb1, hrect, hb2⟩ := rowAt_read sys hs s.readBuffer c info mask _ _ h1 h2 h3 ⟨hx1, hx2⟩
  refine ⟨b, ?_, ?_, hb2⟩
  · unfold readLines
    rw [if_neg (fun hn => hn ⟨h1, h2⟩), hb1]
  · rw [hrect]; exact ⟨rfl, by simp only; omega, h1, by simp only; omega⟩

/-! ## Making a marker -/

/-- What making a marker, if one is due, does. -/
structure Made (due : Bool) (s : S) (c : Con) (top : Int) (s' : S) (c' : Con) : Prop where
  same : s' = { s with syncRow := s'.syncRow, syncCounter := s'.syncCounter }
  info : c'.info = c.info
  known : Known s' c'
  count : s'.syncCounter ≤ s.syncCounter + 1
  bound : s'.syncCounter < 2 ^ 32
  row : Row s' top
  placed : Placed 0 s c → Placed 0 s' c'
  made : due = true → s'.syncRow = top - 216 ∧ s'.syncCounter = s.syncCounter + 1
  kept : due = false → s'.syncRow = s.syncRow ∧ s'.syncCounter = s.syncCounter ∧ c' = c
  screen : ∀ x y, top - 200 ≤ y → c'.screen x y = c.screen x y

theorem make_spec (due : Bool) (s : S) (c : Con) (window : Rect)
    (hx : 1 ≤ c.info.size.x) (hy : c.info.size.y = 3000) (hdue : due = true → 431 ≤ window.top)
    (ht : window.top ≤ 2999) (hk : Known s c) (hn : s.syncCounter + 1 < 2 ^ 32)
    (hr : Row s window.top) :
    ∃ s' c', (if due = true then createSyncMarker s c (newSyncRow window) else some (s, c)) =
      some (s', c') ∧ Made due s c window.top s' c' := by
  cases due with
  | false =>
    refine ⟨s, c, rfl, ⟨rfl, rfl, hk, Nat.le_succ _, by omega, hr, id, (fun h => by cases h),
      fun _ => ⟨rfl, rfl, rfl⟩, fun _ _ _ => rfl⟩⟩
  | true =>
    have h431 := hdue rfl
    have hrow : newSyncRow window = window.top - 216 := by
      simp only [newSyncRow, syncMarkerLen, syncMarkerMargin]; omega
    obtain ⟨s', c', he, hc⟩ := createSyncMarker_spec s c (newSyncRow window) (by omega) hx
      (by omega)
    refine ⟨s', c', he, ?_⟩
    have hst := hc.state
    have hcnt : s'.syncCounter = s.syncCounter + 1 := by
      rw [hst]; exact Nat.mod_eq_of_lt hn
    have hsr : s'.syncRow = window.top - 216 := by rw [hst, ← hrow]
    constructor
    · rw [hst]
    · exact hc.info
    · intro i n hi hn' hm
      rcases hc.only i n hi hn' hm with ⟨_, h2⟩ | h2
      · omega
      · have := hk i n hi hn' h2; omega
    · omega
    · omega
    · right; omega
    · intro _ _ i hi
      constructor
      · intro hm
        rcases hc.only i _ hi (by omega) hm with ⟨h2, _⟩ | h2
        · omega
        · have := hk i _ hi (by omega) h2; omega
      · intro he'
        have : i = newSyncRow window := by omega
        rw [this]
        exact hc.placed
    · intro _; exact ⟨hsr, hcnt⟩
    · intro h; cases h
    · intro x y hy'
      exact hc.other x y (by omega)

theorem due_top {s : S} {window : Rect} (h : -1 ≤ s.syncRow)
    (hd : shouldCreateSyncRow s window = true) : 431 ≤ window.top := by
  unfold shouldCreateSyncRow at hd
  have := of_decide_eq_true hd
  simp only [newSyncRow, syncMarkerLen, syncMarkerMargin] at this
  omega

theorem not_due {s : S} {window : Rect} (hd : shouldCreateSyncRow s window = false) :
    window.top < s.syncRow + 432 := by
  unfold shouldCreateSyncRow at hd
  have := of_decide_eq_false hd
  simp only [newSyncRow, syncMarkerLen, syncMarkerMargin] at this
  omega

/-! ## The end of a scrape -/

/-- The state, the console and the calls after a scrape that did all its work, from the state in which
the window has been looked at. -/
structure Finished (H : Int) (due visible : Bool) (s : S) (t : Track) (w : Want) (c content : Con)
    (info : Info) (mask : Nat) (s' : S) (c' : Con) (calls : List TermCall) : Prop where
  core : ∀ t' : Track, t'.top = info.window.top + s.scrolledCount → t'.base = t.base →
    (∀ l, t'.want l =
      if low s ≤ l ∧ l ≤ info.window.bottom + s.scrolledCount then
        some (rowCells { content with info := info } mask (l - s.scrolledCount)) else t.want l) →
    (∀ l, t'.blanked l =
      if (low s ≤ l ∧ l ≤ info.window.bottom + s.scrolledCount) ∧
          ¬ Blanked (rowCells { content with info := info } mask (l - s.scrolledCount)) then none
      else t.blanked l) →
    Core H s' t' (w.run (calls.map opOf))
  scrolled : s'.scrolledCount = s.scrolledCount
  scraped : s'.scrapedLineCount = info.window.top + s.scrolledCount
  window : s'.dirtyWindowTop = info.window.top
  sizes : c'.info = c.info
  known : Known s' c'
  count : s'.syncCounter ≤ s.syncCounter + 1
  row : Row s' info.window.top
  placed : Placed 0 s c → Placed 0 s' c'
  made : due = true → s'.syncRow = info.window.top - 216 ∧ s'.syncCounter = s.syncCounter + 1
  kept : due = false → s'.syncRow = s.syncRow ∧ s'.syncCounter = s.syncCounter ∧ c' = c
  screen : ∀ x y, info.window.top - 200 ≤ y → c'.screen x y = c.screen x y
  shape : ∃ m n shown cl cc, calls = emitted shown cc cl
      (sends (fun l => rowCells { content with info := info } mask (l - s.scrolledCount)) cl cc m n)
    ∧ low s ≤ m ∧ (0 < n → m ≤ s.maxBufferedLine + 1 ∨ m = low s)
  ok : ∀ cfg : Spec.Vt.Cfg, H ≤ cfg.height → info.size.x ≤ cfg.width →
    (∀ line cells col, .sendLine line cells col ∈ calls → LineOk cfg cells) →
    OpsOk cfg w (calls.map opOf)
  all : info.window.bottom + 1 ≤ s.dirtyLineCount → ∀ l, low s ≤ l →
    l ≤ info.window.bottom + s.scrolledCount → (w.run (calls.map opOf)).sent l ≠ none
  read : s'.readBuffer.rect.left = 0 ∧ s'.readBuffer.rect.right < info.size.x ∧
    0 ≤ s'.readBuffer.rect.top ∧ s'.readBuffer.rect.bottom < 3000
  low : due = true → 431 ≤ info.window.top
  why : ∀ l rest, sentLines calls = l :: rest → w.sent l = none ∨
    ((t.blanked l = none →
        t.want l ≠ some (rowCells { content with info := info } mask (l - s.scrolledCount))) ∧
      (t.blanked l ≠ none →
        ¬ Blanked (rowCells { content with info := info } mask (l - s.scrolledCount))))
  rest : Rest s' info (fun r => rowCells { content with info := info } mask r)
  ends : ∃ lines, calls = emitted (cursorShown info visible) info.cursor.x
      (info.cursor.y + s.scrolledCount) lines ∧
    (∀ call ∈ lines, ∃ l cells col, call = TermCall.sendLine l cells col) ∧
    (Rest s info (fun r => rowCells { content with info := info } mask r) → lines = [])

theorem finish_spec {H : Int} {s : S} {t : Track} {w : Want} (h : Core H s t w) {info : Info}
    (hi : InfoOk info) (hr : Ready s info) (hH : info.window.height ≤ H) (sys : Sys) (hs : SysOk sys)
    (due visible : Bool) (c content : Con) (mask : Nat) (hx : 1 ≤ c.info.size.x)
    (hy : c.info.size.y = 3000) (hdue : due = true → 431 ≤ info.window.top) (hk : Known s c)
    (hn : s.syncCounter + 1 < 2 ^ 32) (hrow : Row s info.window.top) :
    ∃ s3 s4 c' s' calls, readLines sys s content info mask = some s3 ∧
      s3.syncRow = s.syncRow ∧ s3.syncCounter = s.syncCounter ∧
      (if due = true then createSyncMarker s3 c (newSyncRow info.window) else some (s3, c)) =
        some (s4, c') ∧
      emit s4 info visible = some (s', calls) ∧
      Finished H due visible s t w c content info mask s' c' calls := by
  have hi' := hi
  obtain ⟨_, _, _, _, _, _, ht0, htb, hb, _⟩ := hi'
  obtain ⟨b, hread, hrect, hrows⟩ := readLines_spec h hi hr sys hs content mask
  obtain ⟨s4, c', hmake, hm⟩ := make_spec due { s with readBuffer := b } c info.window hx hy hdue
    (by omega) hk hn hrow
  have hsame : s4 = { s with syncRow := s4.syncRow, syncCounter := s4.syncCounter,
                             readBuffer := s4.readBuffer } := by
    have h4 := hm.same
    rw [h4]
  have f1 : s4.scrolledCount = s.scrolledCount := by rw [hsame]
  have f2 : s4.scrapedLineCount = s.scrapedLineCount := by rw [hsame]
  have f3 : s4.dirtyLineCount = s.dirtyLineCount := by rw [hsame]
  have f4 : s4.readBuffer = b := by rw [hm.same]
  have f5 : s4.dirtyWindowTop = s.dirtyWindowTop := by rw [hsame]
  have f6 : s4.maxBufferedLine = s.maxBufferedLine := by rw [hsame]
  have hfr : firstReadLine s4 info.window = firstReadLine s info.window := by
    unfold firstReadLine firstVirtLine; rw [f1, f2, f3]
  have hsr : stopReadLine s4 info.window = stopReadLine s info.window := by
    unfold stopReadLine; rw [f3]
  obtain ⟨s', calls, hemit, he⟩ := emit_spec H s4 t w info visible
    (fun r => rowCells { content with info := info } mask r) (h.same hsame hm.bound) hi (hr.same hsame) hH
    (by rw [hfr, hsr, f4]; exact hrows)
  refine ⟨_, s4, c', s', calls, hread, rfl, rfl, hmake, hemit, ?_⟩
  have hsync := he.sync
  have f7 : low s4 = low s := by unfold low; rw [f5, f2, f1]
  rw [f7] at he
  constructor
  · have := he.core; rw [f1] at this; exact this
  · rw [he.scrolled, f1]
  · rw [he.scraped, f1]
  · rw [he.window, f5, hr.window]
  · exact hm.info
  · intro i n g1 g2 g3; rw [hsync.2]; exact hm.known i n g1 g2 g3
  · rw [hsync.2]; exact hm.count
  · have := hm.row; unfold Row at this ⊢; rw [hsync.1]; exact this
  · intro hp
    have := hm.placed hp
    unfold Placed at this ⊢
    rw [hsync.1, hsync.2]; exact this
  · rw [hsync.1, hsync.2]; exact hm.made
  · rw [hsync.1, hsync.2]; exact hm.kept
  · exact hm.screen
  · have := he.shape; rw [f1, f6] at this; exact this
  · exact he.ok
  · have := he.all; rw [f1, f3] at this; exact this
  · rw [he.read, f4]; exact hrect
  · exact hdue
  · have := he.why; rw [f1] at this; exact this
  · exact he.rest
  · obtain ⟨lines, g1, g2, g3⟩ := he.ends
    rw [f1] at g1
    exact ⟨lines, g1, g2, fun hq => g3 (hq.same_lines hsame)⟩

end Winpty.Scraper
