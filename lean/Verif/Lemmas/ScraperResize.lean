import Verif.Lemmas.ScraperPoll

/-! Resizing a scrolling console. -/
namespace Winpty.Scraper

open Winpty.Spec.Scrape
open Winpty.SmallRect
open Winpty.ConsoleLine (Cell Obj Rep)
open Winpty.Agent (TermCall)
open Winpty.Spec.Term

/-! ## The size of the terminal does not change while scraping -/

/-- The size of the terminal is as in `s`. -/
def SamePty (s : S) : Step → Prop
  | .abort => True
  | .bail s' => s'.ptySize = s.ptySize
  | .go s' _ => s'.ptySize = s.ptySize

theorem trackMarker_pty (sys : Sys) (s : S) (c : Con) (window : Rect) (tentative : Bool) :
    SamePty s (trackMarker sys s c window tentative) := by
  unfold trackMarker
  split
  · rfl
  · split
    · trivial
    · split
      · split <;> rfl
      · split
        · split
          · trivial
          · rfl
        · rfl

theorem trackWindow_pty (s : S) (window : Rect) (cursor : Coord) (tentative : Bool) :
    SamePty s (trackWindow s window cursor tentative) := by
  unfold trackWindow
  have h : SamePty s (if s.dirtyWindowTop ≠ -1 then
      if window.top > s.dirtyWindowTop then Step.go (markEntireWindowDirty s window) []
      else if window.top < s.dirtyWindowTop then
        if tentative then .bail s
        else .go (resetConsoleTracking s true window.top).1 [(resetConsoleTracking s true window.top).2]
      else .go s []
    else .go s []) := by
    split
    · split
      · rfl
      · split
        · split <;> rfl
        · rfl
    · rfl
  revert h
  generalize (if s.dirtyWindowTop ≠ -1 then
      if window.top > s.dirtyWindowTop then Step.go (markEntireWindowDirty s window) []
      else if window.top < s.dirtyWindowTop then
        if tentative then .bail s
        else .go (resetConsoleTracking s true window.top).1 [(resetConsoleTracking s true window.top).2]
      else .go s []
    else .go s []) = st
  intro h
  cases st with
  | abort => trivial
  | bail s1 => exact h
  | go s1 calls =>
    simp only
    split
    · trivial
    · exact h

theorem sendLoop_pty (cl cc : Int) : ∀ (n : Nat) (s : S) (line : Int) (saw : Bool) (s' : S)
    (calls : List TermCall), sendLoop s cl cc n line saw = some (s', calls) → s'.ptySize = s.ptySize := by
  intro n
  induction n with
  | zero => intro s line saw s' calls h; simp only [sendLoop, Option.some.injEq, Prod.mk.injEq] at h; rw [← h.1]
  | succ n ih =>
    intro s line saw s' calls h
    simp only [sendLoop] at h
    split at h
    · split at h
      · split at h
        · cases h
        · rename_i h'
          simp only [Option.some.injEq, Prod.mk.injEq] at h
          rw [← h.1]; exact (ih _ _ _ _ _ h').trans rfl
      · split at h
        · cases h
        · split at h
          · cases h
          · rename_i h'
            simp only [Option.some.injEq, Prod.mk.injEq] at h
            rw [← h.1]; exact (ih _ _ _ _ _ h').trans rfl
    · cases h

theorem emit_pty {s : S} {info : Info} {visible : Bool} {s' : S} {calls : List TermCall}
    (h : emit s info visible = some (s', calls)) : s'.ptySize = s.ptySize := by
  unfold emit at h
  split at h
  · cases h
  · rename_i s1 h1
    split at h
    · cases h
    · rename_i s2 calls2 h2
      simp only [Option.some.injEq, Prod.mk.injEq] at h
      rw [← h.1]
      have := sendLoop_pty _ _ _ _ _ _ _ _ h2
      simp only
      rw [this]
      unfold scanForDirtyLines at h1
      split at h1
      · cases h1
      · split at h1
        · cases h1
        · split at h1
          · cases h1
          · split at h1
            · cases h1
            · simp only [Option.some.injEq] at h1
              rw [← h1]

theorem scrape_pty {sys : Sys} {s : S} {v : Views} {info : Info} {visible tentative : Bool} {mask : Nat}
    {b : Bool} {s' : S} {c' : Con} {calls : List TermCall}
    (h : scrollingScrapeOutput sys s v info visible tentative mask = some (b, s', c', calls)) :
    s'.ptySize = s.ptySize := by
  unfold scrollingScrapeOutput at h
  have hm := trackMarker_pty sys s v.marker info.window tentative
  cases htm : trackMarker sys s v.marker info.window tentative with
  | abort => rw [htm] at h; cases h
  | bail s1 =>
    rw [htm] at h hm
    simp only [Option.some.injEq, Prod.mk.injEq] at h
    rw [← h.2.1]; exact hm
  | go s1 calls1 =>
    rw [htm] at h hm
    simp only [SamePty] at h hm
    split at h
    · simp only [Option.some.injEq, Prod.mk.injEq] at h
      rw [← h.2.1]; exact hm
    · have hw := trackWindow_pty s1 info.window info.cursor tentative
      cases htw : trackWindow s1 info.window info.cursor tentative with
      | abort => rw [htw] at h; cases h
      | bail s2 =>
        rw [htw] at h hw
        simp only [Option.some.injEq, Prod.mk.injEq] at h
        rw [← h.2.1]; simp only [SamePty] at hw; rw [hw, hm]
      | go s2 calls2 =>
        rw [htw] at h hw
        simp only [SamePty] at h hw
        cases hr : readLines sys s2 v.content info mask with
        | none => rw [hr] at h; cases h
        | some s3 =>
          rw [hr] at h
          have h3 : s3.ptySize = s2.ptySize := by
            unfold readLines at hr
            split at hr
            · cases hr
            · split at hr
              · cases hr
              · simp only [Option.some.injEq] at hr; rw [← hr]
          simp only at h
          split at h
          · cases h
          · simp only [Option.some.injEq, Prod.mk.injEq] at h
            rw [← h.2.1, h3, hw, hm]
          · split at h
            · cases h
            · rename_i s4 c4 hmk
              have h4 : s4.ptySize = s3.ptySize := by
                split at hmk
                · unfold createSyncMarker at hmk
                  split at hmk
                  · cases hmk
                  · simp only [Option.some.injEq, Prod.mk.injEq] at hmk
                    rw [← hmk.1]
                · simp only [Option.some.injEq, Prod.mk.injEq] at hmk
                  rw [← hmk.1]
              split at h
              · cases h
              · rename_i s5 calls5 he
                simp only [Option.some.injEq, Prod.mk.injEq] at h
                rw [← h.2.1, emit_pty he, h4, h3, hw, hm]

/-! ## Blanking the records -/

theorem clearBufferLoop_spec : ∀ (n : Nat) (s : S) (row : Int), 0 ≤ row + s.scrolledCount →
    ∃ s', clearBufferLoop s row n = some s' ∧
      s' = { s with maxBufferedLine := s'.maxBufferedLine, bufferData := s'.bufferData } ∧
      (∀ l, row + s.scrolledCount ≤ l → l < row + n + s.scrolledCount →
        ∃ o, s'.bufferData (idx l) = ConsoleLine.blank o 7) ∧
      (∀ i, (∃ o, s.bufferData i = ConsoleLine.blank o 7) → ∃ o, s'.bufferData i = ConsoleLine.blank o 7) ∧
      (∀ i, (∀ l, row + s.scrolledCount ≤ l → l < row + n + s.scrolledCount → idx l ≠ i) →
        s'.bufferData i = s.bufferData i) ∧
      s.maxBufferedLine ≤ s'.maxBufferedLine ∧
      s'.maxBufferedLine ≤ max s.maxBufferedLine (row + n + s.scrolledCount - 1) := by
  intro n
  induction n with
  | zero => intro s row _; exact ⟨s, rfl, rfl, by intro l _ _; omega, fun _ h => h, fun _ _ => rfl, Int.le_refl _, by omega⟩
  | succ n ih =>
    intro s row h0
    simp only [clearBufferLoop, bufferIndex_eq h0]
    obtain ⟨s', h1, h2, h3, h4, h5, h6, h7⟩ := ih
      (setBufferLine { s with maxBufferedLine := max s.maxBufferedLine (row + s.scrolledCount) }
        (idx (row + s.scrolledCount))
        (ConsoleLine.blank (s.bufferData (idx (row + s.scrolledCount))) defaultAttributes)) (row + 1)
      (by simp only [setBufferLine]; omega)
    simp only [setBufferLine] at h5 h6 h7
    refine ⟨s', h1, by rw [h2]; simp only [setBufferLine], ?_, ?_, ?_, by omega, by omega⟩
    · intro l g1 g2
      by_cases hl : l = row + s.scrolledCount
      · apply h4
        subst hl
        simp only [setBufferLine, if_true]
        exact ⟨_, rfl⟩
      · exact h3 l (by simp only [setBufferLine]; omega) (by simp only [setBufferLine]; omega)
    · intro i hi
      apply h4
      simp only [setBufferLine]
      split
      · exact ⟨_, rfl⟩
      · exact hi
    · intro i hi
      rw [h5 i (fun l g1 g2 => hi l (by omega) (by omega)),
        if_neg (fun g => hi (row + s.scrolledCount) (by omega) (by omega) g.symm)]

/-! ## Blanking the console and moving the marker -/

theorem prepareResize_spec (s : S) (c : Con) (info : Info) (hm : s.directMode = false)
    (hscr : 0 ≤ s.scrolledCount) (hinfo : c.info = info) (hi : InfoOk info)
    (hrow : s.syncRow = -1 ∨ (1 ≤ s.syncRow ∧ s.syncRow + 216 ≤ info.window.top))
    (hy : 1 ≤ s.ptySize.y ∧ s.ptySize.y ≤ 2000) :
    ∃ s' c', prepareResize s c info = some (s', c') ∧ c'.info = info ∧
      (∀ x y, info.window.top ≤ y → c'.screen x y = c.screen x y) ∧
      ((s.syncRow = -1 ∧ s'.syncRow = -1) ∨
       (s.syncRow ≠ -1 ∧ s'.syncRow = min s.syncRow (3000 - s.ptySize.y - 216) ∧
        s'.syncCounter = (s.syncCounter + 1) % 2 ^ 32 ∧ MarkerAt c' s'.syncRow s'.syncCounter)) ∧
      (∀ x y, 0 ≤ x → x < info.size.x → 0 ≤ y → y < info.window.top →
        c'.screen x y = ⟨0x20, 7⟩ ∨
        (s'.syncRow ≠ -1 ∧ x = 0 ∧ s'.syncRow ≤ y ∧ y < s'.syncRow + 16)) ∧
      (∀ l, s.scrolledCount ≤ l → l < info.window.top + s.scrolledCount →
        ∃ o, s'.bufferData (idx l) = ConsoleLine.blank o 7) ∧
      s'.scrolledCount = s.scrolledCount ∧ s'.scrapedLineCount = s.scrapedLineCount := by
  obtain ⟨hs1, hs2, hs3, _, _, _, ht0, htb, hb, _⟩ := hi
  unfold prepareResize clearBufferLines
  rw [hm]
  simp only [Bool.false_eq_true, if_false]
  obtain ⟨s1, h1, h2, h3, _, _, _, _⟩ := clearBufferLoop_spec info.window.top.toNat s 0 (by omega)
  rw [h1]
  simp only
  have e1 : s1.syncRow = s.syncRow := by rw [h2]
  have e2 : s1.ptySize = s.ptySize := by rw [h2]
  have e3 : s1.syncCounter = s.syncCounter := by rw [h2]
  have e4 : s1.scrolledCount = s.scrolledCount := by rw [h2]
  have e5 : s1.scrapedLineCount = s.scrapedLineCount := by rw [h2]
  have hrec : ∀ l, s.scrolledCount ≤ l → l < info.window.top + s.scrolledCount →
      ∃ o, s1.bufferData (idx l) = ConsoleLine.blank o 7 := fun l g1 g2 => h3 l (by omega) (by omega)
  have hcs := clearLines_screen c 0 info.window.top
  rw [hinfo] at hcs
  generalize hc1 : clearLines c 0 info.window.top info = c1 at hcs ⊢
  have hc1i : c1.info = info := by rw [← hc1]; exact hinfo
  have hbelow : ∀ x y, info.window.top ≤ y → c1.screen x y = c.screen x y := by
    intro x y hy'; rw [hcs, if_neg (by omega)]
  have hblank : ∀ x y, 0 ≤ x → x < info.size.x → 0 ≤ y → y < info.window.top →
      c1.screen x y = ⟨0x20, 7⟩ := by
    intro x y g1 g2 g3 g4
    rw [hcs, if_pos ⟨⟨g1, g2⟩, ⟨g3, by omega⟩, g3, by omega⟩]
  by_cases hsr : s.syncRow = -1
  · rw [if_neg (by rw [e1]; simp [hsr])]
    exact ⟨s1, c1, rfl, hc1i, hbelow, .inl ⟨hsr, by rw [e1]; exact hsr⟩,
      fun x y g1 g2 g3 g4 => .inl (hblank x y g1 g2 g3 g4), hrec, e4, e5⟩
  · rw [if_pos (by rw [e1]; exact hsr)]
    have hr := hrow.resolve_left hsr
    have hmin : min s1.syncRow (bufferLineCount - s1.ptySize.y - syncMarkerLen - syncMarkerMargin) =
        min s.syncRow (3000 - s.ptySize.y - 216) := by
      rw [e1, e2]; simp only [bufferLineCount, syncMarkerLen, syncMarkerMargin]; omega
    rw [hmin]
    generalize hR : min s.syncRow (3000 - s.ptySize.y - 216) = R
    have hR1 : 1 ≤ R := by omega
    have hR2 : R + 216 ≤ info.window.top := by omega
    obtain ⟨s', c', h4, h5⟩ := createSyncMarker_spec s1 c1 R hR1 (by rw [hc1i]; exact hs2)
      (by rw [hc1i, hs1]; omega)
    have hst := h5.state
    have f1 : s'.syncRow = R := by rw [hst]
    have f2 : s'.syncCounter = (s.syncCounter + 1) % 2 ^ 32 := by rw [hst, e3]
    refine ⟨s', c', h4, by rw [h5.info]; exact hc1i, ?_, .inr ⟨hsr, f1, f2, by rw [f1]; exact h5.placed⟩,
      ?_, ?_, by rw [hst]; exact e4, by rw [hst]; exact e5⟩
    · intro x y hy'
      rw [h5.other x y (.inr (by omega))]
      exact hbelow x y hy'
    · intro x y g1 g2 g3 g4
      by_cases hout : y < R - 1 ∨ R + 16 ≤ y
      · left; rw [h5.other x y hout]; exact hblank x y g1 g2 g3 g4
      · by_cases hx : x = 0 ∧ R ≤ y
        · right; exact ⟨by omega, hx.1, by omega, by omega⟩
        · left
          unfold createSyncMarker at h4
          rw [if_neg (by omega)] at h4
          simp only [Option.some.injEq, Prod.mk.injEq] at h4
          rw [← h4.2]
          simp only [writeColumn]
          rw [if_neg (fun h => hx ⟨h.1, h.2.2.2⟩), clearLines_screen, hc1i]
          rw [if_pos ⟨⟨g1, g2⟩, ⟨g3, by omega⟩, by omega, by simp only [syncMarkerLen]; omega⟩]
    · intro l g1 g2
      rw [hst]; exact hrec l g1 g2

end Winpty.Scraper
