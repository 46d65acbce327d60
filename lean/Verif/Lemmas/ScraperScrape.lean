import Verif.Lemmas.ScraperTrack

/-! Whole scrapes of a scrolling console. -/
namespace Winpty.Scraper

open Winpty.Spec.Scrape
open Winpty.SmallRect
open Winpty.ConsoleLine (Cell Obj Rep)
open Winpty.Agent (TermCall)
open Winpty.Spec.Term

/-- A complete scrape that has not cleared the terminal: `d` lines were found to have scrolled out
(`marker` is the console in which the marker was looked for). -/
structure Kept (H : Int) (s : S) (t : Track) (w : Want) (marker c content : Con) (info : Info)
    (visible : Bool) (mask : Nat) (d : Int) (s' : S) (c' : Con) (calls : List TermCall) : Prop where
  nonneg : 0 ≤ d
  without : s.syncRow = -1 → d = 0
  found : s.syncRow ≠ -1 → d ≤ s.syncRow ∧ MarkerAt marker (s.syncRow - d) s.syncCounter
  notUp : s.dirtyWindowTop = -1 ∨ s.dirtyWindowTop ≤ info.window.top
  ends : ∃ lines, calls = emitted (cursorShown info visible) info.cursor.x
      (info.cursor.y + (s.scrolledCount + d)) lines ∧
    (∀ call ∈ lines, ∃ l cells col, call = TermCall.sendLine l cells col) ∧
    (d = 0 → Rest s info (fun r => rowCells { content with info := info } mask r) → lines = [])
  fin : ∃ s2 due, s2.scrolledCount = s.scrolledCount + d ∧ s2.scrapedLineCount = s.scrapedLineCount ∧
    s2.syncRow = s.syncRow - d ∧ s2.syncCounter = s.syncCounter ∧
    s2.maxBufferedLine = s.maxBufferedLine ∧ s.dirtyLineCount ≤ s2.dirtyLineCount ∧
    (0 < d ∨ (s.dirtyWindowTop ≠ -1 ∧ s.dirtyWindowTop < info.window.top) →
      info.window.bottom + 1 ≤ s2.dirtyLineCount) ∧
    (due = false → info.window.top < s.syncRow - d + 432) ∧
    (low s2 = min s.scrapedLineCount (info.window.top + s2.scrolledCount) ∧ low s ≤ low s2) ∧
    Finished H due visible s2 t w c content info mask s' c' calls

/-- A complete scrape that has cleared the terminal. -/
structure Cleared (H : Int) (s : S) (w : Want) (c : Con) (info : Info)
    (visible : Bool) (mask : Nat) (s' : S) (c' : Con) (calls : List TermCall) : Prop where
  why : (s.syncRow ≠ -1 ∧ ∀ i, 0 ≤ i → i ≤ s.syncRow → ¬ MarkerAt c i s.syncCounter) ∨
    (s.dirtyWindowTop ≠ -1 ∧ info.window.top < s.dirtyWindowTop)
  fin : ∃ s2 due calls', calls = .reset true info.window.top :: calls' ∧
    s2.scrolledCount = 0 ∧ s2.scrapedLineCount = info.window.top ∧ s2.syncRow = -1 ∧
    s2.syncCounter = s.syncCounter ∧ s2.maxBufferedLine = -1 ∧
    (¬ (s.dirtyWindowTop ≠ -1 ∧ info.window.top < s.dirtyWindowTop) → due = false →
      info.window.top < 431) ∧
    low s2 = info.window.top ∧
    Finished H due visible s2 (Track.start info.window.top) (w.step (.clear info.window.top)) c c info mask
      s' c' calls'

theorem info_ext {a b : Info} (h1 : a.size = b.size) (h2 : a.window = b.window)
    (h3 : a.cursor = b.cursor) : a = b := by
  cases a; cases b; simp only at h1 h2 h3; rw [h1, h2, h3]

theorem frozen_spec {H : Int} {s : S} {t : Track} {w : Want} (h : Core H s t w) {info : Info}
    (hi : InfoOk info) (hH : info.window.height ≤ H) (sys : Sys) (hs : SysOk sys)
    (visible : Bool) (c : Con) (mask : Nat) (hx : 1 ≤ c.info.size.x)
    (hy : c.info.size.y = 3000) (hk : Known s c) (hn : s.syncCounter + 1 < 2 ^ 32)
    (hr : Row s (low s - s.scrolledCount))
    (hf : s.dirtyWindowTop = -1 → s.scrapedLineCount ≤ info.window.top + s.scrolledCount) :
    ∃ s' c' calls,
      scrollingScrapeOutput sys s (Views.still c) info visible false mask = some (true, s', c', calls) ∧
      ((∃ d, Kept H s t w c c c info visible mask d s' c' calls) ∨ Cleared H s w c info visible mask s' c' calls) := by
  have hh := height_eq hi
  have hi' := hi
  obtain ⟨_, _, _, _, _, _, ht0, htb, hb, _⟩ := hi'
  have hH1 : 1 ≤ H := by omega
  have hin := h.inBuf
  unfold scrollingScrapeOutput
  simp only [Views.still, Bool.false_and, Bool.false_eq_true, if_false]
  rcases trackMarker_spec sys hs s c info.window false _ (by have := low_le s; omega) hr with ⟨hsr, hno, htm⟩ | ⟨d, d0, d1, d2, htm⟩
  · -- the marker is gone
    rw [htm]
    simp only [Bool.false_eq_true, if_false]
    have hcore := core_reset (s := s) (H := H) w (top := info.window.top) hH1 ⟨ht0, by omega⟩ h.mode h.counter
    generalize hs1 : (resetConsoleTracking s true info.window.top).1 = s1 at *
    have q1 : s1.dirtyWindowTop = -1 := by rw [← hs1]; rfl
    have q2 : s1.scrapedLineCount = info.window.top := by rw [← hs1]; rfl
    have q3 : s1.scrolledCount = 0 := by rw [← hs1]; rfl
    have q4 : s1.syncRow = -1 := by rw [← hs1]; rfl
    have q5 : s1.syncCounter = s.syncCounter := by rw [← hs1]; rfl
    have q6 : s1.maxBufferedLine = -1 := by rw [← hs1]; rfl
    rcases trackWindow_spec hcore hi false hH1 (by rw [q2, q3]; omega) with ⟨g, _⟩ | ⟨_, s2, htw, ht2⟩
    · exact absurd q1 g
    · rw [htw]
      simp only
      have hsame := ht2.same
      have p1 : s2.scrolledCount = 0 := by rw [hsame]; exact q3
      have p2 : s2.scrapedLineCount = info.window.top := by rw [hsame]; exact q2
      have p3 : s2.syncRow = -1 := by rw [hsame]; exact q4
      have p4 : s2.syncCounter = s.syncCounter := by rw [hsame]; exact q5
      have p5 : s2.maxBufferedLine = -1 := by rw [hsame]; exact q6
      obtain ⟨s3, s4, c', s', calls, r1, _, _, r2, r3, r4⟩ := finish_spec ht2.core hi ht2.ready hH sys hs
        (shouldCreateSyncRow s1 info.window) visible c c mask hx hy
        (fun hd => due_top (by omega) hd) (by unfold Known; rw [p4]; exact hk) (by rw [p4]; exact hn)
        (.inl p3)
      rw [r1]
      simp only
      rw [r2]
      simp only
      rw [r3]
      refine ⟨s', c', _, rfl, .inr ⟨.inl ⟨hsr, hno⟩, s2, _, calls, rfl, p1, p2, p3, p4, p5, ?_, ?_, r4⟩⟩
      · intro _ hd
        have := not_due hd
        omega
      · have := ht2.ready.window; unfold low; rw [this, p1, p2]; split <;> omega
  · rw [htm]
    simp only
    obtain ⟨e1, e2, e3, e4, e5, e6, e7, e8, e9⟩ := shifted_fields s d info.window
    obtain ⟨hcore, hrow1, hlow1⟩ := core_shifted h hi d0 d1 (fun g => (d2 g).1) hr
    have hdirty : 0 < d → info.window.bottom + 1 ≤ (shifted s d info.window).dirtyLineCount := by
      intro hd; rw [e9, if_neg (by omega)]; omega
    have hgrow : s.dirtyLineCount ≤ (shifted s d info.window).dirtyLineCount := by
      rw [e9]; split <;> omega
    have hlow : -1 ≤ (shifted s d info.window).syncRow := by
      rcases hrow1 with g | g
      · omega
      · omega
    have hstill : d = 0 → shifted s d info.window = s := fun g => by unfold shifted; rw [if_pos g]
    generalize shifted s d info.window = s1 at *
    rcases trackWindow_spec hcore hi false hH1 (by rw [e8, e5, e2]; intro g; have := hf g; omega)
      with ⟨g1, g2, hcase⟩ | ⟨hup, s2, htw, ht2⟩
    · -- the window has moved upward
      rcases hcase with ⟨hfalse, _⟩ | ⟨_, s2, htw, ht2⟩
      · cases hfalse
      · rw [htw]
        simp only
        have hsame := ht2.same
        have p1 : s2.scrolledCount = 0 := by rw [hsame]; rfl
        have p2 : s2.scrapedLineCount = info.window.top := by rw [hsame]; rfl
        have p3 : s2.syncRow = -1 := by rw [hsame]; rfl
        have p4 : s2.syncCounter = s.syncCounter := by rw [hsame]; exact e4
        have p5 : s2.maxBufferedLine = -1 := by rw [hsame]; rfl
        obtain ⟨s3, s4, c', s', calls, r1, _, _, r2, r3, r4⟩ := finish_spec ht2.core hi ht2.ready hH sys hs
          (shouldCreateSyncRow s1 info.window) visible c c mask hx hy
          (fun hd => due_top hlow hd) (by unfold Known; rw [p4]; exact hk) (by rw [p4]; exact hn)
          (.inl p3)
        rw [r1]
        simp only
        rw [r2]
        simp only
        rw [r3]
        rw [e8] at g1 g2
        exact ⟨s', c', _, rfl, .inr ⟨.inr ⟨g1, g2⟩, s2, _, calls, rfl, p1, p2, p3, p4, p5,
          fun g => absurd ⟨g1, g2⟩ g,
          by have := ht2.ready.window; unfold low; rw [this, p1, p2]; split <;> omega, r4⟩⟩
    · rw [htw]
      simp only
      have hsame := ht2.same
      have p1 : s2.scrolledCount = s.scrolledCount + d := by rw [hsame]; exact e2
      have p2 : s2.scrapedLineCount = s.scrapedLineCount := by rw [hsame]; exact e5
      have p3 : s2.syncRow = s.syncRow - d := by rw [hsame]; exact e3
      have p4 : s2.syncCounter = s.syncCounter := by rw [hsame]; exact e4
      have p5 : s2.maxBufferedLine = s.maxBufferedLine := by rw [hsame]; exact e6
      have hl2 : low s2 = min s.scrapedLineCount (info.window.top + s2.scrolledCount) := by
        unfold low; rw [ht2.ready.window, p2, if_neg (by omega)]
      have hl12 : low s1 ≤ low s2 := by
        rw [hl2, p1]
        unfold low
        rw [e5, e2]
        rcases hup with g | g
        · rw [if_pos g]; rw [e8] at g; have := hf g; omega
        · split
          · rename_i g'; rw [e8] at g'; have := hf g'; omega
          · omega
      have hrow2 : Row s2 info.window.top := by
        unfold Row at hrow1 ⊢
        rw [p3, ← e3]
        rw [e2] at hrow1
        rcases hrow1 with g | g
        · exact .inl g
        · right; omega
      obtain ⟨s3, s4, c', s', calls, r1, _, _, r2, r3, r4⟩ := finish_spec ht2.core hi ht2.ready hH sys hs
        (shouldCreateSyncRow s1 info.window) visible c c mask hx hy
        (fun hd => due_top hlow hd) (by unfold Known; rw [p4]; exact hk) (by rw [p4]; exact hn) hrow2
      rw [r1]
      simp only
      rw [r2]
      simp only
      rw [r3]
      have hends : ∃ lines, calls = emitted (cursorShown info visible) info.cursor.x
          (info.cursor.y + (s.scrolledCount + d)) lines ∧
          (∀ call ∈ lines, ∃ l cells col, call = TermCall.sendLine l cells col) ∧
          (d = 0 → Rest s info (fun r => rowCells { c with info := info } mask r) → lines = []) := by
        obtain ⟨lines, g1, g2, g3⟩ := r4.ends
        rw [p1] at g1
        refine ⟨lines, g1, g2, fun g hq => g3 ?_⟩
        rw [← hstill g] at hq
        rw [ht2.still _ hq]
        exact hq
      refine ⟨s', c', _, rfl, .inl ⟨d, d0, d1, d2, by rw [← e8]; exact hup, hends, s2, _, p1, p2, p3, p4, p5,
        by have := ht2.grows; omega, ?_, ?_, ⟨hl2, by omega⟩, r4⟩⟩
      · rintro (g | ⟨g1, g2⟩)
        · have := hdirty g; have := ht2.grows; omega
        · exact ht2.moved (by rw [e8]; exact g1) (by rw [e8]; exact g2)
      · intro hd; have := not_due hd; omega

/-- A scrape of a console that is not frozen, given up: the state is as good as before. -/
structure GivenUp (H : Int) (s : S) (t : Track) (w : Want) (marker : Con) (info : Info) (d : Int)
    (s' : S) : Prop where
  core : Core H s' t w
  row : Row s' (low s' - s'.scrolledCount)
  low : low s ≤ low s'
  nonneg : 0 ≤ d
  without : s.syncRow = -1 → d = 0
  found : s.syncRow ≠ -1 → d = 0 ∨ MarkerAt marker (s.syncRow - d) s.syncCounter
  scrolled : s'.scrolledCount = s.scrolledCount + d
  sync : s'.syncRow = s.syncRow - d ∧ s'.syncCounter = s.syncCounter
  le : s.syncRow ≠ -1 → d ≤ s.syncRow
  scraped : s'.scrapedLineCount = s.scrapedLineCount
  max : s'.maxBufferedLine = s.maxBufferedLine
  dirty : s.dirtyLineCount ≤ s'.dirtyLineCount
  marked : 0 < d → info.window.bottom + 1 ≤ s'.dirtyLineCount
  window : s'.dirtyWindowTop = s.dirtyWindowTop ∨
    ((s.dirtyWindowTop = -1 ∨ s.dirtyWindowTop ≤ info.window.top) ∧ s'.dirtyWindowTop = info.window.top ∧
      (s.dirtyWindowTop ≠ -1 → s.dirtyWindowTop < info.window.top →
        info.window.bottom + 1 ≤ s'.dirtyLineCount))
  rest : d = 0 → ∀ Q, Rest s info Q → Rest s' info Q

theorem tentative_spec {H : Int} {s : S} {t : Track} {w : Want} (h : Core H s t w) {info : Info}
    (hi : InfoOk info) (hH : info.window.height ≤ H) (sys : Sys) (hs : SysOk sys)
    (visible : Bool) (v : Views) (mask : Nat) (hx : 1 ≤ v.recheck.info.size.x)
    (hy : v.recheck.info.size.y = 3000) (hk : Known s v.recheck) (hn : s.syncCounter + 1 < 2 ^ 32)
    (hr : Row s (low s - s.scrolledCount))
    (hf : s.dirtyWindowTop = -1 → s.scrapedLineCount ≤ info.window.top + s.scrolledCount) :
    (∃ d s', scrollingScrapeOutput sys s v info visible true mask = some (false, s', v.recheck, []) ∧
      GivenUp H s t w v.marker info d s') ∨
    (∃ d s' calls,
      scrollingScrapeOutput sys s v info visible true mask = some (true, s', v.recheck, calls) ∧
      Kept H s t w v.marker v.recheck v.content info visible mask d s' v.recheck calls ∧
      v.check.info = info ∧
      (s.syncRow ≠ -1 → MarkerAt v.recheck (s.syncRow - d) s.syncCounter)) := by
  have hh := height_eq hi
  have hi' := hi
  obtain ⟨_, _, _, _, _, _, ht0, htb, hb, _⟩ := hi'
  have hH1 : 1 ≤ H := by omega
  have hin := h.inBuf
  unfold scrollingScrapeOutput
  rcases trackMarker_spec sys hs s v.marker info.window true _ (by have := low_le s; omega) hr with ⟨hsr, hno, htm⟩ | ⟨d, d0, d1, d2, htm⟩
  · rw [htm]
    simp only [if_true]
    refine .inl ⟨0, s, rfl, h, hr, Int.le_refl _, by omega, fun _ => rfl, fun _ => .inl rfl, by omega, ⟨by omega, rfl⟩,
      ?_, rfl, rfl, Int.le_refl _, by omega, .inl rfl, fun _ _ h => h⟩
    intro g
    have := (hr.resolve_left g).1
    omega
  · rw [htm]
    simp only [Bool.true_and]
    obtain ⟨e1, e2, e3, e4, e5, e6, e7, e8, e9⟩ := shifted_fields s d info.window
    obtain ⟨hcore, hrow1, hlow1⟩ := core_shifted h hi d0 d1 (fun g => (d2 g).1) hr
    have hdirty : 0 < d → info.window.bottom + 1 ≤ (shifted s d info.window).dirtyLineCount := by
      intro hd; rw [e9, if_neg (by omega)]; omega
    have hgrow : s.dirtyLineCount ≤ (shifted s d info.window).dirtyLineCount := by
      rw [e9]; split <;> omega
    have hlow : -1 ≤ (shifted s d info.window).syncRow := by
      rcases hrow1 with g | g
      · omega
      · omega
    have hstill : d = 0 → shifted s d info.window = s := fun g => by unfold shifted; rw [if_pos g]
    generalize shifted s d info.window = s1 at *
    have hgive : GivenUp H s t w v.marker info d s1 :=
      ⟨hcore, hrow1, hlow1, d0, d1, fun g => .inr (d2 g).2, e2, ⟨e3, e4⟩,
        fun g => (d2 g).1, e5, e6, hgrow, hdirty, .inl e8,
        fun g Q hq => by rw [hstill g]; exact hq⟩
    cases hdue : shouldCreateSyncRow s1 info.window with
    | true =>
      simp only [if_true]
      exact .inl ⟨d, s1, rfl, hgive⟩
    | false =>
      simp only [Bool.false_eq_true, if_false]
      rcases trackWindow_spec hcore hi true hH1 (by rw [e8, e5, e2]; intro g; have := hf g; omega)
        with ⟨g1, g2, hcase⟩ | ⟨hup, s2, htw, ht2⟩
      · rcases hcase with ⟨_, htw⟩ | ⟨hfalse, _⟩
        · rw [htw]
          exact .inl ⟨d, s1, rfl, hgive⟩
        · cases hfalse
      · rw [htw]
        simp only
        have hsame := ht2.same
        have p1 : s2.scrolledCount = s.scrolledCount + d := by rw [hsame]; exact e2
        have p2 : s2.scrapedLineCount = s.scrapedLineCount := by rw [hsame]; exact e5
        have p3 : s2.syncRow = s.syncRow - d := by rw [hsame]; exact e3
        have p4 : s2.syncCounter = s.syncCounter := by rw [hsame]; exact e4
        have p5 : s2.maxBufferedLine = s.maxBufferedLine := by rw [hsame]; exact e6
        have p6 : s2.dirtyWindowTop = info.window.top := by rw [hsame]
        have hl2 : low s2 = min s.scrapedLineCount (info.window.top + s2.scrolledCount) := by
          unfold low; rw [ht2.ready.window, p2, if_neg (by omega)]
        have hl12 : low s1 ≤ low s2 := by
          rw [hl2, p1]
          unfold low
          rw [e5, e2]
          rcases hup with g | g
          · rw [if_pos g]; rw [e8] at g; have := hf g; omega
          · split
            · rename_i g'; rw [e8] at g'; have := hf g'; omega
            · omega
        have hgr := ht2.grows
        rw [e8] at hup
        have hmoved : s.dirtyWindowTop ≠ -1 → s.dirtyWindowTop < info.window.top →
            info.window.bottom + 1 ≤ s2.dirtyLineCount := by
          intro g1 g2
          exact ht2.moved (by rw [e8]; exact g1) (by rw [e8]; exact g2)
        have hrow1' : Row s2 (low s2 - s2.scrolledCount) := by
          unfold Row at hrow1 ⊢
          rw [p3, ← e3, p1, ← e2]
          rcases hrow1 with g | g
          · exact .inl g
          · right; omega
        have hrow2 : Row s2 info.window.top := by
          rcases hrow1' with g | g
          · exact .inl g
          · right; omega
        obtain ⟨s3, s4, c', s', calls, r1, rs, rc, r2, r3, r4⟩ := finish_spec ht2.core hi ht2.ready hH sys hs
          false visible v.recheck v.content mask hx hy
          (fun hd => by cases hd) (by unfold Known; rw [p4]; exact hk) (by rw [p4]; exact hn) hrow2
        obtain ⟨b, hb1, _, _⟩ := readLines_spec ht2.core hi ht2.ready sys hs v.content mask
        have hs3 : s3 = { s2 with readBuffer := b } := by
          rw [hb1] at r1; exact (Option.some.inj r1).symm
        have hgive3 : GivenUp H s t w v.marker info d s3 := by
          have hc3 : Core H s3 t w := ht2.core.same (by rw [hs3]) (by rw [hs3]; exact ht2.core.counter)
          refine ⟨hc3, ?_, ?_, d0, d1, fun g => .inr (d2 g).2, ?_, ⟨?_, ?_⟩, fun g => (d2 g).1, ?_, ?_, ?_, ?_,
            .inr ⟨hup, ?_, ?_⟩, ?_⟩
          · rw [hs3]; exact hrow1'
          · rw [hs3]; exact Int.le_trans hlow1 hl12
          · rw [hs3]; exact p1
          · rw [hs3]; exact p3
          · rw [hs3]; exact p4
          · rw [hs3]; exact p2
          · rw [hs3]; exact p5
          · rw [hs3]; simp only; omega
          · intro g; have := hdirty g; rw [hs3]; simp only; omega
          · rw [hs3]; exact p6
          · rw [hs3]; exact hmoved
          · intro g Q hq
            rw [← hstill g] at hq
            rw [hs3, ht2.still Q hq]
            exact hq.same_lines rfl
        rw [r1]
        simp only [if_true]
        unfold unmoved
        by_cases hne : info.size ≠ v.check.info.size ∨ info.window ≠ v.check.info.window ∨
            info.cursor ≠ v.check.info.cursor
        · rw [if_pos hne]
          exact .inl ⟨d, s3, rfl, hgive3⟩
        · rw [if_neg hne]
          have heq : v.check.info = info := by
            simp only [not_or, Decidable.not_not] at hne
            obtain ⟨h1, h2, h3⟩ := hne
            exact info_ext h1.symm h2.symm h3.symm
          have hdone : (s.syncRow ≠ -1 → MarkerAt v.recheck (s.syncRow - d) s.syncCounter) →
              (∃ d s' calls, (match some (s3, v.recheck) with
                | none => none
                | some (s4, c4) =>
                  match emit s4 info visible with
                  | none => none
                  | some (s5, calls5) => some (true, s5, c4, [] ++ [] ++ calls5)) =
                  some (true, s', v.recheck, calls) ∧
                Kept H s t w v.marker v.recheck v.content info visible mask d s' v.recheck calls ∧
                v.check.info = info ∧
                (s.syncRow ≠ -1 → MarkerAt v.recheck (s.syncRow - d) s.syncCounter)) := by
            intro hm
            simp only [Bool.false_eq_true, if_false, Option.some.injEq, Prod.mk.injEq] at r2
            obtain ⟨r2a, r2b⟩ := r2
            subst r2a r2b
            have hends : ∃ lines, calls = emitted (cursorShown info visible) info.cursor.x
                (info.cursor.y + (s.scrolledCount + d)) lines ∧
                (∀ call ∈ lines, ∃ l cells col, call = TermCall.sendLine l cells col) ∧
                (d = 0 → Rest s info (fun r => rowCells { v.content with info := info } mask r) →
                  lines = []) := by
              obtain ⟨lines, g1, g2, g3⟩ := r4.ends
              rw [p1] at g1
              refine ⟨lines, g1, g2, fun g hq => g3 ?_⟩
              rw [← hstill g] at hq
              rw [ht2.still _ hq]
              exact hq
            refine ⟨d, s', calls, by simp only; rw [r3]; rfl, ⟨d0, d1, d2, hup, hends, s2, false, p1, p2,
              p3, p4, p5, by omega, ?_, ?_, ⟨hl2, by omega⟩, r4⟩, heq, hm⟩
            · rintro (g | ⟨g1, g2⟩)
              · have := hdirty g; omega
              · exact hmoved g1 g2
            · intro _; have := not_due hdue; omega
          by_cases hsr : s3.syncRow = -1
          · rw [if_neg (by simp [hsr])]
            simp only
            refine .inr (hdone ?_)
            intro g
            have := (hr.resolve_left g)
            have := (d2 g).1
            rw [rs, p3] at hsr
            omega
          · rw [if_pos hsr]
            have hrow3 : 0 ≤ s3.syncRow ∧ s3.syncRow + 216 ≤ info.window.top := by
              have := hrow2
              unfold Row at this
              rw [← rs] at this
              exact this.resolve_left hsr
            obtain ⟨r, hfm, hcase⟩ := findSyncMarker_spec sys hs s3 v.recheck hrow3.1 (by omega)
            rw [hfm]
            simp only
            by_cases her : s3.syncRow = r
            · simp only [her, decide_true]
              refine .inr (hdone ?_)
              intro _
              rcases hcase with ⟨g, _⟩ | ⟨_, _, g, _⟩
              · omega
              · rw [← her, rs, p3, rc, p4] at g; exact g
            · simp only [her, decide_false]
              exact .inl ⟨d, s3, rfl, hgive3⟩

end Winpty.Scraper
