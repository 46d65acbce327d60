import Verif.Spec.ScraperSession

/-! # The scraper clears the terminal whenever it resets it -/
namespace Winpty.Scraper
open Winpty.Agent (TermCall)
open Winpty.SmallRect (Coord)

/-- No reset without clearing. -/
def Loud (calls : List TermCall) : Prop := ∀ l, TermCall.reset false l ∉ calls

theorem Loud.nil : Loud [] := by intro l h; simp at h

theorem Loud.append {a b : List TermCall} (ha : Loud a) (hb : Loud b) : Loud (a ++ b) := by
  intro l h
  rcases List.mem_append.1 h with h | h
  · exact ha l h
  · exact hb l h

theorem loud_reset (s : S) (l : Int) : Loud [(resetConsoleTracking s true l).2] := by
  intro m h
  simp [resetConsoleTracking] at h

theorem loud_send (b : Bool) (l : Int) (cells : List ConsoleLine.Cell) (c : Int) :
    Loud (if b then [.sendLine l cells c] else []) := by
  intro m h
  split at h <;> simp at h

theorem loud_around {a : List TermCall} (h : Loud a) (b : Bool) (x y : Int) :
    Loud ((if b then [] else [.hideCursor]) ++ a ++ (if b then [.showCursor x y] else [])) := by
  refine Loud.append (Loud.append ?_ h) ?_ <;> intro m hm <;> split at hm <;> simp at hm

theorem loud_trackMarker {sys : Sys} {s s' : S} {c : Con} {w : SmallRect.Rect} {t : Bool} {calls : List TermCall}
    (h : trackMarker sys s c w t = .go s' calls) : Loud calls := by
  unfold trackMarker at h
  split at h
  · cases h; exact Loud.nil
  · split at h
    · cases h
    · split at h
      · split at h
        · cases h
        · cases h; exact loud_reset _ _
      · split at h
        · split at h
          · cases h
          · cases h; exact Loud.nil
        · cases h; exact Loud.nil

theorem loud_trackWindow {s s' : S} {w : SmallRect.Rect} {cur : Coord} {t : Bool} {calls : List TermCall}
    (h : trackWindow s w cur t = .go s' calls) : Loud calls := by
  unfold trackWindow at h
  split at h
  · cases h
  · cases h
  · rename_i s1 c1 hg
    split at h
    · cases h
    · cases h
      split at hg
      · split at hg
        · cases hg; exact Loud.nil
        · split at hg
          · split at hg
            · cases hg
            · cases hg; exact loud_reset _ _
          · cases hg; exact Loud.nil
      · cases hg; exact Loud.nil

theorem loud_sendLoop (cl cc : Int) : ∀ (n : Nat) {s s' : S} {line : Int} {saw : Bool} {calls : List TermCall},
    sendLoop s cl cc n line saw = some (s', calls) → Loud calls := by
  intro n
  induction n with
  | zero => intro s s' line saw calls h; simp only [sendLoop] at h; cases h; exact Loud.nil
  | succ n ih =>
    intro s s' line saw calls h
    simp only [sendLoop] at h
    split at h
    · split at h
      · split at h
        · cases h
        · rename_i h1
          cases h
          intro m hm
          rcases List.mem_cons.1 hm with hm | hm
          · cases hm
          · exact ih h1 m hm
      · split at h
        · cases h
        · split at h
          · cases h
          · rename_i h1
            cases h
            exact Loud.append (loud_send _ _ _ _) (ih h1)
    · cases h

theorem loud_emit {s s' : S} {info : Info} {vis : Bool} {calls : List TermCall}
    (h : emit s info vis = some (s', calls)) : Loud calls := by
  unfold emit at h
  split at h
  · cases h
  · split at h
    · cases h
    · rename_i h1
      cases h
      exact loud_around (loud_sendLoop _ _ _ h1) _ _ _

theorem loud_scrolling {sys : Sys} {s s' : S} {v : Views} {info : Info} {vis ten b : Bool} {mask : Nat} {c : Con}
    {calls : List TermCall} (h : scrollingScrapeOutput sys s v info vis ten mask = some (b, s', c, calls)) :
    Loud calls := by
  unfold scrollingScrapeOutput at h
  split at h
  · cases h
  · cases h; exact Loud.nil
  · rename_i h1
    split at h
    · cases h; exact Loud.nil
    · split at h
      · cases h
      · cases h; exact Loud.nil
      · rename_i h2
        split at h
        · cases h
        · split at h
          · cases h
          · cases h; exact Loud.nil
          · split at h
            · cases h
            · split at h
              · cases h
              · rename_i h5
                cases h
                exact ((loud_trackMarker h1).append (loud_trackWindow h2)).append (loud_emit h5)

theorem loud_directLoop (top cl cc : Int) : ∀ (n : Nat) {s s' : S} {line : Int} {calls : List TermCall},
    directLoop s top cl cc n line = some (s', calls) → Loud calls := by
  intro n
  induction n with
  | zero => intro s s' line calls h; simp only [directLoop] at h; cases h; exact Loud.nil
  | succ n ih =>
    intro s s' line calls h
    simp only [directLoop] at h
    split at h
    · cases h
    · split at h
      · cases h
      · split at h
        · cases h
        · split at h
          · cases h
          · rename_i h1
            cases h
            exact Loud.append (loud_send _ _ _ _) (ih h1)

theorem loud_direct {sys : Sys} {s s' : S} {c : Con} {info : Info} {vis : Bool} {mask : Nat}
    {calls : List TermCall} (h : directScrapeOutput sys s c info vis mask = some (s', calls)) : Loud calls := by
  unfold directScrapeOutput at h
  split at h
  · cases h
  · split at h
    · cases h
    · rename_i h1
      cases h
      exact loud_around (loud_directLoop _ _ _ _ h1) _ _ _

theorem loud_finish {f fr : Bool} {s : S} {c : Con} {info : Info} {v : SyncViews} {calls : List TermCall}
    {r : Result} (hc : Loud calls) (h : finishScrolling f fr s c info v calls = some r) : Loud r.calls := by
  unfold finishScrolling at h
  split at h
  · split at h
    · cases h
    · cases h; exact hc
  · cases h; exact hc

theorem loud_syncScrolling {sys : Sys} {s : S} {f fr : Bool} {v : SyncViews} {c : Con} {calls : List TermCall}
    {r : Result} (hc : Loud calls) (h : syncScrolling sys s f fr v c calls = some r) : Loud r.calls := by
  unfold syncScrolling at h
  split at h
  · cases h
  · rename_i h1
    refine loud_finish (hc.append ?_) h
    split at h1
    · cases h1
    · exact loud_scrolling h1
  · rename_i s1 c1 calls1 h1
    have k : Loud calls1 := by
      split at h1
      · cases h1; exact Loud.nil
      · exact loud_scrolling h1
    split at h
    · cases h
    · rename_i h2
      exact loud_finish ((hc.append k).append (loud_scrolling h2)) h

theorem loud_syncDirect {sys : Sys} {s : S} {f fr : Bool} {v : SyncViews} {c : Con} {calls : List TermCall}
    {r : Result} (hc : Loud calls) (h : syncDirect sys s f fr v c calls = some r) : Loud r.calls := by
  unfold syncDirect at h
  split at h
  · split at h
    · cases h
    · split at h
      · cases h
      · rename_i h1
        cases h
        exact hc.append (loud_direct h1)
  · split at h
    · cases h
    · rename_i h1
      cases h
      exact hc.append (loud_direct h1)

theorem loud_sync {sys : Sys} {s : S} {f fr : Bool} {v : SyncViews} {r : Result}
    (h : syncConsoleContentAndSize sys s f fr v = some r) : Loud r.calls := by
  have hm : Loud (changeMode s v.first.info).2 := by
    unfold changeMode
    split
    · exact loud_reset _ _
    · exact Loud.nil
  unfold syncConsoleContentAndSize at h
  split at h
  · exact loud_syncDirect hm h
  · split at h
    · exact loud_syncScrolling hm h
    · exact loud_syncScrolling hm h

/-- A poll or resize never resets the terminal without clearing it. -/
theorem loud_poll {sys : Sys} {s : S} {f : Bool} {v : SyncViews} {r : Result}
    (h : scrapeBuffer sys s f v = some r) : Loud r.calls := loud_sync h

theorem loud_resize {sys : Sys} {s : S} {f : Bool} {size : Coord} {v : SyncViews} {r : Result}
    (h : resizeWindow sys s f size v = some r) : Loud r.calls := loud_sync h

theorem loud_history {sys : Sys} {H W line : Int} {n : Nat} {s : S} {c : Con} {sh : Spec.Scrape.Shown}
    {calls : List TermCall} (h : Spec.Scrape.History sys H W line n s c sh calls) : Loud calls := by
  induction h with
  | start => exact Loud.nil
  | poll _ _ _ _ _ _ hs _ ih => exact ih.append (loud_poll hs)
  | resize _ _ _ _ _ _ _ _ hs _ _ _ _ ih => exact ih.append (loud_resize hs)
  | directPoll _ _ _ _ _ _ _ _ hs _ ih => exact ih.append (loud_poll hs)
  | directResize _ _ _ _ _ _ _ _ _ hs _ _ _ ih => exact ih.append (loud_resize hs)
  | backPoll _ _ _ _ _ _ _ hs _ _ _ _ _ _ ih => exact ih.append (loud_poll hs)
  | backResize _ _ _ _ _ _ _ _ hs _ _ _ _ _ ih => exact ih.append (loud_resize hs)

end Winpty.Scraper
