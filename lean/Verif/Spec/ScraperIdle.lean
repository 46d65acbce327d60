import Verif.Spec.ScraperSession

/-!
# Specification: polls of a console in which nothing changes
-/
namespace Winpty.Spec.Scrape

open Winpty.Scraper (Con SyncViews)

/-- Two polls, reading the consoles `c` and `c'`, find the same buffer size, window and cursor, and the
same cells in the rows of the window and in the row above it (elsewhere, anything may have changed). -/
structure Idle (v v' : SyncViews) (c c' : Con) : Prop where
  info : v'.first.info = v.first.info
  cursor : v'.cursorVisible = v.cursorVisible
  mask : v'.mask = v.mask
  cells : ∀ (x y : Int), 0 ≤ x → x < v.first.info.size.x → 0 ≤ y → v.first.info.window.top - 1 ≤ y →
    y ≤ v.first.info.window.bottom → c'.screen x y = c.screen x y

end Winpty.Spec.Scrape
