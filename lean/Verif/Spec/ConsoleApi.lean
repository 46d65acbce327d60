import Verif.Model.ConsoleResize

/-!
# What the console API is taken to do

The documentation of `SetConsoleWindowInfo` and `SetConsoleScreenBufferSize`: a window has to lie in
the buffer and may not be larger than the largest window; a buffer may not be smaller than the window,
and not narrower than a minimum that depends on the font and the system.
-/
namespace Winpty.Spec.ConsoleApi

open Winpty.SmallRect (Rect Coord)
open Winpty.Scraper (Con Info)
open Winpty.ConsoleResize (Api Meddling)

/-- A rectangle, not empty, in a buffer of a size. -/
def Inside (r : Rect) (size : Coord) : Prop :=
  0 ≤ r.left ∧ r.left ≤ r.right ∧ r.right < size.x ∧ 0 ≤ r.top ∧ r.top ≤ r.bottom ∧ r.bottom < size.y

/-- What every console is like: sizes are 16 bits, window and cursor are in the buffer. -/
structure Fine (i : Info) : Prop where
  x : i.size.x ≤ 32767
  y : i.size.y ≤ 32767
  window : Inside i.window i.size
  cursorX : 0 ≤ i.cursor.x ∧ i.cursor.x < i.size.x
  cursorY : 0 ≤ i.cursor.y ∧ i.cursor.y < i.size.y

/-- A rectangle has so many columns and rows. -/
def HasSize (r : Rect) (cols rows : Int) : Prop :=
  r.right = r.left + cols - 1 ∧ r.bottom = r.top + rows - 1

/-- A console keeps its sizes; what it shows, its cursor, and where its window is may change. -/
def SameSizes (c c' : Con) : Prop :=
  c'.info.size = c.info.size ∧
  c'.info.window.right - c'.info.window.left = c.info.window.right - c.info.window.left ∧
  c'.info.window.bottom - c'.info.window.top = c.info.window.bottom - c.info.window.top

/-- The console API; `minWidth` is the width of the narrowest buffer. -/
structure Documented (api : Api) (minWidth : Int) : Prop where
  /-- some window is possible -/
  largest : ∀ c, 1 ≤ (api.largest c).x ∧ 1 ≤ (api.largest c).y
  /-- a window that is possible is set, and nothing else changes -/
  window : ∀ c r, Fine c.info → Inside r c.info.size →
    r.right - r.left + 1 ≤ (api.largest c).x → r.bottom - r.top + 1 ≤ (api.largest c).y →
    api.setWindow c r = { c with info := { c.info with window := r } }
  /-- a buffer size that is possible is set; the window keeps its size; window and cursor may have to
  move, and the text to be wrapped anew -/
  size : ∀ c sz, Fine c.info → sz.x ≤ 32767 → sz.y ≤ 32767 →
    c.info.window.right - c.info.window.left < sz.x →
    c.info.window.bottom - c.info.window.top < sz.y → minWidth ≤ sz.x →
    (api.setSize c sz).2 = true ∧ (api.setSize c sz).1.info.size = sz ∧
    Fine (api.setSize c sz).1.info ∧
    (api.setSize c sz).1.info.window.right - (api.setSize c sz).1.info.window.left =
      c.info.window.right - c.info.window.left ∧
    (api.setSize c sz).1.info.window.bottom - (api.setSize c sz).1.info.window.top =
      c.info.window.bottom - c.info.window.top
  /-- a buffer that would be too narrow is refused -/
  narrow : ∀ c sz, sz.x < minWidth → api.setSize c sz = (c, false)
  /-- the largest window depends on the font and the monitor -/
  stays : ∀ c r, api.largest (api.setWindow c r) = api.largest c
  stays' : ∀ c sz, api.largest (api.setSize c sz).1 = api.largest c
  /-- the cursor can be set to a cell of the buffer; the window is moved if it would not show the cursor -/
  cursor : ∀ c p, Fine c.info → 0 ≤ p.x → p.x < c.info.size.x → 0 ≤ p.y → p.y < c.info.size.y →
    Fine (api.setCursor c p).info ∧ (api.setCursor c p).info.cursor = p ∧ SameSizes c (api.setCursor c p)
  /-- in the window, the cursor is all that changes -/
  cursor' : ∀ c p, Fine c.info → c.info.window.left ≤ p.x → p.x ≤ c.info.window.right →
    c.info.window.top ≤ p.y → p.y ≤ c.info.window.bottom →
    api.setCursor c p = { c with info := { c.info with cursor := p } }

/-- Programs that leave the sizes of the console alone while the agent resizes it (but may write, and
so move the cursor and the window). -/
structure Polite (api : Api) (m : Meddling) : Prop where
  /-- setting the font leaves a console -/
  font : ∀ c, Fine c.info → Fine (m.font c).info
  fine : ∀ f, f = m.untilFrozen ∨ f = m.beforeResize ∨ f = m.afterResize →
    ∀ c, Fine c.info → Fine (f c).info ∧ SameSizes c (f c) ∧ api.largest (f c) = api.largest c

/-- The width the buffer gets: the one asked for, or else the smallest that is possible. -/
def widthFor (minWidth cols : Int) : Int := if minWidth ≤ cols then cols else minWidth

end Winpty.Spec.ConsoleApi
