import Verif.Model.Scraper

/-!
# Model of the console calls of `Scraper`'s constructor and of `resizeImpl`

`Verif/Model/Scraper.lean` takes what the console API reports during a resize as it comes.  Here the
console is an object with operations (`Api`), and the functions below make the calls one after the
other, so that one can ask what size the console ends up with.  A console that is not frozen may be
changed by the programs using it at any time (`Meddling`).
-/
namespace Winpty.ConsoleResize

open Winpty.SmallRect
open Winpty.Scraper

/-- The parts of the console API that are used: `SetConsoleWindowInfo` with absolute coordinates
(src/agent/Win32ConsoleBuffer.cc:139-144; its result is only traced), `SetConsoleScreenBufferSize`
(103-129, with its result), `GetLargestConsoleWindowSize` (src/agent/Scraper.cc:77, 245-246), and
`SetConsoleCursorPosition` (src/agent/Win32ConsoleBuffer.cc:150-155). -/
structure Api where
  setWindow : Con → Rect → Con
  setSize : Con → Coord → Con × Bool
  largest : Con → Coord
  setCursor : Con → Coord → Con

/-- The loop of `resizeBufferRange`, src/agent/Win32ConsoleBuffer.cc:113-123, with `n` widths left to
try: the console, and the size set if there is one. -/
def tryWider (api : Api) (c : Con) (x y : Int) : Nat → Con × Option Coord
  | 0 => (c, none)
  | n + 1 =>
    if (api.setSize c ⟨x + 1, y⟩).2 then ((api.setSize c ⟨x + 1, y⟩).1, some ⟨x + 1, y⟩)
    else tryWider api (api.setSize c ⟨x + 1, y⟩).1 (x + 1) y n

/-- `Win32ConsoleBuffer::resizeBufferRange`, src/agent/Win32ConsoleBuffer.cc:103-129. -/
def resizeBufferRange (api : Api) (c : Con) (size : Coord) : Con × Option Coord :=
  if (api.setSize c size).2 then ((api.setSize c size).1, some size)
  else tryWider api (api.setSize c size).1 size.x size.y (20 - size.x).toNat

/-- The console calls of the constructor, src/agent/Scraper.cc:75-89; `font` is `setSmallFont`
(src/agent/ConsoleFont.cc:672-698), taken as any change of the console.  `setTextAttribute` concerns
text written later and is left out. -/
def setUp (api : Api) (font : Con → Con) (c : Con) (initialSize : Coord) : Con :=
  match (resizeBufferRange api (api.setWindow (font c) (mk4 0 0 1 1)) ⟨initialSize.x, bufferLineCount⟩).1 with
  | c1 =>
    match api.setCursor
        (api.setWindow c1
          (mk4 0 0 (min initialSize.x (api.largest c1).x) (min initialSize.y (api.largest c1).y)))
        ⟨0, 0⟩ with
    | c2 => clearLines c2 0 c2.info.size.y c2.info

/-- What happens to the console while it is not frozen during `resizeImpl`: until its largest window
size is asked for, including `setSmallFont` (src/agent/Scraper.cc:239-246), from there until it is
frozen (253), and before and after its buffer is resized (273-274). -/
structure Meddling where
  font : Con → Con
  untilFrozen : Con → Con
  beforeResize : Con → Con
  afterResize : Con → Con

/-- `visibleCols`, src/agent/Scraper.cc:247. -/
def visibleCols (s : S) (largest : Coord) : Int := min s.ptySize.x largest.x

/-- `visibleRows`, src/agent/Scraper.cc:248. -/
def visibleRows (s : S) (largest : Coord) : Int := min s.ptySize.y largest.y

/-- The console when it was frozen before its window is made smaller, src/agent/Scraper.cc:239-254. -/
def beforeShrink (m : Meddling) (c1 : Con) : Con := m.untilFrozen (m.font c1)

/-- The console when it was frozen again, its buffer resized, src/agent/Scraper.cc:250-280. -/
def beforeExpand (api : Api) (m : Meddling) (s1 : S) (c1 : Con) (origInfo : Info) : Con :=
  m.afterResize (resizeBufferRange api
    (m.beforeResize (api.setWindow (beforeShrink m c1)
      (tmpWindowRect (beforeShrink m c1).info (visibleCols s1 (api.largest (m.font c1)))
        (visibleRows s1 (api.largest (m.font c1))))))
    (finalBufferSize s1 origInfo)).1

/-- The console at the end, src/agent/Scraper.cc:279-313. -/
def afterExpand (api : Api) (m : Meddling) (s1 : S) (c1 : Con) (origInfo : Info) : Con :=
  api.setWindow (beforeExpand api m s1 c1 origInfo)
    (finalWindowRect s1 (beforeExpand api m s1 c1 origInfo).info
      (visibleCols s1 (api.largest (m.font c1))) (visibleRows s1 (api.largest (m.font c1))))

/-- What `resizeImpl` finds, src/agent/Scraper.cc:245-246, 254, 280 and 386, on the console of `api`. -/
def found (api : Api) (m : Meddling) (s1 : S) (c1 : Con) (origInfo : Info) : ResizeViews where
  largest := api.largest (m.font c1)
  beforeShrink := beforeShrink m c1
  beforeExpand := beforeExpand api m s1 c1 origInfo
  last := afterExpand api m s1 c1 origInfo

/-- `Scraper::resizeImpl` on the console of `api`, src/agent/Scraper.cc:186-317: the state and the
console at the end. -/
def resizeConsole (api : Api) (m : Meddling) (s : S) (c : Con) (origInfo : Info) : Option (S × Con) :=
  match prepareResize s c origInfo with
  | none => none
  | some (s1, c1) =>
    match resizeImpl s c origInfo (found api m s1 c1 origInfo) with
    | none => none
    | some (s2, _, _) => some (s2, afterExpand api m s1 c1 origInfo)

end Winpty.ConsoleResize
