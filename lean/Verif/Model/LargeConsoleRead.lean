import Verif.Model.SmallRect
import Verif.Model.ConsoleLine

/-!
# Model of `src/agent/LargeConsoleRead.{h,cc}`

The console's contents are a function from column and row to a cell; they do not change during the
read (the agent freezes the console around it).  A failed `ASSERT`, the `abort` of
`validateLineNumber`, a read or write outside `m_data` and a size that does not fit are `none`.
-/
namespace Winpty.LargeRead

open Winpty.SmallRect
open Winpty.ConsoleLine (Cell)

/-- `MAX_CONSOLE_WIDTH`, src/agent/Scraper.h:45. -/
def maxConsoleWidth : Int := 2500

/-- `LargeConsoleReadBuffer`, src/agent/LargeConsoleRead.h:58-60. -/
structure Buf where
  rect : Rect
  rectWidth : Int
  data : List Cell

/-- The constructor, src/agent/LargeConsoleRead.cc:29-32; `SmallRect(0, 0, 0, 0)`. -/
def Buf.init : Buf := ⟨mk4 0 0 0 0, 0, []⟩

/-- What is needed to read the console: its contents, whether this is Windows 8 or later, and the
largest number of cells one `ReadConsoleOutputW` call can transfer before Windows 8
(src/agent/LargeConsoleRead.cc:50-54). -/
structure Console where
  screen : Int → Int → Cell
  isAtLeastWindows8 : Bool
  oldLimit : Nat

/-- The cells of a rectangle, row by row: what src/agent/Win32ConsoleBuffer.cc:157-179 fetches. -/
def rectCells (screen : Int → Int → Cell) (left top : Int) (w : Nat) : Nat → List Cell
  | 0 => []
  | h + 1 =>
    (List.range w).map (fun j : Nat => screen (left + j) top) ++ rectCells screen left (top + 1) w h

/-- `Win32ConsoleBuffer::read(rect, data + off)`, src/agent/Win32ConsoleBuffer.cc:157-179: one
`ReadConsoleOutputW` call with a destination of `rect.size()` cells.  The rectangle is taken to lie
inside the screen buffer.  Before Windows 8 the call fails, and nothing is transferred, if there are
too many cells.  `none` if the size is negative or the destination is not inside the array. -/
def read (c : Console) (rect : Rect) (data : List Cell) (off : Int) : Option (List Cell) :=
  if rect.size.x < 0 ∨ rect.size.y < 0 ∨ off < 0 ∨
      (data.length : Int) < off + rect.size.x * rect.size.y then none
  else if c.isAtLeastWindows8 = false ∧ c.oldLimit < rect.size.x.toNat * rect.size.y.toNat then
    some data
  else
    some (data.take off.toNat ++
      rectCells c.screen rect.left rect.top rect.size.x.toNat rect.size.y.toNat ++
      data.drop (off.toNat + rect.size.x.toNat * rect.size.y.toNat))

/-- `lineData`/`lineDataMut` with `validateLineNumber`, src/agent/LargeConsoleRead.h:39-56: the
index of the first cell of a line. -/
def lineOffset (b : Buf) (line : Int) : Option Int :=
  if line < b.rect.top ∨ line > b.rect.bottom then none
  else some ((line - b.rect.top) * b.rectWidth)

/-- The cells from `lineData(line)` on, src/agent/LargeConsoleRead.h:39-42. -/
def lineData (b : Buf) (line : Int) : Option (List Cell) :=
  match lineOffset b line with
  | none => none
  | some off => some (b.data.drop off.toNat)

/-- `subReadArea`, src/agent/LargeConsoleRead.cc:57-61. -/
def subReadArea (readArea : Rect) (curLine : Int) : Rect :=
  mk4 readArea.left curLine readArea.width
    (min (max 1 (Int.tdiv maxConsoleWidth readArea.width)) (readArea.bottom + 1 - curLine))

/-- One iteration of the loop of chunked reads, src/agent/LargeConsoleRead.cc:56-63: the buffer and
`curLine` afterwards; `some none` if the loop condition is false. -/
def chunkStep (c : Console) (readArea : Rect) (b : Buf) (curLine : Int) :
    Option (Option (Buf × Int)) :=
  if curLine ≤ readArea.bottom then
    match lineOffset b curLine with
    | none => none
    | some off =>
      match read c (subReadArea readArea curLine) b.data off with
      | none => none
      | some d => some (some ({ b with data := d }, (subReadArea readArea curLine).bottom + 1))
  else some none

/-- The loop of chunked reads, src/agent/LargeConsoleRead.cc:55-64; `none` also if it is still
running after `fuel` iterations. -/
def chunkLoop (c : Console) (readArea : Rect) (b : Buf) (curLine : Int) : Nat → Option Buf
  | 0 =>
    match chunkStep c readArea b curLine with
    | some none => some b
    | _ => none
  | fuel + 1 =>
    match chunkStep c readArea b curLine with
    | none => none
    | some none => some b
    | some (some (b', curLine')) => chunkLoop c readArea b' curLine' fuel

/-- The masking loop, src/agent/LargeConsoleRead.cc:66-70, over the first `count` cells. -/
def maskCells (attributesMask count : Nat) (d : List Cell) : List Cell :=
  if attributesMask ≠ 0xFFFF then
    (d.take count).map (fun c => { c with attr := Nat.land c.attr attributesMask }) ++ d.drop count
  else d

/-- `largeConsoleRead`, src/agent/LargeConsoleRead.cc:34-71.  `none` also stands for a negative cell
count, which would become an enormous `size_t`. -/
def largeConsoleRead (out : Buf) (c : Console) (readArea : Rect) (attributesMask : Nat) :
    Option Buf :=
  if readArea.left ≥ 0 ∧ readArea.top ≥ 0 ∧ readArea.right ≥ readArea.left ∧
      readArea.bottom ≥ readArea.top ∧ readArea.width ≤ maxConsoleWidth then
    if readArea.width * readArea.height < 0 then none
    else
      match
        (if c.isAtLeastWindows8 then
          match read c readArea
              (out.data ++ List.replicate
                ((readArea.width * readArea.height).toNat - out.data.length) ⟨0, 0⟩) 0 with
          | none => none
          | some d => some (Buf.mk readArea readArea.width d)
        else
          chunkLoop c readArea
            (Buf.mk readArea readArea.width
              (out.data ++ List.replicate
                ((readArea.width * readArea.height).toNat - out.data.length) ⟨0, 0⟩))
            readArea.top (readArea.bottom + 1 - readArea.top).toNat) with
      | none => none
      | some b =>
        some { b with
          data := maskCells attributesMask (readArea.width * readArea.height).toNat b.data }
  else none

end Winpty.LargeRead
