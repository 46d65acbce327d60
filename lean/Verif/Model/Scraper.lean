import Verif.Model.LargeConsoleRead
import Verif.Model.Agent

/-!
# Model of `src/agent/Scraper.{h,cc}`

The console is its cells, sizes and cursor (`Con`).  While the console is frozen only the agent
changes it; while it is not, every call of the console API may find another console, so the functions
that run unfrozen take one `Con` for each such call.  What the scraper asks of its terminal is the
list of calls it makes (`TermCall`).  A failed `ASSERT`, an abort and an access outside an array are
the outcome `none`.  Line counters (`int64_t`, `int`) are unbounded integers.
-/
namespace Winpty.Scraper

open Winpty.SmallRect
open Winpty.LargeRead (Buf largeConsoleRead lineData)
open Winpty.ConsoleLine (Cell Obj)
open Winpty.Agent (TermCall)

/-- `BUFFER_LINE_COUNT`, src/agent/Scraper.h:44. -/
def bufferLineCount : Int := 3000

/-- `MAX_CONSOLE_WIDTH`, src/agent/Scraper.h:45. -/
def maxConsoleWidth : Int := 2500

/-- `SYNC_MARKER_LEN`, src/agent/Scraper.h:47. -/
def syncMarkerLen : Int := 16

/-- `SYNC_MARKER_MARGIN`, src/agent/Scraper.h:48. -/
def syncMarkerMargin : Int := 200

/-- `Win32ConsoleBuffer::kDefaultAttributes`, src/agent/Win32ConsoleBuffer.h:53. -/
def defaultAttributes : Nat := 7

/-- `ConsoleScreenBufferInfo`, src/agent/Win32ConsoleBuffer.h:33-43: buffer size, window and
cursor. -/
structure Info where
  size : Coord
  window : Rect
  cursor : Coord
deriving DecidableEq, Repr

/-- A console screen buffer: the cell at a column and a row, and what `bufferInfo` reports
(src/agent/Win32ConsoleBuffer.cc:86-93; the call is taken to succeed). -/
structure Con where
  screen : Int → Int → Cell
  info : Info

/-- The version of Windows: whether it is Windows 8 or later, whether it has the new console of
Windows 10, and the largest number of cells one read can transfer before Windows 8
(src/agent/LargeConsoleRead.cc:50-54, src/agent/Scraper.cc:329-332). -/
structure Sys where
  isAtLeastWindows8 : Bool
  isNewW10 : Bool
  oldLimit : Nat

/-- The console as src/agent/LargeConsoleRead.cc:34-71 sees it. -/
def view (sys : Sys) (c : Con) : LargeRead.Console := ⟨c.screen, sys.isAtLeastWindows8, sys.oldLimit⟩

/-- The fields of `Scraper`, src/agent/Scraper.h:81-99.  `m_bufferData` (3000 elements from the
constructor on, src/agent/Scraper.cc:60) is a function on indices. -/
structure S where
  syncRow : Int
  syncCounter : Nat
  directMode : Bool
  ptySize : Coord
  scrapedLineCount : Int
  scrolledCount : Int
  maxBufferedLine : Int
  readBuffer : Buf
  bufferData : Nat → Obj
  dirtyWindowTop : Int
  dirtyLineCount : Int

/-! ## The console buffer -/

/-- `FillConsoleOutputCharacterW(' ')` and `FillConsoleOutputAttribute(7)` of `n` cells from column 0
of a row on (src/agent/Win32ConsoleBuffer.cc:67-79): they fill row after row, up to the end of the
buffer.  Simplification: the calls succeed. -/
def fillBlank (c : Con) (row n : Int) : Con :=
  { c with
    screen := fun x y =>
      if 0 ≤ x ∧ x < c.info.size.x ∧ 0 ≤ y ∧ y < c.info.size.y ∧
          0 ≤ (y - row) * c.info.size.x + x ∧ (y - row) * c.info.size.x + x < n
      then ⟨0x20, defaultAttributes⟩ else c.screen x y }

/-- `Win32ConsoleBuffer::clearLines`, src/agent/Win32ConsoleBuffer.cc:63-80. -/
def clearLines (c : Con) (row count : Int) (info : Info) : Con :=
  fillBlank c row (info.size.x * count)

/-- `Win32ConsoleBuffer::write` of one column, src/agent/Win32ConsoleBuffer.cc:181-187, called at
src/agent/Scraper.cc:697-698: `data` goes to column 0 from a row on, as far as the buffer reaches.
Simplification: the call succeeds. -/
def writeColumn (c : Con) (row : Int) (data : List Cell) : Con :=
  { c with
    screen := fun x y =>
      if x = 0 ∧ 0 ≤ y ∧ y < c.info.size.y ∧ row ≤ y then
        match data[(y - row).toNat]? with
        | some d => d
        | none => c.screen x y
      else c.screen x y }

/-! ## Tracking state -/

/-- `Scraper::resetConsoleTracking`, src/agent/Scraper.cc:116-129; the result is the state and the
call of `Terminal::reset`. -/
def resetConsoleTracking (s : S) (sendClear : Bool) (scrapedLineCount : Int) : S × TermCall :=
  ({ s with
     bufferData := fun i => ConsoleLine.reset (s.bufferData i)
     syncRow := -1
     scrapedLineCount := scrapedLineCount
     scrolledCount := 0
     maxBufferedLine := -1
     dirtyWindowTop := -1
     dirtyLineCount := 0 },
   .reset sendClear scrapedLineCount)

/-- The members' initial values, src/agent/Scraper.h:85-99, and the part of the constructor that
concerns them, src/agent/Scraper.cc:51-60. -/
def init (ptySize : Coord) (windowTop : Int) : S × TermCall :=
  resetConsoleTracking
    { syncRow := -1, syncCounter := 0, directMode := false, ptySize := ptySize
      scrapedLineCount := 0, scrolledCount := 0, maxBufferedLine := -1, readBuffer := Buf.init
      bufferData := fun _ => ConsoleLine.init, dirtyWindowTop := -1, dirtyLineCount := 0 }
    false windowTop

/-- `Scraper::markEntireWindowDirty`, src/agent/Scraper.cc:134-138. -/
def markEntireWindowDirty (s : S) (window : Rect) : S :=
  { s with dirtyLineCount := max s.dirtyLineCount (window.top + window.height) }

/-- The first `w` cells from `m_readBuffer.lineData(line)` on (src/agent/LargeConsoleRead.h:39-42);
`none` if they are not all there. -/
def rowAt (b : Buf) (w : Int) (line : Int) : Option (List Cell) :=
  match lineData b line with
  | none => none
  | some cells => if w < 0 ∨ (cells.length : Int) < w then none else some (cells.take w.toNat)

/-- The loop over the columns, src/agent/Scraper.cc:153-160: is there a cell that is not a blank of
this attribute? -/
def anyDirtyCell (prevLineAttr : Nat) : List Cell → Bool
  | [] => false
  | c :: cs =>
    if c.ch ≠ 0x20 ∨ c.attr ≠ prevLineAttr then true else anyDirtyCell prevLineAttr cs

/-- The loop over the lines, src/agent/Scraper.cc:151-162, for `n` more lines: the new
`m_dirtyLineCount`. -/
def scanLoop (b : Buf) (w : Int) : Nat → Int → Nat → Int → Option Int
  | 0, _, _, dirty => some dirty
  | n + 1, line, prevLineAttr, dirty =>
    match rowAt b w line with
    | none => none
    | some cells =>
      match cells.getLast? with
      | none => none
      | some last =>
        scanLoop b w n (line + 1) last.attr
          (if anyDirtyCell prevLineAttr cells then line + 1 else dirty)

/-- `Scraper::scanForDirtyLines`, src/agent/Scraper.cc:142-163. -/
def scanForDirtyLines (s : S) (window : Rect) : Option S :=
  if ¬ s.dirtyLineCount ≥ 1 then none
  else
    match rowAt s.readBuffer s.readBuffer.rect.width (s.dirtyLineCount - 1) with
    | none => none
    | some prevLine =>
      match prevLine.getLast? with
      | none => none
      | some last =>
        match scanLoop s.readBuffer s.readBuffer.rect.width
            (window.top + window.height - s.dirtyLineCount).toNat s.dirtyLineCount last.attr
            s.dirtyLineCount with
        | none => none
        | some dirty => some { s with dirtyLineCount := dirty }

/-- `m_bufferData[line % BUFFER_LINE_COUNT]`, src/agent/Scraper.cc:175 and 625: the index, `none` if
it is negative. -/
def bufferIndex (line : Int) : Option Nat :=
  if line < 0 then none else some (line.tmod bufferLineCount).toNat

/-- Storing a `ConsoleLine` in `m_bufferData`, src/agent/Scraper.cc:175-176, 631-633. -/
def setBufferLine (s : S) (i : Nat) (o : Obj) : S :=
  { s with bufferData := fun j => if j = i then o else s.bufferData j }

/-- `Scraper::clearBufferLines`, src/agent/Scraper.cc:167-178, for `n` more rows from `row` on. -/
def clearBufferLoop (s : S) (row : Int) : Nat → Option S
  | 0 => some s
  | n + 1 =>
    match bufferIndex (row + s.scrolledCount) with
    | none => none
    | some i =>
      clearBufferLoop
        (setBufferLine { s with maxBufferedLine := max s.maxBufferedLine (row + s.scrolledCount) } i
          (ConsoleLine.blank (s.bufferData i) defaultAttributes))
        (row + 1) n

/-- `Scraper::clearBufferLines`, src/agent/Scraper.cc:167-178. -/
def clearBufferLines (s : S) (firstRow count : Int) : Option S :=
  if s.directMode then none else clearBufferLoop s firstRow count.toNat

/-! ## The synchronization marker -/

/-- A hexadecimal digit as `%x` prints it (`winpty_snprintf`, src/agent/Scraper.cc:655). -/
def hexDigit (d : Nat) : Nat := if d < 10 then 0x30 + d else 0x61 + (d - 10)

/-- `%08x` of an `unsigned int`, src/agent/Scraper.cc:655. -/
def hex8 (n : Nat) : List Nat :=
  [hexDigit (n / 0x10000000 % 16), hexDigit (n / 0x1000000 % 16), hexDigit (n / 0x100000 % 16),
   hexDigit (n / 0x10000 % 16), hexDigit (n / 0x1000 % 16), hexDigit (n / 0x100 % 16),
   hexDigit (n / 0x10 % 16), hexDigit (n % 16)]

/-- `Scraper::syncMarkerText`, src/agent/Scraper.cc:650-660. -/
def syncMarkerText (s : S) : List Cell :=
  ([0x53, 0x2a, 0x59, 0x2a, 0x4e, 0x2a, 0x43, 0x2a] ++ hex8 s.syncCounter).map fun ch => ⟨ch, 7⟩

/-- The inner loop of `findSyncMarker`, src/agent/Scraper.cc:672-676: do the cells from `i` on have
the characters of the marker? -/
def markerAt (column : List Cell) (i : Nat) : List Cell → Option Bool
  | [] => some true
  | m :: ms =>
    match column[i]? with
    | none => none
    | some c => if c.ch ≠ m.ch then some false else markerAt column (i + 1) ms

/-- The outer loop, src/agent/Scraper.cc:670-680, for rows `n - 1` down to 0. -/
def searchLoop (column marker : List Cell) : Nat → Option Int
  | 0 => some (-1)
  | i + 1 =>
    match markerAt column i marker with
    | none => none
    | some true => some i
    | some false => searchLoop column marker i

/-- `Scraper::findSyncMarker`, src/agent/Scraper.cc:662-681.  Simplification: the array `column`,
which is uninitialized in the code, starts out as zeros. -/
def findSyncMarker (sys : Sys) (s : S) (c : Con) : Option Int :=
  if ¬ s.syncRow ≥ 0 then none
  else
    match LargeRead.read (view sys c) (mk4 0 0 1 (s.syncRow + syncMarkerLen))
        (List.replicate 3000 ⟨0, 0⟩) 0 with
    | none => none
    | some column => searchLoop column (syncMarkerText s) (s.syncRow + 1).toNat

/-- `Scraper::createSyncMarker`, src/agent/Scraper.cc:683-699. -/
def createSyncMarker (s : S) (c : Con) (row : Int) : Option (S × Con) :=
  if ¬ row ≥ 1 then none
  else
    some ({ s with syncCounter := (s.syncCounter + 1) % 2 ^ 32, syncRow := row },
      writeColumn (clearLines c (row - 1) (syncMarkerLen + 1) c.info) row
        (syncMarkerText { s with syncCounter := (s.syncCounter + 1) % 2 ^ 32 }))

/-! ## Scraping a scrolling console -/

/-- The outcome of a part of `scrollingScrapeOutput`: an abort, `return false`, or go on. -/
inductive Step where
  | abort
  | bail (s : S)
  | go (s : S) (calls : List TermCall)

/-- Looking for the marker, src/agent/Scraper.cc:483-505. -/
def trackMarker (sys : Sys) (s : S) (c : Con) (window : Rect) (tentative : Bool) : Step :=
  if s.syncRow = -1 then .go s []
  else
    match findSyncMarker sys s c with
    | none => .abort
    | some markerRow =>
      if markerRow = -1 then
        if tentative then .bail s
        else .go (resetConsoleTracking s true window.top).1 [(resetConsoleTracking s true window.top).2]
      else if markerRow ≠ s.syncRow then
        if ¬ markerRow < s.syncRow then .abort
        else
          .go (markEntireWindowDirty
            { s with
              scrolledCount := s.scrolledCount + (s.syncRow - markerRow)
              syncRow := markerRow } window) []
      else .go s []

/-- `newSyncRow`, src/agent/Scraper.cc:509-510. -/
def newSyncRow (window : Rect) : Int := window.top - syncMarkerLen - syncMarkerMargin

/-- `shouldCreateSyncRow`, src/agent/Scraper.cc:511-512. -/
def shouldCreateSyncRow (s : S) (window : Rect) : Bool :=
  decide (newSyncRow window ≥ s.syncRow + syncMarkerLen + syncMarkerMargin)

/-- The last lines of updating the dirty line count, src/agent/Scraper.cc:543-545. -/
def setDirty (s : S) (window : Rect) (cursor : Coord) : S :=
  { s with
    dirtyWindowTop := window.top
    dirtyLineCount := max (max s.dirtyLineCount (cursor.y + 1)) window.top }

/-- Updating the dirty line count, src/agent/Scraper.cc:524-548. -/
def trackWindow (s : S) (window : Rect) (cursor : Coord) (tentative : Bool) : Step :=
  match
    (if s.dirtyWindowTop ≠ -1 then
      if window.top > s.dirtyWindowTop then Step.go (markEntireWindowDirty s window) []
      else if window.top < s.dirtyWindowTop then
        if tentative then .bail s
        else .go (resetConsoleTracking s true window.top).1 [(resetConsoleTracking s true window.top).2]
      else .go s []
    else .go s []) with
  | .abort => .abort
  | .bail s => .bail s
  | .go s1 calls =>
    if ¬ (setDirty s1 window cursor).dirtyLineCount ≥ 1 then .abort
    else .go (setDirty s1 window cursor) calls

/-- `firstVirtLine`, src/agent/Scraper.cc:551-552. -/
def firstVirtLine (s : S) (window : Rect) : Int :=
  min s.scrapedLineCount (window.top + s.scrolledCount)

/-- `firstReadLine`, src/agent/Scraper.cc:560-561. -/
def firstReadLine (s : S) (window : Rect) : Int :=
  min (firstVirtLine s window - s.scrolledCount) (s.dirtyLineCount - 1)

/-- `stopReadLine`, src/agent/Scraper.cc:562-563. -/
def stopReadLine (s : S) (window : Rect) : Int :=
  max (window.top + window.height) s.dirtyLineCount

/-- Reading the console, src/agent/Scraper.cc:560-571. -/
def readLines (sys : Sys) (s : S) (c : Con) (info : Info) (mask : Nat) : Option S :=
  if ¬ (firstReadLine s info.window ≥ 0 ∧
      stopReadLine s info.window > firstReadLine s info.window) then none
  else
    match largeConsoleRead s.readBuffer (view sys c)
        (mk4 0 (firstReadLine s info.window) (min info.size.x maxConsoleWidth)
          (stopReadLine s info.window - firstReadLine s info.window)) mask with
    | none => none
    | some b => some { s with readBuffer := b }

/-- Is everything still where it was?  src/agent/Scraper.cc:578-588, reached only in a tentative
scrape; `check` is the console asked for its sizes, `recheck` the console searched for the
marker. -/
def unmoved (sys : Sys) (s : S) (info : Info) (check recheck : Con) : Option Bool :=
  if info.size ≠ check.info.size ∨ info.window ≠ check.info.window ∨
      info.cursor ≠ check.info.cursor then some false
  else if s.syncRow ≠ -1 then
    match findSyncMarker sys s recheck with
    | none => none
    | some row => some (decide (s.syncRow = row))
  else some true

/-- `stopVirtLine`, src/agent/Scraper.cc:605-607. -/
def stopVirtLine (s : S) (window : Rect) : Int :=
  min s.dirtyLineCount (window.top + window.height) + s.scrolledCount

/-- `showTerminalCursor`, src/agent/Scraper.cc:609-610. -/
def cursorShown (info : Info) (consoleCursorVisible : Bool) : Bool :=
  consoleCursorVisible && info.window.containsCoord info.cursor

/-- `cursorLine`, src/agent/Scraper.cc:611. -/
def cursorLine (s : S) (info : Info) (visible : Bool) : Int :=
  if cursorShown info visible then info.cursor.y + s.scrolledCount else -1

/-- `cursorColumn`, src/agent/Scraper.cc:612. -/
def cursorColumn (info : Info) (visible : Bool) : Int :=
  if cursorShown info visible then info.cursor.x else -1

/-- The loop sending the lines, src/agent/Scraper.cc:621-639, for `n` more lines from `line` on; `saw`
is `sawModifiedLine`, `curLine` and `curColumn` the cursor. -/
def sendLoop (s : S) (curLine curColumn : Int) : Nat → Int → Bool → Option (S × List TermCall)
  | 0, _, _ => some (s, [])
  | n + 1, line, saw =>
    match rowAt s.readBuffer s.readBuffer.rect.width (line - s.scrolledCount), bufferIndex line with
    | some cells, some i =>
      if saw || decide (line > s.maxBufferedLine) then
        match sendLoop
            (setBufferLine { s with maxBufferedLine := max s.maxBufferedLine line } i
              (ConsoleLine.setLine (s.bufferData i) cells))
            curLine curColumn n (line + 1) true with
        | none => none
        | some (s', calls) =>
          some (s', .sendLine line cells (if line = curLine then curColumn else -1) :: calls)
      else
        match ConsoleLine.detectChangeAndSetLine (s.bufferData i) cells with
        | none => none
        | some (o, changed) =>
          match sendLoop (setBufferLine s i o) curLine curColumn n (line + 1) changed with
          | none => none
          | some (s', calls) =>
            some (s', (if changed then
              [.sendLine line cells (if line = curLine then curColumn else -1)] else []) ++ calls)
    | _, _ => none

/-- The last part, after the console was read: src/agent/Scraper.cc:595-645. -/
def emit (s : S) (info : Info) (visible : Bool) : Option (S × List TermCall) :=
  match scanForDirtyLines s info.window with
  | none => none
  | some s1 =>
    match sendLoop s1 (cursorLine s1 info visible) (cursorColumn info visible)
        (stopVirtLine s1 info.window - firstVirtLine s1 info.window).toNat
        (firstVirtLine s1 info.window) false with
    | none => none
    | some (s2, calls) =>
      some ({ s2 with scrapedLineCount := info.window.top + s2.scrolledCount },
        (if cursorShown info visible then [] else [.hideCursor]) ++ calls ++
        (if cursorShown info visible then
          [.showCursor (cursorColumn info visible) (cursorLine s1 info visible)] else []))

/-- The consoles found by the successive calls of the console API during a scrape: the search for
the marker, the reading of the lines, the second look at the sizes, and the second search
(src/agent/Scraper.cc:486, 565, 579 and 585). -/
structure Views where
  marker : Con
  content : Con
  check : Con
  recheck : Con

/-- All the same console: it is frozen (src/agent/Scraper.cc:370-372). -/
def Views.still (c : Con) : Views := ⟨c, c, c, c⟩

/-- `Scraper::scrollingScrapeOutput`, src/agent/Scraper.cc:476-648: the value returned, the state,
the console and the calls to the terminal.  The marker is written only when the console is frozen. -/
def scrollingScrapeOutput (sys : Sys) (s : S) (v : Views) (info : Info) (visible tentative : Bool)
    (mask : Nat) : Option (Bool × S × Con × List TermCall) :=
  match trackMarker sys s v.marker info.window tentative with
  | .abort => none
  | .bail s1 => some (false, s1, v.recheck, [])
  | .go s1 calls1 =>
    if tentative && shouldCreateSyncRow s1 info.window then some (false, s1, v.recheck, [])
    else
      match trackWindow s1 info.window info.cursor tentative with
      | .abort => none
      | .bail s2 => some (false, s2, v.recheck, [])
      | .go s2 calls2 =>
        match readLines sys s2 v.content info mask with
        | none => none
        | some s3 =>
          match (if tentative then unmoved sys s3 info v.check v.recheck else some true) with
          | none => none
          | some false => some (false, s3, v.recheck, [])
          | some true =>
            match (if shouldCreateSyncRow s1 info.window then
                createSyncMarker s3 v.recheck (newSyncRow info.window)
              else some (s3, v.recheck)) with
            | none => none
            | some (s4, c4) =>
              match emit s4 info visible with
              | none => none
              | some (s5, calls5) => some (true, s5, c4, calls1 ++ calls2 ++ calls5)

/-! ## Scraping a console whose height a program has changed -/

/-- `Scraper::attributesMask`, src/agent/Scraper.cc:397-432: `cp` is the console's output code page,
`mode` its output mode (0 if `GetConsoleMode` fails). -/
def attributesMask (sys : Sys) (cp mode : Nat) : Nat :=
  Nat.land (Nat.land 0xFFFF
    (if cp = 932 ∨ cp = 936 ∨ cp = 949 ∨ cp = 950 ∨ Nat.land mode 0x10 ≠ 0 ∨
      Nat.land mode 0x4 ≠ 0 ∨ sys.isNewW10 = true then 0xFFFF else 0xBFFF))
    (if cp = 932 ∨ cp = 936 ∨ cp = 949 ∨ cp = 950 ∨ Nat.land mode 0x10 ≠ 0 ∨
      Nat.land mode 0x4 ≠ 0 then 0xFFFF else 0x7FFF)

/-- `scrapeRect`, src/agent/Scraper.cc:439-444. -/
def scrapeRect (s : S) (window : Rect) : Rect :=
  mk4 window.left window.top
    (min (min window.width s.ptySize.x) maxConsoleWidth)
    (min (min window.height s.ptySize.y) bufferLineCount)

/-- `showTerminalCursor` in direct mode, src/agent/Scraper.cc:449-450. -/
def directCursorShown (s : S) (info : Info) (visible : Bool) : Bool :=
  visible && (scrapeRect s info.window).containsCoord info.cursor

/-- The loop of `directScrapeOutput`, src/agent/Scraper.cc:460-469, for `n` more lines. -/
def directLoop (s : S) (top curLine curColumn : Int) : Nat → Int → Option (S × List TermCall)
  | 0, _ => some (s, [])
  | n + 1, line =>
    match rowAt s.readBuffer s.readBuffer.rect.width (top + line) with
    | none => none
    | some cells =>
      if line < 0 ∨ bufferLineCount ≤ line then none
      else
        match ConsoleLine.detectChangeAndSetLine (s.bufferData line.toNat) cells with
        | none => none
        | some (o, changed) =>
          match directLoop (setBufferLine s line.toNat o) top curLine curColumn n (line + 1) with
          | none => none
          | some (s', calls) =>
            some (s', (if changed then
              [.sendLine line cells (if line = curLine then curColumn else -1)] else []) ++ calls)

/-- `Scraper::directScrapeOutput`, src/agent/Scraper.cc:434-474; `c` is the console when it is
read. -/
def directScrapeOutput (sys : Sys) (s : S) (c : Con) (info : Info) (visible : Bool) (mask : Nat) :
    Option (S × List TermCall) :=
  match largeConsoleRead s.readBuffer (view sys c) (scrapeRect s info.window) mask with
  | none => none
  | some b =>
    match directLoop { s with readBuffer := b } (scrapeRect s info.window).top
        (if directCursorShown s info visible then info.cursor.y - (scrapeRect s info.window).top
          else -1)
        (if directCursorShown s info visible then info.cursor.x - (scrapeRect s info.window).left
          else -1)
        (scrapeRect s info.window).height.toNat 0 with
    | none => none
    | some (s', calls) =>
      some (s',
        (if directCursorShown s info visible then [] else [.hideCursor]) ++ calls ++
        (if directCursorShown s info visible then
          [.showCursor (info.cursor.x - (scrapeRect s info.window).left)
            (info.cursor.y - (scrapeRect s info.window).top)] else []))

/-! ## Resizing -/

/-- `cursorInWindow`, src/agent/Scraper.cc:180-184. -/
def cursorInWindow (info : Info) : Bool :=
  decide (info.cursor.y ≥ info.window.top) && decide (info.cursor.y ≤ info.window.bottom)

/-- What the console is asked to do while it is resized (src/agent/Scraper.cc:239-313); the console
may refuse. -/
inductive Request where
  | moveWindow (rect : Rect)
  | resizeBuffer (size : Coord)
deriving DecidableEq, Repr

/-- The first part of `resizeImpl`, src/agent/Scraper.cc:193-222, while the console is frozen:
forgetting or blanking the lines above the window and moving the marker. -/
def prepareResize (s : S) (c : Con) (origInfo : Info) : Option (S × Con) :=
  if s.directMode then
    some ({ s with bufferData := fun i => ConsoleLine.reset (s.bufferData i) }, c)
  else
    match clearBufferLines s 0 origInfo.window.top with
    | none => none
    | some s1 =>
      if s1.syncRow ≠ -1 then
        createSyncMarker s1 (clearLines c 0 origInfo.window.top origInfo)
          (min s1.syncRow
            (bufferLineCount - s1.ptySize.y - syncMarkerLen - syncMarkerMargin))
      else some (s1, clearLines c 0 origInfo.window.top origInfo)

/-- `finalBufferSize`, src/agent/Scraper.cc:224-231. -/
def finalBufferSize (s : S) (origInfo : Info) : Coord :=
  ⟨s.ptySize.x,
   if origInfo.window.height = origInfo.size.y then s.ptySize.y
   else max s.ptySize.y origInfo.size.y⟩

/-- Making the window small enough, src/agent/Scraper.cc:254-268. -/
def tmpWindowRect (info : Info) (visibleCols visibleRows : Int) : Rect :=
  if cursorInWindow info then
    (mk4 0 (min (info.size.y - min info.size.y visibleRows) info.window.top)
      (min info.size.x visibleCols) (min info.size.y visibleRows)).ensureLineIncluded info.cursor.y
  else
    mk4 0 (min (info.size.y - min info.size.y visibleRows) info.window.top)
      (min info.size.x visibleCols) (min info.size.y visibleRows)

/-- The window before the cursor is considered, src/agent/Scraper.cc:282-304. -/
def wantedWindowRect (s : S) (info : Info) (visibleCols visibleRows : Int) : Rect :=
  if s.directMode = false ∧ s.dirtyLineCount >
      (mk4 0 (min (info.size.y - visibleRows) info.window.top) visibleCols visibleRows).bottom + 1 then
    mk4 0 (s.dirtyLineCount - visibleRows) visibleCols visibleRows
  else mk4 0 (min (info.size.y - visibleRows) info.window.top) visibleCols visibleRows

/-- Expanding the window to its full size, src/agent/Scraper.cc:279-313. -/
def finalWindowRect (s : S) (info : Info) (visibleCols visibleRows : Int) : Rect :=
  if cursorInWindow info then
    (wantedWindowRect s info visibleCols visibleRows).ensureLineIncluded info.cursor.y
  else wantedWindowRect s info visibleCols visibleRows

/-- What is found during `resizeImpl` after the console was unfrozen: the largest window
(src/agent/Scraper.cc:245-248), the console when it is frozen again (254), and the console after its
buffer was resized (280); and the console at the end (386). -/
structure ResizeViews where
  largest : Coord
  beforeShrink : Con
  beforeExpand : Con
  last : Con

/-- `Scraper::resizeImpl`, src/agent/Scraper.cc:186-317: the state, the requests made, and the
console (as the agent left it) before it was unfrozen. -/
def resizeImpl (s : S) (c : Con) (origInfo : Info) (v : ResizeViews) :
    Option (S × Con × List Request) :=
  match prepareResize s c origInfo with
  | none => none
  | some (s1, c1) =>
    some
      ({ s1 with
         dirtyWindowTop :=
           (finalWindowRect s1 v.beforeExpand.info (min s1.ptySize.x v.largest.x)
             (min s1.ptySize.y v.largest.y)).top },
       c1,
       [.moveWindow (tmpWindowRect v.beforeShrink.info (min s1.ptySize.x v.largest.x)
          (min s1.ptySize.y v.largest.y)),
        .resizeBuffer (finalBufferSize s1 origInfo),
        .moveWindow (finalWindowRect s1 v.beforeExpand.info (min s1.ptySize.x v.largest.x)
          (min s1.ptySize.y v.largest.y))])

/-! ## Synchronizing -/

/-- What is found during `syncConsoleContentAndSize` (src/agent/Scraper.cc:319-387): the console
first asked for its sizes, whether its cursor is visible (`true` if that cannot be found out),
the consoles of a tentative scrape, the console once it is frozen, the attribute mask, and what is
found while resizing. -/
structure SyncViews where
  first : Con
  cursorVisible : Bool
  tentative : Views
  frozen : Con
  mask : Nat
  resize : ResizeViews

/-- The outcome of `syncConsoleContentAndSize`. -/
structure Result where
  state : S
  /-- the console as the agent left it -/
  con : Con
  frozen : Bool
  calls : List TermCall
  requests : List Request
  finalInfo : Info

/-- Entering direct or scrolling mode, src/agent/Scraper.cc:347-360. -/
def changeMode (s : S) (info : Info) : S × List TermCall :=
  if decide (info.size.y ≠ bufferLineCount) ≠ s.directMode then
    ({ (resetConsoleTracking s true
          (if info.size.y ≠ bufferLineCount then 0 else info.window.top)).1 with
       directMode := decide (info.size.y ≠ bufferLineCount) },
     [(resetConsoleTracking s true
        (if info.size.y ≠ bufferLineCount then 0 else info.window.top)).2])
  else (s, [])

/-- Does the mode change from direct to scrolling?  src/agent/Scraper.cc:355-359. -/
def leavesDirect (s : S) (info : Info) : Bool :=
  decide (info.size.y = bufferLineCount) && s.directMode

/-- The resize in scrolling mode, after the scrape (src/agent/Scraper.cc:376-386), if there is to be
one. -/
def finishScrolling (forceResize frozen : Bool) (s : S) (c : Con) (info : Info) (v : SyncViews)
    (calls : List TermCall) : Option Result :=
  if forceResize then
    match resizeImpl s c info v.resize with
    | none => none
    | some (s', c', reqs) => some ⟨s', c', true, calls, reqs, v.resize.last.info⟩
  else some ⟨s, c, frozen, calls, [], info⟩

/-- The scrolling-mode part, src/agent/Scraper.cc:369-386. -/
def syncScrolling (sys : Sys) (s : S) (frozen forceResize : Bool) (v : SyncViews) (still : Con)
    (calls : List TermCall) : Option Result :=
  match
    (if frozen then some (false, s, still, [])
     else scrollingScrapeOutput sys s v.tentative v.first.info v.cursorVisible true v.mask) with
  | none => none
  | some (true, s1, c1, calls1) =>
    finishScrolling forceResize false s1 c1 v.first.info v (calls ++ calls1)
  | some (false, s1, _, calls1) =>
    match scrollingScrapeOutput sys s1 (Views.still (if frozen then still else v.frozen)) v.first.info
        v.cursorVisible false v.mask with
    | none => none
    | some (_, s2, c2, calls2) =>
      finishScrolling forceResize true s2 c2 v.first.info v (calls ++ calls1 ++ calls2)

/-- The direct-mode part, src/agent/Scraper.cc:362-368 and 386; `still` is the console now, or, if it
is not frozen, the console when it is read. -/
def syncDirect (sys : Sys) (s : S) (frozen forceResize : Bool) (v : SyncViews) (still : Con)
    (calls : List TermCall) : Option Result :=
  if forceResize then
    match resizeImpl s still v.first.info v.resize with
    | none => none
    | some (s1, _, reqs) =>
      match directScrapeOutput sys s1 v.resize.last v.first.info v.cursorVisible v.mask with
      | none => none
      | some (s2, calls2) => some ⟨s2, v.resize.last, true, calls ++ calls2, reqs, v.resize.last.info⟩
  else
    match directScrapeOutput sys s still v.first.info v.cursorVisible v.mask with
    | none => none
    | some (s2, calls2) => some ⟨s2, still, frozen, calls ++ calls2, [], v.first.info⟩

/-- `Scraper::syncConsoleContentAndSize`, src/agent/Scraper.cc:319-387; `frozen` tells whether the
console is frozen on entry. -/
def syncConsoleContentAndSize (sys : Sys) (s : S) (frozen forceResize : Bool) (v : SyncViews) :
    Option Result :=
  if (changeMode s v.first.info).1.directMode then
    syncDirect sys (changeMode s v.first.info).1 (frozen || !sys.isNewW10 || forceResize) forceResize v
      (if frozen || !sys.isNewW10 || forceResize then v.first else v.frozen)
      (changeMode s v.first.info).2
  else if leavesDirect s v.first.info then
    syncScrolling sys (changeMode s v.first.info).1 true true v
      (if frozen || !sys.isNewW10 || forceResize then v.first else v.frozen)
      (changeMode s v.first.info).2
  else
    syncScrolling sys (changeMode s v.first.info).1 (frozen || !sys.isNewW10 || forceResize)
      forceResize v v.first (changeMode s v.first.info).2

/-- `Scraper::resizeWindow`, src/agent/Scraper.cc:97-105. -/
def resizeWindow (sys : Sys) (s : S) (frozen : Bool) (newSize : Coord) (v : SyncViews) :
    Option Result :=
  syncConsoleContentAndSize sys { s with ptySize := newSize } frozen true v

/-- `Scraper::scrapeBuffer`, src/agent/Scraper.cc:108-114. -/
def scrapeBuffer (sys : Sys) (s : S) (frozen : Bool) (v : SyncViews) : Option Result :=
  syncConsoleContentAndSize sys s frozen false v

end Winpty.Scraper
