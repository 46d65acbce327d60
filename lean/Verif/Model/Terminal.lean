import Verif.Model.ConsoleLine
import Verif.Model.Unicode

/-!
# Model of `src/agent/Terminal.cc`

The output is the list of all bytes written to the pipe so far (the pipe itself is modelled in
`Model/NamedPipe.lean`).  Console cells are `ConsoleLine.Cell`.  `int64_t` line numbers and `int`
columns are unbounded integers (they count console lines and columns, far below the limits of the
types); the conversion to `unsigned int` before formatting is explicit.  A failed `ASSERT` is the
outcome `none`.
-/
namespace Winpty.Terminal

open Winpty.ConsoleLine (Cell)
open Winpty.Unicode (encodeUtf8 decodeSurrogatePair)

/-- The fields of a `Terminal` object, src/agent/Terminal.h:55-66, and the bytes written to
`m_output`.  `m_termLineWorkingBuffer` is only a scratch buffer, cleared before each use
(Terminal.cc:362-363). -/
structure Term where
  remoteLine : Int
  remoteColumn : Int
  lineDataValid : Bool
  lineData : List Cell
  cursorHidden : Bool
  remoteColor : Int
  plainMode : Bool
  outputColor : Bool
  mouseModeEnabled : Bool
  out : List Nat
deriving DecidableEq, Repr

/-- The constructor and the member initialisers, src/agent/Terminal.h:37-40 and 56-66. -/
def init (plainMode outputColor : Bool) : Term :=
  ⟨0, 0, true, [], false, -1, plainMode, outputColor, false, []⟩

/-- `m_output.write(…)`, src/agent/NamedPipe.cc:295-322: append to what is sent.  (No call is
made with the pipe closed in a way that matters here: a closed pipe drops all output.) -/
def write (t : Term) (bytes : List Nat) : Term := { t with out := t.out ++ bytes }

/-- `CSI`, src/agent/Terminal.cc:35. -/
def csi : List Nat := [0x1b, 0x5b]

/-- The digit loop of `outUInt`, src/agent/Terminal.cc:79-82.  The fuel bounds the number of
iterations; it is `n + 1`, more than the number of digits. -/
def outUIntLoop : Nat → Nat → List Nat → List Nat
  | 0, _, acc => acc
  | fuel + 1, n, acc =>
    if n / 10 ≠ 0 then outUIntLoop fuel (n / 10) ((0x30 + n % 10) :: acc)
    else (0x30 + n % 10) :: acc

/-- `outUInt`, src/agent/Terminal.cc:74-84; also what `%u` prints (Terminal.cc:486-487).  The
32-byte buffer holds any 32-bit number. -/
def outUInt (n : Nat) : List Nat := outUIntLoop (n + 1) n []

/-- `%d`, as used in src/agent/Terminal.cc:440. -/
def formatInt (i : Int) : List Nat :=
  if i < 0 then 0x2d :: outUInt i.natAbs else outUInt i.natAbs

/-- `static_cast<unsigned int>` of an `int64_t`, src/agent/Terminal.cc:487. -/
def toUInt32 (i : Int) : Nat := (i % 4294967296).toNat

/-- `COLOR_ATTRIBUTE_MASK`, src/agent/Terminal.cc:44-54 (`FOREGROUND_BLUE` … are the bits 1, 2, 4,
8 and `BACKGROUND_BLUE` … the bits 0x10, 0x20, 0x40, 0x80 of the Windows SDK). -/
def colorAttributeMask : Nat := 0xC0FF

/-- `outputSetColorSgrParams`, src/agent/Terminal.cc:86-103: the bytes appended. -/
def outputSetColorSgrParams (isFore : Bool) (color : Nat) : List Nat :=
  if color &&& 8 ≠ 0 then
    [0x3b] ++ outUInt ((if isFore then 30 else 40) + (color &&& 7)) ++
    [0x3b] ++ outUInt ((if isFore then 30 else 40) + (90 - 30) + (color &&& 7))
  else
    [0x3b] ++ outUInt ((if isFore then 30 else 40) + color)

/-- The foreground colour in the terminal's numbering (`FLAG_RED` = 1, `FLAG_GREEN` = 2,
`FLAG_BLUE` = 4, `FLAG_BRIGHT` = 8), src/agent/Terminal.cc:107 and 109-112. -/
def foreOf (color : Nat) : Nat :=
  (if color &&& 4 ≠ 0 then 1 else 0) ||| (if color &&& 2 ≠ 0 then 2 else 0) |||
  (if color &&& 1 ≠ 0 then 4 else 0) ||| (if color &&& 8 ≠ 0 then 8 else 0)

/-- The background colour, src/agent/Terminal.cc:108 and 113-116. -/
def backOf (color : Nat) : Nat :=
  (if color &&& 0x40 ≠ 0 then 1 else 0) ||| (if color &&& 0x20 ≠ 0 then 2 else 0) |||
  (if color &&& 0x10 ≠ 0 then 4 else 0) ||| (if color &&& 0x80 ≠ 0 then 8 else 0)

/-- `outputSetColor` from line 161 on, given the (possibly swapped) colours and whether the
underscore flag is set, src/agent/Terminal.cc:161-211.  BLACK = 0, DKGRAY = 8, LTGRAY = 7,
WHITE = 15 (Terminal.cc:61-64). -/
def setColorBytes (fore back : Nat) (underscore : Bool) : List Nat :=
  csi ++ [0x30] ++
  (if back = 0 then
    (if fore = 7 then []
     else if fore = 15 then [0x3b, 0x31]
     else if fore = 8 then [0x3b, 0x33, 0x37, 0x3b, 0x39, 0x30]
     else outputSetColorSgrParams true fore)
   else if back = 15 then
    [0x3b, 0x37] ++ (if fore = 7 ∨ fore = 0 then [] else outputSetColorSgrParams false fore)
   else outputSetColorSgrParams true fore ++ outputSetColorSgrParams false back) ++
  (if fore = back then [0x3b, 0x38] else []) ++
  (if underscore then [0x3b, 0x34] else []) ++ [0x6d]

/-- `outputSetColor`, src/agent/Terminal.cc:105-212: the bytes appended. -/
def outputSetColor (color : Nat) : List Nat :=
  if color &&& 0x4000 ≠ 0 then
    setColorBytes (backOf color) (foreOf color) (decide (color &&& 0x8000 ≠ 0))
  else
    setColorBytes (foreOf color) (backOf color) (decide (color &&& 0x8000 ≠ 0))

/-- `fixSpecialCharacters`, src/agent/Terminal.cc:214-247. -/
def fixSpecialCharacters (ch : Nat) : Nat :=
  if ch = 1 then 0x2554
  else if ch = 2 then 0x2557
  else if ch = 3 then 0x255A
  else if ch = 4 then 0x255D
  else if ch = 5 then 0x2551
  else if ch = 6 then 0x2550
  else if ch = 0x1b then 0x3f
  else ch

/-- `isFullWidthCharacter`, src/agent/Terminal.cc:249-258.  The list is `data[0 .. width)`. -/
def isFullWidthCharacter : List Cell → Bool
  | a :: b :: _ =>
    decide (a.attr &&& 0x100 ≠ 0) && decide (b.attr &&& 0x200 ≠ 0) && decide (a.ch = b.ch)
  | _ => false

/-- `w1`, src/agent/Terminal.cc:279. -/
def cellWidth (data : List Cell) : Nat := if isFullWidthCharacter data then 2 else 1

/-- `scanUnicodeScalarValue`, src/agent/Terminal.cc:273-299: cell count and character value.  The
list is `data[0 .. width)`; `none` is the failed `ASSERT(width >= 1)`. -/
def scanUnicodeScalarValue (data : List Cell) : Option (Nat × Nat) :=
  match data with
  | [] => none
  | c1 :: _ =>
    if c1.ch &&& 0xF800 = 0xD800 then
      match data.drop (cellWidth data) with
      | [] => some (cellWidth data, 0x3f)
      | c2 :: _ =>
        if c1.ch &&& 0xFC00 ≠ 0xD800 ∨ c2.ch &&& 0xFC00 ≠ 0xDC00 then
          some (cellWidth data, 0x3f)
        else
          some (cellWidth data + cellWidth (data.drop (cellWidth data)),
                decodeSurrogatePair c1.ch c2.ch)
    else some (cellWidth data, c1.ch)

/-- `Terminal::reset`, src/agent/Terminal.cc:303-316. -/
def reset (t : Term) (sendClear : Bool) (newLine : Int) : Term :=
  let t := if sendClear ∧ ¬ t.plainMode then
      write t (csi ++ [0x30, 0x6d] ++ csi ++ [0x31, 0x3b, 0x31, 0x48] ++ csi ++ [0x32, 0x4a])
    else t
  { t with remoteLine := newLine, remoteColumn := 0, lineData := [], cursorHidden := false,
           remoteColor := -1 }

/-- `Terminal::hideTerminalCursor`, src/agent/Terminal.cc:453-462. -/
def hideTerminalCursor (t : Term) : Term :=
  if ¬ t.plainMode then
    if t.cursorHidden then t
    else { write t (csi ++ [0x3f, 0x32, 0x35, 0x6c]) with cursorHidden := true }
  else t

/-- The output of the loop `while (line > m_remoteLine)`, src/agent/Terminal.cc:492-495, run
`n` times. -/
def newLines : Nat → List Nat
  | 0 => []
  | n + 1 => [0x0d, 0x0a] ++ newLines n

/-- `Terminal::moveTerminalToLine`, src/agent/Terminal.cc:464-501. -/
def moveTerminalToLine (t : Term) (line : Int) : Term :=
  if line = t.remoteLine then t
  else
    let t := hideTerminalCursor t
    let t := if line < t.remoteLine then
        (if t.plainMode then write t [0x0d, 0x0a]
         else write t ([0x0d] ++ csi ++ outUInt (toUInt32 (t.remoteLine - line)) ++ [0x41]))
      else write t (newLines (line - t.remoteLine).toNat)
    { t with remoteLine := line, lineDataValid := true, lineData := [], remoteColumn := 0 }

/-- The variables of the output loop of `sendLine`, src/agent/Terminal.cc:362-368. -/
structure Loop where
  termLine : List Nat
  trimmedLineLength : Nat
  trimmedCellCount : Nat
  alreadyErasedLine : Bool
  remoteColor : Int
deriving DecidableEq, Repr

/-- The colour part of the loop body, src/agent/Terminal.cc:370-380; `i` is the index of the cell. -/
def loopColor (outputColor : Bool) (s : Loop) (i : Nat) (attr : Nat) : Loop :=
  if outputColor then
    if ((attr &&& colorAttributeMask : Nat) : Int) ≠ s.remoteColor then
      ⟨s.termLine ++ outputSetColor (attr &&& colorAttributeMask),
       (s.termLine ++ outputSetColor (attr &&& colorAttributeMask)).length,
       i, s.alreadyErasedLine, ((attr &&& colorAttributeMask : Nat) : Int)⟩
    else s
  else s

/-- `encodeUtf8` with the fallback to `'?'`, src/agent/Terminal.cc:402-407. -/
def encodeOr (ch : Nat) : List Nat := if encodeUtf8 ch = [] then [0x3f] else encodeUtf8 ch

/-- The character part of the loop body, src/agent/Terminal.cc:383-413; `last` says
`i + cellCount == width`, `next` is `i + cellCount`. -/
def loopChar (plainMode : Bool) (s : Loop) (next : Nat) (last : Bool) (ch : Nat) : Loop :=
  if ch = 0x20 then { s with termLine := s.termLine ++ [0x20] }
  else
    ⟨s.termLine ++ (if last ∧ ¬ plainMode then csi ++ [0x30, 0x4b] else [])
      ++ encodeOr (fixSpecialCharacters ch),
     (s.termLine ++ (if last ∧ ¬ plainMode then csi ++ [0x30, 0x4b] else [])
      ++ encodeOr (fixSpecialCharacters ch)).length,
     next, s.alreadyErasedLine || last, s.remoteColor⟩

/-- The output loop of `sendLine`, src/agent/Terminal.cc:369-414.  `cells` is `lineData[i ..
width)`.  The fuel bounds the number of iterations by the number of cells. -/
def outputLoop (plainMode outputColor : Bool) : Nat → List Cell → Nat → Loop → Option Loop
  | _, [], _, s => some s
  | 0, _ :: _, _, _ => none
  | fuel + 1, c :: cs, i, s =>
    match scanUnicodeScalarValue (c :: cs) with
    | none => none
    | some (cellCount, ch) =>
      outputLoop plainMode outputColor fuel ((c :: cs).drop cellCount) (i + cellCount)
        (loopChar plainMode (loopColor outputColor s i c.attr) (i + cellCount)
          (decide (cellCount = (c :: cs).length)) ch)

/-- The check whether the line can be appended to, src/agent/Terminal.cc:327-347: the new value of
`m_lineDataValid`; `none` is the failed `ASSERT` of line 328.  (In the comparison `okWidth` is
known to hold, so the line has at least `m_lineData.size()` cells.) -/
def checkAppend (t : Term) (line : List Cell) : Option Bool :=
  if t.lineDataValid then
    if (t.lineData.length : Int) ≠ t.remoteColumn then none
    else if t.remoteColumn > 0 then
      some ((if t.plainMode then decide (line.length ≥ t.lineData.length)
             else decide (line.length > t.lineData.length)) &&
            decide (line.take t.lineData.length = t.lineData))
    else some true
  else some false

/-- Resetting the row if it cannot be appended to, src/agent/Terminal.cc:348-360. -/
def startRow (t : Term) (valid : Bool) : Term :=
  if valid then { t with lineDataValid := true }
  else
    let t := hideTerminalCursor t
    { write t (if t.plainMode then [0x0d, 0x0a] else [0x0d]) with
      lineDataValid := true, lineData := [], remoteColumn := 0 }

/-- The end of `sendLine`, src/agent/Terminal.cc:416-431; `none` is the failed `ASSERT` of line
427. -/
def finishLine (t : Term) (line : List Cell) (cursorColumn : Int) (s : Loop) : Option Term :=
  let t := { t with remoteColor := s.remoteColor }
  let t := if cursorColumn ≠ -1 ∧ (s.trimmedCellCount : Int) > cursorColumn then
      hideTerminalCursor t else t
  let t := write t (s.termLine.take s.trimmedLineLength)
  let t := if ¬ s.alreadyErasedLine ∧ ¬ t.plainMode then write t (csi ++ [0x30, 0x4b]) else t
  if ¬ s.trimmedCellCount ≤ line.length then none
  else some { t with
    lineData := t.lineData ++
      (line.drop t.lineData.length).take (s.trimmedCellCount - t.lineData.length),
    remoteColumn := s.trimmedCellCount }

/-- `Terminal::sendLine`, src/agent/Terminal.cc:318-432.  `width` is the number of cells given. -/
def sendLine (t : Term) (line : Int) (cells : List Cell) (cursorColumn : Int) : Option Term :=
  if ¬ cells.length ≥ 1 then none
  else
    let t := moveTerminalToLine t line
    match checkAppend t cells with
    | none => none
    | some valid =>
      let t := startRow t valid
      match outputLoop t.plainMode t.outputColor cells.length (cells.drop t.lineData.length)
          t.lineData.length ⟨[], 0, t.lineData.length, false, t.remoteColor⟩ with
      | none => none
      | some s => finishLine t cells cursorColumn s

/-- `Terminal::showTerminalCursor`, src/agent/Terminal.cc:434-451. -/
def showTerminalCursor (t : Term) (column : Int) (line : Int) : Term :=
  let t := moveTerminalToLine t line
  if ¬ t.plainMode then
    let t := if t.remoteColumn ≠ column then
        { write t (csi ++ formatInt (column + 1) ++ [0x47]) with
          lineDataValid := decide (column = 0), lineData := [], remoteColumn := column }
      else t
    if t.cursorHidden then
      { write t (csi ++ [0x3f, 0x32, 0x35, 0x68]) with cursorHidden := false }
    else t
  else t

/-- `Terminal::enableMouseMode`, src/agent/Terminal.cc:503-535. -/
def enableMouseMode (t : Term) (enabled : Bool) : Term :=
  if t.mouseModeEnabled = enabled ∨ t.plainMode then t
  else
    write { t with mouseModeEnabled := enabled }
      (if enabled then
        csi ++ [0x3f, 0x31, 0x30, 0x30, 0x35, 0x6c] ++ csi ++ [0x3f, 0x31, 0x30, 0x30, 0x30, 0x68] ++
        csi ++ [0x3f, 0x31, 0x30, 0x30, 0x32, 0x68] ++ csi ++ [0x3f, 0x31, 0x30, 0x30, 0x33, 0x68] ++
        csi ++ [0x3f, 0x31, 0x30, 0x31, 0x35, 0x68] ++ csi ++ [0x3f, 0x31, 0x30, 0x30, 0x36, 0x68]
       else
        csi ++ [0x3f, 0x31, 0x30, 0x30, 0x36, 0x6c] ++ csi ++ [0x3f, 0x31, 0x30, 0x31, 0x35, 0x6c] ++
        csi ++ [0x3f, 0x31, 0x30, 0x30, 0x33, 0x6c] ++ csi ++ [0x3f, 0x31, 0x30, 0x30, 0x32, 0x6c] ++
        csi ++ [0x3f, 0x31, 0x30, 0x30, 0x30, 0x6c])

end Winpty.Terminal
