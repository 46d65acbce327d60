/-!
# Model of `src/agent/ConsoleLine.cc`

A console cell (`CHAR_INFO`) is its 16-bit character and its 16-bit attribute word; the comment at
ConsoleLine.cc:37-39 records that there are no padding bytes, so `memcmp`/`memcpy` of cells compare
and copy exactly these two fields.  A `(pointer, length)` pair is a list of cells.  A failed
`ASSERT` and a read outside an array are the outcome `none`.
-/
namespace Winpty.ConsoleLine

/-- `CHAR_INFO`: `Char.UnicodeChar` and `Attributes` (Windows SDK; used as in
src/agent/ConsoleLine.cc:35-44). -/
structure Cell where
  ch : Nat
  attr : Nat
deriving DecidableEq, Repr

/-- The state of a `ConsoleLine` object, src/agent/ConsoleLine.h:36-38.  `m_prevLength` (an `int`
that is only ever assigned a line length) is a natural number. -/
structure Obj where
  prevLength : Nat
  prevData : List Cell
deriving DecidableEq, Repr

/-- `blankChar`, src/agent/ConsoleLine.cc:35-44. -/
def blankChar (attributes : Nat) : Cell := ⟨0x20, attributes⟩

/-- The loop of `isLineBlank` over the cells of the region, src/agent/ConsoleLine.cc:48-54. -/
def isLineBlankLoop (attributes : Nat) : List Cell → Bool
  | [] => true
  | c :: cs =>
    if c.attr ≠ attributes ∨ c.ch ≠ 0x20 then false else isLineBlankLoop attributes cs

/-- `isLineBlank(array + start, length, attributes)`, src/agent/ConsoleLine.cc:46-55.  `none` if
the region is not inside the array. -/
def isLineBlank (array : List Cell) (start length attributes : Nat) : Option Bool :=
  if start + length ≤ array.length then
    some (isLineBlankLoop attributes ((array.drop start).take length))
  else none

/-- `areLinesEqual`, src/agent/ConsoleLine.cc:57-63: `memcmp` of `length` cells.  `none` if one of
the arrays is shorter than that. -/
def areLinesEqual (line1 line2 : List Cell) (length : Nat) : Option Bool :=
  if length ≤ line1.length ∧ length ≤ line2.length then
    some (decide (line1.take length = line2.take length))
  else none

/-- `&&` of two conditions that may run into undefined behaviour, evaluated left to right
(the `&&`s of src/agent/ConsoleLine.cc:105-108 and 125-131). -/
def andThen (a : Option Bool) (b : Option Bool) : Option Bool :=
  match a with
  | none => none
  | some false => some false
  | some true => b

/-- The constructor, src/agent/ConsoleLine.cc:65-67. -/
def init : Obj := ⟨0, []⟩

/-- `ConsoleLine::reset`, src/agent/ConsoleLine.cc:69-73. -/
def reset (_ : Obj) : Obj := ⟨0, []⟩

/-- `std::vector<CHAR_INFO>::resize`, used by src/agent/ConsoleLine.cc:141 and 149: new cells are
zero. -/
def resize (v : List Cell) (n : Nat) : List Cell :=
  v.take n ++ List.replicate (n - v.length) ⟨0, 0⟩

/-- `memcpy(v.data(), line, …)` of a whole line over the front of an array that is at least as
long, src/agent/ConsoleLine.cc:143. -/
def overwrite (v line : List Cell) : List Cell := line ++ v.drop line.length

/-- `ConsoleLine::setLine`, src/agent/ConsoleLine.cc:138-145. -/
def setLine (o : Obj) (line : List Cell) : Obj :=
  ⟨line.length,
   overwrite (if o.prevData.length < line.length then resize o.prevData line.length
              else o.prevData) line⟩

/-- `equalLines` when the line has become shorter, src/agent/ConsoleLine.cc:101-108. -/
def equalShorter (o : Obj) (line : List Cell) (newBlank : Nat) : Option Bool :=
  andThen (areLinesEqual o.prevData line line.length)
    (isLineBlank o.prevData line.length (o.prevLength - line.length) newBlank)

/-- `equalLines` when the line has become longer, src/agent/ConsoleLine.cc:109-132. -/
def equalLonger (o : Obj) (line : List Cell) (prevBlank : Nat) : Option Bool :=
  andThen (areLinesEqual o.prevData line o.prevLength)
    (andThen
      (isLineBlank o.prevData o.prevLength
        (min o.prevData.length line.length - o.prevLength) prevBlank)
      (isLineBlank line o.prevLength (line.length - o.prevLength) prevBlank))

/-- `ConsoleLine::detectChangeAndSetLine`, src/agent/ConsoleLine.cc:79-136.  The result is the
new state and the returned value; `none` is a failed `ASSERT` or a read out of bounds. -/
def detectChangeAndSetLine (o : Obj) (line : List Cell) : Option (Obj × Bool) :=
  if ¬ line.length ≥ 1 then none
  else if ¬ o.prevLength ≤ o.prevData.length then none
  else if line.length = o.prevLength then
    match areLinesEqual o.prevData line line.length with
    | none => none
    | some equalLines => some (if equalLines then o else setLine o line, !equalLines)
  else if o.prevLength = 0 then
    some (setLine o line, true)
  else
    match o.prevData[o.prevLength - 1]?, line[line.length - 1]? with
    | some prevLast, some newLast =>
      match (if line.length < o.prevLength then equalShorter o line newLast.attr
             else equalLonger o line prevLast.attr) with
      | none => none
      | some equalLines => some (setLine o line, !equalLines)
    | _, _ => none

/-- `ConsoleLine::blank`, src/agent/ConsoleLine.cc:147-152. -/
def blank (_ : Obj) (attributes : Nat) : Obj := ⟨1, [blankChar attributes]⟩

end Winpty.ConsoleLine
