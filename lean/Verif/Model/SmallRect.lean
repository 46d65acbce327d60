/-!
# Model of `src/agent/SmallRect.h` and `src/agent/Coord.h`

Coordinates are 16-bit signed integers (`SHORT`).  C++ computes with them in `int`, which cannot
overflow here, and converts back to `SHORT` on assignment and when passing arguments; the conversion
is `short`, taken to wrap around as every compiler for Windows does.
-/
namespace Winpty.SmallRect

/-- Conversion of an `int` to `SHORT`, as in src/agent/SmallRect.h:111-117. -/
def short (i : Int) : Int := (i + 32768) % 65536 - 32768

/-- `COORD`/`Coord`, src/agent/Coord.h:30-85. -/
structure Coord where
  x : Int
  y : Int
deriving DecidableEq, Repr

/-- `Coord::isEmpty`, src/agent/Coord.h:74-77. -/
def Coord.isEmpty (c : Coord) : Bool := decide (c.x ≤ 0) || decide (c.y ≤ 0)

/-- `SMALL_RECT`, base of `SmallRect`, src/agent/SmallRect.h:32. -/
structure Rect where
  left : Int
  top : Int
  right : Int
  bottom : Int
deriving DecidableEq, Repr

/-- `SmallRect(x, y, width, height)`, src/agent/SmallRect.h:39-45: the arguments are converted to
`SHORT`, the corner coordinates too. -/
def mk4 (x y width height : Int) : Rect :=
  { left := short x
    top := short y
    right := short (short x + short width - 1)
    bottom := short (short y + short height - 1) }

/-- `SmallRect(topLeft, size)`, src/agent/SmallRect.h:47-53. -/
def mk2 (topLeft size : Coord) : Rect :=
  { left := topLeft.x
    top := topLeft.y
    right := short (topLeft.x + size.x - 1)
    bottom := short (topLeft.y + size.y - 1) }

/-- `contains(const SmallRect &)`, src/agent/SmallRect.h:71-77. -/
def Rect.containsRect (self other : Rect) : Bool :=
  decide (other.left ≥ self.left) && decide (other.right ≤ self.right) &&
    decide (other.top ≥ self.top) && decide (other.bottom ≤ self.bottom)

/-- `contains(const Coord &)`, src/agent/SmallRect.h:79-85. -/
def Rect.containsCoord (self : Rect) (other : Coord) : Bool :=
  decide (other.x ≥ self.left) && decide (other.x ≤ self.right) &&
    decide (other.y ≥ self.top) && decide (other.y ≤ self.bottom)

/-- `width`, src/agent/SmallRect.h:113. -/
def Rect.width (r : Rect) : Int := short (r.right - r.left + 1)

/-- `height`, src/agent/SmallRect.h:114. -/
def Rect.height (r : Rect) : Int := short (r.bottom - r.top + 1)

/-- `size`, src/agent/SmallRect.h:119. -/
def Rect.size (r : Rect) : Coord := ⟨r.width, r.height⟩

/-- `setTop`, src/agent/SmallRect.h:115. -/
def Rect.setTop (r : Rect) (top : Int) : Rect := { r with top := short top }

/-- `setLeft`, src/agent/SmallRect.h:116. -/
def Rect.setLeft (r : Rect) (left : Int) : Rect := { r with left := short left }

/-- `setWidth`, src/agent/SmallRect.h:117. -/
def Rect.setWidth (r : Rect) (width : Int) : Rect :=
  { r with right := short (r.left + short width - 1) }

/-- `setHeight`, src/agent/SmallRect.h:118. -/
def Rect.setHeight (r : Rect) (height : Int) : Rect :=
  { r with bottom := short (r.top + short height - 1) }

/-- `intersected`, src/agent/SmallRect.h:87-97. -/
def Rect.intersected (self other : Rect) : Rect :=
  mk4 (max self.left other.left) (max self.top other.top)
    (max 0 (min self.right other.right - max self.left other.left + 1))
    (max 0 (min self.bottom other.bottom - max self.top other.top + 1))

/-- `ensureLineIncluded`, src/agent/SmallRect.h:99-109. -/
def Rect.ensureLineIncluded (self : Rect) (line : Int) : Rect :=
  if line < self.top then mk4 self.left line self.width self.height
  else if line > self.bottom then mk4 self.left (line - self.height + 1) self.width self.height
  else self

end Winpty.SmallRect
