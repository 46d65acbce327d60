import Verif.Model.ConsoleLine
import Verif.Spec.Vt

/-!
# Specification: what the terminal should show for a console line

Shared with the model: only the type of a console cell.
-/
namespace Winpty.Spec.Screen

open Winpty.ConsoleLine (Cell)
open Winpty.Spec.Vt

/-- A character of a console line: its code point, the number of console cells it occupies and its
attribute word (that of its first cell). -/
structure Glyph where
  code : Nat
  cells : Nat
  attr : Nat
deriving DecidableEq, Repr

/-- The first cell of a double-width character (COMMON_LVB_LEADING_BYTE, 0x100). -/
def isLead (c : Cell) : Bool := c.attr.testBit 8

/-- The second cell of a double-width character (COMMON_LVB_TRAILING_BYTE, 0x200). -/
def isTrail (c : Cell) : Bool := c.attr.testBit 9

def isHigh (c : Cell) : Bool := decide (0xD800 ≤ c.ch ∧ c.ch < 0xDC00)
def isLow (c : Cell) : Bool := decide (0xDC00 ≤ c.ch ∧ c.ch < 0xE000)

/-- The characters of a well-formed console line: ordinary cells, double-width characters in two
cells, and surrogate pairs in two cells.  `none` if the line is anything else. -/
def glyphsOf : List Cell → Option (List Glyph)
  | [] => some []
  | a :: rest =>
    if isHigh a || isLow a then
      match rest with
      | b :: rest' =>
        if isHigh a && isLow b && !isLead a && !isLead b then
          (glyphsOf rest').map
            (⟨0x10000 + (a.ch - 0xD800) * 0x400 + (b.ch - 0xDC00), 2, a.attr⟩ :: ·)
        else none
      | [] => none
    else if isLead a then
      match rest with
      | b :: rest' =>
        if isTrail b && decide (b.ch = a.ch) then
          (glyphsOf rest').map (⟨a.ch, 2, a.attr⟩ :: ·)
        else none
      | [] => none
    else (glyphsOf rest).map (⟨a.ch, 1, a.attr⟩ :: ·)

/-- The character shown for a code point: the console's private codes for box drawing characters
are translated, and an escape character is shown as a question mark. -/
def shownCode (c : Nat) : Nat :=
  match c with
  | 1 => 0x2554 | 2 => 0x2557 | 3 => 0x255A | 4 => 0x255D | 5 => 0x2551 | 6 => 0x2550
  | 0x1b => 0x3f
  | c => c

/-- Neither a C0 nor a C1 control character nor DEL. -/
def Printable (c : Nat) : Prop := 0x20 ≤ c ∧ ¬ (0x7f ≤ c ∧ c ≤ 0x9f)

instance (c : Nat) : Decidable (Printable c) := by unfold Printable; infer_instance

/-- A glyph the terminal can show as the console does: a printable character that is as wide in
the terminal as in the console. -/
def Showable (cfg : Cfg) (g : Glyph) : Prop :=
  Printable (shownCode g.code) ∧ cfg.cw (shownCode g.code) = g.cells

instance (cfg : Cfg) (g : Glyph) : Decidable (Showable cfg g) := by
  unfold Showable; infer_instance

/-! ## Colours -/

/-- Palette index from red, green, blue and brightness. -/
def palette (red green blue bright : Bool) : Nat :=
  red.toNat + 2 * green.toNat + 4 * blue.toNat + 8 * bright.toNat

/-- The foreground colour in an attribute word (blue 1, green 2, red 4, intensity 8). -/
def attrFore (a : Nat) : Nat := palette (a.testBit 2) (a.testBit 1) (a.testBit 0) (a.testBit 3)

/-- The background colour in an attribute word (blue 0x10, …, intensity 0x80). -/
def attrBack (a : Nat) : Nat := palette (a.testBit 6) (a.testBit 5) (a.testBit 4) (a.testBit 7)

/-- COMMON_LVB_REVERSE_VIDEO (0x4000) exchanges the colours. -/
def wantFore (a : Nat) : Nat := if a.testBit 14 then attrBack a else attrFore a
def wantBack (a : Nat) : Nat := if a.testBit 14 then attrFore a else attrBack a

/-- COMMON_LVB_UNDERSCORE (0x8000). -/
def wantUnderline (a : Nat) : Bool := a.testBit 15

def black : Nat := 0
def ltGray : Nat := 7
def white : Nat := 15

/-- A colour as the user sees it: one of the terminal's two default colours or a palette colour. -/
inductive Ink where
  | defaultFore
  | defaultBack
  | palette (n : Nat)
deriving DecidableEq, Repr

/-- The colour of the text: inverse video exchanges foreground and background. -/
def textInk (g : Gfx) : Ink :=
  if g.inverse then (match g.bg with | some n => .palette n | none => .defaultBack)
  else (match g.fg with | some n => .palette n | none => .defaultFore)

/-- The colour behind the text. -/
def backInk (g : Gfx) : Ink :=
  if g.inverse then (match g.fg with | some n => .palette n | none => .defaultFore)
  else (match g.bg with | some n => .palette n | none => .defaultBack)

/-- The text colour wanted for an attribute word.  Light gray on black is the terminal's default
and white on black its bold default; on a white background (shown as the default text colour)
black and light gray text are shown in the default background colour. -/
def wantTextInk (a : Nat) : Ink :=
  if wantBack a = black ∧ (wantFore a = ltGray ∨ wantFore a = white) then .defaultFore
  else if wantBack a = white ∧ (wantFore a = ltGray ∨ wantFore a = black) then .defaultBack
  else .palette (wantFore a)

/-- The background wanted: black is the terminal's default background, white its default text
colour, anything else the palette colour. -/
def wantBackInk (a : Nat) : Ink :=
  if wantBack a = black then .defaultBack
  else if wantBack a = white then .defaultFore
  else .palette (wantBack a)

/-- The graphic rendition shows the attribute word as wanted. -/
def Renders (g : Gfx) (a : Nat) : Prop :=
  textInk g = wantTextInk a ∧ backInk g = wantBackInk a ∧
  g.bold = decide (wantBack a = black ∧ wantFore a = white) ∧
  g.underline = wantUnderline a ∧
  g.conceal = decide (wantFore a = wantBack a)

instance (g : Gfx) (a : Nat) : Decidable (Renders g a) := by unfold Renders; infer_instance

/-! ## Rows -/

/-- What is wanted, column by column, for the characters of a line: the character (`none` for the
further columns of a wide one) and the attribute word. -/
def wanted (gs : List Glyph) : List (Option Nat × Nat) :=
  gs.flatMap fun g => (some (shownCode g.code), g.attr) :: List.replicate (g.cells - 1) (none, g.attr)

/-- A screen position shows the wanted character; with colours on, also in the wanted rendition.
Where a blank was erased rather than written, only a background can be shown; it is the one wanted
unless that is white (which the terminal shows in inverse video, and erasing never does). -/
def Shows (colour : Bool) (s : Shown) (w : Option Nat × Nat) : Prop :=
  charOf s = w.1 ∧
  (colour = true →
    match s with
    | .glyph _ g => Renders g w.2
    | .tail g => Renders g w.2
    | .erased bg => wantBack w.2 ≠ white →
        (match bg with | some n => Ink.palette n | none => .defaultBack) = wantBackInk w.2)

/-- A row of the terminal shows a console line: every column of it as wanted, and blanks after its
end. -/
def RowShows (cfg : Cfg) (colour : Bool) (row : Nat → Shown) (line : List Cell) : Prop :=
  ∃ gs, glyphsOf line = some gs ∧
    (∀ k w, (wanted gs)[k]? = some w → Shows colour (row k) w) ∧
    ∀ k, line.length ≤ k → k < cfg.width → charOf (row k) = some 0x20

end Winpty.Spec.Screen
