/-
Specification for the reverse-video and underscore flags of a console cell (C21).

A cell's attribute word has 16 bits: four for the text colour, four for the background, and flags
above.  Bit 14 asks for reverse video and bit 15 for an underscore.  A console ignores these two
unless its output code page is one of the four East Asian ones, or its output mode enables them
everywhere, or it enables escape sequences; the console of the newer Windows 10 versions honours
reverse video in any case.
-/

namespace Winpty.Spec.Lvb

/-- The code pages of Japanese, simplified Chinese, Korean and traditional Chinese. -/
def eastAsianPages : List Nat := [932, 936, 949, 950]

/-- Bit 4 of the output mode is `ENABLE_LVB_GRID_WORLDWIDE`, bit 2
`ENABLE_VIRTUAL_TERMINAL_PROCESSING`. -/
def HonoursUnderscore (codePage mode : Nat) : Prop :=
  codePage ∈ eastAsianPages ∨ mode.testBit 4 = true ∨ mode.testBit 2 = true

/-- Reverse video is honoured in the same cases and, besides, by the new console. -/
def HonoursReverse (codePage mode : Nat) (newConsole : Bool) : Prop :=
  HonoursUnderscore codePage mode ∨ newConsole = true

/-- `seen` is the attribute word `attr` as the console itself would show it: both flags are dropped
where the console ignores them, and nothing else is changed. -/
def AsShown (codePage mode : Nat) (newConsole : Bool) (attr seen : Nat) : Prop :=
  (∀ i, i < 14 → seen.testBit i = attr.testBit i) ∧
  (seen.testBit 14 = true ↔ attr.testBit 14 = true ∧ HonoursReverse codePage mode newConsole) ∧
  (seen.testBit 15 = true ↔ attr.testBit 15 = true ∧ HonoursUnderscore codePage mode) ∧
  ∀ i, 16 ≤ i → seen.testBit i = false

end Winpty.Spec.Lvb
