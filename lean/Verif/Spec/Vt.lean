/-!
# Specification: a standard VT (xterm-like) terminal emulator

This is the terminal on the other side of the pipe.  It is written from the VT/xterm control
sequence documentation and knows nothing of winpty.  It reads bytes one at a time.

* The screen has `width` columns and `height` rows.  Rows are numbered absolutely, so that rows
  that have scrolled off the top (the scrollback) keep their numbers; `top` is the number of the
  first visible row.
* `col = width` is the "pending wrap" state after writing into the last column: the next character
  goes to the next row, and an erase in that state erases the last column, as in xterm.
* Erasing uses the current background colour ("background colour erase").
* `cw` is the terminal's idea of how many columns a character occupies (`wcwidth`).
* Overwriting one half of a double-width character leaves the other half alone; a terminal may
  blank it instead.  (Unknown control characters and sequences are ignored.)
-/
namespace Winpty.Spec.Vt

/-- The properties of the terminal that do not change. -/
structure Cfg where
  width : Nat
  height : Nat
  cw : Nat → Nat

/-- Graphic rendition.  Colours are indices 0–15 of the usual palette; `none` is the default. -/
structure Gfx where
  fg : Option Nat
  bg : Option Nat
  bold : Bool
  underline : Bool
  inverse : Bool
  conceal : Bool
deriving DecidableEq, Repr

def Gfx.default : Gfx := ⟨none, none, false, false, false, false⟩

/-- What one position of the screen holds. -/
inductive Shown where
  /-- (the first column of) a character -/
  | glyph (ch : Nat) (g : Gfx)
  /-- a further column of the character to the left -/
  | tail (g : Gfx)
  /-- nothing, on this background -/
  | erased (bg : Option Nat)
deriving DecidableEq, Repr

/-- State of the control sequence parser. -/
inductive Parse where
  | ground
  | esc
  /-- within `ESC [`: private marker seen, finished parameters (last first), current parameter -/
  | csi (priv : Bool) (done : List Nat) (cur : Nat)
  /-- within `ESC ]`: the text so far -/
  | osc (text : List Nat)
  /-- within a multi-byte character: bytes to come, value so far -/
  | utf8 (more : Nat) (value : Nat)
deriving DecidableEq, Repr

structure Emu where
  rows : Int → Nat → Shown
  top : Int
  row : Int
  col : Nat
  gfx : Gfx
  cursorVisible : Bool
  /-- private modes (`ESC [ ? n h`) -/
  modes : Nat → Bool
  title : List Nat
  parse : Parse

/-- Line feed: down one row, scrolling if on the last row. -/
def lineFeed (cfg : Cfg) (e : Emu) : Emu :=
  { e with row := e.row + 1
           top := if e.row = e.top + cfg.height - 1 then e.top + 1 else e.top }

/-- Write a character at the cursor. -/
def place (cfg : Cfg) (e : Emu) (ch : Nat) : Emu :=
  { e with
    rows := fun r k =>
      if r = e.row ∧ e.col ≤ k ∧ k < e.col + cfg.cw ch then
        (if k = e.col then .glyph ch e.gfx else .tail e.gfx)
      else e.rows r k
    col := e.col + cfg.cw ch }

/-- Print a character, wrapping to the next row if it does not fit. -/
def print (cfg : Cfg) (e : Emu) (ch : Nat) : Emu :=
  if e.col + cfg.cw ch > cfg.width then place cfg (lineFeed cfg { e with col := 0 }) ch
  else place cfg e ch

/-- Control characters. -/
def control (cfg : Cfg) (e : Emu) (b : Nat) : Emu :=
  if b = 0x0d then { e with col := 0 }
  else if b = 0x0a then lineFeed cfg e
  else if b = 0x08 then { e with col := e.col - 1 }
  else e

/-- One SGR parameter. -/
def sgr (g : Gfx) (n : Nat) : Gfx :=
  if n = 0 then Gfx.default
  else if n = 1 then { g with bold := true }
  else if n = 4 then { g with underline := true }
  else if n = 7 then { g with inverse := true }
  else if n = 8 then { g with conceal := true }
  else if 30 ≤ n ∧ n ≤ 37 then { g with fg := some (n - 30) }
  else if n = 39 then { g with fg := none }
  else if 40 ≤ n ∧ n ≤ 47 then { g with bg := some (n - 40) }
  else if n = 49 then { g with bg := none }
  else if 90 ≤ n ∧ n ≤ 97 then { g with fg := some (n - 90 + 8) }
  else if 100 ≤ n ∧ n ≤ 107 then { g with bg := some (n - 100 + 8) }
  else g

/-- Set or reset a private mode; mode 25 is the visibility of the cursor. -/
def setMode (on : Bool) (e : Emu) (n : Nat) : Emu :=
  if n = 25 then { e with cursorVisible := on }
  else { e with modes := fun k => if k = n then on else e.modes k }

/-- A complete control sequence with its parameters and final byte. -/
def dispatch (cfg : Cfg) (e : Emu) (priv : Bool) (params : List Nat) (final : Nat) : Emu :=
  if priv then
    if final = 0x68 then params.foldl (setMode true) e
    else if final = 0x6c then params.foldl (setMode false) e
    else e
  else if final = 0x41 then        -- A: cursor up
    { e with row := max e.top (e.row - max (params.headD 0) 1) }
  else if final = 0x47 then        -- G: cursor to column
    { e with col := min (max (params.headD 0) 1) cfg.width - 1 }
  else if final = 0x48 then        -- H: cursor position
    { e with row := e.top + (min (max (params.headD 0) 1) cfg.height - 1 : Nat)
             col := min (max (params.tail.headD 0) 1) cfg.width - 1 }
  else if final = 0x4a ∧ params.headD 0 = 2 then   -- 2J: erase the screen
    { e with rows := fun r k => if e.top ≤ r ∧ r < e.top + cfg.height then .erased e.gfx.bg
                                else e.rows r k }
  else if final = 0x4b ∧ params.headD 0 = 0 then   -- 0K: erase to the end of the row
    { e with rows := fun r k => if r = e.row ∧ min e.col (cfg.width - 1) ≤ k then .erased e.gfx.bg
                                else e.rows r k }
  else if final = 0x6d then        -- m: graphic rendition
    { e with gfx := params.foldl sgr e.gfx }
  else e

/-- One byte in the ground state. -/
def groundByte (cfg : Cfg) (e : Emu) (b : Nat) : Emu :=
  if b = 0x1b then { e with parse := .esc }
  else if b < 0x20 ∨ b = 0x7f then control cfg e b
  else if b < 0x80 then print cfg e b
  else if 0xc0 ≤ b ∧ b < 0xe0 then { e with parse := .utf8 1 (b - 0xc0) }
  else if 0xe0 ≤ b ∧ b < 0xf0 then { e with parse := .utf8 2 (b - 0xe0) }
  else if 0xf0 ≤ b ∧ b < 0xf8 then { e with parse := .utf8 3 (b - 0xf0) }
  else print cfg e 0xfffd

/-- A decoded character above U+007F: the C1 controls (U+0080–U+009F) are not printed. -/
def printWide (cfg : Cfg) (e : Emu) (ch : Nat) : Emu :=
  if ch < 0xa0 then e else print cfg e ch

/-- Read one byte. -/
def byte (cfg : Cfg) (e : Emu) (b : Nat) : Emu :=
  match e.parse with
  | .ground => groundByte cfg e b
  | .esc =>
    if b = 0x5b then { e with parse := .csi false [] 0 }
    else if b = 0x5d then { e with parse := .osc [] }
    else { e with parse := .ground }
  | .csi priv done cur =>
    if 0x30 ≤ b ∧ b ≤ 0x39 then { e with parse := .csi priv done (cur * 10 + (b - 0x30)) }
    else if b = 0x3b then { e with parse := .csi priv (cur :: done) 0 }
    else if b = 0x3f then { e with parse := .csi true done cur }
    else if 0x40 ≤ b ∧ b ≤ 0x7e then
      dispatch cfg { e with parse := .ground } priv (cur :: done).reverse b
    else e
  | .osc text =>
    if b = 0x07 then { e with parse := .ground, title := text }
    else if b = 0x1b then { e with parse := .esc }
    else { e with parse := .osc (text ++ [b]) }
  | .utf8 more value =>
    if 0x80 ≤ b ∧ b < 0xc0 then
      if more = 1 then printWide cfg { e with parse := .ground } (value * 64 + (b - 0x80))
      else { e with parse := .utf8 (more - 1) (value * 64 + (b - 0x80)) }
    else groundByte cfg { e with parse := .ground } b

/-- Read a stream of bytes. -/
def feed (cfg : Cfg) (e : Emu) (bytes : List Nat) : Emu := bytes.foldl (byte cfg) e

/-- The character seen at a position: `none` for the further columns of a character, a space where
nothing is written. -/
def charOf : Shown → Option Nat
  | .glyph ch _ => some ch
  | .tail _ => none
  | .erased _ => some 0x20

end Winpty.Spec.Vt
