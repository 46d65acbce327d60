import Verif.Spec.Utf
import Verif.Model.ConsoleInput
/-!
# Specification of what console input means

Only the types of the model are used here (`Rec`, `Out`: what the console receives; `MouseRecord`: the
contents of a mouse report), and the Windows constants.
-/
namespace Winpty.Spec
open Winpty.ConsoleInput

/-- Everything the console receives, in order; requests to the terminal are left out. -/
def events (out : List Out) : List Out := out.filter (· ≠ .dsr)

/-- The number of status requests sent to the terminal. -/
def queries (out : List Out) : Nat := out.count .dsr

/-- The character a program reading the console sees for an event: that of a key-down record, unless it
is 0 (a key without a character). -/
def charOf : Out → Option Nat
  | .record (.key true _ ch _) => if ch = 0 then none else some ch
  | _ => none

/-- The text a program reading the console sees. -/
def typed (out : List Out) : List Nat := out.filterMap charOf

/-- Is the event a key record? -/
def isKeyRecord : Out → Bool
  | .record (.key ..) => true
  | _ => false

/-! ## Sequences sent by a terminal -/

/-- Up to seven decimal digits, at least one. -/
def IsDigits (ds : List Nat) : Prop := ds ≠ [] ∧ ds.length ≤ 7 ∧ ∀ d ∈ ds, 48 ≤ d ∧ d ≤ 57

/-- The same with an optional minus sign. -/
def IsSigned (ds : List Nat) : Prop := IsDigits ds ∨ ∃ ds', ds = 45 :: ds' ∧ IsDigits ds'

/-- A cursor position report: `ESC [ row ; column R`. -/
def IsReport (bs : List Nat) : Prop :=
  ∃ row col, IsDigits row ∧ IsDigits col ∧ bs = [27, 91] ++ row ++ [59] ++ col ++ [82]

/-- The first bytes of a UTF-8 character: a lead byte and fewer continuation bytes than it announces. -/
def CutCharacter (bs : List Nat) : Prop :=
  ∃ b t, bs = b :: t ∧ (192 ≤ b ∧ b < 224 ∧ t.length < 1 ∨ 224 ≤ b ∧ b < 240 ∧ t.length < 2 ∨
    240 ≤ b ∧ b < 248 ∧ t.length < 3)

/-- The value of a string of decimal digits. -/
def digitsValue (ds : List Nat) : Nat := ds.foldl (fun n d => n * 10 + (d - 48)) 0

/-- The value of a signed string of decimal digits. -/
def signedValue : List Nat → Int
  | 45 :: ds => -(digitsValue ds : Int)
  | ds => digitsValue ds

/-- The low 16 bits of a number, as a signed number. -/
def short (v : Int) : Int := (v + 32768) % 65536 - 32768

/-- Mouse reports and their contents, in the three encodings terminals use: SGR (1006), urxvt (1015) and
the original one.  Coordinates count from 1. -/
inductive MouseReport : List Nat → MouseRecord → Prop
  | sgr (f x y : List Nat) (m : Bool) (hf : IsDigits f) (hx : IsSigned x) (hy : IsSigned y) :
      MouseReport ([27, 91, 60] ++ f ++ [59] ++ x ++ [59] ++ y ++ [if m then 109 else 77])
        ⟨m, digitsValue f, short (signedValue x - 1), short (signedValue y - 1)⟩
  | urxvt (f x y : List Nat) (hf : IsDigits f) (hx : IsSigned x) (hy : IsSigned y) :
      MouseReport ([27, 91] ++ f ++ [59] ++ x ++ [59] ++ y ++ [77])
        ⟨false, digitsValue f - 32, short (signedValue x - 1), short (signedValue y - 1)⟩
  | original (f x y : Nat) :
      MouseReport [27, 91, 77, f, x, y] ⟨false, ((f : Int) - 32) % 256, ((x : Int) - 33) % 256, ((y : Int) - 33) % 256⟩

/-! ## Keyboards

A keyboard has keys, which are pressed and released; three of them, Shift, Ctrl and the two Alt keys,
are modifiers.  Every event carries the modifiers that are down. -/

/-- The bit of the modifier whose key a record is about; the right Alt key is the "enhanced" one. -/
def modifierBit (vk state : Nat) : Option Nat :=
  if vk = 0x10 then some 0x10
  else if vk = 0x11 then some 0x08
  else if vk = 0x12 then (if state &&& 0x100 ≠ 0 then some 0x01 else some 0x02)
  else none

/-- A key that is down. -/
inductive HeldKey where
  | modifier (bit : Nat)
  | plain (vk : Nat)
deriving DecidableEq, Repr

/-- The modifiers in a set of keys that are down. -/
def heldBits : List HeldKey → Nat
  | [] => 0
  | .modifier b :: ks => b ||| heldBits ks
  | .plain _ :: ks => heldBits ks

/-- The key a record is about. -/
def keyOf (vk state : Nat) : HeldKey :=
  match modifierBit vk state with
  | some b => .modifier b
  | none => .plain vk

/-- One event as a keyboard could produce it, from the keys that are down (the last pressed first) to
those down afterwards: a key that is up goes down, or the key last pressed goes up.  The state must be
the modifiers that are down at that moment (apart from the "enhanced" bit 0x100).  The second half of
a surrogate pair belongs to the press or release before it and changes nothing. -/
def keyboard (held : List HeldKey) : Out → Option (List HeldKey)
  | .record (.key down vk ch state) =>
    if 0xDC00 ≤ ch ∧ ch ≤ 0xDFFF then
      if state &&& 0xFF = heldBits held then some held else none
    else if down then
      if keyOf vk state ∉ held ∧ state &&& 0xFF = heldBits (keyOf vk state :: held) then
        some (keyOf vk state :: held)
      else none
    else
      match held with
      | k :: rest => if k = keyOf vk state ∧ state &&& 0xFF = heldBits rest then some rest else none
      | [] => none
  | .record (.mouse ..) => some held
  | .ctrlC => some held
  | .keyMsg true vk => if .plain vk ∉ held ∧ heldBits held = 0 then some (.plain vk :: held) else none
  | .keyMsg false vk =>
    match held with
    | k :: rest => if k = .plain vk then some rest else none
    | [] => none
  | .dsr => some held

/-- A sequence of events, starting and ending with no key down. -/
def keyboards : List HeldKey → List Out → Option (List HeldKey)
  | held, [] => some held
  | held, e :: es => (keyboard held e).bind fun held => keyboards held es

/-- Is the event about a modifier key? -/
def isModifier : Out → Bool
  | .record (.key _ vk _ state) => (modifierBit vk state).isSome
  | _ => false

/-! ## Mouse buttons -/

/-- The button code of a mouse report: the low two bits. -/
def buttonCode (r : MouseRecord) : Nat := (r.flags % 4).toNat

/-- Is it a wheel report (bit 6)? -/
def isWheel (r : MouseRecord) : Bool := (r.flags / 64) % 2 = 1

/-- Does the report say something about button `b` (0 left, 1 middle, 2 right)?  Code 3 means that no
button is down. -/
def concerns (b : Nat) (r : MouseRecord) : Bool :=
  !isWheel r && (buttonCode r = b || buttonCode r = 3)

/-- Is button `b` down after a history of reports?  The last report about it decides. -/
def buttonHeld (history : List MouseRecord) (b : Nat) : Bool :=
  match history.reverse.find? (concerns b) with
  | some r => buttonCode r = b && !r.release
  | none => false

/-- The buttons in the encoding of `MOUSE_EVENT_RECORD`. -/
def buttonBits (history : List MouseRecord) : Nat :=
  (if buttonHeld history 0 then 1 else 0) + (if buttonHeld history 2 then 2 else 0) +
  (if buttonHeld history 1 then 4 else 0)

end Winpty.Spec

namespace Winpty.Spec

/-- The virtual-key codes of Backspace, the navigation keys and the function keys (winuser.h). -/
def specialKeys : List Nat :=
  [0x08, 0x0C, 0x21, 0x22, 0x23, 0x24, 0x25, 0x26, 0x27, 0x28, 0x2D, 0x2E,
   0x70, 0x71, 0x72, 0x73, 0x74, 0x75, 0x76, 0x77, 0x78, 0x79, 0x7A, 0x7B]

/-- The key on the user's keyboard layout that types the character `c` (`VkKeyScan`), 0 if none does. -/
def layoutKey (sys : Winpty.ConsoleInput.Sys) (c : Nat) : Nat :=
  if c ≤ 0xFFFF ∧ sys.vkKeyScan c ≠ -1 then (sys.vkKeyScan c % 256).toNat else 0

end Winpty.Spec

/-! ## Mouse records -/
namespace Winpty.Spec
open Winpty.ConsoleInput

/-- A mouse report together with the circumstances in which it is handled: the clock (milliseconds, 32
bits), the system's double-click time, the visible window, and whether the console wants mouse input. -/
structure MouseInput where
  report : MouseRecord
  tick : Nat
  doubleClickTime : Nat
  window : Rect
  wanted : Bool

/-- A window that exists: not empty, and its width and height are representable. -/
def WindowOk (w : Rect) : Prop :=
  -32768 ≤ w.left ∧ w.left ≤ w.right ∧ w.right ≤ 32767 ∧ w.right - w.left < 32767 ∧
  -32768 ≤ w.top ∧ w.top ≤ w.bottom ∧ w.bottom ≤ 32767 ∧ w.bottom - w.top < 32767

/-- The number in `lo`…`hi` closest to `v`. -/
def nearest (lo hi v : Int) : Int := if v < lo then lo else if hi < v then hi else v

/-- Bit `k` of a (possibly negative) number. -/
def bit (v : Int) (k : Nat) : Bool := (v / 2 ^ k) % 2 = 1

/-- The modifiers in a report: 4 is Shift (0x10), 8 Alt (0x02), 16 Ctrl (0x08). -/
def reportModifiers (r : MouseRecord) : Nat :=
  (if bit r.flags 2 then 0x10 else 0) + (if bit r.flags 3 then 0x02 else 0) + (if bit r.flags 4 then 0x08 else 0)

/-- The console event for a report after `before`: position clamped to the window; the buttons held;
`MOUSE_WHEELED` (4) with a wheel delta of 120 or -120 in the high word, or `MOUSE_MOVED` (1) if bit 5 is
set and `DOUBLE_CLICK` (2) if `double`.  Nothing if the console does not want it. -/
def mouseEvent (double : Bool) (before : List MouseInput) (m : MouseInput) : Option Rec :=
  let x := nearest m.window.left m.window.right (m.window.left + m.report.x)
  let y := nearest m.window.top m.window.bottom (m.window.top + m.report.y)
  if !m.wanted then none
  else if isWheel m.report then
    if buttonCode m.report = 0 then
      some (.mouse x y (120 * 65536 + buttonBits (before.map (·.report))) 4 (reportModifiers m.report))
    else if buttonCode m.report = 1 then
      some (.mouse x y ((65536 - 120) * 65536 + buttonBits (before.map (·.report))) 4 (reportModifiers m.report))
    else none
  else
    some (.mouse x y (buttonBits (before.map (·.report) ++ [m.report]))
      ((if bit m.report.flags 5 then 1 else 0) + (if double then 2 else 0)) (reportModifiers m.report))

/-- The console events for a sequence of reports. -/
def mouseEvents (double : List MouseInput → MouseInput → Bool) : List MouseInput → List MouseInput → List Rec
  | _, [] => []
  | before, m :: ms => (mouseEvent (double before m) before m).toList ++ mouseEvents double (before ++ [m]) ms

/-- Does the report press button `b`? -/
def presses (b : Nat) (r : MouseRecord) : Prop := isWheel r = false ∧ buttonCode r = b ∧ r.release = false

/-- When a press may count as a double click: the button was up; some earlier report pressed the same
button at the same position, was not itself a double click, and is less than the double-click time ago. -/
def DoubleClickAllowed (double : List MouseInput → MouseInput → Bool) (before : List MouseInput) (m : MouseInput) :
    Prop :=
  ∃ b, b < 3 ∧ presses b m.report ∧ buttonHeld (before.map (·.report)) b = false ∧
    ∃ earlier first later, before = earlier ++ first :: later ∧ presses b first.report ∧
      buttonHeld (earlier.map (·.report)) b = false ∧ double earlier first = false ∧
      first.report.x = m.report.x ∧ first.report.y = m.report.y ∧
      ∃ delay, delay < m.doubleClickTime ∧ m.tick = (first.tick + delay) % 2 ^ 32

/-- When a press must count as a double click: the button was up; an earlier report pressed it at the
same position, was not itself a double click, and is less than the double-click time ago; and since then
nothing happened but wheel movements and releases (or movements without a button). -/
def DoubleClickRequired (double : List MouseInput → MouseInput → Bool) (before : List MouseInput) (m : MouseInput) :
    Prop :=
  ∃ b, b < 3 ∧ presses b m.report ∧ buttonHeld (before.map (·.report)) b = false ∧
    ∃ earlier first later, before = earlier ++ first :: later ∧ presses b first.report ∧
      buttonHeld (earlier.map (·.report)) b = false ∧ double earlier first = false ∧
      (∀ p ∈ later, isWheel p.report = true ∨ buttonCode p.report = 3 ∨
        buttonCode p.report = b ∧ p.report.release = true) ∧
      first.report.x = m.report.x ∧ first.report.y = m.report.y ∧
      ∃ delay, delay < m.doubleClickTime ∧ delay < 2 ^ 32 ∧ m.tick = (first.tick + delay) % 2 ^ 32

/-- The mouse records in what the console receives. -/
def mouseRecords (out : List Out) : List Rec :=
  out.filterMap fun e => match e with
    | .record (.mouse x y b f c) => some (.mouse x y b f c)
    | _ => none

/-- A key record without the "enhanced key" bit (and the lock states). -/
def ignoreEnhanced : Out → Out
  | .record (.key down vk c st) => .record (.key down vk c (st &&& 0xFF))
  | e => e

/-- Bytes that are not a UTF-8 character: a byte that cannot begin one, or a byte that announces a number
of further bytes together with these, the whole not being the encoding of any character. -/
def NotCharacter (bs : List Nat) : Prop :=
  ∃ b t, bs = b :: t ∧ (128 ≤ b ∧ (b < 192 ∨ 248 ≤ b) ∧ t.length = 0 ∨ 192 ≤ b ∧ b < 224 ∧ t.length = 1 ∨
    224 ≤ b ∧ b < 240 ∧ t.length = 2 ∨ 240 ≤ b ∧ b < 248 ∧ t.length = 3) ∧ ∀ c, IsScalar c → bs ≠ utf8 c

/-- What an item of terminal input means, as console events (`vt`: the console asked for VT input). -/
inductive Meaning (keys : List (List Nat × Winpty.InputMap.Key)) (vt : Bool) : List Nat → List Out → Prop
  /-- Ctrl-C. -/
  | interrupt : Meaning keys vt [3] [.ctrlC]
  /-- A cursor position report means nothing to the console. -/
  | report (item : List Nat) (h : IsReport item) : Meaning keys vt item []
  /-- A mouse report means at most one mouse event. -/
  | mouse (item : List Nat) (r : MouseRecord) (evs : List Out) (h : MouseReport item r) (hl : evs.length ≤ 1)
      (he : ∀ e ∈ evs, ∃ x y b f c, e = .record (.mouse x y b f c)) : Meaning keys vt item evs
  /-- A sequence of the key table means its key: a press with its modifiers, or, for VT input only, the
  characters of a sequence or a message to the window. -/
  | key (item : List Nat) (k : Winpty.InputMap.Key) (evs : List Out) (h : (item, k) ∈ keys)
      (he : vt = false → (∀ e ∈ evs, isKeyRecord e = true) ∧
        ∃ c, .record (.key true k.virtualKey c k.keyState) ∈ evs) : Meaning keys vt item evs
  /-- A UTF-8 character, possibly after ESC, means key events; without ESC they type that character. -/
  | char (item : List Nat) (c : Nat) (alt : Bool) (evs : List Out) (hc : Winpty.Spec.IsScalar c)
      (h : item = (if alt then [27] else []) ++ utf8 c)
      (he : vt = false → (∀ e ∈ evs, isKeyRecord e = true) ∧ (alt = false → c ≠ 0 → typed evs = utf16 c)) :
      Meaning keys vt item evs
  /-- Bytes that are not UTF-8, possibly after ESC, mean nothing. -/
  | invalid (item part : List Nat) (alt : Bool) (hc : NotCharacter part)
      (h : item = (if alt then [27] else []) ++ part) : Meaning keys vt item []

/-- Items with their meanings, in order. -/
inductive Meanings (keys : List (List Nat × Winpty.InputMap.Key)) (vt : Bool) : List (List Nat) → List Out → Prop
  | nil : Meanings keys vt [] []
  | cons (item : List Nat) (evs : List Out) (items : List (List Nat)) (rest : List Out)
      (h : Meaning keys vt item evs) (hr : Meanings keys vt items rest) :
      Meanings keys vt (item :: items) (evs ++ rest)

end Winpty.Spec
