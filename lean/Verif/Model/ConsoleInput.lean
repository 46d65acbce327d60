import Verif.Model.Buffer
import Verif.Model.Unicode
import Verif.Model.DefaultInputMap
/-!
# Model of `src/agent/ConsoleInput.cc` and `src/agent/ConsoleInputReencoding.cc`

Bytes are `Nat`s below 256.  Windows enters through `Sys` (fixed functions) and `Env` (what the
system reports at a moment).  Tracing is left out.
-/
namespace Winpty.ConsoleInput
open Winpty.Buffer (toUnsigned toSigned)
open Winpty.Unicode
open Winpty.InputMap

/-- winuser.h.
Used at src/agent/ConsoleInput.cc:716, 732. -/
def VK_SHIFT : Nat := 0x10
/-- winuser.h.
Used at src/agent/ConsoleInput.cc:704, 744. -/
def VK_CONTROL : Nat := 0x11
/-- winuser.h.
Used at src/agent/ConsoleInput.cc:708-740. -/
def VK_MENU : Nat := 0x12

/-! ## Events delivered to the console -/

/-- An `INPUT_RECORD`.  A key event's scan code is a function of its virtual key
(`MapVirtualKey`, src/agent/ConsoleInput.cc:837-838) and its repeat count is always 1; both are left
out. -/
inductive Rec where
  | key (down : Bool) (vk ch state : Nat)
  | mouse (x y : Int) (buttons flags ctrl : Nat)
deriving DecidableEq, Repr

/-- What the agent does to the outside world when processing input, in order: a record written with
`WriteConsoleInputW` (assumed to succeed), a Ctrl-C event generated, a key message sent to the console
window, or a device status request sent to the terminal.
The effects at src/agent/ConsoleInput.cc:276, 355, 401 and 696-697. -/
inductive Out where
  | record (r : Rec)
  | ctrlC
  | keyMsg (down : Bool) (vk : Nat)
  | dsr
deriving DecidableEq, Repr

/-! ## Matching escape sequences -/

/-- `struct MouseRecord`, src/agent/ConsoleInput.cc:49-55. -/
structure MouseRecord where
  release : Bool
  flags : Int
  x : Int
  y : Int
deriving DecidableEq, Repr

/-- Outcome of a matcher: return value 0, return value -1, a match (what was extracted and the bytes
from `pch` on), or a read at or past `stop` (never happens, see `Props/ConsoleInput.lean`).
The exits of src/agent/ConsoleInput.cc:105-187. -/
inductive MRes (α : Type) where
  | noMatch
  | incomplete
  | overRead
  | ok (a : α) (rest : List Nat)
deriving DecidableEq, Repr

/-- Sequencing of matcher steps.
The early `return`s of src/agent/ConsoleInput.cc:69-78. -/
def MRes.bind {α β : Type} (m : MRes α) (f : α → List Nat → MRes β) : MRes β :=
  match m with
  | .noMatch => .noMatch
  | .incomplete => .incomplete
  | .overRead => .overRead
  | .ok a r => f a r

/-- `CHECK(*pch == c); ADVANCE();`, src/agent/ConsoleInput.cc:69-78. -/
def expect (c : Nat) : List Nat → MRes Unit
  | [] => .overRead
  | b :: r => if b = c then (if r = [] then .incomplete else .ok () r) else .noMatch

/-- `isdigit(*pch)`.  Passing a negative `char` is undefined in ISO C; the C libraries used answer 0,
which is assumed.
src/agent/ConsoleInput.cc:83, 89. -/
def isDigit (b : Nat) : Bool := 48 ≤ b && b ≤ 57

/-- The loop of `SCAN_INT`, src/agent/ConsoleInput.cc:85-89; `k` is `pch - begin`. -/
def scanIntLoop (maxLen k acc : Nat) : List Nat → MRes Nat
  | [] => .overRead
  | b :: r =>
    if k + 1 < maxLen then
      match r with
      | [] => .incomplete
      | b' :: r' =>
        if isDigit b' then scanIntLoop maxLen (k + 1) (acc * 10 + (b - 48)) (b' :: r')
        else .ok (acc * 10 + (b - 48)) (b' :: r')
    else .noMatch

/-- `SCAN_INT`, src/agent/ConsoleInput.cc:80-90. -/
def scanInt (maxLen : Nat) : List Nat → MRes Nat
  | [] => .overRead
  | b :: r => if isDigit b then scanIntLoop maxLen 0 0 (b :: r) else .noMatch

/-- `SCAN_SIGNED_INT`, src/agent/ConsoleInput.cc:92-103. -/
def scanSignedInt (maxLen : Nat) : List Nat → MRes Int
  | [] => .overRead
  | b :: r =>
    if b = 45 then
      if r = [] then .incomplete
      else (scanInt maxLen r).bind fun n rest => .ok (-(n : Int)) rest
    else (scanInt maxLen (b :: r)).bind fun n rest => .ok (n : Int) rest

/-- `CHECK(*pch == c)` at the end of a matcher: one byte is consumed by `return pch - input + 1`.
src/agent/ConsoleInput.cc:120-121, 170-172. -/
def final (c : Nat) : List Nat → MRes Unit
  | [] => .overRead
  | b :: r => if b = c then .ok () r else .noMatch

/-- `matchDsr`, src/agent/ConsoleInput.cc:110-122. -/
def matchDsr (input : List Nat) : MRes Unit :=
  (expect 0x1B input).bind fun _ r => (expect 91 r).bind fun _ r => (scanInt 8 r).bind fun _ r =>
  (expect 59 r).bind fun _ r => (scanInt 8 r).bind fun _ r => final 82 r

/-- `*pch` read as a number, then `ADVANCE()`.
src/agent/ConsoleInput.cc:132-134. -/
def byteAdvance : List Nat → MRes Nat
  | [] => .overRead
  | b :: r => if r = [] then .incomplete else .ok b r

/-- `*pch` read as a number at the end of a matcher.
src/agent/ConsoleInput.cc:135-137. -/
def byteFinal : List Nat → MRes Nat
  | [] => .overRead
  | b :: r => .ok b r

/-- `matchMouseDefault`, src/agent/ConsoleInput.cc:124-138; `(*pch - 32) & 0xFF` does not depend on the
signedness of `char`. -/
def matchMouseDefault (input : List Nat) : MRes MouseRecord :=
  (expect 0x1B input).bind fun _ r => (expect 91 r).bind fun _ r => (expect 77 r).bind fun _ r =>
  (byteAdvance r).bind fun f r => (byteAdvance r).bind fun x r => (byteFinal r).bind fun y r =>
  .ok ⟨false, ((f + 256 - 32) % 256 : Nat), ((x + 256 - 33) % 256 : Nat), ((y + 256 - 33) % 256 : Nat)⟩ r

/-- Conversion of an `int` to `SHORT`.
Implicit at src/agent/ConsoleInput.cc:150, 510-518. -/
def toShort (i : Int) : Int := toSigned 16 (toUnsigned 16 i)

/-- `CHECK(*pch == 'M' || *pch == 'm')`, src/agent/ConsoleInput.cc:153-154. -/
def finalMm : List Nat → MRes Bool
  | [] => .overRead
  | b :: r => if b = 77 ∨ b = 109 then .ok (b = 109) r else .noMatch

/-- `matchMouse1006`, src/agent/ConsoleInput.cc:140-156. -/
def matchMouse1006 (input : List Nat) : MRes MouseRecord :=
  (expect 0x1B input).bind fun _ r => (expect 91 r).bind fun _ r => (expect 60 r).bind fun _ r =>
  (scanInt 8 r).bind fun f r => (expect 59 r).bind fun _ r =>
  (scanSignedInt 8 r).bind fun x r => (expect 59 r).bind fun _ r =>
  (scanSignedInt 8 r).bind fun y r => (finalMm r).bind fun m r =>
  .ok ⟨m, f, toShort (x - 1), toShort (y - 1)⟩ r

/-- `matchMouse1015`, src/agent/ConsoleInput.cc:158-173. -/
def matchMouse1015 (input : List Nat) : MRes MouseRecord :=
  (expect 0x1B input).bind fun _ r => (expect 91 r).bind fun _ r =>
  (scanInt 8 r).bind fun f r => (expect 59 r).bind fun _ r =>
  (scanSignedInt 8 r).bind fun x r => (expect 59 r).bind fun _ r =>
  (scanSignedInt 8 r).bind fun y r => (final 77 r).bind fun _ r =>
  .ok ⟨false, (f : Int) - 32, toShort (x - 1), toShort (y - 1)⟩ r

/-- `matchMouseRecord`, src/agent/ConsoleInput.cc:179-187: the first matcher whose answer is not 0. -/
def matchMouseRecord (input : List Nat) : MRes MouseRecord :=
  match matchMouse1006 input with
  | .noMatch =>
    match matchMouse1015 input with
    | .noMatch => matchMouseDefault input
    | m => m
  | m => m

/-! ## State -/

/-- Fixed parts of the system: `VkKeyScan` (a `short`; -1 is "no key").
Called at src/agent/ConsoleInput.cc:621. -/
structure Sys where
  vkKeyScan : Nat → Int

/-- What the system answers while one item of input is handled: the console mode
(`GetConsoleMode`, 0 if it fails), `GetTickCount` and `GetDoubleClickTime`.
Called at src/agent/ConsoleInput.cc:398, 570-571, 579 and src/agent/ConsoleInput.cc:844-852. -/
structure Env where
  mode : Nat
  tick : Nat
  doubleClickTime : Nat
deriving DecidableEq, Repr

/-- A `SMALL_RECT`.
src/agent/SmallRect.h:32-37. -/
structure Rect where
  left : Int := 0
  top : Int := 0
  right : Int := 0
  bottom : Int := 0
deriving DecidableEq, Repr

/-- `SmallRect::width`, src/agent/SmallRect.h:113. -/
def Rect.width (r : Rect) : Int := toShort (r.right - r.left + 1)
/-- `SmallRect::height`, src/agent/SmallRect.h:114. -/
def Rect.height (r : Rect) : Int := toShort (r.bottom - r.top + 1)

/-- `DoubleClickDetection`, src/agent/ConsoleInput.h:96-101. -/
structure DoubleClick where
  button : Nat := 0
  x : Int := 0
  y : Int := 0
  tick : Nat := 0
  released : Bool := false
deriving DecidableEq, Repr

/-- The data members of `ConsoleInput` (src/agent/ConsoleInput.h:91-106) that change while scanning,
the local vector `records` of `doWrite`, and the effects so far. -/
structure St where
  dsrSent : Bool := false
  mouseButtonState : Nat := 0
  doubleClick : DoubleClick := {}
  extendedEnabled : Bool := false
  mouseInputEnabled : Bool := false
  quickEditEnabled : Bool := false
  escapeInputEnabled : Bool := false
  rect : Rect := {}
  records : List Rec := []
  out : List Out := []
deriving DecidableEq, Repr

/-- wincon.h.
Used at src/agent/ConsoleInput.cc:398. -/
def ENABLE_PROCESSED_INPUT : Nat := 0x1
/-- wincon.h.
Used at src/agent/ConsoleInput.cc:295. -/
def ENABLE_MOUSE_INPUT : Nat := 0x10
/-- wincon.h.
Used at src/agent/ConsoleInput.cc:223. -/
def ENABLE_INSERT_MODE : Nat := 0x20
/-- wincon.h.
Used at src/agent/ConsoleInput.cc:225-227, 296. -/
def ENABLE_QUICK_EDIT_MODE : Nat := 0x40
/-- wincon.h.
Used at src/agent/ConsoleInput.cc:222, 294. -/
def ENABLE_EXTENDED_FLAGS : Nat := 0x80

/-- `flushInputRecords`, src/agent/ConsoleInput.cc:349-359. -/
def flushInputRecords (s : St) : St :=
  { s with records := [], out := s.out ++ s.records.map .record }

/-- `appendInputRecord`, src/agent/ConsoleInput.cc:826-842. -/
def appendInputRecord (s : St) (down : Bool) (vk ch state : Nat) : St :=
  { s with records := s.records ++ [.key down vk ch state] }

/-- `appendCPInputRecords`, src/agent/ConsoleInput.cc:748-824. -/
def appendCPInputRecords (s : St) (down : Bool) (vk codePoint state : Nat) : St :=
  { s with records := s.records ++ (encodeUtf16 codePoint).map fun u => Rec.key down vk u state }

/-! ## Re-encoding for VT input, src/agent/ConsoleInputReencoding.cc -/

/-- `EscapedKey`, src/agent/ConsoleInputReencoding.cc:39-42. -/
inductive EscapedKey where
  | none
  | numeric (content : List Nat)
  | letter (c : Nat)
deriving DecidableEq, Repr

/-- The `switch` in `reencodeEscapedKeyPress`, src/agent/ConsoleInputReencoding.cc:45-69. -/
def escapedKey (vk : Nat) : EscapedKey :=
  if vk = VK_UP then .letter 65
  else if vk = VK_DOWN then .letter 66
  else if vk = VK_RIGHT then .letter 67
  else if vk = VK_LEFT then .letter 68
  else if vk = VK_CLEAR then .letter 69
  else if vk = VK_F1 then .numeric [49, 49]
  else if vk = VK_F2 then .numeric [49, 50]
  else if vk = VK_F3 then .numeric [49, 51]
  else if vk = VK_F4 then .numeric [49, 52]
  else if vk = VK_F5 then .numeric [49, 53]
  else if vk = VK_F6 then .numeric [49, 55]
  else if vk = VK_F7 then .numeric [49, 56]
  else if vk = VK_F8 then .numeric [49, 57]
  else if vk = VK_F9 then .numeric [50, 48]
  else if vk = VK_F10 then .numeric [50, 49]
  else if vk = VK_F11 then .numeric [50, 51]
  else if vk = VK_F12 then .numeric [50, 52]
  else if vk = VK_HOME then .letter 72
  else if vk = VK_INSERT then .numeric [50]
  else if vk = VK_DELETE then .numeric [51]
  else if vk = VK_END then .letter 70
  else if vk = VK_PRIOR then .numeric [53]
  else if vk = VK_NEXT then .numeric [54]
  else .none

/-- The variable `flags`, src/agent/ConsoleInputReencoding.cc:71-74. -/
def csiFlags (keyState : Nat) : Nat :=
  (if keyState &&& SHIFT_PRESSED ≠ 0 then 1 else 0) |||
  (if keyState &&& LEFT_ALT_PRESSED ≠ 0 then 2 else 0) |||
  (if keyState &&& LEFT_CTRL_PRESSED ≠ 0 then 4 else 0)

/-- The characters `reencodeEscapedKeyPress` sends, src/agent/ConsoleInputReencoding.cc:70-120; each is
one key-down record without virtual key (lines 27-29; for the code point: line 119). -/
def reencodeChars (vk codePoint keyState : Nat) : List Nat :=
  match escapedKey vk with
  | .numeric content =>
    [0x1B, 91] ++ content ++ (if csiFlags keyState ≠ 0 then [59, 49 + csiFlags keyState] else []) ++ [126]
  | .letter c =>
    [0x1B, 91] ++ (if csiFlags keyState ≠ 0 then [49] else []) ++
      (if csiFlags keyState ≠ 0 then [59, 49 + csiFlags keyState] else []) ++ [c]
  | .none =>
    if vk = VK_BACK then (if keyState &&& LEFT_ALT_PRESSED ≠ 0 then [0x1B] else []) ++ [0x7F]
    else if vk = VK_TAB ∧ keyState &&& SHIFT_PRESSED ≠ 0 then [0x1B, 91, 90]
    else if codePoint ≠ 0 then
      (if keyState &&& LEFT_ALT_PRESSED ≠ 0 then [0x1B] else []) ++ encodeUtf16 codePoint
    else []

/-- `reencodeEscapedKeyPress`, src/agent/ConsoleInputReencoding.cc:33-121. -/
def reencodeEscapedKeyPress (s : St) (vk codePoint keyState : Nat) : St :=
  { s with records := s.records ++ (reencodeChars vk codePoint keyState).map fun u => Rec.key true 0 u 0 }

/-! ## Key presses -/

/-- `appendInputRecord` under a condition.
The `if`s of src/agent/ConsoleInput.cc:702-745. -/
def recIf (c : Bool) (s : St) (down : Bool) (vk state : Nat) : St :=
  if c then appendInputRecord s down vk 0 state else s

/-- Is a bit set?.
The tests of src/agent/ConsoleInput.cc:668-672. -/
def has (state bit : Nat) : Bool := state &&& bit != 0

/-- `cond ? state | bit : state`.
The updates of `stepKeyState`, src/agent/ConsoleInput.cc:701-745. -/
def orIf (c : Bool) (state bit : Nat) : Nat := if c then state ||| bit else state

/-- The keys `appendKeyPress` sends as window messages, src/agent/ConsoleInput.cc:685-690. -/
def isArrowKey (vk : Nat) : Bool :=
  vk = VK_UP || vk = VK_DOWN || vk = VK_LEFT || vk = VK_RIGHT || vk = VK_HOME || vk = VK_END

/-- `appendKeyPress`, src/agent/ConsoleInput.cc:660-746.  `stepKeyState` gains a bit before each press
and loses it before each release, so at each point it is the set of modifiers handled so far. -/
def appendKeyPress (s : St) (vk winDn winUp winState vtCodePoint vtState : Nat) : St :=
  let ctrl := has winState LEFT_CTRL_PRESSED
  let lAlt := has winState LEFT_ALT_PRESSED
  let rAlt := has winState RIGHT_ALT_PRESSED
  let shift := has winState SHIFT_PRESSED
  let enh := has winState ENHANCED_KEY
  if s.escapeInputEnabled && isArrowKey vk && !ctrl && !lAlt && !rAlt && !shift then
    let s := flushInputRecords s
    { s with out := s.out ++ [.keyMsg true vk, .keyMsg false vk] }
  else
    let k1 := orIf ctrl 0 LEFT_CTRL_PRESSED
    let s := recIf ctrl s true VK_CONTROL k1
    let k2 := orIf lAlt k1 LEFT_ALT_PRESSED
    let s := recIf lAlt s true VK_MENU k2
    let k3 := orIf rAlt k2 RIGHT_ALT_PRESSED
    let s := recIf rAlt s true VK_MENU (k3 ||| ENHANCED_KEY)
    let k4 := orIf shift k3 SHIFT_PRESSED
    let s := recIf shift s true VK_SHIFT k4
    let k5 := orIf enh k4 ENHANCED_KEY
    let s := if s.escapeInputEnabled then reencodeEscapedKeyPress s vk vtCodePoint vtState
      else appendCPInputRecords s true vk winDn k5
    let s := appendCPInputRecords s false vk winUp k5
    let s := recIf shift s false VK_SHIFT k3
    let s := recIf rAlt s false VK_MENU (k2 ||| ENHANCED_KEY)
    let s := recIf lAlt s false VK_MENU k1
    recIf ctrl s false VK_CONTROL 0

/-- The modifier bits taken from `charScan`, src/agent/ConsoleInput.cc:630-638. -/
def scanState (charScan : Nat) : Nat :=
  (if charScan &&& 0x100 ≠ 0 then SHIFT_PRESSED else 0) |||
  (if charScan &&& 0x200 ≠ 0 then LEFT_CTRL_PRESSED else 0) |||
  (if charScan &&& 0x400 ≠ 0 then RIGHT_ALT_PRESSED else 0)

/-- The part of `appendUtf8Char` after decoding, src/agent/ConsoleInput.cc:621-657. -/
def appendChar (sys : Sys) (s : St) (codePoint : Nat) (alt : Bool) : St :=
  let charScan : Int := if codePoint > 0xFFFF then -1 else sys.vkKeyScan codePoint
  let vk := if charScan ≠ -1 then toUnsigned 16 charScan &&& 0xFF else 0
  let winState := if charScan ≠ -1 then scanState (toUnsigned 16 charScan) else 0
  let cut := charScan ≠ -1 ∧ alt ∧ winState &&& LEFT_CTRL_PRESSED ≠ 0
  let dn := if cut then 0 else codePoint
  let up := if cut ∨ alt then 0 else codePoint
  appendKeyPress s vk dn up (if alt then winState ||| LEFT_ALT_PRESSED else winState)
    codePoint (if alt then LEFT_ALT_PRESSED else 0)

/-- `appendUtf8Char`, src/agent/ConsoleInput.cc:601-658, on the bytes from `charBuffer` on; `none` is a
read past the end of the input. -/
def appendUtf8Char (sys : Sys) (s : St) (bytes : List Nat) (alt : Bool) : Option St :=
  match decodeUtf8 bytes with
  | .oob => none
  | .invalid => some s
  | .ok codePoint => some (appendChar sys s codePoint alt)

/-! ## Mouse input -/

/-- wincon.h.
Used at src/agent/ConsoleInput.cc:547. -/
def FROM_LEFT_1ST_BUTTON_PRESSED : Nat := 0x1
/-- wincon.h.
Used at src/agent/ConsoleInput.cc:549. -/
def RIGHTMOST_BUTTON_PRESSED : Nat := 0x2
/-- wincon.h.
Used at src/agent/ConsoleInput.cc:548. -/
def FROM_LEFT_2ND_BUTTON_PRESSED : Nat := 0x4
/-- wincon.h.
Used at src/agent/ConsoleInput.cc:540. -/
def MOUSE_MOVED : Nat := 0x1
/-- wincon.h.
Used at src/agent/ConsoleInput.cc:573. -/
def DOUBLE_CLICK : Nat := 0x2
/-- wincon.h.
Used at src/agent/ConsoleInput.cc:527. -/
def MOUSE_WHEELED : Nat := 0x4

/-- `relevantFlag`, src/agent/ConsoleInput.cc:546-551. -/
def relevantFlag (button : Nat) : Nat :=
  if button = 0 then FROM_LEFT_1ST_BUTTON_PRESSED
  else if button = 1 then FROM_LEFT_2ND_BUTTON_PRESSED
  else RIGHTMOST_BUTTON_PRESSED

/-- The ordinary-event branch of `scanMouseInput` below the `MOUSE_MOVED` line,
src/agent/ConsoleInput.cc:541-582 (`flag` is the button's bit): new button state, new double-click
state, whether `DOUBLE_CLICK` is set.  `GetTickCount() - tick` is a 32-bit subtraction. -/
def mouseButton (env : Env) (btn : Nat) (dc : DoubleClick) (r : MouseRecord) (button : Nat) :
    Nat × DoubleClick × Bool :=
  if button = 3 then (0, { dc with released := true }, false)
  else
    let flag := relevantFlag button
    if r.release then
      (btn &&& (0xFFFFFFFF - flag), if flag = dc.button then { dc with released := true } else {}, false)
    else if btn &&& flag = 0 then
      if dc.button = flag ∧ (dc.x = r.x ∧ dc.y = r.y) ∧
          (env.tick + 2 ^ 32 - dc.tick) % 2 ^ 32 < env.doubleClickTime then
        (btn ||| flag, {}, true)
      else
        (btn ||| flag, { dc with button := flag, x := r.x, y := r.y, tick := env.tick }, false)
    else (btn, dc, false)

/-- `dwMousePosition`, src/agent/ConsoleInput.cc:510-518. -/
def mousePos (left width coord : Int) : Int := toShort (left + max 0 (min coord (width - 1)))

/-- `dwControlKeyState`, src/agent/ConsoleInput.cc:521-523. -/
def mouseCtrl (flags : Nat) : Nat :=
  (if flags &&& 4 ≠ 0 then SHIFT_PRESSED else 0) |||
  (if flags &&& 8 ≠ 0 then LEFT_ALT_PRESSED else 0) |||
  (if flags &&& 0x10 ≠ 0 then LEFT_CTRL_PRESSED else 0)

/-- Appending the record if the console wants mouse input, src/agent/ConsoleInput.cc:587-596. -/
def pushMouse (s : St) (r : Rec) : St :=
  if s.mouseInputEnabled && !s.quickEditEnabled then { s with records := s.records ++ [r] } else s

/-- `scanMouseInput` after a match, src/agent/ConsoleInput.cc:505-598. -/
def handleMouse (env : Env) (s : St) (r : MouseRecord) : St :=
  let flags := toUnsigned 32 r.flags
  let button := flags &&& 3
  let x := mousePos s.rect.left s.rect.width r.x
  let y := mousePos s.rect.top s.rect.height r.y
  if flags &&& 0x40 ≠ 0 then
    if button = 0 then
      pushMouse s (.mouse x y (0x00780000 ||| s.mouseButtonState) MOUSE_WHEELED (mouseCtrl flags))
    else if button = 1 then
      pushMouse s (.mouse x y (0xff880000 ||| s.mouseButtonState) MOUSE_WHEELED (mouseCtrl flags))
    else s
  else
    let res := mouseButton env s.mouseButtonState s.doubleClick r button
    let s := { s with mouseButtonState := res.1, doubleClick := res.2.1 }
    pushMouse s (.mouse x y res.1
      ((if flags &&& 0x20 ≠ 0 then MOUSE_MOVED else 0) ||| (if res.2.2 then DOUBLE_CLICK else 0))
      (mouseCtrl flags))

/-! ## Scanning -/

/-- What `scanInput` answers: -1, a number of bytes consumed (with the new state), or a read outside
the input / failed `ASSERT` (never happens, see `Props/ConsoleInput.lean`).
The exits of src/agent/ConsoleInput.cc:380-486. -/
inductive Scan where
  | incomplete
  | consumed (n : Nat) (s : St)
  | bad
deriving DecidableEq, Repr

/-- The last part of `scanInput`: a UTF-8 character, src/agent/ConsoleInput.cc:469-485. -/
def scanUtf8 (sys : Sys) (s : St) (input : List Nat) : Scan :=
  match input with
  | [] => .bad
  | b :: _ =>
    if utf8CharLength b = 0 then .consumed 1 s
    else if utf8CharLength b > input.length then .incomplete
    else
      match appendUtf8Char sys s input false with
      | none => .bad
      | some s => .consumed (utf8CharLength b) s

/-- The Alt-character part of `scanInput`, src/agent/ConsoleInput.cc:449-467. -/
def scanAlt (sys : Sys) (s : St) (input : List Nat) : Scan :=
  match input with
  | 0x1B :: b :: r =>
    if b ≠ 0x1B ∧ utf8CharLength b > 0 then
      if 1 + utf8CharLength b > input.length then .incomplete
      else
        match appendUtf8Char sys s (b :: r) true with
        | none => .bad
        | some s => .consumed (1 + utf8CharLength b) s
    else scanUtf8 sys s input
  | _ => scanUtf8 sys s input

/-- The key press for a match in the input map, src/agent/ConsoleInput.cc:435-445. -/
def appendMatch (s : St) (k : Key) : St :=
  let dn := if has k.keyState LEFT_CTRL_PRESSED && has k.keyState LEFT_ALT_PRESSED then 0 else k.unicodeChar
  let up := if has k.keyState LEFT_ALT_PRESSED then 0 else dn
  appendKeyPress s k.virtualKey dn up k.keyState k.unicodeChar k.keyState

/-- The input-map part of `scanInput`, src/agent/ConsoleInput.cc:425-447. -/
def scanMap (sys : Sys) (root : Node) (s : St) (input : List Nat) (isEof : Bool) : Scan :=
  if !isEof && (lookupKey root input).incomplete then .incomplete
  else if (lookupKey root input).len > 0 then
    .consumed (lookupKey root input).len (appendMatch s (lookupKey root input).key)
  else scanAlt sys s input

/-- The mouse part of `scanInput` (src/agent/ConsoleInput.cc:419-422) with `scanMouseInput`
(src/agent/ConsoleInput.cc:488-499). -/
def scanMouse (sys : Sys) (root : Node) (env : Env) (s : St) (input : List Nat) (isEof : Bool) : Scan :=
  match matchMouseRecord input with
  | .overRead => .bad
  | .ok r rest => .consumed (input.length - rest.length) (handleMouse env s r)
  | .incomplete => if isEof then scanMap sys root s input isEof else .incomplete
  | .noMatch => scanMap sys root s input isEof

/-- The escape-sequence part of `scanInput`, src/agent/ConsoleInput.cc:406-423. -/
def scanEsc (sys : Sys) (root : Node) (env : Env) (s : St) (input : List Nat) (isEof : Bool) : Scan :=
  match matchDsr input with
  | .overRead => .bad
  | .ok _ rest => .consumed (input.length - rest.length) { s with dsrSent := false }
  | .incomplete => if isEof then scanMouse sys root env s input isEof else .incomplete
  | .noMatch => scanMouse sys root env s input isEof

/-- `scanInput`, src/agent/ConsoleInput.cc:380-486. -/
def scanInput (sys : Sys) (root : Node) (env : Env) (s : St) (input : List Nat) (isEof : Bool) : Scan :=
  match input with
  | [] => .bad
  | b :: _ =>
    if b = 3 ∧ env.mode &&& ENABLE_PROCESSED_INPUT ≠ 0 then
      .consumed 1 { flushInputRecords s with out := (flushInputRecords s).out ++ [.ctrlC] }
    else if b = 0x1B then scanEsc sys root env s input isEof
    else scanMap sys root s input isEof

/-- The loop of `doWrite`, src/agent/ConsoleInput.cc:338-344: the bytes left and the state.
`env i` is what the system reports when the item at offset `i` of the input stream is handled, `pos`
the offset of the first pending byte.  `fuel` bounds the number of iterations; the length of the queue
is always enough because every iteration consumes a byte (`Props/ConsoleInput.lean`).  `none`: `bad`. -/
def scanLoop (sys : Sys) (root : Node) (env : Nat → Env) (isEof : Bool) :
    Nat → Nat → St → List Nat → Option (St × List Nat)
  | _, _, s, [] => some (s, [])
  | 0, _, _, _ :: _ => none
  | fuel + 1, pos, s, b :: q =>
    match scanInput sys root (env pos) s (b :: q) isEof with
    | .bad => none
    | .incomplete => some (s, b :: q)
    | .consumed n s' => scanLoop sys root env isEof fuel (pos + n) s' ((b :: q).drop n)

/-- `doWrite`, src/agent/ConsoleInput.cc:334-347. -/
def doWrite (sys : Sys) (root : Node) (env : Nat → Env) (isEof : Bool) (pos : Nat) (s : St)
    (queue : List Nat) : Option (St × List Nat) :=
  match scanLoop sys root env isEof queue.length pos s queue with
  | none => none
  | some (s', q') => some (flushInputRecords s', q')

/-! ## The public operations -/

/-- A whole `ConsoleInput` object: the scanning state, `m_byteQueue`, `m_lastWriteTick`, `m_mouseMode`,
and (not in the code) the offset in the input stream of the first queued byte.
src/agent/ConsoleInput.h:86-106. -/
structure Obj where
  st : St := {}
  queue : List Nat := []
  pos : Nat := 0
  lastTick : Nat := 0
  mouseMode : Nat := 0
deriving DecidableEq, Repr

/-- `writeInput`, src/agent/ConsoleInput.cc:237-280; `now` is the final `GetTickCount`. -/
def writeInput (sys : Sys) (root : Node) (env : Nat → Env) (now : Nat) (o : Obj) (input : List Nat) :
    Option Obj :=
  if input.length = 0 then some o
  else
    match doWrite sys root env false o.pos o.st (o.queue ++ input) with
    | none => none
    | some (s, q) =>
      if q ≠ [] ∧ ¬ s.dsrSent then
        some { o with
          st := { s with dsrSent := true, out := s.out ++ [.dsr] }
          queue := q
          pos := o.pos + ((o.queue ++ input).length - q.length)
          lastTick := now }
      else
        some { o with
          st := s
          queue := q
          pos := o.pos + ((o.queue ++ input).length - q.length)
          lastTick := now }

/-- `kIncompleteEscapeTimeoutMs`, src/agent/ConsoleInput.cc:67. -/
def kIncompleteEscapeTimeoutMs : Nat := 1000

/-- `flushIncompleteEscapeCode`, src/agent/ConsoleInput.cc:282-289. -/
def flushIncompleteEscapeCode (sys : Sys) (root : Node) (env : Nat → Env) (now : Nat) (o : Obj) :
    Option Obj :=
  if o.queue ≠ [] ∧ (now + 2 ^ 32 - o.lastTick) % 2 ^ 32 > kIncompleteEscapeTimeoutMs then
    match doWrite sys root env true o.pos o.st o.queue with
    | none => none
    | some (s, _) => some { o with st := s, queue := [], pos := o.pos + o.queue.length }
  else some o

/-- `updateInputFlags`, src/agent/ConsoleInput.cc:291-313. -/
def updateInputFlags (mode : Nat) (s : St) : St :=
  { s with
    extendedEnabled := has mode ENABLE_EXTENDED_FLAGS
    mouseInputEnabled := has mode ENABLE_MOUSE_INPUT
    quickEditEnabled := has mode ENABLE_QUICK_EDIT_MODE
    escapeInputEnabled := has mode 0x200 }

/-- `shouldActivateTerminalMouse`, src/agent/ConsoleInput.cc:315-332 (`AUTO` is 1, `FORCE` 2). -/
def shouldActivateTerminalMouse (o : Obj) : Bool :=
  if o.mouseMode = 1 then
    o.st.mouseInputEnabled && !o.st.quickEditEnabled && o.st.extendedEnabled
  else if o.mouseMode = 2 then true
  else false

/-- The console mode set by the constructor, src/agent/ConsoleInput.cc:218-232. -/
def startupMode (mouseMode mode : Nat) : Nat :=
  if mouseMode = 1 then
    mode ||| ENABLE_EXTENDED_FLAGS ||| ENABLE_INSERT_MODE ||| ENABLE_QUICK_EDIT_MODE
  else (mode ||| ENABLE_EXTENDED_FLAGS ||| ENABLE_INSERT_MODE) &&& (0xFFFFFFFF - ENABLE_QUICK_EDIT_MODE)

end Winpty.ConsoleInput
