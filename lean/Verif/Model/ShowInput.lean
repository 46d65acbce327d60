import Verif.Model.StringBuilder

/-!
# Model of the console input dump, `winpty-agent --show-input`

`src/agent/DebugShowInput.cc` and `InputMap::Key::toString` (src/agent/InputMap.cc).

Characters are their codes (`Nat`).  The values of the Windows constants are those of the Windows
headers.  A `BOOL` field is a `Bool`.  What the console answers (its mode, whether a mode can be set, what
each call of `ReadConsoleInputW` delivers) is a parameter.
-/
namespace Winpty.ShowInput
open Winpty.StringBuilder (decText hexText)

/-- Codes of the characters of a string literal. -/
def text (s : List Char) : List Nat := s.map Char.toNat

/-- `Flag`, src/agent/DebugShowInput.cc:35-38. -/
structure Flag where
  value : Nat
  name : List Nat
deriving DecidableEq

/-- `kButtonStates`, src/agent/DebugShowInput.cc:40-46. -/
def buttonStates : List Flag :=
  [⟨0x1, text ['1']⟩,
   ⟨0x4, text ['2']⟩,
   ⟨0x8, text ['3']⟩,
   ⟨0x10, text ['4']⟩,
   ⟨0x2, text ['R']⟩]

/-- `kControlKeyStates`, src/agent/DebugShowInput.cc:48-58. -/
def controlKeyStates : List Flag :=
  [⟨0x80, text ['C', 'a', 'p', 's', 'L', 'o', 'c', 'k']⟩,
   ⟨0x100, text ['E', 'n', 'h', 'a', 'n', 'c', 'e', 'd']⟩,
   ⟨0x2, text ['L', 'A', 'l', 't']⟩,
   ⟨0x8, text ['L', 'C', 't', 'r', 'l']⟩,
   ⟨0x20, text ['N', 'u', 'm', 'L', 'o', 'c', 'k']⟩,
   ⟨0x1, text ['R', 'A', 'l', 't']⟩,
   ⟨0x4, text ['R', 'C', 't', 'r', 'l']⟩,
   ⟨0x40, text ['S', 'c', 'r', 'o', 'l', 'l', 'L', 'o', 'c', 'k']⟩,
   ⟨0x10, text ['S', 'h', 'i', 'f', 't']⟩]

/-- `kMouseEventFlags`, src/agent/DebugShowInput.cc:60-65. -/
def mouseEventFlags : List Flag :=
  [⟨0x2, text ['D', 'o', 'u', 'b', 'l', 'e']⟩,
   ⟨0x8, text ['H', 'W', 'h', 'e', 'e', 'l']⟩,
   ⟨0x1, text ['M', 'o', 'v', 'e']⟩,
   ⟨0x4, text ['W', 'h', 'e', 'e', 'l']⟩]

/-- The variables `out`, `remaining` and `wroteSomething` of `writeFlags`,
src/agent/DebugShowInput.cc:67-72 (`out`: what `writeFlags` has appended). -/
structure Writing where
  out : List Nat
  remaining : Nat
  wrote : Bool

/-- What is written in front of a flag, src/agent/DebugShowInput.cc:76-80 and 87-91. -/
def lead (pre sep : Nat) (wrote : Bool) : List Nat :=
  if !wrote && pre != 0 then [pre]
  else if wrote && sep != 0 then [sep]
  else []

/-- One turn of the loop of `writeFlags`, src/agent/DebugShowInput.cc:73-85; `~f.value` is the complement
in 32 bits. -/
def flagStep (flags pre sep : Nat) (w : Writing) (f : Flag) : Writing :=
  if f.value &&& flags = f.value then
    ⟨w.out ++ lead pre sep w.wrote ++ f.name, w.remaining &&& (0xFFFFFFFF - f.value), true⟩
  else w

/-- The remainder, src/agent/DebugShowInput.cc:86-94. -/
def remainderStep (remainderName : List Nat) (pre sep : Nat) (w : Writing) : Writing :=
  if w.remaining ≠ 0 then
    ⟨w.out ++ lead pre sep w.wrote ++ remainderName ++ text ['(', '0', 'x'] ++ hexText false 4 w.remaining ++ text [')'],
      w.remaining, true⟩
  else w

/-- `writeFlags`, src/agent/DebugShowInput.cc:67-106 (both overloads); a separator 0 is not written. -/
def writeFlags (flags : Nat) (remainderName : List Nat) (table : List Flag) (pre sep post : Nat) : List Nat :=
  let w := remainderStep remainderName pre sep (table.foldl (flagStep flags pre sep) ⟨[], flags, false⟩)
  if w.wrote && post != 0 then w.out ++ [post] else w.out

/-- `controlKeyStatePrefix`, src/agent/DebugShowInput.cc:110-115. -/
def controlKeyStatePrefix (state : Nat) : List Nat :=
  writeFlags state (text ['k', 'e', 'y', 'S', 't', 'a', 't', 'e']) controlKeyStates 0 45 45

/-- The table of `getVirtualKeyString`, src/agent/InputMap.cc:37-111. -/
def virtualKeyNames : List (Nat × List Char) :=
  [(0x2, ['R', 'B', 'U', 'T', 'T', 'O', 'N']),
   (0x78, ['F', '9']),
   (0x3, ['C', 'A', 'N', 'C', 'E', 'L']),
   (0x79, ['F', '1', '0']),
   (0x4, ['M', 'B', 'U', 'T', 'T', 'O', 'N']),
   (0x7A, ['F', '1', '1']),
   (0x5, ['X', 'B', 'U', 'T', 'T', 'O', 'N', '1']),
   (0x7B, ['F', '1', '2']),
   (0x6, ['X', 'B', 'U', 'T', 'T', 'O', 'N', '2']),
   (0x7C, ['F', '1', '3']),
   (0x8, ['B', 'A', 'C', 'K']),
   (0x7D, ['F', '1', '4']),
   (0x9, ['T', 'A', 'B']),
   (0x7E, ['F', '1', '5']),
   (0xC, ['C', 'L', 'E', 'A', 'R']),
   (0x7F, ['F', '1', '6']),
   (0xD, ['R', 'E', 'T', 'U', 'R', 'N']),
   (0x80, ['F', '1', '7']),
   (0x10, ['S', 'H', 'I', 'F', 'T']),
   (0x81, ['F', '1', '8']),
   (0x11, ['C', 'O', 'N', 'T', 'R', 'O', 'L']),
   (0x82, ['F', '1', '9']),
   (0x12, ['M', 'E', 'N', 'U']),
   (0x83, ['F', '2', '0']),
   (0x13, ['P', 'A', 'U', 'S', 'E']),
   (0x84, ['F', '2', '1']),
   (0x14, ['C', 'A', 'P', 'I', 'T', 'A', 'L']),
   (0x85, ['F', '2', '2']),
   (0x15, ['H', 'A', 'N', 'G', 'U', 'L']),
   (0x86, ['F', '2', '3']),
   (0x17, ['J', 'U', 'N', 'J', 'A']),
   (0x87, ['F', '2', '4']),
   (0x18, ['F', 'I', 'N', 'A', 'L']),
   (0x90, ['N', 'U', 'M', 'L', 'O', 'C', 'K']),
   (0x19, ['K', 'A', 'N', 'J', 'I']),
   (0x91, ['S', 'C', 'R', 'O', 'L', 'L']),
   (0x1B, ['E', 'S', 'C', 'A', 'P', 'E']),
   (0xA0, ['L', 'S', 'H', 'I', 'F', 'T']),
   (0x1C, ['C', 'O', 'N', 'V', 'E', 'R', 'T']),
   (0xA1, ['R', 'S', 'H', 'I', 'F', 'T']),
   (0x1D, ['N', 'O', 'N', 'C', 'O', 'N', 'V', 'E', 'R', 'T']),
   (0xA2, ['L', 'C', 'O', 'N', 'T', 'R', 'O', 'L']),
   (0x1E, ['A', 'C', 'C', 'E', 'P', 'T']),
   (0xA3, ['R', 'C', 'O', 'N', 'T', 'R', 'O', 'L']),
   (0x1F, ['M', 'O', 'D', 'E', 'C', 'H', 'A', 'N', 'G', 'E']),
   (0xA4, ['L', 'M', 'E', 'N', 'U']),
   (0x20, ['S', 'P', 'A', 'C', 'E']),
   (0xA5, ['R', 'M', 'E', 'N', 'U']),
   (0x21, ['P', 'R', 'I', 'O', 'R']),
   (0xA6, ['B', 'R', 'O', 'W', 'S', 'E', 'R', '_', 'B', 'A', 'C', 'K']),
   (0x22, ['N', 'E', 'X', 'T']),
   (0xA7, ['B', 'R', 'O', 'W', 'S', 'E', 'R', '_', 'F', 'O', 'R', 'W', 'A', 'R', 'D']),
   (0x23, ['E', 'N', 'D']),
   (0xA8, ['B', 'R', 'O', 'W', 'S', 'E', 'R', '_', 'R', 'E', 'F', 'R', 'E', 'S', 'H']),
   (0x24, ['H', 'O', 'M', 'E']),
   (0xA9, ['B', 'R', 'O', 'W', 'S', 'E', 'R', '_', 'S', 'T', 'O', 'P']),
   (0x25, ['L', 'E', 'F', 'T']),
   (0xAA, ['B', 'R', 'O', 'W', 'S', 'E', 'R', '_', 'S', 'E', 'A', 'R', 'C', 'H']),
   (0x26, ['U', 'P']),
   (0xAB, ['B', 'R', 'O', 'W', 'S', 'E', 'R', '_', 'F', 'A', 'V', 'O', 'R', 'I', 'T', 'E', 'S']),
   (0x27, ['R', 'I', 'G', 'H', 'T']),
   (0xAC, ['B', 'R', 'O', 'W', 'S', 'E', 'R', '_', 'H', 'O', 'M', 'E']),
   (0x28, ['D', 'O', 'W', 'N']),
   (0xAD, ['V', 'O', 'L', 'U', 'M', 'E', '_', 'M', 'U', 'T', 'E']),
   (0x29, ['S', 'E', 'L', 'E', 'C', 'T']),
   (0xAE, ['V', 'O', 'L', 'U', 'M', 'E', '_', 'D', 'O', 'W', 'N']),
   (0x2A, ['P', 'R', 'I', 'N', 'T']),
   (0xAF, ['V', 'O', 'L', 'U', 'M', 'E', '_', 'U', 'P']),
   (0x2B, ['E', 'X', 'E', 'C', 'U', 'T', 'E']),
   (0xB0, ['M', 'E', 'D', 'I', 'A', '_', 'N', 'E', 'X', 'T', '_', 'T', 'R', 'A', 'C', 'K']),
   (0x2C, ['S', 'N', 'A', 'P', 'S', 'H', 'O', 'T']),
   (0xB1, ['M', 'E', 'D', 'I', 'A', '_', 'P', 'R', 'E', 'V', '_', 'T', 'R', 'A', 'C', 'K']),
   (0x2D, ['I', 'N', 'S', 'E', 'R', 'T']),
   (0xB2, ['M', 'E', 'D', 'I', 'A', '_', 'S', 'T', 'O', 'P']),
   (0x2E, ['D', 'E', 'L', 'E', 'T', 'E']),
   (0xB3, ['M', 'E', 'D', 'I', 'A', '_', 'P', 'L', 'A', 'Y', '_', 'P', 'A', 'U', 'S', 'E']),
   (0x2F, ['H', 'E', 'L', 'P']),
   (0xB4, ['L', 'A', 'U', 'N', 'C', 'H', '_', 'M', 'A', 'I', 'L']),
   (0x5B, ['L', 'W', 'I', 'N']),
   (0xB5, ['L', 'A', 'U', 'N', 'C', 'H', '_', 'M', 'E', 'D', 'I', 'A', '_', 'S', 'E', 'L', 'E', 'C', 'T']),
   (0x5C, ['R', 'W', 'I', 'N']),
   (0xB6, ['L', 'A', 'U', 'N', 'C', 'H', '_', 'A', 'P', 'P', '1']),
   (0x5D, ['A', 'P', 'P', 'S']),
   (0xB7, ['L', 'A', 'U', 'N', 'C', 'H', '_', 'A', 'P', 'P', '2']),
   (0x5F, ['S', 'L', 'E', 'E', 'P']),
   (0xBA, ['O', 'E', 'M', '_', '1']),
   (0x60, ['N', 'U', 'M', 'P', 'A', 'D', '0']),
   (0xBB, ['O', 'E', 'M', '_', 'P', 'L', 'U', 'S']),
   (0x61, ['N', 'U', 'M', 'P', 'A', 'D', '1']),
   (0xBC, ['O', 'E', 'M', '_', 'C', 'O', 'M', 'M', 'A']),
   (0x62, ['N', 'U', 'M', 'P', 'A', 'D', '2']),
   (0xBD, ['O', 'E', 'M', '_', 'M', 'I', 'N', 'U', 'S']),
   (0x63, ['N', 'U', 'M', 'P', 'A', 'D', '3']),
   (0xBE, ['O', 'E', 'M', '_', 'P', 'E', 'R', 'I', 'O', 'D']),
   (0x64, ['N', 'U', 'M', 'P', 'A', 'D', '4']),
   (0xBF, ['O', 'E', 'M', '_', '2']),
   (0x65, ['N', 'U', 'M', 'P', 'A', 'D', '5']),
   (0xC0, ['O', 'E', 'M', '_', '3']),
   (0x66, ['N', 'U', 'M', 'P', 'A', 'D', '6']),
   (0xDB, ['O', 'E', 'M', '_', '4']),
   (0x67, ['N', 'U', 'M', 'P', 'A', 'D', '7']),
   (0xDC, ['O', 'E', 'M', '_', '5']),
   (0x68, ['N', 'U', 'M', 'P', 'A', 'D', '8']),
   (0xDD, ['O', 'E', 'M', '_', '6']),
   (0x69, ['N', 'U', 'M', 'P', 'A', 'D', '9']),
   (0xDE, ['O', 'E', 'M', '_', '7']),
   (0x6A, ['M', 'U', 'L', 'T', 'I', 'P', 'L', 'Y']),
   (0xDF, ['O', 'E', 'M', '_', '8']),
   (0x6B, ['A', 'D', 'D']),
   (0xE2, ['O', 'E', 'M', '_', '1', '0', '2']),
   (0x6C, ['S', 'E', 'P', 'A', 'R', 'A', 'T', 'O', 'R']),
   (0xE5, ['P', 'R', 'O', 'C', 'E', 'S', 'S', 'K', 'E', 'Y']),
   (0x6D, ['S', 'U', 'B', 'T', 'R', 'A', 'C', 'T']),
   (0xE7, ['P', 'A', 'C', 'K', 'E', 'T']),
   (0x6E, ['D', 'E', 'C', 'I', 'M', 'A', 'L']),
   (0xF6, ['A', 'T', 'T', 'N']),
   (0x6F, ['D', 'I', 'V', 'I', 'D', 'E']),
   (0xF7, ['C', 'R', 'S', 'E', 'L']),
   (0x70, ['F', '1']),
   (0xF8, ['E', 'X', 'S', 'E', 'L']),
   (0x71, ['F', '2']),
   (0xF9, ['E', 'R', 'E', 'O', 'F']),
   (0x72, ['F', '3']),
   (0xFA, ['P', 'L', 'A', 'Y']),
   (0x73, ['F', '4']),
   (0xFB, ['Z', 'O', 'O', 'M']),
   (0x74, ['F', '5']),
   (0xFC, ['N', 'O', 'N', 'A', 'M', 'E']),
   (0x75, ['F', '6']),
   (0xFD, ['P', 'A', '1']),
   (0x76, ['F', '7']),
   (0xFE, ['O', 'E', 'M', '_', 'C', 'L', 'E', 'A', 'R']),
   (0x77, ['F', '8'])]

/-- `getVirtualKeyString`, src/agent/InputMap.cc:37-111. -/
def virtualKeyString (vk : Nat) : Option (List Nat) :=
  (virtualKeyNames.find? (fun p => p.1 == vk)).map (fun p => text p.2)

/-- `printf` of an unsigned value with the format `%#x`: the prefix is left out for zero. -/
def printHex (v : Nat) : List Nat :=
  if v = 0 then text ['0'] else text ['0', 'x'] ++ hexText false 4 v

/-- The name of the key in `InputMap::Key::toString`, src/agent/InputMap.cc:118-128. -/
def keyName (vk : Nat) : List Nat :=
  match virtualKeyString vk with
  | some s => s
  | none => if (65 ≤ vk ∧ vk ≤ 90) ∨ (48 ≤ vk ∧ vk ≤ 57) then [vk] else printHex vk

/-- The character in `InputMap::Key::toString`, src/agent/InputMap.cc:129-136. -/
def charText (ch : Nat) : List Nat :=
  if 32 ≤ ch ∧ ch ≤ 126 then text [' ', 'c', 'h', '=', '\''] ++ [ch] ++ text ['\'']
  else text [' ', 'c', 'h', '='] ++ printHex ch

/-- `InputMap::Key::toString`, src/agent/InputMap.cc:115-138. -/
def keyToString (vk ch state : Nat) : List Nat :=
  controlKeyStatePrefix state ++ keyName vk ++ charText ch

/-- The value of the upper 16 bits of a 32-bit value as an `int16_t`,
src/agent/DebugShowInput.cc:119. -/
def wheelOf (buttonState : Nat) : Int :=
  if buttonState / 65536 % 65536 < 32768 then (buttonState / 65536 % 65536 : Nat)
  else (buttonState / 65536 % 65536 : Nat) - 65536

/-- `mouseEventToString`, src/agent/DebugShowInput.cc:117-130. -/
def mouseEventToString (x y : Int) (buttonState keyState flags : Nat) : List Nat :=
  text ['p', 'o', 's', '='] ++ decText 2 x ++ text [','] ++ decText 2 y ++
    writeFlags keyState (text ['k', 'e', 'y', 'S', 't', 'a', 't', 'e']) controlKeyStates 32 32 0 ++
    writeFlags flags (text ['f', 'l', 'a', 'g', 's']) mouseEventFlags 32 32 0 ++
    writeFlags (buttonState &&& 0xFFFF) (text ['b', 'u', 't', 't', 'o', 'n', 's']) buttonStates 32 32 0 ++
    (if wheelOf buttonState ≠ 0 then text [' ', 'w', 'h', 'e', 'e', 'l', '='] ++ decText 2 (wheelOf buttonState) else [])

/-- `INPUT_RECORD`: the fields the dump uses. -/
inductive Record where
  | key (down : Bool) (rpt vk scan ch state : Nat)
  | mouse (x y : Int) (buttonState state flags : Nat)
  | bufferSize (x y : Int)
  | menu (commandId : Nat)
  | focus (gained : Bool)
  | other
deriving DecidableEq

/-- The text for one record, src/agent/DebugShowInput.cc:190-231. -/
def lineOf : Record → List Nat
  | .key down rpt vk scan ch state =>
    text ['k', 'e', 'y', ':', ' '] ++ text (if down then ['d', 'n'] else ['u', 'p']) ++
      text [' ', 'r', 'p', 't', '='] ++ decText 2 rpt ++
      text [' ', 's', 'c', 'n', '='] ++ text (if scan ≠ 0 then ['0', 'x'] else []) ++ hexText false 2 scan ++
      text [' '] ++ keyToString vk ch (state % 65536) ++ text ['\n']
  | .mouse x y buttonState state flags =>
    text ['m', 'o', 'u', 's', 'e', ':', ' '] ++ mouseEventToString x y buttonState state flags ++ text ['\n']
  | .bufferSize x y =>
    text ['b', 'u', 'f', 'f', 'e', 'r', '-', 'r', 'e', 's', 'i', 'z', 'e', 'd', ':', ' ', 'd', 'w', 'S', 'i', 'z', 'e', '=', '('] ++
      decText 2 x ++ text [','] ++ decText 2 y ++ text [')', '\n']
  | .menu commandId =>
    text ['m', 'e', 'n', 'u', '-', 'e', 'v', 'e', 'n', 't', ':', ' ', 'c', 'o', 'm', 'm', 'a', 'n', 'd', 'I', 'd', '=', '0', 'x'] ++
      hexText false 4 commandId ++ text ['\n']
  | .focus gained =>
    text ['f', 'o', 'c', 'u', 's', ':', ' '] ++
      text (if gained then ['g', 'a', 'i', 'n', 'e', 'd'] else ['l', 'o', 's', 't']) ++ text ['\n']
  | .other => []

/-- The two tests that end the dump, src/agent/DebugShowInput.cc:202-214; the control keys are
0x8 (left) and 0x4 (right). -/
def isLast : Record → Bool
  | .key _ _ vk scan ch state =>
    (state &&& (0x8 ||| 0x4) != 0 && vk == 68) || (vk == 0 && scan == 0 && ch == 4)
  | _ => false

/-- The loop over the records of one read, src/agent/DebugShowInput.cc:188-232: the text and `finished`. -/
def dumpRecords : List Record → List Nat × Bool
  | [] => ([], false)
  | r :: rs =>
    if isLast r then (lineOf r, true)
    else (lineOf r ++ (dumpRecords rs).1, (dumpRecords rs).2)

/-- `restoreConsoleMode`, src/agent/DebugShowInput.cc:140-151. -/
def restoreMode (mouse : Bool) (orig : Nat) : Nat :=
  if mouse && orig &&& 0x80 == 0 then orig ||| 0x80 ||| 0x40 ||| 0x20 else orig

/-- `newConsoleMode`, src/agent/DebugShowInput.cc:152-173. -/
def newMode (mouse escape : Bool) (restore : Nat) : Nat :=
  let m := restore &&& (0xFFFFFFFF - 0x1)
  let m := m &&& (0xFFFFFFFF - 0x2)
  let m := m &&& (0xFFFFFFFF - 0x4)
  let m := m ||| 0x8
  let m := if mouse then (m ||| 0x10) &&& (0xFFFFFFFF - 0x40) else m &&& (0xFFFFFFFF - 0x10)
  if escape then m ||| 0x200 else m

/-- What the dump does, in order: it sets a mode (`ok`: the call succeeded) or writes to the standard
output. -/
inductive Act where
  | setMode (mode : Nat) (ok : Bool)
  | print (text : List Nat)
deriving DecidableEq

/-- How far the dump has come: it waits for more input, it has returned, or it has ended the process with
code 1 and a message. -/
inductive End where
  | waiting | returned | failed
deriving DecidableEq

/-- The loop and what follows it, src/agent/DebugShowInput.cc:186-238.  `reads` is what successive calls of
`ReadConsoleInputW` deliver (`none`: the call fails); when it is used up the call is blocking. -/
def dumpLoop (restore : Nat) (restoreOk : Bool) : List (Option (List Record)) → List Act × End
  | [] => ([], .waiting)
  | none :: _ => ([.setMode restore restoreOk], .returned)
  | some [] :: _ => ([.setMode restore restoreOk], .returned)
  | some (r :: rs) :: more =>
    if (dumpRecords (r :: rs)).2 then
      ([.print (dumpRecords (r :: rs)).1, .setMode restore restoreOk], .returned)
    else
      (.print (dumpRecords (r :: rs)).1 :: (dumpLoop restore restoreOk more).1, (dumpLoop restore restoreOk more).2)

/-- The message at the beginning, src/agent/DebugShowInput.cc:182. -/
def greeting : List Nat :=
  text ['\n', 'P', 'r', 'e', 's', 's', ' ', 'a', 'n', 'y', ' ', 'k', 'e', 'y', 's', ' ', '-', '-', ' ', 'C', 't', 'r', 'l', '-', 'D', ' ', 'e', 'x', 'i', 't', 's', '\n', '\n']

/-- `debugShowInput`, src/agent/DebugShowInput.cc:132-239.  `orig`: the mode `GetConsoleMode` reports
(`none`: the call fails); `setOk`, `restoreOk`: the two calls of `SetConsoleMode` succeed. -/
def debugShowInput (mouse escape : Bool) (orig : Option Nat) (setOk restoreOk : Bool)
    (reads : List (Option (List Record))) : List Act × End :=
  match orig with
  | none => ([], .failed)
  | some m =>
    if setOk then
      (.setMode (newMode mouse escape (restoreMode mouse m)) true :: .print greeting ::
        (dumpLoop (restoreMode mouse m) restoreOk reads).1, (dumpLoop (restoreMode mouse m) restoreOk reads).2)
    else ([.setMode (newMode mouse escape (restoreMode mouse m)) false], .failed)

end Winpty.ShowInput
