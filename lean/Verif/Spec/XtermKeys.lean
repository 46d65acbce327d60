import Verif.Spec.Text
/-!
# How xterm encodes special keys

Independent of the model: the PC-style function keys of xterm's "Control Sequences" document, with
virtual-key codes and control-key bits as in the Windows documentation.
-/
namespace Winpty.Spec

/-- Modifiers held down. -/
structure Mods where
  shift : Bool
  alt : Bool
  ctrl : Bool
deriving DecidableEq, Repr

/-- xterm's modifier parameter. -/
def Mods.param (m : Mods) : Nat :=
  1 + (if m.shift then 1 else 0) + (if m.alt then 2 else 0) + (if m.ctrl then 4 else 0)

/-- The same modifiers as Windows control-key bits. -/
def Mods.bits (m : Mods) : Nat :=
  (if m.shift then 0x10 else 0) + (if m.alt then 0x2 else 0) + (if m.ctrl then 0x8 else 0)

/-- The three shapes of key sequences. -/
inductive KeyForm where
  | csiLetter (c : Char)
  | ss3Letter (c : Char)
  | csiNumber (n : Nat)
deriving DecidableEq, Repr

/-- The bytes xterm sends. -/
def xtermSeq (m : Mods) : KeyForm → List Nat
  | .csiLetter c =>
    if m.param = 1 then codes ['\x1b', '[', c]
    else codes ['\x1b', '[', '1', ';'] ++ codes (Nat.toDigits 10 m.param) ++ codes [c]
  | .ss3Letter c =>
    if m.param = 1 then codes ['\x1b', 'O', c]
    else codes ['\x1b', '[', '1', ';'] ++ codes (Nat.toDigits 10 m.param) ++ codes [c]
  | .csiNumber n =>
    if m.param = 1 then codes ['\x1b', '['] ++ codes (Nat.toDigits 10 n) ++ codes ['~']
    else codes ['\x1b', '['] ++ codes (Nat.toDigits 10 n) ++ codes [';'] ++
      codes (Nat.toDigits 10 m.param) ++ codes ['~']

/-- Windows virtual-key code, whether it is an "enhanced" key, and xterm's encoding. -/
def xtermKeys : List (Nat × Bool × KeyForm) := [
  (0x26, true, .csiLetter 'A'),   -- up
  (0x28, true, .csiLetter 'B'),   -- down
  (0x27, true, .csiLetter 'C'),   -- right
  (0x25, true, .csiLetter 'D'),   -- left
  (0x24, true, .csiLetter 'H'),   -- home
  (0x23, true, .csiLetter 'F'),   -- end
  (0x0C, false, .csiLetter 'E'),  -- keypad 5
  (0x2D, true, .csiNumber 2),     -- insert
  (0x2E, true, .csiNumber 3),     -- delete
  (0x21, true, .csiNumber 5),     -- page up
  (0x22, true, .csiNumber 6),     -- page down
  (0x70, false, .ss3Letter 'P'),  -- F1
  (0x71, false, .ss3Letter 'Q'),
  (0x72, false, .ss3Letter 'R'),
  (0x73, false, .ss3Letter 'S'),
  (0x74, false, .csiNumber 15),   -- F5
  (0x75, false, .csiNumber 17),
  (0x76, false, .csiNumber 18),
  (0x77, false, .csiNumber 19),
  (0x78, false, .csiNumber 20),
  (0x79, false, .csiNumber 21),
  (0x7A, false, .csiNumber 23),
  (0x7B, false, .csiNumber 24)]   -- F12

end Winpty.Spec
