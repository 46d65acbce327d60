import Verif.Spec.XtermKeys
/-!
# How other terminals encode keys

Independent of the model: for each terminal the bytes it sends and the key they stand for, from the manuals
of the terminals.  xterm's own keys are in `Spec/XtermKeys.lean`.
-/
namespace Winpty.Spec

/-- A key press: the bytes the terminal sends, the virtual key, the character, and the modifiers. -/
structure Sent where
  bytes : List Nat
  vk : Nat
  char : Nat
  mods : Mods

/-- No modifier, and single ones. -/
def bare : Mods := ⟨false, false, false⟩
def shiftOnly : Mods := ⟨true, false, false⟩
def altOnly : Mods := ⟨false, true, false⟩
def ctrlOnly : Mods := ⟨false, false, true⟩
def shiftCtrl : Mods := ⟨true, false, true⟩

/-- The bytes of a short text after an escape character. -/
def escText (cs : List Char) : List Nat := 27 :: codes cs

/-- Every combination that is not empty. -/
def someMods : List Mods := [shiftOnly, altOnly, ⟨true, true, false⟩, ctrlOnly, shiftCtrl,
  ⟨false, true, true⟩, ⟨true, true, true⟩]

/-- The digit that stands for the modifiers. -/
def paramDigit (m : Mods) : Char := Char.ofNat (48 + m.param)

/-- Alt held down in a terminal that sends an escape character first. -/
def metaFirst (s : Sent) : Sent := { s with bytes := 27 :: s.bytes, mods := { s.mods with alt := true } }

/-- The presses, and the same with Alt in front. -/
def withMeta (l : List Sent) : List Sent := l ++ l.map metaFirst

/-- Up, down, right and left. -/
def arrowKeys : List (Char × Nat) := [('A', 0x26), ('B', 0x28), ('C', 0x27), ('D', 0x25)]

/-- Home and end. -/
def homeEnd : List (Char × Nat) := [('H', 0x24), ('F', 0x23)]

/-- F1 to F4. -/
def pfKeys : List (Char × Nat) := [('P', 0x70), ('Q', 0x71), ('R', 0x72), ('S', 0x73)]

/-- The VT220 editing and function keys with their numbers. -/
def numbered : List (List Char × Nat) := [
  (['2'], 0x2D), (['3'], 0x2E), (['5'], 0x21), (['6'], 0x22),
  (['1', '1'], 0x70), (['1', '2'], 0x71), (['1', '3'], 0x72), (['1', '4'], 0x73), (['1', '5'], 0x74),
  (['1', '7'], 0x75), (['1', '8'], 0x76), (['1', '9'], 0x77), (['2', '0'], 0x78), (['2', '1'], 0x79),
  (['2', '3'], 0x7A), (['2', '4'], 0x7B)]

/-- F13 to F20 of the VT220, which PC keyboards reach as Shift with F3 to F10. -/
def shifted : List (List Char × Nat) := [
  (['2', '5'], 0x72), (['2', '6'], 0x73), (['2', '8'], 0x74), (['2', '9'], 0x75),
  (['3', '1'], 0x76), (['3', '2'], 0x77), (['3', '3'], 0x78), (['3', '4'], 0x79)]

/-- PuTTY and the Linux console: `ESC O A`, ..., the numbered keys, home and end as 1 and 4, and the 5 of the
keypad. -/
def puttyKeys : List Sent := withMeta (
  arrowKeys.map (fun k => ⟨escText ['O', k.1], k.2, 0, bare⟩) ++
  (numbered ++ [(['1'], 0x24), (['4'], 0x23)]).map
    (fun k : List Char × Nat => ⟨escText (['['] ++ k.1 ++ ['~']), k.2, 0, bare⟩) ++
  shifted.map (fun k : List Char × Nat => ⟨escText (['['] ++ k.1 ++ ['~']), k.2, 0, shiftOnly⟩) ++
  [⟨escText ['[', 'G'], 0x0C, 0, bare⟩, ⟨escText ['O', 'G'], 0x0C, 0, bare⟩])

/-- The Linux console and Cygwin: F1 to F5. -/
def linuxKeys : List Sent := withMeta (
  [('A', 0x70), ('B', 0x71), ('C', 0x72), ('D', 0x73), ('E', 0x74)].map
    fun k => ⟨escText ['[', '[', k.1], k.2, 0, bare⟩)

/-- rxvt: small letters for arrows with Shift or Ctrl; `$`, `^` and `@` in place of `~` for Shift, Ctrl and
both; home and end as 7 and 8. -/
def rxvtKeys : List Sent := withMeta (
  arrowKeys.map (fun k => ⟨escText ['[', k.1.toLower], k.2, 0, shiftOnly⟩) ++
  arrowKeys.map (fun k => ⟨escText ['O', k.1.toLower], k.2, 0, ctrlOnly⟩) ++
  (numbered ++ [(['7'], 0x24), (['8'], 0x23)]).flatMap (fun k : List Char × Nat => [
    ⟨escText (['['] ++ k.1 ++ ['~']), k.2, 0, bare⟩, ⟨escText (['['] ++ k.1 ++ ['$']), k.2, 0, shiftOnly⟩,
    ⟨escText (['['] ++ k.1 ++ ['^']), k.2, 0, ctrlOnly⟩,
    ⟨escText (['['] ++ k.1 ++ ['@']), k.2, 0, shiftCtrl⟩]) ++
  shifted.flatMap (fun k : List Char × Nat => [
    ⟨escText (['['] ++ k.1 ++ ['~']), k.2, 0, shiftOnly⟩,
    ⟨escText (['['] ++ k.1 ++ ['^']), k.2, 0, shiftCtrl⟩]))

/-- GNOME: home and end as `ESC O H` and `ESC O F`, and F1 to F4 with modifiers as `ESC O 1 ; n P`. -/
def gnomeKeys : List Sent :=
  homeEnd.map (fun k => ⟨escText ['O', k.1], k.2, 0, bare⟩) ++
  someMods.flatMap fun m => pfKeys.map fun k => ⟨escText ['O', '1', ';', paramDigit m, k.1], k.2, 0, m⟩

/-- Konsole: F1 to F4 with modifiers as `ESC O n P`. -/
def konsoleKeys : List Sent :=
  someMods.flatMap fun m => pfKeys.map fun k => ⟨escText ['O', paramDigit m, k.1], k.2, 0, m⟩

/-- JediTerm: arrows, home and end with modifiers as `ESC [ n A`. -/
def jediKeys : List Sent :=
  someMods.flatMap fun m => (arrowKeys ++ homeEnd).map fun k =>
    ⟨escText ['[', paramDigit m, k.1], k.2, 0, m⟩

/-- The keys of the keypad: letter, virtual key, character, and the character with Ctrl. -/
def keypad : List (Char × Nat × Nat × Nat) := [
  ('M', 0x0D, 13, 10),                                                   -- enter
  ('j', 0x6A, 42, 0), ('k', 0x6B, 43, 0), ('m', 0x6D, 45, 0), ('o', 0x6F, 47, 0),  -- * + - /
  ('n', 0x2E, 0, 0), ('p', 0x2D, 0, 0),                                  -- delete, insert
  ('q', 0x23, 0, 0), ('r', 0x28, 0, 0), ('s', 0x22, 0, 0),               -- 1 2 3
  ('t', 0x25, 0, 0), ('u', 0x0C, 0, 0), ('v', 0x27, 0, 0),               -- 4 5 6
  ('w', 0x24, 0, 0), ('x', 0x26, 0, 0), ('y', 0x21, 0, 0)]               -- 7 8 9

/-- The keypad in application mode: `ESC O M`, `ESC O n M`, and `ESC [ M`, `ESC [ 1 ; n M`. -/
def keypadKeys : List Sent :=
  withMeta (keypad.flatMap fun k => [⟨escText ['O', k.1], k.2.1, k.2.2.1, bare⟩,
    ⟨escText ['[', k.1], k.2.1, k.2.2.1, bare⟩]) ++
  someMods.flatMap fun m => keypad.flatMap fun k => [
    ⟨escText ['O', paramDigit m, k.1], k.2.1, if m.ctrl then k.2.2.2 else k.2.2.1, m⟩,
    ⟨escText ['[', '1', ';', paramDigit m, k.1], k.2.1, if m.ctrl then k.2.2.2 else k.2.2.1, m⟩]

/-- Backspace, Alt-Backspace, Ctrl-C, and Shift-Tab. -/
def plainKeys : List Sent := [⟨[127], 0x08, 8, bare⟩, ⟨[27, 127], 0x08, 8, altOnly⟩,
  ⟨[3], 0x43, 3, ctrlOnly⟩, ⟨escText ['[', 'Z'], 0x09, 9, shiftOnly⟩]

/-- All of them. -/
def terminalKeys : List Sent := puttyKeys ++ linuxKeys ++ rxvtKeys ++ gnomeKeys ++ konsoleKeys ++ jediKeys ++
  keypadKeys ++ plainKeys

/-- The keys Windows marks as enhanced among these: arrows, insert, delete, home, end and the page keys. -/
def Enhanced (vk : Nat) : Prop := vk ∈ [0x21, 0x22, 0x23, 0x24, 0x25, 0x26, 0x27, 0x28, 0x2D, 0x2E]

instance (vk : Nat) : Decidable (Enhanced vk) := by unfold Enhanced; infer_instance

end Winpty.Spec
