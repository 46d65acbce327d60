import Verif.Model.ShowInput
import Verif.Spec.Text

/-!
# Specification of the console input dump (C76)

What a user of `winpty-agent --show-input` reads off its output, and what it does to the console's mode.
-/
namespace Winpty.Spec.ShowInput
open Winpty.ShowInput (Record Act)

/-- The fields of a record are within the types of the Windows headers.  Of a key's state only the lower
16 bits are shown; Windows defines nine. -/
def InRange : Record → Prop
  | .key _ rpt vk scan ch state => rpt < 2 ^ 16 ∧ vk < 2 ^ 16 ∧ scan < 2 ^ 16 ∧ ch < 2 ^ 16 ∧ state < 2 ^ 16
  | .mouse x y buttonState state flags => -2 ^ 15 ≤ x ∧ x < 2 ^ 15 ∧ -2 ^ 15 ≤ y ∧ y < 2 ^ 15 ∧
      buttonState < 2 ^ 32 ∧ state < 2 ^ 32 ∧ flags < 2 ^ 32
  | .bufferSize x y => -2 ^ 15 ≤ x ∧ x < 2 ^ 15 ∧ -2 ^ 15 ≤ y ∧ y < 2 ^ 15
  | .menu commandId => commandId < 2 ^ 32
  | .focus _ => True
  | .other => True

/-- Two records that cannot be told apart: they are equal, except that the key code 0 looks like the key
code of the digit 0 (48). -/
def Alike : Record → Record → Prop
  | .key d rpt vk scan ch state, .key d' rpt' vk' scan' ch' state' =>
      d = d' ∧ rpt = rpt' ∧ (vk = vk' ∨ (vk = 0 ∧ vk' = 48) ∨ (vk = 48 ∧ vk' = 0)) ∧ scan = scan' ∧ ch = ch' ∧
        state = state'
  | a, b => a = b

/-- The records that are of one of the five documented kinds. -/
def known : Record → Bool
  | .other => false
  | _ => true

/-- Ctrl-D: the key D with a control key held, or the character 4 with no key. -/
def CtrlD : Record → Prop
  | .key _ _ vk scan ch state =>
      (vk = 68 ∧ (state.testBit 2 = true ∨ state.testBit 3 = true)) ∨ (vk = 0 ∧ scan = 0 ∧ ch = 4)
  | _ => False

/-- The bits of a control key state (wincon.h) and the name a user knows them by. -/
def stateName : Nat → Option (List Char)
  | 0 => some ['R', 'A', 'l', 't']
  | 1 => some ['L', 'A', 'l', 't']
  | 2 => some ['R', 'C', 't', 'r', 'l']
  | 3 => some ['L', 'C', 't', 'r', 'l']
  | 4 => some ['S', 'h', 'i', 'f', 't']
  | 5 => some ['N', 'u', 'm', 'L', 'o', 'c', 'k']
  | 6 => some ['S', 'c', 'r', 'o', 'l', 'l', 'L', 'o', 'c', 'k']
  | 7 => some ['C', 'a', 'p', 's', 'L', 'o', 'c', 'k']
  | 8 => some ['E', 'n', 'h', 'a', 'n', 'c', 'e', 'd']
  | _ => none

/-- The bits of a mouse event's flags (wincon.h). -/
def flagName : Nat → Option (List Char)
  | 0 => some ['M', 'o', 'v', 'e']
  | 1 => some ['D', 'o', 'u', 'b', 'l', 'e']
  | 2 => some ['W', 'h', 'e', 'e', 'l']
  | 3 => some ['H', 'W', 'h', 'e', 'e', 'l']
  | _ => none

/-- The bits of a mouse event's buttons (wincon.h): the first, the rightmost, the second from the left … -/
def buttonName : Nat → Option (List Char)
  | 0 => some ['1']
  | 1 => some ['R']
  | 2 => some ['2']
  | 3 => some ['3']
  | 4 => some ['4']
  | _ => none

/-- The modes the dump has set, in order. -/
def modesSet : List Act → List Nat
  | [] => []
  | .setMode m _ :: as => m :: modesSet as
  | .print _ :: as => modesSet as

/-- All that has been written to the standard output. -/
def printed : List Act → List Nat
  | [] => []
  | .setMode _ _ :: as => printed as
  | .print t :: as => t ++ printed as

/-- The records the console delivers, up to the first read that fails or delivers nothing. -/
def events : List (Option (List Record)) → List Record
  | [] => []
  | none :: _ => []
  | some [] :: _ => []
  | some (r :: rs) :: more => r :: rs ++ events more

/-- A read fails or delivers nothing. -/
def readFails (reads : List (Option (List Record))) : Prop := none ∈ reads ∨ some [] ∈ reads

/-- The virtual-key codes (winuser.h) in runs: the first code and the names from there on. -/
def keyChart : List (Nat × List (List Char)) :=
  [(0x2, [['R', 'B', 'U', 'T', 'T', 'O', 'N'], ['C', 'A', 'N', 'C', 'E', 'L'],
     ['M', 'B', 'U', 'T', 'T', 'O', 'N'], ['X', 'B', 'U', 'T', 'T', 'O', 'N', '1'],
     ['X', 'B', 'U', 'T', 'T', 'O', 'N', '2']]),
   (0x8, [['B', 'A', 'C', 'K'], ['T', 'A', 'B']]),
   (0xC, [['C', 'L', 'E', 'A', 'R'], ['R', 'E', 'T', 'U', 'R', 'N']]),
   (0x10, [['S', 'H', 'I', 'F', 'T'], ['C', 'O', 'N', 'T', 'R', 'O', 'L'], ['M', 'E', 'N', 'U'],
     ['P', 'A', 'U', 'S', 'E'], ['C', 'A', 'P', 'I', 'T', 'A', 'L'], ['H', 'A', 'N', 'G', 'U', 'L']]),
   (0x17, [['J', 'U', 'N', 'J', 'A'], ['F', 'I', 'N', 'A', 'L'], ['K', 'A', 'N', 'J', 'I']]),
   (0x1B, [['E', 'S', 'C', 'A', 'P', 'E'], ['C', 'O', 'N', 'V', 'E', 'R', 'T'],
     ['N', 'O', 'N', 'C', 'O', 'N', 'V', 'E', 'R', 'T'], ['A', 'C', 'C', 'E', 'P', 'T'],
     ['M', 'O', 'D', 'E', 'C', 'H', 'A', 'N', 'G', 'E'], ['S', 'P', 'A', 'C', 'E'], ['P', 'R', 'I', 'O', 'R'],
     ['N', 'E', 'X', 'T'], ['E', 'N', 'D'], ['H', 'O', 'M', 'E'], ['L', 'E', 'F', 'T'], ['U', 'P'],
     ['R', 'I', 'G', 'H', 'T'], ['D', 'O', 'W', 'N'], ['S', 'E', 'L', 'E', 'C', 'T'],
     ['P', 'R', 'I', 'N', 'T'], ['E', 'X', 'E', 'C', 'U', 'T', 'E'], ['S', 'N', 'A', 'P', 'S', 'H', 'O', 'T'],
     ['I', 'N', 'S', 'E', 'R', 'T'], ['D', 'E', 'L', 'E', 'T', 'E'], ['H', 'E', 'L', 'P']]),
   (0x5B, [['L', 'W', 'I', 'N'], ['R', 'W', 'I', 'N'], ['A', 'P', 'P', 'S']]),
   (0x5F, [['S', 'L', 'E', 'E', 'P'], ['N', 'U', 'M', 'P', 'A', 'D', '0'], ['N', 'U', 'M', 'P', 'A', 'D', '1'],
     ['N', 'U', 'M', 'P', 'A', 'D', '2'], ['N', 'U', 'M', 'P', 'A', 'D', '3'],
     ['N', 'U', 'M', 'P', 'A', 'D', '4'], ['N', 'U', 'M', 'P', 'A', 'D', '5'],
     ['N', 'U', 'M', 'P', 'A', 'D', '6'], ['N', 'U', 'M', 'P', 'A', 'D', '7'],
     ['N', 'U', 'M', 'P', 'A', 'D', '8'], ['N', 'U', 'M', 'P', 'A', 'D', '9'],
     ['M', 'U', 'L', 'T', 'I', 'P', 'L', 'Y'], ['A', 'D', 'D'], ['S', 'E', 'P', 'A', 'R', 'A', 'T', 'O', 'R'],
     ['S', 'U', 'B', 'T', 'R', 'A', 'C', 'T'], ['D', 'E', 'C', 'I', 'M', 'A', 'L'],
     ['D', 'I', 'V', 'I', 'D', 'E'], ['F', '1'], ['F', '2'], ['F', '3'], ['F', '4'], ['F', '5'], ['F', '6'],
     ['F', '7'], ['F', '8'], ['F', '9'], ['F', '1', '0'], ['F', '1', '1'], ['F', '1', '2'], ['F', '1', '3'],
     ['F', '1', '4'], ['F', '1', '5'], ['F', '1', '6'], ['F', '1', '7'], ['F', '1', '8'], ['F', '1', '9'],
     ['F', '2', '0'], ['F', '2', '1'], ['F', '2', '2'], ['F', '2', '3'], ['F', '2', '4']]),
   (0x90, [['N', 'U', 'M', 'L', 'O', 'C', 'K'], ['S', 'C', 'R', 'O', 'L', 'L']]),
   (0xA0, [['L', 'S', 'H', 'I', 'F', 'T'], ['R', 'S', 'H', 'I', 'F', 'T'],
     ['L', 'C', 'O', 'N', 'T', 'R', 'O', 'L'], ['R', 'C', 'O', 'N', 'T', 'R', 'O', 'L'],
     ['L', 'M', 'E', 'N', 'U'], ['R', 'M', 'E', 'N', 'U'],
     ['B', 'R', 'O', 'W', 'S', 'E', 'R', '_', 'B', 'A', 'C', 'K'],
     ['B', 'R', 'O', 'W', 'S', 'E', 'R', '_', 'F', 'O', 'R', 'W', 'A', 'R', 'D'],
     ['B', 'R', 'O', 'W', 'S', 'E', 'R', '_', 'R', 'E', 'F', 'R', 'E', 'S', 'H'],
     ['B', 'R', 'O', 'W', 'S', 'E', 'R', '_', 'S', 'T', 'O', 'P'],
     ['B', 'R', 'O', 'W', 'S', 'E', 'R', '_', 'S', 'E', 'A', 'R', 'C', 'H'],
     ['B', 'R', 'O', 'W', 'S', 'E', 'R', '_', 'F', 'A', 'V', 'O', 'R', 'I', 'T', 'E', 'S'],
     ['B', 'R', 'O', 'W', 'S', 'E', 'R', '_', 'H', 'O', 'M', 'E'],
     ['V', 'O', 'L', 'U', 'M', 'E', '_', 'M', 'U', 'T', 'E'],
     ['V', 'O', 'L', 'U', 'M', 'E', '_', 'D', 'O', 'W', 'N'], ['V', 'O', 'L', 'U', 'M', 'E', '_', 'U', 'P'],
     ['M', 'E', 'D', 'I', 'A', '_', 'N', 'E', 'X', 'T', '_', 'T', 'R', 'A', 'C', 'K'],
     ['M', 'E', 'D', 'I', 'A', '_', 'P', 'R', 'E', 'V', '_', 'T', 'R', 'A', 'C', 'K'],
     ['M', 'E', 'D', 'I', 'A', '_', 'S', 'T', 'O', 'P'],
     ['M', 'E', 'D', 'I', 'A', '_', 'P', 'L', 'A', 'Y', '_', 'P', 'A', 'U', 'S', 'E'],
     ['L', 'A', 'U', 'N', 'C', 'H', '_', 'M', 'A', 'I', 'L'],
     ['L', 'A', 'U', 'N', 'C', 'H', '_', 'M', 'E', 'D', 'I', 'A', '_', 'S', 'E', 'L', 'E', 'C', 'T'],
     ['L', 'A', 'U', 'N', 'C', 'H', '_', 'A', 'P', 'P', '1'],
     ['L', 'A', 'U', 'N', 'C', 'H', '_', 'A', 'P', 'P', '2']]),
   (0xBA, [['O', 'E', 'M', '_', '1'], ['O', 'E', 'M', '_', 'P', 'L', 'U', 'S'],
     ['O', 'E', 'M', '_', 'C', 'O', 'M', 'M', 'A'], ['O', 'E', 'M', '_', 'M', 'I', 'N', 'U', 'S'],
     ['O', 'E', 'M', '_', 'P', 'E', 'R', 'I', 'O', 'D'], ['O', 'E', 'M', '_', '2'], ['O', 'E', 'M', '_', '3']]),
   (0xDB, [['O', 'E', 'M', '_', '4'], ['O', 'E', 'M', '_', '5'], ['O', 'E', 'M', '_', '6'],
     ['O', 'E', 'M', '_', '7'], ['O', 'E', 'M', '_', '8']]),
   (0xE2, [['O', 'E', 'M', '_', '1', '0', '2']]),
   (0xE5, [['P', 'R', 'O', 'C', 'E', 'S', 'S', 'K', 'E', 'Y']]),
   (0xE7, [['P', 'A', 'C', 'K', 'E', 'T']]),
   (0xF6, [['A', 'T', 'T', 'N'], ['C', 'R', 'S', 'E', 'L'], ['E', 'X', 'S', 'E', 'L'],
     ['E', 'R', 'E', 'O', 'F'], ['P', 'L', 'A', 'Y'], ['Z', 'O', 'O', 'M'], ['N', 'O', 'N', 'A', 'M', 'E'],
     ['P', 'A', '1'], ['O', 'E', 'M', '_', 'C', 'L', 'E', 'A', 'R']])]

/-- The codes of the chart with their names. -/
def chartKeys : List (Nat × List Char) :=
  keyChart.flatMap fun r => (List.range r.2.length).zipWith (fun i n => (r.1 + i, n)) r.2

/-- A number as a user reads it: `0`, or `0x` and hexadecimal digits. -/
def hexNumber (n : Nat) : List Nat :=
  if n = 0 then Winpty.Spec.codes ['0'] else Winpty.Spec.codes ['0', 'x'] ++ Winpty.Spec.hexadecimal n

/-- A character as a user reads it: itself in quotes if it is printable, from space to `~`; its number otherwise. -/
def character (ch : Nat) : List Nat :=
  if ch < 32 ∨ 127 ≤ ch then hexNumber ch else Winpty.Spec.codes ['\''] ++ [ch] ++ Winpty.Spec.codes ['\'']

end Winpty.Spec.ShowInput
