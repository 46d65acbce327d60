import Verif.Model.CtrlEvents

/-
Specification for control events (C90) and key messages (C91).
-/

namespace Winpty.Spec.CtrlEvents

open Winpty.CtrlEvents (Proc Console Op Message)

/-- What Ctrl-C has to do to a program, according to what the program itself asked for: a program that ignores it does
not notice it, one with a handler for it has it called and goes on, and any other ends. -/
def Interrupted (p p' : Proc) : Prop :=
  if p.alive = false ∨ p.ignores = true then p' = p
  else p'.alive = p.handler 0 ∧ p'.called = p.called ++ [0] ∧ p'.ignores = p.ignores ∧ p'.handler = p.handler

/-- Neither is the window closed, nor does a program make another event than Ctrl-C for all processes. -/
def OnlyCtrlC : Op → Prop
  | .generate _ event => event = 0
  | .close => False
  | _ => True

/-- The fields of the second parameter of a message about a key, as Windows documents them: bits 0 to 15, the number
of times the key repeats; bits 16 to 23, the scan code; bit 24, an extended key; bit 29, Alt; bit 30, whether the key
was down before; bit 31, whether it is being released. -/
structure KeyParam where
  repeats : Nat
  scanCode : Nat
  extended : Bool
  alt : Bool
  wasDown : Bool
  released : Bool
deriving DecidableEq, Repr

def keyParam (l : Nat) : KeyParam :=
  ⟨l % 65536, l / 65536 % 256, l / 2 ^ 24 % 2 == 1, l / 2 ^ 29 % 2 == 1, l / 2 ^ 30 % 2 == 1, l / 2 ^ 31 % 2 == 1⟩

/-- `WM_KEYDOWN` and `WM_KEYUP`. -/
def keyDown : Nat := 256
def keyUp : Nat := 257

/-- The two messages of a key that is pressed and released. -/
def Press (window vk scan : Nat) (down up : Message) : Prop :=
  down.window = window ∧ up.window = window ∧ down.message = keyDown ∧ up.message = keyUp ∧
  down.wParam = vk ∧ up.wParam = vk ∧ down.lParam < 2 ^ 32 ∧ up.lParam < 2 ^ 32 ∧
  keyParam down.lParam = ⟨1, scan, false, false, false, false⟩ ∧
  keyParam up.lParam = ⟨1, scan, false, false, true, true⟩

/-- The keys that are sent as messages: End, Home, Left, Up, Right and Down. -/
def messageKeys : List Nat := [35, 36, 37, 38, 39, 40]

/-- Keys pressed and released one after another. -/
inductive Presses (map : Nat → Nat) (window : Nat) : List Message → Prop where
  | nil : Presses map window []
  | snoc {before : List Message} {down up : Message} (vk : Nat) (h : Presses map window before)
      (hk : vk ∈ messageKeys) (hp : Press window vk (if map vk < 256 then map vk else 0) down up) :
      Presses map window (before ++ [down, up])

end Winpty.Spec.CtrlEvents
