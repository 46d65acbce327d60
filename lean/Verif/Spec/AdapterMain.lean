import Verif.Model.AdapterMain
import Verif.Spec.Utf
import Verif.Spec.Text

/-!
# Specification: what starting the adapter amounts to

Shared with the model: the types of the operating system's answers and of the adapter's visible actions.
-/
namespace Winpty.Spec.Start

open Winpty.AdapterMain (Locale Act)
open Winpty.Spec

/-- The C library's conversions are those of UTF-8 and UTF-16.  Units that are no text may be refused or
replaced, by at most three bytes each. -/
structure Utf8 (loc : Locale) : Prop where
  widen : ∀ cs, (∀ c ∈ cs, IsScalar c) → loc.widen (utf8Text cs) = some (utf16Text cs)
  narrow : ∀ cs, (∀ c ∈ cs, IsScalar c) → loc.narrow (utf16Text cs) = some (cs.map utf8)
  short : ∀ ws chars, loc.narrow ws = some chars → chars.flatten.length ≤ 3 * ws.length

/-- The code points of a word. -/
def points (s : String) : List Nat := codes s.toList

/-- A text of the adapter's own, as bytes. -/
def say (s : String) : List Nat := codes s.toList

/-- The words after the adapter's name: options, then the program and its arguments, which a `--` may
separate, and must if the program's name begins with a minus sign. -/
def Asks (words flags : List String) (prog : String) (args : List String) : Prop :=
  (words = flags ++ prog :: args ∧ prog.toList.head? ≠ some '-') ∨ words = flags ++ "--" :: prog :: args

/-- Is this action the start of a program? -/
def IsSpawn : Act → Prop
  | .spawn _ _ => True
  | _ => False

/-- Is this action a message? -/
def IsMessage : Act → Prop
  | .stdout _ => True
  | .stderr _ => True
  | _ => False

end Winpty.Spec.Start
