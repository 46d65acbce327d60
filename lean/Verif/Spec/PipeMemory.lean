import Verif.Model.PipeMemory
/-!
# What it means that memory lent to the operating system is treated correctly

About the order of the events only, the oldest event first.
-/
namespace Winpty.Spec.PipeMemory
open Winpty.PipeMemory (Event Slot)

/-- The memory is there: made and not yet freed. -/
def there (k : Slot) (log : List Event) : Bool :=
  log.foldl (fun b e => if e = .made k then true else if e = .freed k then false else b) false

/-- The operating system has the memory: lent and not given back. -/
def away (k : Slot) (log : List Event) : Bool :=
  log.foldl (fun b e => if e = .lent k then true else if e = .back k then false else b) false

/-- The handle is open. -/
def isOpen (log : List Event) : Bool :=
  log.foldl (fun b e => if e = .opened then true else if e = .closed then false else b) false

/-- What must hold before an event. -/
def Allowed (before : List Event) : Event → Prop
  | .made k => there k before = false
  | .lent k => there k before = true ∧ away k before = false ∧ isOpen before = true
  | .back k => away k before = true
  | .touched k => there k before = true ∧ away k before = false
  | .freed k => there k before = true ∧ away k before = false
  | .opened => isOpen before = false
  | .closed => isOpen before = true ∧ ∀ k, away k before = false
  | .deleted => isOpen before = false ∧ ∀ k, away k before = false ∧ there k before = false

/-- Every event was allowed. -/
def Sound (log : List Event) : Prop :=
  ∀ before e after, log = before ++ e :: after → Allowed before e

end Winpty.Spec.PipeMemory
