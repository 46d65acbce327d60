import Verif.Model.AdapterObjects
/-!
# What it means that the adapter uses its objects and threads correctly

About the order of the events only, the oldest event first.
-/
namespace Winpty.Spec.AdapterObjects
open Winpty.AdapterObjects (Event Obj Thread)

/-- In a log, something happens only after other things have happened or have not happened:
`P before e` for every event `e` and the events `before` it. -/
def Always (P : List Event → Event → Prop) (log : List Event) : Prop :=
  ∀ before e after, log = before ++ e :: after → P before e

/-- Nothing is used unless it is open; nothing is closed unless it is open; nothing is opened again. -/
def ObjectsOk (before : List Event) : Event → Prop
  | .used o => .opened o ∈ before ∧ .closed o ∉ before
  | .closed o => .opened o ∈ before ∧ .closed o ∉ before
  | .opened o => .opened o ∉ before
  | _ => True

/-- A thread is started once, joined once, and joined only when it has ended. -/
def ThreadsOk (before : List Event) : Event → Prop
  | .started t => .started t ∉ before
  | .ended t => .started t ∈ before ∧ .joined t ∉ before
  | .joined t => .started t ∈ before ∧ .ended t ∈ before ∧ .joined t ∉ before
  | _ => True

/-- The session is closed before a thread is joined, and the input thread was asked to stop: otherwise
`main` might wait for a thread that has no reason to end. -/
def OrderOk (before : List Event) : Event → Prop
  | .joined t => .closed .session ∈ before ∧ (t = .input → .asked ∈ before)
  | _ => True

/-- At the end every thread has been joined and every object closed.  The main wake-up is kept: threads
and the signal handler may use it until the process is gone. -/
def EndOk (before : List Event) : Event → Prop
  | .returned =>
    (∀ t, .started t ∈ before → .joined t ∈ before) ∧
    (∀ o, o ≠ .mainWake → .opened o ∈ before → .closed o ∈ before) ∧
    .closed .mainWake ∉ before
  | _ => True

end Winpty.Spec.AdapterObjects
