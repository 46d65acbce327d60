import Verif.Model.Adapter

/-!
# Specification: the Unix adapter as a relay

Shared with the model: the types of an adapter and of what happens to it.
-/
namespace Winpty.Spec.Relay

open Winpty.Adapter (A Label Cfg WinSize)

/-- The bytes the session's `CONOUT` pipe has delivered. -/
def fromSession : List Label → List Nat
  | [] => []
  | .out (.data bytes) :: ls => bytes ++ fromSession ls
  | _ :: ls => fromSession ls

/-- The bytes the session's `CONERR` pipe has delivered. -/
def fromSessionErr : List Label → List Nat
  | [] => []
  | .err (.data bytes) :: ls => bytes ++ fromSessionErr ls
  | _ :: ls => fromSessionErr ls

/-- The bytes the terminal has delivered. -/
def fromTerminal : List Label → List Nat
  | [] => []
  | .inp (.data bytes) :: ls => bytes ++ fromTerminal ls
  | _ :: ls => fromTerminal ls

/-- How many calls of the main thread have returned, without those that were interrupted. -/
def mainCalls : List Label → Nat
  | [] => 0
  | .main .intr :: ls => mainCalls ls
  | .main _ :: ls => mainCalls ls + 1
  | _ :: ls => mainCalls ls

/-- How many calls of the input thread have returned, without those that were interrupted. -/
def inputCalls : List Label → Nat
  | [] => 0
  | .inp .intr :: ls => inputCalls ls
  | .inp _ :: ls => inputCalls ls + 1
  | _ :: ls => inputCalls ls

/-- How many signals were delivered. -/
def signals : List Label → Nat
  | [] => 0
  | .deliver :: ls => signals ls + 1
  | _ :: ls => signals ls

/-- What the operating system answered last to the input thread. -/
def lastInput (ls : List Label) : Option Winpty.Adapter.InAns :=
  (ls.filterMap fun l => match l with | .inp a => some a | _ => none).getLast?

/-- The terminal can always be asked for its size. -/
def AlwaysSized (ls : List Label) : Prop := ∀ sz, Label.main (.noSize sz) ∉ ls

/-- The sizes the terminal has had, if it was of size `z` at first. -/
def sizes (z : WinSize) (ls : List Label) : List WinSize :=
  z :: ls.filterMap fun l => match l with | .resize z => some z | _ => none

/-- The main thread has asked the input thread to shut down. -/
def Asked (s : A) : Prop :=
  s.main = .joinIn ∨ s.main = .joinOut ∨ s.main = .joinErr ∨ s.main = .restore ∨ s.main = .exitCode ∨
    ∃ c, s.main = .done c

/-- One of the handlers has reported that it is finished. -/
def SomeFinished (cfg : Cfg) (s : A) : Prop :=
  s.inp.completed = true ∨ s.out.completed = true ∨ (cfg.conerr = true ∧ s.err.completed = true)

/-- The answers of the operating system that make the adapter abort: `select` fails otherwise than by
an interruption, reading a wake-up pipe fails otherwise than because the pipe is empty, or `write`
claims to have written more than it was given. -/
inductive Aborts (s : A) : Label → Prop
  | mainSelect : s.main = .select → Aborts s (.main .fail)
  | mainReset : s.main = .reset → Aborts s (.main (.reset .fail))
  | inSelect : s.inp.pc = .select → Aborts s (.inp .fail)
  | inReset : s.inp.pc = .reset → Aborts s (.inp (.reset .fail))
  | outWrote (d k n) : s.out.pc = .write d k → d.length < k + n → Aborts s (.out (.wrote n))
  | errWrote (d k n) : s.err.pc = .write d k → d.length < k + n → Aborts s (.err (.wrote n))

end Winpty.Spec.Relay
