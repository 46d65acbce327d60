import Verif.Model.Open

/-!
# Specification: what is observed of `winpty_open`

Everything here is read off the log of system calls.
-/
namespace Winpty.Spec.Open

open Winpty.Open (Event Kind AgentArgs)

/-- Follow the log knowing the objects that are open: `none` if something is closed that is not
open. -/
def openAfter (objs : List (Kind × Int)) : List Event → Option (List (Kind × Int))
  | [] => some objs
  | .opened k h :: es => openAfter ((k, h) :: objs) es
  | .closed k h :: es => if (k, h) ∈ objs then openAfter (objs.erase (k, h)) es else none
  | _ :: es => openAfter objs es

/-- Requests and data on a control pipe (as opposed to waiting for a client and ending a call). -/
def Transfer : Client.Event → Prop
  | .write _ | .read _ | .wrote _ | .got _ => True
  | _ => False

/-- Who may be talked to: the ID of the process started last, and the control pipes whose client is
that process (or about whose client the system cannot tell).  A pipe is forgotten when its handle is
given out again. -/
structure Peers where
  lastPid : Option Nat := none
  pipes : List Int := []

/-- Follow the log. -/
def peersAfter (p : Peers) : List Event → Peers
  | [] => p
  | .started _ (some pid) :: es => peersAfter { p with lastPid := some pid } es
  | .opened .pipe h :: es => peersAfter { p with pipes := p.pipes.filter (· ≠ h) } es
  | .clientPid h (.ok pid) :: es =>
    peersAfter { p with pipes := if p.lastPid = some pid then h :: p.pipes else p.pipes } es
  | .clientPid h (.error none) :: es => peersAfter { p with pipes := h :: p.pipes } es
  | _ :: es => peersAfter p es

/-- Nothing is sent over or taken from a control pipe before its client was found to be the process
started last. -/
def OnlyToAgent (log : List Event) : Prop :=
  ∀ pre pipe e post, log = pre ++ .io pipe e :: post → Transfer e → pipe ∈ (peersAfter {} pre).pipes

/-- The window station of the process: `st` at first. -/
def stationAfter (st : Int) : List Event → Int
  | [] => st
  | .setStation st' true :: es => stationAfter st' es
  | _ :: es => stationAfter st es

/-- The processes started. -/
def startedIn : List Event → List (AgentArgs × Option Nat)
  | [] => []
  | .started a pid :: es => (a, pid) :: startedIn es
  | _ :: es => startedIn es

end Winpty.Spec.Open
