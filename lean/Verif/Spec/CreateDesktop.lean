import Verif.Model.CreateDesktop
import Verif.Spec.Open
import Verif.Props.NamedPipe

/-! # Specification: what is observed of the agent that makes a desktop -/
namespace Winpty.Spec.CreateDesktop

open Winpty.CreateDesktop
open Winpty.Agent (PipeTick)
open Winpty.NamedPipe (Ans)

/-- The data in one answer to a read. -/
def dataOf : Ans → List Nat
  | .done _ data => data
  | _ => []

/-- How much the other end of the pipe has sent at most, over some turns. -/
def sent (ts : List (PipeTick × Nat)) : Nat := (ts.flatMap fun t => t.1.reads.flatMap dataOf).length

/-- The system never reports a short write. -/
def Sound (ts : List (PipeTick × Nat)) : Prop := ∀ t ∈ ts, Pipe.FullWrites t.1.writes

/-- The system makes the desktop, with this name. -/
structure Makes (env : Open.DesktopEnv) (original station desktop : Int) (st dt : List Nat) : Prop where
  original : env.original = .ok original
  station : env.station = .ok station
  set : env.set = .ok ()
  desktop : env.desktop = .ok desktop
  stationName : env.stationName = .ok st
  desktopName : env.desktopName = .ok dt

/-- The system refuses one of the steps. -/
def Refuses (env : Open.DesktopEnv) : Prop :=
  (∃ e, env.original = .error e) ∨ (∃ e, env.station = .error e) ∨ (∃ e, env.set = .error e) ∨
  (∃ e, env.desktop = .error e) ∨ (∃ e, env.stationName = .error e) ∨ (∃ e, env.desktopName = .error e)

end Winpty.Spec.CreateDesktop
