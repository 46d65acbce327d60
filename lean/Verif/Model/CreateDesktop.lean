import Verif.Model.EventLoop
import Verif.Model.Open

/-!
# Model of `src/agent/AgentCreateDesktop.cc`: the agent that only makes a desktop

On a system before Windows 7, `winpty_open` starts such an agent first.  The desktop is that of
`Model/Open` (`Background`), the pipe that of `Model/NamedPipe`, the event loop that of
`Model/EventLoop` with one pipe and no poll interval (`m_pollInterval` is 0, src/agent/EventLoop.h:44).
-/
namespace Winpty.CreateDesktop

open Winpty.Open (W Background DesktopEnv)
open Winpty.Buffer (sealPacket putFields newPacket)
open Winpty.Agent (PipeTick)
open Winpty.EventLoop (Pause serviced pause tickCount)

/-- `CreateDesktopLoop`, src/agent/AgentCreateDesktop.cc:39-51, without the desktop: the control pipe
and `m_exiting` (src/agent/EventLoop.h:42). -/
structure State where
  pipe : NamedPipe.State
  exiting : Bool

/-- The constructor of `CreateDesktopLoop` after the desktop was made, and `writePacket`:
src/agent/AgentCreateDesktop.cc:53-65, with `connectToServer`, src/agent/NamedPipe.cc:254-273
(`connects` says whether `CreateFileW` opens the pipe).  `none` if an assertion fails. -/
def start (connects : Bool) (name : List Nat) : Option State :=
  if connects then
    match sealPacket (putFields newPacket [.wstring name]) with
    | none => none
    | some bytes =>
      match NamedPipe.step (NamedPipe.opened true true true) (.write bytes) with
      | none => none
      | some (p, _) => some ⟨p, false⟩
  else none

/-- `onPipeIo`, src/agent/AgentCreateDesktop.cc:67-71, and `shutdown`, src/agent/EventLoop.cc:96-99. -/
def onPipeIo (s : State) : State := if s.pipe.pipe.isClosed then { s with exiting := true } else s

/-- A turn of the event loop, src/agent/EventLoop.cc:41-80, and how it ends; `began` and `now` are the
times at lines 40 and 69. -/
def turn (s : State) (t : PipeTick) (began now : Nat) : Option (State × Pause) :=
  match serviced s.pipe t with
  | none => none
  | some (p, true, _) => some (onPipeIo { s with pipe := p }, .again)
  | some (p, false, events) =>
    match pause 0 (tickCount began) now (events.map fun e => (.control, e)) with
    | none => none
    | some w => some ({ s with pipe := p }, w)

/-- The loop, src/agent/EventLoop.cc:37-82: the answers of the system for its turns, each with the
time. -/
def loop (began : Nat) (s : State) : List (PipeTick × Nat) → Option (State × List Pause)
  | [] => some (s, [])
  | (t, now) :: ts =>
    if s.exiting then some (s, [])
    else
      match turn s t began now with
      | none => none
      | some (s1, w) =>
        match loop began s1 ts with
        | none => none
        | some (s2, ws) => some (s2, w :: ws)

/-- How the agent is found after some turns: its `main` has ended (the log of what was done about the
desktop, and the pipe if it was opened), it was aborted, or it runs.
The exits of src/agent/AgentCreateDesktop.cc:75-84. -/
inductive Outcome where
  | exited (w : W) (pipe : Option NamedPipe.State)
  | aborted
  | running (w : W) (s : State) (pauses : List Pause)

/-- `handleCreateDesktop`, src/agent/AgentCreateDesktop.cc:75-84.  The desktop is made before the pipe
is opened (declared first, 49-50), and goes with the loop object (78). -/
def handleCreateDesktop (env : DesktopEnv) (connects : Bool) (began : Nat) (ts : List (PipeTick × Nat)) :
    Outcome :=
  match Background.new env ⟨[], []⟩ with
  | .throw (.winpty _) w => .exited w none
  | .throw (.lib _ _) w => .exited w none
  | .throw _ _ => .aborted
  | .abort _ => .aborted
  | .wait _ => .aborted
  | .ok b w =>
    match start connects b.name with
    | none => .aborted
    | some s =>
      match loop began s ts with
      | none => .aborted
      | some (s1, pauses) =>
        if s1.exiting then .exited (b.dispose env.restore w) (some s1.pipe) else .running w s1 pauses

end Winpty.CreateDesktop
