import Verif.Model.Agent

/-!
# Model of `src/agent/EventLoop.cc`: when the loop polls, and when and for what it waits

`Model/Agent` has what a turn of the loop does (`tick`); here is the loop around it, with the clock.
Times are milliseconds since the system was started, without a bound.
-/
namespace Winpty.EventLoop

open Winpty.Agent (Cfg State Tick PipeTick PollEnv)
open Winpty.NamedPipe (WaitOn)

/-- `GetTickCount` at the time `now`, src/agent/EventLoop.cc:40, 55, 58 and 69: a `DWORD`, which
starts again at 0 after 49.7 days. -/
def tickCount (now : Nat) : Int := (now : Int) % 2 ^ 32

/-- The conversion of a `DWORD` to `int`, src/agent/EventLoop.cc:55 and 69. -/
def toInt (n : Int) : Int := if n % 2 ^ 32 < 2 ^ 31 then n % 2 ^ 32 else n % 2 ^ 32 - 2 ^ 32

/-- `INFINITE`, src/agent/EventLoop.cc:67. -/
def infinite : Int := 2 ^ 32 - 1

/-- The agent's poll interval, src/agent/Agent.cc:222. -/
def agentInterval : Int := 25

/-- Is it time to poll?  src/agent/EventLoop.cc:54-56. -/
def due (interval last : Int) (now : Nat) : Bool :=
  decide (interval > 0) && decide (toInt (tickCount now - last) ≥ interval)

/-- `timeout`, src/agent/EventLoop.cc:67-69. -/
def timeout (interval last : Int) (now : Nat) : Int :=
  if interval > 0 then max 0 (toInt (last + interval - tickCount now)) else infinite

/-- The pipes of the agent in the order of their creation, src/agent/Agent.cc:172-177. -/
inductive Which where
  | control
  | conin
  | conout
  | conerr
deriving DecidableEq

/-- `serviceIo` of one pipe (src/agent/EventLoop.cc:47): the pipe, whether something happened, and the
events it adds to `waitHandles`. -/
def serviced (p : NamedPipe.State) (t : PipeTick) : Option (NamedPipe.State × Bool × List WaitOn) :=
  NamedPipe.serviceIo (NamedPipe.osTakes p t.takes) t.conn t.reads t.writes t.takesAtClose

/-- The first half of a turn: the agent, `didSomething`, and `waitHandles`.
src/agent/EventLoop.cc:42-51. -/
structure Pass where
  agent : State
  did : Bool
  handles : List (Which × WaitOn)

/-- One pipe's turn: `service` is what `serviceIo` says about the pipe, `agent` the agent after
`serviceIo` and, if something happened, `onPipeIo`.  src/agent/EventLoop.cc:47-50. -/
def visit (p : Pass) (which : Which) (service : Option (NamedPipe.State × Bool × List WaitOn))
    (agent : Option State) : Option Pass :=
  match service, agent with
  | some (_, did, events), some s =>
    some ⟨s, p.did || did, p.handles ++ events.map fun e => (which, e)⟩
  | _, _ => none

/-- The CONERR pipe's turn, if there is such a pipe (src/agent/Agent.cc:175-177). -/
def visitConerr (p : Pass) (t : Tick) : Option Pass :=
  match p.agent.err with
  | none => some p
  | some (q, _) => visit p .conerr (serviced q t.conerr) (Agent.tickConerr p.agent t)

/-- Making progress with the pipes, src/agent/EventLoop.cc:41-51. -/
def pass (cfg : Cfg) (s : State) (t : Tick) : Option Pass :=
  (visit ⟨s, false, []⟩ .control (serviced s.control t.control) (Agent.tickControl cfg s t)).bind fun p1 =>
  (visit p1 .conin (serviced p1.agent.conin t.conin) (Agent.tickConin cfg p1.agent t)).bind fun p2 =>
  (visit p2 .conout (serviced p2.agent.conout t.conout) (Agent.tickConout p2.agent t)).bind fun p3 =>
  visitConerr p3 t

/-- What the loop does at the end of a turn, src/agent/EventLoop.cc:63-80: it goes round again at once,
sleeps, or waits for one of the events, for at most so many milliseconds. -/
inductive Pause where
  | again
  | sleep (ms : Int)
  | wait (handles : List (Which × WaitOn)) (ms : Int)
deriving DecidableEq

/-- The times at which the clock is read in a turn: src/agent/EventLoop.cc:55, 58 and 69. -/
structure Times where
  check : Nat
  polled : Nat
  asked : Nat

/-- The end of a turn in which nothing happened, src/agent/EventLoop.cc:66-80 (`Sleep` is not called
with 0); `none` if the assertion in line 71 fails.  `WaitForMultipleObjects` succeeds. -/
def pause (interval last : Int) (asked : Nat) (handles : List (Which × WaitOn)) : Option Pause :=
  if handles = [] then
    if timeout interval last asked = infinite then none else some (.sleep (timeout interval last asked))
  else some (.wait handles (timeout interval last asked))

/-- A turn of the loop: the agent, `lastTime`, whether `onPollTimeout` was called, and how the turn
ends.  src/agent/EventLoop.cc:41-80. -/
structure Done where
  agent : State
  last : Int
  polled : Bool
  pause : Pause

/-- A turn of the loop, src/agent/EventLoop.cc:41-80. -/
def turn (cfg : Cfg) (interval : Int) (s : State) (last : Int) (t : Tick) (e : PollEnv) (times : Times) :
    Option Done :=
  match pass cfg s t with
  | none => none
  | some p =>
    if due interval last times.check then
      match Agent.onPollTimeout cfg p.agent e with
      | none => none
      | some s' => some ⟨s', tickCount times.polled, true, .again⟩
    else if p.did then some ⟨p.agent, last, false, .again⟩
    else
      match pause interval last times.asked p.handles with
      | none => none
      | some w => some ⟨p.agent, last, false, w⟩

end Winpty.EventLoop
