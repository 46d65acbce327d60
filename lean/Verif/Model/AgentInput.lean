import Verif.Model.Agent
import Verif.Model.ConsoleInput

/-!
# Model of the input side of `src/agent/Agent.cc`: the agent with its `ConsoleInput`

`Verif/Model/Agent.lean` represents `ConsoleInput` by what it can do to the rest of the agent.  Here
the two are put together: the bytes read from the CONIN pipe go to a `ConsoleInput`
(`Verif/Model/ConsoleInput.lean`), which decides how often the terminal is queried and whether it
should report the mouse, and which delivers events to the console.  `hist` records in order what
passes between the agent and the console's input side; the code never looks at it.
-/
namespace Winpty.AgentInput

open Winpty.Agent (PipeTick Tick PollEnv TermCall)
open Winpty.ConsoleInput (Sys Env Rect Obj Out)
open Winpty.InputMap (Node)

/-- What passes between the agent and the console's input side: bytes taken from the CONIN pipe are
handled (src/agent/Agent.cc:462-472), the console mode is found to be `m` (src/agent/ConsoleInput.cc:293),
the timeout of incomplete sequences is checked (src/agent/Agent.cc:482), the agent learns the visible
window (565 and 595), a `WINDOW_BUFFER_SIZE_EVENT` is written (583-587), an event made from typed input
is delivered (src/agent/ConsoleInput.cc:349-359, 398-403 and 696-697). -/
inductive Entry where
  | read (now : Nat) (bytes : List Nat)
  | mode (m : Nat)
  | check (now : Nat)
  | window (r : Rect)
  | size (cols rows : Int)
  | event (e : Out)
deriving DecidableEq

/-- The fixed part: that of the agent, that of `ConsoleInput` (the keyboard layout, the key table, what
the system answers while the byte at an offset of the input stream is handled), the mouse mode
(src/agent/Agent.cc:153) and whether the debug flag `input_separated_bytes` is set (463). -/
structure Cfg where
  agent : Agent.Cfg
  sys : Sys
  root : Node
  env : Nat → Env
  mouseMode : Nat
  separated : Bool

/-- The agent with its `ConsoleInput`, src/agent/Agent.h:76-100. -/
structure State where
  agent : Agent.State
  input : Obj
  hist : List Entry

/-- What the world answers during `onPollTimeout`, src/agent/Agent.cc:475-512: the console mode
(`GetConsoleMode`, 0 if it fails; src/agent/ConsoleInput.cc:293 and 844-852), the clock (284), the
primary buffer's window (src/agent/Agent.cc:594-595), and the rest as in `Agent.PollEnv`. -/
structure Poll where
  mode : Nat
  now : Nat
  window : Rect
  childSignalled : Bool
  title : List Nat
  scrapeOut : List TermCall
  scrapeErr : List TermCall

/-- The answers for the rest of the agent, given whether `ConsoleInput` wants the mouse.
src/agent/Agent.cc:478. -/
def Poll.env (p : Poll) (wantMouse : Bool) : PollEnv :=
  ⟨wantMouse, p.childSignalled, p.title, p.scrapeOut, p.scrapeErr⟩

/-- One turn of the event loop (src/agent/EventLoop.cc:41-81): the answers for each pipe, the primary
buffer's window after the last resize of the turn (src/agent/Agent.cc:564-565), the buffer sizes at the
successive resizes (585), the clock at the successive calls of `writeInput`
(src/agent/ConsoleInput.cc:279) and, if the poll interval has elapsed, the answers for the poll.
Simplification: only the last window of the turn's resizes is given, since no input is handled
between them. -/
structure Turn where
  control : PipeTick
  conin : PipeTick
  conout : PipeTick
  conerr : PipeTick
  window : Rect
  sizes : Nat → Int × Int
  now : Nat → Nat
  poll : Option Poll

/-- The turn as the rest of the agent sees it, given how often `ConsoleInput` calls `sendDsr` and
whether it wants the mouse.
src/agent/EventLoop.cc:41-81. -/
def Turn.tick (t : Turn) (dsr : Nat) (wantMouse : Bool) : Tick :=
  ⟨t.control, t.conin, t.conout, t.conerr, dsr, t.poll.map fun p => p.env wantMouse⟩

/-- The events delivered to the console between two states of `ConsoleInput`, for the record.
src/agent/ConsoleInput.cc:349-359, 398-403 and 696-697. -/
def delivered (o o' : Obj) : List Entry :=
  ((o'.st.out.drop o.st.out.length).filter (· ≠ .dsr)).map .event

/-- How often `sendDsr` was called between two states of `ConsoleInput`.
src/agent/ConsoleInput.cc:276. -/
def newQueries (o o' : Obj) : Nat := (o'.st.out.drop o.st.out.length).count .dsr

/-- `setMouseWindowRect`, src/agent/ConsoleInput.h:45 with src/agent/Agent.cc:565 and 595. -/
def setMouseWindowRect (s : State) (r : Rect) : State :=
  { s with
    input := { s.input with st := { s.input.st with rect := r } }
    hist := s.hist ++ [.window r] }

/-- How many resizes the agent has carried out according to its log.
src/agent/Agent.cc:554-588. -/
def resizes : List Agent.Entry → Nat
  | [] => 0
  | .resized _ _ :: log => resizes log + 1
  | _ :: log => resizes log

/-- The size events written by successive resizes, src/agent/Agent.cc:583-587. -/
def sizeEvents (sizes : Nat → Int × Int) (n : Nat) : List Entry :=
  (List.range n).map fun i => .size (sizes i).1 (sizes i).2

/-- The effects of the turn's resizes on the input side, src/agent/Agent.cc:565 and 583-587. -/
def noteResizes (s : State) (t : Turn) (n : Nat) : State :=
  if n = 0 then s
  else
    { setMouseWindowRect s t.window with
      hist := (setMouseWindowRect s t.window).hist ++ sizeEvents t.sizes n }

/-- The control pipe's turn, src/agent/EventLoop.cc:46-51 with src/agent/Agent.cc:280. -/
def tickControl (cfg : Cfg) (s : State) (t : Turn) : Option State :=
  match Agent.tickControl cfg.agent s.agent (t.tick 0 false) with
  | none => none
  | some a =>
    some (noteResizes { s with agent := a } t (resizes (a.log.drop s.agent.log.length)))

/-- `ConsoleInput::writeInput` with the queries it makes.
src/agent/Agent.cc:468 and 471, src/agent/ConsoleInput.cc:237-280. -/
def write (cfg : Cfg) (s : State) (now : Nat) (bytes : List Nat) : Option State :=
  match ConsoleInput.writeInput cfg.sys cfg.root cfg.env now s.input bytes with
  | none => none
  | some o =>
    match Agent.sendDsrs cfg.agent s.agent (newQueries s.input o) with
    | none => none
    | some a => some ⟨a, o, s.hist ++ .read now bytes :: delivered s.input o⟩

/-- The loop of src/agent/Agent.cc:467-469; `k` calls have been made before. -/
def writeEach (cfg : Cfg) (s : State) (now : Nat → Nat) (k : Nat) : List Nat → Option State
  | [] => some s
  | b :: bs =>
    match write cfg s (now k) [b] with
    | none => none
    | some s' => writeEach cfg s' now (k + 1) bs

/-- `Agent::pollConinPipe`, src/agent/Agent.cc:460-473. -/
def pollConinPipe (cfg : Cfg) (s : State) (now : Nat → Nat) : Option State :=
  match NamedPipe.step s.agent.conin .readAllToString with
  | none => none
  | some (p, data) =>
    if cfg.separated then writeEach cfg { s with agent := { s.agent with conin := p } } now 0 data
    else write cfg { s with agent := { s.agent with conin := p } } (now 0) data

/-- The CONIN pipe's turn, src/agent/EventLoop.cc:46-51 with src/agent/Agent.cc:278. -/
def tickConin (cfg : Cfg) (s : State) (t : Turn) : Option State :=
  match Agent.servicePipe s.agent.conin t.conin with
  | none => none
  | some (p, did) =>
    if did then pollConinPipe cfg { s with agent := { s.agent with conin := p } } t.now
    else some { s with agent := { s.agent with conin := p } }

/-- The turns of the output pipes, src/agent/EventLoop.cc:46-51 with src/agent/Agent.cc:276. -/
def tickOutputs (s : State) (t : Turn) : Option State :=
  match Agent.tickConout s.agent (t.tick 0 false) with
  | none => none
  | some a1 =>
    match Agent.tickConerr a1 (t.tick 0 false) with
    | none => none
    | some a2 => some { s with agent := a2 }

/-- `updateInputFlags` as called at src/agent/Agent.cc:477. -/
def updateInputFlags (s : State) (mode : Nat) : State :=
  { s with
    input := { s.input with st := ConsoleInput.updateInputFlags mode s.input.st }
    hist := s.hist ++ [.mode mode] }

/-- `flushIncompleteEscapeCode` as called at src/agent/Agent.cc:482. -/
def flushIncompleteEscapeCode (cfg : Cfg) (s : State) (now : Nat) : Option State :=
  match ConsoleInput.flushIncompleteEscapeCode cfg.sys cfg.root cfg.env now s.input with
  | none => none
  | some o => some { s with input := o, hist := s.hist ++ .check now :: delivered s.input o }

/-- `Agent::onPollTimeout`, src/agent/Agent.cc:475-512. -/
def onPollTimeout (cfg : Cfg) (s : State) (p : Poll) : Option State :=
  match flushIncompleteEscapeCode cfg (updateInputFlags s p.mode) p.now with
  | none => none
  | some s1 =>
    match Agent.onPollTimeout cfg.agent s1.agent
        (p.env (ConsoleInput.shouldActivateTerminalMouse (updateInputFlags s p.mode).input)) with
    | none => none
    | some a =>
      if s1.agent.closing then some { s1 with agent := a }
      else some (setMouseWindowRect { s1 with agent := a } p.window)

/-- One turn of the event loop, src/agent/EventLoop.cc:41-64. -/
def tick (cfg : Cfg) (s : State) (t : Turn) : Option State :=
  (tickControl cfg s t).bind fun s1 => (tickConin cfg s1 t).bind fun s2 =>
  (tickOutputs s2 t).bind fun s3 =>
  match t.poll with
  | none => some s3
  | some p => onPollTimeout cfg s3 p

/-- `EventLoop::run`, src/agent/EventLoop.cc:37-82, for the given turns. -/
def loop (cfg : Cfg) (s : State) : List Turn → Option State
  | [] => some s
  | t :: ts => if s.agent.exiting then some s else (tick cfg s t).bind fun s' => loop cfg s' ts

/-- `Agent::Agent`, src/agent/Agent.cc:146-223, and `ConsoleInput::ConsoleInput`,
src/agent/ConsoleInput.cc:195-235: the console's mode is found to be `mode` (0 if it cannot be read)
and `ConsoleInput.startupMode` is set (`canSet`: both calls succeed); the flags are updated from the mode
the console then reports. -/
def start (cfg : Cfg) (names : List (List Nat)) (connected : Bool × Bool × Bool) (cols rows : Int)
    (out err : List TermCall) (mode : Nat) (canSet : Bool) : Option State :=
  match Agent.start cfg.agent names connected cols rows out err with
  | none => none
  | some a => some (updateInputFlags ⟨a, { mouseMode := cfg.mouseMode }, []⟩
    (if canSet then ConsoleInput.startupMode cfg.mouseMode mode else mode))

end Winpty.AgentInput
