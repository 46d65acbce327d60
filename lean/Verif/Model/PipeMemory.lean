/-!
# Model of the memory the agent's pipes lend to the operating system

`src/agent/NamedPipe.{h,cc}`.  The agent's pipes use overlapped operations: from `ConnectNamedPipe`,
`ReadFile` or `WriteFile` until the operation is over, the operating system may write to the
`OVERLAPPED` record and to the buffer and sets the event.  The model says when which memory is made,
lent, looked at and given back.  What is read and written is in `Model/NamedPipe.lean`.

The memory is used here whether that is allowed or not: that it is allowed is what is to be proved.

Simplifications: a worker with its buffer, record and event is one piece of memory, and so are
`m_connectEvent` and `m_connectOver`; how often `shouldIssueIo` is true is chosen freely; a failed
`ASSERT` is the field `stopped`.
-/
namespace Winpty.PipeMemory

/-- `InputWorker` and `OutputWorker`, src/agent/NamedPipe.h:67-84. -/
inductive Dir where
  | input
  | output
deriving DecidableEq, Repr

/-- What is lent: `m_connectEvent` and `m_connectOver`, src/agent/NamedPipe.h:114-115, or a worker's
`m_event`, `m_over` and `m_buffer`, src/agent/NamedPipe.h:59-62. -/
inductive Slot where
  | connect
  | io (d : Dir)
deriving DecidableEq, Repr

/-- What can be seen to happen: memory is made, lent with an operation, given back by the operating
system, looked at or changed by the agent, and freed; the pipe's handle is opened and closed; the pipe
itself is deleted. -/
inductive Event where
  | made (k : Slot)
  | lent (k : Slot)
  | back (k : Slot)
  | touched (k : Slot)
  | freed (k : Slot)
  | opened
  | closed
  | deleted
deriving DecidableEq, Repr

/-- A pipe: `m_handle` is set, `m_connectEvent` is set, the modes of `m_openMode`, the workers with
their `m_pending`; `lent` is what the operating system has. -/
structure State where
  handle : Bool := false
  connecting : Bool := false
  mode : Dir → Bool := fun _ => false
  wk : Dir → Option Bool := fun _ => none
  lent : Slot → Bool := fun _ => false
  stopped : Bool := false
  log : List Event := []

/-- Record what happens. -/
def State.emit (s : State) (e : Event) : State := { s with log := s.log ++ [e] }

/-- A worker is made, changed or freed. -/
def State.setWk (s : State) (d : Dir) (v : Option Bool) : State :=
  { s with wk := fun x => if x = d then v else s.wk x }

/-- The operating system gets some memory or gives it back. -/
def State.setLent (s : State) (k : Slot) (v : Bool) : State :=
  { s with lent := fun x => if x = k then v else s.lent x }

/-- An operation starts. -/
def State.lend (s : State) (k : Slot) : State := (s.setLent k true).emit (.lent k)

/-- An operation is over. -/
def State.giveBack (s : State) (k : Slot) : State := (s.setLent k false).emit (.back k)

/-- `GetOverlappedResult` with `bWait` waits until an operation is over. -/
def State.await (s : State) (k : Slot) : State := if s.lent k then s.giveBack k else s

/-- What the operating system answers to `ReadFile` or `WriteFile`: done, pending, or an error. -/
inductive Ans where
  | done
  | pending
  | error
deriving DecidableEq, Repr

/-- The loop of `IoWorker::service`, src/agent/NamedPipe.cc:119-142; the list has an answer for each
time `shouldIssueIo` is true.  The result's second part: is there an error? -/
def issue (d : Dir) (s : State) : List Ans → State × Bool
  | [] => (s, false)
  | .done :: rest =>
    issue d ((((s.emit (.touched (.io d))).lend (.io d)).giveBack (.io d)).emit (.touched (.io d))) rest
  | .pending :: _ => (((s.emit (.touched (.io d))).lend (.io d)).setWk d (some true), false)
  | .error :: _ => (((s.emit (.touched (.io d))).lend (.io d)).giveBack (.io d), true)

/-- `IoWorker::service`, src/agent/NamedPipe.cc:96-143, if there is a worker (lines 66-67); `ok` is
whether a finished operation has succeeded. -/
def service (d : Dir) (s : State) (ok : Bool) (as : List Ans) : State × Bool :=
  match s.wk d with
  | none => (s, false)
  | some true =>
    if s.lent (.io d) then (s, false)
    else if ok then issue d ((s.emit (.touched (.io d))).setWk d (some false)) as
    else (s, true)
  | some false => issue d s as

/-- `IoWorker::waitForCanceledIo`, src/agent/NamedPipe.cc:148-155, and the `reset` after it, lines
368-375. -/
def dropWorker (d : Dir) (s : State) : State :=
  match s.wk d with
  | none => s
  | some true => ((s.await (.io d)).emit (.freed (.io d))).setWk d none
  | some false => (s.emit (.freed (.io d))).setWk d none

/-- `m_connectEvent.dispose()`, src/agent/NamedPipe.cc:61, 247, 366. -/
def dropConnect (s : State) : State :=
  { s with connecting := false }.emit (.freed .connect)

/-- `NamedPipe::closePipe`, src/agent/NamedPipe.cc:357-378. -/
def closePipe (s : State) : State :=
  if s.handle then
    let s1 := if s.connecting then dropConnect (s.await .connect) else s
    let s2 := dropWorker .output (dropWorker .input s1)
    { s2 with handle := false }.emit .closed
  else s

/-- `m_inputWorker.reset(new InputWorker(*this))`, src/agent/NamedPipe.cc:277-282: a worker that is
there already would be freed without waiting for it. -/
def newWorker (d : Dir) (s : State) : State :=
  match s.wk d with
  | none => (s.emit (.made (.io d))).setWk d (some false)
  | some _ => ((s.emit (.freed (.io d))).emit (.made (.io d))).setWk d (some false)

/-- `NamedPipe::startPipeWorkers`, src/agent/NamedPipe.cc:275-283. -/
def startPipeWorkers (s : State) : State :=
  let s1 := if s.mode .input then newWorker .input s else s
  if s.mode .output then newWorker .output s1 else s1

/-- `NamedPipe::openServerPipe`, src/agent/NamedPipe.cc:206-252; the answer is that of
`ConnectNamedPipe`.  If there were an event already, it would be closed by the assignment of line 237. -/
def openServerPipe (s : State) (mode : Dir → Bool) (a : Ans) : State :=
  if s.handle ∨ (mode .input = false ∧ mode .output = false) then { s with stopped := true }
  else
    let s1 := { s with handle := true, mode := mode }.emit .opened
    let s2 := (if s1.connecting then dropConnect s1 else s1).emit (.made .connect)
    let s3 := ({ s2 with connecting := true }.emit (.touched .connect)).lend .connect
    match a with
    | .done => startPipeWorkers (dropConnect (s3.giveBack .connect))
    | .pending => s3
    | .error => { s3.giveBack .connect with stopped := true }

/-- `NamedPipe::connectToServer`, src/agent/NamedPipe.cc:254-273. -/
def connectToServer (s : State) (mode : Dir → Bool) : State :=
  if s.handle ∨ (mode .input = false ∧ mode .output = false) then { s with stopped := true }
  else startPipeWorkers ({ s with handle := true, mode := mode }.emit .opened)

/-- The first part of `NamedPipe::serviceIo`, src/agent/NamedPipe.cc:42-65: is the pipe connected? -/
def serviceConnect (s : State) (ok : Bool) : State :=
  if s.connecting then
    if s.lent .connect then s
    else if ok then startPipeWorkers (dropConnect s)
    else { s with stopped := true }
  else s

/-- `NamedPipe::serviceIo`, src/agent/NamedPipe.cc:33-81.  Both workers are serviced, even if there is
an error with the first. -/
def serviceIo (s : State) (okC okI : Bool) (asI : List Ans) (okO : Bool) (asO : List Ans) : State :=
  if s.handle then
    let s1 := serviceConnect s okC
    if s1.stopped then s1
    else
      let s2 := service .input s1 okI asI
      let s3 := service .output s2.1 okO asO
      if s2.2 || s3.2 then closePipe s3.1 else s3.1
  else s

/-- `NamedPipe::~NamedPipe`, src/agent/NamedPipe.h:40, then the members' destructors: a worker or an
event that is still there would be freed without waiting. -/
def delete (s : State) : State :=
  let s0 := closePipe s
  let s1 := if (s0.wk .output).isSome then (s0.emit (.freed (.io .output))).setWk .output none else s0
  let s2 := if (s1.wk .input).isSome then (s1.emit (.freed (.io .input))).setWk .input none else s1
  let s3 := if s2.connecting then dropConnect s2 else s2
  { s3 with stopped := true }.emit .deleted

/-- What is called, and what the operating system does meanwhile (`over`: it has finished an
operation). -/
inductive Label where
  | openServer (mode : Dir → Bool) (a : Ans)
  | connect (mode : Dir → Bool)
  | service (okC okI : Bool) (asI : List Ans) (okO : Bool) (asO : List Ans)
  | close
  | delete
  | over (k : Slot)

/-- A step; after a failed assertion or when the pipe is deleted nothing is called any more. -/
def step (s : State) (l : Label) : State :=
  if s.stopped then s
  else
    match l with
    | .openServer mode a => openServerPipe s mode a
    | .connect mode => connectToServer s mode
    | .service okC okI asI okO asO => serviceIo s okC okI asI okO asO
    | .close => closePipe s
    | .delete => PipeMemory.delete s
    | .over k => s.await k

/-- The life of a pipe. -/
def run (ls : List Label) : State := ls.foldl step {}

end Winpty.PipeMemory
