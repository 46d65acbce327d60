/-!
# Model of what the Unix adapter opens, starts, joins and closes

`main` of `src/unix-adapter/main.cc`, with the constructors, `shutdown` and destructors of
`InputHandler` and `OutputHandler`.  `Model/Adapter.lean` models what the threads relay; here it is only
of interest which objects the threads use, and when `main` joins the threads and closes the objects.
Threads and `main` are interleaved in any way.

An object is used, closed or joined here whether that is allowed or not: that it is allowed is what is
to be proved.

Simplifications: a wake-up pipe is one object, not two file descriptors; what the adapter allocates on
the heap is left out; `CloseHandle` and `pthread_join` succeed where they are allowed.
-/
namespace Winpty.AdapterObjects

/-- The threads beside the main thread: `InputHandler::threadProc`, src/unix-adapter/InputHandler.cc:57,
and `OutputHandler::threadProc`, src/unix-adapter/OutputHandler.cc:54, for `CONOUT` and, with
`-Xconerr`, for `CONERR`. -/
inductive Thread where
  | input
  | output
  | error
deriving DecidableEq, Repr

/-- The objects: `g_mainWakeup` (src/unix-adapter/main.cc:54), the session `wp` (line 609), the handles
`conin`, `conout`, `conerr` and `childHandle` (lines 618-632) and `InputHandler::m_wakeup`
(src/unix-adapter/InputHandler.h:50). -/
inductive Obj where
  | mainWake
  | session
  | conin
  | conout
  | conerr
  | child
  | inWake
deriving DecidableEq, Repr

/-- What can be seen to happen.  `used` is by any thread; `asked` is `m_shouldShutdown = 1`. -/
inductive Event where
  | opened (o : Obj)
  | used (o : Obj)
  | closed (o : Obj)
  | started (t : Thread)
  | ended (t : Thread)
  | joined (t : Thread)
  | asked
  | returned
deriving DecidableEq, Repr

/-- What the main thread does, one after the other. -/
inductive Op where
  | opn (o : Obj)
  | use (o : Obj)
  | close (o : Obj)
  /-- `pthread_create` -/
  | start (t : Thread)
  /-- the loop `while (true)`, src/unix-adapter/main.cc:680-702 -/
  | loop
  /-- `m_shouldShutdown = 1` -/
  | ask
  /-- `if (!m_threadHasBeenJoined) { pthread_join …; m_threadHasBeenJoined = true; }` -/
  | join (t : Thread)
  | ret
deriving DecidableEq, Repr

/-- `InputHandler::shutdown`, src/unix-adapter/InputHandler.cc:48-55, with `startShutdown`,
src/unix-adapter/InputHandler.h:36. -/
def shutdownInput : List Op := [.ask, .use .inWake, .join .input]

/-- `InputHandler::~InputHandler`, src/unix-adapter/InputHandler.h:34; the member `m_wakeup` is
destroyed after it, src/unix-adapter/WakeupFd.cc:46-49. -/
def destroyInput : List Op := shutdownInput ++ [.close .inWake]

/-- `OutputHandler::shutdown`, src/unix-adapter/OutputHandler.cc:46-52. -/
def shutdownOutput (t : Thread) : List Op := [.join t]

/-- `OutputHandler::~OutputHandler`, src/unix-adapter/OutputHandler.h:34. -/
def destroyOutput (t : Thread) : List Op := shutdownOutput t

/-- `main` up to its loop, src/unix-adapter/main.cc:585-678: the constructor of `InputHandler`
(src/unix-adapter/InputHandler.cc:36-46) makes `m_wakeup` before it starts the thread. -/
def startUp (conerr : Bool) : List Op :=
  [.opn .mainWake, .opn .session, .opn .conin, .opn .conout]
    ++ (if conerr then [.opn .conerr] else [])
    ++ [.use .session, .opn .child]
    ++ [.opn .inWake, .start .input]
    ++ [.start .output]
    ++ (if conerr then [.start .error] else [])

/-- `main` from the end of its loop, src/unix-adapter/main.cc:704-729: `winpty_free`, the two
`shutdown`s, `CloseHandle` of `CONIN` and `CONOUT`, `CONERR`'s thread and handle, the exit code, and
when `main` returns the destructors of `outputHandler` and of `inputHandler`. -/
def shutDown (conerr : Bool) : List Op :=
  [.close .session]
    ++ shutdownInput
    ++ shutdownOutput .output
    ++ [.close .conin, .close .conout]
    ++ (if conerr then shutdownOutput .error ++ destroyOutput .error ++ [.close .conerr] else [])
    ++ [.use .child, .close .child]
    ++ destroyOutput .output
    ++ destroyInput
    ++ [.ret]

/-- `main`, src/unix-adapter/main.cc:581-729; `conerr` is `args.testConerr`. -/
def program (conerr : Bool) : List Op := startUp conerr ++ [.loop] ++ shutDown conerr

/-- Where a thread is: `completed` is between `m_threadCompleted = 1` and its end,
src/unix-adapter/InputHandler.cc:112-113, src/unix-adapter/OutputHandler.cc:78-79. -/
inductive TState where
  | notStarted
  | running
  | completed
  | ended
deriving DecidableEq, Repr

/-- The adapter.  `pc` counts the steps of `main`; `flag` is `m_threadHasBeenJoined`,
src/unix-adapter/InputHandler.h:51, src/unix-adapter/OutputHandler.h:49; `stopped`: the process has
ended early (`assert`, `exit(1)`, src/unix-adapter/main.cc:611-663). -/
structure State where
  pc : Nat := 0
  thr : Thread → TState := fun _ => .notStarted
  flag : Thread → Bool := fun _ => false
  stopped : Bool := false
  log : List Event := []

/-- One step of one of the threads, with what the operating system answers. -/
inductive Label where
  /-- `main` makes its next step, and the call succeeds; in the loop: it leaves it -/
  | main
  /-- `main` makes its next step, and the call fails -/
  | mainFails
  /-- `main` makes its next step, which is `pthread_create`, and the call fails -/
  | noThread
  /-- `main` goes round its loop -/
  | again
  /-- a thread uses an object -/
  | use (t : Thread) (o : Obj)
  /-- a thread sets `m_threadCompleted` -/
  | complete (t : Thread)
  /-- a thread ends -/
  | finish (t : Thread)
deriving DecidableEq, Repr

/-- The objects a thread uses in its loop: src/unix-adapter/InputHandler.cc:57-111 (`m_wakeup`,
`m_conin`), src/unix-adapter/OutputHandler.cc:54-77 (`m_conout`, which is `CONERR` for the third
thread). -/
def Uses : Thread → Obj → Bool
  | .input, .inWake => true
  | .input, .conin => true
  | .output, .conout => true
  | .error, .conerr => true
  | _, _ => false

/-- A field of each thread is set. -/
def upd (f : Thread → α) (t : Thread) (v : α) : Thread → α := fun u => if u = t then v else f u

/-- Record what happens. -/
def State.emit (s : State) (e : Event) : State := { s with log := s.log ++ [e] }

/-- `main` has made a step. -/
def State.next (s : State) : State := { s with pc := s.pc + 1 }

/-- A step of `main` that succeeds, src/unix-adapter/main.cc:581-729.  The loop is left if a thread has
set `m_threadCompleted` (lines 697-700).  `pthread_join` waits until the thread has ended; it is called
even for a thread that was never started, because the answer of `pthread_create` is not looked at
(src/unix-adapter/InputHandler.cc:45, src/unix-adapter/OutputHandler.cc:43). -/
def mainStep (s : State) : Op → State
  | .opn o => (s.emit (.opened o)).next
  | .use o => (s.emit (.used o)).next
  | .close o => (s.emit (.closed o)).next
  | .start t => ({ s with thr := upd s.thr t .running }.emit (.started t)).next
  | .loop =>
    if s.thr .input = .completed ∨ s.thr .input = .ended ∨ s.thr .output = .completed ∨
        s.thr .output = .ended ∨ s.thr .error = .completed ∨ s.thr .error = .ended then
      (s.emit (.used .mainWake)).next
    else s
  | .ask => (s.emit .asked).next
  | .join t =>
    if s.flag t then s.next
    else
      match s.thr t with
      | .running => s
      | .completed => s
      | _ => ({ s with flag := upd s.flag t true }.emit (.joined t)).next
  | .ret => (s.emit .returned).next

/-- A step of `main` whose call fails: without one of its objects the adapter gives up (`assert`,
`exit(1)`, `abort`, src/unix-adapter/main.cc:610-663, src/unix-adapter/WakeupFd.cc:36-39), and if there
is no exit code it is 1 (src/unix-adapter/main.cc:724-726). -/
def mainFailStep (s : State) : Op → State
  | .opn _ => { s with stopped := true }
  | .use o => (s.emit (.used o)).next
  | _ => s

/-- A step.  A thread's last act is to set the main wake-up, src/unix-adapter/InputHandler.cc:113,
src/unix-adapter/OutputHandler.cc:79. -/
def step (conerr : Bool) (s : State) (l : Label) : State :=
  if s.stopped then s
  else
    match l with
    | .main =>
      match (program conerr)[s.pc]? with
      | none => s
      | some op => mainStep s op
    | .mainFails =>
      match (program conerr)[s.pc]? with
      | none => s
      | some op => mainFailStep s op
    | .noThread =>
      match (program conerr)[s.pc]? with
      | some (.start _) => s.next
      | _ => s
    | .again =>
      if (program conerr)[s.pc]? = some .loop then
        (s.emit (.used .mainWake)).emit (.used .session)
      else s
    | .use t o => if s.thr t = .running ∧ Uses t o = true then s.emit (.used o) else s
    | .complete t => if s.thr t = .running then { s with thr := upd s.thr t .completed } else s
    | .finish t =>
      if s.thr t = .completed then
        ({ s with thr := upd s.thr t .ended }.emit (.used .mainWake)).emit (.ended t)
      else s

/-- A run of the adapter. -/
def run (conerr : Bool) (ls : List Label) : State := ls.foldl (step conerr) {}

end Winpty.AdapterObjects
