/-!
# Model of `src/agent/NamedPipe.h` and `src/agent/NamedPipe.cc`

The operating system is an adversary: every call that can complete, pend or fail is given an answer
from outside (`Ans`, `ConnectAns`), and between any two operations the system may copy more bytes out
of the buffer of a pending write (`Op.osTakes`).  `Os` is a ledger of what passed between the process
and the system; the code never looks at it.  A failed `ASSERT` is the outcome `none`.
-/
namespace Winpty.NamedPipe

/-- `IoWorker::kIoSize`, src/agent/NamedPipe.h:61. -/
def ioSize : Nat := 64 * 1024

/-- The fields of `IoWorker`, src/agent/NamedPipe.h:57-62.  `buffer` is the part of `m_buffer` that
has been written to.  Simplification: the event and the `OVERLAPPED` structure are represented by
`pending` only. -/
structure Worker where
  pending : Bool
  currentIoSize : Nat
  buffer : List Nat

/-- The fields of `NamedPipe`, src/agent/NamedPipe.h:113-122: `opened` is `m_handle != NULL`,
`connecting` is `m_connectEvent.get() != nullptr`, `reading`/`writing` are the two bits of
`m_openMode`. -/
structure Pipe where
  opened : Bool
  connecting : Bool
  reading : Bool
  writing : Bool
  readBufferSize : Nat
  inQueue : List Nat
  outQueue : List Nat
  input : Option Worker
  output : Option Worker

/-- What the system has seen (not part of the program): `given`, the bytes passed to `WriteFile` so
far; `wire`, those of them it has actually copied towards the peer; `taken`, how many bytes of the
pending write it has copied already; `received`, the bytes delivered by completed reads; `reads`, for
each `ReadFile` the amount then buffered, the configured read-buffer size and the requested size.
Stands for the other side of src/agent/NamedPipe.cc:122-124. -/
structure Os where
  given : List Nat
  wire : List Nat
  taken : Nat
  received : List Nat
  reads : List (Nat × Nat × Nat)

/-- Program and ledger together.
src/agent/NamedPipe.h:113-122. -/
structure State where
  pipe : Pipe
  os : Os

/-- What `ReadFile`, `WriteFile` and `GetOverlappedResult` can answer
(src/agent/NamedPipe.cc:101, 122-124): not complete yet, complete, or failed.  For a read, `data` is
what arrives (cut to the requested size); for a write, `n` is the reported byte count (cut to the
requested size). -/
inductive Ans where
  | pending
  | done (n : Nat) (data : List Nat)
  | error
deriving DecidableEq

/-- What `GetOverlappedResult` can answer about the connection attempt,
src/agent/NamedPipe.cc:46-56. -/
inductive ConnectAns where
  | connected
  | incomplete
  | failed
deriving DecidableEq

/-- `NamedPipe::ServiceResult`, src/agent/NamedPipe.h:44. -/
inductive Result where
  | noProgress
  | error
  | progress
deriving DecidableEq

/-- Which worker `service` runs for: the two subclasses of `IoWorker`,
src/agent/NamedPipe.h:67-84. -/
inductive Side where
  | input
  | output
deriving DecidableEq

/-- A new `IoWorker`: src/agent/NamedPipe.h:57-58, src/agent/NamedPipe.cc:90-94. -/
def newWorker : Worker := ⟨false, 0, []⟩

/-- Copy `data` to the start of a buffer.
`std::copy`, src/agent/NamedPipe.cc:192, and the store performed by `ReadFile`, 123. -/
def overwrite (buffer data : List Nat) : List Nat := data ++ buffer.drop data.length

/-- `NamedPipe::isClosed`, src/agent/NamedPipe.h:107. -/
def Pipe.isClosed (p : Pipe) : Bool := !p.opened

/-- `NamedPipe::isConnecting`, src/agent/NamedPipe.h:109. -/
def Pipe.isConnecting (p : Pipe) : Bool := p.connecting

/-- `NamedPipe::isConnected`, src/agent/NamedPipe.h:108. -/
def Pipe.isConnected (p : Pipe) : Bool := !p.isClosed && !p.isConnecting

/-- The worker of one side.
src/agent/NamedPipe.h:121-122. -/
def Pipe.worker (p : Pipe) : Side → Option Worker
  | .input => p.input
  | .output => p.output

/-- Replace the worker of one side.
src/agent/NamedPipe.h:121-122. -/
def Pipe.setWorker (p : Pipe) (side : Side) (w : Worker) : Pipe :=
  match side with
  | .input => { p with input := some w }
  | .output => { p with output := some w }

/-- `startPipeWorkers`, src/agent/NamedPipe.cc:275-283. -/
def startPipeWorkers (p : Pipe) : Pipe :=
  { p with
    input := if p.reading then some newWorker else p.input
    output := if p.writing then some newWorker else p.output }

/-- Result of `shouldIssueIo`, src/agent/NamedPipe.h:64. -/
inductive Issue where
  | assertFailed
  | no
  | yes (s : State) (size : Nat)

/-- `InputWorker::shouldIssueIo`, src/agent/NamedPipe.cc:167-179 (`readBufferSize` asserts that the
pipe is open for reading, 307-311), and `OutputWorker::shouldIssueIo`, 186-199. -/
def shouldIssueIo (side : Side) (s : State) (w : Worker) : Issue :=
  match side with
  | .input =>
    if s.pipe.isConnecting then .assertFailed
    else if s.pipe.isClosed then .no
    else if !s.pipe.reading then .assertFailed
    else if s.pipe.inQueue.length < s.pipe.readBufferSize then .yes s ioSize
    else .no
  | .output =>
    if s.pipe.outQueue ≠ [] then
      .yes { s with pipe := { s.pipe with
                outQueue := s.pipe.outQueue.drop (min s.pipe.outQueue.length ioSize)
                output := some { w with
                  buffer := overwrite w.buffer
                    (s.pipe.outQueue.take (min s.pipe.outQueue.length ioSize)) } } }
        (min s.pipe.outQueue.length ioSize)
    else .no

/-- The system is asked to start an operation: the ledger entry for `ReadFile`/`WriteFile` at
src/agent/NamedPipe.cc:122-124. -/
def noteCall (side : Side) (s : State) (w : Worker) (size : Nat) : Os :=
  match side with
  | .input =>
    { s.os with reads := s.os.reads ++ [(s.pipe.inQueue.length, s.pipe.readBufferSize, size)] }
  | .output => { s.os with given := s.os.given ++ w.buffer.take size, taken := 0 }

/-- The system completes an operation of `size` bytes: for a read it stores the data in the buffer,
for a write it copies what it has not copied yet.  Returns the worker, the ledger and the reported
byte count.
The effect of a successful src/agent/NamedPipe.cc:101 or 122-124. -/
def transfer (side : Side) (o : Os) (w : Worker) (size n : Nat) (data : List Nat) :
    Worker × Os × Nat :=
  match side with
  | .input =>
    ({ w with buffer := overwrite w.buffer (data.take size) },
      { o with received := o.received ++ data.take size },
      (data.take size).length)
  | .output =>
    (w,
      { o with
        wire := o.wire ++ ((w.buffer.take (max o.taken (min n size))).drop o.taken)
        taken := max o.taken (min n size) },
      max o.taken (min n size))

/-- `InputWorker::completeIo`, src/agent/NamedPipe.cc:162-165, and `OutputWorker::completeIo`,
181-184. -/
def completeIo (side : Side) (s : State) (w : Worker) (actual : Nat) : Option State :=
  match side with
  | .input =>
    some { s with pipe := { s.pipe with inQueue := s.pipe.inQueue ++ w.buffer.take actual } }
  | .output => if actual = w.currentIoSize then some s else none

/-- Completion of an operation: the system transfers, then `completeIo` and `m_currentIoSize = 0`;
src/agent/NamedPipe.cc:110-113 and 134-136. -/
def finish (side : Side) (s : State) (w : Worker) (n : Nat) (data : List Nat) : Option State :=
  match completeIo side
      { pipe := s.pipe.setWorker side (transfer side s.os w w.currentIoSize n data).1
        os := (transfer side s.os w w.currentIoSize n data).2.1 }
      (transfer side s.os w w.currentIoSize n data).1
      (transfer side s.os w w.currentIoSize n data).2.2 with
  | none => none
  | some s' =>
    some { s' with
      pipe := s'.pipe.setWorker side
        { (transfer side s.os w w.currentIoSize n data).1 with pending := false, currentIoSize := 0 } }

/-- One iteration of the loop of `IoWorker::service`, src/agent/NamedPipe.cc:118-138: stop (with the
final state; `true` for a pipe error) or go round again. -/
inductive Iteration where
  | assertFailed
  | stop (s : State) (isError : Bool)
  | again (s : State)

/-- src/agent/NamedPipe.cc:118-138; `none` as answer stands for `.pending`. -/
def iterate (side : Side) (s : State) (a : Option Ans) : Iteration :=
  match s.pipe.worker side with
  | none => .stop s false
  | some w0 =>
    match shouldIssueIo side s w0 with
    | .assertFailed => .assertFailed
    | .no => .stop s false
    | .yes s1 size =>
      match s1.pipe.worker side with
      | none => .assertFailed
      | some w1 =>
        match a with
        | some .error =>
          .stop { pipe := s1.pipe.setWorker side { w1 with currentIoSize := size }
                  os := noteCall side s1 w1 size } true
        | some (.done n data) =>
          match finish side
              { pipe := s1.pipe.setWorker side { w1 with currentIoSize := size }
                os := noteCall side s1 w1 size }
              { w1 with currentIoSize := size } n data with
          | none => .assertFailed
          | some s2 => .again s2
        | _ =>
          .stop { pipe := s1.pipe.setWorker side { w1 with currentIoSize := size, pending := true }
                  os := noteCall side s1 w1 size } false

/-- The loop of `IoWorker::service`, src/agent/NamedPipe.cc:118-139, with the answers of the system
to the successive calls; when they run out the next call pends. -/
def serviceLoop (side : Side) (s : State) (progress : Bool) : List Ans → Option (State × Result)
  | [] =>
    match iterate side s none with
    | .assertFailed => none
    | .stop s' isError => some (s', if isError then .error else if progress then .progress else .noProgress)
    | .again s' => some (s', .progress)
  | a :: rest =>
    match iterate side s (some a) with
    | .assertFailed => none
    | .stop s' isError => some (s', if isError then .error else if progress then .progress else .noProgress)
    | .again s' => serviceLoop side s' true rest

/-- `IoWorker::service`, src/agent/NamedPipe.cc:96-143.  If an operation is pending the first answer
is that of `GetOverlappedResult`. -/
def service (side : Side) (s : State) (answers : List Ans) : Option (State × Result) :=
  match s.pipe.worker side with
  | none => some (s, .noProgress)
  | some w =>
    if w.pending then
      match answers with
      | .done n data :: rest =>
        match finish side s w n data with
        | none => none
        | some s' => serviceLoop side s' true rest
      | .error :: _ => some (s, .error)
      | _ => some (s, .noProgress)
    else serviceLoop side s false answers

/-- The system copies up to `k` more bytes of the pending write.
Environment step for the write issued at src/agent/NamedPipe.cc:124. -/
def osTakes (s : State) (k : Nat) : State :=
  match s.pipe.output with
  | some w =>
    if w.pending then
      { s with os := { s.os with
          wire := s.os.wire ++ (w.buffer.take (min (s.os.taken + k) w.currentIoSize)).drop s.os.taken
          taken := max s.os.taken (min (s.os.taken + k) w.currentIoSize) } }
    else s
  | none => s

/-- `NamedPipe::closePipe`, src/agent/NamedPipe.cc:357-378, and `waitForCanceledIo`, 148-155.  Before
the cancellation takes effect the system may copy up to `k` more bytes of a pending write. -/
def closePipe (s : State) (k : Nat) : State :=
  if s.pipe.isClosed then s
  else
    { (osTakes s k) with
      pipe := { (osTakes s k).pipe with
        opened := false, connecting := false, input := none, output := none } }

/-- Events `serviceIo` adds to the list to wait on.
src/agent/NamedPipe.cc:58, 73, 76. -/
inductive WaitOn where
  | connect
  | input
  | output
deriving DecidableEq

/-- Whether `getWaitEvent` gives an event: src/agent/NamedPipe.cc:157-160. -/
def hasWaitEvent : Option Worker → Bool
  | some w => w.pending
  | none => false

/-- The second half of `NamedPipe::serviceIo`, src/agent/NamedPipe.cc:65-81. -/
def serviceWorkers (s : State) (justConnected : Bool) (waits : List WaitOn) (readAns writeAns : List Ans)
    (k : Nat) : Option (State × Bool × List WaitOn) :=
  match service .input s readAns with
  | none => none
  | some (s1, r) =>
    match service .output s1 writeAns with
    | none => none
    | some (s2, w) =>
      if r = .error ∨ w = .error then some (closePipe s2 k, true, waits)
      else
        some (s2, justConnected || decide (r = .progress) || decide (w = .progress),
          waits ++ (if hasWaitEvent s2.pipe.input then [.input] else [])
            ++ (if hasWaitEvent s2.pipe.output then [.output] else []))

/-- `NamedPipe::serviceIo`, src/agent/NamedPipe.cc:33-81: the new state, whether anything happened,
and the events to wait on. -/
def serviceIo (s : State) (conn : ConnectAns) (readAns writeAns : List Ans) (k : Nat) :
    Option (State × Bool × List WaitOn) :=
  if s.pipe.isClosed then some (s, false, [])
  else if s.pipe.connecting then
    match conn with
    | .failed => none
    | .incomplete => serviceWorkers s false [.connect] readAns writeAns k
    | .connected =>
      serviceWorkers { s with pipe := startPipeWorkers { s.pipe with connecting := false } } true []
        readAns writeAns k
  else serviceWorkers s false [] readAns writeAns k

/-- `NamedPipe::bytesToSend`, src/agent/NamedPipe.cc:285-293, and `getPendingIoSize`, 201-204. -/
def bytesToSend (p : Pipe) : Option Nat :=
  if p.writing then
    some (p.outQueue.length +
      match p.output with
      | some w => if w.pending then w.currentIoSize else 0
      | none => 0)
  else none

/-- What the agent (src/agent/NamedPipe.h:92-108) and the system can do with a pipe. -/
inductive Op where
  /-- `write`, src/agent/NamedPipe.cc:295-299. -/
  | write (data : List Nat)
  /-- `read`, src/agent/NamedPipe.cc:333-338. -/
  | read (n : Nat)
  /-- `peek`, src/agent/NamedPipe.cc:324-331. -/
  | peek (n : Nat)
  /-- `readToString`, src/agent/NamedPipe.cc:340-347. -/
  | readToString (n : Nat)
  /-- `readAllToString`, src/agent/NamedPipe.cc:349-355. -/
  | readAllToString
  /-- `setReadBufferSize`, src/agent/NamedPipe.cc:312-316. -/
  | setReadBufferSize (n : Nat)
  /-- `serviceIo`, src/agent/NamedPipe.cc:33-81. -/
  | serviceIo (conn : ConnectAns) (readAns writeAns : List Ans) (k : Nat)
  /-- `closePipe`, src/agent/NamedPipe.cc:357-378. -/
  | closePipe (k : Nat)
  /-- The system copies more bytes of a pending write (src/agent/NamedPipe.cc:124). -/
  | osTakes (k : Nat)

/-- One operation; the bytes are the return value of the reading functions.
The functions cited at `Op`; src/agent/NamedPipe.cc:33-378. -/
def step (s : State) : Op → Option (State × List Nat)
  | .write data =>
    if s.pipe.writing then
      some ({ s with pipe := { s.pipe with outQueue := s.pipe.outQueue ++ data } }, [])
    else none
  | .peek n =>
    if s.pipe.reading then some (s, s.pipe.inQueue.take (min n s.pipe.inQueue.length)) else none
  | .read n =>
    if s.pipe.reading then
      some ({ s with pipe := { s.pipe with
                inQueue := s.pipe.inQueue.drop (min n s.pipe.inQueue.length) } },
        s.pipe.inQueue.take (min n s.pipe.inQueue.length))
    else none
  | .readToString n =>
    if s.pipe.reading then
      some ({ s with pipe := { s.pipe with
                inQueue := s.pipe.inQueue.drop (min n s.pipe.inQueue.length) } },
        s.pipe.inQueue.take (min n s.pipe.inQueue.length))
    else none
  | .readAllToString =>
    if s.pipe.reading then
      some ({ s with pipe := { s.pipe with inQueue := [] } }, s.pipe.inQueue)
    else none
  | .setReadBufferSize n =>
    if s.pipe.reading then some ({ s with pipe := { s.pipe with readBufferSize := n } }, [])
    else none
  | .serviceIo conn ra wa k =>
    match NamedPipe.serviceIo s conn ra wa k with
    | none => none
    | some (s', _, _) => some (s', [])
  | .closePipe k => some (NamedPipe.closePipe s k, [])
  | .osTakes k => some (NamedPipe.osTakes s k, [])

/-- A sequence of operations with the bytes each returned.
Any sequence of the calls in src/agent/NamedPipe.h:92-106. -/
def run (s : State) : List Op → Option (State × List (List Nat))
  | [] => some (s, [])
  | op :: ops =>
    match step s op with
    | none => none
    | some (s', r) =>
      match run s' ops with
      | none => none
      | some (s'', rs) => some (s'', r :: rs)

/-- A pipe just opened: by `openServerPipe`, src/agent/NamedPipe.cc:206-252 (`connected` says whether
the client was there already) or by `connectToServer`, 254-273 (`connected = true`).  The system calls
that create the pipe are not modelled: they succeeded. -/
def opened (reading writing connected : Bool) : State :=
  { pipe :=
      if connected then
        startPipeWorkers ⟨true, false, reading, writing, 64 * 1024, [], [], none, none⟩
      else ⟨true, true, reading, writing, 64 * 1024, [], [], none, none⟩
    os := ⟨[], [], 0, [], []⟩ }

end Winpty.NamedPipe
