/-!
# Model of the threads of the Unix adapter

`src/unix-adapter/main.cc` (`main`), `InputHandler.{h,cc}`, `OutputHandler.{h,cc}`, `WakeupFd.cc` and
`Util.cc`.  The adapter is a main thread, an input thread, an output thread and, on request, a second
output thread for `CONERR`.  Each access to something the threads share (a wake-up pipe, a flag) and
each call of the operating system is one step, and the threads' steps are interleaved in any way.  A
`Label` says which thread makes a step, and what the operating system answers.

Simplifications: memory is sequentially consistent (the flags are `volatile sig_atomic_t`); a wake-up
pipe is the number of bytes in it; `pthread_create`, `pthread_join` and `CloseHandle` succeed; tracing
is left out.  A failed `assert` and `abort()` are the field `aborted`; nothing happens after that or
after `main` has returned.  Fields whose comment begins with "ghost" are not in the code: they record
what the operating system was given and has given.
-/
namespace Winpty.Adapter

/-- `winsize`, src/unix-adapter/main.cc:592, 689. -/
structure WinSize where
  cols : Nat
  rows : Nat
  xpixel : Nat
  ypixel : Nat
deriving DecidableEq, Repr

/-- How many bytes a wake-up pipe can hold, and whether there is a second output thread
(`args.testConerr`, src/unix-adapter/main.cc:676). -/
structure Cfg where
  cap : Nat
  conerr : Bool

/-- The outcome of a step of a thread: the call does not return (yet), the process is aborted (`assert`,
`abort`, src/unix-adapter/Util.cc:51, 84), or go on. -/
inductive Step (α : Type) where
  | blocked
  | abort
  | ok (a : α)

/-! ## `WakeupFd` -/

/-- The `write` of `WakeupFd::set`, src/unix-adapter/WakeupFd.cc:51-57, to a pipe with `n` bytes: if the
pipe is full it fails (`EAGAIN`, because the pipe is non-blocking), and the function returns all the
same. -/
def pipeSet (cap n : Nat) : Nat := if n < cap then n + 1 else n

/-- One `read` of `WakeupFd::reset`, src/unix-adapter/WakeupFd.cc:62: with an empty pipe it fails with
`EAGAIN`, which ends the loop; otherwise it takes some bytes, at most 256; or it fails otherwise, which
aborts (lines 65-68).  The result is what is in the pipe and whether the loop is over. -/
inductive ResetAns where
  | took (amount : Nat)
  | empty
  | fail

/-- The loop body of `WakeupFd::reset`, src/unix-adapter/WakeupFd.cc:61-69. -/
def pipeReset (n : Nat) : ResetAns → Step (Nat × Bool)
  | .took k => if 1 ≤ k ∧ k ≤ n ∧ k ≤ 256 then .ok (n - k, false) else .blocked
  | .empty => if n = 0 then .ok (n, true) else .blocked
  | .fail => .abort

/-! ## The input thread -/

/-- Where the input thread is, src/unix-adapter/InputHandler.cc:57-114. -/
inductive InPc where
  | notStarted
  | reset
  | check
  | select
  | read
  | write (data : List Nat)
  | complete
  | wake
  | ended
deriving DecidableEq, Repr

/-- The fields of `InputHandler`, src/unix-adapter/InputHandler.h:42-51. -/
structure In where
  pc : InPc
  /-- `m_wakeup` -/
  wakeup : Nat
  /-- `m_shouldShutdown` -/
  shouldShutdown : Bool
  /-- `m_threadCompleted` -/
  completed : Bool
  /-- ghost: what was read from the terminal -/
  taken : List Nat
  /-- ghost: what the `CONIN` pipe has got -/
  given : List Nat
  /-- ghost: writing to the `CONIN` pipe has failed -/
  failed : Bool

/-- What the operating system answers to the input thread: the calls of
src/unix-adapter/InputHandler.cc:62-110. -/
inductive InAns where
  /-- there is nothing to answer -/
  | go
  /-- the call was interrupted (`EINTR`) -/
  | intr
  /-- the call failed; for a `read`, also the end of the file -/
  | fail
  /-- a `read` of the wake-up pipe -/
  | reset (a : ResetAns)
  /-- `select` returns: is there input from the terminal? -/
  | ready (tty : Bool)
  /-- `read` gives these bytes -/
  | data (bytes : List Nat)
  /-- `WriteFile` has written this number of bytes; has it succeeded? -/
  | wrote (n : Nat) (ok : Bool)

/-- A step of `InputHandler::threadProc`, src/unix-adapter/InputHandler.cc:57-114; `mainPipe` is the
completion wake-up.  `select` (line 74 and src/unix-adapter/Util.cc:62-86) returns when there is input
or when the wake-up pipe is not empty; if it is interrupted the set is emptied, so that line 75 goes on
with the loop. -/
def inStep (cap : Nat) (t : In) (mainPipe : Nat) (a : InAns) : Step (In × Nat) :=
  match t.pc, a with
  | .reset, .reset r =>
    match pipeReset t.wakeup r with
    | .blocked => .blocked
    | .abort => .abort
    | .ok (n, true) => .ok ({ t with wakeup := n, pc := .check }, mainPipe)
    | .ok (n, false) => .ok ({ t with wakeup := n }, mainPipe)
  | .check, .go => .ok ({ t with pc := if t.shouldShutdown then .complete else .select }, mainPipe)
  | .select, .intr => .ok ({ t with pc := .reset }, mainPipe)
  | .select, .fail => .abort
  | .select, .ready tty =>
    if tty then .ok ({ t with pc := .read }, mainPipe)
    else if t.wakeup = 0 then .blocked
    else .ok ({ t with pc := .reset }, mainPipe)
  | .read, .intr => .ok ({ t with pc := .reset }, mainPipe)
  | .read, .fail => .ok ({ t with pc := .complete }, mainPipe)
  | .read, .data bytes =>
    if 1 ≤ bytes.length ∧ bytes.length ≤ 4096 then
      .ok ({ t with pc := .write bytes, taken := t.taken ++ bytes }, mainPipe)
    else .blocked
  | .write bytes, .wrote n ok =>
    if bytes.length < n then .blocked
    else
      .ok ({ t with
             pc := if !ok || decide (n ≠ bytes.length) then .complete else .reset
             given := t.given ++ bytes.take n
             failed := t.failed || !ok || decide (n ≠ bytes.length) }, mainPipe)
  | .complete, .go => .ok ({ t with pc := .wake, completed := true }, mainPipe)
  | .wake, .intr => .ok (t, mainPipe)
  | .wake, .go => .ok ({ t with pc := .ended }, pipeSet cap mainPipe)
  | _, _ => .blocked

/-! ## An output thread -/

/-- Where an output thread is, src/unix-adapter/OutputHandler.cc:54-80 and
src/unix-adapter/Util.cc:32-56. -/
inductive OutPc where
  | notStarted
  | read
  | write (data : List Nat) (written : Nat)
  | complete
  | wake
  | ended
deriving DecidableEq, Repr

/-- The fields of `OutputHandler`, src/unix-adapter/OutputHandler.h:42-49. -/
structure Out where
  pc : OutPc
  /-- `m_threadCompleted` -/
  completed : Bool
  /-- ghost: what was read from the `CONOUT` or `CONERR` pipe -/
  taken : List Nat
  /-- ghost: what the terminal has got -/
  given : List Nat
  /-- ghost: writing to the terminal has failed -/
  failed : Bool

/-- What the operating system answers to an output thread: the calls of
src/unix-adapter/OutputHandler.cc:57-78. -/
inductive OutAns where
  | go
  | intr
  /-- the call failed; for `ReadFile`, also if it has read nothing -/
  | fail
  /-- `ReadFile` gives these bytes -/
  | data (bytes : List Nat)
  /-- `write` has written this number of bytes (not 0) -/
  | wrote (n : Nat)

/-- A step of `OutputHandler::threadProc`, src/unix-adapter/OutputHandler.cc:54-80, and of `writeAll`,
src/unix-adapter/Util.cc:32-56, which it calls. -/
def outStep (cap : Nat) (t : Out) (mainPipe : Nat) (a : OutAns) : Step (Out × Nat) :=
  match t.pc, a with
  | .read, .fail => .ok ({ t with pc := .complete }, mainPipe)
  | .read, .data bytes =>
    if 1 ≤ bytes.length ∧ bytes.length ≤ 4096 then
      .ok ({ t with pc := .write bytes 0, taken := t.taken ++ bytes }, mainPipe)
    else .blocked
  | .write _ _, .intr => .ok (t, mainPipe)
  | .write _ _, .fail => .ok ({ t with pc := .complete, failed := true }, mainPipe)
  | .write bytes written, .wrote n =>
    if n = 0 then .blocked
    else if ¬ n ≤ bytes.length - written then .abort
    else
      .ok ({ t with
             pc := if written + n < bytes.length then .write bytes (written + n) else .read
             given := t.given ++ (bytes.drop written).take n }, mainPipe)
  | .complete, .go => .ok ({ t with pc := .wake, completed := true }, mainPipe)
  | .wake, .intr => .ok (t, mainPipe)
  | .wake, .go => .ok ({ t with pc := .ended }, pipeSet cap mainPipe)
  | _, _ => .blocked

/-! ## The main thread -/

/-- Where the main thread is, src/unix-adapter/main.cc:581-729. -/
inductive MainPc where
  /-- line 595 -/
  | start
  /-- lines 597-667 -/
  | opening
  /-- line 669 -/
  | register
  /-- lines 670-671 -/
  | raw
  /-- lines 673-677 -/
  | startIn
  | startOut
  | startErr
  /-- lines 681-684 -/
  | select
  /-- line 685 -/
  | reset
  /-- lines 688-695 -/
  | size
  /-- lines 699-702 -/
  | checkIn
  | checkOut
  | checkErr
  /-- line 708 -/
  | free
  /-- line 710 -/
  | stopIn
  | wakeIn
  | joinIn
  /-- line 711 -/
  | joinOut
  /-- lines 715-719 -/
  | joinErr
  /-- line 721 -/
  | restore
  /-- lines 723-728 -/
  | exitCode
  /-- the process has ended with this exit code -/
  | done (code : Nat)
deriving DecidableEq, Repr

/-- The adapter: the local variables of `main`, src/unix-adapter/main.cc:581-729, and its threads. -/
structure A where
  main : MainPc
  /-- `g_mainWakeup`, line 585 -/
  mainPipe : Nat
  /-- `sz`, lines 592-595, 692 -/
  sz : WinSize
  inp : In
  out : Out
  err : Out
  aborted : Bool
  /-- the size of the terminal -/
  tty : WinSize
  /-- a `SIGWINCH` has been, or will be, sent because of a change of size, and is not delivered yet -/
  owed : Bool
  /-- is the handler for `SIGWINCH` registered? -/
  registered : Bool
  /-- ghost: the size last given to the session -/
  session : Option (Nat × Nat)
  /-- ghost: `winpty_free` was called -/
  freed : Bool

/-- What the operating system answers to the main thread: the calls of
src/unix-adapter/main.cc:595-728. -/
inductive MainAns where
  | go
  | intr
  | fail
  | reset (a : ResetAns)
  /-- `ioctl` has failed, and this is what the uninitialized `sz2` contains -/
  | noSize (sz2 : WinSize)
  /-- the exit code of the child process; `none` if `GetExitCodeProcess` fails -/
  | code (c : Option Nat)

/-- The comparison of the sizes, src/unix-adapter/main.cc:691-694. -/
def checkSize (s : A) (sz2 : WinSize) : A :=
  if s.sz ≠ sz2 then { s with sz := sz2, session := some (sz2.cols, sz2.rows), main := .checkIn }
  else { s with main := .checkIn }

/-- A step of `main`, src/unix-adapter/main.cc:581-729. -/
def mainStep (cfg : Cfg) (s : A) (a : MainAns) : Step A :=
  match s.main, a with
  | .start, .go => .ok { s with main := .opening, sz := s.tty }
  | .start, .fail => .ok { s with main := .opening, sz := ⟨80, 25, 0, 0⟩ }
  | .opening, .go => .ok { s with main := .register, session := some (s.sz.cols, s.sz.rows) }
  | .opening, .fail => .ok { s with main := .done 1 }
  | .register, .go => .ok { s with main := .raw, registered := true }
  | .raw, .go => .ok { s with main := .startIn }
  | .raw, .fail => .ok { s with main := .done 1 }
  | .startIn, .go => .ok { s with main := .startOut, inp := { s.inp with pc := .reset } }
  | .startOut, .go => .ok { s with main := .startErr, out := { s.out with pc := .read } }
  | .startErr, .go =>
    .ok { s with main := .select, err := if cfg.conerr then { s.err with pc := .read } else s.err }
  | .select, .go => if s.mainPipe = 0 then .blocked else .ok { s with main := .reset }
  | .select, .intr => .ok { s with main := .reset }
  | .select, .fail => .abort
  | .reset, .reset r =>
    match pipeReset s.mainPipe r with
    | .blocked => .blocked
    | .abort => .abort
    | .ok (n, true) => .ok { s with mainPipe := n, main := .size }
    | .ok (n, false) => .ok { s with mainPipe := n }
  | .size, .go => .ok (checkSize s s.tty)
  | .size, .noSize sz2 => .ok (checkSize s sz2)
  | .checkIn, .go => .ok { s with main := if s.inp.completed then .free else .checkOut }
  | .checkOut, .go => .ok { s with main := if s.out.completed then .free else .checkErr }
  | .checkErr, .go =>
    .ok { s with main := if cfg.conerr && s.err.completed then .free else .select }
  | .free, .go => .ok { s with main := .stopIn, freed := true }
  | .stopIn, .go => .ok { s with main := .wakeIn, inp := { s.inp with shouldShutdown := true } }
  | .wakeIn, .intr => .ok s
  | .wakeIn, .go =>
    .ok { s with main := .joinIn, inp := { s.inp with wakeup := pipeSet cfg.cap s.inp.wakeup } }
  | .joinIn, .go => if s.inp.pc = .ended then .ok { s with main := .joinOut } else .blocked
  | .joinOut, .go => if s.out.pc = .ended then .ok { s with main := .joinErr } else .blocked
  | .joinErr, .go =>
    if cfg.conerr = false ∨ s.err.pc = .ended then .ok { s with main := .restore } else .blocked
  | .restore, .go => .ok { s with main := .exitCode }
  | .restore, .fail => .ok { s with main := .done 1 }
  | .exitCode, .code c => .ok { s with main := .done (c.getD 1) }
  | _, _ => .blocked

/-! ## Everything together -/

/-- What happens next: a step of one of the threads that src/unix-adapter/main.cc:673-677 starts, or
something from outside. -/
inductive Label where
  /-- a step of the main thread -/
  | main (a : MainAns)
  /-- a step of the input thread -/
  | inp (a : InAns)
  /-- a step of the output thread -/
  | out (a : OutAns)
  /-- a step of the second output thread -/
  | err (a : OutAns)
  /-- the terminal gets another size -/
  | resize (sz : WinSize)
  /-- `SIGWINCH` is delivered: `terminalResized`, src/unix-adapter/main.cc:187-190, which
  src/unix-adapter/main.cc:192-199 registers, or nothing if there is no handler yet -/
  | deliver

/-- The adapter as it is when `main` has parsed its arguments, src/unix-adapter/main.cc:592. -/
def init (tty : WinSize) : A :=
  { main := .start, mainPipe := 0, sz := ⟨0, 0, 0, 0⟩
    inp := ⟨.notStarted, 0, false, false, [], [], false⟩
    out := ⟨.notStarted, false, [], [], false⟩
    err := ⟨.notStarted, false, [], [], false⟩
    aborted := false, tty := tty, owed := false, registered := false, session := none, freed := false }

/-- Has the process ended?  src/unix-adapter/main.cc:728. -/
def over (s : A) : Bool :=
  s.aborted || (match s.main with | .done _ => true | _ => false)

/-- One step of the process, src/unix-adapter/main.cc:581-729; `none` if it is not possible. -/
def step (cfg : Cfg) (s : A) (l : Label) : Option A :=
  if over s then none
  else
    match l with
    | .main a =>
      match mainStep cfg s a with
      | .blocked => none
      | .abort => some { s with aborted := true }
      | .ok s' => some s'
    | .inp a =>
      match inStep cfg.cap s.inp s.mainPipe a with
      | .blocked => none
      | .abort => some { s with aborted := true }
      | .ok (t, n) => some { s with inp := t, mainPipe := n }
    | .out a =>
      match outStep cfg.cap s.out s.mainPipe a with
      | .blocked => none
      | .abort => some { s with aborted := true }
      | .ok (t, n) => some { s with out := t, mainPipe := n }
    | .err a =>
      match outStep cfg.cap s.err s.mainPipe a with
      | .blocked => none
      | .abort => some { s with aborted := true }
      | .ok (t, n) => some { s with err := t, mainPipe := n }
    | .resize sz => some { s with tty := sz, owed := true }
    | .deliver =>
      if s.owed then
        some { s with
               owed := false
               mainPipe := if s.registered then pipeSet cfg.cap s.mainPipe else s.mainPipe }
      else none

/-- A whole history of the process, src/unix-adapter/main.cc:581-729. -/
def run (cfg : Cfg) (s : A) : List Label → Option A
  | [] => some s
  | l :: ls =>
    match step cfg s l with
    | none => none
    | some s' => run cfg s' ls

end Winpty.Adapter
