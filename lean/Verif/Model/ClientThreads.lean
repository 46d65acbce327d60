import Verif.Model.Client

/-!
# Model of calls of the library from several threads

`src/libwinpty/winpty.cc`: several threads of the host program call `winpty_spawn`, `winpty_set_size` and
`winpty_get_console_process_list` on the same session.  Each acquisition and release of the mutex, each test
of the control pipe, each answer of the system and each closing of the control pipe is one step, and the
threads' steps are interleaved in any way.

Inside the body of a call a thread runs the code of `Model/Client.lean`.  What it does depends only on the
session it found and on the system's answers, so its position is given by the answers so far: with one more
answer it goes on from where it stood.  Simplification: `DuplicateHandle` does not wait, so it belongs to the
step before it.
-/
namespace Winpty.ClientThreads

open Winpty.Client

/-- A call with its arguments; `wantErr` says that `err` is not null, src/libwinpty/winpty.cc:844-963. -/
structure Job where
  call : Call
  wantErr : Bool
deriving DecidableEq

/-- Where a thread is, src/libwinpty/winpty.cc:852-913, 922-936 and 941-963. -/
inductive Phase where
  /-- outside the library -/
  | idle
  /-- in the call, before the mutex (858, 925, 944) -/
  | entered (j : Job)
  /-- the mutex is held, `RpcOperation` not yet made (859, 926, 945) -/
  | locked (j : Job)
  /-- in the body with these answers so far and this number of things done -/
  | running (j : Job) (s : Session) (answers : List Io) (count : Nat)
  /-- the body is left, the destructor of `RpcOperation` comes next (746-751) -/
  | closing (j : Job) (r : Ret) (success : Bool)
  /-- the destructor of `LockGuard` comes next (src/shared/Mutex.h:48) -/
  | unlocking (j : Job) (r : Ret)

/-- A thread of the host program: where it is, and the calls it will make.
src/libwinpty/winpty.cc:844-963. -/
structure Thread where
  phase : Phase
  todo : List Job

/-- The session shared by the threads: the mutex (`some t` if thread `t` holds it), the fields of
`winpty_s` (src/libwinpty/WinptyInternal.h:52-62), the answers to come for `DuplicateHandle`, what the
library has done so far; the calls that have returned, in the order of their returns, each with its thread;
and whether an `ASSERT` has ended the process. -/
structure Shared where
  mutex : Option Nat
  session : Session
  dups : List (Except Nat Int)
  log : List Event
  threads : Nat → Thread
  returned : List (Nat × Job × Ret)
  aborted : Bool

/-- A step of a thread. src/libwinpty/winpty.cc:858-859, 305, 333, 746-751, 911. -/
inductive Label where
  | enter (t : Nat)
  | lock (t : Nat)
  | check (t : Nat)
  | answer (t : Nat) (a : Io)
  | close (t : Nat)
  | unlock (t : Nat)

/-- Thread `t` goes on at another place. (Program counters; src/libwinpty/winpty.cc:844-963.) -/
def setPhase (g : Shared) (t : Nat) (p : Phase) : Shared :=
  { g with threads := fun i => if i = t then { g.threads t with phase := p } else g.threads i }

/-- The `ASSERT` on the numbers passed, src/libwinpty/winpty.cc:923. -/
def argumentsFine : Call → Bool
  | .setSize cols rows => decide (cols > 0 ∧ rows > 0)
  | _ => true

/-- Entering a call: the thread's next one begins, src/libwinpty/winpty.cc:851-852, 922-923, 941-943. -/
def enter (g : Shared) (t : Nat) : Option Shared :=
  match (g.threads t).phase, (g.threads t).todo with
  | .idle, j :: js =>
    if argumentsFine j.call then
      some { g with threads := fun i => if i = t then ⟨.entered j, js⟩ else g.threads i }
    else some { g with aborted := true }
  | _, _ => none

/-- `LockGuard<Mutex> lock(wp->mutex)`, src/libwinpty/winpty.cc:858, 925, 944 with src/shared/Mutex.h:36, 47:
the step is not possible while the mutex is held. -/
def lock (g : Shared) (t : Nat) : Option Shared :=
  match (g.threads t).phase with
  | .entered j => if g.mutex = none then some (setPhase { g with mutex := some t } t (.locked j)) else none
  | _ => none

/-- What the call does with the answers so far, src/libwinpty/winpty.cc:859-911, 926-935, 945-962. -/
def run (cfg : Cfg) (g : Shared) (j : Job) (s : Session) (answers : List Io) : Done1 :=
  call cfg j.wantErr s ⟨answers, g.dups, []⟩ j.call

/-- `RpcOperation rpc(*wp)`, src/libwinpty/winpty.cc:741-745, 859, 926, 945, and the code up to the first call
of the system.  If the constructor throws there is no object and nothing to close. -/
def check (cfg : Cfg) (g : Shared) (t : Nat) : Option Shared :=
  match (g.threads t).phase with
  | .locked j =>
    match run cfg g j g.session [] with
    | .waiting w => some (setPhase { g with log := g.log ++ w.log } t (.running j g.session [] w.log.length))
    | .returned r _ _ => some (setPhase g t (.unlocking j r))
    | .aborted _ _ => some { g with aborted := true }
  | _ => none

/-- The system answers, and the thread goes on to its next call of the system or to the end of the body,
src/libwinpty/winpty.cc:305-341, 861-911, 927-933, 946-959.  The closing of the pipe, which `Model/Client.lean`
adds at the end of a call that fails, is left to the next step. -/
def answer (cfg : Cfg) (g : Shared) (t : Nat) (a : Io) : Option Shared :=
  match (g.threads t).phase with
  | .running j s answers count =>
    match run cfg g j s (answers ++ [a]) with
    | .waiting w =>
      some (setPhase { g with log := g.log ++ w.log.drop count } t (.running j s (answers ++ [a]) w.log.length))
    | .returned r s' w =>
      some (setPhase
        { g with
          dups := w.dups
          log := g.log ++ (if s'.connected then w.log.drop count else (w.log.drop count).dropLast) }
        t (.closing j r s'.connected))
    | .aborted _ _ => some { g with aborted := true }
  | _ => none

/-- The destructor of `RpcOperation`, src/libwinpty/winpty.cc:746-751; it runs before that of `LockGuard`,
which is declared before it (858-859, 925-926, 944-945). -/
def close (g : Shared) (t : Nat) : Option Shared :=
  match (g.threads t).phase with
  | .closing j r success =>
    if success then some (setPhase g t (.unlocking j r))
    else
      some (setPhase
        { g with
          session := { g.session with connected := false }
          log := g.log ++ [.closePipe] }
        t (.unlocking j r))
  | _ => none

/-- The destructor of `LockGuard`, src/shared/Mutex.h:37, 48, and the return of the call. -/
def unlock (g : Shared) (t : Nat) : Option Shared :=
  match (g.threads t).phase with
  | .unlocking j r =>
    some (setPhase { g with mutex := none, returned := g.returned ++ [(t, j, r)] } t .idle)
  | _ => none

/-- One step, if it is possible, src/libwinpty/winpty.cc:844-963.  Nothing happens after an `ASSERT`. -/
def step (cfg : Cfg) (g : Shared) (l : Label) : Option Shared :=
  if g.aborted then none
  else
    match l with
    | .enter t => enter g t
    | .lock t => lock g t
    | .check t => check cfg g t
    | .answer t a => answer cfg g t a
    | .close t => close g t
    | .unlock t => unlock g t

/-- A schedule; `none` if one of its steps is not possible. src/libwinpty/winpty.cc:844-963. -/
def steps (cfg : Cfg) (g : Shared) : List Label → Option Shared
  | [] => some g
  | l :: ls => (step cfg g l).bind fun g' => steps cfg g' ls

/-- A session as `winpty_open` leaves it, and threads with the calls they will make.
src/libwinpty/winpty.cc:690-708. -/
def start (s : Session) (dups : List (Except Nat Int)) (todo : Nat → List Job) : Shared :=
  ⟨none, s, dups, [], fun t => ⟨.idle, todo t⟩, [], false⟩

end Winpty.ClientThreads
