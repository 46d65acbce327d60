import Verif.Model.Buffer

/-!
# Model of the RPC calls of `src/libwinpty/winpty.cc`

Every system call on the control pipe is answered by the next element of a list that the environment
chooses; `log` records what the library does, the code never looks at it.  The calls on one session
are serialised by its mutex (src/libwinpty/winpty.cc:858, 925, 944), so a history is a list of calls;
`Model/ClientThreads.lean` has the mutex and the threads.
-/
namespace Winpty.Client

open Winpty.Buffer (Field Res getInt32 getInt64 assertEof sealPacket putFields newPacket leNat toUnsigned
  toSigned)

/-- The exceptions that can leave a call: `ReadBuffer::DecodeError` (src/shared/Buffer.h:58),
`LibWinptyException` (src/libwinpty/LibWinptyException.h:31-52), any other `WinptyException`
(src/shared/WinptyException.cc:28-57), `std::bad_alloc`, anything else. -/
inductive Exn where
  | decode
  | lib (code : Nat) (msg : String)
  | winpty (msg : String)
  | badAlloc
  | other
deriving DecidableEq, Repr

/-- `struct winpty_error_s`, src/libwinpty/WinptyInternal.h:35-42 (the two message fields as one). -/
structure Error where
  code : Nat
  msg : String
deriving DecidableEq, Repr

/-- `translateException`, src/libwinpty/winpty.cc:106-141, with the static errors of 57-73.
Simplification: building the error object does not run out of memory. -/
def translateException : Exn → Error
  | .decode => ⟨5, "Bad RPC packet"⟩
  | .lib code msg => ⟨code, msg⟩
  | .winpty msg => ⟨5, msg⟩
  | .badAlloc => ⟨1, "Out of memory"⟩
  | .other => ⟨5, "Uncaught C++ exception"⟩

/-- `winpty_error_code`, src/libwinpty/winpty.cc:76-78. -/
def errorCode : Option Error → Nat
  | some e => e.code
  | none => 0

/-- `winpty_error_msg`, src/libwinpty/winpty.cc:82-95. -/
def errorMsg : Option Error → String
  | some e => e.msg
  | none => "Success"

/-- What the library does, for the log.
The system calls at src/libwinpty/winpty.cc:201-341, 749-752 and 833-842. -/
inductive Event where
  /-- `WriteFile` on the control pipe with these bytes -/
  | write (bytes : List Nat)
  /-- `ReadFile` on the control pipe for so many bytes -/
  | read (amount : Nat)
  /-- `ConnectNamedPipe` on the control pipe -/
  | connect
  /-- the call was left pending -/
  | pending
  /-- `CancelIo` -/
  | cancel
  /-- `GetOverlappedResult` has waited for the end of the pending call -/
  | reaped
  /-- the system reports that so many bytes were written -/
  | wrote (count : Nat)
  /-- a read delivered these bytes to the library -/
  | got (bytes : List Nat)
  /-- the control pipe is closed -/
  | closePipe
  /-- a handle of the agent is duplicated (and closed there), giving this one -/
  | steal (remote handle : Int)
  /-- `CloseHandle` of such a handle -/
  | closeHandle (handle : Int)
deriving DecidableEq, Repr

/-- How an overlapped call ends: the number of bytes written or the bytes read, or an error code.
`GetOverlappedResult`, src/libwinpty/winpty.cc:218-223, or the call itself (305, 333). -/
inductive Done where
  | ok (written : Nat) (data : List Nat)
  | fail (code : Nat)
deriving DecidableEq, Repr

/-- What ends the wait for a pending call, src/libwinpty/winpty.cc:238-254. -/
inductive Wait where
  | io (d : Done)
  | agentDied
  | timeout
  | failed (code : Nat)
  | other
deriving DecidableEq, Repr

/-- The system's answer to an overlapped call: it ends at once (with an error other than
`ERROR_IO_PENDING` if it fails), or it is left pending.
src/libwinpty/winpty.cc:290-295, 305-309 and 333-337. -/
inductive Io where
  | now (d : Done)
  | pending (w : Wait)
deriving DecidableEq, Repr

/-- The environment: the answers still to come for calls on the control pipe and for
`DuplicateHandle` (src/libwinpty/winpty.cc:835), and the log. -/
structure World where
  ios : List Io
  dups : List (Except Nat Int)
  log : List Event

/-- A computation ends with a value or an exception, or an `ASSERT` aborts the process, or it is still
waiting for the system (the answers are used up).
The exits of src/libwinpty/winpty.cc:232-368. -/
inductive R (α : Type) where
  | ok (a : α) (w : World)
  | throw (e : Exn) (w : World)
  | abort (w : World)
  | wait (w : World)

/-- Sequencing.
As in src/libwinpty/winpty.cc:232-368. -/
def R.bind {α β : Type} (r : R α) (f : α → World → R β) : R β :=
  match r with
  | .ok a w => f a w
  | .throw e w => .throw e w
  | .abort w => .abort w
  | .wait w => .wait w

/-- Append to the log. (Not in the code, used for src/libwinpty/winpty.cc:201-341.) -/
def World.add (w : World) (es : List Event) : World := { w with log := w.log ++ es }

/-- Platform parameters: `SIZE_MAX`, which allocations succeed, whether a failing one throws
`std::length_error` rather than `std::bad_alloc`, and the number of bits of a pointer.
Used at src/libwinpty/winpty.cc:361-365 and 828. -/
structure Cfg where
  buffer : Buffer.Cfg
  lengthError : Bool
  ptrBits : Nat

/-- The exception of a failing allocation, e.g. src/libwinpty/winpty.cc:365. -/
def allocExn (cfg : Cfg) : Exn := if cfg.lengthError then .other else .badAlloc

/-- `throwWindowsError`, src/shared/WinptyException.cc:48-57. -/
def windowsError (pfx : String) (code : Nat) : Exn :=
  .winpty (pfx ++ ": Windows error " ++ toString code)

/-- `handlePendingIo`, src/libwinpty/winpty.cc:232-257, once the call is pending.  When it throws, the
destructor of `PendingIo` (209-216) cancels the call and waits for its end. -/
def handlePendingIo (w : World) : Wait → R Done
  | .io d => .ok d (w.add [.reaped])
  | .agentDied => .throw (.lib 6 "agent died") (w.add [.cancel, .reaped])
  | .timeout => .throw (.lib 7 "agent timed out") (w.add [.cancel, .reaped])
  | .failed code => .throw (windowsError "WaitForMultipleObjects failed" code) (w.add [.cancel, .reaped])
  | .other => .abort w

/-- An overlapped call with its wait, src/libwinpty/winpty.cc:302-310 and 331-338. -/
def overlapped (w : World) (call : Event) : R Done :=
  match w.ios with
  | [] => .wait (w.add [call])
  | .now d :: rest => .ok d ({ w with ios := rest }.add [call])
  | .pending x :: rest => handlePendingIo ({ w with ios := rest }.add [call, .pending]) x

/-- `handleReadWriteErrors`, src/libwinpty/winpty.cc:265-282: 109 is `ERROR_BROKEN_PIPE`, 232
`ERROR_NO_DATA`, 233 `ERROR_PIPE_NOT_CONNECTED`. -/
def readWriteError (pfx : String) (code : Nat) : Exn :=
  if code = 109 ∨ code = 232 ∨ code = 233 then .lib 3 "lost connection to agent"
  else windowsError pfx code

/-- `writeData`, src/libwinpty/winpty.cc:300-315. -/
def writeData (w : World) (bytes : List Nat) : R Unit :=
  (overlapped w (.write bytes)).bind fun d w =>
    match d with
    | .fail code => .throw (readWriteError "WriteFile failed" code) w
    | .ok written _ =>
      if written = bytes.length then .ok () (w.add [.wrote written]) else .abort (w.add [.wrote written])

/-- `writePacket` of a packet with these fields, src/libwinpty/winpty.cc:317-327. -/
def writePacket (w : World) (fs : List Field) : R Unit :=
  match sealPacket (putFields newPacket fs) with
  | none => .abort w
  | some bytes => writeData w bytes

/-- `readData`, src/libwinpty/winpty.cc:329-341, and the `ASSERT` of `readAll` (346). -/
def readData (w : World) (amount : Nat) : R (List Nat) :=
  (overlapped w (.read amount)).bind fun d w =>
    match d with
    | .fail code => .throw (readWriteError "ReadFile failed" code) w
    | .ok _ data => if data.length ≤ amount then .ok data (w.add [.got data]) else .abort w

/-- The loop of `readAll`, src/libwinpty/winpty.cc:343-350.  Each round uses up one answer, so a
number of rounds above the number of answers is never reached. -/
def readLoop : Nat → World → Nat → R (List Nat)
  | 0, w, _ => .wait w
  | fuel + 1, w, amount =>
    if amount > 0 then
      (readData w amount).bind fun chunk w =>
        (readLoop fuel w (amount - chunk.length)).bind fun rest w => .ok (chunk ++ rest) w
    else .ok [] w

/-- `readAll`, src/libwinpty/winpty.cc:343-350. -/
def readAll (w : World) (amount : Nat) : R (List Nat) := readLoop (w.ios.length + 1) w amount

/-- `readPacket`, src/libwinpty/winpty.cc:359-368 (and `readUInt64`, 352-356). -/
def readPacket (cfg : Cfg) (w : World) : R (List Nat) :=
  (readAll w 8).bind fun sz w =>
    if leNat sz < 8 ∨ leNat sz > cfg.buffer.sizeMax then
      .throw (.winpty "Agent RPC error: invalid packet size") w
    else if cfg.buffer.canAlloc (leNat sz - 8) then readAll w (leNat sz - 8)
    else .throw (allocExn cfg) w

/-- A read from the reply: a `DecodeError` or a failing allocation leaves the call.
E.g. src/libwinpty/winpty.cc:876-880. -/
def decoded {α : Type} (cfg : Cfg) (w : World) (r : Res α) : R (α × Nat) :=
  match r with
  | .ok a off => .ok (a, off) w
  | .decodeError => .throw .decode w
  | .allocError => .throw (allocExn cfg) w
  | .assertFail => .abort w

/-- `struct winpty_s`, src/libwinpty/WinptyInternal.h:52-62, as far as the calls use it:
`connected` says that `controlPipe` is not null. -/
structure Session where
  connected : Bool
  spawnDesktopName : List Nat
deriving DecidableEq

/-- How an API call ends: it has returned or thrown, in the second case possibly after
`rpc.success()`; or the process was aborted; or the call has not come back.
src/libwinpty/winpty.cc:739-756. -/
inductive Outcome (α : Type) where
  | returned (r : Except Exn α) (s : Session) (w : World)
  | aborted (w : World)
  | waiting (w : World)

/-- `RpcOperation`, src/libwinpty/winpty.cc:739-756, around the body of a call.  The body gives
`.ok (.error e)` if it throws `e` after `rpc.success()`. -/
def rpcOperation {α : Type} (s : Session) (w : World) (body : World → R (Except Exn α)) : Outcome α :=
  if s.connected then
    match body w with
    | .ok r w' => .returned r s w'
    | .throw e w' => .returned (.error e) { s with connected := false } (w'.add [.closePipe])
    | .abort w' => .aborted w'
    | .wait w' => .waiting w'
  else .returned (.error (.winpty "Agent shutdown due to RPC failure")) s w

/-! ## `winpty_set_size` -/

/-- The body of `winpty_set_size`, src/libwinpty/winpty.cc:927-933. -/
def setSizeBody (cfg : Cfg) (cols rows : Int) (w : World) : R (Except Exn Unit) :=
  (writePacket w [.int32 1, .int32 cols, .int32 rows]).bind fun _ w =>
  (readPacket cfg w).bind fun reply w =>
  (decoded cfg w (assertEof reply 0)).bind fun _ w => .ok (.ok ()) w

/-- `winpty_set_size`, src/libwinpty/winpty.cc:920-936, before `API_CATCH`. -/
def setSize (cfg : Cfg) (s : Session) (w : World) (cols rows : Int) : Outcome Unit :=
  if cols > 0 ∧ rows > 0 then rpcOperation s w (setSizeBody cfg cols rows) else .aborted w

/-! ## `winpty_get_console_process_list` -/

/-- The loop at src/libwinpty/winpty.cc:953-955: `n` more elements, the next one at index `i`.  The
caller's array is `mem`; `none` is a write behind its end. -/
def fillList (reply : List Nat) : Nat → Nat → Nat → List Int → Option (List Int × Res Unit)
  | 0, off, _, mem => some (mem, .ok () off)
  | n + 1, off, i, mem =>
    match getInt32 reply off with
    | .ok v off' => if i < mem.length then fillList reply n off' (i + 1) (mem.set i v) else none
    | .decodeError => some (mem, .decodeError)
    | .allocError => some (mem, .allocError)
    | .assertFail => some (mem, .assertFail)

/-- What the call does with the reply, src/libwinpty/winpty.cc:949-959: the array, and the count or
the failure.  `none` is a write behind the end of the array. -/
def processListReply (reply : List Nat) (mem : List Int) (processCount : Int) :
    Option (List Int × Res Int) :=
  match getInt32 reply 0 with
  | .ok count off =>
    if count ≤ processCount then
      match fillList reply count.toNat off 0 mem with
      | none => none
      | some (mem', r) =>
        some (mem', r.bind fun _ off' => (assertEof reply off').bind fun _ off' => .ok count off')
    else some (mem, (assertEof reply off).bind fun _ off' => .ok count off')
  | .decodeError => some (mem, .decodeError)
  | .allocError => some (mem, .allocError)
  | .assertFail => some (mem, .assertFail)

/-- The result of the body of `winpty_get_console_process_list`: the array and the outcome so far.
The array keeps what was written to it when the call throws.
src/libwinpty/winpty.cc:945-959. -/
def processListBody (cfg : Cfg) (mem : List Int) (processCount : Int) (w : World) :
    Option (List Int) × R (Except Exn Int) :=
  match (writePacket w [.int32 2]).bind fun _ w => readPacket cfg w with
  | .ok reply w' =>
    match processListReply reply mem processCount with
    | none => (none, .abort w')
    | some (mem', r) => (some mem', (decoded cfg w' r).bind fun c w => .ok (.ok c.1) w)
  | .throw e w' => (some mem, .throw e w')
  | .abort w' => (some mem, .abort w')
  | .wait w' => (some mem, .wait w')

/-- `winpty_get_console_process_list`, src/libwinpty/winpty.cc:938-963, before `API_CATCH`, with the
array after the call (`none` if it was overrun). -/
def getConsoleProcessList (cfg : Cfg) (s : Session) (w : World) (mem : List Int) (processCount : Int) :
    Option (List Int) × Outcome Int :=
  (if s.connected then (processListBody cfg mem processCount w).1 else some mem,
    rpcOperation s w fun w => (processListBody cfg mem processCount w).2)

/-! ## `winpty_spawn` -/

/-- `struct winpty_spawn_config_s`, src/libwinpty/WinptyInternal.h:64-70. -/
structure SpawnConfig where
  winptyFlags : Nat
  appname : List Nat
  cmdline : List Nat
  cwd : List Nat
  env : List Nat
deriving DecidableEq

/-- The output parameters of `winpty_spawn`: `none` for a null pointer, else the value there (0 is a
null handle). src/libwinpty/winpty.cc:845-850. -/
structure SpawnOut where
  process : Option Int
  thread : Option Int
  createError : Option Nat
deriving DecidableEq, Repr

/-- `handleFromInt64`, src/libwinpty/winpty.cc:827-829. -/
def handleFromInt64 (cfg : Cfg) (i : Int) : Int := toSigned cfg.ptrBits (toUnsigned cfg.ptrBits i)

/-- `stealHandle`, src/libwinpty/winpty.cc:833-842, if the remote handle is not null (885-892).  When
the answers run out, `DuplicateHandle` fails with `ERROR_INVALID_HANDLE`, 6. -/
def stealHandle (w : World) (remote : Int) : R Int :=
  if remote = 0 then .ok 0 w
  else
    match w.dups with
    | [] => .throw (windowsError "DuplicateHandle of process handle" 6) w
    | .ok h :: rest => .ok h ({ w with dups := rest }.add [.steal remote h])
    | .error code :: rest => .throw (windowsError "DuplicateHandle of process handle" code) { w with dups := rest }

/-- The destructor of an `OwnedHandle` that was not released, src/shared/OwnedHandle.cc:26-36. -/
def dropHandle (w : World) (h : Int) : World := if h = 0 then w else w.add [.closeHandle h]

/-- The part of `winpty_spawn` after a positive reply was decoded, src/libwinpty/winpty.cc:890-906;
the handles stored in the output parameters are released, the others closed (the thread handle first:
it is declared last). -/
def takeHandles (cfg : Cfg) (w : World) (o : SpawnOut) (process thread : Int) : R SpawnOut :=
  (stealHandle w (handleFromInt64 cfg process)).bind fun hp w =>
  match stealHandle w (handleFromInt64 cfg thread) with
  | .ok ht w =>
    .ok { o with
          process := o.process.map fun _ => hp
          thread := o.thread.map fun _ => ht }
      (dropHandle (if o.thread.isSome then w else dropHandle w ht)
        (if o.process.isSome then 0 else hp))
  | .throw e w => .throw e (dropHandle w hp)
  | .abort w => .abort w
  | .wait w => .wait w

/-- What `winpty_spawn` does with the reply, src/libwinpty/winpty.cc:875-910: `.ok (.ok o)` is
success; `.ok (.error code)` is a refused `CreateProcess`. -/
def spawnReply (cfg : Cfg) (w : World) (o : SpawnOut) (reply : List Nat) : R (Except Nat SpawnOut) :=
  (decoded cfg w (getInt32 reply 0)).bind fun result w =>
  if result.1 = 0 then
    (decoded cfg w (getInt32 reply result.2)).bind fun err w =>
    (decoded cfg w (assertEof reply err.2)).bind fun _ w => .ok (.error (toUnsigned 32 err.1)) w
  else if result.1 = 1 then
    (decoded cfg w (getInt64 reply result.2)).bind fun process w =>
    (decoded cfg w (getInt64 reply process.2)).bind fun thread w =>
    (decoded cfg w (assertEof reply thread.2)).bind fun _ w =>
    (takeHandles cfg w o process.1 thread.1).bind fun o' w => .ok (.ok o') w
  else .throw (.winpty "Agent RPC error: invalid StartProcessResult") w

/-- The request, src/libwinpty/winpty.cc:862-871. -/
def spawnFields (s : Session) (c : SpawnConfig) (o : SpawnOut) : List Field :=
  [.int32 0, .int64 (toSigned 64 c.winptyFlags), .int32 (if o.process.isSome then 1 else 0),
    .int32 (if o.thread.isSome then 1 else 0), .wstring c.appname, .wstring c.cmdline, .wstring c.cwd,
    .wstring c.env, .wstring s.spawnDesktopName]

/-- Lines 854-856 of `winpty_spawn`: the output parameters are reset.
src/libwinpty/winpty.cc:854-856. -/
def resetOut (o : SpawnOut) : SpawnOut :=
  ⟨o.process.map fun _ => 0, o.thread.map fun _ => 0, o.createError.map fun _ => 0⟩

/-- The body of `winpty_spawn`, src/libwinpty/winpty.cc:861-911. -/
def spawnBody (cfg : Cfg) (s : Session) (c : SpawnConfig) (o : SpawnOut) (w : World) :
    R (Except Nat SpawnOut) :=
  (writePacket w (spawnFields s c o)).bind fun _ w =>
  (readPacket cfg w).bind fun reply w => spawnReply cfg w o reply

/-- The exception thrown for a refused `CreateProcess`, src/libwinpty/winpty.cc:883-885. -/
def refused : Exn := .lib 2 "CreateProcess failed"

/-- The end of the body: `TRUE`, or the exception thrown after `rpc.success()`.
src/libwinpty/winpty.cc:883-906. -/
def spawnResult (r : Except Nat SpawnOut) : Except Exn Unit :=
  match r with
  | .ok _ => .ok ()
  | .error _ => .error refused

/-- `winpty_spawn`, src/libwinpty/winpty.cc:844-913, before `API_CATCH`, with the output parameters
after the call. -/
def spawn (cfg : Cfg) (s : Session) (w : World) (c : SpawnConfig) (o : SpawnOut) :
    SpawnOut × Outcome Unit :=
  (match (if s.connected then spawnBody cfg s c (resetOut o) w else .wait w) with
    | .ok (.ok o') _ => o'
    | .ok (.error code) _ => { resetOut o with createError := o.createError.map fun _ => code }
    | _ => resetOut o,
   rpcOperation s w fun w =>
    (spawnBody cfg s c (resetOut o) w).bind fun r w => .ok (spawnResult r) w)

/-! ## The API: `API_TRY` and `API_CATCH` -/

/-- `API_TRY` and `API_CATCH`, src/libwinpty/winpty.cc:143-148: the value returned, and the error object
stored if there is a place for it (`wantErr`). -/
def apiCatch {α : Type} (fail : α) (wantErr : Bool) (r : Except Exn α) : α × Option Error :=
  match r with
  | .ok a => (a, none)
  | .error e => (fail, if wantErr then some (translateException e) else none)

/-- A call of the API on a session, with its arguments; `wantErr` says that `err` is not null.
src/libwinpty/winpty.cc:844-963. -/
inductive Call where
  | setSize (cols rows : Int)
  | processList (mem : List Int) (processCount : Int)
  | spawn (c : SpawnConfig) (o : SpawnOut)
deriving DecidableEq

/-- What a call has given back: `value` is the returned number (`BOOL` as 0 or 1), then the caller's
array or the output parameters.
src/libwinpty/winpty.cc:844-963. -/
structure Ret where
  value : Int
  err : Option Error
  mem : List Int
  out : SpawnOut
deriving DecidableEq

/-- One API call: it returns, aborts the process (an `ASSERT` or a write behind the array, marked
`overrun`), or does not come back.
src/libwinpty/winpty.cc:844-963. -/
inductive Done1 where
  | returned (r : Ret) (s : Session) (w : World)
  | aborted (overrun : Bool) (w : World)
  | waiting (w : World)

/-- No output parameters. (Not in the code; for calls other than `winpty_spawn`,
src/libwinpty/winpty.cc:920-963.) -/
def noOut : SpawnOut := ⟨none, none, none⟩

/-- Run one API call.
src/libwinpty/winpty.cc:844-963. -/
def call (cfg : Cfg) (wantErr : Bool) (s : Session) (w : World) : Call → Done1
  | .setSize cols rows =>
    match setSize cfg s w cols rows with
    | .returned r s' w' =>
      .returned ⟨(apiCatch 0 wantErr (r.map fun _ => (1 : Int))).1,
        (apiCatch 0 wantErr (r.map fun _ => (1 : Int))).2, [], noOut⟩ s' w'
    | .aborted w' => .aborted false w'
    | .waiting w' => .waiting w'
  | .processList mem n =>
    match getConsoleProcessList cfg s w mem n with
    | (none, _) => .aborted true w
    | (some mem', .returned r s' w') =>
      .returned ⟨(apiCatch 0 wantErr r).1, (apiCatch 0 wantErr r).2, mem', noOut⟩ s' w'
    | (some _, .aborted w') => .aborted false w'
    | (some _, .waiting w') => .waiting w'
  | .spawn c o =>
    match spawn cfg s w c o with
    | (o', .returned r s' w') =>
      .returned ⟨(apiCatch 0 wantErr (r.map fun _ => (1 : Int))).1,
        (apiCatch 0 wantErr (r.map fun _ => (1 : Int))).2, [], o'⟩ s' w'
    | (_, .aborted w') => .aborted false w'
    | (_, .waiting w') => .waiting w'

/-- A history of calls: the results of those that came back, and the session and environment after
them.  It stops at a call that aborts the process or does not come back.
src/libwinpty/winpty.cc:844-963. -/
def calls (cfg : Cfg) (wantErr : Bool) (s : Session) (w : World) : List Call → List Ret × Session × World
  | [] => ([], s, w)
  | c :: cs =>
    match call cfg wantErr s w c with
    | .returned r s' w' =>
      (r :: (calls cfg wantErr s' w' cs).1, (calls cfg wantErr s' w' cs).2)
    | .aborted _ w' => ([], s, w')
    | .waiting w' => ([], s, w')

end Winpty.Client
