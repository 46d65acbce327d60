import Verif.Model.Trace

/-!
# Model of sending trace messages

`sendToDebugServer` (src/shared/DebugClient.cc) in any number of processes and threads, together with the debug
server (src/debugserver/DebugServer.cc) and the one instance of its pipe.  The steps of the processes are
interleaved in any order.  Windows is modelled as it documents its pipes: a client can connect to an instance that
is listening, which it is from its creation on, and after `DisconnectNamedPipe` only when `ConnectNamedPipe` is
called again; otherwise the instance is busy.
-/
namespace Winpty.TraceSend

/-! ## How the pipe is opened -/

/-- The arguments of `CreateFileW` that matter. -/
structure OpenArgs where
  name : List Nat
  access : Nat
  share : Nat
  disposition : Nat
  flags : Nat
deriving DecidableEq, Repr

/-- `kPipeName` of the client, src/shared/DebugClient.cc:32: `\\.\pipe\DebugServer`. -/
def clientPipeName : List Nat := "\\\\.\\pipe\\DebugServer".toList.map Char.toNat

/-- `kPipeName` of the server, src/debugserver/DebugServer.cc:29. -/
def serverPipeName : List Nat := "\\\\.\\pipe\\DebugServer".toList.map Char.toNat

/-- The call, src/shared/DebugClient.cc:63-68: `GENERIC_READ` is 0x80000000, `GENERIC_WRITE` 0x40000000,
`OPEN_EXISTING` 3, `SECURITY_SQOS_PRESENT` 0x100000, `SECURITY_IDENTIFICATION` 0x10000. -/
def openArgs : OpenArgs :=
  ⟨clientPipeName, 0x80000000 ||| 0x40000000, 0, 3, 0x100000 ||| 0x10000⟩

/-! ## The time in a message -/

/-- C++'s division and remainder round towards zero; the value of `unixTimeMillis`, src/shared/DebugClient.cc:89-96,
from the two halves of the system time. -/
def unixTimeMillis (high low : Nat) : Int :=
  Int.tdiv ((high : Int) * 2 ^ 32 + low) 10000 - 134774 * 24 * 3600 * 1000

/-- `currentTime`, src/shared/DebugClient.cc:169: the conversion to `int` would be modulo 2^32. -/
def currentTime (high low : Nat) : Int :=
  Int.bmod (Int.tmod (unixTimeMillis high low) (100000 * 1000)) (2 ^ 32)

/-- The two numbers printed, src/shared/DebugClient.cc:180. -/
def timeFields (high low : Nat) : Int × Int :=
  (Int.tdiv (currentTime high low) 1000, Int.tmod (currentTime high low) 1000)

/-! ## The state -/

/-- Where a call of `sendToDebugServer` is, src/shared/DebugClient.cc:53-83. -/
inductive Pc where
  /-- before `CreateFileW`, line 63 -/
  | opening
  /-- in `WaitNamedPipeW`, line 71 -/
  | waiting
  /-- before `SetNamedPipeHandleState`, line 75 -/
  | mode
  /-- before `TransactNamedPipe`, line 78; whether the handle reads messages -/
  | transact (messages : Bool)
  /-- in `TransactNamedPipe`, the message is written, line 78 -/
  | reply
  /-- before `CloseHandle`, line 81; whether a reply came -/
  | close (replied : Bool)
  /-- returned, line 83 -/
  | returned (replied : Bool)
deriving DecidableEq, Repr

/-- A call: its message, where it is, how often it opened and closed a handle. -/
structure Call where
  msg : List Nat
  pc : Pc
  opened : Nat
  closed : Nat
deriving DecidableEq, Repr

/-- The instance of the pipe.  `connected i request replied isOpen`: call `i` connected to it; `request` is what
was written and not read; `replied` tells whether there is a reply, `isOpen` whether the call has not closed its
handle. -/
inductive Pipe where
  | gone
  | disconnected
  | listening
  | connected (i : Nat) (request : Option (List Nat)) (replied isOpen : Bool)
deriving DecidableEq, Repr

/-- Where the server is, src/debugserver/DebugServer.cc:94-117. -/
inductive Srv where
  /-- not running -/
  | stopped
  /-- before `ConnectNamedPipe`, line 97: the first time -/
  | first
  /-- before `ConnectNamedPipe`, line 97: again -/
  | again
  /-- in `ConnectNamedPipe`, line 97 -/
  | connecting
  /-- before or in `ReadFile`, line 103 -/
  | reading
  /-- before `fwrite` and `fflush`, lines 109-111 -/
  | printing (bytes : List Nat)
  /-- before `WriteFile`, line 114 -/
  | replying
  /-- before `DisconnectNamedPipe`, lines 106 and 115 -/
  | disconnecting
deriving DecidableEq, Repr

/-- Everything.  `printed` is what was written to the standard output, one entry for each `fwrite`, with the number
of the call that the pipe was connected with. -/
structure St where
  calls : List Call
  srv : Srv
  pipe : Pipe
  printed : List (Nat × List Nat)
deriving DecidableEq, Repr

def St.init : St := ⟨[], .stopped, .gone, []⟩

/-- Call `i` becomes `c`. -/
def St.put (s : St) (i : Nat) (c : Call) : St := { s with calls := s.calls.set i c }

/-! ## A call -/

/-- `CreateFileW`, src/shared/DebugClient.cc:63-70; without `ok` Windows refuses for another reason than that the
pipe is busy. -/
def stepOpening (s : St) (i : Nat) (c : Call) (ok : Bool) : St :=
  if ok = false then s.put i { c with pc := .returned false }
  else match s.pipe with
    | .gone => s.put i { c with pc := .returned false }
    | .disconnected => s.put i { c with pc := .waiting }
    | .connected _ _ _ _ => s.put i { c with pc := .waiting }
    | .listening =>
      { s.put i { c with pc := .mode, opened := c.opened + 1 } with pipe := .connected i none false true }

/-- `WaitNamedPipeW`, src/shared/DebugClient.cc:71, for ever: it returns when the pipe is listening, or when there
is none. -/
def stepWaiting (s : St) (i : Nat) (c : Call) : Option St :=
  match s.pipe with
  | .gone => some (s.put i { c with pc := .returned false })
  | .listening => some (s.put i { c with pc := .opening })
  | .disconnected => none
  | .connected _ _ _ _ => none

/-- `TransactNamedPipe` up to the point where the message is written, src/shared/DebugClient.cc:78-80; it fails on a
handle that does not read messages, and when the other end is gone. -/
def stepTransact (s : St) (i : Nat) (c : Call) (messages ok : Bool) : St :=
  if messages && ok then
    match s.pipe with
    | .connected j none replied isOpen =>
      if j = i then { s.put i { c with pc := .reply } with pipe := .connected j (some c.msg) replied isOpen }
      else s.put i { c with pc := .close false }
    | _ => s.put i { c with pc := .close false }
  else s.put i { c with pc := .close false }

/-- `TransactNamedPipe` waiting for the reply, src/shared/DebugClient.cc:78-80. -/
def stepReply (s : St) (i : Nat) (c : Call) : Option St :=
  match s.pipe with
  | .connected j _ replied _ =>
    if j = i then
      if replied then some (s.put i { c with pc := .close true }) else none
    else some (s.put i { c with pc := .close false })
  | _ => some (s.put i { c with pc := .close false })

/-- `CloseHandle`, src/shared/DebugClient.cc:81. -/
def stepClose (s : St) (i : Nat) (c : Call) (replied : Bool) : St :=
  match s.pipe with
  | .connected j request r isOpen =>
    { s.put i { c with pc := .returned replied, closed := c.closed + 1 } with
      pipe := .connected j request r (isOpen && j != i) }
  | _ => s.put i { c with pc := .returned replied, closed := c.closed + 1 }

/-- A step of call `i`, src/shared/DebugClient.cc:53-83; `none`: it waits, or it has returned.  `ok`: whether the
function of Windows that is called succeeds as far as that does not depend on the pipe. -/
def clientStep (s : St) (i : Nat) (ok : Bool) : Option St :=
  match s.calls[i]? with
  | none => none
  | some c =>
    match c.pc with
    | .opening => some (stepOpening s i c ok)
    | .waiting => stepWaiting s i c
    | .mode => some (s.put i { c with pc := .transact ok })
    | .transact messages => some (stepTransact s i c messages ok)
    | .reply => stepReply s i c
    | .close replied => some (stepClose s i c replied)
    | .returned _ => none

/-! ## The server -/

/-- `ReadFile`, src/debugserver/DebugServer.cc:103-108: a message that is too large for the buffer is an error, and
so is a client that closed its handle without writing. -/
def stepRead (s : St) : Option St :=
  match s.pipe with
  | .connected i (some m) replied isOpen =>
    if m.length ≤ Trace.msgSize then
      some { s with srv := .printing m, pipe := .connected i none replied isOpen }
    else some { s with srv := .disconnecting, pipe := .connected i none replied isOpen }
  | .connected _ none _ true => none
  | _ => some { s with srv := .disconnecting }

/-- The number of the call that the pipe is connected with. -/
def Pipe.owner : Pipe → Nat
  | .connected i _ _ _ => i
  | _ => 0

/-- `WriteFile` of the reply, src/debugserver/DebugServer.cc:113-114. -/
def replyPipe : Pipe → Pipe
  | .connected i request replied isOpen => .connected i request (replied || isOpen) isOpen
  | p => p

/-- A step of the server, src/debugserver/DebugServer.cc:96-116; `none`: it waits or is not running. -/
def serverStep (s : St) : Option St :=
  match s.srv with
  | .stopped => none
  | .first =>
    match s.pipe with
    | .listening => some { s with srv := .connecting }
    | _ => some { s with srv := .stopped, pipe := .gone }
  | .again => some { s with srv := .connecting, pipe := .listening }
  | .connecting =>
    match s.pipe with
    | .connected _ _ _ _ => some { s with srv := .reading }
    | _ => none
  | .reading => stepRead s
  | .printing bytes =>
    some { s with srv := .replying, printed := s.printed ++ [(s.pipe.owner, bytes ++ [10])] }
  | .replying => some { s with srv := .disconnecting, pipe := replyPipe s.pipe }
  | .disconnecting => some { s with srv := .again, pipe := .disconnected }

/-! ## Runs -/

/-- What can happen: a step of a call, a step of the server, a new call, the start of the server
(src/debugserver/DebugServer.cc:77-86: there can be only one), its end from outside. -/
inductive Act where
  | client (i : Nat) (ok : Bool)
  | server
  | call (msg : List Nat)
  | start
  | kill
deriving DecidableEq, Repr

/-- `none`: it cannot happen now. -/
def act (s : St) : Act → Option St
  | .client i ok => clientStep s i ok
  | .server => serverStep s
  | .call msg => some { s with calls := s.calls ++ [⟨msg, .opening, 0, 0⟩] }
  | .start => if s.srv = .stopped then some { s with srv := .first, pipe := .listening } else none
  | .kill => some { s with srv := .stopped, pipe := .gone }

/-- One after another. -/
def run (s : St) : List Act → Option St
  | [] => some s
  | a :: rest => (act s a).bind fun s' => run s' rest

end Winpty.TraceSend
