import Verif.Model.DebugClient

/-!
# Model of tracing

The cache of the debug configuration and `trace` (src/shared/DebugClient.cc), `winpty_vsnprintf`
(src/shared/winpty_snprintf.h), and the debug server (src/debugserver/DebugServer.cc).  Characters are
numbers; 0 ends a C string.
-/
namespace Winpty.Trace

/-! ## Printing into a buffer -/

/-- `winpty_vsnprintf`, src/shared/winpty_snprintf.h:42-66, on a buffer with the contents `old` (as many
as `size`).  `lib` is what the C library's `vsnprintf` wrote, from the beginning of the buffer on, and
the number it returned.  The result: the contents of the buffer and the number returned; `none` is a
failed assertion. -/
def winptyVsnprintf (old : List Nat) (lib : List Nat × Int) : Option (List Nat × Int) :=
  if old.length > 0 then
    if lib.2 < 0 ∨ lib.2 ≥ old.length then
      some ((lib.1 ++ (old.set 0 0).drop lib.1.length).set (old.length - 1) 0, -1)
    else some ((lib.1 ++ (old.set 0 0).drop lib.1.length).set lib.2.toNat 0, lib.2)
  else none

/-- The C string at the beginning of a buffer: what is before the first 0. -/
def cString (buffer : List Nat) : List Nat := buffer.takeWhile (· ≠ 0)

/-! ## The configuration, shared by all threads -/

/-- Where a thread is in `getDebugConfig`, src/shared/DebugClient.cc:98-119. -/
inductive Pc where
  /-- not in the function -/
  | out
  /-- `g_debugConfig` was null (line 100) -/
  | missing
  /-- it has made a copy of the configuration (lines 104-112) -/
  | copied (config : List Nat)
  /-- it is about to return `g_debugConfig` (line 118) -/
  | leaving
deriving DecidableEq, Repr

/-- `g_debugConfig` (line 34), the threads, the values that calls have returned (`none`: a null pointer)
with the number of the thread, how many copies were made and how many were deleted. -/
structure Cache where
  config : Option (List Nat)
  pc : Nat → Pc
  returned : List (Nat × Option (List Nat))
  made : Nat
  deleted : Nat

def Cache.init : Cache := ⟨none, fun _ => .out, [], 0, 0⟩

def Cache.goto (c : Cache) (t : Nat) (p : Pc) : Cache :=
  { c with pc := fun t' => if t' = t then p else c.pc t' }

/-- A step of thread `t`; `env` is the value of the environment variable at that moment. -/
inductive Step (t : Nat) : Cache → Cache → Prop
  /-- line 100 -/
  | found {c : Cache} : c.pc t = .out → c.config ≠ none → Step t c (c.goto t .leaving)
  | missing {c : Cache} : c.pc t = .out → c.config = none → Step t c (c.goto t .missing)
  /-- lines 104-112 -/
  | copy {c : Cache} (env : Option (List Nat)) : c.pc t = .missing →
      Step t c { c.goto t (.copied (DebugClient.getDebugConfig env)) with made := c.made + 1 }
  /-- `InterlockedCompareExchangePointer` finds a null pointer, lines 113-114 -/
  | exchanged {c : Cache} {config : List Nat} : c.pc t = .copied config → c.config = none →
      Step t c { c.goto t .leaving with config := some config }
  /-- or does not, lines 113-117 -/
  | lost {c : Cache} {config : List Nat} : c.pc t = .copied config → c.config ≠ none →
      Step t c { c.goto t .leaving with deleted := c.deleted + 1 }
  /-- line 119 -/
  | leave {c : Cache} : c.pc t = .leaving →
      Step t c { c.goto t .out with returned := c.returned ++ [(t, c.config)] }

/-- Any number of steps of any threads. -/
inductive Steps : Cache → Prop
  | init : Steps Cache.init
  | step {c c' : Cache} (t : Nat) : Steps c → Step t c c' → Steps c'

/-! ## The last error -/

/-- `PreserveLastError`, src/shared/DebugClient.cc:42-48, around a body that changes the last error. -/
def preserve (body : Nat → Nat) (lastError : Nat) : Nat :=
  (fun (_afterwards : Nat) => lastError) (body lastError)

/-- What happens to the last error in `getDebugConfig`, src/shared/DebugClient.cc:98-119: `fresh` tells
whether `g_debugConfig` is null, `effects` what the calls make of the last error. -/
def lastErrorGetDebugConfig (fresh : Bool) (effects : Nat → Nat) (lastError : Nat) : Nat :=
  if fresh then preserve effects lastError else lastError

/-- `hasDebugFlag`, src/shared/DebugClient.cc:138-154, with a flag without comma. -/
def lastErrorHasDebugFlag (fresh empty : Bool) (effects effects2 : Nat → Nat) (lastError : Nat) : Nat :=
  if empty then lastErrorGetDebugConfig fresh effects lastError
  else preserve effects2 (lastErrorGetDebugConfig fresh effects lastError)

/-- `isTracingEnabled`, src/shared/DebugClient.cc:121-136: `known` tells whether `disabled` or `enabled`
is set. -/
def lastErrorIsTracingEnabled (known : Bool) (body : Nat → Nat) (lastError : Nat) : Nat :=
  if known then lastError else preserve body lastError

/-- `trace`, src/shared/DebugClient.cc:156-187: `rest` is what formatting and sending the message make
of the last error. -/
def lastErrorTrace (known enabled : Bool) (body rest : Nat → Nat) (lastError : Nat) : Nat :=
  if enabled then preserve rest (lastErrorIsTracingEnabled known body lastError)
  else lastErrorIsTracingEnabled known body lastError

/-! ## A message -/

/-- `trace`, src/shared/DebugClient.cc:161-186, from the formatted text on, as far as the message sent:
`printed` and `printedFull` are what the C library does when it prints the message and the full
message, `old` and `oldFull` the contents of the arrays (1024 each).  The text printed the second time
is the heading (lines 178-182: time, program and numbers of process and thread), followed by the C
string printed the first time. -/
def message (old oldFull : List Nat) (printed : List Nat × Int) (printedFull : List Nat → List Nat × Int) :
    Option (List Nat) :=
  match winptyVsnprintf old printed with
  | none => none
  | some (buffer, _) =>
    match winptyVsnprintf oldFull (printedFull (cString (buffer.set (old.length - 1) 0))) with
    | none => none
    | some (full, _) => some (cString (full.set (oldFull.length - 1) 0))

/-! ## The server -/

/-- `MSG_SIZE`, src/debugserver/DebugServer.cc:32. -/
def msgSize : Nat := 4096

/-- What happens in one round of the server's loop, src/debugserver/DebugServer.cc:99-117: a client
connects (`ConnectNamedPipe` succeeds, or it fails, with an error) and `ReadFile` stores bytes, or fails. -/
inductive Round where
  | connectFailed (err : Nat)
  | readFailed
  | read (bytes : List Nat)
deriving Repr

/-- The server's loop: what is written to the standard output, and whether the server is still running
after these rounds. -/
def serve : List Round → List Nat × Bool
  | [] => ([], true)
  | .connectFailed _ :: _ => ([], false)
  | .readFailed :: rest => serve rest
  | .read bytes :: rest => (bytes ++ 10 :: (serve rest).1, (serve rest).2)

end Winpty.Trace
