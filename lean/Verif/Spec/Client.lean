import Verif.Model.Client
import Verif.Spec.Frame

/-!
# Specification: what is observed of the library's RPC calls

Everything here is read off the log of system calls (`Event`) and the answers of the system (`Io`).
-/
namespace Winpty.Spec.Client

open Winpty.Client (Event Io)

/-- The buffers handed to `WriteFile` on the control pipe. -/
def requests : List Event → List (List Nat)
  | [] => []
  | .write b :: es => b :: requests es
  | _ :: es => requests es

/-- How many bytes the system says it took, write by write. -/
def accepted : List Event → List Nat
  | [] => []
  | .wrote n :: es => n :: accepted es
  | _ :: es => accepted es

/-- All bytes received from the control pipe. -/
def received : List Event → List Nat
  | [] => []
  | .got b :: es => b ++ received es
  | _ :: es => received es

/-- Follow the log knowing whether a call is pending: `none` if a call is started, data is used or
the pipe is closed while one is pending, or if one is cancelled or waited for while none is. -/
def pendingAfter : Bool → List Event → Option Bool
  | p, [] => some p
  | false, .pending :: es => pendingAfter true es
  | true, .cancel :: es => pendingAfter true es
  | true, .reaped :: es => pendingAfter false es
  | _, .pending :: _ | _, .cancel :: _ | _, .reaped :: _ => none
  | true, _ :: _ => none
  | false, _ :: es => pendingAfter false es

/-- Every call on the pipe has ended before the next one is made, and none is left pending. -/
def Tidy (es : List Event) : Prop := pendingAfter false es = some false

/-- The documented error code for an answer of the system that makes a call fail: 3 (connection
lost) for the three errors of a broken pipe, 6 (agent died), 7 (agent timed out), 5 otherwise; `none`
if the transfer succeeded. -/
def codeOf : Io → Option Nat
  | .now (.ok _ _) => none
  | .pending (.io (.ok _ _)) => none
  | .now (.fail 109) | .now (.fail 232) | .now (.fail 233) => some 3
  | .pending (.io (.fail 109)) | .pending (.io (.fail 232)) | .pending (.io (.fail 233)) => some 3
  | .pending .agentDied => some 6
  | .pending .timeout => some 7
  | _ => some 5

/-- The answer is a successful transfer. -/
def Good (i : Io) : Prop := codeOf i = none

/-- The bytes an answer carries. -/
def dataOf : Io → List Nat
  | .now (.ok _ d) => d
  | .pending (.io (.ok _ d)) => d
  | _ => []

/-- The system delivers bytes. -/
def Bytes (ios : List Io) : Prop := ∀ i ∈ ios, ∀ b ∈ dataOf i, b < 256

open Winpty.Client (Call Session SpawnOut) in
/-- The request for a call: 0, the flags, which handles are wanted, the strings and the desktop for a
spawn; 1 and the size for a resize; 2 for a process list. -/
def requestOf (s : Session) : Call → List Buffer.Field
  | .setSize cols rows => [.int32 1, .int32 cols, .int32 rows]
  | .processList _ _ => [.int32 2]
  | .spawn c o =>
    spawnRequest c.winptyFlags (if o.process = none then 0 else 1) (if o.thread = none then 0 else 1)
      c.appname c.cmdline c.cwd c.env s.spawnDesktopName

/-- The handles obtained from the agent. -/
def stolen : List Event → List Int
  | [] => []
  | .steal _ h :: es => h :: stolen es
  | _ :: es => stolen es

/-- The handles closed again. -/
def closed : List Event → List Int
  | [] => []
  | .closeHandle h :: es => h :: closed es
  | _ :: es => closed es

open Winpty.Client (SpawnOut) in
/-- The handles given to the caller. -/
def kept (o : SpawnOut) : List Int := (o.process.toList ++ o.thread.toList).filter (· ≠ 0)

/-- The system takes a request whole and delivers the reply in chunks of any non-zero sizes, each call
at once or after some waiting; `rest` are the answers after that.  (No chunk reaches over the first
eight bytes, since the library does not ask for more at first.) -/
def Delivers (ios : List Io) (request reply : List Nat) (rest : List Io) : Prop :=
  ∃ (a : Io) (header body : List Io), ios = a :: (header ++ body ++ rest) ∧
    (a = .now (.ok request.length []) ∨ a = .pending (.io (.ok request.length []))) ∧
    (∀ i ∈ header ++ body, Good i ∧ dataOf i ≠ []) ∧
    (header.flatMap dataOf).length = 8 ∧ (header ++ body).flatMap dataOf = reply

end Winpty.Spec.Client
