import Verif.Model.TraceSend

/-
Specification for sending trace messages (C88).
-/

namespace Winpty.Spec.TraceSend

open Winpty.TraceSend (St Act Call Pc run)

/-- A state that can be reached, in any order of the steps. -/
def Reachable (s : St) : Prop := ∃ acts, run St.init acts = some s

/-- `s'` can come after `s`. -/
def After (s s' : St) : Prop := ∃ acts, run s acts = some s'

/-- The call with this number has returned; `replied`: the server answered it. -/
def Returned (s : St) (i : Nat) (replied : Bool) : Prop :=
  ∃ c : Call, s.calls[i]? = some c ∧ c.pc = .returned replied

/-- What the server has printed for this call. -/
def printedFor (s : St) (i : Nat) : List (List Nat) :=
  (s.printed.filter fun p => p.1 == i).map Prod.snd

/-- The line of a message. -/
def line (msg : List Nat) : List Nat := msg ++ [10]

/-- The steps of the processes themselves: no new call, no start or end of the server. -/
def own : Act → Bool
  | .client _ _ => true
  | .server => true
  | _ => false

/-- All calls have returned. -/
def AllReturned (s : St) : Prop := ∀ (i : Nat) (c : Call), s.calls[i]? = some c → ∃ replied, c.pc = .returned replied

/-- Nobody can do anything. -/
def Stuck (s : St) : Prop := ∀ a, own a = true → Winpty.TraceSend.act s a = none

/-- Without steps of call `i`, and without an end of the server. -/
def without (i : Nat) : Act → Bool
  | .client j _ => j != i
  | .kill => false
  | _ => true

/-- Nothing goes wrong: the functions of Windows succeed as far as that does not depend on the pipe, new messages
are not too large, and the server is not ended from outside. -/
def fine : Act → Bool
  | .client _ ok => ok
  | .call msg => msg.length ≤ 4096
  | .kill => false
  | _ => true

/-- The level at which a server may act for the client, of the flags of `CreateFileW`: bit 20 tells that the two
bits from 16 on are the level (0 anonymous, 1 identification, 2 impersonation, 3 delegation); otherwise it is 2. -/
def impersonationLevel (flags : Nat) : Nat :=
  if flags / 2 ^ 20 % 2 = 1 then flags / 2 ^ 16 % 4 else 2

/-- Milliseconds since the beginning of 1970, from the system time `t` in units of 100 ns since the beginning of
1601. -/
def milliseconds (t : Nat) : Nat := (t - 116444736000000000) / 10000

end Winpty.Spec.TraceSend
