import Verif.Model.ClientThreads

/-!
# C81, in words

Several threads of a program use one session.  The outcome must be one that a single thread could have got
by making the same calls one after another: in the order in which the calls return, with the same results,
the same bytes sent and received, the same answers of the system.
-/
namespace Winpty.Spec.ClientThreads

open Winpty.Client
open Winpty.ClientThreads (Job Phase Label)

/-- One thread makes these calls, one after another, and gets these results. -/
inductive InTurn (cfg : Cfg) : Session → World → List (Job × Ret) → Session → World → Prop
  | nil (s : Session) (w : World) : InTurn cfg s w [] s w
  | cons {s s1 s2 : Session} {w w1 w2 : World} {j : Job} {r : Ret} {rest : List (Job × Ret)}
      (h : call cfg j.wantErr s w j.call = .returned r s1 w1) (hr : InTurn cfg s1 w1 rest s2 w2) :
      InTurn cfg s w ((j, r) :: rest) s2 w2

/-- The answers of the system in a schedule, in order. -/
def given : List Label → List Io
  | [] => []
  | .answer _ a :: ls => a :: given ls
  | _ :: ls => given ls

/-- The call a thread is in. -/
def current : Phase → List Job
  | .idle => []
  | .entered j => [j]
  | .locked j => [j]
  | .running j _ _ _ => [j]
  | .closing j _ _ => [j]
  | .unlocking j _ => [j]

/-- The thread is in the part of a call that uses the session: it has the control pipe, the event and the
agent's process to itself. -/
def usesSession : Phase → Bool
  | .idle => false
  | .entered _ => false
  | _ => true

/-- The thread a step belongs to. -/
def actor : Label → Nat
  | .enter t => t
  | .lock t => t
  | .check t => t
  | .answer t _ => t
  | .close t => t
  | .unlock t => t

/-- The thread waits for the system's answer. -/
def waitsForSystem : Phase → Bool
  | .running _ _ _ _ => true
  | _ => false

end Winpty.Spec.ClientThreads
