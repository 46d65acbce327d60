import Verif.Model.ErrorObject

/-!
# Proper use of error objects, and what they say
-/
namespace Winpty.Spec.ErrorObject

open Winpty.Client (Exn)
open Winpty.ErrorObject (Op)

/-- The calls of a history, each with what went wrong in it and whether the program asks for the error. -/
def calls : List Op → List (Option Exn × Bool)
  | [] => []
  | .call e wantErr :: ops => (e, wantErr) :: calls ops
  | _ :: ops => calls ops

/-- The operation is about the error of call `n`. -/
def About (op : Op) (n : Nat) : Prop := op = .code n ∨ op = .msg n ∨ op = .free n

/-- The program uses an error only after the call that gave it, and not after it has freed it. -/
def Proper (ops : List Op) : Prop :=
  ∀ pre op post n, ops = pre ++ op :: post → About op n → n < (calls pre).length ∧ Op.free n ∉ pre

/-- What winpty.h and winpty_constants.h say: no error is code 0, memory running out 1, what is not specified 5. -/
def documented : Option Exn → Nat × String
  | none => (0, "Success")
  | some .decode => (5, "Bad RPC packet")
  | some (.lib code text) => (code, text)
  | some (.winpty text) => (5, text)
  | some .badAlloc => (1, "Out of memory")
  | some .other => (5, "Uncaught C++ exception")

/-- The error of memory running out. -/
def noMemory : Nat × String := (1, "Out of memory")

end Winpty.Spec.ErrorObject
