import Verif.Model.KeyMemory
/-!
# What is expected of the pool's and the key table's memory
-/
namespace Winpty.Spec
open Winpty.KeyMemory (Ev Addr)

/-- The objects that were made, in order. -/
def made (log : List Ev) : List Addr := log.filterMap fun | .constructed a => some a | _ => none
/-- The objects that were destroyed, in order. -/
def unmade (log : List Ev) : List Addr := log.filterMap fun | .destroyed a => some a | _ => none
/-- The blocks of memory that were obtained, in order. -/
def obtained (log : List Ev) : List Nat := log.filterMap fun | .malloced b => some b | _ => none
/-- The blocks of memory that were given back, in order. -/
def givenBack (log : List Ev) : List Nat := log.filterMap fun | .freed b => some b | _ => none

/-- No object and no block is made twice, all objects are destroyed and all blocks given back, once each. -/
def CleanedUp (log : List Ev) : Prop :=
  (made log).Nodup ∧ unmade log = made log ∧ (obtained log).Nodup ∧ givenBack log = obtained log

/-- What a user of the pool does: make an object, or assign to the `i`-th object made. -/
inductive PoolOp (α : Type) where
  | new (init : α)
  | assign (i : Nat) (v : α)

/-- The values of the objects after some operations, in the order they were made. -/
def values {α : Type} : List (PoolOp α) → List α → List α
  | [], vs => vs
  | .new v :: ops, vs => values ops (vs ++ [v])
  | .assign i v :: ops, vs => values ops (vs.set i v)

/-- Only objects that were made are assigned to. -/
def ValidOps {α : Type} : List (PoolOp α) → Nat → Prop
  | [], _ => True
  | .new _ :: ops, n => ValidOps ops (n + 1)
  | .assign i _ :: ops, n => i < n ∧ ValidOps ops n

end Winpty.Spec
