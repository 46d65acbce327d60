import Verif.Model.Startup

/-!
# Model of `src/shared/GenRandom.cc`: where the random bytes come from
-/
namespace Winpty.GenRandom

open Winpty.Startup (uniqueName counterAt)

/-- The system: `RtlGenRandom` if there is such a function, and whether a context for `CryptGenRandom` can be had.
Each gives so many bytes, or fails.  src/shared/GenRandom.cc:30-58, 71-85. -/
structure Os where
  rtlGenRandom : Option (Nat → Option (List Nat))
  acquires : Bool
  cryptGenRandom : Nat → Option (List Nat)

/-- `GenRandom`'s fields after its constructor: whether `m_rtlGenRandom` is there, `m_cryptProvIsValid`.
src/shared/GenRandom.cc:30-58. -/
structure Gen where
  rtl : Option (Nat → Option (List Nat))
  cryptProvIsValid : Bool

/-- The constructor, src/shared/GenRandom.cc:30-58. -/
def construct (os : Os) : Gen :=
  match os.rtlGenRandom with
  | some f => ⟨some f, false⟩
  | none => ⟨none, os.acquires⟩

/-- How often a context is acquired by the constructor (52-53) and released by the destructor (60-64).
src/shared/GenRandom.cc:52-64. -/
def contexts (os : Os) : Nat × Nat :=
  (match os.rtlGenRandom with
    | some _ => 0
    | none => if os.acquires then 1 else 0,
   if (construct os).cryptProvIsValid then 1 else 0)

/-- `GenRandom::fillBuffer`, src/shared/GenRandom.cc:67-87: the buffer and whether it was filled. -/
def fillBuffer (os : Os) (g : Gen) (size : Nat) : List Nat × Bool :=
  match g.rtl with
  | some f =>
    match f size with
    | some bytes => (bytes, true)
    | none => (List.replicate size 0, false)
  | none =>
    if g.cryptProvIsValid then
      match os.cryptGenRandom size with
      | some bytes => (bytes, true)
      | none => (List.replicate size 0, false)
    else (List.replicate size 0, false)

/-- `GenRandom::randomBytes`, src/shared/GenRandom.cc:91-97. -/
def randomBytes (os : Os) (g : Gen) (numBytes : Nat) : List Nat :=
  if (fillBuffer os g numBytes).2 then (fillBuffer os g numBytes).1 else []

/-- `GenRandom().uniqueName()`, src/shared/GenRandom.cc:121-138, as at src/libwinpty/winpty.cc:554 and
src/agent/Agent.cc:260: the name with the number `k` of the process. -/
def newName (os : Os) (pid k time : Nat) : List Nat :=
  uniqueName pid (counterAt k) time (randomBytes os (construct os) 16)

end Winpty.GenRandom
