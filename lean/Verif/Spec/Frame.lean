import Verif.Spec.Rpc

/-!
# Specification of packet framing

A packet is a byte string whose first eight bytes are its own length in base 256.
-/
namespace Winpty.Spec

/-- A well-formed packet on a platform with the given `SIZE_MAX`. -/
def IsPacket (sizeMax : Nat) (p : List Nat) : Prop :=
  8 ≤ p.length ∧ p.length ≤ sizeMax ∧ p.length < 2 ^ 64 ∧ p.take 8 = digits256 8 p.length

/-- An incomplete packet: what has arrived so far of some packet that is longer. -/
def IsIncomplete (sizeMax : Nat) (r : List Nat) : Prop :=
  ∃ p, IsPacket sizeMax p ∧ r.length < p.length ∧ p.take r.length = r

/-- Run a handler that may fail on a list of packets in order: stop at the first failure, keeping
the state reached before it.  The flag tells whether all were handled. -/
def handleAll {σ : Type} (h : σ → List Nat → Option σ) : σ → List (List Nat) → σ × Bool
  | s, [] => (s, true)
  | s, p :: ps =>
    match h s p with
    | none => (s, false)
    | some s' => handleAll h s' ps

end Winpty.Spec
