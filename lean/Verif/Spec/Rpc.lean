import Verif.Model.Buffer

/-!
# Specification of the RPC message format

The wire format in one place: a message is the concatenation of its fields; an `int32` is the byte 0
and four little-endian bytes, an `int64` the byte 1 and eight, a string the byte 2, its length in
units as eight bytes and two bytes per unit.  Only the types `Field`, `FieldTy` come from the model.
-/
namespace Winpty.Spec
open Winpty.Buffer (Field FieldTy)

/-- Base-256 digits, least significant first. -/
def digits256 (n v : Nat) : List Nat := (List.range n).map fun k => v / 256 ^ k % 256

/-- The values that the C types can hold: `int32_t`, `int64_t`, strings of 16-bit units whose byte
length is representable. -/
def ValidField (sizeMax : Nat) : Field → Prop
  | .int32 i => -2 ^ 31 ≤ i ∧ i < 2 ^ 31
  | .int64 i => -2 ^ 63 ≤ i ∧ i < 2 ^ 63
  | .wstring s => (∀ u ∈ s, u < 2 ^ 16) ∧ s.length ≤ sizeMax / 2 ∧ s.length < 2 ^ 64

/-- The bytes of one field. -/
def wireField : Field → List Nat
  | .int32 i => 0 :: digits256 4 (if i < 0 then (i + 2 ^ 32).toNat else i.toNat)
  | .int64 i => 1 :: digits256 8 (if i < 0 then (i + 2 ^ 64).toNat else i.toNat)
  | .wstring s => 2 :: digits256 8 s.length ++ s.flatMap (digits256 2)

/-- The bytes of a message body. -/
def wire (fs : List Field) : List Nat := fs.flatMap wireField

/-- A whole message: its total length as eight bytes, then its fields. -/
def message (fs : List Field) : List Nat := digits256 8 (8 + (wire fs).length) ++ wire fs

/-- The fields of a spawn request. -/
def spawnRequest (flags : Int) (wantProcess wantThread : Int) (program cmdline cwd env desktop : List Nat) :
    List Field :=
  [.int32 0, .int64 flags, .int32 wantProcess, .int32 wantThread, .wstring program, .wstring cmdline,
    .wstring cwd, .wstring env, .wstring desktop]

end Winpty.Spec
