/-!
# Specification of UTF-8 and UTF-16 (RFC 3629 / Unicode standard), by plain arithmetic

Nothing here mentions the model.  `Props/Unicode.lean` also compares `utf8` with Lean's own
`String.utf8EncodeChar`.
-/
namespace Winpty.Spec

/-- Unicode scalar values: code points other than surrogates. -/
def IsScalar (c : Nat) : Prop := c < 0xD800 ∨ (0xDFFF < c ∧ c < 0x110000)

instance (c : Nat) : Decidable (IsScalar c) := by unfold IsScalar; infer_instance

/-- The UTF-8 encoding of a scalar value (RFC 3629, section 3). -/
def utf8 (c : Nat) : List Nat :=
  if c < 0x80 then [c]
  else if c < 0x800 then [192 + c / 64, 128 + c % 64]
  else if c < 0x10000 then [224 + c / 4096, 128 + c / 64 % 64, 128 + c % 64]
  else [240 + c / 262144, 128 + c / 4096 % 64, 128 + c / 64 % 64, 128 + c % 64]

/-- The UTF-16 encoding of a scalar value. -/
def utf16 (c : Nat) : List Nat :=
  if c < 0x10000 then [c]
  else [0xD800 + (c - 0x10000) / 1024, 0xDC00 + (c - 0x10000) % 1024]

/-- UTF-8 text of a list of scalar values. -/
def utf8Text (cs : List Nat) : List Nat := cs.flatMap utf8

/-- UTF-16 text of a list of scalar values. -/
def utf16Text (cs : List Nat) : List Nat := cs.flatMap utf16

/-- A byte string is well-formed UTF-8 if it is the encoding of some scalar values. -/
def WellFormedUtf8 (bs : List Nat) : Prop := ∃ cs, (∀ c ∈ cs, IsScalar c) ∧ utf8Text cs = bs

end Winpty.Spec
