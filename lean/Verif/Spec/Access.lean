import Verif.Model.PipeSecurity

/-!
# Specification: access control of Windows

What the documentation of Windows says about access control lists (SetEntriesInAcl, generic access
rights, how AccessChecks work).  Left out: privileges that override access control, restricted tokens
and integrity levels.
-/
namespace Winpty.Spec.Access

open Winpty.PipeSecurity (Sid Kind Ace Entry)

/-- S-1-5-18 -/
def localSystem : Sid := ⟨5, [18]⟩
/-- S-1-5-32-544 -/
def administrators : Sid := ⟨5, [32, 544]⟩
/-- S-1-1-0 -/
def everyone : Sid := ⟨1, [0]⟩

/-- The numbers of the bits of the access rights to a pipe. -/
inductive Right where
  | readData | writeData | createInstance | readEa | writeEa | execute | deleteChild | readAttributes
  | writeAttributes | delete | readControl | writeDac | writeOwner | synchronize
deriving DecidableEq, Repr

def Right.bit : Right → Nat
  | .readData => 0 | .writeData => 1 | .createInstance => 2 | .readEa => 3 | .writeEa => 4
  | .execute => 5 | .deleteChild => 6 | .readAttributes => 7 | .writeAttributes => 8
  | .delete => 16 | .readControl => 17 | .writeDac => 18 | .writeOwner => 19 | .synchronize => 20

/-- What `GENERIC_READ` is for files and pipes. -/
def genericRead : List Right := [.readData, .readEa, .readAttributes, .readControl, .synchronize]
/-- What `GENERIC_WRITE` is for files and pipes. -/
def genericWrite : List Right :=
  [.writeData, .createInstance, .writeEa, .writeAttributes, .readControl, .synchronize]
/-- What `GENERIC_EXECUTE` is for files and pipes. -/
def genericExecute : List Right := [.execute, .readAttributes, .readControl, .synchronize]

/-- Does a mask contain this right, perhaps as a part of a generic right?  (`GENERIC_ALL` contains
all.) -/
def Covers (mask : Nat) (r : Right) : Prop :=
  mask.testBit r.bit = true ∨ mask.testBit 28 = true ∨
  (mask.testBit 31 = true ∧ r ∈ genericRead) ∨ (mask.testBit 30 = true ∧ r ∈ genericWrite) ∨
  (mask.testBit 29 = true ∧ r ∈ genericExecute)

/-- Who asks: someone to whom these SIDs apply (the user and the groups). -/
abbrev Token := List Sid

/-- The first entry of the list that concerns the right and someone in the token allows it. -/
inductive ListAllows (token : Token) (r : Right) : List Ace → Prop
  | here {ace : Ace} {rest : List Ace} : ace.sid ∈ token → Covers ace.mask r → ace.kind = .allow →
      ListAllows token r (ace :: rest)
  | later {ace : Ace} {rest : List Ace} : ¬ (ace.sid ∈ token ∧ Covers ace.mask r) →
      ListAllows token r rest → ListAllows token r (ace :: rest)

/-- An object's owner may always read and change its access control list; without a list everybody may
do everything. -/
def Allowed (owner : Sid) (dacl : Option (List Ace)) (token : Token) (r : Right) : Prop :=
  (owner ∈ token ∧ (r = .readControl ∨ r = .writeDac)) ∨
  match dacl with
  | none => True
  | some acl => ListAllows token r acl

/-- The list that `SetEntriesInAcl` makes out of entries that grant (1) or set (2) access, or deny it
(3): each element comes from an entry, and someone for whom there are only granting entries has what
one of them grants. -/
structure ListOf (entries : List Entry) (acl : List Ace) : Prop where
  from_entry : ∀ ace ∈ acl, ∃ e ∈ entries, ace.sid = e.trustee ∧ ace.mask = e.permissions ∧
    (((e.mode = 1 ∨ e.mode = 2) ∧ ace.kind = .allow) ∨ (e.mode = 3 ∧ ace.kind = .deny))
  entered : ∀ e ∈ entries, (∀ e' ∈ entries, e'.trustee = e.trustee → e'.mode = 1 ∨ e'.mode = 2) →
    ∃ ace ∈ acl, ace.sid = e.trustee

/-- The flags of `CreateNamedPipe`. -/
def firstInstanceBit : Nat := 19
def rejectRemoteBit : Nat := 3

end Winpty.Spec.Access
