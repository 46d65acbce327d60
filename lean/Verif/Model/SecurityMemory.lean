/-!
# Model of the memory of `src/shared/WindowsSecurity.cc`

SIDs, access control lists, security descriptors, token handles and the objects that own them.  A block of
memory (or a handle) carries the kind of its allocator and the addresses that are stored in it.  Which calls of
Windows succeed and which allocations of C++ succeed is up to the environment.  Using or releasing what is not
there, or releasing it with the wrong function, is a distinct outcome (`wild`), and so is a failed `ASSERT`.
The contents of SIDs and lists are in `Model/PipeSecurity`.
-/
namespace Winpty.SecurityMemory

/-- Who made a block, and so who has to release it: `AllocateAndInitializeSid`/`FreeSid`
(src/shared/WindowsSecurity.cc:135 and 64), `SetEntriesInAclW` and `LocalAlloc`/`LocalFree` (181, 195 and 52),
`new`/`delete` (55, 68, 112, 113, 226), and handles/`CloseHandle` (80, 85 and src/shared/OwnedHandle.cc:28). -/
inductive Kind where
  | sid
  | localMem
  | object
  | handle
deriving DecidableEq, Repr

/-- A live block: its kind and the addresses in it.  Only a security descriptor holds one, that of its
access control list (`SetSecurityDescriptorDacl`, src/shared/WindowsSecurity.cc:204); `SetEntriesInAclW` copies
the SIDs. -/
structure Block where
  kind : Kind
  points : List Nat
deriving DecidableEq, Repr

/-- The environment: whether the `k`th call of Windows succeeds (src/shared/WindowsSecurity.cc:80-207) and
whether the `k`th `new` does (55, 68, 112, 113, 226); and whether the owner of a token takes at least
`sizeof(TOKEN_OWNER)` bytes (120). -/
structure Env where
  api : Nat → Bool
  mem : Nat → Bool
  ownerLarge : Bool

/-- The memory: the next unused address, the live blocks, and how many calls and allocations there were.
(src/shared/WindowsSecurity.cc:58-251; not in the code as data.)  Simplification: addresses are not used
again. -/
structure Heap where
  next : Nat
  live : Nat → Option Block
  called : Nat
  asked : Nat

/-- How a step ends: with a value, with an exception (`WinptyException`, or `std::bad_alloc` if the flag is set),
with a use of memory that is not live, or with a failed `ASSERT`.  (src/shared/WindowsSecurity.cc:76-251.) -/
inductive Res (α : Type) where
  | ok (a : α) (h : Heap)
  | throws (oom : Bool) (h : Heap)
  | wild
  | assertFail

/-- A piece of the code.  (src/shared/WindowsSecurity.cc:76-251.) -/
abbrev Run (α : Type) := Env → Heap → Res α

/-- Nothing more to do.  (src/shared/WindowsSecurity.cc:250.) -/
def Run.ret {α : Type} (a : α) : Run α := fun _ h => .ok a h

/-- One step after the other; an exception passes.  (src/shared/WindowsSecurity.cc:226-250.) -/
def Run.bind {α β : Type} (m : Run α) (f : α → Run β) : Run β := fun env h =>
  match m env h with
  | .ok a h' => f a env h'
  | .throws oom h' => .throws oom h'
  | .wild => .wild
  | .assertFail => .assertFail

/-- `throwWindowsError`, `throwWinptyException`: src/shared/WinptyException.cc:44-57. -/
def Run.throw {α : Type} : Run α := fun _ h => .throws false h

/-- A failed `ASSERT`, src/shared/WindowsSecurity.cc:89 and 120. -/
def Run.assertFail {α : Type} : Run α := fun _ _ => .assertFail

/-- A destructor that runs when an exception leaves the step: the unwinding of
src/shared/WindowsSecurity.cc:112-125, 199-209 and 226-250. -/
def Run.unwinding {α : Type} (m : Run α) (destructor : Run Unit) : Run α := fun env h =>
  match m env h with
  | .ok a h' => .ok a h'
  | .throws oom h' => (Run.bind destructor fun _ _ h'' => .throws oom h'') env h'
  | .wild => .wild
  | .assertFail => .assertFail

/-- A destructor that runs at the end of the scope, whether or not it is left by an exception: `token` at
src/shared/WindowsSecurity.cc:100-126, `sd` at src/libwinpty/winpty.cc:371-394. -/
def Run.scope {α : Type} (m : Run α) (destructor : Run Unit) : Run α :=
  (m.unwinding destructor).bind fun a => destructor.bind fun _ => .ret a

/-- The next call of Windows: does it succeed?  (src/shared/WindowsSecurity.cc:80-207.) -/
def api : Run Bool := fun env h => .ok (env.api h.called) { h with called := h.called + 1 }

/-- A block at an address. (src/shared/WindowsSecurity.cc:58-251.) -/
def Heap.set (h : Heap) (a : Nat) (b : Option Block) : Heap :=
  { h with live := fun x => if x = a then b else h.live x }

/-- Windows hands out a block (or a handle): src/shared/WindowsSecurity.cc:80, 85, 135, 181 and 195. -/
def made (k : Kind) : Run Nat := fun _ h =>
  .ok h.next { (h.set h.next (some ⟨k, []⟩)) with next := h.next + 1 }

/-- `new`: src/shared/WindowsSecurity.cc:55, 68, 112, 113 and 226. -/
def new : Run Nat := fun env h =>
  if env.mem h.asked then made .object env { h with asked := h.asked + 1 }
  else .throws true { h with asked := h.asked + 1 }

/-- `FreeSid`, `LocalFree`, `delete`, `CloseHandle`: src/shared/WindowsSecurity.cc:52 and 64,
src/shared/OwnedHandle.cc:28. -/
def release (k : Kind) (a : Nat) : Run Unit := fun _ h =>
  match h.live a with
  | some b => if b.kind = k then .ok () (h.set a none) else .wild
  | none => .wild

/-- A call of Windows reads the memory at a pointer: src/shared/WindowsSecurity.cc:103, 181, 200 and 204. -/
def reads (p : Option Nat) : Run Unit := fun _ h =>
  match p with
  | none => .wild
  | some a => if (h.live a).isSome then .ok () h else .wild

/-- A call of Windows reads what several pointers point to: the trustees at src/shared/WindowsSecurity.cc:181-183. -/
def readsAll : List (Option Nat) → Run Unit
  | [] => .ret ()
  | p :: ps => (reads p).bind fun _ => readsAll ps

/-- A call that writes a pointer into a block: `SetSecurityDescriptorDacl`, src/shared/WindowsSecurity.cc:204. -/
def writesPointer (a : Nat) (p : Option Nat) : Run Unit := fun _ h =>
  match h.live a with
  | some b => .ok () (h.set a (some { b with points := p.toList }))
  | none => .wild

/-- The object behind a SID, a list or a descriptor: of `localItem` (src/shared/WindowsSecurity.cc:48-54), of
`allocatedSid` (59-67) and of `getOwnerSid` (96-98), with its own address. -/
inductive Impl where
  | ofLocal (self v : Nat)
  | ofSid (self v : Nat)
  | ofOwner (self buffer : Nat)
deriving DecidableEq, Repr

/-- `SecurityItem`: the pointer and the object that owns what it points to, src/shared/WindowsSecurity.h:47-48. -/
structure Item where
  v : Option Nat
  pimpl : Option Impl
deriving DecidableEq, Repr

/-- The default constructor, src/shared/WindowsSecurity.h:54. -/
def Item.null : Item := ⟨none, none⟩

/-- `delete` of the object: its destructor (src/shared/WindowsSecurity.cc:51-53, 62-66, and of `buffer` at 97),
then its memory. -/
def deleteImpl : Impl → Run Unit
  | .ofLocal self v => (release .localMem v).bind fun _ => release .object self
  | .ofSid self v => (release .sid v).bind fun _ => release .object self
  | .ofOwner self buffer => (release .object buffer).bind fun _ => release .object self

/-- The destructor of a `SecurityItem`, that of its `m_pimpl`: src/shared/WindowsSecurity.h:48. -/
def destroyItem (i : Item) : Run Unit :=
  match i.pimpl with
  | none => .ret ()
  | some impl => deleteImpl impl

/-- `SecurityItem &operator=(SecurityItem &&)`, src/shared/WindowsSecurity.h:61-66: what the target becomes, with
the old object deleted.  The source is a temporary; it is left with two null pointers. -/
def moveAssign (old new : Item) : Run Item :=
  (destroyItem ⟨none, old.pimpl⟩).bind fun _ => .ret ⟨new.v, new.pimpl⟩

/-- `localItem`, src/shared/WindowsSecurity.cc:45-56. -/
def localItem (v : Nat) : Run Item := new.bind fun self => .ret ⟨some v, some (.ofLocal self v)⟩

/-- `allocatedSid`, src/shared/WindowsSecurity.cc:58-69. -/
def allocatedSid (v : Nat) : Run Item := new.bind fun self => .ret ⟨some v, some (.ofSid self v)⟩

/-- `wellKnownSid`, src/shared/WindowsSecurity.cc:128-147, as called at 149-172. -/
def wellKnownSid : Run Item :=
  api.bind fun ok => if ok then (made .sid).bind allocatedSid else .throw

/-- `OpenProcessToken`, src/shared/WindowsSecurity.cc:85-87. -/
def openProcessToken : Run Nat :=
  api.bind fun ok => if ok then made .handle else .throw

/-- `openSecurityTokenForQuery`, src/shared/WindowsSecurity.cc:76-92: the second answer tells whether the error is
`ERROR_NO_TOKEN`.  Not modelled: the `ASSERT` at 89, that a call that succeeded has set the handle. -/
def openToken : Run Nat :=
  api.bind fun ok =>
    if ok then made .handle
    else api.bind fun noToken => if noToken then openProcessToken else .throw

/-- The size is checked and the owner returned, src/shared/WindowsSecurity.cc:119-125. -/
def ownerItem (self buffer : Nat) : Run Item := fun env h =>
  if env.ownerLarge then .ok ⟨some buffer, some (.ofOwner self buffer)⟩ h else .assertFail

/-- The second call of `GetTokenInformation`, src/shared/WindowsSecurity.cc:114-125.  The SID that `tmp.Owner`
points to is in the buffer. -/
def readOwner (token self buffer : Nat) : Run Item :=
  (readsAll [some token, some buffer]).bind fun _ => api.bind fun ok =>
    if ok then ownerItem self buffer else .throw

/-- `new char[actual]` and the rest, with `impl` and its buffer destroyed by an exception,
src/shared/WindowsSecurity.cc:112-125. -/
def ownerBuffer (token self : Nat) : Run Item :=
  (new.unwinding (release .object self)).bind fun buffer =>
    (readOwner token self buffer).unwinding (deleteImpl (.ofOwner self buffer))

/-- `getOwnerSid` once it has the token, src/shared/WindowsSecurity.cc:101-125: the first call has to fail (105),
and with `ERROR_INSUFFICIENT_BUFFER` (108, the second answer). -/
def ownerOfToken (token : Nat) : Run Item :=
  (reads (some token)).bind fun _ => api.bind fun ok =>
    if ok then .throw
    else api.bind fun insufficient =>
      if insufficient then new.bind fun self => ownerBuffer token self else .throw

/-- `getOwnerSid`, src/shared/WindowsSecurity.cc:95-126. -/
def getOwnerSid : Run Item :=
  openToken.bind fun token => (ownerOfToken token).scope (release .handle token)

/-- The list in `finishSecurityDescriptor`, src/shared/WindowsSecurity.cc:178-191, with what `outAcl` becomes. -/
def finishAcl (trustees : List (Option Nat)) (outAcl : Item) : Run Item :=
  (readsAll trustees).bind fun _ => api.bind fun ok =>
    if ok then (made .localMem).bind fun acl => (localItem acl).bind (moveAssign outAcl) else .throw

/-- The calls on the new descriptor, src/shared/WindowsSecurity.cc:200-207. -/
def initDescriptor (sdRaw : Nat) (acl : Option Nat) : Run Unit :=
  (reads (some sdRaw)).bind fun _ => api.bind fun ok =>
    if ok then (readsAll [some sdRaw, acl]).bind fun _ => api.bind fun ok' =>
      if ok' then writesPointer sdRaw acl else .throw
    else .throw

/-- The descriptor in `finishSecurityDescriptor`, src/shared/WindowsSecurity.cc:193-209. -/
def finishSd (acl : Option Nat) : Run Item :=
  api.bind fun ok =>
    if ok then (made .localMem).bind fun sdRaw => (localItem sdRaw).bind fun sd =>
      ((initDescriptor sdRaw acl).unwinding (destroyItem sd)).bind fun _ => .ret sd
    else .throw

/-- `struct Impl` of the two functions that make descriptors, src/shared/WindowsSecurity.cc:217-224 and 256-264,
with its address.  Without `everyone` in the first: here it stays null.  The entries are in the object itself. -/
structure SdImpl where
  self : Nat
  localSystem : Item
  builtinAdmins : Item
  owner : Item
  everyone : Item
  dacl : Item
  value : Item
deriving DecidableEq, Repr

/-- `new Impl`, src/shared/WindowsSecurity.cc:226 and 266. -/
def SdImpl.init (self : Nat) : SdImpl := ⟨self, .null, .null, .null, .null, .null, .null⟩

/-- `delete` of this object: its members in the reverse order of their declarations, then its memory,
src/shared/WindowsSecurity.cc:217-224 and 256-264. -/
def deleteSdImpl (i : SdImpl) : Run Unit :=
  (destroyItem i.value).bind fun _ => (destroyItem i.dacl).bind fun _ =>
  (destroyItem i.everyone).bind fun _ => (destroyItem i.owner).bind fun _ =>
  (destroyItem i.builtinAdmins).bind fun _ => (destroyItem i.localSystem).bind fun _ =>
  release .object i.self

/-- A `SecurityDescriptor` as these functions return it, src/shared/WindowsSecurity.cc:249-250 and 299-300. -/
structure Descriptor where
  v : Option Nat
  pimpl : Option SdImpl
deriving DecidableEq, Repr

/-- Its destructor, src/shared/WindowsSecurity.h:48. -/
def destroyDescriptor (d : Descriptor) : Run Unit :=
  match d.pimpl with
  | none => .ret ()
  | some impl => deleteSdImpl impl

/-- A statement of these functions: if it throws, the object is deleted (the `unique_ptr` at
src/shared/WindowsSecurity.cc:226 and 266). -/
def step {α : Type} (i : SdImpl) (m : Run α) (rest : α → Run Descriptor) : Run Descriptor :=
  (m.unwinding (deleteSdImpl i)).bind rest

/-- The trustees of the entries, src/shared/WindowsSecurity.cc:237-242 and 278-285. -/
def trustees (everyone : Bool) (i : SdImpl) : List (Option Nat) :=
  [i.localSystem.v, i.builtinAdmins.v, i.owner.v] ++ (if everyone then [i.everyone.v] else [])

/-- The end, src/shared/WindowsSecurity.cc:249-250 and 299-300. -/
def finished (i : SdImpl) : Run Descriptor := .ret ⟨i.value.v, some i⟩

/-- `finishSecurityDescriptor` as called at src/shared/WindowsSecurity.cc:244-247 and 294-297: `outAcl` is the
member `dacl`, so the object has the list when the second half throws. -/
def finish (everyone : Bool) (i : SdImpl) : Run Descriptor :=
  step i (finishAcl (trustees everyone i) i.dacl) fun dacl =>
  step { i with dacl := dacl } ((finishSd dacl.v).bind (moveAssign i.value)) fun value =>
  finished { i with dacl := dacl, value := value }

/-- The fourth SID, src/shared/WindowsSecurity.cc:270. -/
def withEveryone (everyone : Bool) (i : SdImpl) : Run Descriptor :=
  if everyone then
    step i (wellKnownSid.bind (moveAssign i.everyone)) fun s => finish everyone { i with everyone := s }
  else finish everyone i

/-- The first three SIDs and the rest, src/shared/WindowsSecurity.cc:227-250 and 267-300. -/
def fill (everyone : Bool) (i : SdImpl) : Run Descriptor :=
  step i (wellKnownSid.bind (moveAssign i.localSystem)) fun ls =>
  step { i with localSystem := ls } (wellKnownSid.bind (moveAssign i.builtinAdmins)) fun ba =>
  step { i with localSystem := ls, builtinAdmins := ba } (getOwnerSid.bind (moveAssign i.owner)) fun ow =>
  withEveryone everyone { i with localSystem := ls, builtinAdmins := ba, owner := ow }

/-- `createPipeSecurityDescriptorOwnerFullControl` (src/shared/WindowsSecurity.cc:214-251) and
`createPipeSecurityDescriptorOwnerFullControlEveryoneWrite` (253-301). -/
def createDescriptor (everyone : Bool) : Run Descriptor :=
  new.bind fun self => fill everyone (SdImpl.init self)

/-- The move constructor and the move assignment of a descriptor into one that is null,
src/shared/WindowsSecurity.h:57-66 (src/debugserver/DebugServer.cc:66): the target and what is left of the
source. -/
def moveDescriptor (d : Descriptor) : Descriptor × Descriptor := (⟨d.v, d.pimpl⟩, ⟨none, none⟩)

/-- `CreateNamedPipeW` reads the security descriptor and everything in it: src/libwinpty/winpty.cc:379-389,
src/agent/NamedPipe.cc:220-228, src/debugserver/DebugServer.cc:77-86. -/
def readsDescriptor (v : Nat) : Run Unit := fun env h =>
  match h.live v with
  | some b => readsAll (b.points.map some) env h
  | none => .wild

/-- The test for a null descriptor (src/libwinpty/winpty.cc:372-375, src/agent/NamedPipe.cc:216),
`CreateNamedPipeW` with these security attributes, then the check of its result: src/libwinpty/winpty.cc:376-393,
src/agent/NamedPipe.cc:217-231.  In the agent both failures are a failed `ASSERT`. -/
def createPipe (agent : Bool) (v : Option Nat) : Run Nat :=
  match v with
  | none => if agent then .assertFail else .throw
  | some a => (readsDescriptor a).bind fun _ => api.bind fun ok =>
      if ok then made .handle else if agent then .assertFail else .throw

/-- `createControlPipe` (src/libwinpty/winpty.cc:370-394) and the first half of `NamedPipe::openServerPipe`
(src/agent/NamedPipe.cc:215-231): the descriptor lives until the end of the scope. -/
def controlPipe (agent : Bool) : Run Nat :=
  (createDescriptor false).bind fun sd => (createPipe agent sd.v).scope (destroyDescriptor sd)

/-- The pipe of the debug server, src/debugserver/DebugServer.cc:61-92, up to the point where it has its pipe:
with `--everyone` the descriptor is moved to `sd`, which is declared outside the `if`, and so still lives when
the pipe is made.  The process ends with `exit(1)` where this throws. -/
def debugServerPipe (everyone : Bool) : Run (Nat × Descriptor) :=
  if everyone then
    (createDescriptor true).bind fun tmp =>
      (destroyDescriptor (moveDescriptor tmp).2).bind fun _ =>
        (createPipe false (moveDescriptor tmp).1.v).bind fun p => .ret (p, (moveDescriptor tmp).1)
  else api.bind fun ok => if ok then (made .handle).bind fun p => .ret (p, ⟨none, none⟩) else .throw

end Winpty.SecurityMemory
