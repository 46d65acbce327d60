/-!
# Model of the access control of pipes

`src/shared/WindowsSecurity.cc`, `src/shared/WindowsVersion.cc`, and the creation of named pipes in
`src/libwinpty/winpty.cc`, `src/agent/NamedPipe.cc` and `src/debugserver/DebugServer.cc`.  The answers
of the system are parameters.  Exceptions and failed assertions are distinct outcomes.  The lifetime of
the objects that a security descriptor points to is in `Model/SecurityMemory`.  Not modelled: conversions to
and from strings (src/shared/WindowsSecurity.cc:303-423, for tests).
-/
namespace Winpty.PipeSecurity

/-- A `SID`: the last byte of its authority (the others are 0 in all that are made here,
src/shared/WindowsSecurity.cc:151, 160, 168) and its subauthorities. -/
structure Sid where
  authority : Nat
  subs : List Nat
deriving DecidableEq, Repr

/-- How a function can end other than normally: a `WinptyException`, with the Windows error if it has
one, or a failed assertion. -/
inductive Fail where
  | exception (err : Option Nat)
  | abort
deriving DecidableEq, Repr

/-- `EXPLICIT_ACCESSW`, of which src/shared/WindowsSecurity.cc:234-245 sets these fields (the trustee
is given as a SID). -/
structure Entry where
  permissions : Nat
  mode : Nat
  inheritance : Nat
  trustee : Sid
deriving DecidableEq, Repr

/-- An entry of an access control list: does it allow or deny? -/
inductive Kind where
  | allow | deny
deriving DecidableEq, Repr

structure Ace where
  kind : Kind
  mask : Nat
  sid : Sid
deriving DecidableEq, Repr

/-- A `SECURITY_DESCRIPTOR`: its DACL, `none` if there is none or it is a null pointer
(src/shared/WindowsSecurity.cc:192-207). -/
structure Descriptor where
  dacl : Option (List Ace)
deriving DecidableEq, Repr

/-- The answers of the system: the owner recorded in the thread's token and in the process's token
(or the error with which the token cannot be opened); those of the two calls of
`GetTokenInformation` (the second tells how many bytes it stored), of `AllocateAndInitializeSid`, of
`SetEntriesInAclW`, of `LocalAlloc`, `InitializeSecurityDescriptor` and `SetSecurityDescriptorDacl`; the
size of `TOKEN_OWNER` (a pointer); the version of Windows. -/
structure Env where
  threadToken : Except Nat Sid
  processToken : Except Nat Sid
  querySize : Except Nat Unit
  query : Except Nat Nat
  tokenOwnerSize : Nat
  allocateSid : Sid → Except Nat Unit
  setEntries : List Entry → Except Nat (List Ace)
  localAlloc : Bool
  initDescriptor : Except Nat Unit
  setDacl : Except Nat Unit
  version : Nat × Nat

/-- `openSecurityTokenForQuery`, src/shared/WindowsSecurity.cc:76-92; `ERROR_NO_TOKEN` is 1008.  That
the token is not null when the call succeeds (line 89) is taken for granted. -/
def openSecurityTokenForQuery (env : Env) : Except Fail Sid :=
  match env.threadToken with
  | .ok owner => .ok owner
  | .error e =>
    if e ≠ 1008 then .error (.exception (some e))
    else
      match env.processToken with
      | .ok owner => .ok owner
      | .error e => .error (.exception (some e))

/-- `getOwnerSid`, src/shared/WindowsSecurity.cc:95-126; `ERROR_INSUFFICIENT_BUFFER` is 122. -/
def getOwnerSid (env : Env) : Except Fail Sid :=
  match openSecurityTokenForQuery env with
  | .error f => .error f
  | .ok owner =>
    match env.querySize with
    | .ok _ => .error (.exception none)
    | .error e =>
      if e ≠ 122 then .error (.exception (some e))
      else
        match env.query with
        | .error e => .error (.exception (some e))
        | .ok actual => if actual ≥ env.tokenOwnerSize then .ok owner else .error .abort

/-- `wellKnownSid`, src/shared/WindowsSecurity.cc:128-147. -/
def wellKnownSid (env : Env) (authority authorityCount subAuthority0 subAuthority1 : Nat) :
    Except Fail Sid :=
  match env.allocateSid
      ⟨authority, [subAuthority0, subAuthority1, 0, 0, 0, 0, 0, 0].take authorityCount⟩ with
  | .error e => .error (.exception (some e))
  | .ok _ => .ok ⟨authority, [subAuthority0, subAuthority1, 0, 0, 0, 0, 0, 0].take authorityCount⟩

/-- `builtinAdminsSid`, src/shared/WindowsSecurity.cc:149-156. -/
def builtinAdminsSid (env : Env) : Except Fail Sid := wellKnownSid env 5 2 32 544

/-- `localSystemSid`, src/shared/WindowsSecurity.cc:158-164. -/
def localSystemSid (env : Env) : Except Fail Sid := wellKnownSid env 5 1 18 0

/-- `everyoneSid`, src/shared/WindowsSecurity.cc:166-172. -/
def everyoneSid (env : Env) : Except Fail Sid := wellKnownSid env 1 1 0 0

/-- `finishSecurityDescriptor`, src/shared/WindowsSecurity.cc:174-210. -/
def finishSecurityDescriptor (env : Env) (entries : List Entry) : Except Fail Descriptor :=
  match env.setEntries entries with
  | .error _ => .error (.exception none)
  | .ok acl =>
    if env.localAlloc then
      match env.initDescriptor with
      | .error e => .error (.exception (some e))
      | .ok _ =>
        match env.setDacl with
        | .error e => .error (.exception (some e))
        | .ok _ => .ok ⟨some acl⟩
    else .error (.exception none)

/-- An element of `daclEntries` after the loop of src/shared/WindowsSecurity.cc:231-236 (and 275-280):
`GENERIC_ALL`, `SET_ACCESS` (2), `NO_INHERITANCE`. -/
def fullControl (trustee : Sid) : Entry := ⟨0x10000000, 2, 0, trustee⟩

/-- `createPipeSecurityDescriptorOwnerFullControl`, src/shared/WindowsSecurity.cc:214-251. -/
def createOwnerFullControl (env : Env) : Except Fail Descriptor :=
  match localSystemSid env with
  | .error f => .error f
  | .ok localSystem =>
    match builtinAdminsSid env with
    | .error f => .error f
    | .ok builtinAdmins =>
      match getOwnerSid env with
      | .error f => .error f
      | .ok owner =>
        finishSecurityDescriptor env
          [fullControl localSystem, fullControl builtinAdmins, fullControl owner]

/-- The permissions for everyone, src/shared/WindowsSecurity.cc:289-292: `FILE_GENERIC_READ`,
`FILE_WRITE_ATTRIBUTES`, `FILE_WRITE_DATA`, `FILE_WRITE_EA`, `STANDARD_RIGHTS_WRITE`, `SYNCHRONIZE`. -/
def everyoneMask : Nat := 0x120089 ||| 0x100 ||| 0x2 ||| 0x10 ||| 0x20000 ||| 0x100000

/-- `createPipeSecurityDescriptorOwnerFullControlEveryoneWrite`,
src/shared/WindowsSecurity.cc:253-301. -/
def createEveryoneWrite (env : Env) : Except Fail Descriptor :=
  match localSystemSid env with
  | .error f => .error f
  | .ok localSystem =>
    match builtinAdminsSid env with
    | .error f => .error f
    | .ok builtinAdmins =>
      match getOwnerSid env with
      | .error f => .error f
      | .ok owner =>
        match everyoneSid env with
        | .error f => .error f
        | .ok everyone =>
          finishSecurityDescriptor env
            [fullControl localSystem, fullControl builtinAdmins, fullControl owner,
             { fullControl everyone with permissions := everyoneMask }]

/-- `getWindowsVersion() >= Version(major, minor)`, a comparison of `std::tuple`s,
src/shared/WindowsVersion.cc:163-176. -/
def isAtLeast (env : Env) (major minor : Nat) : Bool :=
  decide (env.version.1 > major) || (decide (env.version.1 = major) && decide (env.version.2 ≥ minor))

/-- `rejectRemoteClientsPipeFlag`, src/shared/WindowsSecurity.cc:426-435. -/
def rejectRemoteClientsPipeFlag (env : Env) : Nat := if isAtLeast env 6 0 then 8 else 0

/-- The arguments of a call of `CreateNamedPipeW`; without a descriptor the system uses a default
one. -/
structure PipeArgs where
  name : List Nat
  openMode : Nat
  pipeMode : Nat
  maxInstances : Nat
  outBufferSize : Nat
  inBufferSize : Nat
  defaultTimeOut : Nat
  descriptor : Option Descriptor

/-- The call made by `createControlPipe`, src/libwinpty/winpty.cc:370-394 (the descriptor is never
null, see `finishSecurityDescriptor`). -/
def createControlPipe (env : Env) (name : List Nat) : Except Fail PipeArgs :=
  match createOwnerFullControl env with
  | .error f => .error f
  | .ok sd =>
    .ok ⟨name, 0x3 ||| 0x80000 ||| 0x40000000, rejectRemoteClientsPipeFlag env, 1, 8192, 256, 30000,
      some sd⟩

/-- The call made by `NamedPipe::openServerPipe`, src/agent/NamedPipe.cc:206-228; `openMode` is made of
`Reading` (1) and `Writing` (2).  That the pipe is closed (line 208) is a matter of its callers. -/
def openServerPipe (env : Env) (name : List Nat) (openMode outBufferSize inBufferSize : Nat) :
    Except Fail PipeArgs :=
  if openMode &&& 3 ≠ 0 then
    match createOwnerFullControl env with
    | .error f => .error f
    | .ok sd =>
      .ok ⟨name,
        (if openMode &&& 1 ≠ 0 then 0x1 else 0) ||| (if openMode &&& 2 ≠ 0 then 0x2 else 0) |||
          0x80000 ||| 0x40000000,
        rejectRemoteClientsPipeFlag env, 1, outBufferSize, inBufferSize, 30000, some sd⟩
  else .error .abort

/-- The call made by the debug server, src/debugserver/DebugServer.cc:60-87; `PIPE_TYPE_MESSAGE` is 4,
`PIPE_READMODE_MESSAGE` 2. -/
def createDebugPipe (env : Env) (name : List Nat) (everyone : Bool) : Except Fail PipeArgs :=
  if everyone then
    match createEveryoneWrite env with
    | .error f => .error f
    | .ok sd =>
      .ok ⟨name, 0x3 ||| 0x80000, 4 ||| 2 ||| rejectRemoteClientsPipeFlag env, 1, 4096, 4096, 10000,
        some sd⟩
  else
    .ok ⟨name, 0x3 ||| 0x80000, 4 ||| 2 ||| rejectRemoteClientsPipeFlag env, 1, 4096, 4096, 10000, none⟩

end Winpty.PipeSecurity
