/-!
# Model of finding out which process is at the other end of the control pipe

`getNamedPipeClientProcessId` of `src/shared/WindowsSecurity.cc`, which `verifyPipeClientPid` of
`Model/Open.lean` uses.
-/
namespace Winpty.ClientPid

/-- What Windows answers: can `kernel32.dll` be loaded, does it have `GetNamedPipeClientProcessId`
(since Windows Vista), does the call succeed, which process ID does it give, and the last error. -/
structure Sys where
  loaded : Bool
  exported : Bool
  succeeds : Bool
  pid : Nat
  lastError : Nat

/-- `GetNamedPipeClientProcessId_Result`, src/shared/WindowsSecurity.h:95-99. -/
inductive Kind where
  | success
  | failure
  | unsupportedOs
deriving DecidableEq, Repr

/-- `getNamedPipeClientProcessId`, src/shared/WindowsSecurity.cc:441-460; `none` is a failed assertion
of `OsModule`, src/shared/OsModule.h:36-40. -/
def getNamedPipeClientProcessId (sys : Sys) : Option (Kind × Nat × Nat) :=
  if sys.loaded then
    if sys.exported then
      if sys.succeeds then some (.success, sys.pid, 0)
      else some (.failure, 0, sys.lastError)
    else some (.unsupportedOs, 0, 0)
  else none

/-- How `verifyPipeClientPid`, src/libwinpty/winpty.cc:524-540, takes the three parts apart, as the
answer `clientPid` of `Model/Open.lean`. -/
def answer : Kind × Nat × Nat → Except (Option Nat) Nat
  | (.success, pid, _) => .ok pid
  | (.unsupportedOs, _, _) => .error none
  | (.failure, _, lastError) => .error (some lastError)

end Winpty.ClientPid
