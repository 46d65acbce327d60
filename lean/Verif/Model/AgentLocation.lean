import Verif.Model.Open

/-!
# Model of finding the agent's program

src/libwinpty/AgentLocation.cc, with the texts and with what ends the calling program.  File names are lists of
UTF-16 units.
-/
namespace Winpty.AgentLocation

open Winpty.Startup (lit)

/-- What Windows answers: whether `GetModuleHandleExW` finds the library, the library's file name, and the attributes
of a file, `0xFFFFFFFF` for one that does not exist (`INVALID_FILE_ATTRIBUTES`). -/
structure Sys where
  found : Bool
  fileName : List Nat
  attributes : List Nat → Nat

/-- The program's name; an exception with its code and text; or a failed assertion, which ends the calling program
(src/shared/WinptyAssert.h:57-64).  `asked`: the files whose attributes were asked for. -/
inductive Res where
  | ok (exe : List Nat) (asked : List (List Nat))
  | throw (code : Nat) (text : List Nat) (asked : List (List Nat))
  | abort
deriving DecidableEq, Repr

/-- `getCurrentModule`, src/libwinpty/AgentLocation.cc:33-43. -/
def getCurrentModule (sys : Sys) : Option Unit := if sys.found then some () else none

/-- `GetModuleFileNameW` with a buffer of `size` units: what it returns (as documented since Windows Vista: the
size, if the name does not fit). -/
def moduleFileNameResult (sys : Sys) (size : Nat) : Nat :=
  if sys.fileName.length < size then sys.fileName.length else size

/-- `getModuleFileName`, src/libwinpty/AgentLocation.cc:45-51; `none`: the assertion fails. -/
def getModuleFileName (sys : Sys) : Option (List Nat) :=
  if moduleFileNameResult sys 4096 ≠ 0 ∧ moduleFileNameResult sys 4096 ≠ 4096 then
    some (sys.fileName.takeWhile (· ≠ 0))
  else none

/-- `pathExists`, src/libwinpty/AgentLocation.cc:62-64. -/
def pathExists (sys : Sys) (path : List Nat) : Bool := sys.attributes path != 0xFFFFFFFF

/-- `findAgentProgram`, src/libwinpty/AgentLocation.cc:66-75; 4 is `WINPTY_ERROR_AGENT_EXE_MISSING`. -/
def findAgentProgram (sys : Sys) : Res :=
  match getCurrentModule sys with
  | none => .abort
  | some _ =>
    match getModuleFileName sys with
    | none => .abort
    | some name =>
      if pathExists sys (Open.dirname name ++ lit "\\winpty-agent.exe") then
        .ok (Open.dirname name ++ lit "\\winpty-agent.exe") [Open.dirname name ++ lit "\\winpty-agent.exe"]
      else
        .throw 4 (lit "agent executable does not exist: '" ++ (Open.dirname name ++ lit "\\winpty-agent.exe") ++ lit "'")
          [Open.dirname name ++ lit "\\winpty-agent.exe"]

end Winpty.AgentLocation
