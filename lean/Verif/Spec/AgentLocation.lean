import Verif.Model.AgentLocation
import Verif.Spec.Text

/-
Specification for finding the agent's program (C92).
-/

namespace Winpty.Spec.AgentLocation

open Winpty.AgentLocation (Sys)
open Winpty.Spec (codes)

/-- The file is in this directory: its name is the directory's, a separator, and a name without one. -/
def InDirectory (file dir : List Nat) : Prop :=
  ∃ sep name, file = dir ++ [sep] ++ name ∧ (sep = 92 ∨ sep = 47) ∧ 92 ∉ name ∧ 47 ∉ name

/-- The agent's program in a directory. -/
def agentIn (dir : List Nat) : List Nat :=
  dir ++ codes ['\\', 'w', 'i', 'n', 'p', 't', 'y', '-', 'a', 'g', 'e', 'n', 't', '.', 'e', 'x', 'e']

/-- Windows knows the library and its file, in this directory, by a name of fewer than 4096 units. -/
structure Located (sys : Sys) (dir : List Nat) : Prop where
  found : sys.found = true
  short : sys.fileName.length < 4096
  noZero : 0 ∉ sys.fileName
  dir : InDirectory sys.fileName dir

/-- There is such a file. -/
def IsFile (sys : Sys) (file : List Nat) : Prop := sys.attributes file ≠ 2 ^ 32 - 1

/-- The text for a program that is missing. -/
def missing (file : List Nat) : List Nat :=
  codes ['a', 'g', 'e', 'n', 't', ' ', 'e', 'x', 'e', 'c', 'u', 't', 'a', 'b', 'l', 'e', ' ', 'd', 'o', 'e', 's', ' ',
    'n', 'o', 't', ' ', 'e', 'x', 'i', 's', 't', ':', ' ', '\''] ++ file ++ codes ['\'']

end Winpty.Spec.AgentLocation
