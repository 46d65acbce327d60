import Verif.Model.FindProgram
import Verif.Spec.Text

/-!
# Specification: finding a program in the `PATH`

Shared with the model: the type of the operating system's answers.
-/
namespace Winpty.Spec.Find

open Winpty.FindProgram (Env Perm)

/-- The entries of a `PATH`: the parts between the colons. -/
def entries : List Nat → List (List Nat)
  | [] => [[]]
  | c :: s =>
    if c = 58 then [] :: entries s
    else
      match entries s with
      | [] => [[c]]
      | e :: es => (c :: e) :: es

/-- The `PATH` that is searched. -/
def searchPath (env : Env) : List Nat := match env.path with | some p => p | none => []

/-- The file `prog` in the directory `dir`; the empty directory is the current one. -/
def IsPath (dir prog p : List Nat) : Prop :=
  (dir = [] ∧ p = prog) ∨
  ((∃ d, dir = d ++ [47]) ∧ p = dir ++ prog) ∨
  (dir ≠ [] ∧ (¬ ∃ d, dir = d ++ [47]) ∧ p = dir ++ [47] ++ prog)

/-- The same letter, in lower or upper case; `d` is not an upper-case letter. -/
def SameLetter (c d : Nat) : Prop := c = d ∨ (97 ≤ d ∧ d ≤ 122 ∧ c + 32 = d)

/-- The file's name ends with this extension, in lower or upper case. -/
def HasExt (file ext : List Nat) : Prop :=
  ∃ stem e, file = stem ++ e ∧ e.length = ext.length ∧ ∀ p ∈ e.zip ext, SameLetter p.1 p.2

/-- `.bat` or `.cmd` -/
def Batch (file : List Nat) : Prop := HasExt file [46, 98, 97, 116] ∨ HasExt file [46, 99, 109, 100]

/-- `.com` or `.exe` -/
def Binary (file : List Nat) : Prop := HasExt file [46, 99, 111, 109] ∨ HasExt file [46, 101, 120, 101]

/-- What Windows can run. -/
def Runnable (file : List Nat) : Prop := Batch file ∨ Binary file

/-- In the directory `dir` of the `PATH` the program is `file`: the name resolves; if it does not end
like something Windows can run, `.exe` is meant; and the user has the permission (for batch files in
MSYS, where they are never marked as executable: to read them). -/
def Usable (env : Env) (prog dir file : List Nat) : Prop :=
  ∃ p r, IsPath dir prog p ∧ r = env.realpath p ∧ r ≠ [] ∧
    ((Runnable r ∧ file = r) ∨ (¬ Runnable r ∧ file = r ++ [46, 101, 120, 101])) ∧
    ((Batch r ∧ env.msys = true → env.access file .read = true) ∧
      (¬ (Batch r ∧ env.msys = true) → env.access file .execute = true))

/-- The variable that selects what is traced. -/
def debugVar : List Nat := codes ['W', 'I', 'N', 'P', 'T', 'Y', '_', 'D', 'E', 'B', 'U', 'G']
/-- The variable that makes the console visible. -/
def showVar : List Nat := codes ['W', 'I', 'N', 'P', 'T', 'Y', '_', 'S', 'H', 'O', 'W', '_', 'C', 'O', 'N', 'S', 'O', 'L', 'E']
/-- The variable with the terminal's type. -/
def termVar : List Nat := codes ['T', 'E', 'R', 'M']

end Winpty.Spec.Find
