import Verif.Model.VersionReport
import Verif.Spec.Text

/-
Specification for the report about Windows (C86).  `Sys` is what Windows answers.
-/

namespace Winpty.Spec.VersionReport

open Winpty.VersionReport (Sys OsInfo FileInfo Fn Ev World)
open Winpty.Spec (codes decimal scanDigits)

/-- The text of four numbers with dots. -/
def dotted (a b c d : Nat) : List Nat :=
  decimal a ++ codes ['.'] ++ decimal b ++ codes ['.'] ++ decimal c ++ codes ['.'] ++ decimal d

/-- The fields at a dot. -/
def fields : List Nat → List (List Nat)
  | [] => [[]]
  | c :: r =>
    if c = 46 then [] :: fields r
    else match fields r with
      | f :: fs => (c :: f) :: fs
      | [] => [[c]]

/-- Reading a version back from its text: four fields, each a decimal number. -/
def readBack (t : List Nat) : Option (Nat × Nat × Nat × Nat) :=
  match fields t with
  | [a, b, c, d] => some (scanDigits 0 a, scanDigits 0 b, scanDigits 0 c, scanDigits 0 d)
  | _ => none

/-- Windows has a system directory, and its name is not too long. -/
def HasDirectory (sys : Sys) : Prop := 0 < sys.dirSize ∧ sys.dirSize < 260

/-- The library with the functions about versions: by its full name in the system directory. -/
def versionDll (sys : Sys) : List Nat :=
  sys.dir ++ codes ['\\', 'v', 'e', 'r', 's', 'i', 'o', 'n', '.', 'd', 'l', 'l']

/-- The library, with its three functions, can be used. -/
def Ready (sys : Sys) : Prop :=
  HasDirectory sys ∧ sys.loads (versionDll sys) = true ∧ sys.present .getFileVersionInfoSize = true ∧
  sys.present .getFileVersionInfo = true ∧ sys.present .verQueryValue = true

/-- Windows says that there is no such file, or that it has no version. -/
def NoFile (sys : Sys) (file : List Nat) : Prop :=
  Ready sys ∧ sys.infoSize file = 0 ∧ (sys.sizeError file = 2 ∨ sys.sizeError file = 1812)

/-- Windows gives the version of the file: all calls succeed, and what the last one points to is as large as it has
to be and has the signature. -/
def HasVersion (sys : Sys) (file : List Nat) (info : FileInfo) : Prop :=
  Ready sys ∧ sys.infoSize file ≠ 0 ∧ sys.infoRead file = true ∧ sys.queried file = true ∧
  sys.value file = some info ∧ sys.valueSize file = 52 ∧ info.signature = 4277077181

/-- There is no memory for the version's data. -/
def OutOfMemory (sys : Sys) (file : List Nat) : Prop :=
  Ready sys ∧ sys.infoSize file ≠ 0 ∧ sys.mem file = false

/-- The high and the low half of a `DWORD`. -/
def high (n : Nat) : Nat := n / 65536
def low (n : Nat) : Nat := n % 65536

/-- What is reported about a file. -/
inductive Reported (sys : Sys) (file : List Nat) : List Nat → Prop where
  | version (info : FileInfo) (h : HasVersion sys file info) (m : sys.mem file = true) :
      Reported sys file (file ++ codes [':', 'F', ':'] ++
        dotted (high info.fileMS) (low info.fileMS) (high info.fileLS) (low info.fileLS) ++ codes ['/', 'P', ':'] ++
        dotted (high info.productMS) (low info.productMS) (high info.productLS) (low info.productLS))
  | none (h : NoFile sys file) : Reported sys file (file ++ codes [':', 'n', 'o', 'n', 'e'])
  | error (h1 : ¬ NoFile sys file) (h2 : ∀ info, ¬ HasVersion sys file info) (h3 : ¬ OutOfMemory sys file) :
      Reported sys file (file ++ codes [':', 'e', 'r', 'r', 'o', 'r'])

/-- The kind of product. -/
def product (t : Nat) : List Nat :=
  if t = 1 then codes ['C', 'l', 'i', 'e', 'n', 't']
  else if t = 2 then codes ['D', 'o', 'm', 'a', 'i', 'n', 'C', 'o', 'n', 't', 'r', 'o', 'l', 'l', 'e', 'r']
  else if t = 3 then codes ['S', 'e', 'r', 'v', 'e', 'r']
  else codes ['p', 'r', 'o', 'd', 'u', 'c', 't', '='] ++ decimal t

/-- The numbers of Windows. -/
def osPart (info : OsInfo) : List Nat :=
  decimal info.major ++ codes ['.'] ++ decimal info.minor ++ codes ['.'] ++ decimal info.build ++
  codes [' ', 'S', 'P'] ++ decimal info.spMajor ++ codes ['.'] ++ decimal info.spMinor ++ codes [' '] ++
  product info.productType ++ codes [' ']

/-- The architecture. -/
def archPart (sys : Sys) (ia32 : Bool) : List Nat :=
  if !ia32 then codes ['X', '6', '4']
  else if sys.present .isWow64Process = false then
    codes ['I', 'A', '3', '2', ' ', 'W', 'O', 'W', '6', '4', ':', 'm', 'i', 's', 's', 'i', 'n', 'g', 'a', 'p', 'i']
  else if sys.wowCalled = false then
    codes ['I', 'A', '3', '2', ' ', 'W', 'O', 'W', '6', '4', ':', 'e', 'r', 'r', 'o', 'r']
  else if sys.wow = true then codes ['I', 'A', '3', '2', ' ', 'W', 'O', 'W', '6', '4']
  else codes ['I', 'A', '3', '2']

def kernel32 : List Nat := codes ['k', 'e', 'r', 'n', 'e', 'l', '3', '2', '.', 'd', 'l', 'l']

/-- The library that ConEmu puts into programs. -/
def conEmu (ia32 : Bool) : List Nat :=
  if ia32 then codes ['C', 'o', 'n', 'E', 'm', 'u', 'H', 'k', '.', 'd', 'l', 'l']
  else codes ['C', 'o', 'n', 'E', 'm', 'u', 'H', 'k', '6', '4', '.', 'd', 'l', 'l']

/-- The message. -/
def message (os arch k c : List Nat) : List Nat :=
  codes ['W', 'i', 'n', 'd', 'o', 'w', 's', ' ', 'v', 'e', 'r', 's', 'i', 'o', 'n', ':', ' '] ++
  os ++ arch ++ codes [' '] ++ k ++ codes [' '] ++ c

/-- All numbers are within their types. -/
def InRange (sys : Sys) : Prop :=
  (∀ o, sys.osInfo = some o → o.major < 2 ^ 32 ∧ o.minor < 2 ^ 32 ∧ o.build < 2 ^ 32 ∧ o.spMajor < 2 ^ 16 ∧
    o.spMinor < 2 ^ 16 ∧ o.productType < 2 ^ 8) ∧
  ∀ file info, sys.value file = some info → info.fileMS < 2 ^ 32 ∧ info.fileLS < 2 ^ 32 ∧
    info.productMS < 2 ^ 32 ∧ info.productLS < 2 ^ 32

/-- The libraries that may be loaded: that with the functions about versions, by its full name, and kernel32.dll,
which is already in every process. -/
def MayLoad (sys : Sys) (name : List Nat) : Prop :=
  (name = versionDll sys ∧ HasDirectory sys) ∨ name = kernel32

/-- The end of the record is new, and in it only such libraries are loaded. -/
def Record (sys : Sys) (before after : List Ev) : Prop :=
  ∃ new, after = before ++ new ∧ (∀ name, Ev.load name ∈ new → MayLoad sys name) ∧
    ∀ f, Ev.call f ∈ new → sys.present f = true

/-- The last new trace message is this one; after it libraries are only released. -/
def LastTrace (before after : List Ev) (text : List Nat) : Prop :=
  ∃ new rest, after = before ++ new ++ [.trace text] ++ rest ∧ ∀ e ∈ rest, ∃ name, e = .free name

end Winpty.Spec.VersionReport
