/-!
# Model of how the adapter finds the program, and of the environment it sets up

`src/unix-adapter/main.cc`: `convertPosixPathToWin`, `resolvePath`, `endsWith`, `findProgram`,
`setupWin32Environment`, `errorMessageToString`, `formatErrorMessage`.  Characters are bytes; a C string
contains no 0.  `tolower` is that of the C locale (the suffixes are ASCII).  The operating system's part
(`realpath`, `access`, `cygwin_conv_path`, the environment) is a parameter.
-/
namespace Winpty.FindProgram

/-- `X_OK`, `R_OK`, src/unix-adapter/main.cc:283, 288. -/
inductive Perm where
  | execute
  | read
deriving DecidableEq, Repr

/-- What the operating system answers: `getenv("PATH")` (src/unix-adapter/main.cc:271), `realpath`
(src/unix-adapter/main.cc:240; the empty string if it fails), `access` (src/unix-adapter/main.cc:297),
`cygwin_conv_path` (src/unix-adapter/main.cc:210-225), and whether the adapter was built for MSYS
(src/unix-adapter/main.cc:285). -/
structure Env where
  path : Option (List Nat)
  realpath : List Nat → List Nat
  access : List Nat → Perm → Bool
  convPath : List Nat → List Nat
  msys : Bool

/-- The outcome: a message and `exit(1)`, src/unix-adapter/main.cc:302-304 and 313-315, or a path. -/
inductive Res where
  | notFound
  | unresolvable
  | ok (path : List Nat)
deriving DecidableEq, Repr

/-- `tolower`, src/unix-adapter/main.cc:256. -/
def tolower (c : Nat) : Nat := if 65 ≤ c ∧ c ≤ 90 then c + 32 else c

/-- `endsWith`, src/unix-adapter/main.cc:246-259. -/
def endsWith (path suf : List Nat) : Bool :=
  if path.length < suf.length then false
  else (path.drop (path.length - suf.length)).map tolower == suf

/-- `.bat`, src/unix-adapter/main.cc:284. -/
def dotBat : List Nat := [46, 98, 97, 116]
/-- `.cmd`, src/unix-adapter/main.cc:284. -/
def dotCmd : List Nat := [46, 99, 109, 100]
/-- `.com`, src/unix-adapter/main.cc:290. -/
def dotCom : List Nat := [46, 99, 111, 109]
/-- `.exe`, src/unix-adapter/main.cc:290, 295. -/
def dotExe : List Nat := [46, 101, 120, 101]

/-- `std::string::find(ch, pos)`, src/unix-adapter/main.cc:275. -/
def findFrom (s : List Nat) (ch pos : Nat) : Option Nat :=
  if pos < s.length then
    if s[pos]? = some ch then some pos else findFrom s ch (pos + 1)
  else none
termination_by s.length - pos

theorem findFrom_bounds (s : List Nat) (ch pos i : Nat) (h : findFrom s ch pos = some i) :
    pos ≤ i ∧ i < s.length := by
  fun_induction findFrom s ch pos with
  | case1 pos hp he => simp at h; omega
  | case2 pos hp he ih => have := ih h; omega
  | case3 pos hp => cases h

/-- The slash that is appended, src/unix-adapter/main.cc:277-280, and the program's name. -/
def joinPath (dir prog : List Nat) : List Nat :=
  (if ¬ dir.isEmpty ∧ dir.getLast? ≠ some 47 then dir ++ [47] else dir) ++ prog

/-- The permission that is tested and the file's full name, src/unix-adapter/main.cc:283-296. -/
def checkExt (env : Env) (candidate : List Nat) : Perm × List Nat :=
  if endsWith candidate dotBat || endsWith candidate dotCmd then
    (if env.msys then .read else .execute, candidate)
  else if endsWith candidate dotCom || endsWith candidate dotExe then (.execute, candidate)
  else (.execute, candidate ++ dotExe)

/-- One entry of the `PATH`, src/unix-adapter/main.cc:276-299. -/
def tryEntry (env : Env) (prog dir : List Nat) : Option (List Nat) :=
  if (env.realpath (joinPath dir prog)).isEmpty then none
  else if env.access (checkExt env (env.realpath (joinPath dir prog))).2
      (checkExt env (env.realpath (joinPath dir prog))).1 then
    some (checkExt env (env.realpath (joinPath dir prog))).2
  else none

/-- The loop over the `PATH`, src/unix-adapter/main.cc:273-308. -/
def searchFrom (env : Env) (prog pathList : List Nat) (elpos : Nat) : Option (List Nat) :=
  match h : findFrom pathList 58 elpos with
  | none => tryEntry env prog (pathList.drop elpos)
  | some elend =>
    match tryEntry env prog ((pathList.drop elpos).take (elend - elpos)) with
    | some candidate => some candidate
    | none => searchFrom env prog pathList (elend + 1)
termination_by pathList.length - elpos
decreasing_by have := findFrom_bounds _ _ _ _ h; omega

/-- `convertPosixPathToWin`, src/unix-adapter/main.cc:203-234. -/
def convertPosixPathToWin (env : Env) (path : List Nat) : List Nat :=
  (env.convPath path).map fun c => if c = 47 then 92 else c

/-- `findProgram`, src/unix-adapter/main.cc:261-319. -/
def findProgram (env : Env) (prog : List Nat) : Res :=
  if prog.contains 47 = false ∧ prog.contains 92 = false then
    match searchFrom env prog (env.path.getD []) 0 with
    | some candidate => .ok (convertPosixPathToWin env candidate)
    | none => .notFound
  else if (env.realpath prog).isEmpty then .unresolvable
  else .ok (convertPosixPathToWin env (env.realpath prog))

/-! ## The environment -/

/-- An environment: the value of a variable, `none` if it is not set; src/unix-adapter/main.cc:411,
444, 456. -/
abbrev Vars := List Nat → Option (List Nat)

/-- `SetEnvironmentVariableW`, src/unix-adapter/main.cc:444, 456: a null pointer removes the variable.
(Windows compares names without regard to case; the names used here differ otherwise.) -/
def setVar (vars : Vars) (name : List Nat) (value : Option (List Nat)) : Vars :=
  fun n => if n = name then value else vars n

/-- `WINPTY_DEBUG`, src/unix-adapter/main.cc:406. -/
def nameDebug : List Nat := [87, 73, 78, 80, 84, 89, 95, 68, 69, 66, 85, 71]
/-- `WINPTY_SHOW_CONSOLE`, src/unix-adapter/main.cc:407. -/
def nameShow : List Nat :=
  [87, 73, 78, 80, 84, 89, 95, 83, 72, 79, 87, 95, 67, 79, 78, 83, 79, 76, 69]
/-- `TERM`, src/unix-adapter/main.cc:456. -/
def nameTerm : List Nat := [84, 69, 82, 77]

/-- The variables to copy, src/unix-adapter/main.cc:404-415, in the map's order. -/
def varsToCopy (unix : Vars) : List (List Nat × List Nat) :=
  [nameDebug, nameShow].filterMap fun name =>
    match unix name with
    | some value => if value.isEmpty then none else some (name, value)
    | none => none

/-- `setupWin32Environment`, src/unix-adapter/main.cc:402-457: `sync` is what `CW_SYNC_WINENV` makes of
the Win32 environment (or the identity in old versions), `widen` is `mbstowcs`, which is assumed not to
fail. -/
def setupWin32Environment (unix : Vars) (sync : Vars) (widen : List Nat → List Nat) : Vars :=
  setVar ((varsToCopy unix).foldl (fun vars nv => setVar vars nv.1 (some (widen nv.2))) sync)
    nameTerm none

/-! ## Error messages -/

/-- The characters of src/unix-adapter/main.cc:557. -/
def isSpace (c : Nat) : Bool := c == 32 || c == 13 || c == 10 || c == 9

/-- `find_last_not_of(" \r\n\t")`, src/unix-adapter/main.cc:557: searches backwards from the position
before `n`. -/
def findLastNotSpace (s : List Nat) : Nat → Option Nat
  | 0 => none
  | n + 1 =>
    match s[n]? with
    | some c => if isSpace c then findLastNotSpace s n else some n
    | none => findLastNotSpace s n

/-- The end of `errorMessageToString`, src/unix-adapter/main.cc:557-563. -/
def trimEnd (msg : List Nat) : List Nat :=
  match findLastNotSpace msg msg.length with
  | none => []
  | some pos => msg.take (pos + 1)

/-- `formatErrorMessage`, src/unix-adapter/main.cc:566-579; `system` is the system's message (`none` if
there is none), `code` is what `sprintf("error %#x")` makes of the number. -/
def formatErrorMessage (system : Option (List Nat)) (code : List Nat) : List Nat :=
  if (trimEnd (system.getD [])).isEmpty then code
  else trimEnd (system.getD []) ++ [32, 40] ++ code ++ [41]

end Winpty.FindProgram
