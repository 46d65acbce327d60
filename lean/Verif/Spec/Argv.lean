/-!
# Specification: how Windows programs split a command line

The rules of Microsoft's "Parsing C command-line arguments" and `CommandLineToArgvW`:
blanks (space, tab) outside quotes separate arguments; `2n` backslashes before a quote are `n`
backslashes and the quote opens/closes a quoted part; `2n+1` are `n` backslashes and a literal
quote; other backslashes are literal.  A quote directly after a closing quote is treated differently
by different run-times (`Dbl`); the parser is parameterised over that choice.
-/
namespace Winpty.Spec

/-- What a quote directly after a closing quote means: it just opens a quoted part again; or it is a
literal quote and the quoted part goes on; or it is a literal quote outside quotes. -/
inductive Dbl where
  | reopen | literalStay | literalLeave
deriving DecidableEq, Repr

/-- Where the parser is inside an argument: outside quotes, inside quotes, or outside and directly
after a closing quote. -/
inductive Mode where
  | plain | quoted | closed
deriving DecidableEq, Repr

/-- An argument being read: mode, number of backslashes just seen, text so far. -/
structure ArgSt where
  mode : Mode
  bs : Nat
  cur : List Nat

/-- Blank: space or tab. -/
def blank (c : Nat) : Bool := c = 32 || c = 9

/-- Read one (non-separating) character of an argument. -/
def argStep (dbl : Dbl) (a : ArgSt) (c : Nat) : ArgSt :=
  if c = 92 then ⟨if a.mode = .closed then .plain else a.mode, a.bs + 1, a.cur⟩
  else if c = 34 then
    if a.bs % 2 = 1 then ⟨a.mode, 0, a.cur ++ List.replicate (a.bs / 2) 92 ++ [34]⟩
    else match a.mode with
      | .plain => ⟨.quoted, 0, a.cur ++ List.replicate (a.bs / 2) 92⟩
      | .quoted => ⟨.closed, 0, a.cur ++ List.replicate (a.bs / 2) 92⟩
      | .closed =>
        match dbl with
        | .reopen => ⟨.quoted, 0, a.cur⟩
        | .literalStay => ⟨.quoted, 0, a.cur ++ [34]⟩
        | .literalLeave => ⟨.plain, 0, a.cur ++ [34]⟩
  else ⟨if a.mode = .closed then .plain else a.mode, 0, a.cur ++ List.replicate a.bs 92 ++ [c]⟩

/-- The text of a finished argument: backslashes at its end are literal. -/
def argEnd (a : ArgSt) : List Nat := a.cur ++ List.replicate a.bs 92

/-- Parser state: finished arguments and the one being read, if any. -/
structure LineSt where
  done : List (List Nat)
  now : Option ArgSt

/-- Read one character of the line. -/
def lineStep (dbl : Dbl) (s : LineSt) (c : Nat) : LineSt :=
  match s.now with
  | none => if blank c then s else ⟨s.done, some (argStep dbl ⟨.plain, 0, []⟩ c)⟩
  | some a =>
    if blank c && a.mode ≠ .quoted then ⟨s.done ++ [argEnd a], none⟩
    else ⟨s.done, some (argStep dbl a c)⟩

/-- End of the line. -/
def lineEnd (s : LineSt) : List (List Nat) :=
  match s.now with
  | none => s.done
  | some a => s.done ++ [argEnd a]

/-- All arguments of a line by the general rules. -/
def parseArgs (dbl : Dbl) (line : List Nat) : List (List Nat) :=
  lineEnd (line.foldl (lineStep dbl) ⟨[], none⟩)

/-- The program name at the start of a line has simpler rules: quotes are removed and group blanks,
backslashes are ordinary characters.  Returns the name and the rest of the line. -/
def programName : Bool → List Nat → List Nat × List Nat
  | _, [] => ([], [])
  | inq, c :: r =>
    if c = 34 then programName (!inq) r
    else if blank c && !inq then ([], c :: r)
    else (c :: (programName inq r).1, (programName inq r).2)

/-- A whole command line as a C program's `argv`. -/
def parseCommandLine (dbl : Dbl) (line : List Nat) : List (List Nat) :=
  (programName false line).1 :: parseArgs dbl (programName false line).2

end Winpty.Spec
