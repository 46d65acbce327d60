/-!
# Model of the Unix adapter's command line handling, `src/unix-adapter/main.cc`

Strings are lists of character codes.  C strings contain no NUL, so the code's `*p != '\0'` loops run
over the whole list.
-/
namespace Winpty.Argv

/-- The `quote` flag, src/unix-adapter/main.cc:330-333. -/
def needsQuote (arg : List Nat) : Bool :=
  arg.contains 32 || arg.contains 9 || arg.isEmpty

/-- The character loop and what follows it, src/unix-adapter/main.cc:336-355; `bs` is `bsCount`. -/
def escBody (quote : Bool) : Nat → List Nat → List Nat
  | bs, [] => if quote then List.replicate (bs * 2) 92 ++ [34] else List.replicate bs 92
  | bs, c :: r =>
    if c = 92 then escBody quote (bs + 1) r
    else if c = 34 then List.replicate (bs * 2 + 1) 92 ++ 34 :: escBody quote 0 r
    else List.replicate bs 92 ++ c :: escBody quote 0 r

/-- One argument, src/unix-adapter/main.cc:329-355. -/
def escArg (arg : List Nat) : List Nat :=
  if needsQuote arg then 34 :: escBody true 0 arg else escBody false 0 arg

/-- The arguments after the first one, each preceded by a space (src/unix-adapter/main.cc:327-328). -/
def restArgs : List (List Nat) → List Nat
  | [] => []
  | a :: as => 32 :: escArg a ++ restArgs as

/-- `argvToCommandLine`, src/unix-adapter/main.cc:323-358. -/
def argvToCommandLine : List (List Nat) → List Nat
  | [] => []
  | a :: as => escArg a ++ restArgs as

/-! ## Option parsing -/

/-- `struct Arguments` and the local `doShowKeys`, src/unix-adapter/main.cc:471-478, 487. -/
structure Arguments where
  mouseInput : Bool := false
  testAllowNonTtys : Bool := false
  testConerr : Bool := false
  testPlainOutput : Bool := false
  testColorEscapes : Bool := false
  doShowKeys : Bool := false
deriving DecidableEq, Repr

/-- Outcome of `parseArguments`: run the child, or one of the exits.
src/unix-adapter/main.cc:480-521. -/
inductive Parsed where
  | run (args : Arguments) (childArgv : List String)
  | usage (exitCode : Nat)
  | version
  | showKey (allowNonTtys : Bool)
  | unrecognized (arg : String)
deriving DecidableEq, Repr

/-- After the loop, src/unix-adapter/main.cc:522-531; `child` is the complete `childArgv`. -/
def finishParse (a : Arguments) (child : List String) : Parsed :=
  if a.doShowKeys then .showKey a.testAllowNonTtys
  else if child.length = 0 then .usage 1
  else .run a child

/-- The loop of `parseArguments`, src/unix-adapter/main.cc:490-521, on `argv[argi..]`. -/
def parseLoop (a : Arguments) : List String → Parsed
  | [] => finishParse a []
  | arg :: rest =>
    if arg.toList.head? = some '-' then
      if arg = "-h" ∨ arg = "--help" then .usage 0
      else if arg = "--mouse" then parseLoop { a with mouseInput := true } rest
      else if arg = "--showkey" then parseLoop { a with doShowKeys := true } rest
      else if arg = "--version" then .version
      else if arg = "-Xallow-non-tty" then parseLoop { a with testAllowNonTtys := true } rest
      else if arg = "-Xconerr" then parseLoop { a with testConerr := true } rest
      else if arg = "-Xplain" then parseLoop { a with testPlainOutput := true } rest
      else if arg = "-Xcolor" then parseLoop { a with testColorEscapes := true } rest
      else if arg = "--" then finishParse a rest
      else .unrecognized arg
    else finishParse a (arg :: rest)

/-- `parseArguments`, src/unix-adapter/main.cc:480-532: `argv[0]` is skipped. -/
def parseArguments (argv : List String) : Parsed := parseLoop {} argv.tail

end Winpty.Argv
