import Verif.Model.Argv
import Verif.Model.FindProgram
import Verif.Model.Startup
import Verif.Model.Adapter
import Verif.Model.Unicode

/-!
# Model of the adapter's start

`src/unix-adapter/main.cc`: the conversions of text (`heapMbsToWcs`, `heapWcsToMbs`, `wcsToMbs`), the
rest of the error messages, and `main` up to the point where the program runs (Model/Adapter.lean goes
on from there).  What the operating system and the library answer is a parameter.  Texts printed with
`printf` go out whole.
-/
namespace Winpty.AdapterMain

open Winpty.Argv (Arguments Parsed parseArguments argvToCommandLine)
open Winpty.FindProgram (Vars findProgram varsToCopy setupWin32Environment formatErrorMessage)
open Winpty.Startup (Config configNew setInitialSize setMouseMode lit)
open Winpty.Adapter (WinSize)

/-! ## Conversions of text -/

/-- The C library's conversions in the user's locale, src/unix-adapter/main.cc:367, 382, given unlimited
room: `mbstowcs` (the units of the whole text) and `wcstombs` (the bytes of each character); `none` is
the result -1.  Simplification: an invalid character is noticed even if it comes after the end of the
room. -/
structure Locale where
  widen : List Nat → Option (List Nat)
  narrow : List Nat → Option (List (List Nat))

/-- `heapMbsToWcs`, src/unix-adapter/main.cc:360-370: `mbstowcs` stores at most `strlen(text) * 2 + 1`
units, and returns that number if the text does not end before; `none` is the failed assertion. -/
def heapMbsToWcs (loc : Locale) (text : List Nat) : Option (List Nat) :=
  match loc.widen text with
  | none => none
  | some ws => if min ws.length (text.length * 2 + 1) < text.length * 2 + 1 then some ws else none

/-- What `wcstombs` leaves in the array, src/unix-adapter/main.cc:382: it stores whole characters as long
as there is room, and a terminator if there still is. -/
def storeChars : Nat → List (List Nat) → List Nat × Bool
  | room, [] => ([], decide (1 ≤ room))
  | room, c :: cs =>
    if c.length ≤ room then
      (c ++ (storeChars (room - c.length) cs).1, (storeChars (room - c.length) cs).2)
    else ([], false)

/-- A `char *`, src/unix-adapter/main.cc:372, 394: null, or an array with or without a terminator.  Making
a `std::string` of an array without one reads past its end. -/
inductive CString where
  | null
  | text (bytes : List Nat)
  | unterminated
deriving DecidableEq, Repr

/-- `heapWcsToMbs`, src/unix-adapter/main.cc:372-389. -/
def heapWcsToMbs (loc : Locale) (text : List Nat) : CString :=
  match loc.narrow text with
  | none => .null
  | some cs =>
    if (storeChars (text.length * 3 + 1) cs).1.length ≥ text.length * 3 + 1 then .null
    else if (storeChars (text.length * 3 + 1) cs).2 then
      .text (storeChars (text.length * 3 + 1) cs).1
    else .unterminated

/-- `wcsToMbs`, src/unix-adapter/main.cc:391-400; `none` is a read past the end of the array. -/
def wcsToMbs (loc : Locale) (text : List Nat) : Option (List Nat) :=
  match heapWcsToMbs loc text with
  | .null => some []
  | .text bytes => some bytes
  | .unterminated => none

/-! ## Error messages -/

/-- A digit of `%x`, src/unix-adapter/main.cc:569. -/
def hexChar (d : Nat) : Nat := if d < 10 then 48 + d else 87 + d

/-- The digits of `%x`, src/unix-adapter/main.cc:569: nothing for 0. -/
def hexDigits (n : Nat) : List Nat :=
  if n = 0 then [] else hexDigits (n / 16) ++ [hexChar (n % 16)]

/-- `sprintf("error %#x")`, src/unix-adapter/main.cc:569: no prefix for 0. -/
def errorCode (err : Nat) : List Nat :=
  if err = 0 then lit "error 0" else lit "error 0x" ++ hexDigits err

/-- `formatErrorMessage`, src/unix-adapter/main.cc:534-579; `system` is what `FormatMessageW` finds
(`none` if it fails); `none` is a read past the end of an array. -/
def errorText (loc : Locale) (system : Option (List Nat)) (err : Nat) : Option (List Nat) :=
  match system with
  | none => some (formatErrorMessage none (errorCode err))
  | some wide =>
    match wcsToMbs loc wide with
    | none => none
    | some msg => some (formatErrorMessage (some msg) (errorCode err))

/-- What `usage` prints, src/unix-adapter/main.cc:459-467. -/
def usageText (program : List Nat) : List Nat :=
  lit "Usage: " ++ program ++ lit " [options] [--] program [args]\n" ++ lit "\n" ++
  lit "Options:\n" ++ lit "  -h, --help  Show this help message\n" ++
  lit "  --mouse     Enable terminal mouse input\n" ++
  lit "  --showkey   Dump STDIN escape sequences\n" ++
  lit "  --version   Show the winpty version number\n"

/-! ## `main` -/

/-- What `winpty_spawn` answers, src/unix-adapter/main.cc:646-662: the program runs, Windows refused it
with this error, or something else went wrong, with this message. -/
inductive Spawned where
  | ok
  | refused (lastError : Nat)
  | failed (msg : List Nat)
deriving DecidableEq, Repr

/-- What the operating system and the library answer: the file system (src/unix-adapter/main.cc:635), the
locale (583), the environments (411, 434), the size of the terminal (595; `none` if it is not known), the
reason why `realpath` failed (312), the text of `dumpVersionToStdout` (500), whether `winpty_open`
succeeds (609; otherwise its message), whether each pipe can be opened (618-628), `winpty_spawn` (646), and
`FormatMessageW` (542). -/
structure Os where
  find : FindProgram.Env
  loc : Locale
  unix : Vars
  sync : Vars
  winSize : Option WinSize
  strerror : List Nat
  version : List Nat
  openError : Option (List Nat)
  conin : Bool
  conout : Bool
  conerr : Bool
  spawned : Spawned
  formatMessage : Nat → Option (List Nat)

/-- What the adapter does, as seen from outside (src/unix-adapter/main.cc:461, 302, 444, 609, 646): it
prints, sets its environment, opens a session with a configuration, asks for a program with flags and a
command line. -/
inductive Act where
  | stdout (text : List Nat)
  | stderr (text : List Nat)
  | environment (vars : Vars)
  | openSession (cfg : Config)
  | spawn (flags : Nat) (cmdline : List Nat)

/-- How it ends: it exits (src/unix-adapter/main.cc:304, 468, 501, 515, 613, 663), an assertion fails (368,
622), it reads past the end of an array, it shows the keys (526), or the program runs (669). -/
inductive End where
  | exit (code : Nat)
  | abort
  | undefined
  | showKeys (allowNonTtys : Bool)
  | running (args : Arguments)
deriving DecidableEq, Repr

/-- The bytes of an argument in UTF-8, src/unix-adapter/main.cc:491.  Simplification: the arguments are
text. -/
def bytes (s : String) : List Nat := s.toList.flatMap fun c => Unicode.encodeUtf8 c.toNat

/-- `argv[0]`, src/unix-adapter/main.cc:488, 635, 654 (a null pointer is printed as nothing). -/
def argv0 : List String → List Nat
  | [] => []
  | p :: _ => bytes p

/-- The size of the new session, src/unix-adapter/main.cc:592-595. -/
def initialSize (os : Os) : Int × Int :=
  match os.winSize with
  | none => (80, 25)
  | some sz => (sz.cols, sz.rows)

/-- `agentFlags`, src/unix-adapter/main.cc:597-600. -/
def agentFlags (a : Arguments) : Nat :=
  0x8 ||| (if a.testConerr then 0x1 else 0) ||| (if a.testPlainOutput then 0x2 else 0) |||
    (if a.testColorEscapes then 0x4 else 0)

/-- The configuration, src/unix-adapter/main.cc:601-606; `none` is a failed assertion. -/
def agentConfig (os : Os) (a : Arguments) : Option Config :=
  match configNew (agentFlags a) with
  | none => none
  | some c =>
    match setInitialSize c (initialSize os).1 (initialSize os).2 with
    | none => none
    | some c' => if a.mouseInput then setMouseMode c' 2 else some c'

/-- The end of a failed spawn, src/unix-adapter/main.cc:650-664. -/
def spawnFailed (os : Os) (argv0 cmdLine : List Nat) : List Act × End :=
  match os.spawned with
  | .ok => ([], .exit 1)
  | .refused err =>
    match errorText os.loc (os.formatMessage err) err with
    | none => ([], .undefined)
    | some msg =>
      ([.stderr (argv0 ++ lit ": error: cannot start '" ++ cmdLine ++ lit "': " ++ msg ++ [10])], .exit 1)
  | .failed wide =>
    match wcsToMbs os.loc wide with
    | none => ([], .undefined)
    | some msg =>
      ([.stderr (argv0 ++ lit ": error: cannot start '" ++ cmdLine ++ lit "': internal error: " ++ msg ++
        [10])], .exit 1)

/-- Starting the program, src/unix-adapter/main.cc:633-667, with the command line known. -/
def spawnProgram (os : Os) (a : Arguments) (argv0 cmdLine : List Nat) : List Act × End :=
  match heapMbsToWcs os.loc cmdLine with
  | none => ([], .abort)
  | some cmdLineW =>
    if os.spawned = .ok then ([.spawn 1 cmdLineW], .running a)
    else
      (.spawn 1 cmdLineW :: (spawnFailed os argv0 cmdLine).1, (spawnFailed os argv0 cmdLine).2)

/-- Finding the program, src/unix-adapter/main.cc:635-636, with the messages of 302-304 and 313-315. -/
def startProgram (os : Os) (a : Arguments) (argv0 prog : List Nat) (args : List (List Nat)) :
    List Act × End :=
  match findProgram os.find prog with
  | .notFound =>
    ([.stderr (argv0 ++ lit ": error: cannot start '" ++ prog ++ lit "': Not found in PATH\n")], .exit 1)
  | .unresolvable =>
    ([.stderr (argv0 ++ lit ": error: cannot start '" ++ prog ++ lit "': " ++ os.strerror ++ [10])],
      .exit 1)
  | .ok file => spawnProgram os a argv0 (argvToCommandLine (file :: args))

/-- Opening the session, src/unix-adapter/main.cc:608-635. -/
def openSession (os : Os) (a : Arguments) (argv0 prog : List Nat) (args : List (List Nat)) (cfg : Config) :
    List Act × End :=
  match os.openError with
  | some wide =>
    match wcsToMbs os.loc wide with
    | none => ([.openSession cfg], .undefined)
    | some msg => ([.openSession cfg, .stderr (lit "Error creating winpty: " ++ msg ++ [10])], .exit 1)
  | none =>
    if os.conin = false ∨ os.conout = false ∨ (a.testConerr = true ∧ os.conerr = false) then
      ([.openSession cfg], .abort)
    else
      (.openSession cfg :: (startProgram os a argv0 prog args).1, (startProgram os a argv0 prog args).2)

/-- `main` after the options, src/unix-adapter/main.cc:590-667. -/
def start (os : Os) (a : Arguments) (argv0 prog : List Nat) (args : List (List Nat)) : List Act × End :=
  if (varsToCopy os.unix).any fun nv =>
      (heapMbsToWcs os.loc nv.1).isNone || (heapMbsToWcs os.loc nv.2).isNone then ([], .abort)
  else
    match agentConfig os a with
    | none =>
      ([.environment (setupWin32Environment os.unix os.sync fun v => (heapMbsToWcs os.loc v).getD [])],
        .abort)
    | some cfg =>
      (.environment (setupWin32Environment os.unix os.sync fun v => (heapMbsToWcs os.loc v).getD []) ::
        (openSession os a argv0 prog args cfg).1, (openSession os a argv0 prog args cfg).2)

/-- `main`, src/unix-adapter/main.cc:581-667, with the messages of `parseArguments` (488-531). -/
def main (os : Os) (argv : List String) : List Act × End :=
  match parseArguments argv with
  | .usage code =>
    ([.stdout (usageText (if argv = [] then lit "<program>" else argv0 argv))], .exit code)
  | .version => ([.stdout os.version], .exit 0)
  | .unrecognized arg =>
    ([.stderr (lit "Error: unrecognized option: '" ++ bytes arg ++ lit "'\n")], .exit 1)
  | .showKey allow => ([], .showKeys allow)
  | .run _ [] => ([], .undefined)
  | .run a (prog :: args) =>
    start os a (argv0 argv) (bytes prog) (args.map bytes)

end Winpty.AdapterMain
