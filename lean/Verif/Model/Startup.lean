import Verif.Model.StringBuilder

/-!
# Model of agent configuration and start-up

`src/libwinpty/winpty.cc` (configuration objects, the agent's command line, environment blocks),
`src/agent/main.cc` (how the agent reads its command line) and `src/shared/GenRandom.cc` (names).
-/
namespace Winpty.Startup
open Winpty.Buffer (toUnsigned toSigned)
open Winpty.StringBuilder (decText hexText hexDigit)

/-! ## Configuration -/

/-- `struct winpty_config_s`, src/libwinpty/WinptyInternal.h:44-50. -/
structure Config where
  flags : Nat := 0
  cols : Int := 80
  rows : Int := 25
  mouseMode : Int := 1
  timeoutMs : Nat := 30000
deriving DecidableEq, Repr

/-- `WINPTY_FLAG_MASK`, src/include/winpty_constants.h:79-84. -/
def flagMask : Nat := 0x1 ||| 0x2 ||| 0x4 ||| 0x8

/-- `winpty_config_new`, src/libwinpty/winpty.cc:155-163; `none` is the failed `ASSERT` (the process
aborts).  Simplification: the allocation succeeds. -/
def configNew (flags : Nat) : Option Config :=
  if flags &&& flagMask = flags then some { flags := flags } else none

/-- `winpty_config_set_initial_size`, src/libwinpty/winpty.cc:169-174. -/
def setInitialSize (c : Config) (cols rows : Int) : Option Config :=
  if cols > 0 ∧ rows > 0 then some { c with cols := cols, rows := rows } else none

/-- `winpty_config_set_mouse_mode`, src/libwinpty/winpty.cc:176-182; the constants are
`WINPTY_MOUSE_MODE_NONE = 0` and `WINPTY_MOUSE_MODE_FORCE = 2`
(src/include/winpty_constants.h:89-100). -/
def setMouseMode (c : Config) (mode : Int) : Option Config :=
  if mode ≥ 0 ∧ mode ≤ 2 then some { c with mouseMode := mode } else none

/-- `winpty_config_set_agent_timeout`, src/libwinpty/winpty.cc:184-188. -/
def setAgentTimeout (c : Config) (ms : Nat) : Option Config :=
  if ms > 0 then some { c with timeoutMs := ms } else none

/-- A setter call.
src/libwinpty/winpty.cc:170-188. -/
inductive SetCall where
  | size (cols rows : Int)
  | mouse (mode : Int)
  | timeout (ms : Nat)
deriving DecidableEq, Repr

/-- Perform one setter call.
src/libwinpty/winpty.cc:170-188. -/
def applySet (c : Config) : SetCall → Option Config
  | .size cols rows => setInitialSize c cols rows
  | .mouse m => setMouseMode c m
  | .timeout ms => setAgentTimeout c ms

/-- A program that creates a configuration and calls setters; `none` if one of them aborted it.
src/libwinpty/winpty.cc:155-188. -/
def applySets : Config → List SetCall → Option Config
  | c, [] => some c
  | c, s :: ss =>
    match applySet c s with
    | none => none
    | some c' => applySets c' ss

/-! ## The agent's command line -/

/-- The `params` of `winpty_open`, src/libwinpty/winpty.cc:654-659 (`flags` is a `uint64_t`, the
others are `int`). -/
def params (c : Config) : List Nat :=
  decText 8 c.flags ++ 32 :: decText 4 c.mouseMode ++ 32 :: decText 4 c.cols ++
    32 :: decText 4 c.rows

/-- `cmdline` of `startAgentProcess`, src/libwinpty/winpty.cc:479-483. -/
def agentCommandLine (exePath controlPipeName params : List Nat) : List Nat :=
  34 :: exePath ++ 34 :: 32 :: controlPipeName ++ 32 :: params

/-- What the agent's `main` does.
The exits of src/agent/main.cc:58-114. -/
inductive AgentMain where
  | version
  | showInput (withMouse escapeInput : Bool)
  | badOption
  | createDesktop (pipe : List Nat)
  | usage
  | run (pipe : List Nat) (flags : Nat) (mouseMode cols rows : Int)
  | undefined
deriving DecidableEq, Repr

/-- Codes of an ASCII literal.
Used for the option names at src/agent/main.cc:71-94. -/
def lit (s : String) : List Nat := s.toList.map Char.toNat

/-- The loop over the options of `--show-input`, src/agent/main.cc:77-91. -/
def showInputLoop (withMouse escapeInput : Bool) : List (List Nat) → AgentMain
  | [] => .showInput withMouse escapeInput
  | a :: as =>
    if a = lit "--with-mouse" then showInputLoop true escapeInput as
    else if a = lit "--escape-input" then showInputLoop withMouse true as
    else .badOption

/-- `main`, src/agent/main.cc:58-114, on the `argv` made by `CommandLineToArgvW`.  `utf8` is
`utf8FromWide` (`WideCharToMultiByte`), `strtol` the number a C string denotes.  `strtoll` saturates
and its result is converted to `uint64_t`; `atoi` of a number outside `int` is undefined. -/
def agentMain (utf8 : List Nat → List Nat) (strtol : List Nat → Int) (argv : List (List Nat)) :
    AgentMain :=
  if argv.length = 2 ∧ argv[1]? = some (lit "--version") then .version
  else if argv.length ≥ 2 ∧ argv[1]? = some (lit "--show-input") then
    showInputLoop false false (argv.drop 2)
  else if argv.length = 3 ∧ argv[2]? = some (lit "--create-desktop") then
    .createDesktop (argv[1]?.getD [])
  else
    match argv with
    | [_, pipe, flags, mouse, cols, rows] =>
      if -2 ^ 31 ≤ strtol (utf8 mouse) ∧ strtol (utf8 mouse) < 2 ^ 31 ∧
          -2 ^ 31 ≤ strtol (utf8 cols) ∧ strtol (utf8 cols) < 2 ^ 31 ∧
          -2 ^ 31 ≤ strtol (utf8 rows) ∧ strtol (utf8 rows) < 2 ^ 31 then
        .run pipe
          (toUnsigned 64 (max (-2 ^ 63) (min (2 ^ 63 - 1) (strtol (utf8 flags)))))
          (strtol (utf8 mouse)) (strtol (utf8 cols)) (strtol (utf8 rows))
      else .undefined
    | _ => .usage

/-! ## Environment blocks -/

/-- `wcslen` on memory that ends somewhere; `none` is a read past the end.
Called at src/libwinpty/winpty.cc:769-798. -/
def wcslen : List Nat → Option Nat
  | [] => none
  | c :: r => if c = 0 then some 0 else (wcslen r).map (· + 1)

/-- The loop of `wstringFromEnvBlock`, src/libwinpty/winpty.cc:772-775: the offset of the `p` at which
it stops. -/
def envLoop (mem : List Nat) : Option Nat :=
  match mem with
  | [] => none
  | c :: r =>
    if c = 0 then some 0
    else
      match wcslen (c :: r) with
      | none => none
      | some n => (envLoop ((c :: r).drop (n + 1))).map (· + (n + 1))
termination_by mem.length
decreasing_by simp; omega

/-- Outcome of `wstringFromEnvBlock`.
src/libwinpty/winpty.cc:769-798. -/
inductive EnvRes where
  | ok (s : List Nat)
  | overRead
  | assertFail
deriving DecidableEq, Repr

/-- The checks at the end of `wstringFromEnvBlock`, src/libwinpty/winpty.cc:786-795. -/
def envChecks (s : List Nat) : EnvRes :=
  if s.length = 1 then
    if s[0]? = some 0 then .ok (s ++ [0]) else .assertFail
  else if s.length ≥ 3 ∧ s[s.length - 3]? ≠ some 0 ∧ s[s.length - 2]? = some 0 ∧
      s[s.length - 1]? = some 0 then .ok s
  else .assertFail

/-- `wstringFromEnvBlock`, src/libwinpty/winpty.cc:769-798, and its call in
`winpty_spawn_config_new` (814): `none` is a null pointer; otherwise the memory at the pointer. -/
def wstringFromEnvBlock : Option (List Nat) → EnvRes
  | none => .ok []
  | some mem =>
    match envLoop mem with
    | none => .overRead
    | some n => if n < mem.length then envChecks (mem.take (n + 1)) else .overRead

/-- `envV`, `envArg` in `handleStartProcessPacket`, src/agent/Agent.cc:368, 373: what `CreateProcessW`
gets (`none` is a null pointer: inherit). -/
def agentEnvArg (env : List Nat) : Option (List Nat) := if env.isEmpty then none else some env

/-! ## Unique names -/

/-- `GenRandom::randomHexString`, src/shared/GenRandom.cc:99-108, on the bytes obtained (none if the
random source failed). -/
def randomHexString (bytes : List Nat) : List Nat :=
  bytes.flatMap fun b => [hexDigit (b >>> 4), hexDigit (b &&& 0xF)]

/-- `GenRandom::uniqueName`, src/shared/GenRandom.cc:121-138.  `pid` is a `DWORD`, `counter` the
`LONG` returned by `InterlockedIncrement`, `time` a `uint64_t`. -/
def uniqueName (pid : Nat) (counter : Int) (time : Nat) (bytes : List Nat) : List Nat :=
  decText 4 pid ++ 45 :: decText 4 counter ++ 45 :: hexText false 8 time ++
    (if (randomHexString bytes).isEmpty then [] else 45 :: randomHexString bytes)

/-- The value `InterlockedIncrement(&g_pipeCounter)` returns on the `k`-th call in a process
(`k ≥ 1`): a 32-bit counter that wraps (src/shared/GenRandom.cc:29, 128). -/
def counterAt (k : Nat) : Int := toSigned 32 (k % 2 ^ 32)

/-- The control pipe's name, src/libwinpty/winpty.cc:554-555. -/
def controlPipeName (unique : List Nat) : List Nat := lit "\\\\.\\pipe\\winpty-control-" ++ unique

end Winpty.Startup
