import Verif.Model.ConsoleInput

/-!
# Model of control events and of key messages

The agent's handling of control events (src/agent/Agent.cc), together with the programs on its console and what
Windows does with a control event; and the messages that stand for a key (src/agent/ConsoleInput.cc).
-/
namespace Winpty.CtrlEvents

/-! ## Control events -/

/-- `CTRL_C_EVENT`, `CTRL_BREAK_EVENT` and `CTRL_CLOSE_EVENT` (Windows). -/
def ctrlCEvent : Nat := 0
def ctrlBreakEvent : Nat := 1
def ctrlCloseEvent : Nat := 2

/-- A process on the console: whether it runs; whether it ignores Ctrl-C (`SetConsoleCtrlHandler(NULL, ...)`);
whether its handlers handle an event of a kind; and the events that its handlers were called with. -/
structure Proc where
  alive : Bool
  ignores : Bool
  handler : Nat → Bool
  called : List Nat

/-- A process with no handler of its own. -/
def Proc.new (ignores : Bool) : Proc := ⟨true, ignores, fun _ => false, []⟩

/-- What Windows does with a control event for a process: Ctrl-C is ignored if this was asked for; otherwise the
handlers are called, and if none handles it the process is ended, which for the closing of the window it is in any
case. -/
def deliver (event : Nat) (p : Proc) : Proc :=
  if p.alive = false then p
  else if event = ctrlCEvent ∧ p.ignores = true then p
  else
    { p with called := p.called ++ [event], alive := p.handler event && event != ctrlCloseEvent }

/-- The agent, and the programs on its console. -/
structure Console where
  agent : Proc
  progs : List Proc

/-- `GenerateConsoleCtrlEvent` with the process group 0, and the closing of the window: an event for every process
on the console. -/
def broadcast (event : Nat) (c : Console) : Console := ⟨deliver event c.agent, c.progs.map (deliver event)⟩

/-- `consoleCtrlHandler`, src/agent/Agent.cc:55-62. -/
def consoleCtrlHandler (event : Nat) : Bool := if event = 0 then true else false

/-- The agent's process when it begins: it inherits from libwinpty's process whether Ctrl-C is ignored. -/
def begin (inherited : Bool) : Console := ⟨Proc.new inherited, []⟩

/-- `SetConsoleCtrlHandler(NULL, FALSE)`. -/
def restoreDefault (p : Proc) : Proc := { p with ignores := false }

/-- `SetConsoleCtrlHandler(handler, TRUE)`: the new handler is called first. -/
def addHandler (h : Nat → Bool) (p : Proc) : Proc := { p with handler := fun e => h e || p.handler e }

/-- The end of the constructor `Agent::Agent`, src/agent/Agent.cc:215-220. -/
def construct (c : Console) : Console := { c with agent := addHandler consoleCtrlHandler (restoreDefault c.agent) }

/-- What can happen.  `key`: the agent is given the byte 3 and the console processes input
(src/agent/ConsoleInput.cc:398-403); `spawn`: the agent starts a program (src/agent/Agent.cc:389-393), which
inherits whether Ctrl-C is ignored but no handler; `fork`: a program starts another; `set`: a program changes what it
ignores and handles; `generate`: a program makes an event for all processes; `exit`: a program ends; `close`: the
window is closed (also by src/shared/WinptyAssert.cc:38). -/
inductive Op where
  | key
  | spawn
  | fork (i : Nat)
  | set (i : Nat) (ignores : Bool) (handler : Nat → Bool)
  | generate (i : Nat) (event : Nat)
  | exit (i : Nat)
  | close

/-- Operations of a process that does not run do nothing. -/
def step (c : Console) : Op → Console
  | .key => if c.agent.alive then broadcast ctrlCEvent c else c
  | .spawn => if c.agent.alive then { c with progs := c.progs ++ [Proc.new c.agent.ignores] } else c
  | .fork i =>
    match c.progs[i]? with
    | some p => if p.alive then { c with progs := c.progs ++ [Proc.new p.ignores] } else c
    | none => c
  | .set i ig h =>
    match c.progs[i]? with
    | some p => if p.alive then { c with progs := c.progs.set i { p with ignores := ig, handler := h } } else c
    | none => c
  | .generate i e =>
    match c.progs[i]? with
    | some p => if p.alive then broadcast e c else c
    | none => c
  | .exit i =>
    match c.progs[i]? with
    | some p => { c with progs := c.progs.set i { p with alive := false } }
    | none => c
  | .close => broadcast ctrlCloseEvent c

def run (c : Console) (ops : List Op) : Console := ops.foldl step c

/-! ## Key messages -/

/-- `SendMessage(window, message, wParam, lParam)`. -/
structure Message where
  window : Nat
  message : Nat
  wParam : Nat
  lParam : Nat
deriving DecidableEq, Repr

/-- `sendKeyMessage`, src/agent/ConsoleInput.cc:370-378; `map` is `MapVirtualKey` with `MAPVK_VK_TO_VSC`. -/
def sendKeyMessage (map : Nat → Nat) (window : Nat) (isKeyDown : Bool) (virtualKey : Nat) : Message :=
  ⟨window, if isKeyDown then 0x100 else 0x101, virtualKey,
   ((if map virtualKey > 255 then 0 else map virtualKey) <<< 16) ||| 1 ||| (if isKeyDown then 0 else 0xc0000000)⟩

/-- The messages among what the agent does with input, in order (src/agent/ConsoleInput.cc:696-697). -/
def messages (map : Nat → Nat) (window : Nat) : List ConsoleInput.Out → List Message
  | [] => []
  | .keyMsg down vk :: rest => sendKeyMessage map window down vk :: messages map window rest
  | _ :: rest => messages map window rest

end Winpty.CtrlEvents
