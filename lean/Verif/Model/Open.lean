import Verif.Model.Client
import Verif.Model.Startup

/-!
# Model of `winpty_open` and `winpty_free`, `src/libwinpty/winpty.cc`

With `src/libwinpty/AgentLocation.cc` and `src/shared/BackgroundDesktop.cc`.  The answers of the
operating system are parameters (`AgentEnv`, `DesktopEnv`, `Env`); `log` records what the library
does, the code never looks at it.  The overlapped calls on the control pipe are those of
`Verif.Model.Client`.
-/
namespace Winpty.Open

open Winpty.Client (Exn Io Error windowsError translateException)
open Winpty.Startup (Config lit params agentCommandLine controlPipeName)
open Winpty.Buffer (Res getWString assertEof)

/-- The kinds of objects `winpty_open` obtains: src/libwinpty/winpty.cc:402, 380, 498-505 and
src/shared/BackgroundDesktop.cc:65, 75. -/
inductive Kind where
  | event | pipe | process | thread | station | desktop
deriving DecidableEq, Repr

/-- The arguments of `CreateProcessW` that vary, src/libwinpty/winpty.cc:486-505: `lpDesktop` is
`none` for a null pointer, else the memory passed; `flags` is `dwCreationFlags`. -/
structure AgentArgs where
  exe : List Nat
  cmdline : List Nat
  desktop : Option (List Nat)
  hide : Bool
  flags : Nat
deriving DecidableEq, Repr

/-- What the library does, for the log.
The system calls at src/libwinpty/winpty.cc:286-298, 370-406, 472-541 and
src/shared/BackgroundDesktop.cc:57-119. -/
inductive Event where
  /-- an object was obtained -/
  | opened (k : Kind) (h : Int)
  /-- an object was closed -/
  | closed (k : Kind) (h : Int)
  /-- the control pipe with this handle was created under this name -/
  | pipeNamed (h : Int) (name : List Nat)
  /-- `CreateProcessW` was called; the process ID if it succeeded -/
  | started (a : AgentArgs) (pid : Option Nat)
  /-- something was done with the control pipe with this handle -/
  | io (pipe : Int) (e : Client.Event)
  /-- the system was asked for the process at the other end of this control pipe: its ID, `.error none`
  if the system cannot tell, or an error code -/
  | clientPid (pipe : Int) (answer : Except (Option Nat) Nat)
  /-- `SetProcessWindowStation`, and whether it succeeded -/
  | setStation (st : Int) (ok : Bool)
  /-- the name of the current desktop was determined -/
  | currentDesktop (name : List Nat)

/-- The environment: the answers still to come for calls on control pipes, and the log.
(Not in the code; src/libwinpty/winpty.cc:286-368.) -/
structure W where
  ios : List Io
  log : List Event

/-- Append to the log. (Not in the code; src/libwinpty/winpty.cc:544-691.) -/
def W.add (w : W) (es : List Event) : W := { w with log := w.log ++ es }

/-- A computation ends with a value or an exception, or an `ASSERT` aborts the process, or it is still
waiting for the system.
The exits of src/libwinpty/winpty.cc:544-691. -/
inductive R (α : Type) where
  | ok (a : α) (w : W)
  | throw (e : Exn) (w : W)
  | abort (w : W)
  | wait (w : W)

/-- Sequencing.
As in src/libwinpty/winpty.cc:544-691. -/
def R.bind {α β : Type} (r : R α) (f : α → W → R β) : R β :=
  match r with
  | .ok a w => f a w
  | .throw e w => .throw e w
  | .abort w => .abort w
  | .wait w => .wait w

/-- The destructors that run when an exception passes, e.g. of `wp` at src/libwinpty/winpty.cc:549. -/
def R.onThrow {α : Type} (r : R α) (cleanup : W → W) : R α :=
  match r with
  | .throw e w => .throw e (cleanup w)
  | r => r

/-- Run calls on the control pipe with this handle.
(Not in the code; connects it to the model of src/libwinpty/winpty.cc:201-368.) -/
def onPipe {α : Type} (w : W) (pipe : Int) (f : Client.World → Client.R α) : R α :=
  match f ⟨w.ios, [], []⟩ with
  | .ok a v => .ok a ⟨v.ios, w.log ++ v.log.map (.io pipe)⟩
  | .throw e v => .throw e ⟨v.ios, w.log ++ v.log.map (.io pipe)⟩
  | .abort v => .abort ⟨v.ios, w.log ++ v.log.map (.io pipe)⟩
  | .wait v => .wait ⟨v.ios, w.log ++ v.log.map (.io pipe)⟩

/-- The answers of the system while an agent is started: `CreateEventW`; the security descriptor
(`false` if there is none; building it can throw); `CreateNamedPipeW`; the name made by
`GenRandom().uniqueName()`; the path of the module and whether the agent's file exists;
`CreateProcessW` (process ID, process handle, thread handle); `GetNamedPipeClientProcessId`
(`.error none` if it does not exist in this system).
src/libwinpty/winpty.cc:370-541. -/
structure AgentEnv where
  event : Except Nat Int
  descriptor : Except Exn Bool
  pipe : Except Nat Int
  unique : List Nat
  modulePath : List Nat
  exeExists : Bool
  process : Except Nat (Nat × Int × Int)
  clientPid : Except (Option Nat) Nat

/-- The answers of the system while a background desktop is made in the current process, and whether
the last `SetProcessWindowStation` succeeds.
src/shared/BackgroundDesktop.cc:31-103. -/
structure DesktopEnv where
  original : Except Nat Int
  station : Except Nat Int
  set : Except Nat Unit
  desktop : Except Nat Int
  stationName : Except Nat (List Nat)
  desktopName : Except Nat (List Nat)
  restore : Bool

/-- Everything `winpty_open` asks the system: the two agents, the background desktop, the answers for
the current desktop (src/shared/BackgroundDesktop.cc:105-122), the debug flags, whether
`WINPTY_SHOW_CONSOLE` is set, and whether this is Windows 7 or later.
src/libwinpty/winpty.cc:411-470. -/
structure Env where
  desktopAgent : AgentEnv
  agent : AgentEnv
  background : DesktopEnv
  currentStation : Except Nat Int
  currentDesktop : Except Nat Int
  currentStationName : Except Nat (List Nat)
  currentDesktopName : Except Nat (List Nat)
  debugFlag : String → Bool
  showConsole : Bool
  windows7 : Bool

/-- A system call that can fail: on failure `throwWindowsError`.
E.g. src/libwinpty/winpty.cc:402-405. -/
def ask {α : Type} (w : W) (answer : Except Nat α) (msg : String) : R α :=
  match answer with
  | .ok a => .ok a w
  | .error code => .throw (windowsError msg code) w

/-! ## Starting an agent -/

/-- `createEvent`, src/libwinpty/winpty.cc:401-408. -/
def createEvent (env : AgentEnv) (w : W) : R Int :=
  (ask w env.event "CreateEventW failed").bind fun h w => .ok h (w.add [.opened .event h])

/-- `createControlPipe`, src/libwinpty/winpty.cc:370-394. -/
def createControlPipe (env : AgentEnv) (w : W) (name : List Nat) : R Int :=
  match env.descriptor with
  | .error e => .throw e w
  | .ok false => .throw (.winpty "could not create the control pipe's SECURITY_DESCRIPTOR") w
  | .ok true =>
    (ask w env.pipe "CreateNamedPipeW failed").bind fun h w =>
      .ok h (w.add [.opened .pipe h, .pipeNamed h name])

/-- `dirname`, src/libwinpty/AgentLocation.cc:53-60: what is before the last `\` or `/`, empty without
one. -/
def dirname (path : List Nat) : List Nat :=
  ((path.reverse.dropWhile fun c => c ≠ 92 ∧ c ≠ 47).drop 1).reverse

/-- `findAgentProgram`, src/libwinpty/AgentLocation.cc:66-75.  The text of the exception leaves out the
path. -/
def findAgentProgram (env : AgentEnv) (w : W) : R (List Nat) :=
  if env.exeExists then .ok (dirname env.modulePath ++ lit "\\winpty-agent.exe") w
  else .throw (.lib 4 "agent executable does not exist") w

/-- `shouldSpecifyHideFlag`, src/libwinpty/winpty.cc:458-470. -/
def shouldSpecifyHideFlag (env : Env) : Bool :=
  if env.debugFlag "force_sw_hide" && env.debugFlag "no_sw_hide" then !env.showConsole
  else if env.debugFlag "force_sw_hide" then true
  else if env.debugFlag "no_sw_hide" then false
  else !env.showConsole

/-- `startAgentProcess`, src/libwinpty/winpty.cc:472-521: process ID and process handle.  The text of
the exception leaves out the command line. -/
def startAgentProcess (env : AgentEnv) (hide : Bool) (w : W) (desktop pipeName params : List Nat)
    (flags : Nat) : R (Nat × Int) :=
  (findAgentProgram env w).bind fun exe w =>
  match env.process with
  | .error _ =>
    .throw (.lib 8 "winpty-agent CreateProcess failed")
      (w.add [.started ⟨exe, agentCommandLine exe pipeName params ++ [0],
        if desktop = [] then none else some (desktop ++ [0]), hide, flags⟩ none])
  | .ok (pid, hProcess, hThread) =>
    .ok (pid, hProcess)
      (w.add [.started ⟨exe, agentCommandLine exe pipeName params ++ [0],
          if desktop = [] then none else some (desktop ++ [0]), hide, flags⟩ (some pid),
        .opened .process hProcess, .opened .thread hThread, .closed .thread hThread])

/-- `connectControlPipe`, src/libwinpty/winpty.cc:286-298; 535 is `ERROR_PIPE_CONNECTED`. -/
def connectControlPipe (w : Client.World) : Client.R Unit :=
  (Client.overlapped w .connect).bind fun d w =>
    match d with
    | .ok _ _ => .ok () w
    | .fail code =>
      if code = 535 then .ok () w else .throw (windowsError "ConnectNamedPipe failed" code) w

/-- `verifyPipeClientPid`, src/libwinpty/winpty.cc:523-541.  The text of the exception leaves out the
numbers. -/
def verifyPipeClientPid (env : AgentEnv) (w : W) (pipe : Int) (agentPid : Nat) : R Unit :=
  match env.clientPid with
  | .ok clientPid =>
    if clientPid ≠ agentPid then
      .throw (.winpty "Security check failed: pipe client pid does not match agent pid")
        (w.add [.clientPid pipe env.clientPid])
    else .ok () (w.add [.clientPid pipe env.clientPid])
  | .error none => .ok () (w.add [.clientPid pipe env.clientPid])
  | .error (some code) =>
    .throw (windowsError "GetNamedPipeClientProcessId failed" code)
      (w.add [.clientPid pipe env.clientPid])

/-- `struct winpty_s`, src/libwinpty/WinptyInternal.h:52-62. -/
structure Session where
  process : Int
  pipe : Int
  event : Int
  timeoutMs : Nat
  spawnDesktopName : List Nat := []
  conin : List Nat := []
  conout : List Nat := []
  conerr : List Nat := []
deriving DecidableEq, Repr

/-- The destructor of `winpty_s`: the members are destroyed in the reverse order of their declaration,
src/libwinpty/WinptyInternal.h:52-62, src/shared/OwnedHandle.cc:26-36. -/
def destroy (s : Session) (w : W) : W :=
  w.add [.closed .event s.event, .closed .pipe s.pipe, .closed .process s.process]

/-- `createAgentSession`, src/libwinpty/winpty.cc:543-564. -/
def createAgentSession (cfg : Config) (env : AgentEnv) (hide : Bool) (w : W)
    (desktop params : List Nat) (flags : Nat) : R Session :=
  (createEvent env w).bind fun event w =>
  ((createControlPipe env w (controlPipeName env.unique)).onThrow
    fun w => w.add [.closed .event event]).bind fun pipe w =>
  ((startAgentProcess env hide w desktop (controlPipeName env.unique) params flags).onThrow
    fun w => w.add [.closed .event event, .closed .pipe pipe]).bind fun agent w =>
  ((onPipe w pipe connectControlPipe).onThrow
    (destroy ⟨agent.2, pipe, event, cfg.timeoutMs, [], [], [], []⟩)).bind fun _ w =>
  ((verifyPipeClientPid env w pipe agent.1).onThrow
    (destroy ⟨agent.2, pipe, event, cfg.timeoutMs, [], [], [], []⟩)).bind fun _ w =>
  .ok ⟨agent.2, pipe, event, cfg.timeoutMs, [], [], [], []⟩ w

/-! ## The background desktop -/

/-- The members of `BackgroundDesktop`, src/shared/BackgroundDesktop.h:65-68; `none` is a null
pointer. -/
structure Background where
  original : Option Int := none
  station : Option Int := none
  desktop : Option Int := none
  name : List Nat := []
deriving DecidableEq, Repr

/-- `BackgroundDesktop::dispose`, src/shared/BackgroundDesktop.cc:90-103. -/
def Background.dispose (b : Background) (restore : Bool) (w : W) : W :=
  w.add ((match b.original with | some h => [.setStation h restore] | none => []) ++
    (match b.desktop with | some h => [.closed .desktop h] | none => []) ++
    (match b.station with | some h => [.closed .station h] | none => []))

/-- `getDesktopName`, src/shared/BackgroundDesktop.cc:49-51 (and `getObjectName`, 31-47; the names
are C strings). -/
def desktopName (w : W) (station desktop : Except Nat (List Nat)) : R (List Nat) :=
  (ask w station "GetUserObjectInformationW failed").bind fun s w =>
  (ask w desktop "GetUserObjectInformationW failed").bind fun d w => .ok (s ++ 92 :: d) w

/-- The constructor of `BackgroundDesktop`, src/shared/BackgroundDesktop.cc:57-88. -/
def Background.new (env : DesktopEnv) (w : W) : R Background :=
  (ask w env.original "GetProcessWindowStation returned NULL").bind fun original w =>
  ((ask w env.station "CreateWindowStationW returned NULL").onThrow
    (Background.dispose { original := some original } env.restore)).bind fun station w =>
  ((ask (w.add [.opened .station station, .setStation station env.set.isOk]) env.set
      "SetProcessWindowStation failed").onThrow
    (Background.dispose { original := some original, station := some station } env.restore)).bind
      fun _ w =>
  ((ask w env.desktop "CreateDesktopW failed").onThrow
    (Background.dispose { original := some original, station := some station } env.restore)).bind
      fun desktop w =>
  ((desktopName (w.add [.opened .desktop desktop]) env.stationName env.desktopName).onThrow
    (Background.dispose
      { original := some original, station := some station, desktop := some desktop } env.restore)).bind
      fun name w => .ok ⟨some original, some station, some desktop, name⟩ w

/-- `AgentDesktopDirect` and `AgentDesktopIndirect`, src/libwinpty/winpty.cc:574-597. -/
inductive AgentDesktop where
  | direct (b : Background)
  | indirect (s : Session) (name : List Nat)

/-- `AgentDesktop::name`, src/libwinpty/winpty.cc:580, 594; empty without one (650). -/
def AgentDesktop.name : Option AgentDesktop → List Nat
  | none => []
  | some (.direct b) => b.name
  | some (.indirect _ name) => name

/-- The destructor of an `AgentDesktop`, src/libwinpty/winpty.cc:574-597. -/
def AgentDesktop.dispose (restore : Bool) (d : Option AgentDesktop) (w : W) : W :=
  match d with
  | none => w
  | some (.direct b) => b.dispose restore w
  | some (.indirect s _) => destroy s w

/-- `shouldCreateBackgroundDesktop`, src/libwinpty/winpty.cc:417-456: the result, and
`createUsingAgent` after it. -/
def shouldCreateBackgroundDesktop (env : Env) (createUsingAgent : Bool) : Bool × Bool :=
  if (env.debugFlag "force_desktop").toNat + (env.debugFlag "force_desktop_spawn").toNat +
      (env.debugFlag "force_desktop_curproc").toNat + (env.debugFlag "no_desktop").toNat > 1 then
    (!env.showConsole && !env.windows7, createUsingAgent)
  else if env.debugFlag "force_desktop" then (true, createUsingAgent)
  else if env.debugFlag "force_desktop_spawn" then (true, true)
  else if env.debugFlag "force_desktop_curproc" then (true, false)
  else if env.debugFlag "no_desktop" then (false, createUsingAgent)
  else (!env.showConsole && !env.windows7, createUsingAgent)

/-- A read from a packet: a `DecodeError` or a failing allocation leaves the call.
E.g. src/libwinpty/winpty.cc:617-618. -/
def decoded {α : Type} (c : Client.Cfg) (w : W) (r : Res α) : R (α × Nat) :=
  match r with
  | .ok a off => .ok (a, off) w
  | .decodeError => .throw .decode w
  | .allocError => .throw (Client.allocExn c) w
  | .assertFail => .abort w

/-- The desktop's name is read from the agent that made it, src/libwinpty/winpty.cc:615-618. -/
def readDesktopName (c : Client.Cfg) (w : W) (pipe : Int) : R (List Nat) :=
  (onPipe w pipe (Client.readPacket c)).bind fun packet w =>
  (decoded c w (getWString c.buffer packet 0)).bind fun name w =>
  (decoded c w (assertEof packet name.2)).bind fun _ w => .ok name.1 w

/-- `setupBackgroundDesktop`, src/libwinpty/winpty.cc:602-639.  `DETACHED_PROCESS` is 8. -/
def setupBackgroundDesktop (c : Client.Cfg) (cfg : Config) (env : Env) (w : W) :
    R (Option AgentDesktop) :=
  if (shouldCreateBackgroundDesktop env (cfg.flags &&& 8 = 0)).1 then
    if (shouldCreateBackgroundDesktop env (cfg.flags &&& 8 = 0)).2 then
      (createAgentSession cfg env.desktopAgent (shouldSpecifyHideFlag env) w [] (lit "--create-desktop")
        8).bind fun s w =>
      ((readDesktopName c w s.pipe).onThrow (destroy s)).bind fun name w =>
      if name = [] then .ok none (destroy s w) else .ok (some (.indirect s name)) w
    else
      match Background.new env.background w with
      | .ok b w => .ok (some (.direct b)) w
      | .throw (.winpty _) w => .ok none w
      | .throw (.lib _ _) w => .ok none w
      | .throw e w => .throw e w
      | .abort w => .abort w
      | .wait w => .wait w
  else .ok none w

/-! ## `winpty_open` -/

/-- `getCurrentDesktopName`, src/shared/BackgroundDesktop.cc:105-122. -/
def getCurrentDesktopName (env : Env) (w : W) : R (List Nat) :=
  (ask w env.currentStation "GetProcessWindowStation returned NULL").bind fun _ w =>
  (ask w env.currentDesktop "GetThreadDesktop returned NULL").bind fun _ w =>
  (desktopName w env.currentStationName env.currentDesktopName).bind fun name w =>
  .ok name (w.add [.currentDesktop name])

/-- The packet with the pipe names, src/libwinpty/winpty.cc:681-687. -/
def readNames (c : Client.Cfg) (conerr : Bool) (w : W) (s : Session) : R Session :=
  (onPipe w s.pipe (Client.readPacket c)).bind fun packet w =>
  (decoded c w (getWString c.buffer packet 0)).bind fun conin w =>
  (decoded c w (getWString c.buffer packet conin.2)).bind fun conout w =>
  (if conerr then decoded c w (getWString c.buffer packet conout.2) else .ok ([], conout.2) w).bind
    fun conerr w =>
  (decoded c w (assertEof packet conerr.2)).bind fun _ w =>
  .ok { s with conin := conin.1, conout := conout.1, conerr := conerr.1 } w

/-- The part of `winpty_open` after the session was created, src/libwinpty/winpty.cc:671-687. -/
def finishOpen (c : Client.Cfg) (cfg : Config) (env : Env) (w : W) (name : List Nat) (s : Session) :
    R Session :=
  (if name = [] then .ok [] w else getCurrentDesktopName env w).bind fun current w =>
  readNames c (cfg.flags &&& 1 ≠ 0) w { s with spawnDesktopName := current }

/-- `winpty_open`, src/libwinpty/winpty.cc:641-690, before `API_CATCH`.  `CREATE_NEW_CONSOLE` is
16. -/
def openBody (c : Client.Cfg) (cfg : Config) (env : Env) (w : W) : R Session :=
  (setupBackgroundDesktop c cfg env w).bind fun d w =>
  ((createAgentSession cfg env.agent (shouldSpecifyHideFlag env) w (AgentDesktop.name d) (params cfg)
    16).onThrow (AgentDesktop.dispose env.background.restore d)).bind fun s w =>
  (finishOpen c cfg env (AgentDesktop.dispose env.background.restore d w) (AgentDesktop.name d)
    s).onThrow (destroy s)

/-- How `winpty_open` ends: it returns a session (or `NULL`) and an error object if there is a place
for it, or the process is aborted, or the call does not come back.
src/libwinpty/winpty.cc:641-691. -/
inductive Result where
  | returned (s : Option Session) (err : Option Error) (w : W)
  | aborted (w : W)
  | waiting (w : W)

/-- `winpty_open`, src/libwinpty/winpty.cc:641-691 with `API_TRY` and `API_CATCH` (143-148). -/
def winptyOpen (c : Client.Cfg) (wantErr : Bool) (cfg : Config) (env : Env) (w : W) : Result :=
  match openBody c cfg env w with
  | .ok s w => .returned (some s) none w
  | .throw e w => .returned none (if wantErr then some (translateException e) else none) w
  | .abort w => .aborted w
  | .wait w => .waiting w

/-- `winpty_free`, src/libwinpty/winpty.cc:965-970. -/
def winptyFree (s : Session) (w : W) : W := destroy s w

/-- `winpty_conin_name` (with `cstrFromWStringOrNull`), src/libwinpty/winpty.cc:701-719.  Simplification:
`c_str` does not run out of memory. -/
def coninName (s : Session) : Option (List Nat) := some s.conin

/-- `winpty_conout_name`, src/libwinpty/winpty.cc:716-719. -/
def conoutName (s : Session) : Option (List Nat) := some s.conout

/-- `winpty_conerr_name`, src/libwinpty/winpty.cc:721-728; `none` is a null pointer. -/
def conerrName (s : Session) : Option (List Nat) := if s.conerr = [] then none else some s.conerr

end Winpty.Open
