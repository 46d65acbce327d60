import Verif.Model.Framing
import Verif.Model.NamedPipe
import Verif.Model.Terminal

/-!
# Model of `src/agent/Agent.cc` and `src/agent/EventLoop.cc`

One `Tick` is one turn of the event loop together with everything the outside world answers during
it.  Three parts of the agent are represented by what they can do to the rest: the scrapers by the
list of calls they make to their `Terminal` (any list), `ConsoleInput` by how often it calls
`sendDsr` and by whether it wants the mouse, and the console by its title and its process lists.
`log` records, in order, what the agent does; the code never looks at it.  A failed `ASSERT` and an
uncaught exception are the outcome `none`.
-/
namespace Winpty.Agent

open Winpty.Terminal (Term)
open Winpty.ConsoleLine (Cell)
open Winpty.Buffer (Field FieldTy Res getInt32 getFields assertEof sealPacket putFields newPacket toUnsigned
  toSigned)

/-- `MAX_CONSOLE_WIDTH`, src/agent/Scraper.h:45. -/
def maxConsoleWidth : Int := 2500

/-- `MAX_CONSOLE_HEIGHT`, src/agent/Scraper.h:46. -/
def maxConsoleHeight : Int := 2000

/-- The calls a scraper makes to its terminal, src/agent/Terminal.h:41-48: `reset` (with
`sendClear`), `sendLine`, `showTerminalCursor`, `hideTerminalCursor`. -/
inductive TermCall where
  | reset (sendClear : Bool) (line : Int)
  | sendLine (line : Int) (cells : List Cell) (cursorColumn : Int)
  | showCursor (column line : Int)
  | hideCursor

/-- Why bytes were written to an output pipe: by the scraper in `scrapeBuffers`
(src/agent/Agent.cc:590-599) or in `resizeWindow` (554-588), by `syncConsoleTitle` (601-612), by
`enableMouseMode` (508-509) or by `sendDsr` (238-243). -/
inductive Source where
  | scrape | resize | title | mouse | dsr
deriving DecidableEq

/-- The arguments of `CreateProcessW`, src/agent/Agent.cc:366-392.  A string is the memory passed (a
NUL character is appended where the code appends it); `none` is a null pointer.  `ownStdHandles` says
that standard handles are passed and inherited, with the error buffer as standard error. -/
structure CreateArgs where
  program : Option (List Nat)
  cmdline : Option (List Nat)
  env : Option (List Nat)
  cwd : Option (List Nat)
  desktop : Option (List Nat)
  ownStdHandles : Bool
deriving DecidableEq

/-- What the agent does, for the log.
Written at the places in src/agent/Agent.cc:146-612 named in the functions below. -/
inductive Entry where
  /-- bytes written to the CONOUT pipe -/
  | conout (src : Source) (bytes : List Nat)
  /-- bytes written to the CONERR pipe -/
  | conerr (src : Source) (bytes : List Nat)
  /-- bytes written to the control pipe -/
  | control (bytes : List Nat)
  /-- a packet is given to `handlePacket` -/
  | packet (bytes : List Nat)
  /-- `CreateProcessW` is called -/
  | createProcess (args : CreateArgs)
  /-- the scrapers are told this size -/
  | resized (cols rows : Int)
  /-- the exit of the child process is noticed -/
  | childExited
  /-- the console buffers are scraped -/
  | scraped
  /-- `closePipe` of the CONOUT pipe in `autoClosePipesForShutdown` -/
  | closeConout
  /-- `closePipe` of the CONERR pipe in `autoClosePipesForShutdown` -/
  | closeConerr
  /-- `shutdown()` -/
  | exit
deriving DecidableEq

/-- What the world answers while one packet is handled: the outcome of `CreateProcessW`
(src/agent/Agent.cc:388-407: an error code, or the duplicated process and thread handles), the calls
the scrapers make while resizing (564 and 567), and the console's process lists at the successive
calls of `GetConsoleProcessList` (438 and 445). -/
structure PacketEnv where
  create : Except Int (Int × Int)
  resizeOut : List TermCall
  resizeErr : List TermCall
  processLists : List (List Nat)

/-- The fixed part: the configuration (src/agent/Agent.cc:151-162), the limits of the decoder, the
function `utf8FromWide` (606-607) and the answers for each packet, by number. -/
structure Cfg where
  buffer : Buffer.Cfg
  plainMode : Bool
  outputColor : Bool
  useConerr : Bool
  utf8FromWide : List Nat → List Nat
  env : Nat → PacketEnv

/-- The agent, src/agent/Agent.h:76-100 and `m_exiting` of src/agent/EventLoop.h:42.  `err` is the
CONERR pipe with its terminal, if used; `child` says that `m_childProcess` is not null; `served`
counts the packets handled. -/
structure State where
  control : NamedPipe.State
  conin : NamedPipe.State
  conout : NamedPipe.State
  term : Term
  err : Option (NamedPipe.State × Term)
  child : Bool
  autoShutdown : Bool
  exitAfterShutdown : Bool
  closing : Bool
  exiting : Bool
  title : List Nat
  served : Nat
  log : List Entry

/-- One call of a scraper to its terminal.
src/agent/Terminal.cc:300-451. -/
def callTerminal (t : Term) : TermCall → Option Term
  | .reset sendClear line => some (Terminal.reset t sendClear line)
  | .sendLine line cells cursorColumn => Terminal.sendLine t line cells cursorColumn
  | .showCursor column line => some (Terminal.showTerminalCursor t column line)
  | .hideCursor => some (Terminal.hideTerminalCursor t)

/-- Successive calls of a scraper to its terminal.
src/agent/Terminal.cc:300-451. -/
def callTerminals : Term → List TermCall → Option Term
  | t, [] => some t
  | t, c :: cs =>
    match callTerminal t c with
    | none => none
    | some t' => callTerminals t' cs

/-- The bytes a terminal wrote to its pipe (`m_output.write`, e.g. src/agent/Terminal.cc:305) between
two states.  Simplification: the bytes of a series of calls are written to the pipe in one piece. -/
def newBytes (t t' : Term) : List Nat := t'.out.drop t.out.length

/-- `m_conoutPipe->write(bytes)`, src/agent/NamedPipe.cc:295-299; nothing is logged for no bytes. -/
def writeConout (s : State) (src : Source) (bytes : List Nat) : Option State :=
  if bytes = [] then some s
  else
    match NamedPipe.step s.conout (.write bytes) with
    | none => none
    | some (p, _) => some { s with conout := p, log := s.log ++ [.conout src bytes] }

/-- The same for the CONERR pipe, src/agent/NamedPipe.cc:295-299, together with the new state of its
terminal. -/
def writeConerr (s : State) (src : Source) (p : NamedPipe.State) (t : Term) (bytes : List Nat) :
    Option State :=
  if bytes = [] then some { s with err := some (p, t) }
  else
    match NamedPipe.step p (.write bytes) with
    | none => none
    | some (p', _) => some { s with err := some (p', t), log := s.log ++ [.conerr src bytes] }

/-- The primary scraper makes these calls to its terminal.
src/agent/Agent.cc:564 and 594. -/
def usePrimary (s : State) (src : Source) (calls : List TermCall) : Option State :=
  match callTerminals s.term calls with
  | none => none
  | some t' => writeConout { s with term := t' } src (newBytes s.term t')

/-- The error scraper, if there is one, makes these calls to its terminal.
src/agent/Agent.cc:566-568 and 596-598. -/
def useError (s : State) (src : Source) (calls : List TermCall) : Option State :=
  match s.err with
  | none => some s
  | some (p, t) =>
    match callTerminals t calls with
    | none => none
    | some t' => writeConerr s src p t' (newBytes t t')

/-- `Agent::sendDsr`, src/agent/Agent.cc:238-243, called `n` times. -/
def sendDsrs (cfg : Cfg) (s : State) : Nat → Option State
  | 0 => some s
  | n + 1 =>
    if !cfg.plainMode && !s.conout.pipe.isClosed then
      (writeConout s .dsr [0x1b, 0x5b, 0x36, 0x6e]).bind fun s' => sendDsrs cfg s' n
    else sendDsrs cfg s n

/-- `EventLoop::shutdown`, src/agent/EventLoop.cc:96-99. -/
def shutdown (s : State) : State := { s with exiting := true, log := s.log ++ [.exit] }

/-- `Agent::writePacket` of a packet with these fields, src/agent/Agent.cc:344-349. -/
def writePacket (s : State) (fs : List Field) : Option State :=
  match sealPacket (putFields newPacket fs) with
  | none => none
  | some bytes =>
    match NamedPipe.step s.control (.write bytes) with
    | none => none
    | some (p, _) => some { s with control := p, log := s.log ++ [.control bytes] }

/-- The pointer passed for a string: null if it is empty, src/agent/Agent.cc:370-378. -/
def ptr (s memory : List Nat) : Option (List Nat) := if s = [] then none else some memory

/-- The arguments built from the decoded strings, src/agent/Agent.cc:366-392
(`vectorWithNulFromString` and `c_str()` append a NUL, `vectorFromString` does not). -/
def createArgs (cfg : Cfg) (program cmdline cwd env desktop : List Nat) : CreateArgs :=
  { program := ptr program (program ++ [0])
    cmdline := ptr cmdline (cmdline ++ [0])
    env := ptr env env
    cwd := ptr cwd (cwd ++ [0])
    desktop := ptr desktop (desktop ++ [0])
    ownStdHandles := cfg.useConerr }

/-- The part of `Agent::handleStartProcessPacket` after decoding, src/agent/Agent.cc:388-420. -/
def startProcess (s : State) (args : CreateArgs) (flags : Int) (wantProcess wantThread : Bool)
    (e : PacketEnv) : Option State :=
  match e.create with
  | .ok (hProcess, hThread) =>
    writePacket
      { s with
        log := s.log ++ [.createProcess args]
        child := true
        autoShutdown := decide (toUnsigned 64 flags &&& 1 ≠ 0)
        exitAfterShutdown := decide (toUnsigned 64 flags &&& 2 ≠ 0) }
      [.int32 1, .int64 (if wantProcess then hProcess else 0),
        .int64 (if wantThread then hThread else 0)]
  | .error code =>
    writePacket { s with log := s.log ++ [.createProcess args] } [.int32 0, .int32 code]

/-- The fields read by `handleStartProcessPacket`, src/agent/Agent.cc:356-363. -/
def startProcessFields : List FieldTy :=
  [.int64, .int32, .int32, .wstring, .wstring, .wstring, .wstring, .wstring]

/-- `Agent::handleStartProcessPacket`, src/agent/Agent.cc:351-421. -/
def handleStartProcessPacket (cfg : Cfg) (s : State) (p : List Nat) (off : Nat) (e : PacketEnv) :
    Option State :=
  if s.child || s.closing then none
  else
    match getFields cfg.buffer p off startProcessFields with
    | .ok [.int64 flags, .int32 wantProcess, .int32 wantThread, .wstring program, .wstring cmdline,
        .wstring cwd, .wstring env, .wstring desktop] off' =>
      match assertEof p off' with
      | .ok () _ =>
        startProcess s (createArgs cfg program cmdline cwd env desktop) flags
          (decide (wantProcess ≠ 0)) (decide (wantThread ≠ 0)) e
      | _ => none
    | _ => none

/-- `Agent::resizeWindow`, src/agent/Agent.cc:554-588.  Freezing the console, the mouse window and
the synthesised input record are not represented. -/
def resizeWindow (s : State) (cols rows : Int) (e : PacketEnv) : Option State :=
  if 1 ≤ cols ∧ 1 ≤ rows then
    (usePrimary
      { s with log := s.log ++ [.resized (min cols maxConsoleWidth) (min rows maxConsoleHeight)] }
      .resize e.resizeOut).bind fun s1 => useError s1 .resize e.resizeErr
  else none

/-- `Agent::handleSetSizePacket`, src/agent/Agent.cc:423-431. -/
def handleSetSizePacket (cfg : Cfg) (s : State) (p : List Nat) (off : Nat) (e : PacketEnv) :
    Option State :=
  match getFields cfg.buffer p off [.int32, .int32] with
  | .ok [.int32 cols, .int32 rows] off' =>
    match assertEof p off' with
    | .ok () _ => (resizeWindow s cols rows e).bind fun s1 => writePacket s1 []
    | _ => none
  | _ => none

/-- The loop of `handleGetConsoleProcessListPacket`, src/agent/Agent.cc:437-446, with a vector of
`size` elements and the answers of the successive calls.  Simplification: when the answers run out
the next call fails (returns 0), and the doubling does not overflow `DWORD`. -/
def processListLoop (size : Nat) : List (List Nat) → List Nat
  | [] => []
  | l :: rest => if size < l.length then processListLoop (max (size * 2) l.length) rest else l

/-- `Agent::handleGetConsoleProcessListPacket`, src/agent/Agent.cc:433-458; `putInt32` of a `DWORD`
converts it to `int32_t`. -/
def handleGetConsoleProcessListPacket (s : State) (p : List Nat) (off : Nat) (e : PacketEnv) :
    Option State :=
  match assertEof p off with
  | .ok () _ =>
    writePacket s (.int32 (toSigned 32 (processListLoop 64 e.processLists).length) ::
      (processListLoop 64 e.processLists).map fun pid => Field.int32 (toSigned 32 pid))
  | _ => none

/-- The `switch` of `Agent::handlePacket`, src/agent/Agent.cc:324-341; the message numbers are those
of src/shared/AgentMsg.h:24-31. -/
def dispatch (cfg : Cfg) (s : State) (p : List Nat) (type : Int) (off : Nat) (e : PacketEnv) :
    Option State :=
  if type = 0 then handleStartProcessPacket cfg s p off e
  else if type = 1 then handleSetSizePacket cfg s p off e
  else if type = 2 then handleGetConsoleProcessListPacket s p off e
  else some s

/-- `Agent::handlePacket`, src/agent/Agent.cc:321-342, on a whole packet (the reader starts after the
eight bytes of the size). -/
def handlePacket (cfg : Cfg) (s : State) (p : List Nat) : Option State :=
  match getInt32 p 8 with
  | .ok type off =>
    dispatch cfg { s with served := s.served + 1, log := s.log ++ [.packet p] } p type off
      (cfg.env s.served)
  | _ => none

/-- `Agent::pollControlPipe`, src/agent/Agent.cc:285-319.  The handlers never look at the input queue
of the control pipe, so the loop of `Framing.pollLoop` can keep it apart. -/
def pollControlPipe (cfg : Cfg) (s : State) : Option State :=
  if s.control.pipe.isClosed then some (shutdown s)
  else
    match Framing.pollLoop cfg.buffer.sizeMax (handlePacket cfg) s s.control.pipe.inQueue
        s.control.pipe.readBufferSize with
    | .aborted _ => none
    | .running a =>
      some { a.handler with
        control := { a.handler.control with
          pipe := { a.handler.control.pipe with
            inQueue := a.inQueue, readBufferSize := a.readBufferSize } } }

/-- `Agent::pollConinPipe`, src/agent/Agent.cc:460-473: the input is taken from the pipe and given to
`ConsoleInput` (modelled in `Verif/Model/ConsoleInput.lean`), which calls `sendDsr` `dsr` times. -/
def pollConinPipe (cfg : Cfg) (s : State) (dsr : Nat) : Option State :=
  match NamedPipe.step s.conin .readAllToString with
  | none => none
  | some (p, _) => sendDsrs cfg { s with conin := p } dsr

/-- The CONOUT part of `autoClosePipesForShutdown`, src/agent/Agent.cc:520-524.  No write is in
progress when the pipe is closed, so the system takes no more bytes. -/
def closeConoutIfDone (s : State) : Option State :=
  if s.conout.pipe.isConnected then
    match NamedPipe.bytesToSend s.conout.pipe with
    | none => none
    | some n =>
      if n = 0 then
        some { s with conout := NamedPipe.closePipe s.conout 0, log := s.log ++ [.closeConout] }
      else some s
  else some s

/-- The CONERR part of `autoClosePipesForShutdown`, src/agent/Agent.cc:525-530. -/
def closeConerrIfDone (s : State) : Option State :=
  match s.err with
  | none => some s
  | some (p, t) =>
    if p.pipe.isConnected then
      match NamedPipe.bytesToSend p.pipe with
      | none => none
      | some n =>
        if n = 0 then
          some { s with err := some (NamedPipe.closePipe p 0, t), log := s.log ++ [.closeConerr] }
        else some s
    else some s

/-- `m_conerrPipe == nullptr || m_conerrPipe->isClosed()`, src/agent/Agent.cc:533. -/
def conerrClosed (s : State) : Bool :=
  match s.err with
  | none => true
  | some (p, _) => p.pipe.isClosed

/-- src/agent/Agent.cc:531-536. -/
def exitIfDone (s : State) : State :=
  if s.exitAfterShutdown && s.conout.pipe.isClosed && conerrClosed s then shutdown s else s

/-- `Agent::autoClosePipesForShutdown`, src/agent/Agent.cc:514-538. -/
def autoClosePipesForShutdown (s : State) : Option State :=
  if s.closing then
    (closeConoutIfDone s).bind fun s1 => (closeConerrIfDone s1).bind fun s2 => some (exitIfDone s2)
  else some s

/-- `Agent::syncConsoleTitle`, src/agent/Agent.cc:601-612; `write(const char *)` stops at a NUL
(src/agent/NamedPipe.cc:301-304). -/
def syncConsoleTitle (cfg : Cfg) (s : State) (newTitle : List Nat) : Option State :=
  if newTitle ≠ s.title then
    if !cfg.plainMode && !s.conout.pipe.isClosed then
      writeConout { s with title := newTitle } .title
        (([0x1b, 0x5d, 0x30, 0x3b] ++ cfg.utf8FromWide newTitle ++ [0x07]).takeWhile (· ≠ 0))
    else some { s with title := newTitle }
  else some s

/-- `Agent::scrapeBuffers`, src/agent/Agent.cc:590-599. -/
def scrapeBuffers (s : State) (out err : List TermCall) : Option State :=
  (usePrimary { s with log := s.log ++ [.scraped] } .scrape out).bind fun s1 =>
    useError s1 .scrape err

/-- What the world answers during `onPollTimeout`: whether `ConsoleInput` wants the mouse
(src/agent/Agent.cc:478), whether the child process is signalled (489), the console title (603) and
the calls the scrapers make (594 and 597). -/
structure PollEnv where
  wantMouse : Bool
  childSignalled : Bool
  title : List Nat
  scrapeOut : List TermCall
  scrapeErr : List TermCall

/-- The exit check of `onPollTimeout`, src/agent/Agent.cc:486-497. -/
def checkChild (s : State) (e : PollEnv) : State :=
  if s.autoShutdown && s.child && e.childSignalled then
    { s with child := false, closing := true, log := s.log ++ [.childExited] }
  else s

/-- src/agent/Agent.cc:508-509. -/
def setMouse (s : State) (on : Bool) : Option State :=
  writeConout { s with term := Terminal.enableMouseMode s.term on } .mouse
    (newBytes s.term (Terminal.enableMouseMode s.term on))

/-- `Agent::onPollTimeout`, src/agent/Agent.cc:475-512.  `updateInputFlags` and
`flushIncompleteEscapeCode` only concern `ConsoleInput`. -/
def onPollTimeout (cfg : Cfg) (s : State) (e : PollEnv) : Option State :=
  (if !s.closing then
      (syncConsoleTitle cfg (checkChild s e) e.title).bind fun s2 =>
        scrapeBuffers s2 e.scrapeOut e.scrapeErr
    else some (checkChild s e)).bind fun s3 =>
  (setMouse s3 (e.wantMouse && !s3.closing)).bind fun s4 =>
  autoClosePipesForShutdown s4

/-- The answers of the system for one pipe in one turn of the event loop: how many more bytes of a
pending write it takes first, then the arguments of `NamedPipe.serviceIo`.
src/agent/EventLoop.cc:47. -/
structure PipeTick where
  takes : Nat
  conn : NamedPipe.ConnectAns
  reads : List NamedPipe.Ans
  writes : List NamedPipe.Ans
  takesAtClose : Nat

/-- `serviceIo` of one pipe, src/agent/EventLoop.cc:47: the pipe and whether something happened. -/
def servicePipe (p : NamedPipe.State) (t : PipeTick) : Option (NamedPipe.State × Bool) :=
  match NamedPipe.serviceIo (NamedPipe.osTakes p t.takes) t.conn t.reads t.writes t.takesAtClose with
  | none => none
  | some (p', did, _) => some (p', did)

/-- One turn of the event loop: the answers for each pipe, the number of `sendDsr` calls made while
input is handled, and, if the poll interval has elapsed, the answers for the poll.
src/agent/EventLoop.cc:41-81. -/
structure Tick where
  control : PipeTick
  conin : PipeTick
  conout : PipeTick
  conerr : PipeTick
  dsr : Nat
  poll : Option PollEnv

/-- The control pipe's turn in the loop, src/agent/EventLoop.cc:46-51 with src/agent/Agent.cc:280. -/
def tickControl (cfg : Cfg) (s : State) (t : Tick) : Option State :=
  match servicePipe s.control t.control with
  | none => none
  | some (p, did) =>
    if did then pollControlPipe cfg { s with control := p } else some { s with control := p }

/-- The CONIN pipe's turn, src/agent/EventLoop.cc:46-51 with src/agent/Agent.cc:278. -/
def tickConin (cfg : Cfg) (s : State) (t : Tick) : Option State :=
  match servicePipe s.conin t.conin with
  | none => none
  | some (p, did) =>
    if did then pollConinPipe cfg { s with conin := p } t.dsr else some { s with conin := p }

/-- The CONOUT pipe's turn, src/agent/EventLoop.cc:46-51 with src/agent/Agent.cc:276. -/
def tickConout (s : State) (t : Tick) : Option State :=
  match servicePipe s.conout t.conout with
  | none => none
  | some (p, did) =>
    if did then autoClosePipesForShutdown { s with conout := p } else some { s with conout := p }

/-- The CONERR pipe's turn, src/agent/EventLoop.cc:46-51 with src/agent/Agent.cc:276. -/
def tickConerr (s : State) (t : Tick) : Option State :=
  match s.err with
  | none => some s
  | some (q, term) =>
    match servicePipe q t.conerr with
    | none => none
    | some (p, did) =>
      if did then autoClosePipesForShutdown { s with err := some (p, term) }
      else some { s with err := some (p, term) }

/-- One turn of the event loop, src/agent/EventLoop.cc:41-64; the pipes are in the order of their
creation (src/agent/Agent.cc:172-177). -/
def tick (cfg : Cfg) (s : State) (t : Tick) : Option State :=
  (tickControl cfg s t).bind fun s1 => (tickConin cfg s1 t).bind fun s2 =>
  (tickConout s2 t).bind fun s3 => (tickConerr s3 t).bind fun s4 =>
  match t.poll with
  | none => some s4
  | some e => onPollTimeout cfg s4 e

/-- `EventLoop::run`, src/agent/EventLoop.cc:37-82, for the given turns.  Waiting (66-80) changes
nothing. -/
def loop (cfg : Cfg) (s : State) : List Tick → Option State
  | [] => some s
  | t :: ts => if s.exiting then some s else (tick cfg s t).bind fun s' => loop cfg s' ts

/-- `Agent::Agent`, src/agent/Agent.cc:146-223, and the initial values of src/agent/Agent.h:76-100:
the pipes are created, the set-up packet with the pipe names is queued, the title is one blank.
`connected` says which data pipes had a client already when they were opened; `cols`, `rows` are the
requested size.  The calls made by the `Scraper` constructors are `out` and `err`. -/
def start (cfg : Cfg) (names : List (List Nat)) (connected : Bool × Bool × Bool) (cols rows : Int)
    (out err : List TermCall) : Option State :=
  if 1 ≤ cols ∧ 1 ≤ rows then
    (writePacket
      { control := NamedPipe.opened true true true
        conin := NamedPipe.opened true false connected.1
        conout := NamedPipe.opened false true connected.2.1
        term := Terminal.init cfg.plainMode cfg.outputColor
        err := if cfg.useConerr then
            some (NamedPipe.opened false true connected.2.2,
              Terminal.init cfg.plainMode cfg.outputColor)
          else none
        child := false, autoShutdown := false, exitAfterShutdown := false
        closing := false, exiting := false, title := [0x20], served := 0
        log := [.resized (min cols maxConsoleWidth) (min rows maxConsoleHeight)] }
      (names.map fun n => .wstring n)).bind fun s1 =>
    (usePrimary s1 .resize out).bind fun s2 => useError s2 .resize err
  else none

end Winpty.Agent
