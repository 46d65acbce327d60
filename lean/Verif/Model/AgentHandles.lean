/-!
# Model of the agent's handles

The handles of the agent process over its life: the screen buffers (src/agent/Win32ConsoleBuffer.cc and
Win32ConsoleBuffer.h) as `Agent` (src/agent/Agent.cc) opens, uses and closes them, the handles of the child process,
and the agent's end (src/shared/WinptyAssert.cc).  The handles of events (src/agent/NamedPipe.cc:85) are left out.
A failed assertion ends the agent, and Windows closes its handles: `none`.
-/
namespace Winpty.AgentHandles

/-- What a handle refers to; `screen b` is the console's screen buffer with the number `b`: 0 is the one the console
was created with, 1 the one the agent creates for errors. -/
inductive What where
  | input
  | screen (b : Nat)
  | pipe
  | process
  | thread
deriving DecidableEq, Repr

/-- What is known about an open handle: what it refers to, and whether a child process inherits it. -/
structure Obj where
  what : What
  inheritable : Bool
deriving DecidableEq, Repr

/-- The standard handles, and the value that Windows gives a new handle when these are in use. -/
structure Env where
  stdin : Nat
  stdout : Nat
  stderr : Nat
  alloc : List Nat → Nat

/-- One use of a screen buffer: by the agent's scraper for the output or that for errors; what the handle referred to
(`none`: it was not open), and which screen buffer was active. -/
structure Use where
  forErrors : Bool
  what : Option What
  active : Nat
deriving DecidableEq, Repr

/-- A child process: what it inherits, and the standard handles given to it (`none`: the console's). -/
structure Child where
  inherits : List What
  std : Option (Option What × Option What × Option What)
deriving DecidableEq, Repr

/-- The state.  `opens`: the open handles; `err`: `m_errorBuffer`; `child`: `m_childProcess`; `auto`:
`m_autoShutdown`; `closing`: `m_closingOutputPipes`; `pipes`: the handles of the pipes that are not closed; `given`:
the handles named in a reply that the client has not yet taken; `bad`: how often `CloseHandle` was called with a
value that is no open handle; `active`: the console's active screen buffer. -/
structure St where
  useConerr : Bool
  opens : List (Nat × Obj)
  err : Option Nat
  child : Option Nat
  auto : Bool
  closing : Bool
  pipes : List Nat
  given : List (Nat × What)
  bad : Nat
  uses : List Use
  children : List Child
  active : Nat
deriving DecidableEq, Repr

/-- Windows makes a handle. -/
def openHandle (env : Env) (s : St) (o : Obj) : St × Nat :=
  ({ s with opens := (env.alloc (s.opens.map Prod.fst), o) :: s.opens }, env.alloc (s.opens.map Prod.fst))

/-- `CloseHandle`. -/
def closeHandle (s : St) (h : Nat) : St :=
  if h ∈ s.opens.map Prod.fst then { s with opens := s.opens.filter fun p => p.1 != h }
  else { s with bad := s.bad + 1 }

/-- What a value refers to. -/
def lookup (s : St) (h : Nat) : Option What := (s.opens.find? fun p => p.1 == h).map fun p => p.2.what

/-- The functions of a screen buffer called with its handle, `Win32ConsoleBuffer::conout`,
src/agent/Win32ConsoleBuffer.cc:59-61 and for example 85-101. -/
def useScreen (s : St) (forErrors : Bool) (h : Nat) : St :=
  { s with uses := s.uses ++ [⟨forErrors, lookup s h, s.active⟩] }

/-! ## The screen buffers -/

/-- `openStdout`, src/agent/Win32ConsoleBuffer.cc:29-32: the handle, and that it is not owned. -/
def openStdout (env : Env) (s : St) : Option (St × Nat × Bool) := some (s, env.stdout, false)

/-- `openConout`, src/agent/Win32ConsoleBuffer.cc:34-42: the active screen buffer, with no security attributes, so
that the handle is not inherited; `ok`: `CreateFileW` succeeds. -/
def openConout (env : Env) (s : St) (ok : Bool) : Option (St × Nat × Bool) :=
  if ok then some ((openHandle env s ⟨.screen s.active, false⟩).1, (openHandle env s ⟨.screen s.active, false⟩).2, true)
  else none

/-- `createErrorBuffer`, src/agent/Win32ConsoleBuffer.cc:44-57. -/
def createErrorBuffer (env : Env) (s : St) (ok : Bool) : Option St :=
  if ok then some { (openHandle env s ⟨.screen 1, true⟩).1 with err := some (openHandle env s ⟨.screen 1, true⟩).2 }
  else none

/-- `Agent::openPrimaryBuffer`, src/agent/Agent.cc:540-552. -/
def openPrimaryBuffer (env : Env) (s : St) (ok : Bool) : Option (St × Nat × Bool) :=
  if !s.useConerr then openConout env s ok else openStdout env s

/-- `~Win32ConsoleBuffer`, src/agent/Win32ConsoleBuffer.h:55-59. -/
def destroyBuffer (s : St) (h : Nat) (owned : Bool) : St := if owned then closeHandle s h else s

/-- The scraper for errors, if there is one, src/agent/Agent.cc:566-568 and 596-598. -/
def useError (s : St) : St :=
  match s.err with
  | some e => useScreen s true e
  | none => s

/-- `Agent::scrapeBuffers`, src/agent/Agent.cc:590-599: the buffer is destroyed at the end of the statement. -/
def scrapeBuffers (env : Env) (s : St) (ok : Bool) : Option St :=
  match openPrimaryBuffer env s ok with
  | none => none
  | some (s1, h, owned) => some (useError (destroyBuffer (useScreen s1 false h) h owned))

/-- `Agent::resizeWindow`, src/agent/Agent.cc:554-588: the buffer is destroyed at the end of the function. -/
def resizeWindow (env : Env) (s : St) (ok : Bool) : Option St :=
  match openPrimaryBuffer env s ok with
  | none => none
  | some (s1, h, owned) => some (destroyBuffer (useScreen (useError (useScreen s1 false h)) false h) h owned)

/-! ## Start -/

/-- The handles at the beginning: the console's. -/
def begin (env : Env) (useConerr : Bool) (active : Nat) : St :=
  ⟨useConerr, [(env.stdin, ⟨.input, true⟩), (env.stdout, ⟨.screen 0, true⟩), (env.stderr, ⟨.screen 0, true⟩)],
   none, none, false, false, [], [], 0, [], [], active⟩

/-- A pipe: `CreateFileW` without security attributes, src/agent/NamedPipe.cc:255-262, or `CreateNamedPipeW` with
attributes whose `bInheritHandle` is not set, src/agent/NamedPipe.cc:217-229. -/
def openPipe (env : Env) (s : St) : St :=
  { (openHandle env s ⟨.pipe, false⟩).1 with pipes := (openHandle env s ⟨.pipe, false⟩).2 :: s.pipes }

/-- The control pipe and the data pipes, src/agent/Agent.cc:172-177. -/
def openPipes (env : Env) (s : St) : St :=
  if s.useConerr then openPipe env (openPipe env (openPipe env (openPipe env s)))
  else openPipe env (openPipe env (openPipe env s))

/-- The constructor `Agent::Agent`, src/agent/Agent.cc:165-223; `ok`, `okError`: the calls succeed. -/
def construct (env : Env) (useConerr ok okError : Bool) (active : Nat) : Option St :=
  match openPrimaryBuffer env (begin env useConerr active) ok with
  | none => none
  | some (s1, h, owned) =>
    if useConerr then
      match createErrorBuffer env s1 okError with
      | none => none
      | some s2 => some (destroyBuffer (useError (useScreen (openPipes env s2) false h)) h owned)
    else some (destroyBuffer (useScreen (openPipes env s1) false h) h owned)

/-! ## While the agent runs -/

/-- The child process has exited: src/agent/Agent.cc:487-497. -/
def childExit (s : St) : St :=
  match s.child with
  | some h => { closeHandle s h with child := none, closing := true }
  | none => s

/-- `Agent::onPollTimeout`, src/agent/Agent.cc:474-512; `exited`: what `WaitForSingleObject` says. -/
def poll (env : Env) (s : St) (exited ok : Bool) : Option St :=
  if s.closing = false then scrapeBuffers env (if s.auto && exited then childExit s else s) ok
  else some (if s.auto && exited then childExit s else s)

/-- `duplicateHandle`, src/agent/Agent.cc:125-134, not inheritable, if it is asked for, src/agent/Agent.cc:406-411. -/
def duplicate (env : Env) (s : St) (wanted ok : Bool) (what : What) : Option St :=
  if wanted then
    if ok then
      some { (openHandle env s ⟨what, false⟩).1 with given := ((openHandle env s ⟨what, false⟩).2, what) :: s.given }
    else none
  else some s

/-- The child process that `CreateProcessW` makes, src/agent/Agent.cc:380-396. -/
def newChild (env : Env) (s : St) : Child :=
  if s.useConerr then
    ⟨(s.opens.filter fun p => p.2.inheritable).map fun p => p.2.what,
     some (lookup s env.stdin, lookup s env.stdout, s.err.bind (lookup s))⟩
  else ⟨[], none⟩

/-- `CreateProcessW` succeeds: two handles. -/
def createProcess (env : Env) (s : St) : St × Nat × Nat :=
  ({ (openHandle env (openHandle env s ⟨.process, false⟩).1 ⟨.thread, false⟩).1 with
      children := s.children ++ [newChild env s] },
   (openHandle env s ⟨.process, false⟩).2,
   (openHandle env (openHandle env s ⟨.process, false⟩).1 ⟨.thread, false⟩).2)

/-- `Agent::handleStartProcessPacket`, src/agent/Agent.cc:351-425. -/
def spawn (env : Env) (s : St) (auto created wantProcess wantThread okProcess okThread : Bool) : Option St :=
  if s.child = none ∧ s.closing = false then
    if created then
      match duplicate env (createProcess env s).1 wantProcess okProcess .process with
      | none => none
      | some s1 =>
        match duplicate env s1 wantThread okThread .thread with
        | none => none
        | some s2 => some { closeHandle s2 (createProcess env s).2.2 with child := some (createProcess env s).2.1, auto := auto }
    else some s
  else none

/-- What can happen: a poll, a resize, a spawn; a pipe is closed (src/agent/NamedPipe.cc: `closePipe`); the client
takes over a handle that it was given, with `DUPLICATE_CLOSE_SOURCE` (src/libwinpty/winpty.cc: `stealHandle`); a
program makes another screen buffer the active one. -/
inductive Op where
  | poll (exited ok : Bool)
  | resize (ok : Bool)
  | spawn (auto created wantProcess wantThread okProcess okThread : Bool)
  | closePipe (k : Nat)
  | take (k : Nat)
  | activate (b : Nat)
deriving DecidableEq, Repr

/-- `none`: the agent has ended. -/
def step (env : Env) (s : St) : Op → Option St
  | .poll exited ok => poll env s exited ok
  | .resize ok => resizeWindow env s ok
  | .spawn a c wp wt op ot => spawn env s a c wp wt op ot
  | .closePipe k =>
    match s.pipes[k]? with
    | some h => some { closeHandle s h with pipes := s.pipes.eraseIdx k }
    | none => some s
  | .take k =>
    match s.given[k]? with
    | some g => some { closeHandle s g.1 with given := s.given.eraseIdx k }
    | none => some s
  | .activate b => some { s with active := b }

/-- One after another. -/
def run (env : Env) (s : St) : List Op → Option St
  | [] => some s
  | o :: rest => (step env s o).bind fun s' => run env s' rest

/-! ## The end -/

/-- What the agent does when it ends. -/
inductive EndAct where
  | trace
  | postClose (window : Nat)
  | sleep (ms : Nat)
  | exit (code : Nat)
deriving DecidableEq, Repr

/-- `agentShutdown`, src/shared/WinptyAssert.cc:35-48; `window`: what `GetConsoleWindow` returns (0: no window). -/
def agentShutdown (window : Nat) : List EndAct :=
  if window ≠ 0 then [.postClose window, .sleep 30000, .trace, .exit 1] else [.trace, .exit 1]

/-- `agentAssertFail`, src/shared/WinptyAssert.cc:50-53. -/
def agentAssertFail (window : Nat) : List EndAct := .trace :: agentShutdown window

end Winpty.AgentHandles
