import Verif.Lemmas.OpenShape
import Verif.Props.AgentRpc
import Verif.Props.Startup

/-!
# C58, C59, C60, C61: opening and freeing a session

`winptyOpen c wantErr cfg env ⟨ios, []⟩` is a call of `winpty_open` with the configuration `cfg`;
`env` and `ios` are the answers of the system, all of them arbitrary (`ios` for the calls on control
pipes, which complete at once or later, fail, time out, or deliver any bytes).  The log in the final
world lists what was done.  `Verif/Spec/Open.lean` says how it is read.
-/
namespace Winpty.Props
open Winpty.Open Winpty.Spec.Open
open Winpty.Spec (message wire ValidField)
open Winpty.Spec.Client (Bytes received Good dataOf)
open Winpty.Startup (Config lit params agentCommandLine controlPipeName SetCall configNew applySets
  agentMain)

/-- The log at the end of a call, however it ended. -/
def endLog : Open.Result → List Open.Event
  | .returned _ _ w => w.log
  | .aborted w => w.log
  | .waiting w => w.log

/-- The error code of the error object, 0 without one. -/
def openError : Option Client.Error → Nat
  | none => 0
  | some e => e.code

/-! ## A concrete run -/

/-- Agents that start and connect: process 42, handles 12 (event), 13 (pipe), 14 (process). -/
def exampleAgent : AgentEnv where
  event := .ok 12
  descriptor := .ok true
  pipe := .ok 13
  unique := [49, 50]
  modulePath := lit "C:\\app\\winpty.dll"
  exeExists := true
  process := .ok (42, 14, 15)
  clientPid := .ok 42

/-- A system where all works: window station 1, the background desktop has the handles 2 and 3 and is
named `S\D`, the current one `W\C`. -/
def exampleEnv : Open.Env where
  desktopAgent := { exampleAgent with event := .ok 22, pipe := .ok 23, process := .ok (43, 24, 25), clientPid := .ok 43 }
  agent := exampleAgent
  background := { original := .ok 1, station := .ok 2, set := .ok (), desktop := .ok 3,
                  stationName := .ok [83], desktopName := .ok [68], restore := true }
  currentStation := .ok 1
  currentDesktop := .ok 4
  currentStationName := .ok [87]
  currentDesktopName := .ok [67]
  debugFlag := fun _ => false
  showConsole := false
  windows7 := true

/-- A 32-bit platform with enough memory. -/
def exampleOpenCfg : Client.Cfg := ⟨⟨2 ^ 32 - 1, fun _ => true⟩, false, 32⟩

/-- Connected at once; then the names `i` and `o` arrive, the second part after some waiting. -/
def exampleIos : List Client.Io :=
  [.now (.ok 0 []), .now (.ok 8 [30, 0, 0, 0, 0, 0, 0, 0]),
   .pending (.io (.ok 22 [2, 1, 0, 0, 0, 0, 0, 0, 0, 105, 0, 2, 1, 0, 0, 0, 0, 0, 0, 0, 111, 0]))]

/-- The session returned. -/
def sessionOf : Open.Result → Option Session
  | .returned s _ _ => s
  | _ => none

/-- The error code. -/
def codeOfOpen : Open.Result → Nat
  | .returned _ e _ => openError e
  | _ => 0

/-- It is returned, with these names. -/
example : sessionOf (winptyOpen exampleOpenCfg true {} exampleEnv ⟨exampleIos, []⟩) =
    some ⟨14, 13, 12, 30000, [], [105], [111], []⟩ := by decide +kernel

/-- On an older Windows, with a background desktop made in this process. -/
example : sessionOf (winptyOpen exampleOpenCfg true { flags := 8 } { exampleEnv with windows7 := false }
    ⟨exampleIos, []⟩) = some ⟨14, 13, 12, 30000, [87, 92, 67], [105], [111], []⟩ := by decide +kernel

/-- On an older Windows, with a background desktop made by another agent: that one sends the name
`D`. -/
def exampleIosDesktop : List Client.Io :=
  [.now (.ok 0 []), .now (.ok 8 [19, 0, 0, 0, 0, 0, 0, 0]),
   .now (.ok 11 [2, 1, 0, 0, 0, 0, 0, 0, 0, 68, 0])] ++ exampleIos

/-- The same result. -/
example : sessionOf (winptyOpen exampleOpenCfg true {} { exampleEnv with windows7 := false }
    ⟨exampleIosDesktop, []⟩) = some ⟨14, 13, 12, 30000, [87, 92, 67], [105], [111], []⟩ := by
  decide +kernel

/-! ## C58: only the agent that was started is talked to -/

/-- However the call ends: no byte was read from or written to a control pipe before the process at
its other end was found to be the process that had been started last (or the system had said that it
cannot tell, as before Vista). -/
theorem C58_only_to_agent (c : Client.Cfg) (we : Bool) (cfg : Config) (env : Open.Env) (ios : List Client.Io) :
    OnlyToAgent (endLog (winptyOpen c we cfg env ⟨ios, []⟩)) := by
  have h := openBody_inv c cfg env ios
  unfold winptyOpen
  cases hb : openBody c cfg env ⟨ios, []⟩ with
  | ok s w => rw [hb] at h; exact h.2
  | throw e w => rw [hb] at h; exact h.2
  | abort w => rw [hb] at h; exact h
  | wait w => rw [hb] at h; exact h

/-- A session that is returned is connected to the agent that was started last: its process handle is
the one that came with the process ID, and that ID is the one of the client of the pipe. -/
theorem C58_session_peer (c : Client.Cfg) (we : Bool) (cfg : Config) (env : Open.Env) (ios : List Client.Io)
    (s : Session) (err : Option Client.Error) (w : W)
    (h : winptyOpen c we cfg env ⟨ios, []⟩ = .returned (some s) err w) :
    ∃ before a pid ht, startedIn w.log = before ++ [(a, some pid)] ∧
      env.agent.process = .ok (pid, s.process, ht) ∧
      .pipeNamed s.pipe (controlPipeName env.agent.unique) ∈ w.log ∧
      (.clientPid s.pipe (.ok pid) ∈ w.log ∨ .clientPid s.pipe (.error none) ∈ w.log) := by
  unfold winptyOpen at h
  split at h <;> cases h
  rename_i hb
  obtain ⟨d, w1, s1, w2, h1, h2, h3⟩ := openBody_ok hb
  obtain ⟨ev, p, pid, hp, ht, es, k1, k2, k3, k4, k5, rfl, k7⟩ := session_shape h2
  obtain ⟨es2, e1, _⟩ := dispose_grows env.background.restore d w2
  obtain ⟨mid, es3, f1, f2, f3⟩ := finish_grows h3
  have hs : s.process = hp ∧ s.pipe = p := by
    simp only [objects, List.cons.injEq, Prod.mk.injEq] at f3
    exact ⟨f3.2.2.1.2, f3.2.1.2⟩
  refine ⟨startedIn w1.log, agentArgs env.agent (shouldSpecifyHideFlag env) (AgentDesktop.name d) (params cfg) 16,
    pid, ht, ?_, by rw [k3, hs.1], ?_, ?_⟩
  · rw [f1, startedIn_append, startedIn_append, dispose_started, f2, startedIn_io, k7]
    simp [startedIn_append, sessionLog, startedIn, startedIn_io]
  · rw [f1, e1, k7, hs.2]
    simp [sessionLog]
  · rw [f1, e1, k7, hs.2]
    rcases k5 with h | h
    · left; simp [sessionLog, h]
    · right; simp [sessionLog, h]

/-- Another process at the other end: no session, all is closed, and not a byte was read. -/
def exampleImpostor : Open.Result :=
  winptyOpen exampleOpenCfg true {} { exampleEnv with agent := { exampleAgent with clientPid := .ok 41 } }
    ⟨exampleIos, []⟩

example : sessionOf exampleImpostor = none ∧ codeOfOpen exampleImpostor = 5 ∧
    openAfter [] (endLog exampleImpostor) = some [] ∧
    ((endLog exampleImpostor).all fun e => match e with | .io _ (.read _) => false | _ => true) = true := by
  decide +kernel

/-! ## C59: nothing is leaked or closed twice -/

/-- `winpty_open` failed: everything it had obtained is closed again, and nothing was closed that was
not open. -/
theorem C59_failure_leaves_nothing (c : Client.Cfg) (we : Bool) (cfg : Config) (env : Open.Env)
    (ios : List Client.Io) (err : Option Client.Error) (w : W)
    (h : winptyOpen c we cfg env ⟨ios, []⟩ = .returned none err w) : openAfter [] w.log = some [] := by
  have hi := openBody_inv c cfg env ios
  unfold winptyOpen at h
  split at h <;> cases h
  rename_i hb
  rw [hb] at hi
  obtain ⟨l, h1, h2⟩ := hi.1
  rw [h1, List.Perm.eq_nil h2]

/-- `winpty_open` succeeded: exactly the session's event, control pipe and process handle are open. -/
theorem C59_success_keeps_three (c : Client.Cfg) (we : Bool) (cfg : Config) (env : Open.Env)
    (ios : List Client.Io) (s : Session) (err : Option Client.Error) (w : W)
    (h : winptyOpen c we cfg env ⟨ios, []⟩ = .returned (some s) err w) :
    ∃ objs, openAfter [] w.log = some objs ∧
      objs.Perm [(.event, s.event), (.pipe, s.pipe), (.process, s.process)] := by
  have hi := openBody_inv c cfg env ios
  unfold winptyOpen at h
  split at h <;> cases h
  rename_i hb
  rw [hb] at hi
  exact hi.1

/-- After `winpty_free` nothing is open. -/
theorem C59_free_closes_all (c : Client.Cfg) (we : Bool) (cfg : Config) (env : Open.Env)
    (ios : List Client.Io) (s : Session) (err : Option Client.Error) (w : W)
    (h : winptyOpen c we cfg env ⟨ios, []⟩ = .returned (some s) err w) :
    openAfter [] (winptyFree s w).log = some [] := by
  have hi := openBody_inv c cfg env ios
  unfold winptyOpen at h
  split at h <;> cases h
  rename_i hb
  rw [hb] at hi
  have hd : Inv [] (destroy s w) := destroy_inv (objs := []) (by rw [List.append_nil]; exact hi)
  obtain ⟨l, h1, h2⟩ := hd.1
  unfold winptyFree
  rw [h1, List.Perm.eq_nil h2]

/-- With the desktop made by another agent, eight objects are opened and all but three closed. -/
def exampleTwoAgents : Open.Result :=
  winptyOpen exampleOpenCfg true {} { exampleEnv with windows7 := false } ⟨exampleIosDesktop, []⟩

example : openAfter [] (endLog exampleTwoAgents) = some [(.process, 14), (.pipe, 13), (.event, 12)] ∧
    ((endLog exampleTwoAgents).filter fun e => match e with | .opened _ _ => true | _ => false).length = 8 := by
  decide +kernel

/-! ## C60: the background desktop -/

/-- The caller's window station is in place again when `winpty_open` returns, whatever the result, and
whenever the name of the current desktop was determined it was in place too.  `h0` is the window
station; it is assumed that the system reports it correctly and lets the process go back to it. -/
theorem C60_station_restored (c : Client.Cfg) (we : Bool) (cfg : Config) (env : Open.Env)
    (ios : List Client.Io) (h0 : Int) (hr : env.background.restore = true)
    (ho : ∀ x, env.background.original = .ok x → x = h0)
    (r : Option Session) (err : Option Client.Error) (w : W)
    (h : winptyOpen c we cfg env ⟨ios, []⟩ = .returned r err w) :
    stationAfter h0 w.log = h0 ∧
      ∀ pre n post, w.log = pre ++ .currentDesktop n :: post → stationAfter h0 pre = h0 := by
  have hstart : At h0 h0 ⟨ios, []⟩ := ⟨rfl, by intro pre n post h; simp at h⟩
  have hsat : Sat (openBody c cfg env ⟨ios, []⟩) (fun _ w => At h0 h0 w) (At h0 h0) (fun _ => True) := by
    unfold openBody
    refine Sat.bind (setup_at hstart hr ho) fun d w1 hd => ?_
    refine Sat.bind (P := fun _ w' => Ready h0 d w') (Sat.onThrow (Q := Ready h0 d) ?_ fun w2 h2 => ?_)
      fun s w2 h2 => ?_
    · refine (createAgentSession_log _ _ _ _ _ _ _).mono (fun s w' hs => ?_) (fun w' hs => ?_) (fun _ _ => trivial)
      · obtain ⟨pid, hg, _⟩ := hs
        exact ready_grown hd hg
      · obtain ⟨l, hg, _⟩ := hs
        exact ready_grown hd hg
    · rw [hr]; exact ready_dispose h2
    · rw [hr]
      have h3 := ready_dispose h2
      generalize AgentDesktop.dispose true d w2 = w3 at h3
      refine Sat.onThrow (Q := At h0 h0) ?_ fun w4 h4 => at_add_calm h4 _ (calm_of (by simp))
      unfold finishOpen
      refine Sat.bind (P := fun _ w' => At h0 h0 w') ?_ fun n w4 h4 => ?_
      · split
        · exact h3
        · unfold getCurrentDesktopName desktopName
          have hk : ∀ {α : Type} (w' : W) (x : Except Nat α) (m : String), At h0 h0 w' →
              Sat (ask w' x m) (fun _ w' => At h0 h0 w') (At h0 h0) (fun _ => True) := by
            intro α w' x m hw
            exact (ask_sat (P := At h0 h0) hw).mono (fun _ _ h => h.2) (fun _ h => h) (fun _ _ => trivial)
          refine Sat.bind (hk _ _ _ h3) fun _ w h => Sat.bind (hk _ _ _ h) fun _ w h => ?_
          refine Sat.bind (P := fun _ w' => At h0 h0 w')
            (Sat.bind (hk _ _ _ h) fun _ w h => Sat.bind (hk _ _ _ h) fun _ w h => h) fun n w h => ?_
          exact at_ask h n
      · unfold readNames
        have hk : ∀ {α : Type} (w' : W) (x : Buffer.Res α), At h0 h0 w' →
            Sat (decoded c w' x) (fun _ w' => At h0 h0 w') (At h0 h0) (fun _ => True) := by
          intro α w' x hw
          exact (decoded_sat (P := At h0 h0) hw).mono (fun _ _ h => h.2) (fun _ h => h) (fun _ _ => trivial)
        refine Sat.bind (P := fun _ w' => At h0 h0 w') ?_ fun pk w5 h5 => ?_
        · exact (onPipe_sat fun ios es => at_grown h4 ((Grown.refl w4).io _ ios es)).mono
            (fun _ _ h => h) (fun _ h => h) (fun _ _ => trivial)
        refine Sat.bind (hk _ _ h5) fun _ w h => Sat.bind (hk _ _ h) fun _ w h => ?_
        refine Sat.bind (P := fun _ w' => At h0 h0 w') ?_ fun _ w h => Sat.bind (hk _ _ h) fun _ w h => h
        split
        · exact hk _ _ h
        · exact h
  unfold winptyOpen at h
  split at h <;> cases h <;> rename_i hb <;> rw [hb] at hsat <;> exact hsat

/-- The agent is started on the background desktop if there is one, on the caller's otherwise; and the
child processes of the session will be started on the desktop that was current when `winpty_open`
returned (not on the background one), or on the agent's own one if that is the caller's. -/
theorem C60_spawn_desktop (c : Client.Cfg) (we : Bool) (cfg : Config) (env : Open.Env)
    (ios : List Client.Io) (hb : Bytes ios) (h64 : c.buffer.sizeMax < 2 ^ 64)
    (s : Session) (err : Option Client.Error) (w : W)
    (h : winptyOpen c we cfg env ⟨ios, []⟩ = .returned (some s) err w) :
    ∃ before a pid, startedIn w.log = before ++ [(a, some pid)] ∧
      (a.desktop = none → s.spawnDesktopName = []) ∧
      (∀ d, a.desktop = some d → s.spawnDesktopName ≠ [] ∧ .currentDesktop s.spawnDesktopName ∈ w.log ∧
        -- the desktop and whatever keeps it alive stay open until the agent has connected
        ∃ pre ans post, w.log = pre ++ .clientPid s.pipe ans :: post ∧
          ∀ k x, k ≠ .thread → .closed k x ∉ pre) := by
  unfold winptyOpen at h
  split at h <;> cases h
  rename_i hbody
  obtain ⟨d, w1, s1, w2, h1, h2, h3⟩ := openBody_ok hbody
  have hb1 : Bytes w1.ios := setup_bytes (w := ⟨ios, []⟩) hb h64 h1
  have hb2 := session_bytes hb1 h2
  obtain ⟨es2, e1, e2⟩ := dispose_grows env.background.restore d w2
  obtain ⟨mid, es3, f1, _, _, f3, f4, _, f5, f6⟩ := finish_ok (by rw [e2]; exact hb2) h64 h3
  obtain ⟨ev, p, pid, hp, ht, es, k1, k2, k3, k4, k5, rfl, k7⟩ := session_shape h2
  have hmid : startedIn mid = [] := by
    by_cases hn : AgentDesktop.name d = []
    · rw [(f5 hn).1]; rfl
    · rw [(f6 hn).1]; rfl
  refine ⟨startedIn w1.log, agentArgs env.agent (shouldSpecifyHideFlag env) (AgentDesktop.name d) (params cfg) 16,
    pid, ?_, ?_, ?_⟩
  · rw [f1, startedIn_append, startedIn_append, dispose_started, hmid, startedIn_io, k7]
    simp [startedIn_append, sessionLog, startedIn, startedIn_io]
  · intro hd
    by_cases hn : AgentDesktop.name d = []
    · exact (f5 hn).2
    · simp [agentArgs, hn] at hd
  · intro x hd
    have hn : AgentDesktop.name d ≠ [] := by
      intro hn
      simp [agentArgs, hn] at hd
    refine ⟨(f6 hn).2, by rw [f1, (f6 hn).1]; simp, ?_⟩
    have hk1 : Keeps w1.log := setup_keeps (w := ⟨ios, []⟩) keeps_nil h1 hn
    obtain ⟨pre, q1, q2⟩ := session_keeps hk1 h2
    refine ⟨pre, env.agent.clientPid, es2 ++ mid ++ es3.map (.io p), ?_, q2⟩
    rw [f1, e1, q1, f4]
    simp

/-- Nothing asks for a background desktop: no debugging flag is set, and the system is Windows 7 or
later or the console is to be shown. -/
def NoDesktop (env : Open.Env) : Prop :=
  (∀ f, env.debugFlag f = false) ∧ (env.windows7 = true ∨ env.showConsole = true)

theorem noDesktop {env : Open.Env} (h : NoDesktop env) (b : Bool) :
    (shouldCreateBackgroundDesktop env b).1 = false := by
  unfold shouldCreateBackgroundDesktop
  simp only [h.1]
  rcases h.2 with h2 | h2 <;> simp [h2]

theorem openBody_noDesktop {c : Client.Cfg} {cfg : Config} {env : Open.Env} (h : NoDesktop env) (w : W) :
    openBody c cfg env w =
      (createAgentSession cfg env.agent (!env.showConsole) w [] (params cfg) 16).bind fun s w =>
        (readNames c (cfg.flags &&& 1 ≠ 0) w s).onThrow (destroy s) := by
  have hh : shouldSpecifyHideFlag env = !env.showConsole := by
    unfold shouldSpecifyHideFlag; simp [h.1]
  unfold openBody setupBackgroundDesktop
  rw [if_neg (by simp [noDesktop h])]
  simp only [R.bind, AgentDesktop.name, hh]
  cases hc : createAgentSession cfg env.agent (!env.showConsole) w [] (params cfg) 16 with
  | ok s w1 =>
    simp only [R.onThrow, AgentDesktop.dispose, finishOpen, if_true, R.bind]
    have := session_fields hc
    have hs : { s with spawnDesktopName := [] } = s := by rw [← this.1]
    rw [hs]
  | throw e w1 => rfl
  | abort w1 => rfl
  | wait w1 => rfl

/-- By default there is no background desktop: at most one process is started, on the caller's desktop
and with its console hidden unless it is to be shown; and the window station is never touched. -/
theorem C60_default (c : Client.Cfg) (we : Bool) (cfg : Config) (env : Open.Env) (ios : List Client.Io)
    (hn : NoDesktop env) :
    (startedIn (endLog (winptyOpen c we cfg env ⟨ios, []⟩))).length ≤ 1 ∧
    (∀ x ∈ startedIn (endLog (winptyOpen c we cfg env ⟨ios, []⟩)),
      x.1.desktop = none ∧ x.1.hide = !env.showConsole) ∧
    (∀ st ok, .setStation st ok ∉ endLog (winptyOpen c we cfg env ⟨ios, []⟩)) := by
  have hsat : Sat (openBody c cfg env ⟨ios, []⟩)
      (fun _ w => ∃ l, Grown ⟨ios, []⟩ l w ∧ l.length ≤ 1 ∧ ∀ x ∈ l,
        x.1 = agentArgs env.agent (!env.showConsole) [] (params cfg) 16)
      (fun w => ∃ l, Grown ⟨ios, []⟩ l w ∧ l.length ≤ 1 ∧ ∀ x ∈ l,
        x.1 = agentArgs env.agent (!env.showConsole) [] (params cfg) 16)
      (fun w => ∃ l, Grown ⟨ios, []⟩ l w ∧ l.length ≤ 1 ∧ ∀ x ∈ l,
        x.1 = agentArgs env.agent (!env.showConsole) [] (params cfg) 16) := by
    rw [openBody_noDesktop hn]
    refine Sat.bind (P := fun _ w => ∃ l, Grown ⟨ios, []⟩ l w ∧ l.length ≤ 1 ∧ ∀ x ∈ l,
        x.1 = agentArgs env.agent (!env.showConsole) [] (params cfg) 16) ?_ fun s w h => ?_
    · refine (createAgentSession_log _ _ _ _ _ _ _).mono (fun s w h => ?_) (fun w h => h) (fun w h => h)
      obtain ⟨pid, hg, _⟩ := h
      exact ⟨_, hg, by simp, by simp⟩
    · obtain ⟨l, hg, h1, h2⟩ := h
      have hk : ∀ w' : W, Grown ⟨ios, []⟩ l w' → ∃ l, Grown ⟨ios, []⟩ l w' ∧ l.length ≤ 1 ∧ ∀ x ∈ l,
          x.1 = agentArgs env.agent (!env.showConsole) [] (params cfg) 16 := fun w' h => ⟨l, h, h1, h2⟩
      refine Sat.mono (P := fun _ => Grown ⟨ios, []⟩ l) (Q := Grown ⟨ios, []⟩ l) (O := Grown ⟨ios, []⟩ l)
        (Sat.onThrow (Q := Grown ⟨ios, []⟩ l) ?_ fun w' h => h.quiet _ (calm_of (by simp)) rfl)
        (fun _ w' h => hk w' h) hk hk
      have hd : ∀ {α : Type} (w' : W) (x : Buffer.Res α), Grown ⟨ios, []⟩ l w' →
          Sat (decoded c w' x) (fun _ => Grown ⟨ios, []⟩ l) (Grown ⟨ios, []⟩ l) (Grown ⟨ios, []⟩ l) := by
        intro α w' x hw
        exact (decoded_sat (P := Grown ⟨ios, []⟩ l) hw).mono (fun _ _ h => h.2) (fun _ h => h) (fun _ h => h)
      unfold readNames
      refine Sat.bind (P := fun _ => Grown ⟨ios, []⟩ l) (onPipe_sat fun ios es => hg.io _ ios es) fun pk w h => ?_
      refine Sat.bind (hd _ _ h) fun _ w h => Sat.bind (hd _ _ h) fun _ w h => ?_
      refine Sat.bind (P := fun _ => Grown ⟨ios, []⟩ l) ?_ fun _ w h => Sat.bind (hd _ _ h) fun _ w h => h
      split
      · exact hd _ _ h
      · exact h
  have key : ∀ w : W, (∃ l, Grown ⟨ios, []⟩ l w ∧ l.length ≤ 1 ∧ ∀ x ∈ l,
        x.1 = agentArgs env.agent (!env.showConsole) [] (params cfg) 16) →
      (startedIn w.log).length ≤ 1 ∧ (∀ x ∈ startedIn w.log, x.1.desktop = none ∧ x.1.hide = !env.showConsole) ∧
      (∀ st ok, .setStation st ok ∉ w.log) := by
    rintro w ⟨l, ⟨es, g1, g2, g3⟩, h1, h2⟩
    simp only [List.nil_append] at g1
    rw [g1, g3]
    refine ⟨h1, fun x hx => by rw [h2 x hx]; exact ⟨rfl, rfl⟩, fun st ok hm => ?_⟩
    exact (g2 _ hm).1 st ok rfl
  unfold winptyOpen
  cases hb : openBody c cfg env ⟨ios, []⟩ <;> rw [hb] at hsat <;> exact key _ hsat

/-- Non-vacuity: the default case of the example; and with a background desktop in this process, the
agent is started on `S\D`, the window station is 2 meanwhile and 1 in the end. -/
example : NoDesktop exampleEnv := ⟨fun _ => rfl, .inl rfl⟩

/-- A background desktop in this process. -/
def exampleDirect : Open.Result :=
  winptyOpen exampleOpenCfg true { flags := 8 } { exampleEnv with windows7 := false } ⟨exampleIos, []⟩

example : (startedIn (endLog exampleDirect)).map (fun x => x.1.desktop) = [some [83, 92, 68, 0]] ∧
    stationAfter 1 ((endLog exampleDirect).take 8) = 2 ∧ stationAfter 1 (endLog exampleDirect) = 1 ∧
    (sessionOf exampleDirect).map Session.spawnDesktopName = some [87, 92, 67] := by
  decide +kernel

/-! ## C61: what `winpty_open` returns -/

/-- Either a session and no error, or `NULL` and one of the documented errors (out of memory, lost
connection, agent missing, unspecified, agent died, timeout, agent not created). -/
theorem C61_result (c : Client.Cfg) (cfg : Config) (env : Open.Env) (ios : List Client.Io)
    (hs : env.desktopAgent.Sane ∧ env.agent.Sane) (r : Option Session) (err : Option Client.Error) (w : W)
    (h : winptyOpen c true cfg env ⟨ios, []⟩ = .returned r err w) :
    (r = none ∧ openError err ∈ [1, 3, 4, 5, 6, 7, 8]) ∨ (r ≠ none ∧ err = none) := by
  have hc := coded_open c cfg env ⟨ios, []⟩ hs.1 hs.2
  unfold winptyOpen at h
  split at h <;> cases h
  · exact .inr ⟨by simp, rfl⟩
  · rename_i hb
    exact .inl ⟨rfl, hc _ _ hb⟩

/-- The names and the timeout of a session: the last thing `winpty_open` did was to receive one packet
from the agent, and the names are exactly the strings in it: two of them, or three if a separate
CONERR was asked for. -/
theorem C61_names (c : Client.Cfg) (we : Bool) (cfg : Config) (env : Open.Env) (ios : List Client.Io)
    (hb : Bytes ios) (h64 : c.buffer.sizeMax < 2 ^ 64) (s : Session) (err : Option Client.Error) (w : W)
    (h : winptyOpen c we cfg env ⟨ios, []⟩ = .returned (some s) err w) :
    ∃ (conin conout conerr : List Nat) (pre : List Open.Event) (es : List Client.Event),
      w.log = pre ++ es.map (.io s.pipe) ∧
      received es = message ([.wstring conin, .wstring conout] ++
        if cfg.flags &&& 1 ≠ 0 then [.wstring conerr] else []) ∧
      coninName s = some conin ∧ conoutName s = some conout ∧
      conerrName s = (if cfg.flags &&& 1 ≠ 0 ∧ conerr ≠ [] then some conerr else none) ∧
      s.timeoutMs = cfg.timeoutMs := by
  unfold winptyOpen at h
  split at h <;> cases h
  rename_i hbody
  obtain ⟨d, w1, s1, w2, h1, h2, h3⟩ := openBody_ok hbody
  have hb1 : Bytes w1.ios := setup_bytes (w := ⟨ios, []⟩) hb h64 h1
  have hb2 := session_bytes hb1 h2
  obtain ⟨es2, e1, e2⟩ := dispose_grows env.background.restore d w2
  obtain ⟨mid, es, f1, f2, f3, _, f4, f5, _⟩ := finish_ok (by rw [e2]; exact hb2) h64 h3
  refine ⟨s.conin, s.conout, s.conerr, (AgentDesktop.dispose env.background.restore d w2).log ++ mid, es,
    by rw [f1, f4], f2, rfl, rfl, ?_, ?_⟩
  · by_cases hf : cfg.flags &&& 1 = 0
    · simp [hf, conerrName, f3 hf]
    · have hf1 : ¬ cfg.flags % 2 = 0 := by rw [Nat.and_one_is_mod] at hf; exact hf
      by_cases he : s.conerr = [] <;> simp [hf, hf1, conerrName, he]
  · rw [f5]; exact (session_fields h2).2

/-- The agent gets the configuration: the command line with which the process of the session was
started makes the agent run on the control pipe of the session with exactly the flags, the mouse mode
and the size of the configuration.  (The command line is what `CreateProcessW` gets without the
terminating NUL; `dbl`, `utf8` as in `C39_parameters_survive`.) -/
theorem C61_agent_parameters (c : Client.Cfg) (we : Bool) (cfg : Config) (env : Open.Env)
    (ios : List Client.Io) (s : Session) (err : Option Client.Error) (w : W)
    (dbl : Spec.Dbl) (utf8 : List Nat → List Nat) (hutf8 : ∀ s, (∀ c ∈ s, c < 128) → utf8 s = s)
    (hexe : 34 ∉ env.agent.modulePath) (pid : Nat) (hp : pid < 2 ^ 32) (k t : Nat) (rnd : List Nat)
    (hr : ∀ b ∈ rnd, b < 256) (hu : env.agent.unique = Startup.uniqueName pid (Startup.counterAt k) t rnd)
    (flags : Nat) (calls : List SetCall)
    (hint : ∀ c r, SetCall.size c r ∈ calls → c < 2 ^ 31 ∧ r < 2 ^ 31)
    (hcfg : (configNew flags).bind (applySets · calls) = some cfg)
    (h : winptyOpen c we cfg env ⟨ios, []⟩ = .returned (some s) err w) :
    ∃ before a pid pipe, startedIn w.log = before ++ [(a, some pid)] ∧ .pipeNamed s.pipe pipe ∈ w.log ∧
      agentMain utf8 Spec.strtolValue (Spec.parseCommandLine dbl (a.cmdline.dropLast)) =
        .run pipe cfg.flags cfg.mouseMode cfg.cols cfg.rows := by
  unfold winptyOpen at h
  split at h <;> cases h
  rename_i hb
  obtain ⟨d, w1, s1, w2, h1, h2, h3⟩ := openBody_ok hb
  obtain ⟨ev, p, pid, hp, ht, es, k1, k2, k3, k4, k5, rfl, k7⟩ := session_shape h2
  obtain ⟨es2, e1, _⟩ := dispose_grows env.background.restore d w2
  obtain ⟨mid, es3, f1, f2, f3⟩ := finish_grows h3
  have hs : s.process = hp ∧ s.pipe = p := by
    simp only [objects, List.cons.injEq, Prod.mk.injEq] at f3
    exact ⟨f3.2.2.1.2, f3.2.1.2⟩
  refine ⟨startedIn w1.log, agentArgs env.agent (shouldSpecifyHideFlag env) (AgentDesktop.name d) (params cfg) 16,
    pid, controlPipeName env.agent.unique, ?_, ?_, ?_⟩
  · rw [f1, startedIn_append, startedIn_append, dispose_started, f2, startedIn_io, k7]
    simp [startedIn_append, sessionLog, startedIn, startedIn_io]
  · rw [f1, e1, k7, hs.2]
    simp [sessionLog]
  · have hx : 34 ∉ dirname env.agent.modulePath ++ lit "\\winpty-agent.exe" := by
      intro hm
      rcases List.mem_append.1 hm with hm | hm
      · unfold dirname at hm
        rw [List.mem_reverse] at hm
        exact hexe (List.mem_reverse.1 ((List.dropWhile_sublist _).mem (List.mem_of_mem_drop hm)))
      · revert hm; decide
    simp only [agentArgs, List.dropLast_concat, hu]
    exact C39_with_unique_pipe_name dbl utf8 hutf8 _ hx _ (by assumption) k t rnd hr flags calls hint cfg hcfg

/-- The system lets the agent's set-up succeed: it gives the event, the control pipe, the process and
its handles, and the client of the pipe is that process. -/
structure Starts (env : AgentEnv) (ev pipe : Int) (pid : Nat) (proc thr : Int) : Prop where
  event : env.event = .ok ev
  descriptor : env.descriptor = .ok true
  pipe : env.pipe = .ok pipe
  exe : env.exeExists = true
  process : env.process = .ok (pid, proc, thr)
  client : env.clientPid = .ok pid ∨ env.clientPid = .error none

/-- The agent has connected: `ConnectNamedPipe` succeeds, at once or after some waiting, or reports
`ERROR_PIPE_CONNECTED`. -/
def Connects (i : Client.Io) : Prop :=
  (∃ n d, i = .now (.ok n d) ∨ i = .pending (.io (.ok n d))) ∨ i = .now (.fail 535)

/-- By default, when the agent starts, connects and sends its names (in chunks of any sizes),
`winpty_open` returns a session with exactly these names. -/
theorem C61_opens (c : Client.Cfg) (we : Bool) (cfg : Config) (env : Open.Env) (hn : NoDesktop env)
    (ev pipe : Int) (pid : Nat) (proc thr : Int) (hstart : Starts env.agent ev pipe pid proc thr)
    (conin conout conerr : List Nat) (conn : Client.Io) (header body rest : List Client.Io)
    (hconn : Connects conn) (hgood : ∀ i ∈ header ++ body, Good i ∧ dataOf i ≠ [])
    (h8 : (header.flatMap dataOf).length = 8)
    (hm : (header ++ body).flatMap dataOf = message ([.wstring conin, .wstring conout] ++
        if cfg.flags &&& 1 ≠ 0 then [.wstring conerr] else []))
    (hv : ∀ n ∈ [conin, conout, conerr], ValidField c.buffer.sizeMax (.wstring n))
    (hmax : ((header ++ body).flatMap dataOf).length ≤ c.buffer.sizeMax) (h64 : c.buffer.sizeMax < 2 ^ 64)
    (ha : ∀ n, c.buffer.canAlloc n = true) :
    ∃ w, winptyOpen c we cfg env ⟨conn :: (header ++ body ++ rest), []⟩ =
      .returned (some ⟨proc, pipe, ev, cfg.timeoutMs, [], conin, conout,
        if cfg.flags &&& 1 ≠ 0 then conerr else []⟩) none w ∧ w.ios = rest := by
  obtain ⟨w1, k1, k2⟩ := session_opens (cfg := cfg) (!env.showConsole) ⟨conn :: (header ++ body ++ rest), []⟩ []
    (params cfg) 16 hstart.event hstart.descriptor hstart.pipe hstart.exe hstart.process hstart.client rfl hconn
  unfold winptyOpen
  rw [openBody_noDesktop hn, k1]
  simp only [R.bind]
  have hread : ∀ fs : List Buffer.Field, (header ++ body).flatMap dataOf = message fs →
      ∃ w2, onPipe w1 pipe (Client.readPacket c) = .ok (wire fs) w2 ∧ w2.ios = rest := by
    intro fs hfs
    obtain ⟨lg, hr⟩ := Client.readPacket_feed c header body rest ⟨w1.ios, [], []⟩ fs hgood k2 h8 hfs
      (by rw [← hfs]; exact hmax) h64 (ha _)
    unfold onPipe
    rw [hr]
    exact ⟨_, rfl, rfl⟩
  have hvi := hv conin (by simp)
  have hvo := hv conout (by simp)
  have hve := hv conerr (by simp)
  by_cases hf : cfg.flags &&& 1 = 0
  · simp only [hf, ne_eq, not_true_eq_false, if_false, List.append_nil] at hm ⊢
    obtain ⟨w2, q1, q2⟩ := hread _ hm
    have hg := Buffer.getFields_wire c.buffer (wire [.wstring conin, .wstring conout]) 0
      [.wstring conin, .wstring conout] (by simp; exact ⟨hvi, hvo⟩) (fun _ _ _ => ha _) (Client.whole_at _)
    simp only [Buffer.getFields, Buffer.getField, List.map_cons, List.map_nil, Buffer.Field.ty] at hg
    obtain ⟨a, o1, g1, g2⟩ := Buffer.bind_ok hg
    obtain ⟨a', o1', g1', g1''⟩ := Buffer.bind_ok g1
    cases g1''
    obtain ⟨b, o2, g3, g4⟩ := Buffer.bind_ok g2
    cases g4
    obtain ⟨b', o2', g5, g6⟩ := Buffer.bind_ok g3
    obtain ⟨b'', o2'', g7, g8⟩ := Buffer.bind_ok g5
    cases g8
    cases g6
    refine ⟨w2, ?_, q2⟩
    simp only [readNames, q1, R.bind, decoded, g1', g7, Bool.false_eq_true, if_false, Buffer.assertEof]
    simp [R.onThrow]
  · simp only [hf, ne_eq, not_false_eq_true, if_true, List.cons_append, List.nil_append] at hm ⊢
    obtain ⟨w2, q1, q2⟩ := hread _ hm
    have hg := Buffer.getFields_wire c.buffer (wire [.wstring conin, .wstring conout, .wstring conerr]) 0
      [.wstring conin, .wstring conout, .wstring conerr] (by simp; exact ⟨hvi, hvo, hve⟩) (fun _ _ _ => ha _)
      (Client.whole_at _)
    simp only [Buffer.getFields, Buffer.getField, List.map_cons, List.map_nil, Buffer.Field.ty] at hg
    obtain ⟨a, o1, g1, g2⟩ := Buffer.bind_ok hg
    obtain ⟨a', o1', g1', g1''⟩ := Buffer.bind_ok g1
    cases g1''
    obtain ⟨b, o2, g3, g4⟩ := Buffer.bind_ok g2
    cases g4
    obtain ⟨b', o2', g5, g6⟩ := Buffer.bind_ok g3
    obtain ⟨b'', o2'', g7, g8⟩ := Buffer.bind_ok g5
    cases g8
    obtain ⟨d, o3, g9, g10⟩ := Buffer.bind_ok g6
    cases g10
    obtain ⟨d', o3', g11, g12⟩ := Buffer.bind_ok g9
    obtain ⟨d'', o3'', g13, g14⟩ := Buffer.bind_ok g11
    cases g14
    cases g12
    refine ⟨w2, ?_, q2⟩
    simp only [readNames, q1, R.bind, decoded, g1', g7, g13, if_true, Buffer.assertEof]
    simp [R.onThrow]

/-- The names the library waits for are those the agent sends: the first thing a starting agent writes
to its control pipe is the packet with the names of its pipes. -/
theorem C61_agent_sends_names (cfg : Agent.Cfg) (names : List (List Nat)) (connected : Bool × Bool × Bool)
    (cols rows : Int) (out err : List Agent.TermCall) (s : Agent.State)
    (hv : ∀ n ∈ names, ValidField cfg.buffer.sizeMax (.wstring n))
    (h : Agent.start cfg names connected cols rows out err = some s) :
    Spec.Agent.controlBytes s.log = message (names.map .wstring) := by
  unfold Agent.start at h
  split at h
  case isFalse => cases h
  simp only [Option.bind_eq_some_iff] at h
  obtain ⟨s1, g1, s2, g2, g3⟩ := h
  rw [Agent.writePacket_eq _ cfg.buffer.sizeMax _ (by
    intro f hf
    obtain ⟨n, hn, rfl⟩ := List.mem_map.1 hf
    exact hv n hn) rfl] at g1
  cases g1
  obtain ⟨e2, f2, f2', _⟩ := (Agent.writes_primary (.inr (.inl rfl)) g2).1.ex
  obtain ⟨e3, f3, f3', _⟩ := (Agent.writes_error g3).1.ex
  have hnone : ∀ es : List Agent.Entry, (∀ e ∈ es, Spec.Agent.IsOutput .resize e) → Spec.Agent.controlBytes es = [] := by
    intro es hes
    induction es with
    | nil => rfl
    | cons e es ih =>
      have h1 := hes e (by simp)
      have h2 := ih fun x hx => hes x (by simp [hx])
      rcases h1 with ⟨b, rfl⟩ | ⟨b, rfl⟩ <;> exact h2
  rw [f3, f2]
  simp only [Agent.controlBytes_append, hnone _ f2', hnone _ f3', List.append_nil]
  simp [Spec.Agent.controlBytes]

/-- Why there is no session, by default: the agent's program does not exist (nothing is started), it
cannot be started, it dies or does not connect in time. -/
theorem C61_failures (c : Client.Cfg) (cfg : Config) (env : Open.Env) (hn : NoDesktop env)
    (ev pipe : Int) (pid : Nat) (proc thr : Int) (ios : List Client.Io)
    (h1 : env.agent.event = .ok ev) (h2 : env.agent.descriptor = .ok true) (h3 : env.agent.pipe = .ok pipe) :
    (env.agent.exeExists = false → ∃ m w, winptyOpen c true cfg env ⟨ios, []⟩ =
      .returned none (some ⟨4, m⟩) w ∧ startedIn w.log = []) ∧
    (∀ code, env.agent.exeExists = true → env.agent.process = .error code →
      ∃ m w, winptyOpen c true cfg env ⟨ios, []⟩ = .returned none (some ⟨8, m⟩) w) ∧
    (env.agent.exeExists = true → env.agent.process = .ok (pid, proc, thr) →
      (∀ rest, ios = .pending .agentDied :: rest → ∃ m w, winptyOpen c true cfg env ⟨ios, []⟩ =
        .returned none (some ⟨6, m⟩) w) ∧
      (∀ rest, ios = .pending .timeout :: rest → ∃ m w, winptyOpen c true cfg env ⟨ios, []⟩ =
        .returned none (some ⟨7, m⟩) w)) := by
  unfold winptyOpen
  rw [openBody_noDesktop hn]
  unfold createAgentSession createEvent createControlPipe startAgentProcess findAgentProgram
  rw [h1, h2, h3]
  simp only [ask, R.bind, R.onThrow]
  refine ⟨?_, ?_, ?_⟩
  · intro he
    simp only [he, Bool.false_eq_true, if_false]
    exact ⟨_, _, rfl, rfl⟩
  · intro code he hp
    simp only [he, hp, if_true]
    exact ⟨_, _, rfl⟩
  · intro he hp
    simp only [he, hp, if_true]
    constructor
    · rintro rest rfl
      exact ⟨_, _, rfl⟩
    · rintro rest rfl
      exact ⟨_, _, rfl⟩

/-- Non-vacuity of the hypotheses of C61: the example agent starts and is sane, its first answer
connects, and the names arrive in two chunks. -/
example : Starts exampleEnv.agent 12 13 42 14 15 := ⟨rfl, rfl, rfl, rfl, rfl, .inl rfl⟩

example : exampleEnv.agent.Sane ∧ exampleEnv.desktopAgent.Sane :=
  ⟨(fun e h => by cases h), (fun e h => by cases h)⟩

example : Connects (exampleIos.head (by decide)) := .inl ⟨0, [], .inl rfl⟩

example : ((exampleIos.drop 1).flatMap dataOf) = message [.wstring [105], .wstring [111]] := by decide +kernel

/-- The four kinds of failure. -/
example :
    codeOfOpen (winptyOpen exampleOpenCfg true {}
      { exampleEnv with agent := { exampleAgent with exeExists := false } } ⟨exampleIos, []⟩) = 4 ∧
    codeOfOpen (winptyOpen exampleOpenCfg true {}
      { exampleEnv with agent := { exampleAgent with process := .error 5 } } ⟨exampleIos, []⟩) = 8 ∧
    codeOfOpen (winptyOpen exampleOpenCfg true {} exampleEnv ⟨[.pending .agentDied], []⟩) = 6 ∧
    codeOfOpen (winptyOpen exampleOpenCfg true {} exampleEnv ⟨[.pending .timeout], []⟩) = 7 := by
  decide +kernel

end Winpty.Props
