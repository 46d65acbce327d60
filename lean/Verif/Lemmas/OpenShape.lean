import Verif.Lemmas.OpenNames

/-! Lemmas about `winpty_open`: the stages of a call that succeeds, and what is closed before the agent
is connected. -/
namespace Winpty.Open

open Winpty.Spec.Open
open Winpty.Spec (message wire)
open Winpty.Spec.Client (Bytes received)
open Winpty.Startup (Config lit params controlPipeName)

theorem openBody_ok {c : Client.Cfg} {cfg : Config} {env : Env} {w w' : W} {s : Session}
    (h : openBody c cfg env w = .ok s w') :
    ∃ d w1 s1 w2, setupBackgroundDesktop c cfg env w = .ok d w1 ∧
      createAgentSession cfg env.agent (shouldSpecifyHideFlag env) w1 (AgentDesktop.name d) (params cfg) 16 =
        .ok s1 w2 ∧
      finishOpen c cfg env (AgentDesktop.dispose env.background.restore d w2) (AgentDesktop.name d) s1 =
        .ok s w' := by
  unfold openBody at h
  obtain ⟨d, w1, h1, g1⟩ := R.bind_eq_ok h
  obtain ⟨s1, w2, h2, g2⟩ := R.bind_eq_ok g1
  exact ⟨d, w1, s1, w2, h1, R.onThrow_eq_ok h2, R.onThrow_eq_ok g2⟩

theorem getCurrent_ok {env : Env} {w w' : W} {n : List Nat} (h : getCurrentDesktopName env w = .ok n w') :
    n ≠ [] ∧ w'.log = w.log ++ [.currentDesktop n] ∧ w'.ios = w.ios := by
  unfold getCurrentDesktopName desktopName ask at h
  cases h1 : env.currentStation <;> cases h2 : env.currentDesktop <;>
    cases h3 : env.currentStationName <;> cases h4 : env.currentDesktopName <;>
    simp [R.bind, h1, h2, h3, h4] at h
  obtain ⟨rfl, rfl⟩ := h
  simp [W.add]

theorem dispose_started (r : Bool) (d : Option AgentDesktop) (w : W) :
    startedIn (AgentDesktop.dispose r d w).log = startedIn w.log := by
  cases d with
  | none => rfl
  | some d =>
    cases d with
    | direct b =>
      obtain ⟨o, s, t, n⟩ := b
      cases o <;> cases s <;> cases t <;>
        simp [AgentDesktop.dispose, Background.dispose, W.add, startedIn_append, startedIn]
    | indirect s n => simp [AgentDesktop.dispose, destroy, W.add, startedIn_append, startedIn]

theorem dispose_grows (r : Bool) (d : Option AgentDesktop) (w : W) :
    ∃ es, (AgentDesktop.dispose r d w).log = w.log ++ es ∧ (AgentDesktop.dispose r d w).ios = w.ios := by
  cases d with
  | none => exact ⟨[], by simp [AgentDesktop.dispose]⟩
  | some d => cases d <;> exact ⟨_, rfl, rfl⟩

/-- The last part of a successful call. -/
theorem finish_ok {c : Client.Cfg} {cfg : Config} {env : Env} {w w' : W} {n : List Nat} {s s' : Session}
    (hb : Bytes w.ios) (h64 : c.buffer.sizeMax < 2 ^ 64) (h : finishOpen c cfg env w n s = .ok s' w') :
    ∃ mid es, w'.log = w.log ++ mid ++ es.map (.io s.pipe) ∧
      received es = message ([.wstring s'.conin, .wstring s'.conout] ++
        if cfg.flags &&& 1 ≠ 0 then [.wstring s'.conerr] else []) ∧
      (cfg.flags &&& 1 = 0 → s'.conerr = []) ∧ objects s' = objects s ∧ s'.pipe = s.pipe ∧
      s'.timeoutMs = s.timeoutMs ∧
      (n = [] → mid = [] ∧ s'.spawnDesktopName = []) ∧
      (n ≠ [] → mid = [.currentDesktop s'.spawnDesktopName] ∧ s'.spawnDesktopName ≠ []) := by
  unfold finishOpen at h
  obtain ⟨cur, w1, h1, g1⟩ := R.bind_eq_ok h
  have hmid : ∃ mid, w1.log = w.log ++ mid ∧ w1.ios = w.ios ∧ (n = [] → mid = [] ∧ cur = []) ∧
      (n ≠ [] → mid = [.currentDesktop cur] ∧ cur ≠ []) := by
    by_cases hn : n = []
    · rw [if_pos hn] at h1
      cases h1
      exact ⟨[], by simp, rfl, fun _ => ⟨rfl, rfl⟩, fun h => absurd hn h⟩
    · rw [if_neg hn] at h1
      obtain ⟨k1, k2, k3⟩ := getCurrent_ok h1
      exact ⟨_, k2, k3, fun h => absurd h hn, fun _ => ⟨rfl, k1⟩⟩
  obtain ⟨mid, m1, m2, m3, m4⟩ := hmid
  obtain ⟨es, k1, k2, k3, k4⟩ := readNames_ok (by rw [m2]; exact hb) h64 g1
  have hs : s'.spawnDesktopName = cur := by rw [k4]
  refine ⟨mid, es, by rw [k1, m1], ?_, ?_, by rw [k4]; rfl, by rw [k4], by rw [k4], ?_, ?_⟩
  · simpa using k2
  · intro h0
    exact k3 (by simp [h0])
  · rw [hs]; exact m3
  · rw [hs]; exact m4

theorem session_fields {cfg : Config} {env : AgentEnv} {hide : Bool} {w w' : W} {desktop params : List Nat}
    {flags : Nat} {s : Session}
    (h : createAgentSession cfg env hide w desktop params flags = .ok s w') :
    s.spawnDesktopName = [] ∧ s.timeoutMs = cfg.timeoutMs := by
  have hl := (createAgentSession_log cfg env hide w desktop params flags).ok h
  obtain ⟨_, _, _, h1, h2⟩ := hl
  exact ⟨h2, h1⟩

/-! ## What is closed before the agent is connected -/

/-- Nothing but threads is closed. -/
def Keeps (es : List Event) : Prop := ∀ k h, k ≠ .thread → Event.closed k h ∉ es

theorem Keeps.append {a b : List Event} (ha : Keeps a) (hb : Keeps b) : Keeps (a ++ b) := by
  intro k h hk hm
  rcases List.mem_append.1 hm with h1 | h1
  · exact ha k h hk h1
  · exact hb k h hk h1

theorem keeps_io (p : Int) (es : List Client.Event) : Keeps (es.map (.io p)) := by
  intro k h _ hm
  obtain ⟨x, _, hx⟩ := List.mem_map.1 hm
  cases hx

theorem keeps_nil : Keeps [] := by intro k h _ hm; simp at hm

theorem onPipe_ok {α : Type} {w w' : W} {p : Int} {f : Client.World → Client.R α} {a : α}
    (h : onPipe w p f = .ok a w') : ∃ es : List Client.Event, w'.log = w.log ++ es.map (.io p) := by
  unfold onPipe at h
  split at h <;> cases h
  exact ⟨_, rfl⟩

/-- The last thing done for a session is to check the client. -/
theorem session_keeps {cfg : Config} {env : AgentEnv} {hide : Bool} {w w' : W} {desktop params : List Nat}
    {flags : Nat} {s : Session} (hk : Keeps w.log)
    (h : createAgentSession cfg env hide w desktop params flags = .ok s w') :
    ∃ pre, w'.log = pre ++ [.clientPid s.pipe env.clientPid] ∧ Keeps pre := by
  unfold createAgentSession at h
  obtain ⟨ev, w1, h1, g1⟩ := R.bind_eq_ok h
  obtain ⟨p, w2, h2, g2⟩ := R.bind_eq_ok g1
  obtain ⟨a, w3, h3, g3⟩ := R.bind_eq_ok g2
  obtain ⟨_, w4, h4, g4⟩ := R.bind_eq_ok g3
  obtain ⟨_, w5, h5, g5⟩ := R.bind_eq_ok g4
  cases g5
  have e1 : Keeps w1.log := by
    unfold createEvent at h1
    obtain ⟨x, w', hx, h1⟩ := R.bind_eq_ok h1
    cases h1
    unfold ask at hx
    split at hx <;> cases hx
    exact hk.append (by intro k h _ hm; simp at hm)
  have e2 : Keeps w2.log := by
    have h2 := R.onThrow_eq_ok h2
    unfold createControlPipe at h2
    split at h2
    · cases h2
    · cases h2
    · obtain ⟨x, w', hx, h2⟩ := R.bind_eq_ok h2
      cases h2
      unfold ask at hx
      split at hx <;> cases hx
      exact e1.append (by intro k h _ hm; simp at hm)
  have e3 : Keeps w3.log := by
    have h3 := R.onThrow_eq_ok h3
    unfold startAgentProcess findAgentProgram at h3
    split at h3
    · simp only [R.bind] at h3
      split at h3 <;> cases h3
      exact e2.append (by intro k h hk hm; simp at hm; exact hk hm.1)
    · cases h3
  have e4 : Keeps w4.log := by
    obtain ⟨es, he⟩ := onPipe_ok (R.onThrow_eq_ok h4)
    rw [he]
    exact e3.append (keeps_io _ _)
  refine ⟨w4.log, ?_, e4⟩
  have h5 := R.onThrow_eq_ok h5
  unfold verifyPipeClientPid at h5
  split at h5
  · split at h5 <;> cases h5
    rfl
  · cases h5; rfl
  · cases h5

/-- A background desktop that is there has not been given up. -/
theorem setup_keeps {c : Client.Cfg} {cfg : Config} {env : Env} {w w' : W} {d : Option AgentDesktop}
    (hk : Keeps w.log) (h : setupBackgroundDesktop c cfg env w = .ok d w') (hn : AgentDesktop.name d ≠ []) :
    Keeps w'.log := by
  unfold setupBackgroundDesktop at h
  split at h
  · split at h
    · obtain ⟨s, w1, h1, g1⟩ := R.bind_eq_ok h
      obtain ⟨n, w2, h2, g2⟩ := R.bind_eq_ok g1
      obtain ⟨pre, k1, k2⟩ := session_keeps hk h1
      have e1 : Keeps w1.log := by
        rw [k1]; exact k2.append (by intro k h _ hm; simp at hm)
      have e2 : Keeps w2.log := by
        have h2 := R.onThrow_eq_ok h2
        unfold readDesktopName at h2
        obtain ⟨pk, v1, q1, g1⟩ := R.bind_eq_ok h2
        obtain ⟨x, v2, q2, g2⟩ := R.bind_eq_ok g1
        obtain ⟨y, v3, q3, g3⟩ := R.bind_eq_ok g2
        obtain ⟨_, rfl⟩ := decoded_eq_ok q2
        obtain ⟨_, rfl⟩ := decoded_eq_ok q3
        cases g3
        obtain ⟨es, he⟩ := onPipe_ok q1
        rw [he]; exact e1.append (keeps_io _ _)
      split at g2
      · cases g2; exact absurd rfl hn
      · cases g2; exact e2
    · split at h <;> cases h
      · rename_i hb
        unfold Background.new at hb
        cases h1 : env.background.original <;> cases h2 : env.background.station <;>
          cases h3 : env.background.set <;> cases h4 : env.background.desktop <;>
          cases h5 : env.background.stationName <;> cases h6 : env.background.desktopName <;>
          simp [ask, R.bind, R.onThrow, desktopName, h1, h2, h3, h4, h5, h6] at hb
        rw [← hb.2]
        exact (hk.append (b := [_, _]) (by intro k h _ hm; simp at hm)).append
          (b := [_]) (by intro k h _ hm; simp at hm)
      · exact absurd rfl hn
      · exact absurd rfl hn
  · cases h; exact absurd rfl hn

theorem setup_bytes {c : Client.Cfg} {cfg : Config} {env : Env} {w w' : W} {d : Option AgentDesktop}
    (hb : Bytes w.ios) (h64 : c.buffer.sizeMax < 2 ^ 64)
    (h : setupBackgroundDesktop c cfg env w = .ok d w') : Bytes w'.ios := by
  unfold setupBackgroundDesktop at h
  split at h
  · split at h
    · obtain ⟨s, w1, h1, g1⟩ := R.bind_eq_ok h
      obtain ⟨n, w2, h2, g2⟩ := R.bind_eq_ok g1
      have e1 := session_bytes hb h1
      have e2 : Bytes w2.ios := by
        have h2 := R.onThrow_eq_ok h2
        unfold readDesktopName at h2
        obtain ⟨pk, v1, q1, g1⟩ := R.bind_eq_ok h2
        obtain ⟨x, v2, q2, g2⟩ := R.bind_eq_ok g1
        obtain ⟨y, v3, q3, g3⟩ := R.bind_eq_ok g2
        obtain ⟨_, rfl⟩ := decoded_eq_ok q2
        obtain ⟨_, rfl⟩ := decoded_eq_ok q3
        cases g3
        obtain ⟨es, _, _, _, _, he⟩ := packet_read e1 h64 q1
        exact he
      split at g2 <;> cases g2 <;> exact e2
    · have hd : ∀ (b : Background) (r : Bool) (w1 : W), (b.dispose r w1).ios = w1.ios := by
        intro b r w1; rfl
      have hn : Sat (Background.new env.background w) (fun _ w' => w'.ios = w.ios) (fun w' => w'.ios = w.ios)
          (fun w' => w'.ios = w.ios) := by
        unfold Background.new
        cases h1 : env.background.original <;> cases h2 : env.background.station <;>
          cases h3 : env.background.set <;> cases h4 : env.background.desktop <;>
          cases h5 : env.background.stationName <;> cases h6 : env.background.desktopName <;>
          simp [ask, R.bind, R.onThrow, desktopName, Sat, W.add, Background.dispose]
      split at h <;> cases h <;> rename_i he <;> rw [he] at hn <;> rw [show w'.ios = w.ios from hn] <;> exact hb
  · cases h; exact hb

/-! ## The stages written out -/

/-- What was done for an agent that was started and connected. -/
def sessionLog (env : AgentEnv) (a : AgentArgs) (ev p : Int) (pid : Nat) (hp ht : Int)
    (es : List Client.Event) : List Event :=
  [.opened .event ev, .opened .pipe p, .pipeNamed p (controlPipeName env.unique), .started a (some pid),
    .opened .process hp, .opened .thread ht, .closed .thread ht] ++ es.map (.io p) ++
    [.clientPid p env.clientPid]

theorem ask_eq_ok {α : Type} {w w' : W} {x : Except Nat α} {m : String} {a : α} (h : ask w x m = .ok a w') :
    x = .ok a ∧ w' = w := by
  cases x <;> cases h
  exact ⟨rfl, rfl⟩

theorem session_shape {cfg : Config} {env : AgentEnv} {hide : Bool} {w w' : W} {desktop params : List Nat}
    {flags : Nat} {s : Session}
    (h : createAgentSession cfg env hide w desktop params flags = .ok s w') :
    ∃ ev p pid hp ht es, env.event = .ok ev ∧ env.pipe = .ok p ∧ env.process = .ok (pid, hp, ht) ∧
      env.exeExists = true ∧ (env.clientPid = .ok pid ∨ env.clientPid = .error none) ∧
      s = ⟨hp, p, ev, cfg.timeoutMs, [], [], [], []⟩ ∧
      w'.log = w.log ++ sessionLog env (agentArgs env hide desktop params flags) ev p pid hp ht es := by
  unfold createAgentSession at h
  obtain ⟨ev, w1, h1, g1⟩ := R.bind_eq_ok h
  obtain ⟨p, w2, h2, g2⟩ := R.bind_eq_ok g1
  obtain ⟨a, w3, h3, g3⟩ := R.bind_eq_ok g2
  obtain ⟨_, w4, h4, g4⟩ := R.bind_eq_ok g3
  obtain ⟨_, w5, h5, g5⟩ := R.bind_eq_ok g4
  cases g5
  unfold createEvent at h1
  obtain ⟨x, v1, hx, q1⟩ := R.bind_eq_ok h1
  cases q1
  obtain ⟨e1, rfl⟩ := ask_eq_ok hx
  have h2' := R.onThrow_eq_ok h2
  unfold createControlPipe at h2'
  split at h2'
  · cases h2'
  · cases h2'
  obtain ⟨y, v2, hy, q2⟩ := R.bind_eq_ok h2'
  cases q2
  obtain ⟨e2, rfl⟩ := ask_eq_ok hy
  have h3' := R.onThrow_eq_ok h3
  unfold startAgentProcess findAgentProgram at h3'
  by_cases hexe : env.exeExists = true
  case neg => rw [if_neg hexe] at h3'; cases h3'
  rw [if_pos hexe] at h3'
  simp only [R.bind] at h3'
  split at h3' <;> cases h3'
  rename_i pid hp ht e3
  obtain ⟨es, he⟩ := onPipe_ok (R.onThrow_eq_ok h4)
  have h5' := R.onThrow_eq_ok h5
  refine ⟨ev, p, pid, hp, ht, es, e1, e2, e3, hexe, ?_⟩
  have hlog : w'.log = w4.log ++ [.clientPid p env.clientPid] ∧
      (env.clientPid = .ok pid ∨ env.clientPid = .error none) := by
    unfold verifyPipeClientPid at h5'
    split at h5'
    · rename_i n hn
      split at h5' <;> cases h5'
      rename_i hne
      exact ⟨rfl, .inl (by rw [hn, Classical.not_not.1 hne])⟩
    · rename_i hn
      cases h5'; exact ⟨rfl, .inr hn⟩
    · cases h5'
  refine ⟨hlog.2, rfl, ?_⟩
  rw [hlog.1, he]
  simp [W.add, sessionLog, agentArgs]

/-- When all calls succeed and the agent connects. -/
theorem session_opens {cfg : Config} {env : AgentEnv} (hide : Bool) (w : W) (desktop params : List Nat)
    (flags : Nat) {ev p : Int} {pid : Nat} {hp ht : Int} {conn : Client.Io} {rest : List Client.Io}
    (h1 : env.event = .ok ev) (h2 : env.descriptor = .ok true) (h3 : env.pipe = .ok p)
    (h4 : env.exeExists = true) (h5 : env.process = .ok (pid, hp, ht))
    (h6 : env.clientPid = .ok pid ∨ env.clientPid = .error none)
    (hw : w.ios = conn :: rest)
    (hc : (∃ n d, conn = .now (.ok n d) ∨ conn = .pending (.io (.ok n d))) ∨ conn = .now (.fail 535)) :
    ∃ w', createAgentSession cfg env hide w desktop params flags =
      .ok ⟨hp, p, ev, cfg.timeoutMs, [], [], [], []⟩ w' ∧ w'.ios = rest := by
  have hconn : ∀ w1 : W, w1.ios = conn :: rest → ∃ w', onPipe w1 p connectControlPipe = .ok () w' ∧ w'.ios = rest := by
    intro w1 hw1
    unfold onPipe connectControlPipe Client.overlapped
    rw [hw1]
    rcases hc with ⟨n, d, rfl | rfl⟩ | rfl
    · exact ⟨_, rfl, rfl⟩
    · exact ⟨_, rfl, rfl⟩
    · exact ⟨_, rfl, rfl⟩
  have hver : ∀ w1 : W, ∃ w', verifyPipeClientPid env w1 p pid = .ok () w' ∧ w'.ios = w1.ios := by
    intro w1
    unfold verifyPipeClientPid
    rcases h6 with h | h
    · rw [h]; exact ⟨w1.add [.clientPid p (.ok pid)], by simp, rfl⟩
    · rw [h]; exact ⟨_, rfl, rfl⟩
  unfold createAgentSession createEvent createControlPipe startAgentProcess findAgentProgram
  rw [h1, h2, h3, h4, h5]
  simp only [ask, R.bind, R.onThrow, if_true]
  obtain ⟨w1, k1, k2⟩ := hconn (W.add (W.add (W.add w [.opened .event ev])
    [.opened .pipe p, .pipeNamed p (controlPipeName env.unique)])
    [.started (agentArgs env hide desktop params flags) (some pid), .opened .process hp,
      .opened .thread ht, .closed .thread ht]) hw
  unfold agentArgs at k1
  rw [k1]
  simp only
  obtain ⟨w2, k3, k4⟩ := hver w1
  rw [k3]
  exact ⟨w2, rfl, by rw [k4, k2]⟩

theorem finish_grows {c : Client.Cfg} {cfg : Config} {env : Env} {w w' : W} {n : List Nat} {s s' : Session}
    (h : finishOpen c cfg env w n s = .ok s' w') :
    ∃ (mid : List Event) (es : List Client.Event), w'.log = w.log ++ mid ++ es.map (.io s.pipe) ∧ startedIn mid = [] ∧ objects s' = objects s := by
  unfold finishOpen at h
  obtain ⟨cur, w1, h1, g1⟩ := R.bind_eq_ok h
  have hmid : ∃ mid, w1.log = w.log ++ mid ∧ startedIn mid = [] := by
    by_cases hn : n = []
    · rw [if_pos hn] at h1
      cases h1
      exact ⟨[], by simp, rfl⟩
    · rw [if_neg hn] at h1
      obtain ⟨k1, k2, k3⟩ := getCurrent_ok h1
      exact ⟨_, k2, rfl⟩
  obtain ⟨mid, m1, m2⟩ := hmid
  unfold readNames at g1
  obtain ⟨pk, v1, q1, g2⟩ := R.bind_eq_ok g1
  obtain ⟨a, v2, q2, g3⟩ := R.bind_eq_ok g2
  obtain ⟨b, v3, q3, g4⟩ := R.bind_eq_ok g3
  obtain ⟨d, v4, q4, g5⟩ := R.bind_eq_ok g4
  obtain ⟨e, v5, q5, g6⟩ := R.bind_eq_ok g5
  have e2 := (decoded_eq_ok q2).2
  have e3 := (decoded_eq_ok q3).2
  have e5 := (decoded_eq_ok q5).2
  have e4 : v4 = v3 := by
    split at q4
    · exact (decoded_eq_ok q4).2
    · cases q4; rfl
  cases g6
  obtain ⟨es, he⟩ := onPipe_ok q1
  exact ⟨mid, es, by rw [e5, e4, e3, e2, he, m1], m2, rfl⟩

end Winpty.Open
