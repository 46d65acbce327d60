import Verif.Lemmas.Open
import Verif.Lemmas.ClientReply

/-! More lemmas about `winpty_open`: processes started, the window station and the pipe names. -/
namespace Winpty.Open

open Winpty.Spec.Open
open Winpty.Client (Exn)
open Winpty.Startup (Config lit params agentCommandLine controlPipeName)

/-- Since `w`, these processes were started, and the window station was left alone. -/
def Grown (w : W) (l : List (AgentArgs × Option Nat)) (w' : W) : Prop :=
  ∃ es, w'.log = w.log ++ es ∧ Calm es ∧ startedIn es = l

theorem Grown.refl (w : W) : Grown w [] w :=
  ⟨[], by simp, by intro e he; simp at he, rfl⟩

theorem Grown.add {w w' : W} {l : List (AgentArgs × Option Nat)} (h : Grown w l w') (es : List Event)
    (hc : Calm es) : Grown w (l ++ startedIn es) (w'.add es) := by
  obtain ⟨es0, h1, h2, h3⟩ := h
  exact ⟨es0 ++ es, by simp [W.add, h1], calm_append h2 hc, by rw [startedIn_append, h3]⟩

theorem Grown.quiet {w w' : W} {l : List (AgentArgs × Option Nat)} (h : Grown w l w') (es : List Event)
    (hc : Calm es) (hs : startedIn es = []) : Grown w l (w'.add es) := by
  have := h.add es hc
  rwa [hs, List.append_nil] at this

theorem Grown.io {w w' : W} {l : List (AgentArgs × Option Nat)} (h : Grown w l w') (p : Int)
    (ios : List Client.Io) (es : List Client.Event) : Grown w l ⟨ios, w'.log ++ es.map (.io p)⟩ := by
  obtain ⟨es0, h1, h2, h3⟩ := h
  exact ⟨es0 ++ es.map (.io p), by simp [h1], calm_append h2 (calm_io p es),
    by rw [startedIn_append, h3, startedIn_io, List.append_nil]⟩

theorem calm_of {es : List Event}
    (h : ∀ e ∈ es, (match e with | .setStation _ _ | .currentDesktop _ => false | _ => true) = true) :
    Calm es := by
  intro e he
  have := h e he
  constructor
  · rintro st ok rfl; simp at this
  · rintro n rfl; simp at this

/-- The arguments with which an agent is started. -/
def agentArgs (env : AgentEnv) (hide : Bool) (desktop params : List Nat) (flags : Nat) : AgentArgs :=
  ⟨dirname env.modulePath ++ lit "\\winpty-agent.exe",
    agentCommandLine (dirname env.modulePath ++ lit "\\winpty-agent.exe") (controlPipeName env.unique)
      params ++ [0],
    if desktop = [] then none else some (desktop ++ [0]), hide, flags⟩

theorem createAgentSession_log (cfg : Config) (env : AgentEnv) (hide : Bool) (w : W)
    (desktop params : List Nat) (flags : Nat) :
    Sat (createAgentSession cfg env hide w desktop params flags)
      (fun s w' => ∃ pid, Grown w [(agentArgs env hide desktop params flags, some pid)] w' ∧
        (env.clientPid = .ok pid ∨ env.clientPid = .error none) ∧ s.timeoutMs = cfg.timeoutMs ∧
        s.spawnDesktopName = [])
      (fun w' => ∃ l, Grown w l w' ∧ l.length ≤ 1 ∧ ∀ x ∈ l, x.1 = agentArgs env hide desktop params flags)
      (fun w' => ∃ l, Grown w l w' ∧ l.length ≤ 1 ∧ ∀ x ∈ l, x.1 = agentArgs env hide desktop params flags) := by
  unfold createAgentSession
  refine Sat.bind (P := fun _ w' => Grown w [] w') ?_ fun ev w1 h => ?_
  · unfold createEvent
    refine Sat.bind (P := fun _ w' => Grown w [] w') ?_ fun h w1 hw => ?_
    · exact (ask_sat (P := fun w' => Grown w [] w') (Grown.refl w)).mono (fun _ _ h => h.2)
        (fun _ h => ⟨[], h, by simp, by simp⟩) (fun _ h => ⟨[], h, by simp, by simp⟩)
    · exact hw.quiet _ (calm_of (by simp)) rfl
  refine Sat.bind (P := fun _ w' => Grown w [] w')
    (Sat.onThrow (Q := fun w' => Grown w [] w') ?_ fun w1 h =>
      ⟨[], h.quiet _ (calm_of (by simp)) rfl, by simp, by simp⟩) fun p w2 h => ?_
  · unfold createControlPipe
    split
    · exact h
    · exact h
    · refine Sat.bind (P := fun _ w' => Grown w [] w') ?_ fun p w2 h => ?_
      · exact (ask_sat (P := fun w' => Grown w [] w') h).mono (fun _ _ h => h.2)
          (fun _ h => h) (fun _ h => ⟨[], h, by simp, by simp⟩)
      · exact h.quiet _ (calm_of (by simp)) rfl
  refine Sat.bind
    (P := fun a w' => Grown w [(agentArgs env hide desktop params flags, some a.1)] w')
    (Sat.onThrow
      (Q := fun w' => ∃ l, Grown w l w' ∧ l.length ≤ 1 ∧ ∀ x ∈ l, x.1 = agentArgs env hide desktop params flags) ?_
      fun w1 h => ?_) fun a w3 h => ?_
  · unfold startAgentProcess findAgentProgram
    split
    · simp only [R.bind]
      split
      · exact ⟨_, h.add _ (calm_of (by simp)), by simp [startedIn], by simp [startedIn, agentArgs]⟩
      · rename_i pid _ _ _
        have := h.add [.started (agentArgs env hide desktop params flags) (some pid)] (calm_of (by simp))
        simp only [Sat]
        rw [add_cons]
        exact Grown.quiet this [.opened .process _, .opened .thread _, .closed .thread _] (calm_of (by simp)) rfl
    · exact ⟨[], h, by simp, by simp⟩
  · obtain ⟨l, h1, h2⟩ := h
    exact ⟨l, h1.quiet _ (calm_of (by simp)) rfl, h2⟩
  have hd : ∀ s w', Grown w [(agentArgs env hide desktop params flags, some a.1)] w' →
      ∃ l, Grown w l (destroy s w') ∧ l.length ≤ 1 ∧ ∀ x ∈ l, x.1 = agentArgs env hide desktop params flags := by
    intro s w' h
    exact ⟨_, h.quiet _ (calm_of (by simp)) rfl, by simp, by simp⟩
  refine Sat.bind
    (P := fun _ w' => Grown w [(agentArgs env hide desktop params flags, some a.1)] w')
    (Sat.onThrow (Q := fun w' => Grown w [(agentArgs env hide desktop params flags, some a.1)] w') ?_
      fun w1 h => hd _ _ h) fun _ w4 h => ?_
  · exact (onPipe_sat fun ios es => h.io p ios es).mono (fun _ _ h => h) (fun _ h => h)
      (fun _ h => ⟨_, h, by simp, by simp⟩)
  refine Sat.bind
    (P := fun _ w' => Grown w [(agentArgs env hide desktop params flags, some a.1)] w' ∧
      (env.clientPid = .ok a.1 ∨ env.clientPid = .error none))
    (Sat.onThrow (Q := fun w' => Grown w [(agentArgs env hide desktop params flags, some a.1)] w') ?_
      fun w1 h => hd _ _ h) fun _ w5 h => ?_
  · have h' := h.quiet [.clientPid p env.clientPid] (calm_of (by simp)) rfl
    unfold verifyPipeClientPid
    split
    · rename_i n hn
      split
      · exact h'
      · rename_i hne
        exact ⟨h', .inl (by rw [hn, Classical.not_not.1 hne])⟩
    · rename_i hn
      exact ⟨h', .inr hn⟩
    · exact h'
  · exact ⟨a.1, h.1, h.2, rfl, rfl⟩

/-! ## The window station -/

/-- The window station is `st`, and whenever the current desktop was asked for it was `h0`. -/
def At (h0 st : Int) (w : W) : Prop :=
  stationAfter h0 w.log = st ∧
    ∀ pre n post, w.log = pre ++ .currentDesktop n :: post → stationAfter h0 pre = h0

theorem at_append {h0 st st' : Int} {w : W} (h : At h0 st w) (es : List Event) (ios : List Client.Io)
    (h1 : stationAfter st es = st')
    (h2 : ∀ pre n post, es = pre ++ .currentDesktop n :: post → stationAfter st pre = h0) :
    At h0 st' ⟨ios, w.log ++ es⟩ := by
  refine ⟨by simp only [stationAfter_append, h.1, h1], ?_⟩
  intro pre n post heq
  rcases List.append_eq_append_iff.1 heq with ⟨a, e1, e2⟩ | ⟨a, e1, e2⟩
  · rw [e1, stationAfter_append, h.1]
    exact h2 a n post e2
  · cases a with
    | nil =>
      simp only [List.nil_append] at e2
      simp only [List.append_nil] at e1
      have := h2 [] n post (by simp [e2])
      rw [← e1, h.1]
      exact this
    | cons x a =>
      simp only [List.cons_append, List.cons.injEq] at e2
      obtain ⟨rfl, _⟩ := e2
      exact h.2 pre n a e1

theorem at_grown {h0 st : Int} {w w' : W} {l : List (AgentArgs × Option Nat)} (h : At h0 st w)
    (hg : Grown w l w') : At h0 st w' := by
  obtain ⟨es, h1, h2, _⟩ := hg
  have := at_append (st' := st) h es w'.ios (stationAfter_calm h2 st) (by
    intro pre n post he
    exact absurd rfl ((h2 (.currentDesktop n) (by rw [he]; simp)).2 n))
  obtain ⟨ios, lg⟩ := w'
  simp only at h1 this
  rwa [← h1] at this

theorem at_add_calm {h0 st : Int} {w : W} (h : At h0 st w) (es : List Event) (hc : Calm es) :
    At h0 st (w.add es) :=
  at_grown h ⟨es, rfl, hc, rfl⟩

theorem at_set {h0 st : Int} {w : W} (h : At h0 st w) (x : Int) (ok : Bool) :
    At h0 (if ok then x else st) (w.add [.setStation x ok]) := by
  refine at_append h _ _ ?_ ?_
  · cases ok <;> rfl
  · intro pre n post he
    cases pre with
    | nil => cases he
    | cons a pre => simp at he

theorem at_ask {h0 : Int} {w : W} (h : At h0 h0 w) (n : List Nat) :
    At h0 h0 (w.add [.currentDesktop n]) := by
  refine at_append h _ _ rfl ?_
  intro pre m post he
  cases pre with
  | nil => rfl
  | cons a pre => simp at he

/-- The background desktop restores the station. -/
theorem dispose_at {h0 st : Int} {b : Background} {w : W} (h : At h0 st w) (ho : b.original = some h0) :
    At h0 h0 (b.dispose true w) := by
  unfold Background.dispose
  rw [ho, add_append, add_append]
  have h1 := at_set h h0 true
  refine at_add_calm (at_add_calm h1 _ ?_) _ ?_
  · apply calm_of; split <;> simp
  · apply calm_of; split <;> simp

/-- What a background desktop in this process leaves. -/
theorem new_at {h0 : Int} {env : DesktopEnv} {w : W} (h : At h0 h0 w) (hr : env.restore = true)
    (ho : ∀ x, env.original = .ok x → x = h0) :
    Sat (Background.new env w)
      (fun b w' => b.original = some h0 ∧ b.name ≠ [] ∧ ∃ st, At h0 st w') (At h0 h0) (fun _ => False) := by
  unfold Background.new
  cases hor : env.original with
  | error c => simpa [ask, R.bind, Sat] using h
  | ok o =>
    cases ho o hor
    simp only [ask, R.bind, hr]
    cases env.station with
    | error c => exact dispose_at h rfl
    | ok s =>
      have h1 := at_add_calm h [.opened .station s] (calm_of (by simp))
      have h2 := at_set h1 s env.set.isOk
      rw [← add_cons] at h2
      simp only [R.onThrow]
      cases hset : env.set with
      | error c => rw [hset] at h2; exact dispose_at h2 rfl
      | ok u =>
        rw [hset] at h2
        simp only
        cases env.desktop with
        | error c => exact dispose_at h2 rfl
        | ok d =>
          have h3 := at_add_calm h2 [.opened .desktop d] (calm_of (by simp))
          simp only [desktopName, ask, R.bind]
          cases env.stationName with
          | error c => exact dispose_at h3 rfl
          | ok a =>
            simp only
            cases env.desktopName with
            | error c => exact dispose_at h3 rfl
            | ok b => exact ⟨rfl, by simp, _, h3⟩

theorem new_started (env : DesktopEnv) (w : W) :
    Sat (Background.new env w) (fun _ w' => startedIn w'.log = startedIn w.log)
      (fun w' => startedIn w'.log = startedIn w.log) (fun w' => startedIn w'.log = startedIn w.log) := by
  have hd : ∀ (b : Background) (r : Bool) (w1 : W), startedIn (b.dispose r w1).log = startedIn w1.log := by
    intro b r w1
    obtain ⟨o, s, d, n⟩ := b
    cases o <;> cases s <;> cases d <;> simp [Background.dispose, W.add, startedIn_append, startedIn]
  unfold Background.new
  cases env.original with
  | error c => rfl
  | ok o =>
    simp only [ask, R.bind]
    cases env.station with
    | error c => exact hd _ _ _
    | ok s =>
      simp only [R.onThrow]
      cases env.set with
      | error c => simp [Sat, hd, W.add, startedIn_append, startedIn]
      | ok u =>
        simp only
        cases env.desktop with
        | error c => simp [Sat, hd, W.add, startedIn_append, startedIn]
        | ok d =>
          simp only [desktopName, ask, R.bind]
          cases env.stationName with
          | error c => simp [Sat, hd, W.add, startedIn_append, startedIn]
          | ok a =>
            simp only
            cases env.desktopName with
            | error c => simp [Sat, hd, W.add, startedIn_append, startedIn]
            | ok b => simp [Sat, W.add, startedIn_append, startedIn]

/-- After the set-up the station is the original one unless there is a background desktop in this
process; that one will restore it. -/
def Ready (h0 : Int) (d : Option AgentDesktop) (w : W) : Prop :=
  match d with
  | some (.direct b) => b.original = some h0 ∧ ∃ st, At h0 st w
  | _ => At h0 h0 w

theorem ready_dispose {h0 : Int} {d : Option AgentDesktop} {w : W} (h : Ready h0 d w) :
    At h0 h0 (AgentDesktop.dispose true d w) := by
  cases d with
  | none => exact h
  | some d =>
    cases d with
    | direct b =>
      obtain ⟨h1, st, h2⟩ := h
      exact dispose_at h2 h1
    | indirect s n => exact at_add_calm h _ (calm_of (by simp))

theorem ready_grown {h0 : Int} {d : Option AgentDesktop} {w w' : W} {l : List (AgentArgs × Option Nat)}
    (h : Ready h0 d w) (hg : Grown w l w') : Ready h0 d w' := by
  cases d with
  | none => exact at_grown h hg
  | some d =>
    cases d with
    | direct b =>
      obtain ⟨h1, st, h2⟩ := h
      exact ⟨h1, st, at_grown h2 hg⟩
    | indirect s n => exact at_grown h hg

theorem setup_at {h0 : Int} {c : Client.Cfg} {cfg : Config} {env : Env} {w : W} (h : At h0 h0 w)
    (hr : env.background.restore = true) (ho : ∀ x, env.background.original = .ok x → x = h0) :
    Sat (setupBackgroundDesktop c cfg env w) (fun d w' => Ready h0 d w') (At h0 h0) (fun _ => True) := by
  unfold setupBackgroundDesktop
  split
  · split
    · refine Sat.bind (P := fun _ w' => At h0 h0 w') ?_ fun s w1 h => ?_
      · refine (createAgentSession_log _ _ _ _ _ _ _).mono (fun s w' hs => ?_) (fun w' hs => ?_) (fun _ _ => trivial)
        · obtain ⟨pid, hg, _⟩ := hs
          exact at_grown h hg
        · obtain ⟨l, hg, _⟩ := hs
          exact at_grown h hg
      · refine Sat.bind (P := fun _ w' => At h0 h0 w') (Sat.onThrow (Q := At h0 h0) ?_ fun w h => ?_)
          fun n w h => ?_
        · unfold readDesktopName
          refine Sat.bind (P := fun _ w' => At h0 h0 w') ?_ fun pk w2 h => ?_
          · exact (onPipe_sat fun ios es => at_grown h ((Grown.refl w1).io _ ios es)).mono
              (fun _ _ h => h) (fun _ h => h) (fun _ _ => trivial)
          · refine Sat.bind ((decoded_sat h).mono (fun _ _ h => h.2) (fun _ h => h) (fun _ _ => trivial))
              fun a w h => ?_
            exact Sat.bind ((decoded_sat h).mono (fun _ _ h => h.2) (fun _ h => h) (fun _ _ => trivial))
              fun a w h => h
        · exact at_add_calm h _ (calm_of (by simp))
        · split
          · exact at_add_calm h _ (calm_of (by simp))
          · exact h
    · have hb := new_at (env := env.background) h hr ho
      split <;> rename_i he <;> rw [he] at hb
      · exact ⟨hb.1, hb.2.2⟩
      · exact hb
      · exact hb
      · exact hb
      · trivial
      · trivial
  · exact h

/-- The processes started before the agent proper make desktops, and the desktop has a name. -/
theorem setup_started {c : Client.Cfg} {cfg : Config} {env : Env} {w : W} (hw : startedIn w.log = []) :
    Sat (setupBackgroundDesktop c cfg env w)
      (fun d w' => (∀ x ∈ startedIn w'.log,
        x.1 = agentArgs env.desktopAgent (shouldSpecifyHideFlag env) [] (lit "--create-desktop") 8) ∧
        (d.isSome → AgentDesktop.name d ≠ []) ∧
        ((shouldCreateBackgroundDesktop env (cfg.flags &&& 8 = 0)).1 = false →
          d = none ∧ startedIn w'.log = []))
      (fun _ => True) (fun _ => True) := by
  unfold setupBackgroundDesktop
  split
  · rename_i hc
    split
    · refine Sat.bind (P := fun _ w' => ∀ x ∈ startedIn w'.log,
          x.1 = agentArgs env.desktopAgent (shouldSpecifyHideFlag env) [] (lit "--create-desktop") 8) ?_
        fun s w1 h => ?_
      · refine (createAgentSession_log _ _ _ _ _ _ _).mono (fun s w' hs => ?_) (fun w' hs => trivial)
          (fun _ _ => trivial)
        obtain ⟨pid, ⟨es, h1, _, h3⟩, _⟩ := hs
        rw [h1, startedIn_append, hw, h3]
        simp
      · refine Sat.bind (P := fun _ w' => ∀ x ∈ startedIn w'.log,
            x.1 = agentArgs env.desktopAgent (shouldSpecifyHideFlag env) [] (lit "--create-desktop") 8)
          (Sat.onThrow (Q := fun _ => True) ?_ fun _ _ => trivial) fun n w h => ?_
        · unfold readDesktopName
          refine Sat.bind (P := fun _ w' => ∀ x ∈ startedIn w'.log,
            x.1 = agentArgs env.desktopAgent (shouldSpecifyHideFlag env) [] (lit "--create-desktop") 8)
            ?_ fun pk w2 h => ?_
          · refine (onPipe_sat (P := fun w' => ∀ x ∈ startedIn w'.log,
              x.1 = agentArgs env.desktopAgent (shouldSpecifyHideFlag env) [] (lit "--create-desktop") 8)
              fun ios es => ?_).mono (fun _ _ h => h) (fun _ _ => trivial) (fun _ _ => trivial)
            simpa [startedIn_append, startedIn_io] using h
          · refine Sat.bind ((decoded_sat (P := fun w' => ∀ x ∈ startedIn w'.log,
              x.1 = agentArgs env.desktopAgent (shouldSpecifyHideFlag env) [] (lit "--create-desktop") 8)
              h).mono (fun _ _ h => h.2) (fun _ _ => trivial) (fun _ _ => trivial))
              fun a w h => ?_
            exact Sat.bind ((decoded_sat (P := fun w' => ∀ x ∈ startedIn w'.log,
              x.1 = agentArgs env.desktopAgent (shouldSpecifyHideFlag env) [] (lit "--create-desktop") 8)
              h).mono (fun _ _ h => h.2) (fun _ _ => trivial) (fun _ _ => trivial))
              fun a w h => h
        · split
          · refine ⟨?_, by simp, by simp [hc]⟩
            simpa [destroy, W.add, startedIn_append, startedIn] using h
          · rename_i hn
            exact ⟨h, fun _ => hn, by simp [hc]⟩
    · have hb := new_started env.background w
      have hn : ∀ b w', Background.new env.background w = .ok b w' → b.name ≠ [] := by
        intro b w' he
        unfold Background.new at he
        cases h1 : env.background.original <;> cases h2 : env.background.station <;>
          cases h3 : env.background.set <;> cases h4 : env.background.desktop <;>
          cases h5 : env.background.stationName <;> cases h6 : env.background.desktopName <;>
          simp [ask, R.bind, R.onThrow, desktopName, h1, h2, h3, h4, h5, h6] at he
        rw [← he.1]; simp
      split <;> first | (rename_i b w' he; rw [he] at hb) | trivial
      · refine ⟨?_, fun _ => hn b w' he, by simp [hc]⟩
        rw [show startedIn w'.log = [] from hb.trans hw]; simp
      · refine ⟨?_, by simp, by simp [hc]⟩
        rw [show startedIn _ = [] from hb.trans hw]; simp
      · refine ⟨?_, by simp, by simp [hc]⟩
        rw [show startedIn _ = [] from hb.trans hw]; simp
      · trivial
      · trivial
      · trivial
  · rename_i hc
    refine ⟨by rw [hw]; simp, by simp, fun _ => ⟨rfl, hw⟩⟩

/-! ## Errors and names -/

/-- A computation that can only throw exceptions with a documented error code. -/
def Coded {α : Type} (r : R α) : Prop :=
  ∀ e w, r = .throw e w → (Client.translateException e).code ∈ [1, 3, 4, 5, 6, 7, 8]

theorem coded_bind {α β : Type} {r : R α} {f : α → W → R β} (h : Coded r) (hf : ∀ a w, Coded (f a w)) :
    Coded (r.bind f) := by
  intro e w he
  cases r with
  | ok a w1 => exact hf a w1 e w he
  | throw e1 w1 => cases he; exact h _ _ rfl
  | abort w1 => cases he
  | wait w1 => cases he

theorem coded_onThrow {α : Type} {r : R α} {c : W → W} (h : Coded r) : Coded (r.onThrow c) := by
  intro e w he
  cases r with
  | ok a w1 => cases he
  | throw e1 w1 => cases he; exact h _ _ rfl
  | abort w1 => cases he
  | wait w1 => cases he

theorem coded_ok {α : Type} {a : α} {w : W} : Coded (R.ok a w) := by intro e w he; cases he

theorem coded_ask {α : Type} {w : W} {x : Except Nat α} {m : String} : Coded (ask w x m) := by
  intro e w' he
  cases x with
  | ok a => cases he
  | error c => cases he; simp [Client.translateException, Client.windowsError]

theorem coded_decoded {α : Type} {c : Client.Cfg} {w : W} {r : Buffer.Res α} : Coded (decoded c w r) := by
  intro e w' he
  cases r <;> cases he
  · simp [Client.translateException]
  · unfold Client.allocExn
    split <;> simp [Client.translateException]

/-- The same for calls on the control pipe. -/
def CodedC {α : Type} (r : Client.R α) : Prop :=
  ∀ e w, r = .throw e w → (Client.translateException e).code ∈ [1, 3, 4, 5, 6, 7, 8]

theorem codedC_bind {α β : Type} {r : Client.R α} {f : α → Client.World → Client.R β} (h : CodedC r)
    (hf : ∀ a w, CodedC (f a w)) : CodedC (r.bind f) := by
  intro e w he
  cases r with
  | ok a w1 => exact hf a w1 e w he
  | throw e1 w1 => cases he; exact h _ _ rfl
  | abort w1 => cases he
  | wait w1 => cases he

theorem codedC_ok {α : Type} {a : α} {w : Client.World} : CodedC (Client.R.ok a w) := by
  intro e w he; cases he

theorem codedC_overlapped (w : Client.World) (call : Client.Event) : CodedC (Client.overlapped w call) := by
  intro e w' he
  unfold Client.overlapped at he
  split at he
  · cases he
  · cases he
  · rename_i x _ _
    cases x <;> cases he <;> simp [Client.translateException, Client.windowsError]

theorem codedC_readData (w : Client.World) (n : Nat) : CodedC (Client.readData w n) := by
  refine codedC_bind (codedC_overlapped _ _) fun d w => ?_
  intro e w' he
  split at he
  · cases he
    unfold Client.readWriteError
    split <;> simp [Client.translateException, Client.windowsError]
  · split at he <;> cases he

theorem codedC_readLoop (fuel : Nat) : ∀ w n, CodedC (Client.readLoop fuel w n) := by
  induction fuel with
  | zero => intro w n e w' he; cases he
  | succ fuel ih =>
    intro w n
    unfold Client.readLoop
    split
    · exact codedC_bind (codedC_readData _ _) fun a w => codedC_bind (ih _ _) fun _ _ => codedC_ok
    · exact codedC_ok

theorem codedC_readPacket (c : Client.Cfg) (w : Client.World) : CodedC (Client.readPacket c w) := by
  refine codedC_bind (codedC_readLoop _ _ _) fun sz w => ?_
  split
  · intro e w' he; cases he; simp [Client.translateException]
  · split
    · exact codedC_readLoop _ _ _
    · intro e w' he
      cases he
      unfold Client.allocExn
      split <;> simp [Client.translateException]

theorem codedC_connect (w : Client.World) : CodedC (connectControlPipe w) := by
  refine codedC_bind (codedC_overlapped _ _) fun d w => ?_
  cases d with
  | ok n x => exact codedC_ok
  | fail c =>
    simp only
    split
    · exact codedC_ok
    · intro e w' he; cases he; simp [Client.translateException, Client.windowsError]

theorem coded_onPipe {α : Type} {w : W} {p : Int} {f : Client.World → Client.R α}
    (h : ∀ v, CodedC (f v)) : Coded (onPipe w p f) := by
  intro e w' he
  unfold onPipe at he
  split at he <;> cases he
  rename_i hf
  exact h _ _ _ hf

/-- A security descriptor that cannot be made is reported by a `WinptyException`. -/
def AgentEnv.Sane (env : AgentEnv) : Prop := ∀ e, env.descriptor = .error e → ∃ m, e = .winpty m

theorem coded_session (cfg : Config) (env : AgentEnv) (hide : Bool) (w : W) (desktop params : List Nat)
    (flags : Nat) (hs : env.Sane) : Coded (createAgentSession cfg env hide w desktop params flags) := by
  unfold createAgentSession
  refine coded_bind (coded_bind coded_ask fun _ _ => coded_ok) fun ev w => ?_
  refine coded_bind (coded_onThrow ?_) fun p w => ?_
  · unfold createControlPipe
    split
    · rename_i e he
      obtain ⟨m, rfl⟩ := hs e he
      intro e' w' h; cases h; simp [Client.translateException]
    · intro e' w' h; cases h; simp [Client.translateException]
    · exact coded_bind coded_ask fun _ _ => coded_ok
  refine coded_bind (coded_onThrow ?_) fun a w => ?_
  · unfold startAgentProcess
    refine coded_bind ?_ fun exe w => ?_
    · unfold findAgentProgram
      split
      · exact coded_ok
      · intro e' w' h; cases h; simp [Client.translateException]
    · intro e' w' h
      split at h <;> cases h
      simp [Client.translateException]
  refine coded_bind (coded_onThrow (coded_onPipe codedC_connect)) fun _ w => ?_
  refine coded_bind (coded_onThrow ?_) fun _ w => coded_ok
  unfold verifyPipeClientPid
  intro e' w' h
  split at h
  · split at h <;> cases h
    simp [Client.translateException]
  · cases h
  · cases h; simp [Client.translateException, Client.windowsError]

theorem coded_new (env : DesktopEnv) (w : W) : Coded (Background.new env w) := by
  unfold Background.new
  refine coded_bind coded_ask fun _ _ => ?_
  refine coded_bind (coded_onThrow coded_ask) fun _ _ => ?_
  refine coded_bind (coded_onThrow coded_ask) fun _ _ => ?_
  refine coded_bind (coded_onThrow coded_ask) fun _ _ => ?_
  refine coded_bind (coded_onThrow (coded_bind coded_ask fun _ _ => coded_bind coded_ask fun _ _ => coded_ok))
    fun _ _ => coded_ok

theorem coded_open (c : Client.Cfg) (cfg : Config) (env : Env) (w : W) (h1 : env.desktopAgent.Sane)
    (h2 : env.agent.Sane) : Coded (openBody c cfg env w) := by
  unfold openBody
  refine coded_bind ?_ fun d w => ?_
  · unfold setupBackgroundDesktop
    split
    · split
      · refine coded_bind (coded_session _ _ _ _ _ _ _ h1) fun s w => ?_
        refine coded_bind (coded_onThrow ?_) fun n w => ?_
        · unfold readDesktopName
          exact coded_bind (coded_onPipe (codedC_readPacket c)) fun _ _ =>
            coded_bind coded_decoded fun _ _ => coded_bind coded_decoded fun _ _ => coded_ok
        · split <;> exact coded_ok
      · have hn := coded_new env.background w
        intro e w' he
        split at he <;> cases he
        rename_i hh
        exact hn _ _ hh
    · exact coded_ok
  refine coded_bind (coded_onThrow (coded_session _ _ _ _ _ _ _ h2)) fun s w => coded_onThrow ?_
  unfold finishOpen
  refine coded_bind ?_ fun n w => ?_
  · split
    · exact coded_ok
    · unfold getCurrentDesktopName
      exact coded_bind coded_ask fun _ _ => coded_bind coded_ask fun _ _ =>
        coded_bind (coded_bind coded_ask fun _ _ => coded_bind coded_ask fun _ _ => coded_ok) fun _ _ => coded_ok
  · unfold readNames
    refine coded_bind (coded_onPipe (codedC_readPacket c)) fun _ _ =>
      coded_bind coded_decoded fun _ _ => coded_bind coded_decoded fun _ _ => coded_bind ?_ fun _ _ =>
        coded_bind coded_decoded fun _ _ => coded_ok
    split
    · exact coded_decoded
    · exact coded_ok

end Winpty.Open
