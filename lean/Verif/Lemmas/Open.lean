import Verif.Spec.Open

/-! Lemmas about `winpty_open`: how its steps change the log. -/
namespace Winpty.Open

open Winpty.Spec.Open
open Winpty.Client (Exn)

/-! ## Following the log -/

theorem openAfter_append (a b : List Event) : ∀ o,
    openAfter o (a ++ b) = (openAfter o a).bind (openAfter · b) := by
  induction a with
  | nil => intro o; rfl
  | cons e a ih =>
    intro o
    cases e <;> simp only [List.cons_append, openAfter, ih]
    split <;> rfl

theorem openAfter_io (p : Int) (es : List Client.Event) : ∀ o, openAfter o (es.map (.io p)) = some o := by
  induction es with
  | nil => intro o; rfl
  | cons e es ih => intro o; simp only [List.map_cons, openAfter, ih]

theorem peersAfter_append (a b : List Event) : ∀ p,
    peersAfter p (a ++ b) = peersAfter (peersAfter p a) b := by
  induction a with
  | nil => intro p; rfl
  | cons e a ih =>
    intro p
    cases e with
    | opened k h => cases k <;> simp only [List.cons_append, peersAfter, ih]
    | started a pid => cases pid <;> simp only [List.cons_append, peersAfter, ih]
    | clientPid h x =>
      cases x with
      | ok n => simp only [List.cons_append, peersAfter, ih]
      | error o => cases o <;> simp only [List.cons_append, peersAfter, ih]
    | _ => simp only [List.cons_append, peersAfter, ih]

theorem peersAfter_io (q : Int) (es : List Client.Event) : ∀ p, peersAfter p (es.map (.io q)) = p := by
  induction es with
  | nil => intro o; rfl
  | cons e es ih => intro o; simp only [List.map_cons, peersAfter, ih]

theorem stationAfter_append (a b : List Event) : ∀ p,
    stationAfter p (a ++ b) = stationAfter (stationAfter p a) b := by
  induction a with
  | nil => intro p; rfl
  | cons e a ih =>
    intro p
    cases e with
    | setStation h ok => cases ok <;> simp only [List.cons_append, stationAfter, ih]
    | _ => simp only [List.cons_append, stationAfter, ih]

theorem startedIn_append (a b : List Event) : startedIn (a ++ b) = startedIn a ++ startedIn b := by
  induction a with
  | nil => rfl
  | cons e a ih => cases e <;> simp [startedIn, ih]

/-- No transfer on a control pipe. -/
def Silent (es : List Event) : Prop := ∀ e ∈ es, ∀ p x, e = .io p x → ¬ Transfer x

/-- The window station is not touched and the current desktop not asked for. -/
def Calm (es : List Event) : Prop :=
  ∀ e ∈ es, (∀ st ok, e ≠ .setStation st ok) ∧ (∀ n, e ≠ .currentDesktop n)

theorem only_silent {l es : List Event} (h : OnlyToAgent l) (hs : Silent es) : OnlyToAgent (l ++ es) := by
  intro pre pipe e post heq ht
  rcases List.append_eq_append_iff.1 heq with ⟨a, h1, h2⟩ | ⟨a, h1, h2⟩
  · exact absurd ht (hs (.io pipe e) (by rw [h2]; simp) pipe e rfl)
  · cases a with
    | nil =>
      simp only [List.nil_append] at h2
      exact absurd ht (hs (.io pipe e) (by rw [← h2]; simp) pipe e rfl)
    | cons x a =>
      simp only [List.cons_append, List.cons.injEq] at h2
      obtain ⟨rfl, _⟩ := h2
      exact h pre pipe e a h1 ht

theorem only_io {l : List Event} {q : Int} (es : List Client.Event) (h : OnlyToAgent l)
    (hq : q ∈ (peersAfter {} l).pipes) : OnlyToAgent (l ++ es.map (.io q)) := by
  intro pre pipe e post heq ht
  rcases List.append_eq_append_iff.1 heq with ⟨a, h1, h2⟩ | ⟨a, h1, h2⟩
  · obtain ⟨es1, es2, he, ha, hb⟩ := List.map_eq_append_iff.1 h2
    cases es2 with
    | nil => simp at hb
    | cons x es2 =>
      simp only [List.map_cons, List.cons.injEq, Event.io.injEq] at hb
      rw [h1, ← ha, peersAfter_append, peersAfter_io, ← hb.1.1]
      exact hq
  · cases a with
    | nil =>
      simp only [List.nil_append] at h2
      cases es with
      | nil => cases h2
      | cons x es =>
        simp only [List.map_cons, List.cons.injEq, Event.io.injEq] at h2
        simp only [List.append_nil] at h1
        rw [← h1, h2.1.1]
        exact hq
    | cons x a =>
      simp only [List.cons_append, List.cons.injEq] at h2
      obtain ⟨rfl, _⟩ := h2
      exact h pre pipe e a h1 ht

theorem stationAfter_calm {es : List Event} (h : Calm es) : ∀ st, stationAfter st es = st := by
  induction es with
  | nil => intro st; rfl
  | cons e es ih =>
    intro st
    have ih' := ih fun x hx => h x (by simp [hx])
    have h1 := (h e (by simp)).1
    cases e with
    | setStation s ok => exact absurd rfl (h1 s ok)
    | _ => simp only [stationAfter, ih']

theorem calm_append {a b : List Event} (ha : Calm a) (hb : Calm b) : Calm (a ++ b) := by
  intro e he
  rcases List.mem_append.1 he with h | h
  · exact ha e h
  · exact hb e h

theorem calm_io (p : Int) (es : List Client.Event) : Calm (es.map (.io p)) := by
  intro e he
  obtain ⟨x, _, rfl⟩ := List.mem_map.1 he
  exact ⟨(fun _ _ h => by cases h), (fun _ h => by cases h)⟩

theorem startedIn_io (p : Int) (es : List Client.Event) : startedIn (es.map (.io p)) = [] := by
  induction es with
  | nil => rfl
  | cons e es ih => simp [startedIn, ih]

/-- The objects that are open. -/
def Holds (objs : List (Kind × Int)) (log : List Event) : Prop :=
  ∃ l, openAfter [] log = some l ∧ l.Perm objs

theorem Holds.perm {a b : List (Kind × Int)} {log : List Event} (h : Holds a log) (p : a.Perm b) :
    Holds b log := by
  obtain ⟨l, h1, h2⟩ := h
  exact ⟨l, h1, h2.trans p⟩

theorem Holds.io {a : List (Kind × Int)} {log : List Event} (h : Holds a log) (p : Int)
    (es : List Client.Event) : Holds a (log ++ es.map (.io p)) := by
  obtain ⟨l, h1, h2⟩ := h
  exact ⟨l, by rw [openAfter_append, h1, Option.bind_some, openAfter_io], h2⟩

theorem Holds.opened {a : List (Kind × Int)} {log : List Event} (h : Holds a log) (k : Kind) (x : Int) :
    Holds ((k, x) :: a) (log ++ [.opened k x]) := by
  obtain ⟨l, h1, h2⟩ := h
  exact ⟨(k, x) :: l, by rw [openAfter_append, h1, Option.bind_some]; rfl, h2.cons _⟩

theorem Holds.closed {a : List (Kind × Int)} {log : List Event} {k : Kind} {x : Int}
    (h : Holds ((k, x) :: a) log) : Holds a (log ++ [.closed k x]) := by
  obtain ⟨l, h1, h2⟩ := h
  refine ⟨l.erase (k, x), ?_, ?_⟩
  · rw [openAfter_append, h1, Option.bind_some]
    simp only [openAfter]
    rw [if_pos (h2.mem_iff.2 (by simp))]
  · have := h2.erase (k, x)
    rwa [List.erase_cons_head] at this

theorem Holds.other {a : List (Kind × Int)} {log : List Event} (h : Holds a log) (e : Event)
    (h1 : ∀ k x, e ≠ .opened k x) (h2 : ∀ k x, e ≠ .closed k x) : Holds a (log ++ [e]) := by
  obtain ⟨l, h3, h4⟩ := h
  refine ⟨l, ?_, h4⟩
  rw [openAfter_append, h3, Option.bind_some]
  cases e with
  | opened k x => exact absurd rfl (h1 k x)
  | closed k x => exact absurd rfl (h2 k x)
  | _ => rfl

/-! ## What a computation guarantees -/

/-- `r` ends in `P` (value), `Q` (exception) or `O` (process aborted, or not come back). -/
def Sat {α : Type} (r : R α) (P : α → W → Prop) (Q O : W → Prop) : Prop :=
  match r with
  | .ok a w => P a w
  | .throw _ w => Q w
  | .abort w => O w
  | .wait w => O w

theorem Sat.bind {α β : Type} {r : R α} {f : α → W → R β} {P : α → W → Prop} {P' : β → W → Prop}
    {Q O : W → Prop} (h : Sat r P Q O) (hf : ∀ a w, P a w → Sat (f a w) P' Q O) :
    Sat (r.bind f) P' Q O := by
  cases r with
  | ok a w => exact hf a w h
  | throw e w => exact h
  | abort w => exact h
  | wait w => exact h

theorem Sat.onThrow {α : Type} {r : R α} {P : α → W → Prop} {Q Q' O : W → Prop} {c : W → W}
    (h : Sat r P Q O) (hc : ∀ w, Q w → Q' (c w)) : Sat (r.onThrow c) P Q' O := by
  cases r with
  | ok a w => exact h
  | throw e w => exact hc w h
  | abort w => exact h
  | wait w => exact h

theorem Sat.mono {α : Type} {r : R α} {P P' : α → W → Prop} {Q Q' O O' : W → Prop}
    (h : Sat r P Q O) (hP : ∀ a w, P a w → P' a w) (hQ : ∀ w, Q w → Q' w) (hO : ∀ w, O w → O' w) :
    Sat r P' Q' O' := by
  cases r with
  | ok a w => exact hP a w h
  | throw e w => exact hQ w h
  | abort w => exact hO w h
  | wait w => exact hO w h

theorem Sat.and {α : Type} {r : R α} {P P' : α → W → Prop} {Q Q' O O' : W → Prop}
    (h : Sat r P Q O) (h' : Sat r P' Q' O') :
    Sat r (fun a w => P a w ∧ P' a w) (fun w => Q w ∧ Q' w) (fun w => O w ∧ O' w) := by
  cases r with
  | ok a w => exact ⟨h, h'⟩
  | throw e w => exact ⟨h, h'⟩
  | abort w => exact ⟨h, h'⟩
  | wait w => exact ⟨h, h'⟩

theorem ask_sat {α : Type} {w : W} {x : Except Nat α} {m : String} {P : W → Prop} (h : P w) :
    Sat (ask w x m) (fun a w' => x = .ok a ∧ P w') P P := by
  cases x with
  | ok a => exact ⟨rfl, h⟩
  | error c => exact h

theorem decoded_sat {α : Type} {c : Client.Cfg} {w : W} {r : Buffer.Res α} {P : W → Prop} (h : P w) :
    Sat (decoded c w r) (fun a w' => r = .ok a.1 a.2 ∧ P w') P P := by
  cases r with
  | ok a off => exact ⟨rfl, h⟩
  | decodeError => exact h
  | allocError => exact h
  | assertFail => exact h

/-- Only the control pipe is used. -/
theorem onPipe_sat {α : Type} {w : W} {p : Int} {f : Client.World → Client.R α} {P : W → Prop}
    (h : ∀ ios (es : List Client.Event), P ⟨ios, w.log ++ es.map (.io p)⟩) : Sat (onPipe w p f) (fun _ => P) P P := by
  unfold onPipe
  split <;> exact h _ _

/-! ## Starting an agent: objects and peers -/

/-- The objects of a session. -/
def objects (s : Session) : List (Kind × Int) :=
  [(.event, s.event), (.pipe, s.pipe), (.process, s.process)]

/-- The objects open, and nothing said to anyone but the agent. -/
def Inv (objs : List (Kind × Int)) (w : W) : Prop := Holds objs w.log ∧ OnlyToAgent w.log

theorem only_other {l : List Event} (h : OnlyToAgent l) (e : Event) (he : ∀ p x, e ≠ .io p x) :
    OnlyToAgent (l ++ [e]) :=
  only_silent h fun e' he' p x hx => by
    simp only [List.mem_singleton] at he'
    exact absurd (he' ▸ hx) (he p x)

theorem Inv.opened {a : List (Kind × Int)} {w : W} (h : Inv a w) (k : Kind) (x : Int) :
    Inv ((k, x) :: a) (w.add [.opened k x]) :=
  ⟨h.1.opened k x, only_other h.2 _ fun _ _ h => by cases h⟩

theorem Inv.closed {a : List (Kind × Int)} {w : W} {k : Kind} {x : Int} (h : Inv ((k, x) :: a) w) :
    Inv a (w.add [.closed k x]) :=
  ⟨h.1.closed, only_other h.2 _ fun _ _ h => by cases h⟩

theorem Inv.other {a : List (Kind × Int)} {w : W} (h : Inv a w) (e : Event)
    (h1 : ∀ k x, e ≠ .opened k x) (h2 : ∀ k x, e ≠ .closed k x) (h3 : ∀ p x, e ≠ .io p x) :
    Inv a (w.add [e]) :=
  ⟨h.1.other e h1 h2, only_other h.2 _ h3⟩

theorem add_cons (w : W) (e : Event) (es : List Event) : w.add (e :: es) = (w.add [e]).add es := by
  simp [W.add]

theorem add_append (w : W) (a b : List Event) : w.add (a ++ b) = (w.add a).add b := by
  simp [W.add]

theorem destroy_inv {objs : List (Kind × Int)} {s : Session} {w : W} (h : Inv (objects s ++ objs) w) :
    Inv objs (destroy s w) := by
  unfold destroy
  rw [add_cons, add_cons]
  exact ((Inv.closed h).closed).closed

theorem createEvent_inv {objs : List (Kind × Int)} {env : AgentEnv} {w : W} (h : Inv objs w) :
    Sat (createEvent env w) (fun e => Inv ((.event, e) :: objs)) (Inv objs) (fun w => OnlyToAgent w.log) := by
  unfold createEvent
  refine Sat.bind (P := fun _ => Inv objs) ?_ fun e w hw => hw.opened .event e
  exact (ask_sat h).mono (fun _ _ h => h.2) (fun _ h => h) (fun _ h => h.2)

theorem createControlPipe_inv {objs : List (Kind × Int)} {env : AgentEnv} {w : W} {name : List Nat}
    (h : Inv objs w) :
    Sat (createControlPipe env w name) (fun p => Inv ((.pipe, p) :: objs)) (Inv objs)
      (fun w => OnlyToAgent w.log) := by
  unfold createControlPipe
  split
  · exact h
  · exact h
  · refine Sat.bind (P := fun _ => Inv objs) ?_ fun e w hw => ?_
    · exact (ask_sat h).mono (fun _ _ h => h.2) (fun _ h => h) (fun _ h => h.2)
    · rw [add_cons]
      exact (hw.opened .pipe e).other _ (fun _ _ h => by cases h) (fun _ _ h => by cases h)
        (fun _ _ h => by cases h)

theorem startAgentProcess_inv {objs : List (Kind × Int)} {env : AgentEnv} {hide : Bool} {w : W}
    {desktop name params : List Nat} {flags : Nat} (h : Inv objs w) :
    Sat (startAgentProcess env hide w desktop name params flags)
      (fun a w => Inv ((.process, a.2) :: objs) w ∧ (peersAfter {} w.log).lastPid = some a.1)
      (Inv objs) (fun w => OnlyToAgent w.log) := by
  unfold startAgentProcess
  refine Sat.bind (P := fun _ => Inv objs) ?_ fun exe w hw => ?_
  · unfold findAgentProgram
    split <;> exact h
  · cases hp : env.process with
    | error c => exact hw.other _ (fun _ _ h => by cases h) (fun _ _ h => by cases h) (fun _ _ h => by cases h)
    | ok a =>
      obtain ⟨pid, hP, hT⟩ := a
      constructor
      · rw [add_cons, add_cons, add_cons]
        exact ((((hw.other _ (fun _ _ h => by cases h) (fun _ _ h => by cases h)
          (fun _ _ h => by cases h)).opened .process hP).opened .thread hT)).closed
      · simp only [W.add, peersAfter_append, peersAfter]

/-- What `connectControlPipe` logs. -/
def ConnectLog (log : List Client.Event) : Prop :=
  ∀ e ∈ log, e = .connect ∨ e = .pending ∨ e = .cancel ∨ e = .reaped

theorem connect_log (ios : List Client.Io) :
    match connectControlPipe ⟨ios, [], []⟩ with
    | .ok _ v => ConnectLog v.log
    | .throw _ v => ConnectLog v.log
    | .abort v => ConnectLog v.log
    | .wait v => ConnectLog v.log := by
  have h1 : ConnectLog [.connect] := by intro e he; simp at he; simp [he]
  have h2 : ConnectLog [.connect, .pending] := by
    intro e he; simp at he; rcases he with rfl | rfl <;> simp
  have h3 : ConnectLog [.connect, .pending, .reaped] := by
    intro e he; simp at he; rcases he with rfl | rfl | rfl <;> simp
  have h4 : ConnectLog [.connect, .pending, .cancel, .reaped] := by
    intro e he; simp at he; rcases he with rfl | rfl | rfl | rfl <;> simp
  unfold connectControlPipe Client.overlapped
  cases ios with
  | nil => exact h1
  | cons i rest =>
    cases i with
    | now d =>
      cases d with
      | ok n d => exact h1
      | fail c => simp only [Client.R.bind]; split <;> rename_i h <;> split at h <;> cases h <;> exact h1
    | pending x =>
      cases x with
      | io d =>
        cases d with
        | ok n d => exact h3
        | fail c =>
          simp only [Client.R.bind, Client.handlePendingIo]
          split <;> rename_i h <;> split at h <;> cases h <;> exact h3
      | agentDied => exact h4
      | timeout => exact h4
      | failed c => exact h4
      | other => exact h2

/-- Waiting for the agent: nothing is transferred. -/
theorem connect_sat {w : W} {p : Int} {P : W → Prop}
    (h : ∀ ios es, ConnectLog es → P ⟨ios, w.log ++ es.map (.io p)⟩) :
    Sat (onPipe w p connectControlPipe) (fun _ => P) P P := by
  have hc := connect_log w.ios
  unfold onPipe
  split <;> rename_i he <;> rw [he] at hc <;> exact h _ _ hc

theorem connectLog_silent {es : List Client.Event} {p : Int} (h : ConnectLog es) :
    Silent (es.map (.io p)) := by
  intro e he q x hx
  obtain ⟨y, hy, rfl⟩ := List.mem_map.1 he
  cases hx
  rcases h x hy with rfl | rfl | rfl | rfl <;> exact id

theorem verify_inv {objs : List (Kind × Int)} {env : AgentEnv} {w : W} {p : Int} {pid : Nat}
    (h : Inv objs w) (hp : (peersAfter {} w.log).lastPid = some pid) :
    Sat (verifyPipeClientPid env w p pid)
      (fun _ w' => Inv objs w' ∧ p ∈ (peersAfter {} w'.log).pipes) (Inv objs) (fun _ => False) := by
  have hi : Inv objs (w.add [.clientPid p env.clientPid]) :=
    h.other _ (fun _ _ h => by cases h) (fun _ _ h => by cases h) (fun _ _ h => by cases h)
  unfold verifyPipeClientPid
  split
  · rename_i n hn
    split
    · exact hi
    · rename_i hne
      refine ⟨hi, ?_⟩
      have : n = pid := Classical.not_not.1 hne
      simp [W.add, peersAfter_append, hn, peersAfter, hp, this]
  · rename_i hn
    refine ⟨hi, ?_⟩
    simp [W.add, peersAfter_append, hn, peersAfter]
  · exact hi

theorem createAgentSession_inv {objs : List (Kind × Int)} {cfg : Startup.Config} {env : AgentEnv}
    {hide : Bool} {w : W} {desktop params : List Nat} {flags : Nat} (h : Inv objs w) :
    Sat (createAgentSession cfg env hide w desktop params flags)
      (fun s w' => Inv (objects s ++ objs) w' ∧ s.pipe ∈ (peersAfter {} w'.log).pipes)
      (Inv objs) (fun w' => OnlyToAgent w'.log) := by
  unfold createAgentSession
  refine Sat.bind (createEvent_inv h) fun ev w h => ?_
  refine Sat.bind (Sat.onThrow (createControlPipe_inv h) fun w h => h.closed) fun p w h => ?_
  refine Sat.bind (Sat.onThrow (startAgentProcess_inv h) fun w h => ?_) fun a w h => ?_
  · rw [add_cons]
    refine Inv.closed (k := .pipe) (x := p) (Inv.closed (k := .event) (x := ev) ⟨?_, h.2⟩)
    exact h.1.perm (List.Perm.swap _ _ _)
  · obtain ⟨h, hpid⟩ := h
    have hperm : List.Perm ((Kind.process, a.2) :: (Kind.pipe, p) :: (Kind.event, ev) :: objs)
        ((Kind.event, ev) :: (Kind.pipe, p) :: (Kind.process, a.2) :: objs) := by
      refine (List.Perm.swap _ _ _).trans ?_
      refine (List.Perm.cons _ (List.Perm.swap _ _ _)).trans ?_
      refine (List.Perm.swap _ _ _).trans ?_
      exact (List.Perm.refl _)
    have h' : Inv (objects ⟨a.2, p, ev, cfg.timeoutMs, [], [], [], []⟩ ++ objs) w :=
      ⟨h.1.perm hperm, h.2⟩
    refine Sat.bind (P := fun _ w => Inv (objects ⟨a.2, p, ev, cfg.timeoutMs, [], [], [], []⟩ ++ objs) w ∧
      (peersAfter {} w.log).lastPid = some a.1) (Sat.onThrow (Q := fun w =>
        Inv (objects ⟨a.2, p, ev, cfg.timeoutMs, [], [], [], []⟩ ++ objs) w) ?_ fun w h => destroy_inv h)
      fun _ w h => ?_
    · refine (connect_sat (P := fun w => Inv (objects ⟨a.2, p, ev, cfg.timeoutMs, [], [], [], []⟩ ++ objs) w ∧
        (peersAfter {} w.log).lastPid = some a.1) fun ios es hes => ?_).mono (fun _ _ h => h)
        (fun _ h => h.1) (fun _ h => h.1.2)
      exact ⟨⟨h'.1.io p es, only_silent h'.2 (connectLog_silent hes)⟩,
        by simpa only [peersAfter_append, peersAfter_io] using hpid⟩
    · exact Sat.bind (Sat.onThrow (verify_inv h.1 h.2 |>.mono (fun _ _ h => h) (fun _ h => h)
        (fun _ h => h.elim)) fun w h => destroy_inv h) fun _ w h => h

/-! ## The background desktop -/

/-- The objects of a background desktop. -/
def Background.objects (b : Background) : List (Kind × Int) :=
  (b.desktop.toList.map fun h => (Kind.desktop, h)) ++ (b.station.toList.map fun h => (Kind.station, h))

theorem dispose_one {objs : List (Kind × Int)} {k : Kind} {x : Option Int} {w : W} :
    Inv ((x.toList.map fun h => (k, h)) ++ objs) w →
    Inv objs (w.add (match x with | some h => [Event.closed k h] | none => [])) := by
  intro h
  cases x with
  | none => simpa [W.add] using h
  | some y => exact Inv.closed h

theorem Background.dispose_inv {objs : List (Kind × Int)} {b : Background} {restore : Bool} {w : W}
    (h : Inv (b.objects ++ objs) w) : Inv objs (b.dispose restore w) := by
  unfold Background.dispose
  rw [add_append, add_append]
  refine dispose_one (dispose_one ?_)
  rw [← List.append_assoc]
  change Inv (b.objects ++ objs) _
  split
  · exact h.other _ (fun _ _ h => by cases h) (fun _ _ h => by cases h) (fun _ _ h => by cases h)
  · simpa [W.add] using h

theorem desktopName_sat {w : W} {a b : Except Nat (List Nat)} {P : W → Prop} (h : P w) :
    Sat (desktopName w a b) (fun n w' => n ≠ [] ∧ P w') P P := by
  unfold desktopName
  refine Sat.bind (ask_sat h) fun x w h => Sat.bind (ask_sat h.2) fun y w h => ?_
  exact ⟨by simp, h.2⟩

theorem Background.new_inv {objs : List (Kind × Int)} {env : DesktopEnv} {w : W} (h : Inv objs w) :
    Sat (Background.new env w) (fun b w' => Inv (b.objects ++ objs) w') (Inv objs)
      (fun w' => OnlyToAgent w'.log) := by
  unfold Background.new
  refine Sat.bind ((ask_sat h).mono (fun _ _ h => h.2) (fun _ h => h) (fun _ h => h.2)) fun o w h => ?_
  refine Sat.bind (Sat.onThrow ((ask_sat h).mono (fun _ _ h => h.2) (fun _ h => h) (fun _ h => h.2))
    fun w h => Background.dispose_inv (by simpa [Background.objects] using h)) fun s w h => ?_
  refine Sat.bind (Sat.onThrow ((ask_sat (P := Inv ((.station, s) :: objs)) ?_).mono (fun _ _ h => h.2)
    (fun _ h => h) (fun _ h => h.2))
    fun w h => Background.dispose_inv (by simpa [Background.objects] using h)) fun _ w h => ?_
  · rw [add_cons]
    exact (h.opened .station s).other _ (fun _ _ h => by cases h) (fun _ _ h => by cases h)
      (fun _ _ h => by cases h)
  refine Sat.bind (Sat.onThrow ((ask_sat h).mono (fun _ _ h => h.2) (fun _ h => h) (fun _ h => h.2))
    fun w h => Background.dispose_inv (by simpa [Background.objects] using h)) fun d w h => ?_
  refine Sat.bind (Sat.onThrow ((desktopName_sat (P := Inv ((.desktop, d) :: (.station, s) :: objs))
    (h.opened .desktop d)).mono (fun _ _ h => h.2) (fun _ h => h) (fun _ h => h.2))
    fun w h => Background.dispose_inv (by simpa [Background.objects] using h)) fun n w h => ?_
  simpa [Background.objects, Sat] using h

/-- The objects of the desktop the agent is to run on. -/
def AgentDesktop.objects : Option AgentDesktop → List (Kind × Int)
  | none => []
  | some (.direct b) => b.objects
  | some (.indirect s _) => Open.objects s

theorem AgentDesktop.dispose_inv {objs : List (Kind × Int)} {d : Option AgentDesktop} {restore : Bool}
    {w : W} (h : Inv (AgentDesktop.objects d ++ objs) w) : Inv objs (AgentDesktop.dispose restore d w) := by
  cases d with
  | none => exact h
  | some d =>
    cases d with
    | direct b => exact Background.dispose_inv h
    | indirect s n => exact destroy_inv h

theorem Inv.io {objs : List (Kind × Int)} {w : W} {p : Int} (h : Inv objs w)
    (hp : p ∈ (peersAfter {} w.log).pipes) (ios : List Client.Io) (es : List Client.Event) :
    Inv objs ⟨ios, w.log ++ es.map (.io p)⟩ :=
  ⟨h.1.io p es, only_io es h.2 hp⟩

theorem setup_inv {c : Client.Cfg} {cfg : Startup.Config} {env : Env} {w : W} (h : Inv [] w) :
    Sat (setupBackgroundDesktop c cfg env w) (fun d w' => Inv (AgentDesktop.objects d ++ []) w') (Inv [])
      (fun w' => OnlyToAgent w'.log) := by
  unfold setupBackgroundDesktop
  split
  · split
    · refine Sat.bind (createAgentSession_inv h) fun s w h => ?_
      refine Sat.bind (Sat.onThrow (Q := Inv (objects s ++ [])) (P := fun _ => Inv (objects s ++ [])) ?_
        fun w h => destroy_inv h) fun n w h => ?_
      · unfold readDesktopName
        refine Sat.bind (P := fun _ => Inv (objects s ++ [])) ?_ fun p w h => ?_
        · exact (onPipe_sat (P := Inv (objects s ++ [])) fun ios es => h.1.io h.2 ios es).mono
            (fun _ _ h => h) (fun _ h => h) (fun _ h => h.2)
        · refine Sat.bind ((decoded_sat h).mono (fun _ _ h => h.2) (fun _ h => h) (fun _ h => h.2))
            fun a w h => ?_
          refine Sat.bind ((decoded_sat h).mono (fun _ _ h => h.2) (fun _ h => h) (fun _ h => h.2))
            fun a w h => h
      · split
        · exact destroy_inv h
        · exact h
    · have hb := Background.new_inv (env := env.background) h
      split <;> rename_i he <;> rw [he] at hb <;> exact hb
  · exact h

theorem getCurrentDesktopName_inv {objs : List (Kind × Int)} {env : Env} {w : W} (p : Int) (h : Inv objs w)
    (hp : p ∈ (peersAfter {} w.log).pipes) :
    Sat (getCurrentDesktopName env w) (fun _ w' => Inv objs w' ∧ p ∈ (peersAfter {} w'.log).pipes)
      (Inv objs) (fun w' => OnlyToAgent w'.log) := by
  unfold getCurrentDesktopName
  have hh : (fun w' : W => Inv objs w' ∧ p ∈ (peersAfter {} w'.log).pipes) w := ⟨h, hp⟩
  refine Sat.bind ((ask_sat (P := fun w' : W => Inv objs w' ∧ p ∈ (peersAfter {} w'.log).pipes) hh).mono
    (fun _ _ h => h.2) (fun _ h => h.1) (fun _ h => h.1.2)) fun _ w h => ?_
  refine Sat.bind ((ask_sat (P := fun w' : W => Inv objs w' ∧ p ∈ (peersAfter {} w'.log).pipes) h).mono
    (fun _ _ h => h.2) (fun _ h => h.1) (fun _ h => h.1.2)) fun _ w h => ?_
  refine Sat.bind ((desktopName_sat (P := fun w' : W => Inv objs w' ∧ p ∈ (peersAfter {} w'.log).pipes)
    h).mono (fun _ _ h => h.2) (fun _ h => h.1) (fun _ h => h.1.2)) fun n w h => ?_
  exact ⟨h.1.other _ (fun _ _ h => by cases h) (fun _ _ h => by cases h) (fun _ _ h => by cases h),
    by simpa [W.add, peersAfter_append, peersAfter] using h.2⟩

theorem readNames_inv {objs : List (Kind × Int)} {c : Client.Cfg} {b : Bool} {w : W} {s : Session}
    (h : Inv objs w) (hp : s.pipe ∈ (peersAfter {} w.log).pipes) :
    Sat (readNames c b w s) (fun s' w' => Inv objs w' ∧ objects s' = objects s) (Inv objs)
      (fun w' => OnlyToAgent w'.log) := by
  unfold readNames
  refine Sat.bind (P := fun _ => Inv objs) ?_ fun pk w h => ?_
  · exact (onPipe_sat (P := Inv objs) fun ios es => h.io hp ios es).mono
      (fun _ _ h => h) (fun _ h => h) (fun _ h => h.2)
  · refine Sat.bind ((decoded_sat h).mono (fun _ _ h => h.2) (fun _ h => h) (fun _ h => h.2)) fun _ w h => ?_
    refine Sat.bind ((decoded_sat h).mono (fun _ _ h => h.2) (fun _ h => h) (fun _ h => h.2)) fun _ w h => ?_
    refine Sat.bind (P := fun _ => Inv objs) ?_ fun _ w h => ?_
    · split
      · exact (decoded_sat h).mono (fun _ _ h => h.2) (fun _ h => h) (fun _ h => h.2)
      · exact h
    refine Sat.bind ((decoded_sat h).mono (fun _ _ h => h.2) (fun _ h => h) (fun _ h => h.2)) fun _ w h => ?_
    exact ⟨h, rfl⟩

theorem openBody_inv (c : Client.Cfg) (cfg : Startup.Config) (env : Env) (ios : List Client.Io) :
    Sat (openBody c cfg env ⟨ios, []⟩) (fun s w' => Inv (objects s) w') (Inv [])
      (fun w' => OnlyToAgent w'.log) := by
  unfold openBody
  have h0 : Inv [] ⟨ios, []⟩ := ⟨⟨[], rfl, .nil⟩, by intro pre p e post h; simp at h⟩
  refine Sat.bind (setup_inv h0) fun d w h => ?_
  refine Sat.bind (Sat.onThrow (createAgentSession_inv h) fun w h => AgentDesktop.dispose_inv h)
    fun s w h => ?_
  have h1 : Inv (objects s) (AgentDesktop.dispose env.background.restore d w) := by
    refine AgentDesktop.dispose_inv (objs := objects s) ⟨h.1.1.perm ?_, h.1.2⟩
    rw [List.append_nil]
    exact List.perm_append_comm
  have h2 : s.pipe ∈ (peersAfter {} (AgentDesktop.dispose env.background.restore d w).log).pipes := by
    have hh := h.2
    cases d with
    | none => exact hh
    | some d =>
      cases d with
      | direct b =>
        obtain ⟨o, st, dk, n⟩ := b
        cases o <;> cases st <;> cases dk <;> cases env.background.restore <;>
          simpa [AgentDesktop.dispose, Background.dispose, W.add, peersAfter_append, peersAfter] using hh
      | indirect s' n =>
        simpa [AgentDesktop.dispose, destroy, W.add, peersAfter_append, peersAfter] using hh
  refine Sat.onThrow (Q := Inv (objects s ++ [])) ?_ fun w h => destroy_inv h
  unfold finishOpen
  rw [List.append_nil]
  refine Sat.bind (P := fun _ w' => Inv (objects s) w' ∧ s.pipe ∈ (peersAfter {} w'.log).pipes) ?_
    fun n w h => ?_
  · split
    · exact ⟨h1, h2⟩
    · exact getCurrentDesktopName_inv _ h1 h2
  · exact (readNames_inv (s := { s with spawnDesktopName := n }) h.1 h.2).mono
      (fun s' w' h => by have h' := h.1; rw [show objects s = objects s' from h.2.symm] at h'; exact h') (fun _ h => h) (fun _ h => h)

end Winpty.Open
