import Verif.Spec.EventLoop
import Verif.Spec.Agent
import Verif.Props.Agent

/-!
# C73: the agent polls regularly, whatever the pipes do, and waits for all that is in progress
-/
namespace Winpty.EventLoop

open Winpty.Agent (Cfg State Tick PipeTick PollEnv)
open Winpty.NamedPipe (WaitOn)
open Winpty.Spec.EventLoop

/-! ## The clock -/

theorem tickCount_range (now : Nat) : 0 ≤ tickCount now ∧ tickCount now < 2 ^ 32 := by
  unfold tickCount; omega

theorem elapsed_exact {since now : Nat} (h1 : since ≤ now) (h2 : (now : Int) < since + 2 ^ 31) :
    toInt (tickCount now - tickCount since) = now - since := by
  have e : (tickCount now - tickCount since) % 2 ^ 32 = now - since := by unfold tickCount; omega
  unfold toInt
  rw [e, if_pos (by omega)]

theorem timeout_exact {since now : Nat} {i : Int} (h0 : 0 < i) (h1 : since ≤ now)
    (h2 : (now : Int) < since + i + 2 ^ 31) (hi : i < 2 ^ 31) :
    timeout i (tickCount since) now = max 0 (since + i - now) := by
  unfold timeout
  rw [if_pos h0]
  unfold toInt
  by_cases h : (now : Int) ≤ since + i
  · have e : (tickCount since + i - tickCount now) % 2 ^ 32 = since + i - now := by unfold tickCount; omega
    rw [e, if_pos (by omega)]
  · have e : (tickCount since + i - tickCount now) % 2 ^ 32 = since + i - now + 2 ^ 32 := by
      unfold tickCount; omega
    rw [e, if_neg (by omega)]
    omega

/-! ## A run -/

theorem pause_cases {interval last : Int} {asked : Nat} {hs : List (Which × WaitOn)} {p : Pause}
    (h : pause interval last asked hs = some p) :
    p = .sleep (timeout interval last asked) ∨ p = .wait hs (timeout interval last asked) := by
  unfold pause at h
  split at h
  · split at h
    · cases h
    · cases h; exact .inl rfl
  · cases h; exact .inr rfl

theorem turn_cases {cfg : Cfg} {interval last : Int} {s : State} {t : Tick} {e : PollEnv} {times : Times}
    {d : Done} (h : turn cfg interval s last t e times = some d) :
    ∃ p, pass cfg s t = some p ∧
    ((due interval last times.check = true ∧ d.polled = true ∧ d.last = tickCount times.polled ∧
        d.pause = .again ∧ Agent.onPollTimeout cfg p.agent e = some d.agent) ∨
     (due interval last times.check = false ∧ d.polled = false ∧ d.last = last ∧ d.agent = p.agent ∧
        ((p.did = true ∧ d.pause = .again) ∨
         (p.did = false ∧ pause interval last times.asked p.handles = some d.pause)))) := by
  unfold turn at h
  split at h
  · cases h
  · rename_i p hp
    refine ⟨p, hp, ?_⟩
    split at h
    · rename_i hd
      split at h
      · cases h
      · rename_i s' hs
        cases h
        exact .inl ⟨hd, rfl, rfl, rfl, hs⟩
    · rename_i hd
      right
      rw [Bool.not_eq_true] at hd
      split at h
      · rename_i hdid
        cases h
        exact ⟨hd, rfl, rfl, rfl, .inl ⟨hdid, rfl⟩⟩
      · rename_i hdid
        split at h
        · cases h
        · rename_i w hw
          cases h
          exact ⟨hd, rfl, rfl, rfl, .inr ⟨by simpa using hdid, hw⟩⟩

/-- What holds at the beginning of every turn. -/
theorem run_inv {cfg : Cfg} {busy late : Nat} (hb : busy + busy + late + 25 < 2 ^ 31) {s0 : State} {start now : Nat}
    {s : State} {last : Int} {since : Nat} {polls : List (Nat × Nat)}
    (h : Run cfg busy late s0 start now s last since polls) :
    last = tickCount since ∧ since ≤ now ∧ now ≤ since + 25 + busy + late ∧
    ∀ x ∈ polls, x.1 + 25 ≤ x.2 ∧ x.2 ≤ x.1 + 25 + 2 * busy + late := by
  induction h with
  | start => exact ⟨rfl, Nat.le_refl _, by omega, fun x hx => by cases hx⟩
  | @turn now since s last polls d t e times next hr hx ht h1 h2 h3 h4 h5 ih =>
    obtain ⟨rfl, i1, i2, i3⟩ := ih
    obtain ⟨p, hp, hcase⟩ := turn_cases ht
    have hcheck : times.check ≤ now + busy := by
      rcases hcase with ⟨_, _, _, g, _⟩ | ⟨_, _, _, _, ⟨_, g⟩ | ⟨_, g⟩⟩
      · rw [g] at h5; simp only [EndsBy] at h5; omega
      · rw [g] at h5; simp only [EndsBy] at h5; omega
      · rcases pause_cases g with g | g <;> rw [g] at h5 <;> simp only [EndsBy] at h5 <;> omega
    have hdue : due agentInterval (tickCount since) times.check = true ↔ since + 25 ≤ times.check := by
      unfold due agentInterval
      rw [elapsed_exact (by omega) (by omega)]
      simp only [Bool.and_eq_true, decide_eq_true_eq]
      omega
    rcases hcase with ⟨g1, g2, g3, g4, _⟩ | ⟨g1, g2, g3, _, g5⟩
    · rw [g2, if_pos rfl, if_pos rfl]
      have := hdue.mp g1
      rw [g4] at h5
      simp only [EndsBy] at h5
      refine ⟨g3, by omega, by omega, ?_⟩
      intro x hx
      rcases List.mem_append.mp hx with hx | hx
      · exact i3 x hx
      · simp only [List.mem_singleton] at hx
        subst hx
        simp only
        omega
    · rw [g2]
      simp only [Bool.false_eq_true, if_false]
      have hnot : times.check < since + 25 := by
        rcases Nat.lt_or_ge times.check (since + 25) with g | g
        · exact g
        · rw [hdue.mpr g] at g1; cases g1
      refine ⟨g3, by omega, ?_, i3⟩
      rcases g5 with ⟨_, g⟩ | ⟨_, g⟩
      · rw [g] at h5; simp only [EndsBy] at h5; omega
      · have ht : times.asked ≤ now + busy → timeout agentInterval (tickCount since) times.asked =
            max 0 (since + agentInterval - times.asked) := fun _ =>
          timeout_exact (by decide) (by omega) (by unfold agentInterval; omega) (by decide)
        unfold agentInterval at ht
        rcases pause_cases g with g | g <;> rw [g] at h5 <;> simp only [EndsBy, agentInterval] at h5 <;>
          rw [ht h5.1] at h5 <;> omega

/-! ## The input pipe is always read empty -/

open Winpty.Agent in
theorem conin_autoClose {s s' : State} (h : autoClosePipesForShutdown s = some s') : s'.conin = s.conin := by
  unfold autoClosePipesForShutdown at h
  split at h
  · simp only [Option.bind_eq_some_iff, Option.some.injEq] at h
    obtain ⟨s1, h1, s2, h2, rfl⟩ := h
    have e1 : s1.conin = s.conin := by
      unfold closeConoutIfDone at h1
      repeat' split at h1
      all_goals first | cases h1; rfl | cases h1
    have e2 : s2.conin = s1.conin := by
      unfold closeConerrIfDone at h2
      repeat' split at h2
      all_goals first | cases h2; rfl | cases h2
    rw [← e1, ← e2]
    unfold exitIfDone
    split <;> rfl
  · cases h; rfl

open Winpty.Agent in
theorem conin_control {cfg : Cfg} {s s' : State} {t : Tick} (h : tickControl cfg s t = some s') :
    s'.conin = s.conin := by
  unfold tickControl at h
  split at h
  · cases h
  · split at h
    · unfold pollControlPipe at h
      split at h
      · cases h; rfl
      · split at h
        · cases h
        · rename_i a ha
          cases h
          exact (pollLoop_writes _ _ _ _ ha).1.conin
    · cases h; rfl

open Winpty.Agent in
theorem conin_conout {s s' : State} {t : Tick} (h : tickConout s t = some s') : s'.conin = s.conin := by
  unfold tickConout at h
  split at h
  · cases h
  · split at h
    · exact (conin_autoClose h).trans rfl
    · cases h; rfl

open Winpty.Agent in
theorem conin_conerr {s s' : State} {t : Tick} (h : tickConerr s t = some s') : s'.conin = s.conin := by
  unfold tickConerr at h
  split at h
  · cases h; rfl
  · split at h
    · cases h
    · split at h
      · exact (conin_autoClose h).trans rfl
      · cases h; rfl

open Winpty.Agent in
theorem conin_poll {cfg : Cfg} {s s' : State} {e : PollEnv} (h : onPollTimeout cfg s e = some s') :
    s'.conin = s.conin := by
  unfold onPollTimeout at h
  simp only [Option.bind_eq_some_iff] at h
  obtain ⟨s3, h3, s4, h4, h5⟩ := h
  have e0 : (checkChild s e).conin = s.conin := by unfold checkChild; split <;> rfl
  have e3 : s3.conin = s.conin := by
    split at h3
    · simp only [Option.bind_eq_some_iff] at h3
      obtain ⟨s2, h2, h3⟩ := h3
      rw [(writes_scrape h3).1.conin, ← e0]
      exact (writes_title h2).1.conin
    · cases h3; exact e0
  have e4 : s4.conin = s3.conin := by
    unfold setMouse at h4
    unfold writeConout at h4
    repeat' split at h4
    all_goals first | cases h4; rfl | cases h4
  rw [conin_autoClose h5, e4, e3]

/-- Nothing is left unread in the input pipe, and its buffer has its size. -/
def Drained (s : State) : Prop :=
  s.conin.pipe.inQueue = [] ∧ s.conin.pipe.readBufferSize = 65536

open Winpty.Agent in
theorem drained_conin {cfg : Cfg} {s s' : State} {t : Tick} (hr : Agent.Rest s) (hd : Drained s)
    (h : tickConin cfg s t = some s') : Drained s' := by
  obtain ⟨rs, hi⟩ := hr.pre.inv.cin
  unfold tickConin at h
  split at h
  · cases h
  · rename_i p did hp
    obtain ⟨_, f2, _, _, f5⟩ := servicePipe_facts hi hp
    split at h
    · unfold pollConinPipe at h
      split at h
      · cases h
      · rename_i p1 r hst
        have := (writes_dsrs t.dsr h).1.conin
        unfold Drained
        rw [this]
        simp only [NamedPipe.step] at hst
        split at hst
        · cases hst
          exact ⟨rfl, by simp only; rw [f2]; exact hd.2⟩
        · cases hst
    · rename_i hdid
      cases h
      obtain ⟨q1, q2, _⟩ := f5 (by simpa using hdid)
      exact ⟨by rw [q1]; exact hd.1, by rw [q2]; exact hd.2⟩

open Winpty.Agent in
theorem drained_tick {cfg : Cfg} {s s' : State} {t : Tick} (hr : Agent.Rest s) (hx : s.exiting = false)
    (hd : Drained s) (h : tick cfg s t = some s') : Drained s' := by
  unfold tick at h
  simp only [Option.bind_eq_some_iff] at h
  obtain ⟨s1, h1, s2, h2, s3, h3, s4, h4, h5⟩ := h
  have d1 : Drained s1 := by unfold Drained; rw [conin_control h1]; exact hd
  have d2 := drained_conin (tickControl_rest hr hx h1) d1 h2
  have d4 : Drained s4 := by unfold Drained; rw [conin_conerr h4, conin_conout h3]; exact d2
  split at h5
  · cases h5; exact d4
  · unfold Drained; rw [conin_poll h5]; exact d4

open Winpty.Agent in
theorem drained_loop {cfg : Cfg} : ∀ (ts : List Tick) {s s' : State}, Agent.Rest s → Drained s →
    loop cfg s ts = some s' → Drained s' := by
  intro ts
  induction ts with
  | nil => intro s s' _ hd h; cases h; exact hd
  | cons t ts ih =>
    intro s s' hr hd h
    simp only [loop] at h
    split at h
    · cases h; exact hd
    · rename_i hx
      simp only [Option.bind_eq_some_iff] at h
      obtain ⟨s1, h1, h2⟩ := h
      have hx : s.exiting = false := by simpa using hx
      exact ih (tick_rest hr hx h1) (drained_tick hr hx hd h1) h2

open Winpty.Agent in
theorem drained_start {cfg : Cfg} {names : List (List Nat)} {connected : Bool × Bool × Bool} {cols rows : Int}
    {out err : List TermCall} {s : State} (h : start cfg names connected cols rows out err = some s) :
    Drained s := by
  unfold start at h
  split at h
  · simp only [Option.bind_eq_some_iff] at h
    obtain ⟨s1, h1, s2, h2, h3⟩ := h
    unfold Drained
    rw [(writes_error h3).1.conin, (writes_primary (.inr (.inl rfl)) h2).1.conin, (writes_packet h1).1.conin]
    obtain ⟨c1, _⟩ := connected
    cases c1 <;> exact ⟨rfl, rfl⟩
  · cases h

open Winpty.Agent Winpty.Spec.Agent in
theorem drained_reaches {cfg : Cfg} {ts : List Tick} {s : State} (h : Reaches cfg ts s) : Drained s := by
  obtain ⟨_, _, _, _, _, _, s0, h0, h1⟩ := h
  exact drained_loop ts (start_rest h0) (drained_start h0) h1

/-! ## What is waited for -/

theorem serviced_pipe {p p' : NamedPipe.State} {t : PipeTick} {did : Bool} {ev : List WaitOn}
    (h : serviced p t = some (p', did, ev)) : Agent.servicePipe p t = some (p', did) := by
  unfold serviced at h
  unfold Agent.servicePipe
  rw [h]

theorem visit_cases {p q : Pass} {w : Which} {sv : Option (NamedPipe.State × Bool × List WaitOn)}
    {ag : Option State} (h : visit p w sv ag = some q) :
    ∃ st did ev s, sv = some (st, did, ev) ∧ ag = some s ∧
      q = ⟨s, p.did || did, p.handles ++ ev.map fun e => (w, e)⟩ := by
  unfold visit at h
  split at h
  · cases h; exact ⟨_, _, _, _, rfl, rfl, rfl⟩
  · cases h

open Winpty.Agent in
theorem pass_tick {cfg : Cfg} {s : State} {t : Tick} {p : Pass} (h : pass cfg s t = some p) :
    ∃ s1 s2 s3, tickControl cfg s t = some s1 ∧ tickConin cfg s1 t = some s2 ∧
      tickConout s2 t = some s3 ∧ tickConerr s3 t = some p.agent ∧
      tick cfg s { t with poll := none } = some p.agent := by
  unfold pass at h
  simp only [Option.bind_eq_some_iff] at h
  obtain ⟨p1, h1, p2, h2, p3, h3, h4⟩ := h
  obtain ⟨_, _, _, s1, _, a1, rfl⟩ := visit_cases h1
  obtain ⟨_, _, _, s2, _, a2, rfl⟩ := visit_cases h2
  obtain ⟨_, _, _, s3, _, a3, rfl⟩ := visit_cases h3
  have a4 : tickConerr s3 t = some p.agent := by
    unfold visitConerr at h4
    split at h4
    · rename_i he
      cases h4
      simp only at he
      unfold tickConerr; rw [he]
    · obtain ⟨_, _, _, s4, _, a4, rfl⟩ := visit_cases h4
      exact a4
  simp only at a2 a3
  refine ⟨s1, s2, s3, a1, a2, a3, a4, ?_⟩
  have b1 : tickControl cfg s { t with poll := none } = some s1 := a1
  have b2 : tickConin cfg s1 { t with poll := none } = some s2 := a2
  have b3 : tickConout s2 { t with poll := none } = some s3 := a3
  have b4 : tickConerr s3 { t with poll := none } = some p.agent := a4
  unfold tick
  rw [b1, Option.bind_some, b2, Option.bind_some, b3, Option.bind_some, b4, Option.bind_some]

theorem awaited {rd wr : Bool} {p p' : NamedPipe.State} {ws rs : List Nat} {m : Nat} {t : PipeTick}
    {did : Bool} {ev : List WaitOn} (hi : NamedPipe.Inv rd wr p ws rs m)
    (h : serviced p t = some (p', did, ev))
    (hroom : p'.pipe.opened = true → rd = true → p'.pipe.inQueue.length < p'.pipe.readBufferSize) :
    Awaited p'.pipe (· ∈ ev) := by
  have h0 : NamedPipe.Inv rd wr (NamedPipe.osTakes p t.takes) ws rs m := by
    have := NamedPipe.step_inv hi (.osTakes t.takes) (NamedPipe.osTakes p t.takes) [] (by intro n h; cases h) rfl
    simpa [NamedPipe.wrote, Spec.Pipe.consumes] using this
  obtain ⟨hi', hb⟩ := NamedPipe.serviceIo_inv h0 _ _ _ _ _ _ _ h
  rcases hb with hb | ⟨ho, hb⟩
  · obtain ⟨c1, c2, c3⟩ := hi'.wf.closed hb
    refine ⟨?_, ?_, ?_, ?_, ?_⟩
    · intro g; rw [hb] at g; cases g
    · intro g; rw [hb] at g; cases g
    · intro g; rw [hb] at g; cases g
    · intro w g; rw [c3] at g; cases g
    · intro w g; rw [c2] at g; cases g
  · refine ⟨fun _ => hb.connect, ?_, ?_, hb.waitOut, hb.waitIn⟩
    · intro _ hc hw hq
      exact hb.write (by rw [hi'.wf.out ho hc, ← hi'.wf.writeMode]; exact hw) hq
    · intro _ hc hw
      exact hb.read (by rw [hi'.wf.inp ho hc, ← hi'.wf.readMode]; exact hw) (hroom ho (by rw [← hi'.wf.readMode]; exact hw))

theorem _root_.Winpty.Spec.EventLoop.Awaited.mono {p : NamedPipe.Pipe} {P Q : WaitOn → Prop} (h : Awaited p P) (hpq : ∀ e, P e → Q e) :
    Awaited p Q :=
  ⟨fun a b => hpq _ (h.connect a b), h.write, h.read, fun w a b => hpq _ (h.output w a b),
    fun w a b => hpq _ (h.input w a b)⟩

open Winpty.Agent in
theorem pass_idle {cfg : Cfg} {s : State} {t : Tick} {p : Pass} (hr : Agent.Rest s) (hx : s.exiting = false)
    (hd : Drained s) (h : pass cfg s t = some p) (hdid : p.did = false) :
    AllAwaited p.agent p.handles ∧ p.agent.exiting = false := by
  unfold pass at h
  simp only [Option.bind_eq_some_iff] at h
  obtain ⟨p1, h1, p2, h2, p3, h3, h4⟩ := h
  obtain ⟨c1, d1, e1, s1, v1, a1, rfl⟩ := visit_cases h1
  obtain ⟨c2, d2, e2, s2, v2, a2, rfl⟩ := visit_cases h2
  obtain ⟨c3, d3, e3, s3, v3, a3, rfl⟩ := visit_cases h3
  simp only [Bool.false_or, List.nil_append] at v2 v3 a2 a3 h4
  have hd4 : (d1 = false ∧ d2 = false ∧ d3 = false) := by
    unfold visitConerr at h4
    split at h4
    · cases h4; simp only [Bool.or_eq_false_iff] at hdid; exact ⟨hdid.1.1, hdid.1.2, hdid.2⟩
    · obtain ⟨_, _, _, _, _, _, rfl⟩ := visit_cases h4
      simp only [Bool.or_eq_false_iff] at hdid
      exact ⟨hdid.1.1.1, hdid.1.1.2, hdid.1.2⟩
  obtain ⟨rfl, rfl, rfl⟩ := hd4
  have r1 := tickControl_rest hr hx a1
  have dr1 : Drained s1 := by unfold Drained; rw [conin_control a1]; exact hd
  have r2 := (tickConin_rest r1 a2).1
  have dr2 := drained_conin r1 dr1 a2
  have q1 := a1
  unfold tickControl at q1
  rw [serviced_pipe v1] at q1
  simp only [Bool.false_eq_true, if_false, Option.some.injEq] at q1
  have q2 := a2
  unfold tickConin at q2
  rw [serviced_pipe v2] at q2
  simp only [Bool.false_eq_true, if_false, Option.some.injEq] at q2
  have q3 := a3
  unfold tickConout at q3
  rw [serviced_pipe v3] at q3
  simp only [Bool.false_eq_true, if_false, Option.some.injEq] at q3
  obtain ⟨_, _, ic⟩ := hr.pre.inv.ctl
  obtain ⟨_, ii⟩ := r1.pre.inv.cin
  have w1 := awaited ic v1 (fun ho _ => by
    have := r1.pre.room; rw [← q1] at this; exact this ho)
  have w2 := awaited ii v2 (fun ho _ => by
    have := dr2; rw [← q2] at this
    unfold Drained at this
    simp only at this
    rw [this.1, this.2]; decide)
  have w3 := awaited r2.pre.inv.out v3 (fun _ g => by cases g)
  have r3 := tickConout_rest r2 a3
  unfold visitConerr at h4
  split at h4
  · rename_i he
    cases h4
    simp only at he
    subst q3 q2 q1
    simp only at he
    refine ⟨⟨w1.mono ?_, w2.mono ?_, w3.mono ?_, fun p t g => by simp only [he] at g; cases g⟩, hx⟩ <;>
      intro e h <;> simp [h]
  · rename_i q tm he
    obtain ⟨c4, d4, e4, s4, v4, a4, rfl⟩ := visit_cases h4
    simp only at he a4 hdid
    have : d4 = false := by simpa using hdid
    subst this
    have q4 := a4
    unfold tickConerr at q4
    rw [he] at q4
    simp only [serviced_pipe v4, Bool.false_eq_true, if_false, Option.some.injEq] at q4
    have w4 := awaited (r3.pre.inv.err _ _ he) v4 (fun _ g => by cases g)
    subst q4 q3 q2 q1
    refine ⟨⟨w1.mono ?_, w2.mono ?_, w3.mono ?_, fun p t g => ?_⟩, hx⟩
    · intro e h; simp [h]
    · intro e h; simp [h]
    · intro e h; simp [h]
    · simp only [Option.some.injEq, Prod.mk.injEq] at g
      rw [← g.1]
      refine w4.mono ?_
      intro e h; simp [h]

/-- A pipe has at most three events. -/
theorem serviced_length {p p' : NamedPipe.State} {t : PipeTick} {did : Bool} {ev : List WaitOn}
    (h : serviced p t = some (p', did, ev)) : ev.length ≤ 3 := by
  have hw : ∀ {s : NamedPipe.State} {j : Bool} {ws : List WaitOn} {ra wa : List NamedPipe.Ans} {k : Nat},
      NamedPipe.serviceWorkers s j ws ra wa k = some (p', did, ev) → ev.length ≤ ws.length + 2 := by
    intro s j ws ra wa k h
    unfold NamedPipe.serviceWorkers at h
    repeat' split at h
    all_goals first
      | (cases h; done)
      | (simp only [Option.some.injEq, Prod.mk.injEq] at h
         obtain ⟨_, _, rfl⟩ := h
         simp)
  unfold serviced NamedPipe.serviceIo at h
  repeat' split at h
  all_goals first
    | (cases h; done)
    | (have := hw h; simp only [List.length_cons, List.length_nil] at this; omega)
    | (simp only [Option.some.injEq, Prod.mk.injEq] at h
       obtain ⟨_, _, rfl⟩ := h
       simp)

theorem pass_length {cfg : Cfg} {s : State} {t : Tick} {p : Pass} (h : pass cfg s t = some p) :
    p.handles.length ≤ 12 := by
  unfold pass at h
  simp only [Option.bind_eq_some_iff] at h
  obtain ⟨p1, h1, p2, h2, p3, h3, h4⟩ := h
  obtain ⟨c1, d1, e1, s1, v1, a1, rfl⟩ := visit_cases h1
  obtain ⟨c2, d2, e2, s2, v2, a2, rfl⟩ := visit_cases h2
  obtain ⟨c3, d3, e3, s3, v3, a3, rfl⟩ := visit_cases h3
  have l1 := serviced_length v1
  have l2 := serviced_length v2
  have l3 := serviced_length v3
  unfold visitConerr at h4
  split at h4
  · cases h4
    simp only [List.nil_append, List.length_append, List.length_map]
    omega
  · obtain ⟨c4, d4, e4, s4, v4, a4, rfl⟩ := visit_cases h4
    have l4 := serviced_length v4
    simp only [List.nil_append, List.length_append, List.length_map]
    omega

/-! ## A timed run is a run of the agent -/

open Winpty.Agent in
theorem turn_tick {cfg : Cfg} {interval last : Int} {s : State} {t : Tick} {e : PollEnv} {times : Times}
    {d : Done} (h : turn cfg interval s last t e times = some d) :
    ∃ t', tick cfg s t' = some d.agent ∧ (d.polled = true ↔ t'.poll ≠ none) := by
  obtain ⟨p, hp, hcase⟩ := turn_cases h
  obtain ⟨s1, s2, s3, a1, a2, a3, a4, ht⟩ := pass_tick hp
  rcases hcase with ⟨_, g, _, _, ho⟩ | ⟨_, g, _, ga, _⟩
  · refine ⟨{ t with poll := some e }, ?_, by simp [g]⟩
    have b1 : tickControl cfg s { t with poll := some e } = some s1 := a1
    have b2 : tickConin cfg s1 { t with poll := some e } = some s2 := a2
    have b3 : tickConout s2 { t with poll := some e } = some s3 := a3
    have b4 : tickConerr s3 { t with poll := some e } = some p.agent := a4
    unfold tick
    rw [b1, Option.bind_some, b2, Option.bind_some, b3, Option.bind_some, b4, Option.bind_some]
    exact ho
  · exact ⟨{ t with poll := none }, by rw [ht, ga], by simp [g]⟩

open Winpty.Agent in
theorem loop_snoc {cfg : Cfg} {t : Tick} {s1 : State} : ∀ (ts : List Tick) {s0 s : State},
    loop cfg s0 ts = some s → s.exiting = false → tick cfg s t = some s1 →
    loop cfg s0 (ts ++ [t]) = some s1 := by
  intro ts
  induction ts with
  | nil =>
    intro s0 s h hx ht
    cases h
    simp only [List.nil_append, loop, hx, Bool.false_eq_true, if_false, ht, Option.bind_some]
  | cons t0 ts ih =>
    intro s0 s h hx ht
    simp only [List.cons_append, loop] at h ⊢
    split at h
    · rename_i g
      cases h
      rw [hx] at g; cases g
    · rename_i g
      rw [if_neg g]
      simp only [Option.bind_eq_some_iff] at h ⊢
      obtain ⟨s2, h1, h2⟩ := h
      exact ⟨s2, h1, ih h2 hx ht⟩

open Winpty.Agent in
theorem run_loop {cfg : Cfg} {busy late : Nat} {s0 : State} {start now : Nat} {s : State} {last : Int}
    {since : Nat} {polls : List (Nat × Nat)} (h : Run cfg busy late s0 start now s last since polls) :
    ∃ ts, loop cfg s0 ts = some s ∧ (ts.filter (·.poll.isSome)).length = polls.length := by
  induction h with
  | start => exact ⟨[], rfl, rfl⟩
  | @turn now since s last polls d t e times next hr hx ht h1 h2 h3 h4 h5 ih =>
    obtain ⟨ts, hl, hn⟩ := ih
    obtain ⟨t', g1, g2⟩ := turn_tick ht
    refine ⟨ts ++ [t'], loop_snoc ts hl hx g1, ?_⟩
    rw [List.filter_append, List.length_append, hn]
    cases hp : t'.poll with
    | none =>
      have : d.polled = false := by
        cases hd : d.polled
        · rfl
        · exact absurd hp (g2.mp hd)
      simp [hp, this]
    | some x =>
      have : d.polled = true := g2.mpr (by rw [hp]; intro h; cases h)
      simp [hp, this]

end Winpty.EventLoop

namespace Winpty.Props

open Winpty.Agent (Cfg State Tick PollEnv TermCall)
open Winpty.EventLoop
open Winpty.Spec.EventLoop
open Winpty.Spec.Agent (Reaches)

/-- The agent polls regularly: between the end of a poll (or the start of the loop) and the beginning of
the next there are at least 25 ms and at most 25 ms and what two turns and a late wake-up take; and at
no turn of the loop is the last poll longer ago than 25 ms, one turn and a late wake-up.  Missing:
machines that stand still for more than 24 days, see `C73_long_pause_defect`. -/
theorem C73_regular_partial {cfg : Cfg} {busy late : Nat} (hb : busy + busy + late + 25 < 2 ^ 31) {s0 : State}
    {start now : Nat} {s : State} {last : Int} {since : Nat} {polls : List (Nat × Nat)}
    (h : Run cfg busy late s0 start now s last since polls) :
    now ≤ since + 25 + busy + late ∧
    ∀ x ∈ polls, x.1 + 25 ≤ x.2 ∧ x.2 ≤ x.1 + 25 + 2 * busy + late :=
  let h := run_inv hb h
  ⟨h.2.2.1, h.2.2.2⟩

/-- A timed run of the loop is a run of the agent in the sense of the other properties, with as many
polls. -/
theorem C73_refines {cfg : Cfg} {names : List (List Nat)} {connected : Bool × Bool × Bool} {cols rows : Int}
    {out err : List TermCall} {s0 : State}
    (h0 : Agent.start cfg names connected cols rows out err = some s0) {busy late start now : Nat} {s : State}
    {last : Int} {since : Nat} {polls : List (Nat × Nat)}
    (h : Run cfg busy late s0 start now s last since polls) :
    ∃ ts, Reaches cfg ts s ∧ (ts.filter (·.poll.isSome)).length = polls.length := by
  obtain ⟨ts, h1, h2⟩ := run_loop h
  exact ⟨ts, ⟨names, connected, cols, rows, out, err, s0, h0, h1⟩, h2⟩

/-- When the loop stops to wait or to sleep, the agent is not about to exit; everything that can be in
progress on a pipe is, and its event is waited for; there are no more than 64 events, as
`WaitForMultipleObjects` demands; and the wait ends when the next poll is due. -/
theorem C73_awaited {cfg : Cfg} {names : List (List Nat)} {connected : Bool × Bool × Bool} {cols rows : Int}
    {out err : List TermCall} {s0 : State}
    (h0 : Agent.start cfg names connected cols rows out err = some s0) {busy late start now : Nat}
    (hb : busy + busy + late + 25 < 2 ^ 31) {s : State} {last : Int} {since : Nat} {polls : List (Nat × Nat)}
    (h : Run cfg busy late s0 start now s last since polls) (hx : s.exiting = false)
    {t : Tick} {e : PollEnv} {times : Times} {d : Done}
    (ht : turn cfg agentInterval s last t e times = some d)
    (ho : now ≤ times.check ∧ times.check ≤ times.polled ∧ times.polled ≤ times.asked ∧
      times.asked ≤ now + busy)
    {handles : List (Which × NamedPipe.WaitOn)} {ms : Int}
    (hp : d.pause = .wait handles ms ∨ (d.pause = .sleep ms ∧ handles = [])) :
    d.agent.exiting = false ∧ AllAwaited d.agent handles ∧ handles.length ≤ 64 ∧
    (times.asked : Int) + ms = max times.asked (since + 25) := by
  obtain ⟨ts, hl, _⟩ := run_loop h
  have hreach : Reaches cfg ts s := ⟨names, connected, cols, rows, out, err, s0, h0, hl⟩
  obtain ⟨rfl, i1, i2, _⟩ := run_inv hb h
  obtain ⟨p, hpass, hcase⟩ := turn_cases ht
  have hto : timeout agentInterval (tickCount since) times.asked =
      max 0 (since + agentInterval - times.asked) :=
    timeout_exact (by decide) (by omega) (by unfold agentInterval; omega) (by decide)
  unfold agentInterval at hto
  rcases hcase with ⟨_, _, _, g, _⟩ | ⟨_, _, _, ga, ⟨_, g⟩ | ⟨gd, g⟩⟩
  · rw [g] at hp; rcases hp with hp | ⟨hp, _⟩ <;> cases hp
  · rw [g] at hp; rcases hp with hp | ⟨hp, _⟩ <;> cases hp
  · have hi := pass_idle (reaches_rest hreach) hx (drained_reaches hreach) hpass gd
    have hl := pass_length hpass
    unfold pause at g
    unfold agentInterval at g
    split at g
    · rename_i he
      split at g
      · cases g
      · simp only [Option.some.injEq] at g
        rw [← g] at hp
        rcases hp with hp | ⟨hp, hh⟩
        · cases hp
        · cases hp
          rw [ga, hh]
          rw [he] at hi
          exact ⟨hi.2, hi.1, by decide, by rw [hto]; omega⟩
    · simp only [Option.some.injEq] at g
      rw [← g] at hp
      rcases hp with hp | ⟨hp, hh⟩
      · cases hp
        rw [ga]
        exact ⟨hi.2, hi.1, by omega, by rw [hto]; omega⟩
      · cases hp

/-- The loop's own assertion never fails: a turn fails only if servicing the pipes or the poll does. -/
theorem C73_no_assertion {cfg : Cfg} {s : State} {last : Int} {t : Tick} {e : PollEnv} {times : Times}
    {p : Pass} (hp : pass cfg s t = some p) {s' : State} (ho : Agent.onPollTimeout cfg p.agent e = some s') :
    (turn cfg agentInterval s last t e times).isSome = true := by
  unfold turn
  rw [hp]
  simp only [ho]
  have hne : ¬ timeout agentInterval last times.asked = infinite := by
    unfold timeout infinite agentInterval toInt
    simp only [show (25 : Int) > 0 by decide, if_true]
    split <;> omega
  unfold pause
  simp only [if_neg hne]
  repeat' split
  all_goals first
    | rfl
    | (rename_i g; split at g <;> cases g)

/-- Although it is asked to poll every 25 ms: a turn that begins 25 to 49 days after the last poll (the
machine was suspended, a debugger stopped the agent) does not poll.  If nothing happened on the pipes it
waits, and until 49 days are over. -/
theorem C73_long_pause_defect {cfg : Cfg} {s : State} {since : Nat} {t : Tick} {e : PollEnv} {times : Times}
    {d : Done} (h : turn cfg agentInterval s (tickCount since) t e times = some d)
    (h1 : since + 2 ^ 31 + 25 < times.check) (h2 : times.check ≤ times.asked)
    (h3 : times.asked < since + 2 ^ 32) :
    d.polled = false ∧
    (d.pause = .again ∨ d.pause = .sleep (since + 2 ^ 32 + 25 - times.asked) ∨
      ∃ handles, d.pause = .wait handles (since + 2 ^ 32 + 25 - times.asked)) := by
  have e : (tickCount times.check - tickCount since) % 2 ^ 32 = times.check - since := by
    unfold tickCount; omega
  have hd : due agentInterval (tickCount since) times.check = false := by
    unfold due toInt agentInterval
    rw [e, if_neg (by omega)]
    simp only [Bool.and_eq_false_iff, decide_eq_false_iff_not]
    omega
  have ht : timeout agentInterval (tickCount since) times.asked = since + 2 ^ 32 + 25 - times.asked := by
    have e2 : (tickCount since + 25 - tickCount times.asked) % 2 ^ 32 = since + 2 ^ 32 + 25 - times.asked := by
      unfold tickCount; omega
    unfold timeout agentInterval toInt
    rw [e2, if_pos (by decide), if_pos (by omega)]
    omega
  obtain ⟨p, _, ⟨g, _⟩ | ⟨_, g, _, _, g5⟩⟩ := turn_cases h
  · rw [hd] at g; cases g
  · refine ⟨g, ?_⟩
    rcases g5 with ⟨_, g5⟩ | ⟨_, g5⟩
    · exact .inl g5
    · rw [← ht]
      rcases pause_cases g5 with g5 | g5
      · exact .inr (.inl g5)
      · exact .inr (.inr ⟨_, g5⟩)

/-! ## Non-vacuity -/

@[inherit_doc sampleCfg]
def sampleWake : Tick := ⟨sampleIdle, sampleIdle, sampleIdle, sampleIdle, 0, none⟩

@[inherit_doc sampleCfg]
def sampleEnv : PollEnv := ⟨true, false, [72], [.sendLine 0 [⟨66, 7⟩] 0], []⟩

/-- The sample session's request arrives, then the agent waits, then it polls; in between the tick count
starts again at 0. -/
def sampleTimed : Option (State × Done × Done × Done) :=
  sampleStart.bind fun s0 =>
  (turn sampleCfg agentInterval s0 (tickCount (2 ^ 32 - 10)) (sampleTicks.headD sampleWake) sampleEnv
    ⟨2 ^ 32 - 9, 2 ^ 32 - 9, 2 ^ 32 - 9⟩).bind fun d1 =>
  (turn sampleCfg agentInterval d1.agent d1.last sampleWake sampleEnv
    ⟨2 ^ 32 - 8, 2 ^ 32 - 8, 2 ^ 32 - 7⟩).bind fun d2 =>
  (turn sampleCfg agentInterval d2.agent d2.last sampleWake sampleEnv
    ⟨2 ^ 32 + 15, 2 ^ 32 + 17, 2 ^ 32 + 17⟩).bind fun d3 =>
  some (s0, d1, d2, d3)

/-- What happens in it. -/
theorem sampleTimed_facts : ∀ x ∈ sampleTimed, x.1.exiting = false ∧ x.2.1.agent.exiting = false ∧
    x.2.1.pause = .again ∧ x.2.1.polled = false ∧ x.2.2.1.agent.exiting = false ∧
    x.2.2.1.pause = .wait [(.control, .input), (.control, .output), (.conin, .connect)] 22 ∧
    x.2.2.1.polled = false ∧ x.2.2.2.polled = true ∧ x.2.2.2.pause = .again := by
  decide +kernel

/-- Non-vacuity of `C73_regular_partial`, `C73_refines` and `C73_awaited`: there is a run in which a turn
waits for three events, with 22 ms to go, and the next turn polls. -/
example : ∃ (s0 s s' : State) (d : Done) (last last' : Int),
    sampleStart = some s0 ∧
    Run sampleCfg 3 2 s0 (2 ^ 32 - 10) (2 ^ 32 - 9) s last (2 ^ 32 - 10) [] ∧ s.exiting = false ∧
    turn sampleCfg agentInterval s last sampleWake sampleEnv ⟨2 ^ 32 - 8, 2 ^ 32 - 8, 2 ^ 32 - 7⟩ = some d ∧
    d.pause = .wait [(.control, .input), (.control, .output), (.conin, .connect)] 22 ∧
    Run sampleCfg 3 2 s0 (2 ^ 32 - 10) (2 ^ 32 + 17) s' last' (2 ^ 32 + 17) [(2 ^ 32 - 10, 2 ^ 32 + 15)] := by
  have hs : sampleTimed.isSome = true := by decide +kernel
  obtain ⟨x, hx⟩ := Option.isSome_iff_exists.1 hs
  obtain ⟨f0, f1, f2, f3, f4, f5, f6, f7, f8⟩ := sampleTimed_facts x hx
  unfold sampleTimed at hx
  simp only [Option.bind_eq_some_iff, Option.some.injEq] at hx
  obtain ⟨s0, h0, d1, h1, d2, h2, d3, h3, rfl⟩ := hx
  dsimp only at f0 f1 f2 f3 f4 f5 f6 f7 f8
  have r1 := Run.turn (busy := 3) (late := 2) _ _ _ (2 ^ 32 - 9) (Run.start (cfg := sampleCfg)) f0 h1
    (by decide) (by decide) (by decide) (by decide) (by rw [f2]; unfold EndsBy; decide)
  have r2 := Run.turn _ _ _ (2 ^ 32 + 15) r1 f1 h2
    (by decide) (by decide) (by decide) (by decide) (by rw [f5]; unfold EndsBy; decide)
  have r3 := Run.turn _ _ _ (2 ^ 32 + 17) r2 f4 h3
    (by decide) (by decide) (by decide) (by decide) (by rw [f8]; unfold EndsBy; decide)
  rw [f3] at r1
  rw [f3, f6, f7] at r3
  exact ⟨s0, d1.agent, d3.agent, d2, d1.last, d3.last, h0, r1, f1, h2, f5, r3⟩

/-- Non-vacuity of `C73_no_assertion`: the waiting turn of the same session. -/
example : ∃ s0 p s', sampleStart = some s0 ∧ pass sampleCfg s0 sampleWake = some p ∧
    Agent.onPollTimeout sampleCfg p.agent sampleEnv = some s' := by
  have h : (sampleStart.bind fun s0 => (pass sampleCfg s0 sampleWake).bind fun p =>
    Agent.onPollTimeout sampleCfg p.agent sampleEnv).isSome = true := by decide +kernel
  obtain ⟨s', h⟩ := Option.isSome_iff_exists.1 h
  simp only [Option.bind_eq_some_iff] at h
  obtain ⟨s0, h0, p, h1, h2⟩ := h
  exact ⟨s0, p, s', h0, h1, h2⟩

/-- Non-vacuity of `C73_long_pause_defect`: the machine is suspended for 25 days.  The agent, with
nothing to do, then waits for more than 24 days before it looks at the console. -/
example : sampleStart.isSome = true ∧ ∀ s0 ∈ sampleStart, ∀ d ∈ (turn sampleCfg agentInterval s0 (tickCount 1000)
      (sampleTicks.headD sampleWake) sampleEnv ⟨1001, 1001, 1001⟩).bind fun d1 =>
      turn sampleCfg agentInterval d1.agent d1.last sampleWake sampleEnv
        ⟨25 * 86400000, 25 * 86400000, 25 * 86400000⟩,
    d.polled = false ∧
    d.pause = .wait [(.control, .input), (.control, .output), (.conin, .connect)] 2134968321 := by
  decide +kernel

example : (2134968321 : Nat) > 24 * 86400000 := by decide

end Winpty.Props
