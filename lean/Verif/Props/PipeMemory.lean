import Verif.Spec.PipeMemory
/-!
# C94: memory lent to the operating system

For every sequence of calls of a pipe of the agent, every answer of the operating system, and every
moment at which it finishes an operation.
-/
namespace Winpty.Props
open Winpty.PipeMemory Winpty.Spec.PipeMemory

private theorem sound_snoc {log : List Event} {e : Event} (h : Sound log) (he : Allowed log e) :
    Sound (log ++ [e]) := by
  intro b x a hx
  rcases List.eq_nil_or_concat a with rfl | ⟨a', y, rfl⟩
  · have := List.append_inj' hx rfl
    obtain ⟨rfl, hxe⟩ := this
    cases hxe
    exact he
  · rw [List.concat_eq_append, show b ++ x :: (a' ++ [y]) = (b ++ x :: a') ++ [y] by simp] at hx
    have := List.append_inj' hx rfl
    exact h b x a' this.1

private theorem there_snoc (k : Slot) (log : List Event) (e : Event) :
    there k (log ++ [e]) = if e = .made k then true else if e = .freed k then false else there k log := by
  simp [there]

private theorem away_snoc (k : Slot) (log : List Event) (e : Event) :
    away k (log ++ [e]) = if e = .lent k then true else if e = .back k then false else away k log := by
  simp [away]

private theorem isOpen_snoc (log : List Event) (e : Event) :
    isOpen (log ++ [e]) = if e = .opened then true else if e = .closed then false else isOpen log := by
  simp [isOpen]

/-- What connects the pipe and the log. -/
private structure B (s : State) : Prop where
  ow : ∀ k, away k s.log = s.lent k
  lc : there .connect s.log = s.connecting
  lw : ∀ d, there (.io d) s.log = (s.wk d).isSome
  op : isOpen s.log = s.handle
  oc : s.lent .connect = true → s.connecting = true
  od : ∀ d, s.lent (.io d) = true → s.wk d = some true
  ok : Sound s.log

/-- What holds between calls. -/
private structure G (s : State) : Prop where
  b : B s
  cl : s.handle = false → s.connecting = false ∧ ∀ d, s.wk d = none
  cn : s.connecting = true → ∀ d, s.wk d = none

private theorem b_touch_io {s : State} {d : Dir} (g : B s) (h : (s.wk d).isSome = true)
    (hl : s.lent (.io d) = false) : B (s.emit (.touched (.io d))) := by
  constructor <;> simp only [State.emit, away_snoc, there_snoc, isOpen_snoc, reduceCtorEq, if_false]
  · exact g.ow
  · exact g.lc
  · exact g.lw
  · exact g.op
  · exact g.oc
  · exact g.od
  · exact sound_snoc g.ok ⟨by rw [g.lw]; exact h, by rw [g.ow]; exact hl⟩

private theorem b_back {s : State} {k : Slot} (g : B s) (h : s.lent k = true) : B (s.giveBack k) := by
  constructor <;> simp only [State.giveBack, State.setLent, State.emit, away_snoc, there_snoc,
    isOpen_snoc, reduceCtorEq, if_false, Event.back.injEq]
  · intro k'
    by_cases hk : k' = k
    · simp [hk]
    · simp [hk, Ne.symm hk, g.ow]
  · exact g.lc
  · exact g.lw
  · exact g.op
  · intro hx
    split at hx
    · cases hx
    · exact g.oc hx
  · intro d hx
    split at hx
    · cases hx
    · exact g.od d hx
  · exact sound_snoc g.ok (by simp only [Allowed]; rw [g.ow]; exact h)

private theorem b_await {s : State} {k : Slot} (g : B s) : B (s.await k) ∧ (s.await k).lent k = false ∧
    (s.await k).wk = s.wk ∧ (s.await k).connecting = s.connecting ∧ (s.await k).handle = s.handle ∧
    (s.await k).mode = s.mode ∧ (s.await k).stopped = s.stopped ∧
    (∀ j, s.lent j = false → (s.await k).lent j = false) := by
  unfold State.await
  split
  · next h =>
    refine ⟨b_back g h, ?_, rfl, rfl, rfl, rfl, rfl, ?_⟩
    · simp [State.giveBack, State.setLent, State.emit]
    · intro j hj
      simp only [State.giveBack, State.setLent, State.emit]
      split
      · rfl
      · exact hj
  · next h => exact ⟨g, by simpa using h, rfl, rfl, rfl, rfl, rfl, fun _ hj => hj⟩

/-- An operation that is pending. -/
private theorem b_pending {s : State} {d : Dir} (g : B s) (h : (s.wk d).isSome = true)
    (hl : s.lent (.io d) = false) (hh : s.handle = true) :
    B ((s.lend (.io d)).setWk d (some true)) := by
  constructor <;> simp only [State.lend, State.setWk, State.setLent, State.emit, away_snoc, there_snoc,
    isOpen_snoc, reduceCtorEq, if_false, Event.lent.injEq]
  · intro k'
    by_cases hk : k' = .io d
    · simp [hk]
    · simp [hk, Ne.symm hk, g.ow]
  · exact g.lc
  · intro d'
    by_cases hd : d' = d
    · subst hd; simp [g.lw, h]
    · simp [hd, g.lw]
  · exact g.op
  · exact g.oc
  · intro d' hx
    by_cases hd : d' = d
    · simp [hd]
    · simp only [Slot.io.injEq, hd, if_false] at hx ⊢
      exact g.od d' hx
  · exact sound_snoc g.ok ⟨by rw [g.lw]; exact h, by rw [g.ow]; exact hl, by rw [g.op]; exact hh⟩

/-- An operation that is over at once. -/
private theorem b_atOnce {s : State} {d : Dir} (g : B s) (h : (s.wk d).isSome = true)
    (hl : s.lent (.io d) = false) (hh : s.handle = true) :
    B ((s.lend (.io d)).giveBack (.io d)) := by
  constructor <;> simp only [State.lend, State.giveBack, State.setLent, State.emit, away_snoc,
    there_snoc, isOpen_snoc, reduceCtorEq, if_false, Event.lent.injEq, Event.back.injEq]
  · intro k'
    by_cases hk : k' = .io d
    · simp [hk]
    · simp [hk, Ne.symm hk, g.ow]
  · exact g.lc
  · exact g.lw
  · exact g.op
  · exact g.oc
  · intro d' hx
    by_cases hd : d' = d
    · simp [hd] at hx
    · simp only [Slot.io.injEq, hd, if_false] at hx
      exact g.od d' hx
  · refine sound_snoc (sound_snoc g.ok ⟨by rw [g.lw]; exact h, by rw [g.ow]; exact hl,
      by rw [g.op]; exact hh⟩) ?_
    simp only [Allowed, away_snoc, if_true]

private theorem b_set {s : State} {d : Dir} (g : B s) (h : (s.wk d).isSome = true)
    (hl : s.lent (.io d) = false) (v : Bool) : B (s.setWk d (some v)) := by
  constructor <;> simp only [State.setWk]
  · exact g.ow
  · exact g.lc
  · intro d'
    by_cases hd : d' = d
    · subst hd; simp [g.lw, h]
    · simp [hd, g.lw]
  · exact g.op
  · exact g.oc
  · intro d' hx
    by_cases hd : d' = d
    · subst hd; rw [hl] at hx; cases hx
    · simp only [hd, if_false]; exact g.od d' hx
  · exact g.ok

private theorem b_free {s : State} {d : Dir} (g : B s) (h : (s.wk d).isSome = true)
    (hl : s.lent (.io d) = false) : B ((s.emit (.freed (.io d))).setWk d none) := by
  constructor <;> simp only [State.setWk, State.emit, away_snoc, there_snoc, isOpen_snoc,
    reduceCtorEq, if_false, Event.freed.injEq, Slot.io.injEq]
  · exact g.ow
  · exact g.lc
  · intro d'
    by_cases hd : d' = d
    · simp [hd]
    · simp [hd, Ne.symm hd, g.lw]
  · exact g.op
  · exact g.oc
  · intro d' hx
    by_cases hd : d' = d
    · subst hd; rw [hl] at hx; cases hx
    · simp only [hd, if_false]; exact g.od d' hx
  · exact sound_snoc g.ok ⟨by rw [g.lw]; exact h, by rw [g.ow]; exact hl⟩

private theorem b_new {s : State} {d : Dir} (g : B s) (h : s.wk d = none) : B (newWorker d s) := by
  unfold newWorker
  rw [h]
  constructor <;> simp only [State.setWk, State.emit, away_snoc, there_snoc, isOpen_snoc,
    reduceCtorEq, if_false, Event.made.injEq, Slot.io.injEq]
  · exact g.ow
  · exact g.lc
  · intro d'
    by_cases hd : d' = d
    · simp [hd]
    · simp [hd, Ne.symm hd, g.lw]
  · exact g.op
  · exact g.oc
  · intro d' hx
    by_cases hd : d' = d
    · subst hd; have := g.od d' hx; rw [h] at this; cases this
    · simp only [hd, if_false]; exact g.od d' hx
  · exact sound_snoc g.ok (by simp only [Allowed]; rw [g.lw, h]; rfl)

private theorem b_dropConnect {s : State} (g : B s) (h : s.connecting = true)
    (hl : s.lent .connect = false) : B (dropConnect s) := by
  constructor <;> simp only [dropConnect, State.emit, away_snoc, there_snoc, isOpen_snoc,
    reduceCtorEq, if_false, if_true, Event.freed.injEq]
  · exact g.ow
  · exact g.lw
  · exact g.op
  · intro hx; rw [hl] at hx; cases hx
  · exact g.od
  · exact sound_snoc g.ok ⟨by rw [g.lc]; exact h, by rw [g.ow]; exact hl⟩

private theorem issue_spec (d : Dir) : ∀ (as : List Ans) (s : State), B s → (s.wk d).isSome = true →
    s.lent (.io d) = false → s.handle = true →
    B (issue d s as).1 ∧ (issue d s as).1.handle = true ∧ (issue d s as).1.connecting = s.connecting ∧
      (issue d s as).1.stopped = s.stopped ∧
      ∀ x, (s.wk x = none → (issue d s as).1.wk x = none) := by
  intro as
  induction as with
  | nil => intro s g _ _ hh; exact ⟨g, hh, rfl, rfl, fun _ h => h⟩
  | cons a rest ih =>
    intro s g h hl hh
    have g1 := b_touch_io g h hl
    cases a with
    | done =>
      have g2 := b_atOnce g1 h hl hh
      have hl2 : (((s.emit (.touched (.io d))).lend (.io d)).giveBack (.io d)).lent (.io d) = false := by
        simp [State.giveBack, State.setLent, State.emit]
      have g3 := b_touch_io (d := d) g2 h hl2
      exact ih _ g3 h hl2 hh
    | pending =>
      refine ⟨b_pending g1 h hl hh, hh, rfl, rfl, ?_⟩
      intro x hx
      have hxd : x ≠ d := by
        intro hxd; subst hxd; rw [hx] at h; cases h
      simp only [issue, State.setWk, State.lend, State.setLent, State.emit, hxd, if_false, hx]
    | error => exact ⟨b_atOnce g1 h hl hh, hh, rfl, rfl, fun _ hx => hx⟩

private theorem service_spec (d : Dir) (s : State) (ok : Bool) (as : List Ans) (g : B s)
    (hh : s.handle = true) :
    B (service d s ok as).1 ∧ (service d s ok as).1.handle = true ∧
      (service d s ok as).1.connecting = s.connecting ∧ (service d s ok as).1.stopped = s.stopped ∧
      ∀ x, (s.wk x = none → (service d s ok as).1.wk x = none) := by
  unfold service
  split
  · exact ⟨g, hh, rfl, rfl, fun _ h => h⟩
  · next hw =>
    split
    · exact ⟨g, hh, rfl, rfl, fun _ h => h⟩
    · next hl =>
      have hl : s.lent (.io d) = false := by simpa using hl
      have hs : (s.wk d).isSome = true := by rw [hw]; rfl
      split
      · have g1 := b_touch_io g hs hl
        have g2 := b_set (d := d) g1 hs hl false
        have := issue_spec d as _ g2 (by simp [State.setWk]) hl hh
        refine ⟨this.1, this.2.1, this.2.2.1, this.2.2.2.1, ?_⟩
        intro x hx
        apply this.2.2.2.2 x
        have hxd : x ≠ d := by
          intro hxd; subst hxd; rw [hx] at hs; cases hs
        simp only [State.setWk, State.emit, hxd, if_false, hx]
      · exact ⟨g, hh, rfl, rfl, fun _ h => h⟩
  · next hw =>
    have hl : s.lent (.io d) = false := by
      cases hx : s.lent (.io d) with
      | false => rfl
      | true => have := g.od d hx; rw [hw] at this; cases this
    exact issue_spec d as s g (by rw [hw]; rfl) hl hh

private theorem dropWorker_spec (d : Dir) (s : State) (g : B s) :
    B (dropWorker d s) ∧ (dropWorker d s).wk d = none ∧ (dropWorker d s).handle = s.handle ∧
      (dropWorker d s).connecting = s.connecting ∧ (dropWorker d s).stopped = s.stopped ∧
      ∀ x, (s.wk x = none → (dropWorker d s).wk x = none) := by
  unfold dropWorker
  split
  · next h => exact ⟨g, h, rfl, rfl, rfl, fun _ hx => hx⟩
  · next h =>
    obtain ⟨g1, hl, hw, hc, hh, _, hst, _⟩ := b_await (k := .io d) g
    refine ⟨b_free g1 (by rw [hw, h]; rfl) hl, by simp [State.setWk], hh, hc, hst, ?_⟩
    intro x hx
    simp only [State.setWk, State.emit, hw, hx, ite_self]
  · next h =>
    have hl : s.lent (.io d) = false := by
      cases hx : s.lent (.io d) with
      | false => rfl
      | true => have := g.od d hx; rw [h] at this; cases this
    refine ⟨b_free g (by rw [h]; rfl) hl, by simp [State.setWk], rfl, rfl, rfl, ?_⟩
    intro x hx
    simp only [State.setWk, State.emit, hx, ite_self]

/-- A pipe with nothing in use. -/
private structure Idle (s : State) : Prop where
  b : B s
  connecting : s.connecting = false
  wk : ∀ d, s.wk d = none

private theorem idle_lent {s : State} (g : Idle s) (k : Slot) : s.lent k = false := by
  cases hx : s.lent k with
  | false => rfl
  | true =>
    cases k with
    | connect => have := g.b.oc hx; rw [g.connecting] at this; cases this
    | io d => have := g.b.od d hx; rw [g.wk d] at this; cases this

private theorem closePipe_spec (s : State) (g : G s) :
    Idle (closePipe s) ∧ (closePipe s).handle = false ∧ (closePipe s).stopped = s.stopped := by
  unfold closePipe
  split
  · next hh =>
    have hA : ∃ s1, s1 = (if s.connecting then dropConnect (s.await .connect) else s) ∧ B s1 ∧
        s1.connecting = false ∧ s1.handle = true ∧ s1.stopped = s.stopped := by
      refine ⟨_, rfl, ?_⟩
      split
      · next hc =>
        obtain ⟨g1, hl, _, hc1, hh1, _, hst, _⟩ := b_await (k := .connect) g.b
        exact ⟨b_dropConnect g1 (by rw [hc1]; exact hc) hl, rfl, by rw [← hh, ← hh1]; rfl, hst⟩
      · next hc => exact ⟨g.b, by simpa using hc, hh, rfl⟩
    obtain ⟨s1, he, g1, hc1, hh1, hst1⟩ := hA
    dsimp only
    rw [← he]
    obtain ⟨g2, hw2, hh2, hc2, hst2, _⟩ := dropWorker_spec .input s1 g1
    obtain ⟨g3, hw3, hh3, hc3, hst3, hn3⟩ := dropWorker_spec .output _ g2
    have hw : ∀ d, (dropWorker .output (dropWorker .input s1)).wk d = none := by
      intro d
      cases d with
      | input => exact hn3 _ hw2
      | output => exact hw3
    have hi : Idle (dropWorker .output (dropWorker .input s1)) :=
      ⟨g3, by rw [hc3, hc2, hc1], hw⟩
    refine ⟨⟨?_, by rw [← hi.connecting]; rfl, hw⟩, rfl, ?_⟩
    · constructor <;> simp only [State.emit, away_snoc, there_snoc, isOpen_snoc, reduceCtorEq, if_false,
        if_true]
      · exact g3.ow
      · exact g3.lc
      · exact g3.lw
      · exact g3.oc
      · exact g3.od
      · refine sound_snoc g3.ok ⟨by rw [g3.op, hh3, hh2, hh1], fun k => ?_⟩
        rw [g3.ow]
        exact idle_lent hi k
    · show (dropWorker .output (dropWorker .input s1)).stopped = s.stopped
      rw [hst3, hst2, hst1]
  · next hh =>
    have hh : s.handle = false := by simpa using hh
    have := g.cl hh
    exact ⟨⟨g.b, this.1, this.2⟩, hh, rfl⟩

private theorem idle_g {s : State} (g : Idle s) : G s :=
  ⟨g.b, fun _ => ⟨g.connecting, g.wk⟩, fun _ => g.wk⟩

/-- The workers are started in a pipe without workers. -/
private theorem start_spec (s : State) (g : Idle s) (hh : s.handle = true) :
    G (startPipeWorkers s) ∧ (startPipeWorkers s).handle = true ∧
      (startPipeWorkers s).stopped = s.stopped := by
  have new : ∀ (d : Dir) (s : State), s.wk d = none → (newWorker d s).handle = s.handle ∧
      (newWorker d s).connecting = s.connecting ∧ (newWorker d s).stopped = s.stopped ∧
      (∀ x, x ≠ d → (newWorker d s).wk x = s.wk x) ∧ (newWorker d s).mode = s.mode := by
    intro d s hd
    unfold newWorker
    rw [hd]
    refine ⟨rfl, rfl, rfl, ?_, rfl⟩
    intro x hx
    simp [State.setWk, State.emit, hx]
  have hA : ∃ s1, s1 = (if s.mode .input then newWorker .input s else s) ∧ B s1 ∧
      s1.connecting = false ∧ s1.handle = true ∧ s1.stopped = s.stopped ∧ s1.wk .output = none := by
    refine ⟨_, rfl, ?_⟩
    split
    · obtain ⟨a, b, c, d, _⟩ := new .input s (g.wk _)
      exact ⟨b_new g.b (g.wk _), by rw [b, g.connecting], by rw [a, hh], c,
        by rw [d .output (by simp), g.wk]⟩
    · exact ⟨g.b, g.connecting, hh, rfl, g.wk _⟩
  obtain ⟨s1, he, g1, hc1, hh1, hst1, hw1⟩ := hA
  unfold startPipeWorkers
  dsimp only
  rw [← he]
  split
  · obtain ⟨a, b, c, _, _⟩ := new .output s1 hw1
    refine ⟨⟨b_new g1 hw1, ?_, ?_⟩, by rw [a, hh1], by rw [c, hst1]⟩
    · intro hx; rw [a, hh1] at hx; cases hx
    · intro hx; rw [b, hc1] at hx; cases hx
  · refine ⟨⟨g1, ?_, ?_⟩, hh1, hst1⟩
    · intro hx; rw [hh1] at hx; cases hx
    · intro hx; rw [hc1] at hx; cases hx

/-- A handle is opened in a closed pipe. -/
private theorem open_spec (s : State) (mode : Dir → Bool) (g : Idle s) (hh : s.handle = false) :
    Idle ({ s with handle := true, mode := mode }.emit .opened) := by
  refine ⟨?_, g.connecting, g.wk⟩
  constructor <;> simp only [State.emit, away_snoc, there_snoc, isOpen_snoc, reduceCtorEq, if_false,
    if_true]
  · exact g.b.ow
  · exact g.b.lc
  · exact g.b.lw
  · exact g.b.oc
  · exact g.b.od
  · exact sound_snoc g.b.ok (by simp only [Allowed]; rw [g.b.op]; exact hh)

/-- The connection is waited for. -/
private theorem wait_spec (s : State) (g : Idle s) (hh : s.handle = true) :
    B (({ s.emit (.made .connect) with connecting := true }.emit (.touched .connect)).lend .connect) := by
  have hc := g.connecting
  have hl := idle_lent g .connect
  constructor <;> simp only [State.lend, State.setLent, State.emit, away_snoc, there_snoc, isOpen_snoc,
    reduceCtorEq, if_false, if_true, Event.lent.injEq, Event.made.injEq]
  · intro k
    by_cases hk : k = .connect
    · simp [hk]
    · simp [hk, Ne.symm hk, g.b.ow]
  · exact g.b.lw
  · exact g.b.op
  · simp
  · intro d hx
    exact g.b.od d hx
  · refine sound_snoc (sound_snoc (sound_snoc g.b.ok ?_) ⟨?_, ?_⟩) ⟨?_, ?_, ?_⟩
    · simp only [Allowed]; rw [g.b.lc]; exact hc
    · simp [there_snoc]
    · simp only [away_snoc, reduceCtorEq, if_false]; rw [g.b.ow]; exact hl
    · simp only [there_snoc, reduceCtorEq, if_false, if_true]
    · simp only [away_snoc, reduceCtorEq, if_false]; rw [g.b.ow]; exact hl
    · simp only [isOpen_snoc, reduceCtorEq, if_false]; rw [g.b.op]; exact hh

private theorem g_stop {s : State} (g : G s) : G { s with stopped := true } :=
  ⟨{ ow := g.b.ow, lc := g.b.lc, lw := g.b.lw, op := g.b.op, oc := g.b.oc, od := g.b.od, ok := g.b.ok },
    g.cl, g.cn⟩

private theorem openServer_spec (s : State) (mode : Dir → Bool) (a : Ans) (g : G s) :
    G (openServerPipe s mode a) := by
  unfold openServerPipe
  split
  · exact g_stop g
  · next h =>
    have hh : s.handle = false := by
      cases hx : s.handle with
      | false => rfl
      | true => exact absurd (Or.inl hx) h
    obtain ⟨hc, hw⟩ := g.cl hh
    have hi := open_spec s mode ⟨g.b, hc, hw⟩ hh
    have hb := wait_spec _ hi rfl
    have hcf : ({ s with handle := true, mode := mode }.emit .opened).connecting = false := hc
    dsimp only
    rw [hcf]
    simp only [Bool.false_eq_true, if_false]
    cases a with
    | done =>
      have hb2 := b_back (k := .connect) hb (by simp [State.lend, State.setLent, State.emit])
      have hb3 := b_dropConnect hb2 rfl (by simp [State.giveBack, State.setLent, State.emit])
      exact (start_spec _ ⟨hb3, rfl, hw⟩ rfl).1
    | pending =>
      refine ⟨hb, ?_, fun _ => hw⟩
      intro hx; cases hx
    | error =>
      have hb2 := b_back (k := .connect) hb (by simp [State.lend, State.setLent, State.emit])
      refine g_stop ⟨hb2, ?_, fun _ => hw⟩
      intro hx; cases hx

private theorem connect_spec (s : State) (mode : Dir → Bool) (g : G s) :
    G (connectToServer s mode) := by
  unfold connectToServer
  split
  · exact g_stop g
  · next h =>
    have hh : s.handle = false := by
      cases hx : s.handle with
      | false => rfl
      | true => exact absurd (Or.inl hx) h
    obtain ⟨hc, hw⟩ := g.cl hh
    exact (start_spec _ (open_spec s mode ⟨g.b, hc, hw⟩ hh) rfl).1

private theorem serviceConnect_spec (s : State) (ok : Bool) (g : G s) (hh : s.handle = true) :
    G (serviceConnect s ok) ∧ (serviceConnect s ok).handle = true := by
  unfold serviceConnect
  split
  · next hc =>
    split
    · exact ⟨g, hh⟩
    · next hl =>
      have hl : s.lent .connect = false := by simpa using hl
      split
      · have := start_spec _ ⟨b_dropConnect g.b hc hl, rfl, g.cn hc⟩ hh
        exact ⟨this.1, this.2.1⟩
      · exact ⟨g_stop g, hh⟩
  · exact ⟨g, hh⟩

private theorem serviceIo_spec (s : State) (okC okI : Bool) (asI : List Ans) (okO : Bool)
    (asO : List Ans) (g : G s) : G (serviceIo s okC okI asI okO asO) := by
  unfold serviceIo
  split
  · next hh =>
    obtain ⟨g1, hh1⟩ := serviceConnect_spec s okC g hh
    dsimp only
    split
    · exact g1
    · obtain ⟨b2, hh2, hc2, _, hn2⟩ := service_spec .input _ okI asI g1.b hh1
      obtain ⟨b3, hh3, hc3, _, hn3⟩ := service_spec .output _ okO asO b2 hh2
      have g3 : G (service .output (service .input (serviceConnect s okC) okI asI).1 okO asO).1 := by
        refine ⟨b3, ?_, ?_⟩
        · intro hx; rw [hh3] at hx; cases hx
        · intro hx d
          rw [hc3, hc2] at hx
          exact hn3 d (hn2 d (g1.cn hx d))
      split
      · exact idle_g (closePipe_spec _ g3).1
      · exact g3
  · exact g

private theorem delete_spec (s : State) (g : G s) : G (PipeMemory.delete s) := by
  obtain ⟨hi, hh, _⟩ := closePipe_spec s g
  unfold PipeMemory.delete
  simp only [hi.wk, hi.connecting, Option.isSome_none, Bool.false_eq_true, if_false]
  refine ⟨?_, fun _ => ⟨rfl, hi.wk⟩, fun _ => hi.wk⟩
  constructor <;> simp only [State.emit, away_snoc, there_snoc, isOpen_snoc, reduceCtorEq, if_false]
  · exact hi.b.ow
  · rw [hi.b.lc]; exact hi.connecting
  · exact hi.b.lw
  · exact hi.b.op
  · intro hx; have := hi.b.oc hx; rw [hi.connecting] at this; cases this
  · exact hi.b.od
  · refine sound_snoc hi.b.ok ⟨by rw [hi.b.op]; exact hh, fun k => ⟨?_, ?_⟩⟩
    · rw [hi.b.ow]; exact idle_lent hi k
    · cases k with
      | connect => rw [hi.b.lc]; exact hi.connecting
      | io d => rw [hi.b.lw, hi.wk]; rfl

private theorem step_spec (s : State) (l : Label) (g : G s) : G (step s l) := by
  unfold step
  split
  · exact g
  · cases l with
    | openServer mode a => exact openServer_spec s mode a g
    | connect mode => exact connect_spec s mode g
    | service okC okI asI okO asO => exact serviceIo_spec s okC okI asI okO asO g
    | close => exact idle_g (closePipe_spec s g).1
    | delete => exact delete_spec s g
    | over k =>
      obtain ⟨b, _, hw, hc, hh, _, _, _⟩ := b_await (k := k) g.b
      show G (s.await k)
      refine ⟨b, ?_, ?_⟩
      · intro hx; rw [hc, hw]; exact g.cl (by rw [← hh]; exact hx)
      · intro hx; rw [hw]; exact g.cn (by rw [← hc]; exact hx)

private theorem run_spec (ls : List Label) : G (run ls) := by
  have h0 : G {} := by
    refine ⟨⟨fun _ => rfl, rfl, fun _ => rfl, rfl, ?_, ?_, ?_⟩, fun _ => ⟨rfl, fun _ => rfl⟩, ?_⟩
    · intro h; cases h
    · intro d h; cases h
    · intro b e a h; simp at h
    · intro h; cases h
  have : ∀ (ls : List Label) (s : State), G s → G (ls.foldl step s) := by
    intro ls
    induction ls with
    | nil => intro s g; exact g
    | cons l ls ih => intro s g; exact ih _ (step_spec s l g)
  exact this ls {} h0

/-- A pipe that is connected, reads and writes, and is deleted while both operations are pending. -/
private def busyPipe : List Label :=
  [.openServer (fun _ => true) .pending, .service true true [] true [], .over .connect,
   .service true true [.done, .pending] true [.pending], .over (.io .input),
   .service true true [.pending] true [], .delete]

/-- **C94.**  Whatever is called and whatever the operating system answers: memory is lent only while it
is there and the pipe is open, and between the start of an operation and its end the agent neither
looks at the memory, nor uses it for another operation, nor frees it; nothing is freed twice; the handle
is closed once, and only when no operation is running. -/
theorem C94_lent_memory (ls : List Label) : Sound (run ls).log := (run_spec ls).b.ok

example : Event.deleted ∈ (run busyPipe).log ∧ Event.touched (.io .input) ∈ (run busyPipe).log ∧
    (run busyPipe).log.count (.lent (.io .input)) = 3 ∧
    (run busyPipe).log.count (.freed (.io .output)) = 1 := by decide +kernel

/-- **C94.**  When a pipe is closed or deleted, whatever it was doing, the operating system has none of
its memory and everything the pipe had made is freed. -/
theorem C94_closed (ls : List Label) (hs : (run ls).stopped = false) (l : Label)
    (hl : l = .close ∨ l = .delete) (k : Slot) :
    isOpen (run (ls ++ [l])).log = false ∧ away k (run (ls ++ [l])).log = false ∧
      there k (run (ls ++ [l])).log = false := by
  have key : ∀ s : State, Idle s → s.handle = false →
      isOpen s.log = false ∧ away k s.log = false ∧ there k s.log = false := by
    intro s hi hh
    refine ⟨by rw [hi.b.op]; exact hh, by rw [hi.b.ow]; exact idle_lent hi k, ?_⟩
    cases k with
    | connect => rw [hi.b.lc]; exact hi.connecting
    | io d => rw [hi.b.lw, hi.wk]; rfl
  have hr : run (ls ++ [l]) = step (run ls) l := by simp [run]
  obtain ⟨hi, hh, _⟩ := closePipe_spec (run ls) (run_spec ls)
  rw [hr]
  rcases hl with rfl | rfl
  · have : step (run ls) .close = closePipe (run ls) := by simp [step, hs]
    rw [this]
    exact key _ hi hh
  · have : step (run ls) .delete = PipeMemory.delete (run ls) := by simp [step, hs]
    rw [this]
    have hd := key _ hi hh
    unfold PipeMemory.delete
    simp only [hi.wk, hi.connecting, Option.isSome_none, Bool.false_eq_true, if_false]
    simp only [State.emit, away_snoc, there_snoc, isOpen_snoc, reduceCtorEq, if_false]
    exact hd

example : (run (busyPipe.take 6)).stopped = false ∧ away (.io .input) (run (busyPipe.take 6)).log = true ∧
    away (.io .output) (run (busyPipe.take 6)).log = true := by decide +kernel

private theorem issue_error (d : Dir) (rest : List Ans) : ∀ (n : Nat) (s : State),
    (issue d s (List.replicate n .done ++ .error :: rest)).2 = true := by
  intro n
  induction n with
  | zero => intro s; rfl
  | succ n ih => intro s; exact ih _

private theorem issue_other (d x : Dir) (hx : x ≠ d) : ∀ (as : List Ans) (s : State),
    (issue d s as).1.wk x = s.wk x := by
  intro as
  induction as with
  | nil => intro s; rfl
  | cons a rest ih =>
    intro s
    cases a with
    | done => exact ih _
    | pending => simp [issue, State.setWk, State.lend, State.setLent, State.emit, hx]
    | error => rfl

private theorem service_other (d x : Dir) (hx : x ≠ d) (s : State) (ok : Bool) (as : List Ans) :
    (service d s ok as).1.wk x = s.wk x := by
  unfold service
  split
  · rfl
  · split
    · rfl
    · split
      · rw [issue_other d x hx]
        simp [State.setWk, State.emit, hx]
      · rfl
  · exact issue_other d x hx as s

/-- **C94.**  When an operation of a connected pipe fails, whether it reads or writes and whatever the
other direction is doing, the pipe is closed by the same call, and nothing stays with the operating
system. -/
theorem C94_error (ls : List Label) (hs : (run ls).stopped = false) (hh : isOpen (run ls).log = true)
    (d : Dir) (hw : (run ls).wk d = some false) (n : Nat) (rest other : List Ans) (okC okI okO : Bool)
    (k : Slot) (l : Label)
    (hl : l = if d = .input
      then .service okC okI (List.replicate n .done ++ .error :: rest) okO other
      else .service okC okI other okO (List.replicate n .done ++ .error :: rest)) :
    isOpen (run (ls ++ [l])).log = false ∧ away k (run (ls ++ [l])).log = false := by
  have g := run_spec ls
  have hh' : (run ls).handle = true := by rw [← g.b.op]; exact hh
  have hc : (run ls).connecting = false := by
    cases hx : (run ls).connecting with
    | false => rfl
    | true => have := g.cn hx d; rw [hw] at this; cases this
  have hr : run (ls ++ [l]) = step (run ls) l := by simp [run]
  have key : ∀ s : State, G s → isOpen (closePipe s).log = false ∧ away k (closePipe s).log = false := by
    intro s gs
    obtain ⟨hi, h0, _⟩ := closePipe_spec s gs
    exact ⟨by rw [hi.b.op]; exact h0, by rw [hi.b.ow]; exact idle_lent hi k⟩
  have hG : ∀ (asI asO : List Ans),
      G (service .output (service .input (run ls) okI asI).1 okO asO).1 := by
    intro asI asO
    obtain ⟨b2, hh2, hc2, _, _⟩ := service_spec .input _ okI asI g.b hh'
    obtain ⟨b3, hh3, hc3, _, _⟩ := service_spec .output _ okO asO b2 hh2
    refine ⟨b3, ?_, ?_⟩
    · intro hx; rw [hh3] at hx; cases hx
    · intro hx; rw [hc3, hc2, hc] at hx; cases hx
  have hstep : ∀ (asI asO : List Ans),
      ((service .input (run ls) okI asI).2 ||
        (service .output (service .input (run ls) okI asI).1 okO asO).2) = true →
      step (run ls) (.service okC okI asI okO asO) =
        closePipe (service .output (service .input (run ls) okI asI).1 okO asO).1 := by
    intro asI asO he
    simp only [step, hs, serviceIo, hh', serviceConnect, hc, if_true, Bool.false_eq_true, if_false, he]
  rw [hr]
  cases d with
  | input =>
    simp only [if_true] at hl
    rw [hl, hstep]
    · exact key _ (hG _ _)
    · have : (service .input (run ls) okI (List.replicate n .done ++ .error :: rest)).2 = true := by
        unfold service
        rw [hw]
        exact issue_error .input rest n _
      rw [this]; rfl
  | output =>
    simp only [reduceCtorEq, if_false] at hl
    rw [hl, hstep]
    · exact key _ (hG _ _)
    · have hw2 := service_other .input .output (by simp) (run ls) okI other
      rw [hw] at hw2
      have : (service .output (service .input (run ls) okI other).1 okO
          (List.replicate n .done ++ .error :: rest)).2 = true := by
        generalize (service .input (run ls) okI other).1 = s2 at hw2
        unfold service
        rw [hw2]
        exact issue_error .output rest n _
      rw [this]; simp

example : (run (busyPipe.take 3 ++ [.service true true [] true [.pending]])).wk .input = some false ∧
    isOpen (run (busyPipe.take 3 ++ [.service true true [] true [.pending]])).log = true ∧
    away (.io .output) (run (busyPipe.take 3 ++ [.service true true [] true [.pending]])).log = true := by
  decide +kernel

/-- **C94.**  A closed pipe can be connected, for reading, for writing or for both: then it is open and
has the memory for just these directions. -/
theorem C94_connected (ls : List Label) (hs : (run ls).stopped = false)
    (hh : isOpen (run ls).log = false) (mode : Dir → Bool) (hm : ∃ d, mode d = true) :
    isOpen (run (ls ++ [.connect mode])).log = true ∧ (run (ls ++ [.connect mode])).stopped = false ∧
      ∀ d, there (.io d) (run (ls ++ [.connect mode])).log = mode d := by
  have g := run_spec ls
  have hh' : (run ls).handle = false := by rw [← g.b.op]; exact hh
  obtain ⟨hc, hw⟩ := g.cl hh'
  have hno : ¬ ((run ls).handle = true ∨ (mode .input = false ∧ mode .output = false)) := by
    rintro (h | ⟨h1, h2⟩)
    · rw [hh'] at h; cases h
    · obtain ⟨d, hd⟩ := hm
      cases d
      · rw [h1] at hd; cases hd
      · rw [h2] at hd; cases hd
  have hr : run (ls ++ [.connect mode]) =
      startPipeWorkers ({ run ls with handle := true, mode := mode }.emit .opened) := by
    have : run (ls ++ [.connect mode]) = step (run ls) (.connect mode) := by simp [run]
    rw [this]
    simp only [step, hs, connectToServer, hno, Bool.false_eq_true, if_false]
  obtain ⟨g2, h2, h3⟩ := start_spec _ (open_spec (run ls) mode ⟨g.b, hc, hw⟩ hh') rfl
  rw [hr]
  refine ⟨by rw [g2.b.op]; exact h2, by rw [h3]; exact hs, ?_⟩
  intro d
  rw [g2.b.lw]
  have hi := hw .input
  have ho := hw .output
  cases d <;> cases h1 : mode .input <;> cases h2 : mode .output <;>
    simp [startPipeWorkers, newWorker, State.setWk, State.emit, h1, h2, hi, ho]

example : (run (busyPipe.take 3 ++ [.close])).stopped = false ∧
    isOpen (run (busyPipe.take 3 ++ [.close])).log = false := by decide +kernel

end Winpty.Props
