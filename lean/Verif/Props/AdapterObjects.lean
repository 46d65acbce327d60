import Verif.Spec.AdapterObjects
/-!
# C93: the adapter's threads and handles

For every interleaving of the adapter's threads with `main`, and every answer of the operating system.
-/
namespace Winpty.Props
open Winpty.AdapterObjects Winpty.Spec.AdapterObjects

/-- Everything that is required of an event. -/
private def Fine (before : List Event) (e : Event) : Prop :=
  ObjectsOk before e ∧ ThreadsOk before e ∧ OrderOk before e ∧ EndOk before e

private theorem always_nil (P : List Event → Event → Prop) : Always P [] := by
  intro b e a h
  simp at h

private theorem always_snoc {P : List Event → Event → Prop} {log : List Event} {e : Event}
    (h : Always P log) (he : P log e) : Always P (log ++ [e]) := by
  intro b x a hx
  rcases List.eq_nil_or_concat a with rfl | ⟨a', y, rfl⟩
  · have := List.append_inj' hx rfl
    obtain ⟨rfl, hxe⟩ := this
    cases hxe
    exact he
  · rw [List.concat_eq_append, show b ++ x :: (a' ++ [y]) = (b ++ x :: a') ++ [y] by simp] at hx
    have := List.append_inj' hx rfl
    exact h b x a' this.1

private def threads : List Thread := [.input, .output, .error]
private def objs : List Obj := [.mainWake, .session, .conin, .conout, .conerr, .child, .inWake]

private theorem mem_threads (t : Thread) : t ∈ threads := by cases t <;> decide
private theorem mem_objs (o : Obj) : o ∈ objs := by cases o <;> decide

/-- What `main` has done before a step of its. -/
private def OpFine (d : List Op) : Op → Bool
  | .opn o => decide (Op.opn o ∉ d)
  | .use o => decide (Op.opn o ∈ d ∧ Op.close o ∉ d)
  | .close o => decide (Op.opn o ∈ d ∧ Op.close o ∉ d)
  | .start t => decide (Op.start t ∉ d)
  | .loop => decide (Op.opn .mainWake ∈ d ∧ Op.close .mainWake ∉ d ∧ Op.opn .session ∈ d ∧
      Op.close .session ∉ d)
  | .ask => true
  | .join t => decide (Op.start t ∈ d ∧ Op.close .session ∈ d ∧ Op.ask ∈ d)
  | .ret => threads.all (fun t => decide (Op.start t ∈ d → Op.join t ∈ d)) &&
      objs.all (fun o => decide (o ≠ .mainWake → Op.opn o ∈ d → Op.close o ∈ d)) &&
      decide (Op.close .mainWake ∉ d)

/-- What may be used while a thread has not been joined. -/
private def ThreadFine (d : List Op) : Bool :=
  threads.all fun t => objs.all fun o =>
    decide (Op.start t ∈ d → Op.join t ∉ d → (Uses t o = true ∨ o = .mainWake) →
      (Op.opn o ∈ d ∧ Op.close o ∉ d))

private def checks (c : Bool) : Bool :=
  (List.range 40).all fun n =>
    ThreadFine ((program c).take n) &&
      (match (program c)[n]? with
       | none => true
       | some op => OpFine ((program c).take n) op)

private theorem checks_ok (c : Bool) : checks c = true := by cases c <;> decide +kernel

private theorem program_length (c : Bool) : (program c).length < 40 := by cases c <;> decide

private theorem opFine {c : Bool} {n : Nat} {op : Op} (h : (program c)[n]? = some op) :
    OpFine ((program c).take n) op = true := by
  have hn : n < 40 := by
    have := (List.getElem?_eq_some_iff.1 h).1
    have := program_length c
    omega
  have := List.all_eq_true.1 (checks_ok c) n (List.mem_range.2 hn)
  rw [h] at this
  simp only [Bool.and_eq_true] at this
  exact this.2

private theorem threadFine (c : Bool) {n : Nat} (hn : n ≤ (program c).length) {t : Thread} {o : Obj}
    (h1 : Op.start t ∈ (program c).take n) (h2 : Op.join t ∉ (program c).take n)
    (h3 : Uses t o = true ∨ o = .mainWake) :
    Op.opn o ∈ (program c).take n ∧ Op.close o ∉ (program c).take n := by
  have hn : n < 40 := by
    have := program_length c
    omega
  have := List.all_eq_true.1 (checks_ok c) n (List.mem_range.2 hn)
  simp only [Bool.and_eq_true] at this
  have := List.all_eq_true.1 (List.all_eq_true.1 this.1 t (mem_threads t)) o (mem_objs o)
  exact of_decide_eq_true this h1 h2 h3

/-- What connects `main`'s place, the threads and the log. -/
private structure Inv (c : Bool) (s : State) : Prop where
  pc : s.pc ≤ (program c).length
  op : ∀ o, Event.opened o ∈ s.log ↔ Op.opn o ∈ (program c).take s.pc
  cl : ∀ o, Event.closed o ∈ s.log ↔ Op.close o ∈ (program c).take s.pc
  ask : Event.asked ∈ s.log ↔ Op.ask ∈ (program c).take s.pc
  jf : ∀ t, Event.joined t ∈ s.log ↔ s.flag t = true
  fj : ∀ t, s.flag t = true ↔ Op.join t ∈ (program c).take s.pc
  st : ∀ t, Event.started t ∈ s.log ↔ s.thr t ≠ .notStarted
  sd : ∀ t, s.thr t ≠ .notStarted ↔ Op.start t ∈ (program c).take s.pc
  en : ∀ t, Event.ended t ∈ s.log ↔ s.thr t = .ended
  je : ∀ t, s.flag t = true → s.thr t = .ended
  ret : Event.returned ∈ s.log ↔ Op.ret ∈ (program c).take s.pc
  ok : Always Fine s.log

private theorem inv_init (c : Bool) : Inv c {} := by
  constructor <;> simp
  exact always_nil _

/-- The objects an unfinished thread uses are open. -/
private theorem inv_open {c : Bool} {s : State} (g : Inv c s) {t : Thread} {o : Obj}
    (h1 : s.thr t ≠ .notStarted) (h2 : s.thr t ≠ .ended) (h3 : Uses t o = true ∨ o = .mainWake) :
    Event.opened o ∈ s.log ∧ Event.closed o ∉ s.log := by
  have := threadFine c g.pc ((g.sd t).1 h1)
    (fun hj => h2 (g.je t ((g.fj t).2 hj))) h3
  exact ⟨(g.op o).2 this.1, fun h => this.2 ((g.cl o).1 h)⟩

/-- A use of an open object changes nothing else. -/
private theorem inv_use {c : Bool} {s : State} (g : Inv c s) {o : Obj}
    (h : Event.opened o ∈ s.log ∧ Event.closed o ∉ s.log) : Inv c (s.emit (.used o)) := by
  constructor <;> simp only [State.emit, List.mem_append, List.mem_singleton, reduceCtorEq, or_false]
  · exact g.pc
  · exact g.op
  · exact g.cl
  · exact g.ask
  · exact g.jf
  · exact g.fj
  · exact g.st
  · exact g.sd
  · exact g.en
  · exact g.je
  · exact g.ret
  · exact always_snoc g.ok ⟨h, trivial, trivial, trivial⟩

private theorem take_next {c : Bool} {n : Nat} {op : Op} (h : (program c)[n]? = some op) :
    (program c).take (n + 1) = (program c).take n ++ [op] := by
  rw [List.take_add_one, h]; rfl

private theorem inv_main {c : Bool} {s : State} {op : Op} (g : Inv c s)
    (h : (program c)[s.pc]? = some op) : Inv c (mainStep s op) := by
  have hf := opFine h
  have hp : s.pc + 1 ≤ (program c).length := (List.getElem?_eq_some_iff.1 h).1
  have ht := take_next h
  cases op with
  | opn o =>
    simp only [OpFine, decide_eq_true_eq] at hf
    constructor <;> simp only [mainStep, State.emit, State.next, ht, List.mem_append,
      List.mem_singleton, reduceCtorEq, or_false, Event.opened.injEq, Op.opn.injEq]
    · exact hp
    · intro o'; rw [g.op]
    · exact g.cl
    · exact g.ask
    · exact g.jf
    · exact g.fj
    · exact g.st
    · exact g.sd
    · exact g.en
    · exact g.je
    · exact g.ret
    · exact always_snoc g.ok ⟨fun hx => hf ((g.op o).1 hx), trivial, trivial, trivial⟩
  | use o =>
    simp only [OpFine, decide_eq_true_eq] at hf
    constructor <;> simp only [mainStep, State.emit, State.next, ht, List.mem_append,
      List.mem_singleton, reduceCtorEq, or_false]
    · exact hp
    · exact g.op
    · exact g.cl
    · exact g.ask
    · exact g.jf
    · exact g.fj
    · exact g.st
    · exact g.sd
    · exact g.en
    · exact g.je
    · exact g.ret
    · exact always_snoc g.ok ⟨⟨(g.op o).2 hf.1, fun hx => hf.2 ((g.cl o).1 hx)⟩, trivial, trivial,
        trivial⟩
  | close o =>
    simp only [OpFine, decide_eq_true_eq] at hf
    constructor <;> simp only [mainStep, State.emit, State.next, ht, List.mem_append,
      List.mem_singleton, reduceCtorEq, or_false, Event.closed.injEq, Op.close.injEq]
    · exact hp
    · exact g.op
    · intro o'; rw [g.cl]
    · exact g.ask
    · exact g.jf
    · exact g.fj
    · exact g.st
    · exact g.sd
    · exact g.en
    · exact g.je
    · exact g.ret
    · exact always_snoc g.ok ⟨⟨(g.op o).2 hf.1, fun hx => hf.2 ((g.cl o).1 hx)⟩, trivial, trivial,
        trivial⟩
  | start t =>
    simp only [OpFine, decide_eq_true_eq] at hf
    have hn : s.thr t = .notStarted := Classical.not_not.1 fun hx => hf ((g.sd t).1 hx)
    constructor <;> simp only [mainStep, State.emit, State.next, ht, List.mem_append,
      List.mem_singleton, reduceCtorEq, or_false, Event.started.injEq, Op.start.injEq, upd]
    · exact hp
    · exact g.op
    · exact g.cl
    · exact g.ask
    · exact g.jf
    · exact g.fj
    · intro u
      by_cases hu : u = t
      · simp [hu]
      · simp [hu, g.st]
    · intro u
      by_cases hu : u = t
      · simp [hu]
      · simp [hu, g.sd]
    · intro u
      by_cases hu : u = t
      · subst hu; simp [g.en, hn]
      · simp [hu, g.en]
    · intro u hu'
      have he := g.je u hu'
      by_cases hu : u = t
      · subst hu; rw [hn] at he; cases he
      · simp [hu, he]
    · exact g.ret
    · exact always_snoc g.ok ⟨trivial, fun hx => (g.st t).1 hx hn, trivial, trivial⟩
  | loop =>
    simp only [OpFine, decide_eq_true_eq] at hf
    simp only [mainStep]
    split
    · constructor <;> simp only [State.emit, State.next, ht, List.mem_append,
        List.mem_singleton, reduceCtorEq, or_false]
      · exact hp
      · exact g.op
      · exact g.cl
      · exact g.ask
      · exact g.jf
      · exact g.fj
      · exact g.st
      · exact g.sd
      · exact g.en
      · exact g.je
      · exact g.ret
      · exact always_snoc g.ok ⟨⟨(g.op _).2 hf.1, fun hx => hf.2.1 ((g.cl _).1 hx)⟩, trivial, trivial,
          trivial⟩
    · exact g
  | ask =>
    constructor <;> simp only [mainStep, State.emit, State.next, ht, List.mem_append,
      List.mem_singleton, reduceCtorEq, or_false, or_true]
    · exact hp
    · exact g.op
    · exact g.cl
    · exact g.jf
    · exact g.fj
    · exact g.st
    · exact g.sd
    · exact g.en
    · exact g.je
    · exact g.ret
    · exact always_snoc g.ok ⟨trivial, trivial, trivial, trivial⟩
  | join t =>
    simp only [OpFine, decide_eq_true_eq] at hf
    simp only [mainStep]
    split
    · next hfl =>
      constructor <;> simp only [State.next, ht, List.mem_append,
        List.mem_singleton, reduceCtorEq, or_false, Op.join.injEq]
      · exact hp
      · exact g.op
      · exact g.cl
      · exact g.ask
      · exact g.jf
      · intro u
        rw [← g.fj]
        by_cases hu : u = t
        · simp [hu, hfl]
        · simp [hu]
      · exact g.st
      · exact g.sd
      · exact g.en
      · exact g.je
      · exact g.ret
      · exact g.ok
    · next hfl =>
      split
      · exact g
      · exact g
      · next hr hc =>
        have he : s.thr t = .ended := by
          have := (g.sd t).2 hf.1
          cases hx : s.thr t with
          | notStarted => exact absurd hx this
          | running => exact absurd hx hr
          | completed => exact absurd hx hc
          | ended => rfl
        constructor <;> simp only [State.emit, State.next, ht, List.mem_append,
          List.mem_singleton, reduceCtorEq, or_false, Op.join.injEq, Event.joined.injEq, upd]
        · exact hp
        · exact g.op
        · exact g.cl
        · exact g.ask
        · intro u
          by_cases hu : u = t
          · simp [hu]
          · simp [hu, g.jf]
        · intro u
          by_cases hu : u = t
          · simp [hu]
          · simp [hu, g.fj]
        · exact g.st
        · exact g.sd
        · exact g.en
        · intro u hu'
          by_cases hu : u = t
          · rw [hu]; exact he
          · simp only [hu, if_false] at hu'
            exact g.je u hu'
        · exact g.ret
        · refine always_snoc g.ok ⟨trivial, ⟨?_, ?_, ?_⟩, ⟨?_, ?_⟩, trivial⟩
          · exact (g.st t).2 (by rw [he]; simp)
          · exact (g.en t).2 he
          · exact fun hx => hfl ((g.jf t).1 hx)
          · exact (g.cl _).2 hf.2.1
          · exact fun _ => g.ask.2 hf.2.2
  | ret =>
    simp only [OpFine, Bool.and_eq_true, List.all_eq_true, decide_eq_true_eq] at hf
    constructor <;> simp only [mainStep, State.emit, State.next, ht, List.mem_append,
      List.mem_singleton, reduceCtorEq, or_false, or_true]
    · exact hp
    · exact g.op
    · exact g.cl
    · exact g.ask
    · exact g.jf
    · exact g.fj
    · exact g.st
    · exact g.sd
    · exact g.en
    · exact g.je
    · refine always_snoc g.ok ⟨trivial, trivial, trivial, ?_, ?_, ?_⟩
      · intro t hx
        exact (g.jf t).2 ((g.fj t).2 (hf.1.1 t (mem_threads t) ((g.sd t).1 ((g.st t).1 hx))))
      · intro o ho hx
        exact (g.cl o).2 (hf.1.2 o (mem_objs o) ho ((g.op o).1 hx))
      · exact fun hx => hf.2 ((g.cl _).1 hx)

private theorem inv_thr {c : Bool} {s : State} (g : Inv c s) {t : Thread}
    (h : s.thr t = .running) : Inv c { s with thr := upd s.thr t .completed } := by
  have key : ∀ u, (upd s.thr t .completed u ≠ .notStarted ↔ s.thr u ≠ .notStarted) ∧
      (upd s.thr t .completed u = .ended ↔ s.thr u = .ended) := by
    intro u
    by_cases hu : u = t
    · subst hu; simp [upd, h]
    · simp [upd, hu]
  exact { g with
    st := fun u => (g.st u).trans (key u).1.symm
    sd := fun u => (key u).1.trans (g.sd u)
    en := fun u => (g.en u).trans (key u).2.symm
    je := fun u hu => (key u).2.2 (g.je u hu) }

private theorem inv_finish {c : Bool} {s : State} (g : Inv c s) {t : Thread}
    (h : s.thr t = .completed) :
    Inv c (({ s with thr := upd s.thr t .ended }.emit (.used .mainWake)).emit (.ended t)) := by
  have ho := inv_open g (t := t) (o := .mainWake) (by rw [h]; simp) (by rw [h]; simp) (Or.inr rfl)
  have g1 := inv_use g ho
  have hj : s.flag t ≠ true := fun hx => by
    have := g.je t hx
    rw [h] at this; cases this
  have hst : Event.started t ∈ s.log := (g.st t).2 (by rw [h]; simp)
  constructor <;> simp only [State.emit, List.mem_append,
    List.mem_singleton, reduceCtorEq, or_false, Event.ended.injEq, upd]
  · exact g.pc
  · exact g.op
  · exact g.cl
  · exact g.ask
  · exact g.jf
  · exact g.fj
  · intro u
    by_cases hu : u = t
    · subst hu; simp [hst]
    · simp [hu, g.st]
  · intro u
    by_cases hu : u = t
    · subst hu
      simp only [if_true, ne_eq, reduceCtorEq, not_false_eq_true, true_iff]
      exact (g.sd u).1 (by rw [h]; simp)
    · simp [hu, g.sd]
  · intro u
    by_cases hu : u = t
    · simp [hu]
    · simp [hu, g.en]
  · intro u hu'
    by_cases hu : u = t
    · simp [hu]
    · simp [hu, g.je u hu']
  · exact g.ret
  · refine always_snoc g1.ok ⟨trivial, ⟨?_, ?_⟩, trivial, trivial⟩
    · exact List.mem_append_left _ hst
    · simp only [State.emit, List.mem_append, List.mem_singleton, reduceCtorEq, or_false]
      exact fun hx => hj ((g.jf t).1 hx)

private theorem inv_step {c : Bool} {s : State} (g : Inv c s) {l : Label} (hl : l ≠ .noThread) :
    Inv c (step c s l) := by
  unfold step
  split
  · exact g
  cases l with
  | main =>
    dsimp only
    split
    · exact g
    · next h => exact inv_main g h
  | mainFails =>
    dsimp only
    split
    · exact g
    · next op h =>
      cases op with
      | opn o => exact { g with }
      | use o => exact inv_main g h
      | _ => exact g
  | noThread => exact absurd rfl hl
  | again =>
    dsimp only
    split
    · next h =>
      have hf := opFine h
      simp only [OpFine, decide_eq_true_eq] at hf
      have g1 := inv_use g (o := .mainWake) ⟨(g.op _).2 hf.1, fun hx => hf.2.1 ((g.cl _).1 hx)⟩
      exact inv_use g1 (o := .session)
        ⟨(g1.op _).2 hf.2.2.1, fun hx => hf.2.2.2 ((g1.cl _).1 hx)⟩
    · exact g
  | use t o =>
    dsimp only
    split
    · next h =>
      exact inv_use g (inv_open g (by rw [h.1]; simp) (by rw [h.1]; simp) (Or.inl h.2))
    · exact g
  | complete t =>
    dsimp only
    split
    · next h => exact inv_thr g h
    · exact g
  | finish t =>
    dsimp only
    split
    · next h => exact inv_finish g h
    · exact g

private theorem inv_run {c : Bool} (ls : List Label) (h : Label.noThread ∉ ls) : Inv c (run c ls) := by
  have : ∀ (ls : List Label) (s : State), Label.noThread ∉ ls → Inv c s →
      Inv c (ls.foldl (step c) s) := by
    intro ls
    induction ls with
    | nil => intro s _ g; exact g
    | cons l ls ih =>
      intro s hn g
      simp only [List.mem_cons, not_or] at hn
      exact ih _ hn.2 (inv_step g (fun hx => hn.1 hx.symm))
  exact this ls {} h (inv_init c)

/-- The adapter without an error: it starts, relays, and ends after the program has ended. -/
private def normalRun : List Label :=
  List.replicate 9 .main ++
  [.use .input .conin, .again, .use .output .conout, .complete .output, .main, .main, .finish .output,
   .use .input .conin, .main, .main, .use .input .inWake, .main, .complete .input, .finish .input] ++
  List.replicate 20 .main

/-- **C93.**  Whatever the threads do and whenever, and whatever fails, unless a thread cannot be
created: no handle, wake-up pipe or session is used before it is opened or after it is closed, and none
is closed twice. -/
theorem C93_objects_partial (conerr : Bool) (ls : List Label) (h : Label.noThread ∉ ls) :
    Always ObjectsOk (run conerr ls).log :=
  fun b e a hx => ((inv_run ls h).ok b e a hx).1

example : Label.noThread ∉ normalRun ∧ Event.returned ∈ (run false normalRun).log := by
  decide +kernel

/-- **C93.**  Every thread is started once and joined at most once, though `shutdown` is called again by
the destructor, and a join returns only when the thread has ended. -/
theorem C93_threads_partial (conerr : Bool) (ls : List Label) (h : Label.noThread ∉ ls) :
    Always ThreadsOk (run conerr ls).log :=
  fun b e a hx => ((inv_run ls h).ok b e a hx).2.1

/-- **C93.**  A thread is joined only after the session was closed, and the input thread only after it
was asked to stop. -/
theorem C93_order_partial (conerr : Bool) (ls : List Label) (h : Label.noThread ∉ ls) :
    Always OrderOk (run conerr ls).log :=
  fun b e a hx => ((inv_run ls h).ok b e a hx).2.2.1

/-- **C93.**  When `main` returns every thread that was started has been joined, and everything that was
opened is closed, except for the main wake-up, which is never closed. -/
theorem C93_end_partial (conerr : Bool) (ls : List Label) (h : Label.noThread ∉ ls) :
    Always EndOk (run conerr ls).log :=
  fun b e a hx => ((inv_run ls h).ok b e a hx).2.2.2

example :
    Event.joined .input ∈ (run false normalRun).log ∧ Event.closed .inWake ∈ (run false normalRun).log ∧
    Event.used .conin ∈ (run false normalRun).log := by decide +kernel

/-- The last step of `main` is to return. -/
private theorem ret_last (c : Bool) : Op.ret ∈ program c := by cases c <;> decide

private theorem loop_started (c : Bool) {n : Nat} (h : (program c)[n]? = some .loop) :
    Op.start .input ∈ (program c).take n := by
  have hn : n < 40 := by
    have := (List.getElem?_eq_some_iff.1 h).1
    have := program_length c
    omega
  have : ∀ n ∈ List.range 40, (program c)[n]? = some Op.loop →
      Op.start .input ∈ (program c).take n := by
    cases c <;> decide +kernel
  exact this n (List.mem_range.2 hn) h

/-- `main` is not inside a thread that is still running. -/
private def Quiet (s : State) : Prop := ∀ t, s.thr t ≠ .notStarted → s.thr t = .ended

/-- When its threads have ended, `main` does not wait. -/
private theorem main_goes {c : Bool} {s : State} {op : Op} (g : Inv c s)
    (h : (program c)[s.pc]? = some op) (q : Quiet s) : (mainStep s op).pc = s.pc + 1 := by
  cases op with
  | loop =>
    have : s.thr .input = .ended := q .input ((g.sd .input).2 (loop_started c h))
    simp [mainStep, this, State.emit, State.next]
  | join t =>
    simp only [mainStep]
    split
    · rfl
    · split
      · next hx => have := q t (by rw [hx]; simp); rw [hx] at this; cases this
      · next hx => have := q t (by rw [hx]; simp); rw [hx] at this; cases this
      · rfl
  | _ => rfl

/-- All threads of `main` can come to an end. -/
private def finishAll : List Label :=
  [.complete .input, .finish .input, .complete .output, .finish .output, .complete .error,
   .finish .error]

private theorem finishAll_quiet {c : Bool} {s : State} (hs : s.stopped = false) :
    Quiet (finishAll.foldl (step c) s) ∧ (finishAll.foldl (step c) s).stopped = false ∧
      (finishAll.foldl (step c) s).pc = s.pc := by
  have one : ∀ (s : State) (t : Thread), s.stopped = false →
      (([.complete t, .finish t] : List Label).foldl (step c) s).stopped = false ∧
      (([.complete t, .finish t] : List Label).foldl (step c) s).pc = s.pc ∧
      ((([.complete t, .finish t] : List Label).foldl (step c) s).thr t = .notStarted ∨
        (([.complete t, .finish t] : List Label).foldl (step c) s).thr t = .ended) ∧
      (∀ u, u ≠ t → (([.complete t, .finish t] : List Label).foldl (step c) s).thr u = s.thr u) := by
    intro s t hs
    cases ht : s.thr t with
    | notStarted => simp [step, hs, ht]
    | running =>
      simp [step, hs, ht, upd, State.emit]
      intro u hu
      simp [hu]
    | completed =>
      simp [step, hs, ht, upd, State.emit]
      intro u hu
      simp [hu]
    | ended => simp [step, hs, ht]
  have split : finishAll.foldl (step c) s =
      ([.complete .error, .finish .error] : List Label).foldl (step c)
        (([.complete .output, .finish .output] : List Label).foldl (step c)
          (([.complete .input, .finish .input] : List Label).foldl (step c) s)) := rfl
  rw [split]
  obtain ⟨a1, a2, a3, a4⟩ := one s .input hs
  obtain ⟨b1, b2, b3, b4⟩ := one _ .output a1
  obtain ⟨c1, c2, c3, c4⟩ := one _ .error b1
  refine ⟨?_, c1, by rw [c2, b2, a2]⟩
  intro t hn
  cases t with
  | input =>
    rw [c4 .input (by simp), b4 .input (by simp)] at hn ⊢
    exact a3.resolve_left hn
  | output =>
    rw [c4 .output (by simp)] at hn ⊢
    exact b3.resolve_left hn
  | error => exact c3.resolve_left hn

private theorem stopped_main (s : State) (op : Op) (h : s.stopped = false) :
    (mainStep s op).stopped = false := by
  cases op <;> simp only [mainStep, State.emit, State.next, h]
  · split <;> simp [h]
  · split
    · rfl
    · split <;> simp [h]

/-- From anywhere `main` can be brought to its end. -/
private theorem can_return (c : Bool) : ∀ (k : Nat) (s : State), Inv c s → s.stopped = false →
    (program c).length - s.pc = k →
    ∃ ls : List Label, Label.noThread ∉ ls ∧ Label.mainFails ∉ ls ∧
      Event.returned ∈ (ls.foldl (step c) s).log := by
  intro k
  induction k with
  | zero =>
    intro s g _ hk
    refine ⟨[], by simp, by simp, ?_⟩
    have := g.pc
    have hp : (program c).take s.pc = program c := List.take_of_length_le (by omega)
    exact g.ret.2 (by rw [hp]; exact ret_last c)
  | succ k ih =>
    intro s g hs hk
    obtain ⟨q, hs', hpc⟩ := finishAll_quiet (c := c) hs
    have g' : Inv c (finishAll.foldl (step c) s) := by
      have : ∀ (ls : List Label) (s : State), Label.noThread ∉ ls → Inv c s →
          Inv c (ls.foldl (step c) s) := by
        intro ls
        induction ls with
        | nil => intro s _ g; exact g
        | cons l ls ih =>
          intro s hn g
          simp only [List.mem_cons, not_or] at hn
          exact ih _ hn.2 (inv_step g (fun hx => hn.1 hx.symm))
      exact this finishAll s (by decide) g
    have hlt : (finishAll.foldl (step c) s).pc < (program c).length := by rw [hpc]; omega
    have hop := List.getElem?_eq_getElem hlt
    have hgo := main_goes g' hop q
    have hstep : step c (finishAll.foldl (step c) s) .main =
        mainStep (finishAll.foldl (step c) s)
          ((program c)[(finishAll.foldl (step c) s).pc]) := by
      simp only [step, hs', hop]
      rfl
    have hst : (mainStep (finishAll.foldl (step c) s)
        ((program c)[(finishAll.foldl (step c) s).pc])).stopped = false :=
      stopped_main _ _ hs'
    obtain ⟨ls, h1, h2, h3⟩ := ih _ (inv_main g' hop) hst (by rw [hgo, hpc]; omega)
    refine ⟨finishAll ++ .main :: ls, ?_, ?_, ?_⟩
    · simp [finishAll, h1]
    · simp [finishAll, h2]
    · rw [List.foldl_append, List.foldl_cons, hstep]
      exact h3

/-- **C93.**  The adapter is never in a place it cannot leave: unless it has given up, `main` returns if
the threads come to an end, without anything failing. -/
theorem C93_returns_partial (conerr : Bool) (ls : List Label) (h : Label.noThread ∉ ls)
    (hs : (run conerr ls).stopped = false) :
    ∃ more, Label.noThread ∉ more ∧ Label.mainFails ∉ more ∧
      Event.returned ∈ (run conerr (ls ++ more)).log := by
  obtain ⟨more, h1, h2, h3⟩ := can_return conerr _ _ (inv_run ls h) hs rfl
  refine ⟨more, h1, h2, ?_⟩
  rw [run, List.foldl_append]
  exact h3

example : (run true (normalRun.take 20)).stopped = false ∧
    Event.returned ∉ (run true (normalRun.take 20)).log := by decide +kernel

private theorem close_session (c : Bool) : Op.close .session ∈ program c := by cases c <;> decide

private theorem log_main (s : State) (op : Op) {e : Event} (h : e ∈ s.log) :
    e ∈ (mainStep s op).log := by
  cases op <;> simp only [mainStep, State.emit, State.next]
  case loop =>
    split
    · exact List.mem_append_left _ h
    · exact h
  case join t =>
    split
    · exact h
    · split
      · exact h
      · exact h
      · exact List.mem_append_left _ h
  all_goals exact List.mem_append_left _ h

/-- Until the session is closed `main` waits for nothing but the end of a thread. -/
private theorem main_goes_early {c : Bool} {s : State} {op : Op} (g : Inv c s)
    (h : (program c)[s.pc]? = some op) (hc : Event.closed .session ∉ s.log) {t : Thread}
    (he : Event.ended t ∈ s.log) : (mainStep s op).pc = s.pc + 1 := by
  have hf := opFine h
  cases op with
  | loop =>
    have ht := (g.en t).1 he
    cases t <;> simp [mainStep, ht, State.emit, State.next]
  | join u =>
    simp only [OpFine, decide_eq_true_eq] at hf
    exact absurd ((g.cl .session).2 hf.2.1) hc
  | _ => rfl

private theorem will_close (c : Bool) (t : Thread) : ∀ (k : Nat) (s : State), Inv c s →
    s.stopped = false → (program c).length - s.pc = k → Event.ended t ∈ s.log →
    ∃ n, Event.closed .session ∈ ((List.replicate n Label.main).foldl (step c) s).log := by
  intro k
  induction k with
  | zero =>
    intro s g _ hk _
    have := g.pc
    have hp : (program c).take s.pc = program c := List.take_of_length_le (by omega)
    exact ⟨0, (g.cl .session).2 (by rw [hp]; exact close_session c)⟩
  | succ k ih =>
    intro s g hs hk he
    by_cases hc : Event.closed .session ∈ s.log
    · exact ⟨0, hc⟩
    · have hlt : s.pc < (program c).length := by omega
      have hop := List.getElem?_eq_getElem hlt
      have hgo := main_goes_early g hop hc he
      have hstep : step c s .main = mainStep s ((program c)[s.pc]) := by
        simp only [step, hs, hop]
        rfl
      obtain ⟨n, hn⟩ := ih _ (inv_main g hop) (stopped_main _ _ hs) (by rw [hgo]; omega)
        (log_main _ _ he)
      refine ⟨n + 1, ?_⟩
      rw [List.replicate_succ, List.foldl_cons, hstep]
      exact hn

/-- **C93.**  As soon as one thread, whichever it is, has ended, `main` goes on by itself and closes the
session: it does not wait for the others before that. -/
theorem C93_notices_partial (conerr : Bool) (ls : List Label) (h : Label.noThread ∉ ls)
    (hs : (run conerr ls).stopped = false) (t : Thread) (he : Event.ended t ∈ (run conerr ls).log) :
    ∃ n, Event.closed .session ∈ (run conerr (ls ++ List.replicate n .main)).log := by
  obtain ⟨n, hn⟩ := will_close conerr t _ _ (inv_run ls h) hs rfl he
  refine ⟨n, ?_⟩
  rw [run, List.foldl_append]
  exact hn

example : Event.ended .error ∈ (run true (List.replicate 11 .main ++
      [.again, .complete .error, .finish .error])).log ∧
    Event.closed .session ∉ (run true (List.replicate 11 .main ++
      [.again, .complete .error, .finish .error])).log := by decide +kernel

/-- **C93, defect.**  The answer of `pthread_create` is not looked at: if the output thread cannot be
created, a thread that was never started is joined. -/
theorem C93_no_thread_defect :
    ∃ ls, Event.joined .output ∈ (run false ls).log ∧ Event.started .output ∉ (run false ls).log ∧
      ¬ Always ThreadsOk (run false ls).log := by
  refine ⟨List.replicate 8 .main ++ [.noThread, .complete .input, .finish .input] ++
    List.replicate 20 .main, ?_, ?_, ?_⟩
  · decide +kernel
  · decide +kernel
  · intro h
    have hm : Event.joined .output ∈ (run false (List.replicate 8 .main ++
        [.noThread, .complete .input, .finish .input] ++ List.replicate 20 .main)).log := by
      decide +kernel
    have hn : Event.started .output ∉ (run false (List.replicate 8 .main ++
        [.noThread, .complete .input, .finish .input] ++ List.replicate 20 .main)).log := by
      decide +kernel
    obtain ⟨b, a, hx⟩ := List.append_of_mem hm
    have := (h b _ a hx).1
    exact hn (by rw [hx]; exact List.mem_append_left _ this)

end Winpty.Props
