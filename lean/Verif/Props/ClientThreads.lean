import Verif.Lemmas.ClientThreads
import Verif.Spec.ClientThreads
import Verif.Props.ClientReply

/-!
# C81: calls from several threads on one session
-/
namespace Winpty.Props

open Winpty.Client
open Winpty.ClientThreads
open Winpty.Spec.ClientThreads

private def Held (cfg : Cfg) (g : Shared) (rest : List Io) (s1 : Session) (d1 : List (Except Nat Int))
    (l1 : List Event) : Phase → Prop
  | .locked _ => rest = [] ∧ g.session = s1 ∧ g.dups = d1 ∧ g.log = l1
  | .running j s ans n => s = s1 ∧ ans = rest ∧ g.session = s1 ∧ g.dups = d1 ∧
      ∃ w, call cfg j.wantErr s1 ⟨rest, d1, []⟩ j.call = .waiting w ∧ n = w.log.length ∧ g.log = l1 ++ w.log
  | .closing j r ok => g.session = s1 ∧ ∃ s' w es, call cfg j.wantErr s1 ⟨rest, d1, []⟩ j.call = .returned r s' w ∧
      w.ios = [] ∧ g.dups = w.dups ∧ g.log = l1 ++ es ∧
      (ok = true ∧ s' = s1 ∧ w.log = es ∨ ok = false ∧ s' = closed s1 ∧ w.log = es ++ [.closePipe])
  | .unlocking j r => ∃ w, call cfg j.wantErr s1 ⟨rest, d1, []⟩ j.call = .returned r g.session w ∧
      w.ios = [] ∧ g.dups = w.dups ∧ g.log = l1 ++ w.log
  | _ => False

private structure Inv (cfg : Cfg) (s : Session) (dups : List (Except Nat Int)) (todo : Nat → List Job)
    (g : Shared) (ios : List Io) : Prop where
  order : ∀ t, ((g.returned.filter fun x => x.1 = t).map fun x => x.2.1) ++ current (g.threads t).phase ++
    (g.threads t).todo = todo t
  args : ∀ t, ∀ j ∈ current (g.threads t).phase, argumentsFine j.call = true
  returnedArgs : ∀ x ∈ g.returned, argumentsFine x.2.1.call = true
  excl : ∀ t, usesSession (g.threads t).phase = true ↔ g.mutex = some t
  turn : ∃ answers rest s1 d1 l1, ios = answers ++ rest ∧
    InTurn cfg s ⟨answers, dups, []⟩ (g.returned.map Prod.snd) s1 ⟨[], d1, l1⟩ ∧
    (g.mutex = none → rest = [] ∧ g.session = s1 ∧ g.dups = d1 ∧ g.log = l1) ∧
    (∀ t, g.mutex = some t → Held cfg g rest s1 d1 l1 (g.threads t).phase)

/-- A sequence of calls with more answers behind it, and another call after it. -/
private theorem inTurn_snoc {cfg : Cfg} {s s1 : Session} {w w1 : World} {cs : List (Job × Ret)} {j : Job} {r : Ret}
    {s2 : Session} {w2 : World} {rest : List Io} (h : InTurn cfg s w cs s1 w1)
    (hj : ∀ x ∈ cs, argumentsFine x.1.call = true)
    (hc : call cfg j.wantErr s1 ⟨w1.ios ++ rest, w1.dups, w1.log⟩ j.call = .returned r s2 w2) :
    InTurn cfg s ⟨w.ios ++ rest, w.dups, w.log⟩ (cs ++ [(j, r)]) s2 w2 := by
  induction h with
  | nil s w => exact .cons hc (.nil _ _)
  | @cons s s1 s2' w w1 w2' j' r' cs h hr ih =>
    obtain ⟨es, he, hm⟩ := call_more cfg j'.wantErr s s1 j'.call (hj _ List.mem_cons_self) w.ios w.dups w.log r' w1 h
    have h' := hm rest w.log
    rw [← he] at h'
    exact .cons h' (ih (fun x hx => hj x (List.mem_cons_of_mem _ hx)) hc)

private theorem start_inv (cfg : Cfg) (s : Session) (dups : List (Except Nat Int)) (todo : Nat → List Job) :
    Inv cfg s dups todo (start s dups todo) [] := by
  refine ⟨fun t => by simp [start, current], fun t j h => by simp [start, current] at h,
    fun x h => by simp [start] at h, fun t => by simp [start, usesSession], [], [], s, dups, [], rfl, .nil _ _, ?_, ?_⟩
  · intro _; exact ⟨rfl, rfl, rfl, rfl⟩
  · intro t h; simp [start] at h

private theorem given_append (ls ls' : List Label) : given (ls ++ ls') = given ls ++ given ls' := by
  induction ls with
  | nil => rfl
  | cons l ls ih => cases l <;> simp [given, ih]

private theorem phase_set (g : Shared) (t i : Nat) (p : Phase) :
    ((setPhase g t p).threads i).phase = if i = t then p else (g.threads i).phase := by
  simp only [setPhase]; split <;> rfl

private theorem todo_set (g : Shared) (t i : Nat) (p : Phase) :
    ((setPhase g t p).threads i).todo = (g.threads i).todo := by
  simp only [setPhase]
  split
  · rename_i h; rw [h]
  · rfl

/-- A thread that has the mutex moves on inside its call. -/
private theorem move_inv {cfg : Cfg} {s : Session} {dups : List (Except Nat Int)} {todo : Nat → List Job}
    {g g' : Shared} {ios more : List Io} {t : Nat} {p : Phase} (h : Inv cfg s dups todo g ios)
    (hm : g.mutex = some t) (hcur : current p = current (g.threads t).phase) (hu : usesSession p = true)
    (hth : g'.threads = (setPhase g t p).threads) (hmu : g'.mutex = g.mutex) (hret : g'.returned = g.returned)
    (hh : ∀ rest s1 d1 l1, Held cfg g rest s1 d1 l1 (g.threads t).phase →
      Held cfg g' (rest ++ more) s1 d1 l1 p) :
    Inv cfg s dups todo g' (ios ++ more) := by
  have hcur' : ∀ i, current (g'.threads i).phase = current (g.threads i).phase := by
    intro i; rw [hth, phase_set]; split
    · rename_i hi; rw [hi, hcur]
    · rfl
  refine ⟨?_, ?_, ?_, ?_, ?_⟩
  · intro i
    rw [hcur', hret]
    have := h.order i
    rw [hth, todo_set]; exact this
  · intro i; rw [hcur']; exact h.args i
  · rw [hret]; exact h.returnedArgs
  · intro i
    rw [hmu, hth, phase_set]
    split
    · rename_i hi; subst hi; simp [hu, hm]
    · exact h.excl i
  · obtain ⟨answers, rest, s1, d1, l1, h1, h2, _, h4⟩ := h.turn
    refine ⟨answers, rest ++ more, s1, d1, l1, by rw [h1]; simp, by rw [hret]; exact h2, ?_, ?_⟩
    · intro hn; rw [hmu, hm] at hn; cases hn
    · intro i hi
      rw [hmu, hm] at hi
      injection hi with hi
      subst hi
      rw [hth, phase_set, if_pos rfl]
      exact hh _ _ _ _ (h4 t hm)

private theorem step_inv {cfg : Cfg} {s : Session} {dups : List (Except Nat Int)} {todo : Nat → List Job}
    {g g' : Shared} {ios : List Io} {l : Label} (h : Inv cfg s dups todo g ios) (hs : step cfg g l = some g')
    (ha : g'.aborted = false) : Inv cfg s dups todo g' (ios ++ given [l]) := by
  unfold step at hs
  split at hs
  · cases hs
  cases l with
  | enter t =>
    simp only [enter] at hs
    split at hs
    · rename_i j js hp hj
      split at hs
      · rename_i hf
        injection hs with hs
        subst hs
        simp only [given, List.append_nil]
        have hmt : g.mutex ≠ some t := by
          intro hm; have := (h.excl t).2 hm; rw [hp] at this; cases this
        refine ⟨?_, ?_, h.returnedArgs, ?_, ?_⟩
        · intro i
          by_cases hi : i = t
          · subst hi
            have := h.order i
            rw [hp, hj] at this
            simpa [current] using this
          · simpa [hi] using h.order i
        · intro i
          by_cases hi : i = t
          · subst hi; simp [current, hf]
          · simpa [hi] using h.args i
        · intro i
          by_cases hi : i = t
          · subst hi; simp [usesSession, hmt]
          · simpa [hi] using h.excl i
        · obtain ⟨answers, rest, s1, d1, l1, h1, h2, h3, h4⟩ := h.turn
          refine ⟨answers, rest, s1, d1, l1, h1, h2, h3, ?_⟩
          intro i hi
          have hne : i ≠ t := by intro he; subst he; exact hmt hi
          have := h4 i hi
          simp only [hne, if_false]
          cases hq : (g.threads i).phase <;> rw [hq] at this <;> exact this
      · injection hs with hs; subst hs; simp at ha
    · cases hs
  | lock t =>
    simp only [lock] at hs
    split at hs
    · rename_i j hp
      split at hs
      · rename_i hm
        injection hs with hs
        subst hs
        simp only [given, List.append_nil]
        have hcur : ∀ i, current ((setPhase { g with mutex := some t } t (.locked j)).threads i).phase =
            current (g.threads i).phase := by
          intro i; rw [phase_set]; split
          · rename_i hi; rw [hi, hp]; rfl
          · rfl
        refine ⟨?_, ?_, h.returnedArgs, ?_, ?_⟩
        · intro i; rw [hcur, todo_set]; exact h.order i
        · intro i; rw [hcur]; exact h.args i
        · intro i
          rw [phase_set]
          have := h.excl i
          rw [hm] at this
          split
          · rename_i hi; subst hi; simp [usesSession, setPhase]
          · rename_i hi
            simp only [setPhase]
            constructor
            · intro hc; have := this.1 hc; cases this
            · intro hc; injection hc with hc; exact absurd hc.symm hi
        · obtain ⟨answers, rest, s1, d1, l1, h1, h2, h3, h4⟩ := h.turn
          obtain ⟨k1, k2, k3, k4⟩ := h3 hm
          refine ⟨answers, rest, s1, d1, l1, h1, h2, ?_, ?_⟩
          · intro hc; simp [setPhase] at hc
          · intro i hi
            simp only [setPhase, Option.some.injEq] at hi
            subst hi
            rw [phase_set, if_pos rfl]
            exact ⟨k1, k2, k3, k4⟩
      · cases hs
    · cases hs
  | check t =>
    simp only [check] at hs
    split at hs
    · rename_i j hp
      have hm : g.mutex = some t := (h.excl t).1 (by rw [hp]; rfl)
      have hf : argumentsFine j.call = true := h.args t j (by rw [hp]; simp [current])
      split at hs
      · rename_i w hr
        injection hs with hs
        subst hs
        refine move_inv h hm (by rw [hp]; rfl) rfl rfl rfl rfl ?_
        intro rest s1 d1 l1 hh
        rw [hp] at hh
        obtain ⟨rfl, rfl, rfl, rfl⟩ := hh
        exact ⟨rfl, rfl, rfl, rfl, w, hr, rfl, rfl⟩
      · rename_i r s' w hr
        injection hs with hs
        subst hs
        refine move_inv h hm (by rw [hp]; rfl) rfl rfl rfl rfl ?_
        intro rest s1 d1 l1 hh
        rw [hp] at hh
        obtain ⟨rfl, rfl, rfl, rfl⟩ := hh
        obtain ⟨rfl, rfl⟩ := call_start cfg _ _ _ _ hf _ _ _ _ hr
        exact ⟨_, hr, rfl, rfl, by simp [setPhase]⟩
      · injection hs with hs; subst hs; simp at ha
    · cases hs
  | answer t a =>
    simp only [answer] at hs
    split at hs
    · rename_i j s0 ans n hp
      have hm : g.mutex = some t := (h.excl t).1 (by rw [hp]; rfl)
      have hf : argumentsFine j.call = true := h.args t j (by rw [hp]; simp [current])
      split at hs
      · rename_i w hr
        injection hs with hs
        subst hs
        refine move_inv h hm (by rw [hp]; rfl) rfl rfl rfl rfl ?_
        intro rest s1 d1 l1 hh
        rw [hp] at hh
        obtain ⟨rfl, rfl, k1, rfl, w0, k2, rfl, k3⟩ := hh
        obtain ⟨es, he⟩ := (call_next cfg _ _ _ hf _ _ _ a k2).1 w hr
        refine ⟨rfl, rfl, k1, rfl, w, hr, rfl, ?_⟩
        simp [setPhase, k3, he]
      · rename_i r s' w hr
        injection hs with hs
        subst hs
        refine move_inv h hm (by rw [hp]; rfl) rfl rfl rfl rfl ?_
        intro rest s1 d1 l1 hh
        rw [hp] at hh
        obtain ⟨rfl, rfl, k1, rfl, w0, k2, rfl, k3⟩ := hh
        obtain ⟨hi, es, ⟨⟨rfl, hcon⟩, he⟩ | ⟨rfl, he⟩⟩ := (call_next cfg _ _ _ hf _ _ _ a k2).2 r s' w hr
        · refine ⟨k1, _, w, w.log, hr, hi, rfl, ?_, .inl ⟨hcon, rfl, rfl⟩⟩
          simp [setPhase, k3, he, hcon]
        · refine ⟨k1, _, w, w0.log ++ es, hr, hi, rfl, ?_, .inr ⟨rfl, rfl, he⟩⟩
          simp only [setPhase, k3, he, closed]
          simp [List.drop_append]
      · injection hs with hs; subst hs; simp at ha
    · cases hs
  | close t =>
    simp only [close] at hs
    split at hs
    · rename_i j r ok hp
      have hm : g.mutex = some t := (h.excl t).1 (by rw [hp]; rfl)
      split at hs
      · rename_i hok
        injection hs with hs
        subst hs
        refine move_inv h hm (by rw [hp]; rfl) rfl rfl rfl rfl ?_
        intro rest s1 d1 l1 hh
        rw [hp] at hh
        obtain ⟨k1, s', w, es, k2, k3, k4, k5, ⟨_, rfl, k6⟩ | ⟨hno, _⟩⟩ := hh
        · refine ⟨w, ?_, k3, k4, by simp only [setPhase]; rw [k5, k6]⟩
          simp only [setPhase, given, List.append_nil]
          rw [k1]; exact k2
        · rw [hok] at hno; cases hno
      · rename_i hok
        injection hs with hs
        subst hs
        refine move_inv h hm (by rw [hp]; rfl) rfl rfl rfl rfl ?_
        intro rest s1 d1 l1 hh
        rw [hp] at hh
        obtain ⟨k1, s', w, es, k2, k3, k4, k5, ⟨hno, _⟩ | ⟨_, rfl, k6⟩⟩ := hh
        · exact absurd hno hok
        · refine ⟨w, ?_, k3, k4, by simp only [setPhase]; rw [k5, k6]; simp⟩
          simp only [setPhase, given, List.append_nil]
          rw [k1]; exact k2
    · cases hs
  | unlock t =>
    simp only [unlock] at hs
    split at hs
    · rename_i j r hp
      have hm : g.mutex = some t := (h.excl t).1 (by rw [hp]; rfl)
      have hf : argumentsFine j.call = true := h.args t j (by rw [hp]; simp [current])
      injection hs with hs
      subst hs
      simp only [given, List.append_nil]
      refine ⟨?_, ?_, ?_, ?_, ?_⟩
      · intro i
        rw [todo_set, phase_set]
        have := h.order i
        simp only [setPhase]
        by_cases hi : i = t
        · subst hi
          rw [hp] at this
          simpa [current] using this
        · have hi' : ¬ t = i := fun he => hi he.symm
          simpa [hi, hi'] using this
      · intro i
        rw [phase_set]
        split
        · intro j hj; simp [current] at hj
        · exact h.args i
      · intro x hx
        simp only [setPhase, List.mem_append, List.mem_singleton] at hx
        rcases hx with hx | rfl
        · exact h.returnedArgs x hx
        · exact hf
      · intro i
        rw [phase_set]
        split
        · simp [usesSession, setPhase]
        · rename_i hi
          have := h.excl i
          rw [hm] at this
          simp only [setPhase]
          constructor
          · intro hc
            have := this.1 hc
            injection this with this
            exact absurd this.symm hi
          · intro hc; cases hc
      · obtain ⟨answers, rest, s1, d1, l1, h1, h2, _, h4⟩ := h.turn
        have hh := h4 t hm
        rw [hp] at hh
        obtain ⟨w, k1, k2, k3, k4⟩ := hh
        obtain ⟨es, he, hmore⟩ := call_more cfg _ _ _ _ hf _ _ _ _ _ k1
        have hc := hmore [] l1
        rw [List.append_nil] at hc
        refine ⟨answers ++ rest, [], g.session, g.dups, g.log, by rw [h1]; simp, ?_, fun _ => ⟨rfl, rfl, rfl, rfl⟩,
          fun i hi => by simp [setPhase] at hi⟩
        simp only [setPhase, List.map_append, List.map_cons, List.map_nil]
        refine inTurn_snoc h2 ?_ ?_
        · intro x hx
          rw [List.mem_map] at hx
          obtain ⟨y, hy, rfl⟩ := hx
          exact h.returnedArgs y hy
        · simp only [List.nil_append]
          rw [hc, k2, k3, k4]
          simp only [List.nil_append] at he
          rw [he]; rfl
    · cases hs

private theorem steps_aborted {cfg : Cfg} {g g' : Shared} {ls : List Label} (h : steps cfg g ls = some g')
    (ha : g'.aborted = false) : g.aborted = false := by
  cases ls with
  | nil => injection h with h; subst h; exact ha
  | cons l ls =>
    cases hg : g.aborted with
    | false => rfl
    | true => simp [steps, step, hg] at h

private theorem steps_inv {cfg : Cfg} {s : Session} {dups : List (Except Nat Int)} {todo : Nat → List Job}
    {g g' : Shared} {ios : List Io} {ls : List Label} (h : Inv cfg s dups todo g ios)
    (hs : steps cfg g ls = some g') (ha : g'.aborted = false) : Inv cfg s dups todo g' (ios ++ given ls) := by
  induction ls generalizing g ios with
  | nil => injection hs with hs; subst hs; simpa [given] using h
  | cons l ls ih =>
    simp only [steps] at hs
    cases hl : step cfg g l with
    | none => rw [hl] at hs; cases hs
    | some g1 =>
      rw [hl] at hs
      have h1 := step_inv h hl (steps_aborted hs ha)
      have := ih h1 hs
      rw [show l :: ls = [l] ++ ls from rfl, given_append, ← List.append_assoc]
      exact this

private theorem run_inv {cfg : Cfg} {s : Session} {dups : List (Except Nat Int)} {todo : Nat → List Job}
    {g : Shared} {ls : List Label} (hs : steps cfg (start s dups todo) ls = some g) (ha : g.aborted = false) :
    Inv cfg s dups todo g (given ls) := by
  have := steps_inv (start_inv cfg s dups todo) hs ha
  simpa using this

/-- Whenever no thread is inside: what the calls have given back, what was sent and received, and what has
become of the session is what one thread would have got that makes these calls one after another, in the
order of their returns, with the same answers of the system.  This holds for any number of threads, any calls
and any interleaving. -/
theorem C81_one_after_another (cfg : Cfg) (s : Session) (dups : List (Except Nat Int)) (todo : Nat → List Job)
    (ls : List Label) (g : Shared) (h : steps cfg (start s dups todo) ls = some g) (ha : g.aborted = false)
    (hm : ∀ t, usesSession (g.threads t).phase = false) :
    InTurn cfg s ⟨given ls, dups, []⟩ (g.returned.map Prod.snd) g.session ⟨[], g.dups, g.log⟩ := by
  have hi := run_inv h ha
  have hn : g.mutex = none := by
    cases hc : g.mutex with
    | none => rfl
    | some t => have := (hi.excl t).2 hc; rw [hm t] at this; cases this
  obtain ⟨answers, rest, s1, d1, l1, h1, h2, h3, _⟩ := hi.turn
  obtain ⟨rfl, rfl, rfl, rfl⟩ := h3 hn
  rw [h1, List.append_nil]
  exact h2

/-- And while a thread is inside: what has been done is what the calls that have returned did, one after
another, and then the part of this thread's call that the answers since then allow, as if it were alone; at
its very end the closing of the pipe may still be missing. -/
theorem C81_during (cfg : Cfg) (s : Session) (dups : List (Except Nat Int)) (todo : Nat → List Job)
    (ls : List Label) (g : Shared) (h : steps cfg (start s dups todo) ls = some g) (ha : g.aborted = false)
    (t : Nat) (ht : usesSession (g.threads t).phase = true) :
    ∃ answers rest s1 d1 l1, given ls = answers ++ rest ∧
      InTurn cfg s ⟨answers, dups, []⟩ (g.returned.map Prod.snd) s1 ⟨[], d1, l1⟩ ∧
      ∃ j ∈ current (g.threads t).phase,
        (rest = [] ∧ g.session = s1 ∧ g.log = l1) ∨
        (∃ w, call cfg j.wantErr s1 ⟨rest, d1, []⟩ j.call = .waiting w ∧ g.session = s1 ∧ g.log = l1 ++ w.log) ∨
        (∃ r s2 w, call cfg j.wantErr s1 ⟨rest, d1, []⟩ j.call = .returned r s2 w ∧ w.ios = [] ∧
          (g.session = s2 ∧ g.log = l1 ++ w.log ∨ g.session = s1 ∧ g.log ++ [.closePipe] = l1 ++ w.log)) := by
  have hi := run_inv h ha
  have hm := (hi.excl t).1 ht
  obtain ⟨answers, rest, s1, d1, l1, h1, h2, _, h4⟩ := hi.turn
  refine ⟨answers, rest, s1, d1, l1, h1, h2, ?_⟩
  have hh := h4 t hm
  cases hp : (g.threads t).phase with
  | idle => rw [hp] at ht; cases ht
  | entered j => rw [hp] at ht; cases ht
  | locked j =>
    rw [hp] at hh
    obtain ⟨k1, k2, k3, k4⟩ := hh
    exact ⟨j, by simp [current], .inl ⟨k1, k2, k4⟩⟩
  | running j s' ans n =>
    rw [hp] at hh
    obtain ⟨rfl, rfl, k1, k2, w, k3, k4, k5⟩ := hh
    exact ⟨j, by simp [current], .inr (.inl ⟨w, k3, k1, k5⟩)⟩
  | closing j r ok =>
    rw [hp] at hh
    obtain ⟨k1, s', w, es, k2, k3, k4, k5, ⟨_, rfl, k6⟩ | ⟨_, _, k6⟩⟩ := hh
    · exact ⟨j, by simp [current], .inr (.inr ⟨r, _, w, k2, k3, .inl ⟨k1, by rw [k5, k6]⟩⟩)⟩
    · exact ⟨j, by simp [current], .inr (.inr ⟨r, _, w, k2, k3, .inr ⟨k1, by rw [k5, k6]; simp⟩⟩)⟩
  | unlocking j r =>
    rw [hp] at hh
    obtain ⟨w, k1, k2, k3, k4⟩ := hh
    exact ⟨j, by simp [current], .inr (.inr ⟨r, _, w, k1, k2, .inl ⟨rfl, k4⟩⟩)⟩

/-- At no time do two threads use the session. -/
theorem C81_exclusive (cfg : Cfg) (s : Session) (dups : List (Except Nat Int)) (todo : Nat → List Job)
    (ls : List Label) (g : Shared) (h : steps cfg (start s dups todo) ls = some g) (ha : g.aborted = false)
    (t t' : Nat) (ht : usesSession (g.threads t).phase = true) (ht' : usesSession (g.threads t').phase = true) :
    t = t' := by
  have hi := run_inv h ha
  have h1 := (hi.excl t).1 ht
  rw [(hi.excl t').1 ht'] at h1
  injection h1 with h1
  exact h1.symm

/-- Each thread's calls return in the order in which it makes them, each once: the calls of a thread that
have returned, the one it is in, and those to come are its calls. -/
theorem C81_program_order (cfg : Cfg) (s : Session) (dups : List (Except Nat Int)) (todo : Nat → List Job)
    (ls : List Label) (g : Shared) (h : steps cfg (start s dups todo) ls = some g) (ha : g.aborted = false)
    (t : Nat) :
    ((g.returned.filter fun x => x.1 = t).map fun x => x.2.1) ++ current (g.threads t).phase ++
      (g.threads t).todo = todo t :=
  (run_inv h ha).order t

private theorem step_returned {cfg : Cfg} {g g' : Shared} {l : Label} (h : step cfg g l = some g') :
    ∃ more, g'.returned = g.returned ++ more := by
  unfold step at h
  split at h
  · cases h
  cases l with
  | enter t =>
    simp only [enter] at h
    split at h
    · split at h <;> (injection h with h; subst h; exact ⟨[], by simp⟩)
    · cases h
  | lock t =>
    simp only [lock] at h
    split at h
    · split at h
      · injection h with h; subst h; exact ⟨[], by simp [setPhase]⟩
      · cases h
    · cases h
  | check t =>
    simp only [check] at h
    split at h
    · split at h <;> (injection h with h; subst h; exact ⟨[], by simp [setPhase]⟩)
    · cases h
  | answer t a =>
    simp only [answer] at h
    split at h
    · split at h <;> (injection h with h; subst h; exact ⟨[], by simp [setPhase]⟩)
    · cases h
  | close t =>
    simp only [close] at h
    split at h
    · split at h <;> (injection h with h; subst h; exact ⟨[], by simp [setPhase]⟩)
    · cases h
  | unlock t =>
    simp only [unlock] at h
    split at h
    · rename_i j r _
      injection h with h; subst h; exact ⟨[(t, j, r)], rfl⟩
    · cases h

/-- The order is that of real time: the calls that have returned by some moment come first, whatever happens
later.  So a call that returns before another one begins is before it. -/
theorem C81_real_time (cfg : Cfg) (g g1 g2 : Shared) (ls ls' : List Label) (h1 : steps cfg g ls = some g1)
    (h2 : steps cfg g (ls ++ ls') = some g2) : ∃ later, g2.returned = g1.returned ++ later := by
  induction ls generalizing g with
  | nil =>
    injection h1 with h1
    subst h1
    rw [List.nil_append] at h2
    induction ls' generalizing g with
    | nil => injection h2 with h2; subst h2; exact ⟨[], by simp⟩
    | cons l ls' ih =>
      simp only [steps] at h2
      cases hl : step cfg g l with
      | none => rw [hl] at h2; cases h2
      | some g' =>
        rw [hl] at h2
        obtain ⟨m1, e1⟩ := step_returned hl
        obtain ⟨m2, e2⟩ := ih g' h2
        exact ⟨m1 ++ m2, by rw [e2, e1]; simp⟩
  | cons l ls ih =>
    simp only [steps, List.cons_append] at h1 h2
    cases hl : step cfg g l with
    | none => rw [hl] at h1; cases h1
    | some g' => rw [hl] at h1 h2; exact ih g' h1 h2

/-- No deadlock.  A thread that waits for its turn gets it if no thread is inside.  A thread that is inside can
always go on: by itself, or, if it waits for the system, as soon as the system answers anything. -/
theorem C81_no_deadlock (cfg : Cfg) (s : Session) (dups : List (Except Nat Int)) (todo : Nat → List Job)
    (ls : List Label) (g : Shared) (h : steps cfg (start s dups todo) ls = some g) (ha : g.aborted = false)
    (t : Nat) :
    ((∃ j, (g.threads t).phase = .entered j) → (∀ t', usesSession (g.threads t').phase = false) →
      ∃ g', step cfg g (.lock t) = some g') ∧
    (usesSession (g.threads t).phase = true → waitsForSystem (g.threads t).phase = false →
      ∃ l g', actor l = t ∧ given [l] = [] ∧ step cfg g l = some g') ∧
    (waitsForSystem (g.threads t).phase = true → ∀ a, ∃ g', step cfg g (.answer t a) = some g') := by
  have hi := run_inv h ha
  refine ⟨?_, ?_, ?_⟩
  · rintro ⟨j, hj⟩ hn
    have hm : g.mutex = none := by
      cases hc : g.mutex with
      | none => rfl
      | some t => have := (hi.excl t).2 hc; rw [hn t] at this; cases this
    exact ⟨_, by simp [step, ha, lock, hj, hm]; rfl⟩
  · intro hu hw
    cases hp : (g.threads t).phase with
    | idle => rw [hp] at hu; cases hu
    | entered j => rw [hp] at hu; cases hu
    | locked j =>
      refine ⟨.check t, ?_⟩
      simp only [step, ha, check, hp]
      cases run cfg g j g.session [] <;> exact ⟨_, rfl, rfl, rfl⟩
    | running j s' ans n => rw [hp] at hw; cases hw
    | closing j r ok =>
      refine ⟨.close t, ?_⟩
      simp only [step, ha, close, hp]
      cases ok <;> exact ⟨_, rfl, rfl, rfl⟩
    | unlocking j r =>
      refine ⟨.unlock t, ?_⟩
      simp only [step, ha, unlock, hp]
      exact ⟨_, rfl, rfl, rfl⟩
  · intro hw a
    cases hp : (g.threads t).phase with
    | running j s' ans n =>
      simp only [step, ha, answer, hp]
      cases run cfg g j s' (ans ++ [a]) <;> exact ⟨_, rfl⟩
    | _ => rw [hp] at hw; cases hw

private theorem call_wantErr {cfg : Cfg} {we : Bool} {s s' : Session} {w w' : World} {c : Call} {r : Ret}
    (h : call cfg we s w c = .returned r s' w') : ∃ r', call cfg true s w c = .returned r' s' w' := by
  cases we with
  | true => exact ⟨r, h⟩
  | false =>
    rw [C33_error_optional] at h
    split at h
    · rename_i r0 s0 w0 hc
      injection h with h1 h2 h3
      subst h2 h3
      exact ⟨r0, hc⟩
    · cases h
    · cases h

private theorem inTurn_calls {cfg : Cfg} {s s' : Session} {w w' : World} {cs : List (Job × Ret)}
    (h : InTurn cfg s w cs s' w') : ∃ rs, calls cfg true s w (cs.map fun x => x.1.call) = (rs, s', w') ∧
      rs.length = cs.length := by
  induction h with
  | nil s w => exact ⟨[], rfl, rfl⟩
  | cons h hr ih =>
    obtain ⟨rs, h1, h2⟩ := ih
    obtain ⟨r', h3⟩ := call_wantErr h
    exact ⟨r' :: rs, by simp only [List.map_cons, calls, h3, h1], by simp [h2]⟩

open Winpty.Spec Winpty.Spec.Client in
/-- So requests and replies of different threads are never mixed: when no thread is inside and the connection
is not lost, each call has sent exactly its own request, whole, and then received exactly one whole packet,
before any other call, of whatever thread, sends anything. -/
theorem C81_not_mixed (cfg : Cfg) (s : Session) (dups : List (Except Nat Int)) (todo : Nat → List Job)
    (ls : List Label) (g : Shared) (h : steps cfg (start s dups todo) ls = some g) (ha : g.aborted = false)
    (hm : ∀ t, usesSession (g.threads t).phase = false) (hv : ∀ t, ∀ j ∈ todo t, ValidCall cfg s j.call)
    (hw : SaneWorld cfg ⟨given ls, dups, []⟩) (hc : g.session.connected = true) :
    g.session = s ∧ ∃ parts : List (List Event), g.log = parts.flatten ∧ parts.length = g.returned.length ∧
      ∀ (i t : Nat) (j : Job) (r : Ret) (part : List Event), g.returned[i]? = some (t, j, r) →
        parts[i]? = some part →
        requests part = [message (requestOf s j.call)] ∧
        accepted part = [(message (requestOf s j.call)).length] ∧
        IsPacket cfg.buffer.sizeMax (received part) := by
  have ht := C81_one_after_another cfg s dups todo ls g h ha hm
  obtain ⟨rs, h1, h2⟩ := inTurn_calls ht
  have hmem : ∀ x ∈ g.returned, x.2.1 ∈ todo x.1 := by
    intro x hx
    rw [← C81_program_order cfg s dups todo ls g h ha x.1]
    simp only [List.append_assoc, List.mem_append, List.mem_map, List.mem_filter]
    exact .inl ⟨x, ⟨hx, by simp⟩, rfl⟩
  have hp := C32_pairing cfg true s g.session ⟨given ls, dups, []⟩ ⟨[], g.dups, g.log⟩ _ rs ?_ hw h1 (by simp [h2]) hc
  · obtain ⟨k1, parts, k2, k3, k4⟩ := hp
    refine ⟨k1, parts, by simpa using k2, by simpa using k3, ?_⟩
    intro i t j r part hi hq
    exact k4 i j.call part (by simp [hi]) hq
  · intro c hcm
    simp only [List.map_map, List.mem_map] at hcm
    obtain ⟨x, hx, rfl⟩ := hcm
    exact hv x.1 _ (hmem x hx)

end Winpty.Props

/-! ## Concrete cases -/
namespace Winpty.Props.ClientThreadsExample

open Winpty.Client
open Winpty.ClientThreads
open Winpty.Spec.ClientThreads
open Winpty.Props.ClientExample (cfg s)

/-- Thread 0 resizes the terminal, thread 1 asks for the processes and then resizes it too. -/
def todo : Nat → List Job
  | 0 => [⟨.setSize 80 25, true⟩]
  | 1 => [⟨.processList [7, 7, 7, 7] 4, true⟩, ⟨.setSize 100 30, false⟩]
  | _ => []

/-- Thread 0 enters first, thread 1 gets the session first. -/
def schedule : List Label :=
  [.enter 0, .enter 1, .lock 1, .check 1, .answer 1 (.now (.ok 13 [])),
   .answer 1 (.now (.ok 0 [28, 0, 0, 0, 0, 0, 0, 0])),
   .answer 1 (.pending (.io (.ok 0 [0, 3, 0, 0, 0, 0, 10, 0, 0, 0, 0, 11, 0, 0, 0, 0, 12, 0, 0, 0]))),
   .close 1, .unlock 1, .enter 1, .lock 0, .check 0, .answer 0 (.now (.ok 23 [])),
   .answer 0 (.now (.ok 0 [8, 0, 0])), .answer 0 (.now (.ok 0 [0, 0, 0, 0, 0])), .close 0, .unlock 0,
   .lock 1, .check 1, .answer 1 (.now (.ok 23 [])), .answer 1 (.pending .timeout), .close 1, .unlock 1]

def results (g : Shared) : List (Nat × Int) := g.returned.map fun x => (x.1, x.2.2.value)

def state (g : Shared) : Bool × Nat := (g.session.connected, g.log.length)

example : (steps cfg (start s [] todo) (schedule.take 17)).map results = some [(1, 3), (0, 1)] ∧
    (steps cfg (start s [] todo) (schedule.take 17)).map state = some (true, 14) := by decide +kernel

/-- The last call fails: the pipe is closed. -/
example : (steps cfg (start s [] todo) schedule).map results = some [(1, 3), (0, 1), (1, 0)] ∧
    (steps cfg (start s [] todo) schedule).map state = some (false, 21) := by decide +kernel

/-- While thread 1 is inside thread 0 cannot go on. -/
example : (steps cfg (start s [] todo) (schedule.take 5 ++ [.lock 0])).isNone = true := by decide +kernel

/-- The hypotheses of `C81_not_mixed` hold after the first two calls. -/
example : ∃ g, steps cfg (start s [] todo) (schedule.take 17) = some g ∧ g.aborted = false ∧
    usesSession (g.threads 0).phase = false ∧ usesSession (g.threads 1).phase = false ∧
    g.session.connected = true := by
  have h : ((steps cfg (start s [] todo) (schedule.take 17)).map fun g =>
      (g.aborted, usesSession (g.threads 0).phase, usesSession (g.threads 1).phase, g.session.connected)) =
      some (false, false, false, true) := by decide +kernel
  cases hs : steps cfg (start s [] todo) (schedule.take 17) with
  | none => rw [hs] at h; cases h
  | some g =>
    rw [hs] at h
    simp only [Option.map_some, Option.some.injEq, Prod.mk.injEq] at h
    exact ⟨g, rfl, h.1, h.2.1, h.2.2.1, h.2.2.2⟩

end Winpty.Props.ClientThreadsExample
