import Verif.Lemmas.AgentHandles

/-
C89: the agent's handles.
-/

namespace Winpty.Props

open Winpty.AgentHandles Winpty.Spec.AgentHandles

/-- A system: Windows gives the next number above those in use. -/
private def handleEnv : Env := ⟨3, 7, 11, fun l => l.foldr max 0 + 4⟩

private theorem handleEnv_sane : Sane handleEnv := by
  refine ⟨?_, by decide, by decide, by decide⟩
  intro l hm
  have : ∀ (l : List Nat) (x : Nat), x ∈ l → x ≤ l.foldr max 0 := by
    intro l
    induction l with
    | nil => intro x hx; cases hx
    | cons a r ih =>
      intro x hx
      rcases List.mem_cons.mp hx with e | e
      · subst e; exact Nat.le_max_left _ _
      · exact Nat.le_trans (ih x e) (Nat.le_max_right _ _)
  have := this l _ hm
  simp only [handleEnv] at this; omega

/-- A history: polls, a program with a screen buffer of its own, a child process whose two handles the client wants,
and takes, a resize, the end of the child process. -/
private def handleOps : List Op :=
  [.poll false true, .spawn true true true true true true, .activate 5, .poll false true, .take 1, .resize true,
   .take 0, .poll true true, .closePipe 0, .poll true true]

/-- Whatever happened since the agent started, the open handles are exactly the console's three, that of the screen
buffer for errors if there is one, that of a child process that has not been seen to end, those of the pipes that are
not closed, and those the client has not taken yet; no two have the same value; and `CloseHandle` was never called
with anything but an open handle. -/
theorem C89_accounted {env : Env} (he : Sane env) {useConerr ok okError : Bool} {active : Nat} {s0 s : St}
    (h0 : construct env useConerr ok okError active = some s0) (ops : List Op) (h : run env s0 ops = some s) :
    s.opens.Perm (accounted env s) ∧ (s.opens.map Prod.fst).Nodup ∧ s.bad = 0 ∧ s.err.isSome = useConerr := by
  have g := good_run he ops (good_construct he h0).1 h
  have hc : ∀ (ops : List Op) (a b : St), run env a ops = some b → b.useConerr = a.useConerr := by
    intro ops
    induction ops with
    | nil => intro a b hab; cases hab; rfl
    | cons o r ih =>
      intro a b hab
      simp only [run] at hab
      cases hs : step env a o with
      | none => rw [hs] at hab; cases hab
      | some t => rw [hs] at hab; exact (ih t b hab).trans (step_conerr hs)
  refine ⟨g.owns.1, (g.owns.1.map Prod.fst).nodup_iff.mpr g.owns.2.1, g.owns.2.2, ?_⟩
  have := g.err
  unfold ErrOk at this
  rw [this, hc ops s0 s h, (good_construct he h0).2]

/-- So the agent never has more than 11 of them between two operations, 9 without a screen buffer for errors. -/
theorem C89_bounded {env : Env} (he : Sane env) {useConerr ok okError : Bool} {active : Nat} {s0 s : St}
    (h0 : construct env useConerr ok okError active = some s0) (ops : List Op) (h : run env s0 ops = some s) :
    s.opens.length ≤ if useConerr then 11 else 9 := by
  have g := good_run he ops (good_construct he h0).1 h
  have hu : s.err.isSome = useConerr := (C89_accounted he h0 ops h).2.2.2
  have hE := g.err
  unfold ErrOk at hE
  have hl := g.owns.1.length_eq
  simp only [accounted, List.length_append, List.length_map, List.length_cons, List.length_nil] at hl
  have hp := g.pipes
  have hg := g.given
  rw [← hE, hu] at hp
  have hch : s.child.toList.length ≤ 1 := by cases s.child <;> simp
  cases useConerr
  · have : s.err.toList.length = 0 := by
      cases hx : s.err
      · rfl
      · rw [hx] at hu; cases hu
    simp only [Bool.false_eq_true, if_false] at hp ⊢
    omega
  · have : s.err.toList.length ≤ 1 := by cases s.err <;> simp
    simp only [if_true] at hp ⊢
    omega

/-- However long it polls and however often the terminal is resized, no handle more and none less is open. -/
theorem C89_no_leak {env : Env} (he : Sane env) {useConerr ok okError : Bool} {active : Nat} {s0 s s' : St}
    (h0 : construct env useConerr ok okError active = some s0) (ops : List Op) (h : run env s0 ops = some s)
    (quiet : List Op) (hq : ∀ o ∈ quiet, Quiet o) (h' : run env s quiet = some s') : s'.opens.Perm s.opens := by
  have g := good_run he ops (good_construct he h0).1 h
  have g' := good_run he quiet g h'
  have := quiet_run he quiet g hq h'
  exact (this ▸ g'.owns.1).trans g.owns.1.symm

/-- Every time the screen is read or resized, it is the right one. -/
theorem C89_screens {env : Env} (he : Sane env) {useConerr ok okError : Bool} {active : Nat} {s0 s : St}
    (h0 : construct env useConerr ok okError active = some s0) (ops : List Op) (h : run env s0 ops = some s) :
    ∀ u ∈ s.uses, RightScreen useConerr u := by
  have g := good_run he ops (good_construct he h0).1 h
  have hu : s.err.isSome = useConerr := (C89_accounted he h0 ops h).2.2.2
  have hE := g.err
  unfold ErrOk at hE
  have := g.uses
  unfold UsesOk at this
  rw [← hE, hu] at this
  exact this

/-- A child process inherits nothing but the console's handles and that of the screen buffer for errors: no pipe, no
handle of a process; and there is never more than one child process. -/
theorem C89_child {env : Env} (he : Sane env) {useConerr ok okError : Bool} {active : Nat} {s0 s : St}
    (h0 : construct env useConerr ok okError active = some s0) (ops : List Op) (h : run env s0 ops = some s) :
    (∀ c ∈ s.children, RightChild useConerr c) ∧ s.children.length ≤ 1 := by
  have g := good_run he ops (good_construct he h0).1 h
  have hu : s.err.isSome = useConerr := (C89_accounted he h0 ops h).2.2.2
  have hE := g.err
  unfold ErrOk at hE
  have := g.kids
  rw [← hE, hu] at this
  exact ⟨this, run_children he ops (good_construct he h0).1 (by rw [construct_children h0]; exact Nat.zero_le _) h⟩

/-- A child process that was started to shut the agent down is let go of in the first poll that sees its end; one
that was not is kept. -/
theorem C89_child_end {env : Env} {s s' : St} {exited ok : Bool} (h : poll env s exited ok = some s') :
    s'.child = if s.auto = true ∧ exited = true then none else s.child := by
  have hs : ∀ (t t' : St), scrapeBuffers env t ok = some t' → t'.child = t.child := fun t t' ht => scrape_child ht
  have hx : (if s.auto && exited then childExit s else s).child = if s.auto = true ∧ exited = true then none else s.child := by
    cases s.auto <;> cases exited <;> simp
    unfold childExit
    split
    · rfl
    · assumption
  unfold poll at h
  split at h
  · rw [hs _ _ h, hx]
  · cases h; exact hx

/-- The agent ends for nothing but what Windows refuses, and a second child process. -/
theorem C89_refused (env : Env) (s : St) (o : Op) : step env s o = none ↔ Refused s o := by
  cases o with
  | poll e ok =>
    simp only [step, poll, Refused]
    cases hc : s.closing
    · have hcc : (if s.auto && e then childExit s else s).useConerr = s.useConerr := by
        split
        · exact childExit_conerr s
        · rfl
      simp only [if_true, true_and]
      rw [scrape_none, hcc]
    · simp
  | resize ok =>
    simp only [step, resizeWindow, Refused, openPrimaryBuffer, openConout, openStdout]
    cases s.useConerr <;> cases ok <;> simp
  | spawn a c wp wt op ot =>
    simp only [step, spawn, Refused, duplicate]
    cases hc : s.child <;> cases hl : s.closing <;> cases c <;> cases wp <;> cases op <;> cases wt <;> cases ot <;>
      simp
  | closePipe k => simp only [step, Refused]; split <;> simp
  | take k => simp only [step, Refused]; split <;> simp
  | activate b => simp [step, Refused]

/-- When the agent ends, it asks the console's window to close, if there is one, and that is the only thing it waits
for, at most 30 seconds: in any case the last thing it does is to exit with the code 1. -/
theorem C89_end (window : Nat) :
    (agentShutdown window).getLast? = some (.exit 1) ∧ (agentAssertFail window).getLast? = some (.exit 1) ∧
    (∀ w, EndAct.postClose w ∈ agentShutdown window ↔ w = window ∧ window ≠ 0) ∧
    (∀ w, EndAct.postClose w ∈ agentAssertFail window ↔ w = window ∧ window ≠ 0) ∧
    waits (agentShutdown window) ≤ 30000 ∧ waits (agentAssertFail window) ≤ 30000 ∧
    (window = 0 → waits (agentAssertFail window) = 0) ∧
    (agentShutdown window).count (.exit 1) = 1 ∧ (agentAssertFail window).count (.exit 1) = 1 := by
  unfold agentAssertFail agentShutdown
  by_cases h : window = 0
  · subst h; simp [waits]
  · simp [h, waits]

example : ∃ s0 s, construct handleEnv true true true 0 = some s0 ∧ run handleEnv s0 handleOps = some s ∧
    s.children.length = 1 ∧ s.uses.length = 11 ∧ s.opens.length = 7 ∧ s.closing = true := by
  refine ⟨(construct handleEnv true true true 0).get (by decide +kernel),
    (run handleEnv ((construct handleEnv true true true 0).get (by decide +kernel)) handleOps).get (by decide +kernel),
    by simp, by simp, ?_⟩
  decide +kernel

example : ∃ s0 s, construct handleEnv false true true 0 = some s0 ∧
    run handleEnv s0 (handleOps.take 6) = some s ∧ s.opens.length = 8 ∧
    s.uses.map (fun u => u.what) = [some (.screen 0), some (.screen 0), some (.screen 5), some (.screen 5), some (.screen 5)] := by
  refine ⟨(construct handleEnv false true true 0).get (by decide +kernel),
    (run handleEnv ((construct handleEnv false true true 0).get (by decide +kernel)) (handleOps.take 6)).get
      (by decide +kernel), by simp, by simp, ?_⟩
  decide +kernel

example : Sane handleEnv ∧ ∀ o ∈ [Op.poll false true, .resize true, .activate 2], Quiet o := by
  refine ⟨handleEnv_sane, ?_⟩
  intro o ho
  simp only [List.mem_cons, List.not_mem_nil, or_false] at ho
  rcases ho with rfl | rfl | rfl
  · exact rfl
  · trivial
  · trivial

example : ∃ s, poll handleEnv { begin handleEnv false 0 with auto := true, child := some 20, opens :=
    (20, ⟨.process, false⟩) :: (begin handleEnv false 0).opens } true true = some s ∧ s.child = none ∧ s.opens.length = 3 :=
  ⟨(poll handleEnv { begin handleEnv false 0 with auto := true, child := some 20, opens :=
    (20, ⟨.process, false⟩) :: (begin handleEnv false 0).opens } true true).get (by decide +kernel), by simp,
    by decide +kernel⟩

end Winpty.Props
