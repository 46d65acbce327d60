import Verif.Spec.AgentHandles

/-
Lemmas about the agent's handles (C89).
-/

namespace Winpty.AgentHandles

open Winpty.Spec.AgentHandles

/-- Exactly these handles are open, no two have the same value, and nothing else was ever closed. -/
def Owns (s : St) (l : List (Nat × Obj)) : Prop :=
  s.opens.Perm l ∧ (l.map Prod.fst).Nodup ∧ s.bad = 0

theorem Owns.perm {s : St} {l l' : List (Nat × Obj)} (h : Owns s l) (p : l.Perm l') : Owns s l' :=
  ⟨h.1.trans p, (p.map Prod.fst).nodup_iff.mp h.2.1, h.2.2⟩

theorem Owns.congr {s s' : St} {l : List (Nat × Obj)} (h : Owns s l) (e1 : s'.opens = s.opens)
    (e2 : s'.bad = s.bad) : Owns s' l := by
  unfold Owns; rw [e1, e2]; exact h

theorem owns_open {env : Env} (he : Sane env) {s : St} {l : List (Nat × Obj)} (h : Owns s l) (o : Obj) :
    Owns (openHandle env s o).1 (((openHandle env s o).2, o) :: l) := by
  refine ⟨List.Perm.cons _ h.1, ?_, h.2.2⟩
  simp only [List.map_cons, List.nodup_cons]
  refine ⟨?_, h.2.1⟩
  intro hm
  exact he.1 (s.opens.map Prod.fst) ((h.1.map Prod.fst).mem_iff.mpr hm)

theorem owns_close {s : St} {h : Nat} {o : Obj} {l : List (Nat × Obj)} (hs : Owns s ((h, o) :: l)) :
    Owns (closeHandle s h) l := by
  have hm : h ∈ s.opens.map Prod.fst := (hs.1.map Prod.fst).mem_iff.mpr (by simp)
  have hn := hs.2.1
  simp only [List.map_cons, List.nodup_cons] at hn
  unfold closeHandle
  rw [if_pos hm]
  refine ⟨?_, hn.2, hs.2.2⟩
  have hp := hs.1.filter (fun p => p.1 != h)
  have hl : l.filter (fun p => p.1 != h) = l := by
    apply List.filter_eq_self.mpr
    intro a ha
    have : a.1 ≠ h := fun e => hn.1 (e ▸ List.mem_map_of_mem (f := Prod.fst) ha)
    simpa using this
  simp only [List.filter_cons, bne_self_eq_false, Bool.false_eq_true, if_false, hl] at hp
  exact hp

theorem find_of_nodup : ∀ (l : List (Nat × Obj)) (h : Nat) (o : Obj), (l.map Prod.fst).Nodup → (h, o) ∈ l →
    l.find? (fun p => p.1 == h) = some (h, o) := by
  intro l
  induction l with
  | nil => intro h o _ hm; cases hm
  | cons a r ih =>
    intro h o hn hm
    simp only [List.map_cons, List.nodup_cons] at hn
    simp only [List.find?_cons]
    rcases List.mem_cons.mp hm with e | e
    · subst e; simp
    · have : (a.1 == h) = false := by
        simp only [beq_eq_false_iff_ne]
        intro e'
        exact hn.1 (e' ▸ List.mem_map_of_mem (f := Prod.fst) e)
      rw [this]
      exact ih h o hn.2 e

theorem owns_lookup {s : St} {l : List (Nat × Obj)} (hs : Owns s l) {h : Nat} {o : Obj} (hm : (h, o) ∈ l) :
    lookup s h = some o.what := by
  unfold lookup
  rw [find_of_nodup s.opens h o ((hs.1.map Prod.fst).nodup_iff.mpr hs.2.1) (hs.1.mem_iff.mpr hm)]
  rfl

/-! ## Opening a screen buffer for a while -/

/-- What stays as it is. -/
structure Same (s s' : St) : Prop where
  conerr : s'.useConerr = s.useConerr
  err : s'.err = s.err
  child : s'.child = s.child
  auto : s'.auto = s.auto
  closing : s'.closing = s.closing
  pipes : s'.pipes = s.pipes
  given : s'.given = s.given
  children : s'.children = s.children
  active : s'.active = s.active

theorem Same.refl (s : St) : Same s s := ⟨rfl, rfl, rfl, rfl, rfl, rfl, rfl, rfl, rfl⟩

theorem Same.trans {a b c : St} (h1 : Same a b) (h2 : Same b c) : Same a c :=
  ⟨h2.1.trans h1.1, h2.2.trans h1.2, h2.3.trans h1.3, h2.4.trans h1.4, h2.5.trans h1.5, h2.6.trans h1.6,
   h2.7.trans h1.7, h2.8.trans h1.8, h2.9.trans h1.9⟩

theorem Same.accounted {s s' : St} (env : Env) (h : Same s s') : accounted env s' = accounted env s := by
  unfold Spec.AgentHandles.accounted; rw [h.err, h.child, h.pipes, h.given]

theorem same_open (env : Env) (s : St) (o : Obj) : Same s (openHandle env s o).1 :=
  ⟨rfl, rfl, rfl, rfl, rfl, rfl, rfl, rfl, rfl⟩

theorem same_close (s : St) (h : Nat) : Same s (closeHandle s h) := by
  unfold closeHandle; split <;> exact ⟨rfl, rfl, rfl, rfl, rfl, rfl, rfl, rfl, rfl⟩

theorem close_uses (s : St) (h : Nat) : (closeHandle s h).uses = s.uses := by
  unfold closeHandle; split <;> rfl

theorem same_use (s : St) (f : Bool) (h : Nat) : Same s (useScreen s f h) :=
  ⟨rfl, rfl, rfl, rfl, rfl, rfl, rfl, rfl, rfl⟩

theorem same_useError (s : St) : Same s (useError s) := by
  unfold useError; split
  · exact same_use _ _ _
  · exact Same.refl s

theorem owns_use {s : St} {l : List (Nat × Obj)} (h : Owns s l) (f : Bool) (v : Nat) : Owns (useScreen s f v) l :=
  h.congr rfl rfl

theorem owns_useError {s : St} {l : List (Nat × Obj)} (h : Owns s l) : Owns (useError s) l := by
  unfold useError; split
  · exact owns_use h _ _
  · exact h

/-- All uses so far were of the right screen buffer. -/
def UsesOk (s : St) : Prop := ∀ u ∈ s.uses, RightScreen s.useConerr u

/-- The screen buffer for errors is there if and only if it is wanted. -/
def ErrOk (s : St) : Prop := s.err.isSome = s.useConerr

theorem usesOk_use {s : St} (h : UsesOk s) (f : Bool) (v : Nat)
    (hr : RightScreen s.useConerr ⟨f, lookup s v, s.active⟩) : UsesOk (useScreen s f v) := by
  intro u hu
  rcases List.mem_append.mp hu with e | e
  · exact h u e
  · rw [List.mem_singleton.mp e]; exact hr

theorem usesOk_useError {s : St} {l : List (Nat × Obj)} (ho : Owns s l) (h : UsesOk s) (he : ErrOk s)
    (hm : ∀ e, s.err = some e → (e, (⟨.screen 1, true⟩ : Obj)) ∈ l) : UsesOk (useError s) := by
  unfold useError
  split
  · rename_i e he'
    refine usesOk_use h _ _ ?_
    unfold RightScreen
    rw [if_pos rfl, owns_lookup ho (hm e he')]
    refine ⟨?_, rfl⟩
    unfold ErrOk at he
    rw [← he, he']; rfl
  · exact h

theorem UsesOk.congr {s s' : St} (h : UsesOk s) (e1 : s'.uses = s.uses) (e2 : s'.useConerr = s.useConerr) :
    UsesOk s' := by
  unfold UsesOk; rw [e1, e2]; exact h

theorem err_accounted {env : Env} {s : St} (e : Nat) (h : s.err = some e) :
    (e, (⟨.screen 1, true⟩ : Obj)) ∈ accounted env s := by
  simp [accounted, h]

theorem stdout_accounted {env : Env} {s : St} : (env.stdout, (⟨.screen 0, true⟩ : Obj)) ∈ accounted env s := by
  simp [accounted]

/-- What `openPrimaryBuffer` gives. -/
theorem primary_cases {env : Env} {s s1 : St} {ok owned : Bool} {h : Nat}
    (ho : openPrimaryBuffer env s ok = some (s1, h, owned)) :
    (s.useConerr = false ∧ ok = true ∧ owned = true ∧ s1 = (openHandle env s ⟨.screen s.active, false⟩).1 ∧
      h = (openHandle env s ⟨.screen s.active, false⟩).2) ∨
    (s.useConerr = true ∧ owned = false ∧ s = s1 ∧ h = env.stdout) := by
  unfold openPrimaryBuffer openConout openStdout at ho
  cases hc : s.useConerr <;> rw [hc] at ho
  · left
    cases ok
    · simp at ho
    · simp only [Bool.not_false, if_true, Option.some.injEq, Prod.mk.injEq] at ho
      exact ⟨rfl, rfl, ho.2.2.symm, ho.1.symm, ho.2.1.symm⟩
  · right
    simp only [Bool.not_true, Bool.false_eq_true, if_false, Option.some.injEq, Prod.mk.injEq] at ho
    exact ⟨rfl, ho.2.2.symm, ho.1, ho.2.1.symm⟩

/-- The state that every operation keeps. -/
structure Good (env : Env) (s : St) : Prop where
  owns : Owns s (accounted env s)
  uses : UsesOk s
  err : ErrOk s
  kids : ∀ c ∈ s.children, RightChild s.useConerr c
  once : s.children ≠ [] → s.child ≠ none ∨ s.closing = true
  pipes : s.pipes.length ≤ if s.useConerr then 4 else 3
  given : s.given.length ≤ 2
  none : s.children = [] → s.given = []

theorem good_scrape {env : Env} (he : Sane env) {s s' : St} {ok : Bool} (g : Good env s)
    (h : scrapeBuffers env s ok = some s') : Good env s' ∧ Same s s' := by
  unfold scrapeBuffers at h
  split at h
  · cases h
  · rename_i s1 v owned hp
    cases h
    have key : Owns (destroyBuffer (useScreen s1 false v) v owned) (accounted env s) ∧
        UsesOk (destroyBuffer (useScreen s1 false v) v owned) ∧
        Same s (destroyBuffer (useScreen s1 false v) v owned) := by
      rcases primary_cases hp with ⟨hc, _, rfl, rfl, rfl⟩ | ⟨hc, rfl, rfl, rfl⟩
      · have o1 := owns_open he g.owns ⟨.screen s.active, false⟩
        refine ⟨owns_close (owns_use o1 _ _), ?_, (same_open _ _ _).trans ((same_use _ _ _).trans (same_close _ _))⟩
        refine UsesOk.congr (s := useScreen (openHandle env s ⟨.screen s.active, false⟩).1 false
          (openHandle env s ⟨.screen s.active, false⟩).2) ?_ (close_uses _ _) (same_close _ _).conerr
        refine usesOk_use (show UsesOk (openHandle env s ⟨.screen s.active, false⟩).1 from g.uses) _ _ ?_
        rw [owns_lookup o1 (List.mem_cons_self)]
        have : (openHandle env s ⟨.screen s.active, false⟩).1.useConerr = false := hc
        unfold RightScreen
        rw [this]; rfl
      · refine ⟨owns_use g.owns _ _, usesOk_use g.uses _ _ ?_, same_use _ _ _⟩
        rw [owns_lookup g.owns stdout_accounted]
        unfold RightScreen
        rw [hc]; rfl
    obtain ⟨k1, k2, k3⟩ := key
    have k4 := k3.trans (same_useError _)
    refine ⟨⟨?_, ?_, ?_, ?_, ?_, ?_, ?_, ?_⟩, k4⟩
    · rw [k4.accounted]; exact owns_useError k1
    · refine usesOk_useError k1 k2 ?_ ?_
      · unfold ErrOk; rw [k3.err, k3.conerr]; exact g.err
      · intro e hee; rw [k3.err] at hee; exact err_accounted e hee
    · unfold ErrOk; rw [k4.err, k4.conerr]; exact g.err
    · rw [k4.children, k4.conerr]; exact g.kids
    · rw [k4.children, k4.child, k4.closing]; exact g.once
    · rw [k4.pipes, k4.conerr]; exact g.pipes
    · rw [k4.given]; exact g.given
    · rw [k4.children, k4.given]; exact g.none

theorem good_resize {env : Env} (he : Sane env) {s s' : St} {ok : Bool} (g : Good env s)
    (h : resizeWindow env s ok = some s') : Good env s' ∧ Same s s' := by
  unfold resizeWindow at h
  split at h
  · cases h
  · rename_i s1 v owned hp
    cases h
    have key : Owns (destroyBuffer (useScreen (useError (useScreen s1 false v)) false v) v owned) (accounted env s) ∧
        UsesOk (destroyBuffer (useScreen (useError (useScreen s1 false v)) false v) v owned) ∧
        Same s (destroyBuffer (useScreen (useError (useScreen s1 false v)) false v) v owned) := by
      rcases primary_cases hp with ⟨hc, _, rfl, rfl, rfl⟩ | ⟨hc, rfl, rfl, rfl⟩
      · have o1 := owns_open he g.owns ⟨.screen s.active, false⟩
        have hn : s.err = Option.none := by
          have := g.err; unfold ErrOk at this; rw [hc] at this; simpa using this
        have hue : useError (useScreen (openHandle env s ⟨.screen s.active, false⟩).1 false
            (openHandle env s ⟨.screen s.active, false⟩).2) =
            useScreen (openHandle env s ⟨.screen s.active, false⟩).1 false
            (openHandle env s ⟨.screen s.active, false⟩).2 := by
          unfold useError
          have : (useScreen (openHandle env s ⟨.screen s.active, false⟩).1 false
            (openHandle env s ⟨.screen s.active, false⟩).2).err = Option.none := hn
          rw [this]
        rw [hue]
        have rs : RightScreen false ⟨false, some (.screen s.active), s.active⟩ := rfl
        have o2 := owns_use o1 false (openHandle env s ⟨.screen s.active, false⟩).2
        refine ⟨owns_close (owns_use o2 _ _), ?_,
          (same_open _ _ _).trans ((same_use _ _ _).trans ((same_use _ _ _).trans (same_close _ _)))⟩
        refine UsesOk.congr (s := useScreen (useScreen (openHandle env s ⟨.screen s.active, false⟩).1 false
          (openHandle env s ⟨.screen s.active, false⟩).2) false (openHandle env s ⟨.screen s.active, false⟩).2) ?_
          (close_uses _ _) (same_close _ _).conerr
        have c1 : (openHandle env s ⟨.screen s.active, false⟩).1.useConerr = false := hc
        refine usesOk_use (usesOk_use (show UsesOk (openHandle env s ⟨.screen s.active, false⟩).1 from g.uses) _ _ ?_) _ _ ?_
        · rw [owns_lookup o1 (List.mem_cons_self), c1]; exact rs
        · rw [owns_lookup o2 (List.mem_cons_self)]
          exact (show RightScreen (openHandle env s ⟨.screen s.active, false⟩).1.useConerr _ by rw [c1]; exact rs)
      · have o1 := owns_use g.owns false env.stdout
        have rs : ∀ a, RightScreen true ⟨false, some (.screen 0), a⟩ := fun _ => rfl
        have o2 := owns_useError o1
        have u1 : UsesOk (useScreen s false env.stdout) := by
          refine usesOk_use g.uses _ _ ?_
          rw [owns_lookup g.owns stdout_accounted, hc]; exact rs _
        have u2 : UsesOk (useError (useScreen s false env.stdout)) :=
          usesOk_useError o1 u1 g.err (fun e hee => err_accounted e hee)
        refine ⟨owns_use o2 _ _, usesOk_use u2 _ _ ?_,
          (same_use _ _ _).trans ((same_useError _).trans (same_use _ _ _))⟩
        rw [owns_lookup o2 stdout_accounted, (same_useError _).conerr]
        exact (show RightScreen s.useConerr _ by rw [hc]; exact rs _)
    obtain ⟨k1, k2, k4⟩ := key
    refine ⟨⟨?_, k2, ?_, ?_, ?_, ?_, ?_, ?_⟩, k4⟩
    · rw [k4.accounted]; exact k1
    · unfold ErrOk; rw [k4.err, k4.conerr]; exact g.err
    · rw [k4.children, k4.conerr]; exact g.kids
    · rw [k4.children, k4.child, k4.closing]; exact g.once
    · rw [k4.pipes, k4.conerr]; exact g.pipes
    · rw [k4.given]; exact g.given
    · rw [k4.children, k4.given]; exact g.none

/-! ## The child process -/

/-- All handles but that of the child process. -/
def others (env : Env) (s : St) : List (Nat × Obj) := accounted env { s with child := none }

theorem accounted_child {env : Env} {s : St} {h : Nat} (hc : s.child = some h) :
    (accounted env s).Perm ((h, ⟨.process, false⟩) :: others env s) := by
  rw [List.perm_iff_count]
  intro a
  simp only [others, accounted, hc, Option.toList, List.map_cons, List.map_nil, List.count_append, List.count_cons,
    List.count_nil, List.append_nil]
  omega

theorem good_childExit {env : Env} {s : St} (g : Good env s) : Good env (childExit s) := by
  unfold childExit
  split
  · rename_i h hc
    have o1 := owns_close (g.owns.perm (accounted_child hc))
    have sm := same_close s h
    refine ⟨?_, ?_, ?_, ?_, ?_, ?_, ?_, ?_⟩
    · have e : accounted env { closeHandle s h with child := none, closing := true } = others env s := by
        unfold others accounted; simp only [sm.err, sm.pipes, sm.given]
      rw [e]
      exact o1.congr rfl rfl
    · exact UsesOk.congr g.uses (close_uses s h) sm.conerr
    · exact (show ErrOk (closeHandle s h) by unfold ErrOk; rw [sm.err, sm.conerr]; exact g.err)
    · exact (show ∀ c ∈ (closeHandle s h).children, RightChild (closeHandle s h).useConerr c by
        rw [sm.children, sm.conerr]; exact g.kids)
    · intro _; exact Or.inr rfl
    · exact (show (closeHandle s h).pipes.length ≤ if (closeHandle s h).useConerr then 4 else 3 by
        rw [sm.pipes, sm.conerr]; exact g.pipes)
    · exact (show (closeHandle s h).given.length ≤ 2 by rw [sm.given]; exact g.given)
    · exact (show (closeHandle s h).children = [] → (closeHandle s h).given = [] by
        rw [sm.children, sm.given]; exact g.none)
  · exact g

theorem good_poll {env : Env} (he : Sane env) {s s' : St} {exited ok : Bool} (g : Good env s)
    (h : poll env s exited ok = some s') : Good env s' := by
  have g1 : Good env (if s.auto && exited then childExit s else s) := by
    split
    · exact good_childExit g
    · exact g
  unfold poll at h
  split at h
  · exact (good_scrape he g1 h).1
  · cases h; exact g1

/-- What the two calls of `duplicateHandle` do. -/
theorem duplicate_cases {env : Env} (he : Sane env) {s s' : St} {w ok : Bool} {what : What}
    {l : List (Nat × Obj)} (ho : Owns s l) (h : duplicate env s w ok what = some s') :
    ∃ new : List (Nat × What), Owns s' (new.map (fun g => (g.1, (⟨g.2, false⟩ : Obj))) ++ l) ∧ s'.given = new ++ s.given ∧
      new.length ≤ 1 ∧ s'.uses = s.uses ∧ s'.useConerr = s.useConerr ∧ s'.err = s.err ∧ s'.child = s.child ∧
      s'.closing = s.closing ∧ s'.pipes = s.pipes ∧ s'.children = s.children := by
  unfold duplicate at h
  split at h
  · split at h
    · cases h
      exact ⟨[((openHandle env s ⟨what, false⟩).2, what)], (owns_open he ho ⟨what, false⟩).congr rfl rfl, rfl,
        Nat.le_refl _, rfl, rfl, rfl, rfl, rfl, rfl, rfl⟩
    · cases h
  · cases h
    exact ⟨[], ho, rfl, Nat.zero_le _, rfl, rfl, rfl, rfl, rfl, rfl, rfl⟩

theorem inherits_right {env : Env} {s : St} (g : Good env s) (hc : s.child = none) :
    RightChild s.useConerr (newChild env s) := by
  unfold RightChild newChild
  have hE := g.err
  unfold ErrOk at hE
  cases hu : s.useConerr
  · simp
  · rw [hu] at hE
    obtain ⟨e, hee⟩ := Option.isSome_iff_exists.mp hE
    simp only [if_true]
    refine ⟨?_, ?_⟩
    · have hp := (g.owns.1.filter (fun p => p.2.inheritable)).map (fun p => p.2.what)
      refine hp.trans ?_
      have : ((accounted env s).filter fun p => p.2.inheritable).map (fun p => p.2.what) =
          [.input, .screen 0, .screen 0, .screen 1] := by
        unfold accounted
        rw [hee, hc]
        have f1 : (s.pipes.map (fun h => (h, (⟨.pipe, false⟩ : Obj)))).filter (fun p => p.2.inheritable) = [] := by
          apply List.filter_eq_nil_iff.mpr
          intro a ha
          obtain ⟨x, _, rfl⟩ := List.mem_map.mp ha
          simp
        have f2 : (s.given.map (fun g => (g.1, (⟨g.2, false⟩ : Obj)))).filter (fun p => p.2.inheritable) = [] := by
          apply List.filter_eq_nil_iff.mpr
          intro a ha
          obtain ⟨x, _, rfl⟩ := List.mem_map.mp ha
          simp
        simp only [List.filter_append, f1, f2]
        rfl
      rw [this]
    · have l1 : lookup s env.stdin = some .input :=
        owns_lookup (o := ⟨.input, true⟩) g.owns (by simp [accounted])
      have l2 : lookup s env.stdout = some (.screen 0) := owns_lookup g.owns stdout_accounted
      have l3 : lookup s e = some (.screen 1) := owns_lookup g.owns (err_accounted e hee)
      rw [l1, l2, hee]
      simp [l3]

theorem good_spawn {env : Env} (he : Sane env) {s s' : St} {a c wp wt op ot : Bool} (g : Good env s)
    (h : spawn env s a c wp wt op ot = some s') : Good env s' := by
  unfold spawn at h
  split at h
  · rename_i hno
    split at h
    · split at h
      · cases h
      · rename_i s1 h1
        split at h
        · cases h
        · rename_i s2 h2
          cases h
          have oP := owns_open he g.owns ⟨.process, false⟩
          have oT := owns_open he oP ⟨.thread, false⟩
          have oC : Owns (createProcess env s).1
              (((createProcess env s).2.2, ⟨.thread, false⟩) :: ((createProcess env s).2.1, ⟨.process, false⟩) ::
                accounted env s) := oT.congr rfl rfl
          obtain ⟨n1, p1, p2, p3, p4, p5, p6, p7, p8, p9, p10⟩ := duplicate_cases he oC h1
          obtain ⟨n2, q1, q2, q3, q4, q5, q6, q7, q8, q9, q10⟩ := duplicate_cases he p1 h2
          have hk : s.children = [] := by
            by_cases hx : s.children = []
            · exact hx
            · rcases g.once hx with e | e
              · exact absurd hno.1 e
              · rw [hno.2] at e; cases e
          have hg : s.given = [] := g.none hk
          have pe : (n2.map (fun g => (g.1, (⟨g.2, false⟩ : Obj))) ++
              (n1.map (fun g => (g.1, (⟨g.2, false⟩ : Obj))) ++
              (((createProcess env s).2.2, ⟨.thread, false⟩) :: ((createProcess env s).2.1, ⟨.process, false⟩) ::
                accounted env s))).Perm (((createProcess env s).2.2, ⟨.thread, false⟩) ::
              (n2.map (fun g => (g.1, (⟨g.2, false⟩ : Obj))) ++
              (n1.map (fun g => (g.1, (⟨g.2, false⟩ : Obj))) ++
              (((createProcess env s).2.1, ⟨.process, false⟩) :: accounted env s)))) := by
            rw [List.perm_iff_count]
            intro a
            simp only [List.count_append, List.count_cons]
            omega
          have o3 := owns_close (q1.perm pe)
          have sm := same_close s2 (createProcess env s).2.2
          have gv : s2.given = n2 ++ n1 := by
            rw [q2, p2]; show n2 ++ (n1 ++ s.given) = _; rw [hg]; simp
          have er : s2.err = s.err := q6.trans p6
          have pi : s2.pipes = s.pipes := q9.trans p9
          have cn : s2.useConerr = s.useConerr := q5.trans p5
          have ch : s2.children = [newChild env s] := by
            rw [q10, p10]; show s.children ++ [newChild env s] = _; rw [hk]; rfl
          refine ⟨?_, ?_, ?_, ?_, ?_, ?_, ?_, ?_⟩
          · refine Owns.perm (l := n2.map (fun g => (g.1, (⟨g.2, false⟩ : Obj))) ++
              (n1.map (fun g => (g.1, (⟨g.2, false⟩ : Obj))) ++
              (((createProcess env s).2.1, ⟨.process, false⟩) :: accounted env s))) (o3.congr rfl rfl) ?_
            rw [List.perm_iff_count]
            intro x
            simp only [accounted, sm.err, sm.pipes, sm.given, er, pi, gv, hno.1, hg, Option.toList, List.map_cons,
              List.map_nil, List.map_append, List.count_append, List.count_cons, List.count_nil, List.append_nil]
            omega
          · exact UsesOk.congr g.uses ((close_uses _ _).trans (q4.trans p4)) (sm.conerr.trans cn)
          · exact (show ErrOk (closeHandle s2 (createProcess env s).2.2) by
              unfold ErrOk; rw [sm.err, sm.conerr, er, cn]; exact g.err)
          · exact (show ∀ c ∈ (closeHandle s2 (createProcess env s).2.2).children,
                RightChild (closeHandle s2 (createProcess env s).2.2).useConerr c by
              rw [sm.children, sm.conerr, ch, cn]
              intro c hcm
              rw [List.mem_singleton.mp hcm]
              exact inherits_right g hno.1)
          · intro _; exact Or.inl (by simp)
          · exact (show (closeHandle s2 (createProcess env s).2.2).pipes.length ≤
                if (closeHandle s2 (createProcess env s).2.2).useConerr then 4 else 3 by
              rw [sm.pipes, sm.conerr, pi, cn]; exact g.pipes)
          · exact (show (closeHandle s2 (createProcess env s).2.2).given.length ≤ 2 by
              rw [sm.given, gv, List.length_append]; omega)
          · exact (show (closeHandle s2 (createProcess env s).2.2).children = [] →
                (closeHandle s2 (createProcess env s).2.2).given = [] by
              rw [sm.children, ch]; intro hx; cases hx)
    · cases h; exact g
  · cases h

/-! ## Every operation -/

theorem perm_eraseIdx {α : Type} : ∀ (l : List α) (k : Nat) (x : α), l[k]? = some x → l.Perm (x :: l.eraseIdx k) := by
  intro l
  induction l with
  | nil => intro k x h; simp at h
  | cons a r ih =>
    intro k x h
    cases k with
    | zero => simp at h; subst h; exact List.Perm.refl _
    | succ k =>
      simp only [List.getElem?_cons_succ] at h
      exact ((ih k x h).cons a).trans (List.Perm.swap x a _)

theorem good_closePipe {env : Env} {s : St} {k h : Nat} (g : Good env s) (hk : s.pipes[k]? = some h) :
    Good env { closeHandle s h with pipes := s.pipes.eraseIdx k } := by
  have sm := same_close s h
  have pe : (accounted env s).Perm ((h, ⟨.pipe, false⟩) :: accounted env { s with pipes := s.pipes.eraseIdx k }) := by
    rw [List.perm_iff_count]
    intro x
    have := ((perm_eraseIdx s.pipes k h hk).map (fun h => (h, (⟨.pipe, false⟩ : Obj)))).count_eq x
    simp only [List.map_cons, List.count_cons] at this
    simp only [accounted, List.count_append, List.count_cons, List.count_nil]
    omega
  have o1 := owns_close (g.owns.perm pe)
  refine ⟨?_, ?_, ?_, ?_, ?_, ?_, ?_, ?_⟩
  · have e : accounted env { closeHandle s h with pipes := s.pipes.eraseIdx k } =
        accounted env { s with pipes := s.pipes.eraseIdx k } := by
      unfold accounted; simp only [sm.err, sm.child, sm.given]
    rw [e]; exact o1.congr rfl rfl
  · exact UsesOk.congr g.uses (close_uses s h) sm.conerr
  · exact (show ErrOk (closeHandle s h) by unfold ErrOk; rw [sm.err, sm.conerr]; exact g.err)
  · exact (show ∀ c ∈ (closeHandle s h).children, RightChild (closeHandle s h).useConerr c by
      rw [sm.children, sm.conerr]; exact g.kids)
  · exact (show (closeHandle s h).children ≠ [] → (closeHandle s h).child ≠ none ∨ (closeHandle s h).closing = true by
      rw [sm.children, sm.child, sm.closing]; exact g.once)
  · exact (show (s.pipes.eraseIdx k).length ≤ if (closeHandle s h).useConerr then 4 else 3 by
      rw [sm.conerr]
      exact Nat.le_trans (List.length_eraseIdx_le _ _) g.pipes)
  · exact (show (closeHandle s h).given.length ≤ 2 by rw [sm.given]; exact g.given)
  · exact (show (closeHandle s h).children = [] → (closeHandle s h).given = [] by
      rw [sm.children, sm.given]; exact g.none)

theorem good_take {env : Env} {s : St} {k : Nat} {v : Nat × What} (g : Good env s) (hk : s.given[k]? = some v) :
    Good env { closeHandle s v.1 with given := s.given.eraseIdx k } := by
  have sm := same_close s v.1
  have pe : (accounted env s).Perm ((v.1, ⟨v.2, false⟩) :: accounted env { s with given := s.given.eraseIdx k }) := by
    rw [List.perm_iff_count]
    intro x
    have := ((perm_eraseIdx s.given k v hk).map (fun g => (g.1, (⟨g.2, false⟩ : Obj)))).count_eq x
    simp only [List.map_cons, List.count_cons] at this
    simp only [accounted, List.count_append, List.count_cons, List.count_nil]
    omega
  have o1 := owns_close (g.owns.perm pe)
  refine ⟨?_, ?_, ?_, ?_, ?_, ?_, ?_, ?_⟩
  · have e : accounted env { closeHandle s v.1 with given := s.given.eraseIdx k } =
        accounted env { s with given := s.given.eraseIdx k } := by
      unfold accounted; simp only [sm.err, sm.child, sm.pipes]
    rw [e]; exact o1.congr rfl rfl
  · exact UsesOk.congr g.uses (close_uses s v.1) sm.conerr
  · exact (show ErrOk (closeHandle s v.1) by unfold ErrOk; rw [sm.err, sm.conerr]; exact g.err)
  · exact (show ∀ c ∈ (closeHandle s v.1).children, RightChild (closeHandle s v.1).useConerr c by
      rw [sm.children, sm.conerr]; exact g.kids)
  · exact (show (closeHandle s v.1).children ≠ [] → (closeHandle s v.1).child ≠ none ∨ (closeHandle s v.1).closing = true by
      rw [sm.children, sm.child, sm.closing]; exact g.once)
  · exact (show (closeHandle s v.1).pipes.length ≤ if (closeHandle s v.1).useConerr then 4 else 3 by
      rw [sm.pipes, sm.conerr]; exact g.pipes)
  · exact (show (s.given.eraseIdx k).length ≤ 2 from Nat.le_trans (List.length_eraseIdx_le _ _) g.given)
  · exact (show (closeHandle s v.1).children = [] → s.given.eraseIdx k = [] by
      rw [sm.children]; intro hx; rw [g.none hx]; rfl)

theorem good_step {env : Env} (he : Sane env) {s s' : St} (o : Op) (g : Good env s) (h : step env s o = some s') :
    Good env s' := by
  cases o with
  | poll e ok => exact good_poll he g h
  | resize ok => exact (good_resize he g h).1
  | spawn a c wp wt op ot => exact good_spawn he g h
  | closePipe k =>
    simp only [step] at h
    split at h
    · rename_i v hk; cases h; exact good_closePipe g hk
    · cases h; exact g
  | take k =>
    simp only [step] at h
    split at h
    · rename_i v hk; cases h; exact good_take g hk
    · cases h; exact g
  | activate b =>
    cases h
    exact ⟨g.owns.congr rfl rfl, g.uses, g.err, g.kids, g.once, g.pipes, g.given, g.none⟩

theorem good_run {env : Env} (he : Sane env) (ops : List Op) : ∀ {s s' : St}, Good env s → run env s ops = some s' →
    Good env s' := by
  induction ops with
  | nil => intro s s' g h; cases h; exact g
  | cons o r ih =>
    intro s s' g h
    simp only [run] at h
    cases hs : step env s o with
    | none => rw [hs] at h; cases h
    | some t => rw [hs] at h; exact ih (good_step he o g hs) h

/-! ## The start -/

theorem owns_begin {env : Env} (he : Sane env) (u : Bool) (a : Nat) :
    Owns (begin env u a) (accounted env (begin env u a)) := by
  refine ⟨List.Perm.refl _, ?_, rfl⟩
  obtain ⟨_, h1, h2, h3⟩ := he
  simp [accounted, begin, h1, h2, h3]

theorem owns_openPipe {env : Env} (he : Sane env) {s : St} {l : List (Nat × Obj)} (h : Owns s l) :
    Owns (openPipe env s) (((openHandle env s ⟨.pipe, false⟩).2, ⟨.pipe, false⟩) :: l) :=
  (owns_open he h _).congr rfl rfl

/-- Opening a pipe keeps account of it, whatever else is open. -/
theorem openPipe_account {env : Env} (he : Sane env) {s : St} {x : List (Nat × Obj)}
    (h : Owns s (x ++ accounted env s)) : Owns (openPipe env s) (x ++ accounted env (openPipe env s)) := by
  refine (owns_openPipe he h).perm ?_
  rw [List.perm_iff_count]
  intro a
  simp only [openPipe, openHandle, accounted, List.map_cons, List.count_append, List.count_cons, List.count_nil]
  omega

structure SamePipes (s s' : St) : Prop where
  conerr : s'.useConerr = s.useConerr
  err : s'.err = s.err
  child : s'.child = s.child
  closing : s'.closing = s.closing
  given : s'.given = s.given
  children : s'.children = s.children
  active : s'.active = s.active
  uses : s'.uses = s.uses

theorem samePipes_openPipes (env : Env) (s : St) : SamePipes s (openPipes env s) := by
  unfold openPipes; split <;> exact ⟨rfl, rfl, rfl, rfl, rfl, rfl, rfl, rfl⟩

theorem openPipes_account {env : Env} (he : Sane env) {s : St} {x : List (Nat × Obj)}
    (h : Owns s (x ++ accounted env s)) : Owns (openPipes env s) (x ++ accounted env (openPipes env s)) := by
  unfold openPipes
  split
  · exact openPipe_account he (openPipe_account he (openPipe_account he (openPipe_account he h)))
  · exact openPipe_account he (openPipe_account he (openPipe_account he h))

theorem openPipes_length (env : Env) (s : St) :
    (openPipes env s).pipes.length = s.pipes.length + if s.useConerr then 4 else 3 := by
  unfold openPipes; split <;> rfl

theorem good_construct {env : Env} (he : Sane env) {u ok okE : Bool} {a : Nat} {s : St}
    (h : construct env u ok okE a = some s) : Good env s ∧ s.useConerr = u := by
  unfold construct at h
  split at h
  · cases h
  · rename_i s1 v owned hp
    have ob := owns_begin he u a
    rcases primary_cases hp with ⟨hc, _, rfl, rfl, rfl⟩ | ⟨hc, rfl, rfl, rfl⟩
    · have hu : u = false := hc
      subst hu
      simp only [Bool.false_eq_true, if_false, Option.some.injEq] at h
      subst h
      generalize hb : (openHandle env (begin env false a) ⟨.screen (begin env false a).active, false⟩) = q at *
      have o1 : Owns q.1 ([(q.2, ⟨.screen a, false⟩)] ++ accounted env q.1) := by
        rw [← hb]; exact owns_open he ob _
      have o2 := openPipes_account he o1
      have sp := samePipes_openPipes env q.1
      have sm := same_close (useScreen (openPipes env q.1) false q.2) q.2
      have qc : q.1.useConerr = false := by rw [← hb]; rfl
      have qe : q.1.err = Option.none := by rw [← hb]; rfl
      have qk : q.1.children = [] := by rw [← hb]; rfl
      have qg : q.1.given = [] := by rw [← hb]; rfl
      have qp : q.1.pipes = [] := by rw [← hb]; rfl
      have qu : q.1.uses = [] := by rw [← hb]; rfl
      have qa : q.1.active = a := by rw [← hb]; rfl
      have c1 : (closeHandle (useScreen (openPipes env q.1) false q.2) q.2).useConerr = false :=
        sm.conerr.trans (sp.conerr.trans qc)
      have c2 : (closeHandle (useScreen (openPipes env q.1) false q.2) q.2).err = Option.none :=
        sm.err.trans (sp.err.trans qe)
      have c3 : (closeHandle (useScreen (openPipes env q.1) false q.2) q.2).children = [] :=
        sm.children.trans (sp.children.trans qk)
      have c4 : (closeHandle (useScreen (openPipes env q.1) false q.2) q.2).given = [] :=
        sm.given.trans (sp.given.trans qg)
      have c5 : (closeHandle (useScreen (openPipes env q.1) false q.2) q.2).pipes = (openPipes env q.1).pipes := sm.pipes
      refine ⟨⟨?_, ?_, ?_, ?_, ?_, ?_, ?_, ?_⟩, c1⟩
      · show Owns (closeHandle _ _) _
        have ea : accounted env (destroyBuffer (useScreen (openPipes env q.1) false q.2) q.2 true) =
            accounted env (openPipes env q.1) := sm.accounted env
        rw [ea]
        exact owns_close (owns_use o2 _ _)
      · show UsesOk (closeHandle _ _)
        refine UsesOk.congr (s := useScreen (openPipes env q.1) false q.2) ?_ (close_uses _ _) sm.conerr
        refine usesOk_use ?_ _ _ ?_
        · unfold UsesOk; rw [sp.uses, qu]; intro x hx; cases hx
        · rw [owns_lookup o2 (List.mem_cons_self), sp.conerr, qc, sp.active, qa]; rfl
      · show ErrOk (closeHandle _ _); unfold ErrOk; rw [c1, c2]; rfl
      · show ∀ c ∈ (closeHandle _ _).children, _; rw [c3]; intro x hx; cases hx
      · show (closeHandle _ _).children ≠ [] → _; rw [c3]; intro hx; exact absurd rfl hx
      · show (closeHandle _ _).pipes.length ≤ if (closeHandle _ _).useConerr then 4 else 3
        rw [c1, c5, openPipes_length, qc, qp]; exact Nat.le_refl _
      · show (closeHandle _ _).given.length ≤ 2; rw [c4]; exact Nat.zero_le _
      · intro _; exact c4
    · have hu : u = true := hc
      subst hu
      simp only [if_true] at h
      split at h
      · cases h
      · rename_i s2 h2
        simp only [Option.some.injEq] at h
        subst h
        unfold createErrorBuffer at h2
        split at h2
        · simp only [Option.some.injEq] at h2
          have o1 := owns_open he ob ⟨.screen 1, true⟩
          have t1 : s2.err.isSome = true := by rw [← h2]; rfl
          have t2 : s2.useConerr = true := by rw [← h2]; rfl
          have t3 : s2.children = [] := by rw [← h2]; rfl
          have t4 : s2.given = [] := by rw [← h2]; rfl
          have t5 : s2.pipes = [] := by rw [← h2]; rfl
          have t6 : s2.uses = [] := by rw [← h2]; rfl
          have o2 : Owns s2 ([] ++ accounted env s2) := by
            refine Owns.perm (l := ((openHandle env (begin env true a) ⟨.screen 1, true⟩).2, ⟨.screen 1, true⟩) ::
              accounted env (begin env true a)) (o1.congr (by rw [← h2]) (by rw [← h2])) ?_
            rw [← h2, List.perm_iff_count]
            intro x
            simp only [accounted, begin, openHandle, Option.toList, List.map_cons, List.map_nil, List.count_append,
              List.count_cons, List.count_nil, List.nil_append, List.append_nil]
            omega
          have o3 := openPipes_account he o2
          rw [List.nil_append] at o3
          have sp := samePipes_openPipes env s2
          have o4 := owns_use o3 false env.stdout
          have sm := (same_use (openPipes env s2) false env.stdout).trans (same_useError _)
          show Good env (useError (useScreen (openPipes env s2) false env.stdout)) ∧ _
          have u1 : UsesOk (useScreen (openPipes env s2) false env.stdout) := by
            refine usesOk_use ?_ _ _ ?_
            · unfold UsesOk; rw [sp.uses, t6]; intro x hx; cases hx
            · rw [owns_lookup o3 stdout_accounted, sp.conerr, t2]; rfl
          have c1 : (useError (useScreen (openPipes env s2) false env.stdout)).useConerr = true :=
            sm.conerr.trans (sp.conerr.trans t2)
          have e1 : ErrOk (useScreen (openPipes env s2) false env.stdout) := by
            show (openPipes env s2).err.isSome = (openPipes env s2).useConerr
            rw [sp.err, sp.conerr, t1, t2]
          refine ⟨⟨?_, ?_, ?_, ?_, ?_, ?_, ?_, ?_⟩, c1⟩
          · rw [sm.accounted]; exact owns_useError o4
          · exact usesOk_useError o4 u1 e1 (fun e hee => err_accounted e hee)
          · unfold ErrOk; rw [c1, sm.err, sp.err, t1]
          · rw [sm.children, sp.children, t3]; intro x hx; cases hx
          · rw [sm.children, sp.children, t3]; intro hx; exact absurd rfl hx
          · rw [c1, sm.pipes, openPipes_length, t2, t5]; exact Nat.le_refl _
          · rw [sm.given, sp.given, t4]; exact Nat.zero_le _
          · intro _; rw [sm.given, sp.given, t4]
        · cases h2

/-- Nothing happens but polls and resizes. -/
theorem quiet_run {env : Env} (he : Sane env) (ops : List Op) : ∀ {s s' : St}, Good env s →
    (∀ o ∈ ops, Quiet o) → run env s ops = some s' → accounted env s' = accounted env s := by
  induction ops with
  | nil => intro s s' _ _ h; cases h; rfl
  | cons o r ih =>
    intro s s' g hq h
    simp only [run] at h
    cases hs : step env s o with
    | none => rw [hs] at h; cases h
    | some t =>
      rw [hs] at h
      rw [ih (good_step he o g hs) (fun o' ho' => hq o' (List.mem_cons_of_mem _ ho')) h]
      have hq0 := hq o List.mem_cons_self
      cases o with
      | poll e ok =>
        have : e = false := hq0
        subst this
        simp only [step, poll, Bool.and_false, Bool.false_eq_true, if_false] at hs
        split at hs
        · exact (good_scrape he g hs).2.accounted env
        · cases hs; rfl
      | resize ok => exact (good_resize he g hs).2.accounted env
      | activate b => cases hs; rfl
      | spawn a c wp wt op ot => exact hq0.elim
      | closePipe k => exact hq0.elim
      | take k => exact hq0.elim

/-! ## What does not change -/

theorem primary_same {env : Env} {s s1 : St} {ok owned : Bool} {h : Nat}
    (ho : openPrimaryBuffer env s ok = some (s1, h, owned)) : Same s s1 := by
  rcases primary_cases ho with ⟨_, _, _, rfl, _⟩ | ⟨_, _, rfl, _⟩
  · exact same_open _ _ _
  · exact Same.refl _

theorem same_destroy (s : St) (h : Nat) (o : Bool) : Same s (destroyBuffer s h o) := by
  unfold destroyBuffer; split
  · exact same_close s h
  · exact Same.refl s

theorem scrape_same {env : Env} {s s' : St} {ok : Bool} (h : scrapeBuffers env s ok = some s') : Same s s' := by
  unfold scrapeBuffers at h
  split at h
  · cases h
  · rename_i hp
    cases h
    exact (primary_same hp).trans ((same_use _ _ _).trans ((same_destroy _ _ _).trans (same_useError _)))

theorem resize_same {env : Env} {s s' : St} {ok : Bool} (h : resizeWindow env s ok = some s') : Same s s' := by
  unfold resizeWindow at h
  split at h
  · cases h
  · rename_i hp
    cases h
    exact (primary_same hp).trans ((same_use _ _ _).trans ((same_useError _).trans
      ((same_use _ _ _).trans (same_destroy _ _ _))))

theorem scrape_child {env : Env} {s s' : St} {ok : Bool} (h : scrapeBuffers env s ok = some s') : s'.child = s.child :=
  (scrape_same h).child

theorem childExit_conerr (s : St) : (childExit s).useConerr = s.useConerr := by
  unfold childExit; split
  · exact (same_close _ _).conerr
  · rfl

theorem childExit_children (s : St) : (childExit s).children = s.children := by
  unfold childExit; split
  · exact (same_close _ _).children
  · rfl

theorem duplicate_conerr {env : Env} {s s' : St} {w ok : Bool} {what : What} (h : duplicate env s w ok what = some s') :
    s'.useConerr = s.useConerr ∧ s'.children = s.children := by
  unfold duplicate at h
  split at h
  · split at h
    · cases h; exact ⟨rfl, rfl⟩
    · cases h
  · cases h; exact ⟨rfl, rfl⟩

theorem spawn_same {env : Env} {s s' : St} {a c wp wt op ot : Bool} (h : spawn env s a c wp wt op ot = some s') :
    s'.useConerr = s.useConerr ∧
    (s'.children = s.children ∨ (s.child = none ∧ s.closing = false ∧ s'.children = s.children ++ [newChild env s])) := by
  unfold spawn at h
  split at h
  · rename_i hno
    split at h
    · split at h
      · cases h
      · rename_i s1 h1
        split at h
        · cases h
        · rename_i s2 h2
          cases h
          refine ⟨?_, Or.inr ⟨hno.1, hno.2, ?_⟩⟩
          · exact (same_close _ _).conerr.trans ((duplicate_conerr h2).1.trans (duplicate_conerr h1).1)
          · exact (same_close _ _).children.trans ((duplicate_conerr h2).2.trans (duplicate_conerr h1).2)
    · cases h; exact ⟨rfl, Or.inl rfl⟩
  · cases h

theorem step_cases {env : Env} {s s' : St} {o : Op} (h : step env s o = some s') :
    s'.useConerr = s.useConerr ∧
    (s'.children = s.children ∨ (s.child = none ∧ s.closing = false ∧ s'.children = s.children ++ [newChild env s])) := by
  cases o with
  | poll e ok =>
    simp only [step, poll] at h
    have h1 : (if s.auto && e then childExit s else s).useConerr = s.useConerr := by
      split
      · exact childExit_conerr s
      · rfl
    have h2 : (if s.auto && e then childExit s else s).children = s.children := by
      split
      · exact childExit_children s
      · rfl
    split at h
    · exact ⟨(scrape_same h).conerr.trans h1, Or.inl ((scrape_same h).children.trans h2)⟩
    · simp only [Option.some.injEq] at h; subst h; exact ⟨h1, Or.inl h2⟩
  | resize ok => exact ⟨(resize_same h).conerr, Or.inl (resize_same h).children⟩
  | spawn a c wp wt op ot => exact spawn_same h
  | closePipe k =>
    simp only [step] at h
    split at h
    · cases h; exact ⟨(same_close _ _).conerr, Or.inl (same_close _ _).children⟩
    · cases h; exact ⟨rfl, Or.inl rfl⟩
  | take k =>
    simp only [step] at h
    split at h
    · cases h; exact ⟨(same_close _ _).conerr, Or.inl (same_close _ _).children⟩
    · cases h; exact ⟨rfl, Or.inl rfl⟩
  | activate b => cases h; exact ⟨rfl, Or.inl rfl⟩

theorem step_conerr {env : Env} {s s' : St} {o : Op} (h : step env s o = some s') : s'.useConerr = s.useConerr :=
  (step_cases h).1

theorem run_children {env : Env} (he : Sane env) (ops : List Op) : ∀ {s s' : St}, Good env s →
    s.children.length ≤ 1 → run env s ops = some s' → s'.children.length ≤ 1 := by
  induction ops with
  | nil => intro s s' _ hl h; cases h; exact hl
  | cons o r ih =>
    intro s s' g hl h
    simp only [run] at h
    cases hs : step env s o with
    | none => rw [hs] at h; cases h
    | some t =>
      rw [hs] at h
      refine ih (good_step he o g hs) ?_ h
      rcases (step_cases hs).2 with e | ⟨e1, e2, e3⟩
      · rw [e]; exact hl
      · have : s.children = [] := by
          by_cases hx : s.children = []
          · exact hx
          · rcases g.once hx with e | e
            · exact absurd e1 e
            · rw [e2] at e; cases e
        rw [e3, this]; exact Nat.le_refl _

theorem construct_children {env : Env} {u ok okE : Bool} {a : Nat} {s : St} (h : construct env u ok okE a = some s) :
    s.children = [] := by
  unfold construct at h
  split at h
  · cases h
  · rename_i s1 v owned hp
    have c1 : s1.children = [] := (primary_same hp).children
    split at h
    · split at h
      · cases h
      · rename_i s2 h2
        cases h
        unfold createErrorBuffer at h2
        split at h2
        · cases h2
          exact (same_destroy _ _ _).children.trans ((same_useError _).children.trans
            ((same_use _ _ _).children.trans ((samePipes_openPipes _ _).children.trans c1)))
        · cases h2
    · cases h
      exact (same_destroy _ _ _).children.trans
            ((same_use _ _ _).children.trans ((samePipes_openPipes _ _).children.trans c1))

theorem scrape_none (env : Env) (s : St) (ok : Bool) :
    scrapeBuffers env s ok = none ↔ s.useConerr = false ∧ ok = false := by
  unfold scrapeBuffers openPrimaryBuffer openConout openStdout
  cases s.useConerr <;> cases ok <;> simp

end Winpty.AgentHandles
