import Verif.Lemmas.Agent
import Verif.Lemmas.NamedPipeIdle
import Verif.Lemmas.Framing

/-! # The invariant of the agent -/
namespace Winpty.Agent
open Winpty.Spec.Agent
open Winpty.Terminal (Term)

/-- The books of the agent: hold after every single action. -/
structure Inv (s : State) : Prop where
  out : NamedPipe.Inv false true s.conout (outBytes s.log) [] 65536
  err : ∀ p t, s.err = some (p, t) → NamedPipe.Inv false true p (errBytes s.log) [] 65536
  ctl : ∃ rs m, NamedPipe.Inv true true s.control (controlBytes s.log) rs m
  cin : ∃ rs, NamedPipe.Inv true false s.conin [] rs 65536
  closing : s.closing = true ↔ Entry.childExited ∈ s.log
  exiting : s.exiting = true ↔ Entry.exit ∈ s.log
  child : s.closing = true → s.child = false
  termOut : s.term.out = termBytes s.log
  closedOut : ∀ pre post, s.log = pre ++ .closeConout :: post →
    s.conout.pipe.opened = false ∧ s.conout.os.wire = outBytes pre ∧ Then .childExited .scraped pre ∧
    ∃ n, mouseWrites pre = mousePairs n
  closedErr : ∀ pre post, s.log = pre ++ .closeConerr :: post →
    (∃ p t, s.err = some (p, t) ∧ p.pipe.opened = false ∧ p.os.wire = errBytes pre) ∧
    Then .childExited .scraped pre
  afterExit : ∀ pre post, s.log = pre ++ .exit :: post → ∀ e ∈ post, ¬ IsRequest e
  sizes : ∀ e ∈ s.log, SizeOk e
  mouse : ∃ n, mouseWrites s.log = mousePairs n ++ if s.term.mouseModeEnabled then [mouseOn] else []
  plainMouse : s.term.plainMode = true → s.term.mouseModeEnabled = false
  why : s.exiting = true → s.control.pipe.opened = false ∨
    (s.closing = true ∧ s.exitAfterShutdown = true ∧ s.conout.pipe.opened = false ∧ conerrClosed s = true)

/-! ## Splitting a log that has grown -/

theorem split_grown {l es pre post : List Entry} {x : Entry} (h : l ++ es = pre ++ x :: post)
    (hx : x ∉ es) : ∃ post', l = pre ++ x :: post' ∧ post = post' ++ es := by
  rcases List.append_eq_append_iff.1 h with ⟨a, h1, h2⟩ | ⟨c, h1, h2⟩
  · exfalso; apply hx; rw [h2]; simp
  · cases c with
    | nil =>
      exfalso; apply hx
      simp only [List.nil_append] at h2
      rw [← h2]; simp
    | cons y ys =>
      rw [List.cons_append] at h2
      cases h2
      exact ⟨ys, h1, rfl⟩

theorem mouseWrites_none {es : List Entry} (h : ∀ e ∈ es, ∀ b, e ≠ .conout .mouse b) :
    mouseWrites es = [] := by
  induction es with
  | nil => rfl
  | cons e es ih =>
    have ih := ih (fun e' he' => h e' (List.mem_cons_of_mem _ he'))
    have he := h e (List.mem_cons_self ..)
    cases e with
    | conout src b =>
      cases src with
      | mouse => exact absurd rfl (he b)
      | _ => simpa [mouseWrites] using ih
    | _ => simpa [mouseWrites] using ih

/-- Pipes with more queued. -/
theorem inv_push {rd : Bool} {p : NamedPipe.State} {ws rs : List Nat} {m : Nat}
    (hi : NamedPipe.Inv rd true p ws rs m) (x : List Nat) :
    NamedPipe.Inv rd true (push p x) (ws ++ x) rs m := by
  have := NamedPipe.step_inv hi (.write x) (push p x) [] (by intro n h; cases h)
    (by simp only [NamedPipe.step, hi.wf.writeMode, if_true, push])
  simpa [NamedPipe.wrote] using this

theorem conerrClosed_of {s s' : State} {x : List Nat}
    (h : s'.err.map Prod.fst = s.err.map (fun pt => push pt.1 x)) : conerrClosed s' = conerrClosed s := by
  unfold conerrClosed
  cases he : s.err with
  | none => rw [he] at h; cases he' : s'.err with
    | none => rfl
    | some y => rw [he'] at h; simp at h
  | some pt =>
    rw [he] at h
    cases he' : s'.err with
    | none => rw [he'] at h; simp at h
    | some y =>
      rw [he'] at h
      simp only [Option.map_some, Option.some.injEq] at h
      simp [h, push, NamedPipe.Pipe.isClosed]

/-- Entries that ordinary steps log. -/
def Plain (e : Entry) : Prop :=
  e ≠ .childExited ∧ e ≠ .exit ∧ e ≠ .closeConout ∧ e ≠ .closeConerr ∧ SizeOk e

/-- Steps that only write keep the books. -/
theorem inv_writes {P : Entry → Prop} {s s' : State} (hw : Writes P s s') (hi : Inv s)
    (hP : ∀ e, P e → Plain e) (hreq : s.exiting = true → ∀ e, P e → ¬ IsRequest e)
    (hm : ∃ n, mouseWrites s'.log = mousePairs n ++ if s'.term.mouseModeEnabled then [mouseOn] else [])
    (hpm : s'.term.plainMode = true → s'.term.mouseModeEnabled = false) : Inv s' := by
  obtain ⟨⟨es, h1, h2, h3, h4, h5, h6⟩, h7, h8, h9, h10, h11, h12⟩ := hw
  have hnot : ∀ x, (∀ e, P e → e ≠ x) → x ∉ es := fun x hx hm => hx x (h2 x hm) rfl
  have hce := hnot .childExited (fun e he => (hP e he).1)
  have hex := hnot .exit (fun e he => (hP e he).2.1)
  have hco := hnot .closeConout (fun e he => (hP e he).2.2.1)
  have hcr := hnot .closeConerr (fun e he => (hP e he).2.2.2.1)
  constructor
  · rw [h3, h1, outBytes_append]; exact inv_push hi.out _
  · intro p t he
    rw [he] at h4
    cases hse : s.err with
    | none => rw [hse] at h4; simp at h4
    | some pt =>
      rw [hse] at h4
      simp only [Option.map_some, Option.some.injEq] at h4
      rw [h4, h1, errBytes_append]
      exact inv_push (hi.err pt.1 pt.2 hse) _
  · obtain ⟨rs, m, hc⟩ := hi.ctl
    refine ⟨rs, m, ?_⟩
    rw [h5, h1, controlBytes_append]; exact inv_push hc _
  · rw [h7]; exact hi.cin
  · rw [h8, hi.closing, h1, List.mem_append]; simp [hce]
  · rw [h9, hi.exiting, h1, List.mem_append]; simp [hex]
  · intro hc
    rw [h8] at hc
    rw [h11 hc]; exact hi.child hc
  · rw [h6, h1, termBytes_append, hi.termOut]
  · intro pre post h
    rw [h1] at h
    obtain ⟨post', g1, _⟩ := split_grown h hco
    obtain ⟨k1, k2, k3⟩ := hi.closedOut pre post' g1
    rw [h3]
    exact ⟨k1, k2, k3⟩
  · intro pre post h
    rw [h1] at h
    obtain ⟨post', g1, _⟩ := split_grown h hcr
    obtain ⟨⟨p, t, k0, k1, k2⟩, k3⟩ := hi.closedErr pre post' g1
    refine ⟨?_, k3⟩
    rw [k0] at h4
    cases hse : s'.err with
    | none => rw [hse] at h4; simp at h4
    | some pt =>
      rw [hse] at h4
      simp only [Option.map_some, Option.some.injEq] at h4
      refine ⟨pt.1, pt.2, rfl, ?_, ?_⟩ <;> rw [h4]
      · exact k1
      · exact k2
  · intro pre post h e he
    rw [h1] at h
    obtain ⟨post', g1, g2⟩ := split_grown h hex
    rw [g2] at he
    rcases List.mem_append.1 he with he | he
    · exact hi.afterExit pre post' g1 e he
    · exact hreq (hi.exiting.2 (by rw [g1]; simp)) e (h2 e he)
  · intro e he
    rw [h1] at he
    rcases List.mem_append.1 he with he | he
    · exact hi.sizes e he
    · exact (hP e (h2 e he)).2.2.2.2
  · exact hm
  · exact hpm
  · intro hx
    rw [h9] at hx
    rcases hi.why hx with h | ⟨h, g1, g2, g3⟩
    · left; rw [h5]; exact h
    · right
      refine ⟨h8.trans h, (h10 h).trans g1, by rw [h3]; exact g2, by rw [conerrClosed_of h4]; exact g3⟩

/-- The usual case: no mouse sequences. -/
theorem inv_writes' {P : Entry → Prop} {s s' : State} (hw : Writes P s s') (hi : Inv s)
    (hmm : s'.term.mouseModeEnabled = s.term.mouseModeEnabled)
    (hP : ∀ e, P e → Plain e ∧ ∀ b, e ≠ .conout .mouse b)
    (hreq : s.exiting = true → ∀ e, P e → ¬ IsRequest e) : Inv s' := by
  refine inv_writes hw hi (fun e he => (hP e he).1) hreq ?_ ?_
  · obtain ⟨⟨es, h1, h2, _⟩, _⟩ := hw
    obtain ⟨n, hn⟩ := hi.mouse
    refine ⟨n, ?_⟩
    rw [h1, mouseWrites_append, mouseWrites_none (fun e he b => (hP e (h2 e he)).2 b), List.append_nil,
      hmm, hn]
  · rw [hmm, hw.plain]; exact hi.plainMouse

theorem output_plain {src : Source} (hs : src ≠ .mouse) (e : Entry) (h : IsOutput src e) :
    Plain e ∧ ∀ b, e ≠ .conout .mouse b := by
  rcases h with ⟨b, rfl⟩ | ⟨b, rfl⟩
  · exact ⟨⟨by simp, by simp, by simp, by simp, trivial⟩, fun b' h => by cases h; exact hs rfl⟩
  · exact ⟨⟨by simp, by simp, by simp, by simp, trivial⟩, fun b' h => by cases h⟩

theorem output_notRequest {src : Source} (e : Entry) (h : IsOutput src e) : ¬ IsRequest e := by
  rcases h with ⟨b, rfl⟩ | ⟨b, rfl⟩ <;> exact id

theorem request_plain (e : Entry) (h : RequestEntry e) : Plain e ∧ ∀ b, e ≠ .conout .mouse b := by
  rcases h with ⟨h, hs⟩ | h
  · refine ⟨⟨?_, ?_, ?_, ?_, hs⟩, ?_⟩
    · rintro rfl; exact h
    · rintro rfl; exact h
    · rintro rfl; exact h
    · rintro rfl; exact h
    · rintro b rfl; exact h
  · exact output_plain (by simp) e h

/-! ## The mouse -/

theorem mousePairs_snoc (n : Nat) : mousePairs n ++ [mouseOn] ++ [mouseOff] = mousePairs (n + 1) := by
  induction n with
  | zero => rfl
  | succ n ih =>
    rw [mousePairs, List.cons_append, List.cons_append, List.cons_append, List.cons_append, ih]
    rfl

/-- What `enableMouseMode` writes. -/
theorem enableMouse_cases (t : Term) (on : Bool) (hp : t.plainMode = true → t.mouseModeEnabled = false) :
    (Terminal.enableMouseMode t on = t ∧ (t.plainMode = true ∨ t.mouseModeEnabled = on)) ∨
    (t.plainMode = false ∧ t.mouseModeEnabled = !on ∧
      (Terminal.enableMouseMode t on).mouseModeEnabled = on ∧
      (Terminal.enableMouseMode t on).plainMode = false ∧
      (Terminal.enableMouseMode t on).out = t.out ++ if on then mouseOn else mouseOff) := by
  unfold Terminal.enableMouseMode
  split
  · rename_i h
    left
    refine ⟨rfl, ?_⟩
    rcases h with h | h
    · exact .inr h
    · exact .inl h
  · rename_i h
    right
    simp only [not_or] at h
    obtain ⟨h1, h2⟩ := h
    have h2 : t.plainMode = false := by simpa using h2
    refine ⟨h2, ?_, rfl, h2, ?_⟩
    · cases hm : t.mouseModeEnabled <;> cases on <;> simp_all
    · cases on <;> rfl

/-- `onPollTimeout` setting the mouse mode. -/
theorem setMouse_inv {s s' : State} {on : Bool} (hi : Inv s) (h : setMouse s on = some s') :
    Writes (fun e => ∃ b, e = .conout .mouse b) s s' ∧ Inv s' ∧
    (on = false → s'.term.mouseModeEnabled = false) ∧
    (on = false → s.term.mouseModeEnabled = false → s' = s) := by
  unfold setMouse at h
  rcases enableMouse_cases s.term on hi.plainMouse with ⟨he, hor⟩ | ⟨h1, h2, h3, h4, h5⟩
  · rw [he] at h
    have : newBytes s.term s.term = [] := by simp [newBytes]
    rw [this] at h
    simp only [writeConout, if_true, Option.some.injEq] at h
    subst h
    refine ⟨Writes.refl s, hi, ?_, fun _ _ => rfl⟩
    intro ho
    rcases hor with hor | hor
    · exact hi.plainMouse hor
    · rw [hor, ho]
  · have hn : newBytes s.term (Terminal.enableMouseMode s.term on) = if on then mouseOn else mouseOff := by
      simp [newBytes, h5]
    rw [hn] at h
    obtain ⟨w1, w2⟩ := writes_conout (Terminal.enableMouseMode s.term on) (src := .mouse) (fun _ => h5)
      (fun hx => absurd (by simp [TermSource]) hx) (h4.trans h1.symm) h
    have w3 : Writes (fun e => ∃ b, e = .conout .mouse b) s s' := w1.mono (fun e he => ⟨_, he⟩)
    have hlog : s'.log = s.log ++ [.conout .mouse (if on then mouseOn else mouseOff)] := by
      unfold writeConout at h
      rw [if_neg (by cases on <;> simp [mouseOn, mouseOff])] at h
      split at h
      · cases h
      · simp only [Option.some.injEq] at h
        subst h; rfl
    refine ⟨w3, ?_, ?_, ?_⟩
    · refine inv_writes w3 hi ?_ ?_ ?_ ?_
      · rintro e ⟨b, rfl⟩; exact ⟨by simp, by simp, by simp, by simp, trivial⟩
      · rintro _ e ⟨b, rfl⟩; exact id
      · obtain ⟨n, hm⟩ := hi.mouse
        rw [hlog, mouseWrites_append, hm, w2, h3, h2]
        cases on with
        | true => exact ⟨n, by simp [mouseWrites]⟩
        | false => exact ⟨n + 1, by rw [← mousePairs_snoc]; simp [mouseWrites]⟩
      · intro hp; rw [w2, h4] at hp; cases hp
    · intro ho; rw [w2, h3, ho]
    · intro ho hm; rw [h2, ho] at hm; cases hm

/-! ## Actions that are not writes -/

theorem shutdown_inv {s : State} (hi : Inv s)
    (hwhy : s.control.pipe.opened = false ∨
      (s.closing = true ∧ s.exitAfterShutdown = true ∧ s.conout.pipe.opened = false ∧ conerrClosed s = true)) :
    Inv (shutdown s) := by
  have hb : ∀ {x}, x ≠ Entry.exit → x ∉ [Entry.exit] := by intro x hx; simp [hx]
  constructor
  · show NamedPipe.Inv false true s.conout (outBytes (s.log ++ [.exit])) [] 65536
    rw [outBytes_append]; simpa [outBytes] using hi.out
  · intro p t he
    show NamedPipe.Inv false true p (errBytes (s.log ++ [.exit])) [] 65536
    rw [errBytes_append]; simpa [errBytes] using hi.err p t he
  · obtain ⟨rs, m, hc⟩ := hi.ctl
    refine ⟨rs, m, ?_⟩
    show NamedPipe.Inv true true s.control (controlBytes (s.log ++ [.exit])) rs m
    rw [controlBytes_append]; simpa [controlBytes] using hc
  · exact hi.cin
  · show s.closing = true ↔ _ ∈ s.log ++ [.exit]
    rw [hi.closing]; simp
  · show true = true ↔ _ ∈ s.log ++ [.exit]
    simp
  · exact hi.child
  · show s.term.out = termBytes (s.log ++ [.exit])
    rw [termBytes_append, hi.termOut]; simp [termBytes]
  · intro pre post h
    obtain ⟨post', g1, _⟩ := split_grown h (hb (by simp))
    exact hi.closedOut pre post' g1
  · intro pre post h
    obtain ⟨post', g1, _⟩ := split_grown h (hb (by simp))
    exact hi.closedErr pre post' g1
  · intro pre post h e he
    have h : s.log ++ [.exit] = pre ++ .exit :: post := h
    rcases List.append_eq_append_iff.1 h with ⟨a, h1, h2⟩ | ⟨c, h1, h2⟩
    · cases a with
      | nil => simp at h2; rw [h2] at he; cases he
      | cons y ys => simp at h2
    · cases c with
      | nil => simp at h2; rw [h2] at he; cases he
      | cons y ys =>
        rw [List.cons_append] at h2
        cases h2
        rcases List.mem_append.1 he with he | he
        · exact hi.afterExit pre ys h1 e he
        · rw [List.mem_singleton] at he; subst he; exact id
  · intro e he
    rcases List.mem_append.1 he with he | he
    · exact hi.sizes e he
    · rw [List.mem_singleton] at he; subst he; trivial
  · obtain ⟨n, hm⟩ := hi.mouse
    refine ⟨n, ?_⟩
    show mouseWrites (s.log ++ [.exit]) = _
    rw [mouseWrites_append, hm]; simp only [mouseWrites, List.append_nil]; rfl
  · exact hi.plainMouse
  · intro _; exact hwhy

theorem checkChild_inv {s : State} {e : PollEnv} (hi : Inv s) : Inv (checkChild s e) := by
  unfold checkChild
  split
  · rename_i hcond
    have hchild : s.child = true := by
      simp only [Bool.and_eq_true] at hcond; exact hcond.1.2
    have hncl : s.closing = false := by
      cases hc : s.closing with
      | false => rfl
      | true => rw [hi.child hc] at hchild; cases hchild
    have hb : ∀ {x}, x ≠ Entry.childExited → x ∉ [Entry.childExited] := by intro x hx; simp [hx]
    constructor
    · show NamedPipe.Inv false true s.conout (outBytes (s.log ++ [.childExited])) [] 65536
      rw [outBytes_append]; simpa [outBytes] using hi.out
    · intro p t he
      show NamedPipe.Inv false true p (errBytes (s.log ++ [.childExited])) [] 65536
      rw [errBytes_append]; simpa [errBytes] using hi.err p t he
    · obtain ⟨rs, m, hc⟩ := hi.ctl
      refine ⟨rs, m, ?_⟩
      show NamedPipe.Inv true true s.control (controlBytes (s.log ++ [.childExited])) rs m
      rw [controlBytes_append]; simpa [controlBytes] using hc
    · exact hi.cin
    · simp
    · show s.exiting = true ↔ _ ∈ s.log ++ [.childExited]
      rw [hi.exiting]; simp
    · intro _; rfl
    · show s.term.out = termBytes (s.log ++ [.childExited])
      rw [termBytes_append, hi.termOut]; simp [termBytes]
    · intro pre post h
      obtain ⟨post', g1, _⟩ := split_grown h (hb (by simp))
      exact hi.closedOut pre post' g1
    · intro pre post h
      obtain ⟨post', g1, _⟩ := split_grown h (hb (by simp))
      exact hi.closedErr pre post' g1
    · intro pre post h e he
      obtain ⟨post', g1, g2⟩ := split_grown h (hb (by simp))
      rw [g2] at he
      rcases List.mem_append.1 he with he | he
      · exact hi.afterExit pre post' g1 e he
      · rw [List.mem_singleton] at he; subst he; exact id
    · intro e he
      rcases List.mem_append.1 he with he | he
      · exact hi.sizes e he
      · rw [List.mem_singleton] at he; subst he; trivial
    · obtain ⟨n, hm⟩ := hi.mouse
      refine ⟨n, ?_⟩
      show mouseWrites (s.log ++ [.childExited]) = _
      rw [mouseWrites_append, hm]; simp [mouseWrites]
    · exact hi.plainMouse
    · intro hx
      rcases hi.why hx with h | ⟨h, _⟩
      · exact .inl h
      · rw [hncl] at h; cases h
  · exact hi

/-- Closing a drained output pipe. -/
theorem closeDrained_inv {p : NamedPipe.State} {ws : List Nat}
    (hi : NamedPipe.Inv false true p ws [] 65536) (hc : p.pipe.isConnected = true)
    (hz : NamedPipe.bytesToSend p.pipe = some 0) :
    NamedPipe.Inv false true (NamedPipe.closePipe p 0) ws [] 65536 ∧
    (NamedPipe.closePipe p 0).pipe.opened = false ∧ (NamedPipe.closePipe p 0).os.wire = ws := by
  have ho : p.pipe.opened = true := by
    simp only [NamedPipe.Pipe.isConnected, NamedPipe.Pipe.isClosed, Bool.and_eq_true, Bool.not_not] at hc
    exact hc.1
  obtain ⟨h1, h2⟩ := NamedPipe.closePipe_inv 0 hi.wf hi.inp ho (.inl (hi.out ho))
  refine ⟨h1, h2, ?_⟩
  have hl := hi.nothing_left ho hz
  have hpre := h1.outClosed
  -- the wire can only have grown, and cannot exceed what was written
  have hg : (NamedPipe.closePipe p 0).os.given = p.os.given := by
    unfold NamedPipe.closePipe
    split
    · rfl
    · exact (NamedPipe.osTakes_os p 0).1
  have hw : (NamedPipe.closePipe p 0).os.wire = p.os.wire := by
    unfold NamedPipe.closePipe
    split
    · rfl
    · unfold NamedPipe.osTakes
      split
      · split
        · simp only [Nat.add_zero]
          rw [List.drop_eq_nil_of_le (by simp; omega), List.append_nil]
        · rfl
      · rfl
  rw [hw, hl]

theorem closeConoutIfDone_inv {s s' : State} (hi : Inv s) (hsc : Then .childExited .scraped s.log)
    (hmo : s.term.mouseModeEnabled = false)
    (h : closeConoutIfDone s = some s') :
    Inv s' ∧ (∃ es, s'.log = s.log ++ es ∧ ∀ e ∈ es, e = .closeConout) ∧
    ¬ (s'.conout.pipe.isConnected = true ∧ NamedPipe.bytesToSend s'.conout.pipe = some 0) ∧
    s'.err = s.err ∧ s'.control = s.control ∧ s'.term = s.term ∧ s'.closing = s.closing ∧
    s'.exiting = s.exiting ∧ s'.exitAfterShutdown = s.exitAfterShutdown ∧
    (s'.conout.pipe.opened = true → s'.conout = s.conout ∧ s' = s) := by
  unfold closeConoutIfDone at h
  split at h
  · rename_i hc
    split at h
    · cases h
    · rename_i n hn
      split at h
      · rename_i hz
        subst hz
        simp only [Option.some.injEq] at h
        subst h
        obtain ⟨k1, k2, k3⟩ := closeDrained_inv hi.out hc hn
        have hb : ∀ {x}, x ≠ Entry.closeConout → x ∉ [Entry.closeConout] := by intro x hx; simp [hx]
        refine ⟨?_, ⟨[.closeConout], rfl, by simp⟩, ?_, rfl, rfl, rfl, rfl, rfl, rfl, ?_⟩
        · constructor
          · show NamedPipe.Inv false true (NamedPipe.closePipe s.conout 0) (outBytes (s.log ++ [.closeConout])) [] 65536
            rw [outBytes_append]; simpa [outBytes] using k1
          · intro p t he
            show NamedPipe.Inv false true p (errBytes (s.log ++ [.closeConout])) [] 65536
            rw [errBytes_append]; simpa [errBytes] using hi.err p t he
          · obtain ⟨rs, m, hc⟩ := hi.ctl
            refine ⟨rs, m, ?_⟩
            show NamedPipe.Inv true true s.control (controlBytes (s.log ++ [.closeConout])) rs m
            rw [controlBytes_append]; simpa [controlBytes] using hc
          · exact hi.cin
          · show s.closing = true ↔ _ ∈ s.log ++ [.closeConout]
            rw [hi.closing]; simp
          · show s.exiting = true ↔ _ ∈ s.log ++ [.closeConout]
            rw [hi.exiting]; simp
          · exact hi.child
          · show s.term.out = termBytes (s.log ++ [.closeConout])
            rw [termBytes_append, hi.termOut]; simp [termBytes]
          · intro pre post h
            refine ⟨k2, ?_⟩
            have h : s.log ++ [.closeConout] = pre ++ .closeConout :: post := h
            have : pre = s.log := by
              rcases List.append_eq_append_iff.1 h with ⟨a, h1, h2⟩ | ⟨c, h1, h2⟩
              · cases a with
                | nil => simpa using h1
                | cons y ys => simp at h2
              · cases c with
                | nil => simpa using h1.symm
                | cons y ys =>
                  rw [List.cons_append] at h2
                  cases h2
                  have := (hi.closedOut pre ys h1).1
                  simp only [NamedPipe.Pipe.isConnected, NamedPipe.Pipe.isClosed, this] at hc
                  simp at hc
            rw [this]
            refine ⟨k3, hsc, ?_⟩
            obtain ⟨n, hn⟩ := hi.mouse
            exact ⟨n, by rw [hn, hmo]; simp⟩
          · intro pre post h
            obtain ⟨post', g1, _⟩ := split_grown h (hb (by simp))
            exact hi.closedErr pre post' g1
          · intro pre post h e he
            obtain ⟨post', g1, g2⟩ := split_grown h (hb (by simp))
            rw [g2] at he
            rcases List.mem_append.1 he with he | he
            · exact hi.afterExit pre post' g1 e he
            · rw [List.mem_singleton] at he; subst he; exact id
          · intro e he
            rcases List.mem_append.1 he with he | he
            · exact hi.sizes e he
            · rw [List.mem_singleton] at he; subst he; trivial
          · obtain ⟨n, hm⟩ := hi.mouse
            refine ⟨n, ?_⟩
            show mouseWrites (s.log ++ [.closeConout]) = _
            rw [mouseWrites_append, hm]; simp [mouseWrites]
          · exact hi.plainMouse
          · intro hx
            rcases hi.why hx with h | ⟨h, g1, g2, g3⟩
            · exact .inl h
            · exact .inr ⟨h, g1, k2, g3⟩
        · intro hh
          have := hh.1
          simp only [NamedPipe.Pipe.isConnected, NamedPipe.Pipe.isClosed, k2] at this
          simp at this
        · intro ho; rw [k2] at ho; cases ho
      · rename_i hz
        simp only [Option.some.injEq] at h
        subst h
        refine ⟨hi, ⟨[], by simp⟩, ?_, rfl, rfl, rfl, rfl, rfl, rfl, fun _ => ⟨rfl, rfl⟩⟩
        rintro ⟨_, h2⟩
        rw [hn, Option.some.injEq] at h2
        exact hz h2
  · rename_i hc
    simp only [Option.some.injEq] at h
    subst h
    exact ⟨hi, ⟨[], by simp⟩, fun hh => hc hh.1, rfl, rfl, rfl, rfl, rfl, rfl, fun _ => ⟨rfl, rfl⟩⟩

theorem closeConerrIfDone_inv {s s' : State} (hi : Inv s) (hsc : Then .childExited .scraped s.log)
    (h : closeConerrIfDone s = some s') :
    Inv s' ∧ (∃ es, s'.log = s.log ++ es ∧ ∀ e ∈ es, e = .closeConerr) ∧
    (∀ p t, s'.err = some (p, t) →
      ¬ (p.pipe.isConnected = true ∧ NamedPipe.bytesToSend p.pipe = some 0)) ∧
    s'.conout = s.conout ∧ s'.control = s.control ∧ s'.term = s.term ∧ s'.closing = s.closing ∧
    s'.exiting = s.exiting ∧ s'.exitAfterShutdown = s.exitAfterShutdown := by
  unfold closeConerrIfDone at h
  split at h
  · rename_i he
    simp only [Option.some.injEq] at h
    subst h
    exact ⟨hi, ⟨[], by simp⟩, (fun p t hp => by rw [he] at hp; cases hp), rfl, rfl, rfl, rfl, rfl, rfl⟩
  · rename_i q t0 he
    split at h
    · rename_i hc
      split at h
      · cases h
      · rename_i n hn
        split at h
        · rename_i hz
          subst hz
          simp only [Option.some.injEq] at h
          subst h
          obtain ⟨k1, k2, k3⟩ := closeDrained_inv (hi.err q t0 he) hc hn
          have hb : ∀ {x}, x ≠ Entry.closeConerr → x ∉ [Entry.closeConerr] := by intro x hx; simp [hx]
          refine ⟨?_, ⟨[.closeConerr], rfl, by simp⟩, ?_, rfl, rfl, rfl, rfl, rfl, rfl⟩
          · constructor
            · show NamedPipe.Inv false true s.conout (outBytes (s.log ++ [.closeConerr])) [] 65536
              rw [outBytes_append]; simpa [outBytes] using hi.out
            · intro p t hp
              simp only [Option.some.injEq, Prod.mk.injEq] at hp
              obtain ⟨rfl, rfl⟩ := hp
              show NamedPipe.Inv false true _ (errBytes (s.log ++ [.closeConerr])) [] 65536
              rw [errBytes_append]; simpa [errBytes] using k1
            · obtain ⟨rs, m, hc⟩ := hi.ctl
              refine ⟨rs, m, ?_⟩
              show NamedPipe.Inv true true s.control (controlBytes (s.log ++ [.closeConerr])) rs m
              rw [controlBytes_append]; simpa [controlBytes] using hc
            · exact hi.cin
            · show s.closing = true ↔ _ ∈ s.log ++ [.closeConerr]
              rw [hi.closing]; simp
            · show s.exiting = true ↔ _ ∈ s.log ++ [.closeConerr]
              rw [hi.exiting]; simp
            · exact hi.child
            · show s.term.out = termBytes (s.log ++ [.closeConerr])
              rw [termBytes_append, hi.termOut]; simp [termBytes]
            · intro pre post h
              obtain ⟨post', g1, _⟩ := split_grown h (hb (by simp))
              exact hi.closedOut pre post' g1
            · intro pre post h
              have h : s.log ++ [.closeConerr] = pre ++ .closeConerr :: post := h
              have : pre = s.log := by
                rcases List.append_eq_append_iff.1 h with ⟨a, h1, h2⟩ | ⟨c, h1, h2⟩
                · cases a with
                  | nil => simpa using h1
                  | cons y ys => simp at h2
                · cases c with
                  | nil => simpa using h1.symm
                  | cons y ys =>
                    rw [List.cons_append] at h2
                    cases h2
                    obtain ⟨⟨p, t, g1, g2, _⟩, _⟩ := hi.closedErr pre ys h1
                    rw [he] at g1
                    cases g1
                    simp only [NamedPipe.Pipe.isConnected, NamedPipe.Pipe.isClosed, g2] at hc
                    simp at hc
              rw [this]
              exact ⟨⟨_, _, rfl, k2, k3⟩, hsc⟩
            · intro pre post h e he
              obtain ⟨post', g1, g2⟩ := split_grown h (hb (by simp))
              rw [g2] at he
              rcases List.mem_append.1 he with he | he
              · exact hi.afterExit pre post' g1 e he
              · rw [List.mem_singleton] at he; subst he; exact id
            · intro e he
              rcases List.mem_append.1 he with he | he
              · exact hi.sizes e he
              · rw [List.mem_singleton] at he; subst he; trivial
            · obtain ⟨n, hm⟩ := hi.mouse
              refine ⟨n, ?_⟩
              show mouseWrites (s.log ++ [.closeConerr]) = _
              rw [mouseWrites_append, hm]; simp [mouseWrites]
            · exact hi.plainMouse
            · intro hx
              rcases hi.why hx with h | ⟨h, g1, g2, g3⟩
              · exact .inl h
              · exact .inr ⟨h, g1, g2, by simp [conerrClosed, NamedPipe.Pipe.isClosed, k2]⟩
          · intro p t hp hh
            simp only [Option.some.injEq, Prod.mk.injEq] at hp
            obtain ⟨rfl, rfl⟩ := hp
            have := hh.1
            simp only [NamedPipe.Pipe.isConnected, NamedPipe.Pipe.isClosed, k2] at this
            simp at this
        · rename_i hz
          simp only [Option.some.injEq] at h
          subst h
          refine ⟨hi, ⟨[], by simp⟩, ?_, rfl, rfl, rfl, rfl, rfl, rfl⟩
          intro p t hp ⟨_, h2⟩
          rw [he] at hp
          cases hp
          rw [hn, Option.some.injEq] at h2
          exact hz h2
    · rename_i hc
      simp only [Option.some.injEq] at h
      subst h
      refine ⟨hi, ⟨[], by simp⟩, ?_, rfl, rfl, rfl, rfl, rfl, rfl⟩
      intro p t hp hh
      rw [he] at hp
      cases hp
      exact hc hh.1

end Winpty.Agent
