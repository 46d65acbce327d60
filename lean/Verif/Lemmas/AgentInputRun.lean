import Verif.Lemmas.AgentInput

/-! # Invariants of the agent with its `ConsoleInput` -/
namespace Winpty.AgentInput
open Winpty.ConsoleInput (Out Rect Obj Op St exec execAll written sent exec_out poll_due write_heard)
open Winpty.Spec Winpty.Spec.Typing Winpty.Props
open Winpty.InputMap (Node Key setAll newNode defaultRegs)

/-! ## What the steps of the agent leave alone -/

/-- Not a status query. -/
def NoQuery (e : Agent.Entry) : Prop := ∀ b, e ≠ .conout .dsr b

/-- Not a status query and not a resize. -/
def Aside (e : Agent.Entry) : Prop := NoQuery e ∧ ∀ c r, e ≠ .resized c r

/-- The log has grown; the pipe was not reopened; the terminal and the closing state are the same. -/
structure Grown (P : Agent.Entry → Prop) (a a' : Agent.State) : Prop where
  log : ∃ es, a'.log = a.log ++ es ∧ ∀ e ∈ es, P e
  opened : a'.conout.pipe.opened = true → a.conout.pipe.opened = true
  plain : a'.term.plainMode = a.term.plainMode
  mouse : a'.term.mouseModeEnabled = a.term.mouseModeEnabled
  closing : a'.closing = a.closing

theorem Grown.trans {P : Agent.Entry → Prop} {a b c : Agent.State} (h : Grown P a b) (g : Grown P b c) :
    Grown P a c := by
  obtain ⟨es, h1, h2⟩ := h.log
  obtain ⟨fs, g1, g2⟩ := g.log
  refine ⟨⟨es ++ fs, by rw [g1, h1, List.append_assoc], ?_⟩, fun ho => h.opened (g.opened ho),
    g.plain.trans h.plain, g.mouse.trans h.mouse, g.closing.trans h.closing⟩
  intro e he
  rcases List.mem_append.1 he with he | he
  · exact h2 e he
  · exact g2 e he

theorem grown_writes {P Q : Agent.Entry → Prop} {a a' : Agent.State} (h : Agent.Writes P a a')
    (hm : a'.term.mouseModeEnabled = a.term.mouseModeEnabled) (hpq : ∀ e, P e → Q e) : Grown Q a a' := by
  obtain ⟨es, h1, h2, h3, _⟩ := h.ex
  exact ⟨⟨es, h1, fun e he => hpq e (h2 e he)⟩, fun ho => by rw [h3] at ho; exact ho, h.plain, hm, h.closing⟩

theorem aside_output {src : Agent.Source} (h : src ≠ .dsr) : ∀ e, Spec.Agent.IsOutput src e → Aside e := by
  rintro e (⟨b, rfl⟩ | ⟨b, rfl⟩)
  · refine ⟨?_, by simp⟩
    intro b' hb
    cases hb
    exact h rfl
  · refine ⟨?_, by simp⟩
    intro b' hb
    cases hb

theorem aside_exit {e : Agent.Entry} (h : e = .closeConout ∨ e = .closeConerr ∨ e = .exit ∨ e = .scraped ∨
    e = .childExited) : Aside e := by
  rcases h with rfl | rfl | rfl | rfl | rfl <;> simp [Aside, NoQuery]

theorem grown_log {P : Agent.Entry → Prop} (a a' : Agent.State) (es : List Agent.Entry)
    (h1 : a'.log = a.log ++ es) (h2 : ∀ e ∈ es, P e)
    (h3 : a'.conout.pipe.opened = true → a.conout.pipe.opened = true) (h4 : a'.term = a.term)
    (h5 : a'.closing = a.closing) : Grown P a a' := ⟨⟨es, h1, h2⟩, h3, by rw [h4], by rw [h4], h5⟩

theorem grown_autoClose {a a' : Agent.State} (h : Agent.autoClosePipesForShutdown a = some a') :
    Grown Aside a a' := by
  unfold Agent.autoClosePipesForShutdown at h
  split at h
  · simp only [Option.bind_eq_some_iff, Option.some.injEq] at h
    obtain ⟨s1, h1, s2, h2, rfl⟩ := h
    refine Grown.trans (b := s1) ?_ (Grown.trans (b := s2) ?_ ?_)
    · unfold Agent.closeConoutIfDone at h1
      split at h1
      · rename_i hc
        simp only [NamedPipe.Pipe.isConnected, NamedPipe.Pipe.isClosed, Bool.and_eq_true, Bool.not_eq_true',
          Bool.not_eq_false'] at hc
        split at h1
        · cases h1
        · split at h1
          · cases h1
            exact grown_log _ _ [.closeConout] rfl (by simp [Aside, NoQuery]) (fun _ => hc.1) rfl rfl
          · cases h1; exact grown_log _ _ [] (by simp) (by simp) id rfl rfl
      · cases h1; exact grown_log _ _ [] (by simp) (by simp) id rfl rfl
    · unfold Agent.closeConerrIfDone at h2
      split at h2
      · cases h2; exact grown_log _ _ [] (by simp) (by simp) id rfl rfl
      · split at h2
        · split at h2
          · cases h2
          · split at h2
            · cases h2
              exact grown_log _ _ [.closeConerr] rfl (by simp [Aside, NoQuery]) id rfl rfl
            · cases h2; exact grown_log _ _ [] (by simp) (by simp) id rfl rfl
        · cases h2; exact grown_log _ _ [] (by simp) (by simp) id rfl rfl
    · unfold Agent.exitIfDone
      split
      · exact grown_log _ _ [.exit] rfl (by simp [Aside, NoQuery]) id rfl rfl
      · exact grown_log _ _ [] (by simp) (by simp) id rfl rfl
  · cases h; exact grown_log _ _ [] (by simp) (by simp) id rfl rfl

theorem grown_control {cfg : Agent.Cfg} {a a' : Agent.State} {t : Agent.Tick}
    (h : Agent.tickControl cfg a t = some a') : Grown NoQuery a a' := by
  unfold Agent.tickControl at h
  split at h
  · cases h
  · rename_i p did hp
    have h0 : Grown NoQuery a { a with control := p } := ⟨⟨[], by simp, by simp⟩, id, rfl, rfl, rfl⟩
    split at h
    · unfold Agent.pollControlPipe at h
      split at h
      · cases h
        exact ⟨⟨[.exit], rfl, by simp [NoQuery]⟩, id, rfl, rfl, rfl⟩
      · split at h
        · cases h
        · rename_i a1 ha
          cases h
          obtain ⟨w1, w2, _⟩ := Agent.pollLoop_writes _ _ _ _ ha
          refine h0.trans ((grown_writes w1 w2 ?_).trans ⟨⟨[], by simp, by simp⟩, id, rfl, rfl, rfl⟩)
          rintro e (⟨he, _⟩ | he)
          · intro b hb; subst hb; exact he
          · exact (aside_output (by simp) e he).1
    · cases h; exact h0

theorem grown_conout {a a' : Agent.State} {t : Agent.Tick} (hr : Agent.Rest a)
    (h : Agent.tickConout a t = some a') : Grown Aside a a' := by
  unfold Agent.tickConout at h
  split at h
  · cases h
  · rename_i p did hp
    obtain ⟨f1, _, _, f4, _⟩ := Agent.servicePipe_facts hr.pre.inv.out hp
    have h0 : Grown Aside a { a with conout := p } := by
      refine ⟨⟨[], by simp, by simp⟩, ?_, rfl, rfl, rfl⟩
      intro ho
      have ho : p.pipe.opened = true := ho
      cases hc : a.conout.pipe.opened with
      | true => rfl
      | false => rw [(f4 hc).1, hc] at ho; exact ho
    split at h
    · exact h0.trans (grown_autoClose h)
    · cases h; exact h0

theorem grown_conerr {a a' : Agent.State} {t : Agent.Tick} (h : Agent.tickConerr a t = some a') : Grown Aside a a' := by
  unfold Agent.tickConerr at h
  split at h
  · cases h; exact ⟨⟨[], by simp, by simp⟩, id, rfl, rfl, rfl⟩
  · rename_i q tm he
    split at h
    · cases h
    · rename_i p did hp
      have h0 : Grown Aside a { a with err := some (p, tm) } := ⟨⟨[], by simp, by simp⟩, id, rfl, rfl, rfl⟩
      split at h
      · exact h0.trans (grown_autoClose h)
      · cases h; exact h0

theorem grown_poll {cfg : Agent.Cfg} {a a' : Agent.State} {e : Agent.PollEnv} (hi : Agent.Inv a)
    (h : Agent.onPollTimeout cfg a e = some a') :
    (∃ es, a'.log = a.log ++ es ∧ ∀ x ∈ es, Aside x) ∧
    (a'.conout.pipe.opened = true → a.conout.pipe.opened = true) ∧ a'.term.plainMode = a.term.plainMode ∧
    a'.term.mouseModeEnabled = (e.wantMouse && !a'.closing && !a.term.plainMode) := by
  unfold Agent.onPollTimeout at h
  simp only [Option.bind_eq_some_iff] at h
  obtain ⟨s3, h3, s4, h4, h5⟩ := h
  have c0 : (∃ es, (Agent.checkChild a e).log = a.log ++ es ∧ ∀ x ∈ es, Aside x) ∧
      (Agent.checkChild a e).conout = a.conout ∧ (Agent.checkChild a e).term = a.term := by
    unfold Agent.checkChild
    split
    · exact ⟨⟨[.childExited], rfl, by simp [Aside, NoQuery]⟩, rfl, rfl⟩
    · exact ⟨⟨[], by simp, by simp⟩, rfl, rfl⟩
  have c3 : Grown Aside (Agent.checkChild a e) s3 := by
    split at h3
    · simp only [Option.bind_eq_some_iff] at h3
      obtain ⟨s2, h2, h3⟩ := h3
      obtain ⟨w1, w2⟩ := Agent.writes_title h2
      obtain ⟨x1, x2⟩ := Agent.writes_scrape h3
      refine (grown_writes w1 (by rw [w2]) (aside_output (by simp))).trans (Grown.trans
        (b := { s2 with log := s2.log ++ [.scraped] }) ?_ (grown_writes x1 x2 (aside_output (by simp))))
      exact grown_log _ _ [.scraped] rfl (by simp [Aside, NoQuery]) id rfl rfl
    · cases h3; exact grown_log _ _ [] (by simp) (by simp) id rfl rfl
  have hpm : s3.term.plainMode = true → s3.term.mouseModeEnabled = false := by
    intro hp
    rw [c3.mouse, c0.2.2]
    exact hi.plainMouse (by rw [← c0.2.2, ← c3.plain]; exact hp)
  have c4 : (∃ es, s4.log = s3.log ++ es ∧ ∀ x ∈ es, Aside x) ∧
      s4.conout.pipe.opened = s3.conout.pipe.opened ∧ s4.closing = s3.closing ∧
      s4.term = Terminal.enableMouseMode s3.term (e.wantMouse && !s3.closing) := by
    unfold Agent.setMouse Agent.writeConout at h4
    split at h4
    · cases h4; exact ⟨⟨[], by simp, by simp⟩, rfl, rfl, rfl⟩
    · split at h4
      · cases h4
      · rename_i p r hst
        cases h4
        simp only [NamedPipe.step] at hst
        split at hst
        · cases hst
          exact ⟨⟨_, rfl, by simp [Aside, NoQuery]⟩, rfl, rfl, rfl⟩
        · cases hst
  have c5 := grown_autoClose h5
  obtain ⟨⟨e0, p0, q0⟩, r0, t0⟩ := c0
  obtain ⟨e3, p3, q3⟩ := c3.log
  obtain ⟨⟨e4, p4, q4⟩, r4, k4, t4⟩ := c4
  obtain ⟨e5, p5, q5⟩ := c5.log
  have hpl : s3.term.plainMode = a.term.plainMode := by rw [c3.plain, t0]
  refine ⟨⟨e0 ++ e3 ++ e4 ++ e5, by rw [p5, p4, p3, p0]; simp, ?_⟩, ?_, ?_, ?_⟩
  · intro x hx
    simp only [List.mem_append] at hx
    rcases hx with ((hx | hx) | hx) | hx
    · exact q0 x hx
    · exact q3 x hx
    · exact q4 x hx
    · exact q5 x hx
  · intro ho
    have := c5.opened ho
    rw [r4] at this
    have := c3.opened this
    rw [r0] at this
    exact this
  · rw [c5.plain, t4, ← hpl]
    rcases Agent.enableMouse_cases s3.term (e.wantMouse && !s3.closing) hpm with ⟨g, _⟩ | ⟨g1, _, _, g2, _⟩
    · rw [g]
    · rw [g2, g1]
  · rw [c5.mouse, c5.closing, k4, t4, ← hpl]
    rcases Agent.enableMouse_cases s3.term (e.wantMouse && !s3.closing) hpm with ⟨g, g'⟩ | ⟨g1, _, g2, _⟩
    · rw [g]
      rcases g' with g' | g'
      · rw [hpm g', g']; simp
      · cases hp : s3.term.plainMode with
        | true => rw [hpm hp]; simp
        | false => rw [g']; simp
    · rw [g2, g1]; simp

/-! ## Counting -/

theorem queriesSent_append (a b : List Agent.Entry) : queriesSent (a ++ b) = queriesSent a + queriesSent b := by
  induction a with
  | nil => simp [queriesSent]
  | cons e a ih =>
    cases e with
    | conout src x => cases src <;> simp [queriesSent, ih] <;> omega
    | _ => simp [queriesSent, ih]

theorem queriesSent_none {es : List Agent.Entry} (h : ∀ e ∈ es, NoQuery e) : queriesSent es = 0 := by
  induction es with
  | nil => rfl
  | cons e es ih =>
    have ih := ih fun x hx => h x (List.mem_cons_of_mem _ hx)
    have he := h e (List.mem_cons_self ..)
    cases e with
    | conout src x =>
      cases src with
      | dsr => exact absurd rfl (he x)
      | _ => simpa [queriesSent] using ih
    | _ => simpa [queriesSent] using ih

theorem resizesMade_append (a b : List Agent.Entry) : resizesMade (a ++ b) = resizesMade a + resizesMade b := by
  induction a with
  | nil => simp [resizesMade]
  | cons e a ih => cases e <;> simp [resizesMade, ih] <;> omega

theorem resizesMade_none {es : List Agent.Entry} (h : ∀ e ∈ es, ∀ c r, e ≠ .resized c r) : resizesMade es = 0 := by
  induction es with
  | nil => rfl
  | cons e es ih =>
    have ih := ih fun x hx => h x (List.mem_cons_of_mem _ hx)
    have he := h e (List.mem_cons_self ..)
    cases e with
    | resized c r => exact absurd rfl (he c r)
    | _ => simpa [resizesMade] using ih

theorem resizes_eq (es : List Agent.Entry) : resizes es = resizesMade es := by
  induction es with
  | nil => rfl
  | cons e es ih => cases e <;> simp [resizes, resizesMade, ih]

theorem sendDsrs_log {cfg : Agent.Cfg} : ∀ (n : Nat) {a a' : Agent.State}, Agent.sendDsrs cfg a n = some a' →
    ∃ es, a'.log = a.log ++ es ∧ (∀ e ∈ es, ∀ c r, e ≠ .resized c r) ∧ queriesSent es ≤ n ∧
      (cfg.plainMode = false → a'.conout.pipe.opened = true → queriesSent es = n) ∧
      a'.conout.pipe.opened = a.conout.pipe.opened := by
  intro n
  induction n with
  | zero => intro a a' h; cases h; exact ⟨[], by simp, by simp, Nat.le_refl _, fun _ _ => rfl, rfl⟩
  | succ n ih =>
    intro a a' h
    simp only [Agent.sendDsrs] at h
    split at h
    · rename_i hc
      rw [Option.bind_eq_some_iff] at h
      obtain ⟨s1, h1, h2⟩ := h
      unfold Agent.writeConout at h1
      rw [if_neg (by simp)] at h1
      split at h1
      · cases h1
      · rename_i p r hst
        cases h1
        simp only [NamedPipe.step] at hst
        split at hst
        · cases hst
          obtain ⟨es, g1, g2, g3, g4, g5⟩ := ih h2
          refine ⟨.conout .dsr [0x1b, 0x5b, 0x36, 0x6e] :: es, by rw [g1]; simp, ?_, ?_, ?_, g5⟩
          · intro e he
            rcases List.mem_cons.1 he with rfl | he
            · simp
            · exact g2 e he
          · simp only [queriesSent]; omega
          · intro k1 k2
            simp only [queriesSent, g4 k1 k2]
        · cases hst
    · rename_i hc
      obtain ⟨es, g1, g2, g3, g4, g5⟩ := ih h
      refine ⟨es, g1, g2, by omega, ?_, g5⟩
      intro k1 k2
      rw [g5] at k2
      simp [k1, k2, NamedPipe.Pipe.isClosed] at hc

/-! ## The invariant -/

/-- What holds of the record and the agent's log at any time. -/
structure Core (cfg : Cfg) (s : State) : Prop where
  replays : Replays cfg { mouseMode := cfg.mouseMode } s.hist s.input
  plain : s.agent.term.plainMode = cfg.agent.plainMode
  mode : s.input.mouseMode = cfg.mouseMode
  sizes : (sizesSent s.hist).length + 1 = resizesMade s.agent.log
  sent : setAll newNode defaultRegs = some cfg.root → (∀ b ∈ bytesRead s.hist, b < 256) →
    queriesSent s.agent.log ≤ queries s.input.st.out ∧
    (cfg.agent.plainMode = false → s.agent.conout.pipe.opened = true →
      queriesSent s.agent.log = queries s.input.st.out)
  mouse : s.agent.term.mouseModeEnabled =
    (polled s.hist && terminalMouse cfg.mouseMode (lastMode s.hist) && !s.agent.closing && !cfg.agent.plainMode)

/-- What holds between the turns of the event loop. -/
structure Good (cfg : Cfg) (s : State) : Prop where
  core : Core cfg s
  rest : Agent.Rest s.agent
  cin : NamedPipe.Inv true false s.agent.conin [] (bytesRead s.hist) 65536
  empty : EventLoop.Drained s.agent

theorem mem_delivered {o o' : Obj} {e : Entry} (h : e ∈ delivered o o') : ∃ x, e = .event x := by
  unfold delivered at h
  obtain ⟨x, _, rfl⟩ := List.mem_map.1 h
  exact ⟨x, rfl⟩

theorem events_frame (l : List Entry) (h : ∀ e ∈ l, ∃ x, e = .event x) :
    bytesRead l = [] ∧ sizesSent l = [] ∧ (∀ hist, polled (hist ++ l) = polled hist) ∧
    (∀ hist, lastMode (hist ++ l) = lastMode hist) := by
  have : ∃ xs : List Out, l = xs.map .event := by
    induction l with
    | nil => exact ⟨[], rfl⟩
    | cons e l ih =>
      obtain ⟨x, rfl⟩ := h e (by simp)
      obtain ⟨xs, rfl⟩ := ih fun y hy => h y (by simp [hy])
      exact ⟨x :: xs, rfl⟩
  obtain ⟨xs, rfl⟩ := this
  refine ⟨bytesRead_events xs, sizesSent_events xs, ?_, fun hist => lastMode_events hist xs⟩
  intro hist
  unfold polled
  rw [List.any_append]
  simp

theorem exec_mode {cfg : Cfg} {o o' : Obj} {op : Op} (h : exec cfg.sys cfg.root cfg.env o op = some o') :
    o'.mouseMode = o.mouseMode := by
  cases op with
  | mode m => cases h; rfl
  | window r => cases h; rfl
  | write now bytes =>
    simp only [exec] at h
    by_cases hne : bytes = []
    · subst hne; cases h; rfl
    · obtain ⟨_, _, o1, e1, _, _, _, _, e2, _⟩ := ConsoleInput.writeInput_spec cfg.sys cfg.root cfg.env now o bytes hne
      rw [h] at e1; cases e1; exact e2
  | poll now =>
    simp only [exec, ConsoleInput.flushIncompleteEscapeCode] at h
    split at h
    · obtain ⟨s', c, q', e1, _⟩ := ConsoleInput.doWrite_total cfg.sys cfg.root cfg.env true o.pos o.st o.queue
      rw [e1] at h; cases h; rfl
    · cases h; rfl

theorem count_drop {o o' : Obj} (h : ∃ new, o'.st.out = o.st.out ++ new) :
    queries o'.st.out = queries o.st.out + newQueries o o' := by
  obtain ⟨new, h⟩ := h
  unfold newQueries queries
  rw [h, List.drop_left, List.count_append]

/-- Reading keeps the books. -/
theorem core_write {cfg : Cfg} {s s' : State} {now : Nat} {bytes : List Nat} (hc : Core cfg s)
    (h : write cfg s now bytes = some s') : Core cfg s' ∧ bytesRead s'.hist = bytesRead s.hist ++ bytes ∧
      s'.agent.conin = s.agent.conin := by
  obtain ⟨h1, h2, h3⟩ := write_agent h
  obtain ⟨f1, f2, f3, f4⟩ := events_frame (delivered s.input s'.input) (fun e he => mem_delivered he)
  obtain ⟨es, g1, g2, g3, g4, g5⟩ := sendDsrs_log _ h1
  obtain ⟨w1, w2⟩ := Agent.writes_dsrs _ h1
  have hs : s'.hist = (s.hist ++ [.read now bytes]) ++ delivered s.input s'.input := by rw [h3]; simp
  have hbr : bytesRead s'.hist = bytesRead s.hist ++ bytes := by
    rw [hs, bytesRead_append, f1, bytesRead_append]; simp [bytesRead]
  have hlm : lastMode s'.hist = lastMode s.hist := by rw [hs, f4]; simp [lastMode]
  have hpo : polled s'.hist = polled s.hist := by rw [hs, f3]; simp [polled]
  have hrep : Replays cfg { mouseMode := cfg.mouseMode } s'.hist s'.input := by
    rw [h3]; exact .op _ _ (.write now bytes) _ hc.replays h2
  refine ⟨⟨hrep, by rw [w2]; exact hc.plain, (exec_mode h2).trans hc.mode, ?_, ?_, ?_⟩, hbr, w1.conin⟩
  · rw [hs, sizesSent_append, f2, sizesSent_append, g1, resizesMade_append, resizesMade_none g2, ← hc.sizes]
    simp [sizesSent]
  · intro hr hb
    have hb0 : ∀ b ∈ bytesRead s.hist, b < 256 := fun b hm => hb b (by rw [hbr]; exact List.mem_append_left _ hm)
    have hb1 : ∀ b ∈ bytes, b < 256 := fun b hm => hb b (by rw [hbr]; exact List.mem_append_right _ hm)
    obtain ⟨i1, i2⟩ := hc.sent hr hb0
    have hk := known_of_replays hr hc.replays hb0
    have := count_drop (exec_out (ConsoleInput.default_holds hr) h2 hk.bytes (by simpa [written] using hb1) hk.flushed).1
    rw [g1, queriesSent_append, this]
    refine ⟨Nat.add_le_add i1 g3, fun k1 k2 => ?_⟩
    rw [g4 k1 k2, i2 k1 (by rw [← g5]; exact k2)]
  · rw [w2, hlm, hpo, w1.closing]; exact hc.mouse

theorem core_writeEach {cfg : Cfg} (now : Nat → Nat) : ∀ (bs : List Nat) (k : Nat) {s s' : State}, Core cfg s →
    writeEach cfg s now k bs = some s' → Core cfg s' ∧ bytesRead s'.hist = bytesRead s.hist ++ bs ∧
      s'.agent.conin = s.agent.conin := by
  intro bs
  induction bs with
  | nil => intro k s s' hc h; cases h; exact ⟨hc, by simp, rfl⟩
  | cons b bs ih =>
    intro k s s' hc h
    simp only [writeEach] at h
    split at h
    · cases h
    · rename_i s1 h1
      obtain ⟨c1, c2, c3⟩ := core_write hc h1
      obtain ⟨d1, d2, d3⟩ := ih _ c1 h
      exact ⟨d1, by rw [d2, c2]; simp, d3.trans c3⟩

/-- The agent takes a step that concerns neither queries nor sizes nor the mouse. -/
theorem core_aside {cfg : Cfg} {s : State} {a : Agent.State} (hc : Core cfg s) (h : Grown Aside s.agent a) :
    Core cfg { s with agent := a } := by
  obtain ⟨es, h1, h2⟩ := h.log
  have q0 : queriesSent a.log = queriesSent s.agent.log := by
    rw [h1, queriesSent_append, queriesSent_none fun e he => (h2 e he).1]; rfl
  refine ⟨hc.replays, h.plain.trans hc.plain, hc.mode, ?_, ?_, ?_⟩
  · show _ = resizesMade a.log
    rw [h1, resizesMade_append, resizesMade_none fun e he => (h2 e he).2]
    exact hc.sizes
  · intro hr hb
    obtain ⟨i1, i2⟩ := hc.sent hr hb
    show queriesSent a.log ≤ _ ∧ (_ → _ → queriesSent a.log = _)
    rw [q0]
    exact ⟨i1, fun k1 k2 => i2 k1 (h.opened k2)⟩
  · show a.term.mouseModeEnabled = (_ && !a.closing && _)
    rw [h.mouse, h.closing]; exact hc.mouse

theorem core_window {cfg : Cfg} {s : State} (hc : Core cfg s) (r : Rect) : Core cfg (setMouseWindowRect s r) := by
  have hrep := Replays.op _ _ (.window r) _ hc.replays rfl
  have hnil : delivered s.input { s.input with st := { s.input.st with rect := r } } = [] := by simp [delivered]
  rw [hnil] at hrep
  refine ⟨hrep, hc.plain, hc.mode, ?_, ?_, ?_⟩
  · show (sizesSent (s.hist ++ [.window r])).length + 1 = _
    rw [sizesSent_append]; simp only [sizesSent, List.append_nil]; exact hc.sizes
  · intro hr hb
    refine hc.sent hr fun b hm => hb b ?_
    show b ∈ bytesRead (s.hist ++ [.window r])
    rw [bytesRead_append]; exact List.mem_append_left _ hm
  · show _ = (polled (s.hist ++ [.window r]) && terminalMouse _ (lastMode (s.hist ++ [.window r])) && _ && _)
    have e1 : polled (s.hist ++ [.window r]) = polled s.hist := by simp [polled]
    have e2 : lastMode (s.hist ++ [.window r]) = lastMode s.hist := by simp [lastMode]
    rw [e1, e2]; exact hc.mouse

theorem sizeEvents_frame (f : Nat → Int × Int) (n : Nat) :
    (sizesSent (sizeEvents f n)).length = n ∧ bytesRead (sizeEvents f n) = [] ∧
    (∀ hist, polled (hist ++ sizeEvents f n) = polled hist) ∧
    (∀ hist, lastMode (hist ++ sizeEvents f n) = lastMode hist) ∧
    (∀ cfg o0 hist o, Replays cfg o0 hist o → Replays cfg o0 (hist ++ sizeEvents f n) o) := by
  unfold sizeEvents
  induction n with
  | zero => exact ⟨rfl, rfl, by simp, by simp, by simp⟩
  | succ n ih =>
    rw [List.range_succ, List.map_append]
    obtain ⟨h1, h2, h3, h4, h5⟩ := ih
    refine ⟨?_, ?_, ?_, ?_, ?_⟩
    · rw [sizesSent_append, List.length_append, h1]; rfl
    · rw [bytesRead_append, h2]; rfl
    · intro hist
      rw [← List.append_assoc]
      have : polled (hist ++ (List.range n).map (fun i => Entry.size (f i).1 (f i).2) ++
          [n].map fun i => Entry.size (f i).1 (f i).2) =
          polled (hist ++ (List.range n).map fun i => Entry.size (f i).1 (f i).2) := by
        unfold polled; rw [List.any_append]; simp
      rw [this, h3]
    · intro hist
      rw [← List.append_assoc]
      have : lastMode (hist ++ (List.range n).map (fun i => Entry.size (f i).1 (f i).2) ++
          [n].map fun i => Entry.size (f i).1 (f i).2) =
          lastMode (hist ++ (List.range n).map fun i => Entry.size (f i).1 (f i).2) := by
        unfold lastMode; rw [List.filterMap_append]; simp
      rw [this, h4]
    · intro cfg o0 hist o h
      rw [← List.append_assoc]
      exact .size _ _ _ _ (h5 cfg o0 hist o h)

theorem noteResizes_frame {cfg : Cfg} (s : State) (t : Turn) (n : Nat)
    (hr : Replays cfg { mouseMode := cfg.mouseMode } s.hist s.input) :
    Replays cfg { mouseMode := cfg.mouseMode } (noteResizes s t n).hist (noteResizes s t n).input ∧
    (sizesSent (noteResizes s t n).hist).length = (sizesSent s.hist).length + n ∧
    bytesRead (noteResizes s t n).hist = bytesRead s.hist ∧
    polled (noteResizes s t n).hist = polled s.hist ∧ lastMode (noteResizes s t n).hist = lastMode s.hist ∧
    (noteResizes s t n).input.st.out = s.input.st.out ∧ (noteResizes s t n).input.mouseMode = s.input.mouseMode := by
  unfold noteResizes
  split
  · rename_i h0; subst h0; exact ⟨hr, rfl, rfl, rfl, rfl, rfl, rfl⟩
  · obtain ⟨h1, h2, h3, h4, h5⟩ := sizeEvents_frame t.sizes n
    have hrep := Replays.op _ _ (.window t.window) _ hr rfl
    have hnil : delivered s.input { s.input with st := { s.input.st with rect := t.window } } = [] := by
      simp [delivered]
    rw [hnil] at hrep
    refine ⟨h5 _ _ _ _ hrep, ?_, ?_, ?_, ?_, rfl, rfl⟩
    · show (sizesSent ((s.hist ++ [.window t.window]) ++ sizeEvents t.sizes n)).length = _
      rw [sizesSent_append, sizesSent_append, List.length_append, h1]; simp [sizesSent]
    · show bytesRead ((s.hist ++ [.window t.window]) ++ sizeEvents t.sizes n) = _
      rw [bytesRead_append, bytesRead_append, h2]; simp [bytesRead]
    · show polled ((s.hist ++ [.window t.window]) ++ sizeEvents t.sizes n) = _
      rw [h3]; simp [polled]
    · show lastMode ((s.hist ++ [.window t.window]) ++ sizeEvents t.sizes n) = _
      rw [h4]; simp [lastMode]

theorem good_control {cfg : Cfg} {s s' : State} {t : Turn} (hg : Good cfg s) (hx : s.agent.exiting = false)
    (h : tickControl cfg s t = some s') : Good cfg s' := by
  have ha := tickControl_agent h 0 false
  have hconin := EventLoop.conin_control ha
  have hgr := grown_control ha
  unfold tickControl at h
  split at h
  · cases h
  · rename_i a ha'
    have hea : s'.agent = a := by cases h; exact noteResizes_agent _ _ _
    obtain ⟨es, g1, g2⟩ := hgr.log
    rw [hea] at g1
    have hdrop : a.log.drop s.agent.log.length = es := by rw [g1, List.drop_left]
    rw [hdrop, resizes_eq] at h
    obtain ⟨f1, f2, f3, f4, f5, f6, f7⟩ := noteResizes_frame (cfg := cfg) { s with agent := a } t (resizesMade es)
      hg.core.replays
    have hs : noteResizes { s with agent := a } t (resizesMade es) = s' := by cases h; rfl
    rw [hs] at f1 f2 f3 f4 f5 f6 f7
    rw [hea] at hgr
    refine ⟨⟨f1, ?_, f7.trans hg.core.mode, ?_, ?_, ?_⟩, Agent.tickControl_rest hg.rest hx ha, ?_, ?_⟩
    · rw [hea, hgr.plain]; exact hg.core.plain
    · rw [f2, hea, g1, resizesMade_append, ← hg.core.sizes]
      show (sizesSent s.hist).length + _ + 1 = _
      omega
    · intro hr hb
      obtain ⟨i1, i2⟩ := hg.core.sent hr (by rw [f3] at hb; exact hb)
      rw [f6, hea, g1, queriesSent_append, queriesSent_none g2]
      exact ⟨i1, fun k1 k2 => i2 k1 (hgr.opened k2)⟩
    · rw [hea, hgr.mouse, f4, f5, hgr.closing]; exact hg.core.mouse
    · rw [hconin, f3]; exact hg.cin
    · unfold EventLoop.Drained; rw [hconin]; exact hg.empty

theorem good_conin {cfg : Cfg} {s s' : State} {t : Turn} (hg : Good cfg s)
    (h : tickConin cfg s t = some s') : Good cfg s' := by
  obtain ⟨dsr, ha⟩ := tickConin_agent h
  have hrest := (Agent.tickConin_rest hg.rest (ha false)).1
  have hemp := EventLoop.drained_conin hg.rest hg.empty (ha false)
  unfold tickConin at h
  split at h
  · cases h
  · rename_i p did hp
    obtain ⟨f1, _, _, _, f5⟩ := Agent.servicePipe_facts hg.cin hp
    have set : ∀ q, Core cfg { s with agent := { s.agent with conin := q } } := fun q =>
      ⟨hg.core.replays, hg.core.plain, hg.core.mode, hg.core.sizes, hg.core.sent, hg.core.mouse⟩
    split at h
    · unfold pollConinPipe at h
      split at h
      · cases h
      · rename_i p1 data hst
        have h1 := NamedPipe.step_inv f1 .readAllToString p1 data (by intro n h; cases h) hst
        simp only [NamedPipe.wrote, List.append_nil] at h1
        have h2 : NamedPipe.Inv true false p1 [] (bytesRead s.hist ++ data) 65536 := h1
        have : Core cfg s' ∧ bytesRead s'.hist = bytesRead s.hist ++ data ∧ s'.agent.conin = p1 := by
          split at h
          · exact core_writeEach _ _ _ (set p1) h
          · exact core_write (set p1) h
        obtain ⟨c1, c2, c3⟩ := this
        exact ⟨c1, hrest, by rw [c2, c3]; exact h2, hemp⟩
    · cases h
      exact ⟨set p, hrest, f1, hemp⟩

theorem good_outputs {cfg : Cfg} {s s' : State} {t : Turn} (hg : Good cfg s)
    (h : tickOutputs s t = some s') : Good cfg s' := by
  obtain ⟨a, a1, a2⟩ := tickOutputs_agent h 0 false
  have r1 := Agent.tickConout_rest hg.rest a1
  have r2 := Agent.tickConerr_rest r1 a2
  have hgr := (grown_conout hg.rest a1).trans (grown_conerr a2)
  have hcon : s'.agent.conin = s.agent.conin := (EventLoop.conin_conerr a2).trans (EventLoop.conin_conout a1)
  have hs : s' = { s with agent := s'.agent } := by
    unfold tickOutputs at h
    repeat' split at h
    all_goals cases h <;> rfl
  have hc := core_aside hg.core hgr
  rw [← hs] at hc
  have hh : s'.hist = s.hist := by rw [hs]
  refine ⟨hc, r2, by rw [hcon, hh]; exact hg.cin, by unfold EventLoop.Drained; rw [hcon]; exact hg.empty⟩

theorem wanted_eq {cfg : Cfg} {s : State} (hm : s.input.mouseMode = cfg.mouseMode) (p : Poll) :
    wanted s p = terminalMouse cfg.mouseMode p.mode := by
  have hbit : ∀ k, ConsoleInput.has p.mode (2 ^ k) = p.mode.testBit k := ConsoleInput.has_bit p.mode
  have h4 : ConsoleInput.has p.mode ConsoleInput.ENABLE_MOUSE_INPUT = p.mode.testBit 4 := hbit 4
  have h6 : ConsoleInput.has p.mode ConsoleInput.ENABLE_QUICK_EDIT_MODE = p.mode.testBit 6 := hbit 6
  have h7 : ConsoleInput.has p.mode ConsoleInput.ENABLE_EXTENDED_FLAGS = p.mode.testBit 7 := hbit 7
  unfold wanted ConsoleInput.shouldActivateTerminalMouse terminalMouse
  simp only [updateInputFlags, ConsoleInput.updateInputFlags, h4, h6, h7, hm]
  by_cases h1 : cfg.mouseMode = 1
  · simp [h1]
  · by_cases h2 : cfg.mouseMode = 2 <;> simp [h1, h2]

theorem good_poll {cfg : Cfg} {s s' : State} {p : Poll} (hg : Good cfg s)
    (h : onPollTimeout cfg s p = some s') : Good cfg s' := by
  have ha := onPollTimeout_agent h
  have hrest := Agent.onPollTimeout_rest hg.rest.pre ha
  obtain ⟨⟨es, p1, p2⟩, p3, p4, p5⟩ := grown_poll hg.rest.pre.inv ha
  have hcon := EventLoop.conin_poll ha
  rw [show (p.env (wanted s p)).wantMouse = wanted s p from rfl, wanted_eq hg.core.mode] at p5
  unfold onPollTimeout at h
  split at h
  · cases h
  · rename_i s1 h1
    obtain ⟨f1, f2, f3⟩ := flush_agent h1
    have hrep0 := Replays.op _ _ (.mode p.mode) _ hg.core.replays rfl
    have hnil : delivered s.input { s.input with st := ConsoleInput.updateInputFlags p.mode s.input.st } = [] := by
      simp [delivered, ConsoleInput.updateInputFlags]
    rw [hnil] at hrep0
    have hrep : Replays cfg { mouseMode := cfg.mouseMode } s1.hist s1.input := by
      rw [f3]; exact .op _ _ (.poll p.now) _ hrep0 f2
    obtain ⟨d1, d2, d3, d4⟩ := events_frame (delivered (updateInputFlags s p.mode).input s1.input)
      (fun e he => mem_delivered he)
    have hs : s1.hist = (s.hist ++ [.mode p.mode, .check p.now]) ++
        delivered (updateInputFlags s p.mode).input s1.input := by
      rw [f3]; simp [updateInputFlags]
    have e1 : bytesRead s1.hist = bytesRead s.hist := by
      rw [hs, bytesRead_append, d1, bytesRead_append]; simp [bytesRead]
    have e2 : sizesSent s1.hist = sizesSent s.hist := by
      rw [hs, sizesSent_append, d2, sizesSent_append]; simp [sizesSent]
    have e3 : polled s1.hist = true := by rw [hs, d3]; simp [polled]
    have e4 : lastMode s1.hist = p.mode := by rw [hs, d4]; simp [lastMode]
    have e5 : s1.input.mouseMode = cfg.mouseMode := (exec_mode f2).trans hg.core.mode
    have e6 : setAll newNode defaultRegs = some cfg.root → (∀ b ∈ bytesRead s.hist, b < 256) →
        queries s1.input.st.out = queries s.input.st.out := by
      intro hr hb
      have hk := known_of_replays hr hrep0 (fun b hm => hb b (by
        rw [bytesRead_append] at hm; simpa [bytesRead, entryOf] using hm))
      have := C11_query_only_when_pending cfg.sys cfg.root hr cfg.env _ _ hk.bytes (.poll p.now)
        (by simp [written]) f2
      rcases this with h | ⟨_, ⟨_, _, h⟩, _⟩
      · exact h
      · cases h
    split at h
    · cases h
    · rename_i a ha'
      have hcore : s'.agent = a → Core cfg { s1 with agent := a } := by
        intro hea
        rw [hea] at p1 p3 p4 p5
        refine ⟨hrep, p4.trans hg.core.plain, e5, ?_, ?_, ?_⟩
        · show (sizesSent s1.hist).length + 1 = resizesMade a.log
          rw [e2, p1, resizesMade_append, resizesMade_none fun e he => (p2 e he).2]
          exact hg.core.sizes
        · intro hr hb
          have hb : ∀ b ∈ bytesRead s.hist, b < 256 := by
            intro b hm; exact hb b (by show b ∈ bytesRead s1.hist; rw [e1]; exact hm)
          obtain ⟨i1, i2⟩ := hg.core.sent hr hb
          show queriesSent a.log ≤ queries s1.input.st.out ∧ (_ → _ → queriesSent a.log = queries s1.input.st.out)
          rw [p1, queriesSent_append, queriesSent_none fun e he => (p2 e he).1, e6 hr hb]
          exact ⟨i1, fun k1 k2 => i2 k1 (p3 k2)⟩
        · show a.term.mouseModeEnabled = (polled s1.hist && terminalMouse _ (lastMode s1.hist) && !a.closing && _)
          rw [p5, e3, e4, hg.core.plain]; simp
      have done : s'.agent = a → (s' = { s1 with agent := a } ∨ s' = setMouseWindowRect { s1 with agent := a } p.window) →
          Good cfg s' := by
        intro hea hor
        have hbr : bytesRead s'.hist = bytesRead s.hist := by
          rcases hor with rfl | rfl
          · exact e1
          · show bytesRead (s1.hist ++ [.window p.window]) = _
            rw [bytesRead_append, e1]; simp [bytesRead]
        refine ⟨?_, hrest, by rw [hbr, hcon]; exact hg.cin,
          by unfold EventLoop.Drained; rw [hcon]; exact hg.empty⟩
        rcases hor with h | h
        · rw [h]; exact hcore hea
        · rw [h]; exact core_window (hcore hea) _
      split at h
      · cases h; exact done rfl (.inl rfl)
      · cases h; exact done rfl (.inr rfl)

theorem good_tick {cfg : Cfg} {s s' : State} {t : Turn} (hg : Good cfg s) (hx : s.agent.exiting = false)
    (h : tick cfg s t = some s') : Good cfg s' := by
  unfold tick at h
  simp only [Option.bind_eq_some_iff] at h
  obtain ⟨s1, h1, s2, h2, s3, h3, h4⟩ := h
  have g3 := good_outputs (good_conin (good_control hg hx h1) h2) h3
  split at h4
  · cases h4; exact g3
  · exact good_poll g3 h4

theorem good_loop {cfg : Cfg} : ∀ (ts : List Turn) {s s' : State}, Good cfg s → loop cfg s ts = some s' →
    Good cfg s' := by
  intro ts
  induction ts with
  | nil => intro s s' hg h; cases h; exact hg
  | cons t ts ih =>
    intro s s' hg h
    simp only [loop] at h
    split at h
    · cases h; exact hg
    · rename_i hx
      simp only [Option.bind_eq_some_iff] at h
      obtain ⟨s1, h1, h2⟩ := h
      exact ih (good_tick hg (by simpa using hx) h1) h2

theorem good_start {cfg : Cfg} {names : List (List Nat)} {connected : Bool × Bool × Bool} {cols rows : Int}
    {out err : List Agent.TermCall} {mode : Nat} {canSet : Bool} {s : State}
    (h : start cfg names connected cols rows out err mode canSet = some s) : Good cfg s := by
  unfold start at h
  generalize (if canSet then ConsoleInput.startupMode cfg.mouseMode mode else mode) = mode at h
  split at h
  · cases h
  · rename_i a ha
    cases h
    have hrest := Agent.start_rest ha
    have hemp := EventLoop.drained_start ha
    have hrep : Replays cfg { mouseMode := cfg.mouseMode } [.mode mode]
        { ({ mouseMode := cfg.mouseMode } : Obj) with
          st := ConsoleInput.updateInputFlags mode ({ mouseMode := cfg.mouseMode } : Obj).st } :=
      .op _ _ (.mode mode) _ .start rfl
    have hlog : ∃ es, a.log = .resized (min cols Agent.maxConsoleWidth) (min rows Agent.maxConsoleHeight) :: es ∧
        (∀ e ∈ es, Aside e) ∧ a.term.plainMode = cfg.agent.plainMode ∧ a.term.mouseModeEnabled = false ∧
        (∃ b, a.conin = NamedPipe.opened true false b) := by
      unfold Agent.start at ha
      split at ha
      · simp only [Option.bind_eq_some_iff] at ha
        obtain ⟨s1, h1, s2, h2, h3⟩ := ha
        obtain ⟨w1, w1'⟩ := Agent.writes_packet h1
        obtain ⟨w2, w2'⟩ := Agent.writes_primary (.inr (.inl rfl)) h2
        obtain ⟨w3, w3'⟩ := Agent.writes_error h3
        have g1 := grown_writes (Q := Aside) w1 (by rw [w1']) (by
          rintro e ⟨b, rfl⟩; simp [Aside, NoQuery])
        have g2 := grown_writes (Q := Aside) w2 w2' (aside_output (by simp))
        have g3 := grown_writes (Q := Aside) w3 (by rw [w3']) (aside_output (by simp))
        have g := g1.trans (g2.trans g3)
        obtain ⟨es, e1, e2⟩ := g.log
        refine ⟨es, by rw [e1]; rfl, e2, by rw [g.plain]; rfl, by rw [g.mouse]; rfl, connected.1, ?_⟩
        rw [w3.conin, w2.conin, w1.conin]
      · cases ha
    obtain ⟨es, l1, l2, l3, l4, b, l5⟩ := hlog
    refine ⟨⟨hrep, l3, rfl, ?_, ?_, ?_⟩, hrest, ?_, hemp⟩
    · show (sizesSent [.mode mode]).length + 1 = resizesMade a.log
      rw [l1]
      simp only [resizesMade, resizesMade_none fun e he => (l2 e he).2, sizesSent, List.length_nil]
    · intro _ _
      show queriesSent a.log ≤ 0 ∧ (_ → _ → queriesSent a.log = 0)
      have : queriesSent a.log = 0 := by
        rw [l1]; simp only [queriesSent]; exact queriesSent_none fun e he => (l2 e he).1
      rw [this]
      exact ⟨Nat.le_refl _, fun _ _ => rfl⟩
    · show a.term.mouseModeEnabled = (polled [.mode mode] && _ && _ && _)
      rw [l4]; simp [polled]
    · show NamedPipe.Inv true false a.conin [] [] 65536
      rw [l5]
      exact NamedPipe.opened_inv _ _ _ _ (by decide)

theorem good_reaches {cfg : Cfg} {mode : Nat} {ts : List Turn} {s : State} (h : Reaches cfg mode ts s) :
    Good cfg s := by
  obtain ⟨_, _, _, _, _, _, _, s0, h0, h1⟩ := h
  exact good_loop ts (good_start h0) h1

end Winpty.AgentInput
