import Verif.Lemmas.AgentTick
import Verif.Lemmas.Output
import Verif.Spec.AgentOut

/-! # Everything the agent writes to its output pipes -/
namespace Winpty.Agent
open Winpty.Spec.Agent Winpty.Spec.Output
open Winpty.Terminal (Term OutInv)

/-- The terminal of an agent with this configuration. -/
structure TermOk (cfg : Cfg) (t : Term) : Prop where
  plain : t.plainMode = cfg.plainMode
  colour : t.outputColor = cfg.outputColor
  data : t.lineDataValid = true → (t.lineData.length : Int) = t.remoteColumn

theorem TermOk.out {cfg : Cfg} {t : Term} (h : TermOk cfg t) : OutInv NotEsc t.out t :=
  ⟨⟨[], by simp, StreamOf.nil _⟩, h.data⟩

theorem call_ok {base : List Nat} {t t' : Term} {c : TermCall} (hv : ValidCall c) (hi : OutInv NotEsc base t)
    (h : callTerminal t c = some t') :
    OutInv NotEsc base t' ∧ t'.plainMode = t.plainMode ∧ t'.outputColor = t.outputColor := by
  cases c with
  | reset b l => simp only [callTerminal, Option.some.injEq] at h; subst h; exact Terminal.outInv_reset hi b l
  | sendLine l cells cc =>
    simp only [callTerminal] at h
    have hne : cells ≠ [] := by
      rintro rfl
      simp [Terminal.sendLine] at h
    obtain ⟨t1, h1, h2⟩ := Terminal.outInv_send Terminal.basic_notEsc hi l cells cc hne hv
      (fun _ _ => Terminal.shownCode_ne_esc _)
    rw [h] at h1
    cases h1
    exact h2
  | showCursor c l =>
    simp only [callTerminal, Option.some.injEq] at h; subst h; exact Terminal.outInv_show Terminal.basic_notEsc hi c l hv
  | hideCursor => simp only [callTerminal, Option.some.injEq] at h; subst h; exact Terminal.outInv_hide hi

theorem calls_ok {base : List Nat} : ∀ (cs : List TermCall) {t t' : Term}, (∀ c ∈ cs, ValidCall c) →
    OutInv NotEsc base t → callTerminals t cs = some t' →
    OutInv NotEsc base t' ∧ t'.plainMode = t.plainMode ∧ t'.outputColor = t.outputColor := by
  intro cs
  induction cs with
  | nil => intro t t' _ hi h; simp only [callTerminals, Option.some.injEq] at h; subst h; exact ⟨hi, rfl, rfl⟩
  | cons c cs ih =>
    intro t t' hv hi h
    simp only [callTerminals] at h
    split at h
    · cases h
    · rename_i u hu
      obtain ⟨a1, a2, a3⟩ := call_ok (hv c (List.mem_cons_self ..)) hi hu
      obtain ⟨b1, b2, b3⟩ := ih (fun c hc => hv c (List.mem_cons_of_mem _ hc)) a1 h
      exact ⟨b1, b2.trans a2, b3.trans a3⟩

/-- The new bytes of a terminal. -/
theorem new_stream {cfg : Cfg} {t t' : Term} (ht : TermOk cfg t) (hi : OutInv NotEsc t.out t')
    (hp : t'.plainMode = t.plainMode) (hc : t'.outputColor = t.outputColor) :
    TermOk cfg t' ∧ Stream (Allowed cfg.plainMode cfg.outputColor) (newBytes t t') := by
  refine ⟨⟨hp.trans ht.plain, hc.trans ht.colour, hi.data⟩, ?_⟩
  obtain ⟨d, h1, h2⟩ := hi.stream
  rw [hp, hc, ht.plain, ht.colour] at h2
  unfold newBytes
  rw [h1, List.drop_left]
  exact h2

/-- Everything written so far is in order. -/
structure OutOk (cfg : Cfg) (s : State) : Prop where
  term : TermOk cfg s.term
  err : ∀ p t, s.err = some (p, t) → TermOk cfg t
  log : ∀ e ∈ s.log, OutputOk cfg.plainMode cfg.outputColor e

theorem outOk_log {cfg : Cfg} {l : List Entry} {e : Entry}
    (h : ∀ e ∈ l, OutputOk cfg.plainMode cfg.outputColor e)
    (he : OutputOk cfg.plainMode cfg.outputColor e) :
    ∀ x ∈ l ++ [e], OutputOk cfg.plainMode cfg.outputColor x := by
  intro x hx
  rcases List.mem_append.1 hx with hx | hx
  · exact h x hx
  · rw [List.mem_singleton] at hx; subst hx; exact he

/-- The same terminals and an extra entry that is not output. -/
theorem OutOk.congr {cfg : Cfg} {s s' : State} (h : OutOk cfg s) (h1 : s'.term = s.term)
    (h2 : s'.err = s.err) (h3 : ∀ e ∈ s'.log, e ∈ s.log ∨ OutputOk cfg.plainMode cfg.outputColor e) :
    OutOk cfg s' :=
  ⟨h1 ▸ h.term, fun p t he => h.err p t (h2 ▸ he), fun e he => (h3 e he).elim (h.log e) id⟩

theorem writeConout_ok {cfg : Cfg} {s s' : State} {src : Source} {b : List Nat} (h : OutOk cfg s)
    (hb : b ≠ [] → OutputOk cfg.plainMode cfg.outputColor (.conout src b))
    (hw : writeConout s src b = some s') : OutOk cfg s' := by
  unfold writeConout at hw
  split at hw
  · simp only [Option.some.injEq] at hw; subst hw; exact h
  · rename_i hne
    split at hw
    · cases hw
    · simp only [Option.some.injEq] at hw
      subst hw
      exact ⟨h.term, h.err, outOk_log h.log (hb hne)⟩

theorem usePrimary_ok {cfg : Cfg} {s s' : State} {src : Source} {calls : List TermCall}
    (hs : src = .scrape ∨ src = .resize) (h : OutOk cfg s)
    (hv : ∀ c ∈ calls, ValidCall c) (hw : usePrimary s src calls = some s') : OutOk cfg s' := by
  unfold usePrimary at hw
  split at hw
  · cases hw
  · rename_i t' ht
    obtain ⟨a1, a2, a3⟩ := calls_ok calls hv h.term.out ht
    obtain ⟨b1, b2⟩ := new_stream h.term a1 a2 a3
    refine writeConout_ok (s := { s with term := t' }) ⟨b1, h.err, h.log⟩ (fun _ => ?_) hw
    rcases hs with rfl | rfl <;> exact b2

theorem useError_ok {cfg : Cfg} {s s' : State} {src : Source} {calls : List TermCall}
    (hs : src = .scrape ∨ src = .resize) (h : OutOk cfg s)
    (hv : ∀ c ∈ calls, ValidCall c) (hw : useError s src calls = some s') : OutOk cfg s' := by
  unfold useError at hw
  split at hw
  · simp only [Option.some.injEq] at hw; subst hw; exact h
  · rename_i p t he
    split at hw
    · cases hw
    · rename_i t' ht
      have hterm := h.err p t he
      obtain ⟨a1, a2, a3⟩ := calls_ok calls hv hterm.out ht
      obtain ⟨b1, b2⟩ := new_stream hterm a1 a2 a3
      have herr : ∀ (q : NamedPipe.State) (p' : NamedPipe.State) (u : Term),
          some (q, t') = some (p', u) → TermOk cfg u := by
        intro q p' u hq; cases hq; exact b1
      unfold writeConerr at hw
      split at hw
      · simp only [Option.some.injEq] at hw; subst hw
        exact ⟨h.term, herr p, h.log⟩
      · split at hw
        · cases hw
        · simp only [Option.some.injEq] at hw
          subst hw
          exact ⟨h.term, herr _, outOk_log h.log ⟨hs, b2⟩⟩

theorem writePacket_ok {cfg : Cfg} {s s' : State} {fs : List Buffer.Field} (h : OutOk cfg s)
    (hw : writePacket s fs = some s') : OutOk cfg s' := by
  unfold writePacket at hw
  split at hw
  · cases hw
  · split at hw
    · cases hw
    · simp only [Option.some.injEq] at hw
      subst hw
      exact ⟨h.term, h.err, outOk_log h.log trivial⟩

theorem sendDsrs_ok {cfg : Cfg} : ∀ (n : Nat) {s s' : State}, OutOk cfg s → sendDsrs cfg s n = some s' →
    OutOk cfg s' := by
  intro n
  induction n with
  | zero => intro s s' h hw; simp only [sendDsrs, Option.some.injEq] at hw; subst hw; exact h
  | succ n ih =>
    intro s s' h hw
    simp only [sendDsrs] at hw
    split at hw
    · rename_i hc
      rw [Option.bind_eq_some_iff] at hw
      obtain ⟨s1, h1, h2⟩ := hw
      refine ih (writeConout_ok h (fun _ => ?_) h1) h2
      simp only [Bool.and_eq_true, Bool.not_eq_true'] at hc
      exact ⟨hc.1, rfl⟩
    · exact ih h hw

theorem takeWhile_title (l : List Nat) :
    (([0x1b, 0x5d, 0x30, 0x3b] ++ l).takeWhile (· ≠ 0)).take 4 = [0x1b, 0x5d, 0x30, 0x3b] := by
  simp [List.takeWhile_cons]

theorem syncConsoleTitle_ok {cfg : Cfg} {s s' : State} {ti : List Nat} (h : OutOk cfg s)
    (hw : syncConsoleTitle cfg s ti = some s') : OutOk cfg s' := by
  unfold syncConsoleTitle at hw
  split at hw
  · split at hw
    · rename_i hc
      simp only [Bool.and_eq_true, Bool.not_eq_true'] at hc
      refine writeConout_ok (s := { s with title := ti }) ⟨h.term, h.err, h.log⟩ (fun _ => ?_) hw
      refine ⟨hc.1, ?_⟩
      rw [List.append_assoc]
      exact takeWhile_title _
    · simp only [Option.some.injEq] at hw; subst hw; exact ⟨h.term, h.err, h.log⟩
  · simp only [Option.some.injEq] at hw; subst hw; exact h

theorem setMouse_ok {cfg : Cfg} {s s' : State} {on : Bool} (h : OutOk cfg s) (hw : setMouse s on = some s') :
    OutOk cfg s' := by
  unfold setMouse at hw
  obtain ⟨a1, a2, a3⟩ := Terminal.outInv_mouse h.term.out on
  obtain ⟨b1, b2⟩ := new_stream h.term a1 a2 a3
  refine writeConout_ok (s := { s with term := Terminal.enableMouseMode s.term on }) ⟨b1, h.err, h.log⟩
    (fun hne => ?_) hw
  refine ⟨?_, b2⟩
  cases hp : cfg.plainMode with
  | false => rfl
  | true =>
    exfalso
    apply hne
    unfold Terminal.enableMouseMode
    rw [if_pos (Or.inr (h.term.plain.trans hp))]
    simp [newBytes]

theorem autoClose_ok {cfg : Cfg} {s s' : State} (h : OutOk cfg s)
    (hw : autoClosePipesForShutdown s = some s') : OutOk cfg s' := by
  unfold autoClosePipesForShutdown at hw
  split at hw
  · simp only [Option.bind_eq_some_iff, Option.some.injEq] at hw
    obtain ⟨s1, h1, s2, h2, rfl⟩ := hw
    have k1 : OutOk cfg s1 := by
      unfold closeConoutIfDone at h1
      split at h1
      · split at h1
        · cases h1
        · split at h1 <;> simp only [Option.some.injEq] at h1 <;> subst h1
          · exact ⟨h.term, h.err, outOk_log h.log trivial⟩
          · exact h
      · simp only [Option.some.injEq] at h1; subst h1; exact h
    have k2 : OutOk cfg s2 := by
      unfold closeConerrIfDone at h2
      split at h2
      · simp only [Option.some.injEq] at h2; subst h2; exact k1
      · rename_i p t he
        split at h2
        · split at h2
          · cases h2
          · split at h2 <;> simp only [Option.some.injEq] at h2 <;> subst h2
            · refine ⟨k1.term, ?_, outOk_log k1.log trivial⟩
              intro p' t' hp'
              cases hp'
              exact k1.err p t he
            · exact k1
        · simp only [Option.some.injEq] at h2; subst h2; exact k1
    unfold exitIfDone
    split
    · exact ⟨k2.term, k2.err, outOk_log k2.log trivial⟩
    · exact k2
  · simp only [Option.some.injEq] at hw; subst hw; exact h

theorem resizeWindow_ok {cfg : Cfg} {s s' : State} {cols rows : Int} {e : PacketEnv} (h : OutOk cfg s)
    (hv : ∀ c ∈ e.resizeOut ++ e.resizeErr, ValidCall c)
    (hw : resizeWindow s cols rows e = some s') : OutOk cfg s' := by
  unfold resizeWindow at hw
  split at hw
  · rw [Option.bind_eq_some_iff] at hw
    obtain ⟨s1, h1, h2⟩ := hw
    have k0 : OutOk cfg { s with log := s.log ++ [.resized (min cols maxConsoleWidth) (min rows maxConsoleHeight)] } :=
      ⟨h.term, h.err, outOk_log h.log trivial⟩
    exact useError_ok (.inr rfl) (usePrimary_ok (.inr rfl) k0
      (fun c hc => hv c (List.mem_append_left _ hc)) h1) (fun c hc => hv c (List.mem_append_right _ hc)) h2
  · cases hw

theorem handlePacket_ok {cfg : Cfg} {s s' : State} {p : List Nat} (h : OutOk cfg s)
    (hv : ∀ n, ∀ c ∈ (cfg.env n).resizeOut ++ (cfg.env n).resizeErr, ValidCall c)
    (hw : handlePacket cfg s p = some s') : OutOk cfg s' := by
  unfold handlePacket at hw
  split at hw
  · have k0 : OutOk cfg { s with served := s.served + 1, log := s.log ++ [.packet p] } :=
      ⟨h.term, h.err, outOk_log h.log trivial⟩
    have hv := hv s.served
    generalize ({ s with served := s.served + 1, log := s.log ++ [.packet p] } : State) = u at *
    generalize cfg.env s.served = e at *
    unfold dispatch at hw
    split at hw
    · unfold handleStartProcessPacket at hw
      split at hw
      · cases hw
      · split at hw
        · split at hw
          · unfold startProcess at hw
            split at hw
            · exact writePacket_ok (s := { u with
                log := u.log ++ [.createProcess _], child := true, autoShutdown := _,
                exitAfterShutdown := _ }) ⟨k0.term, k0.err, outOk_log k0.log trivial⟩ hw
            · exact writePacket_ok (s := { u with log := u.log ++ [.createProcess _] })
                ⟨k0.term, k0.err, outOk_log k0.log trivial⟩ hw
          · cases hw
        · cases hw
    · split at hw
      · unfold handleSetSizePacket at hw
        split at hw
        · split at hw
          · rw [Option.bind_eq_some_iff] at hw
            obtain ⟨s1, h1, h2⟩ := hw
            exact writePacket_ok (resizeWindow_ok k0 hv h1) h2
          · cases hw
        · cases hw
      · split at hw
        · unfold handleGetConsoleProcessListPacket at hw
          split at hw
          · exact writePacket_ok k0 hw
          · cases hw
        · simp only [Option.some.injEq] at hw
          subst hw
          exact k0
  · cases hw

theorem pollLoop_ok {cfg : Cfg}
    (hv : ∀ n, ∀ c ∈ (cfg.env n).resizeOut ++ (cfg.env n).resizeErr, ValidCall c)
    (q : List Nat) (rbs : Nat) (s : State) (a : Framing.Agent State) (ho : OutOk cfg s)
    (h : Framing.pollLoop cfg.buffer.sizeMax (handlePacket cfg) s q rbs = .running a) :
    OutOk cfg a.handler := by
  induction hl : q.length using Nat.strongRecOn generalizing s q with
  | ind n ih =>
    subst hl
    rw [Framing.pollLoop] at h
    split at h
    · cases h; exact ho
    · split at h
      · cases h
      · split at h
        · cases h; exact ho
        · rename_i h8 hn hlt
          split at h
          · cases h
          · rename_i s1 hs1
            exact ih _ (by rw [List.length_drop]; omega) _ _ (handlePacket_ok ho hv hs1) h rfl

theorem tick_ok {cfg : Cfg} {s s' : State} {t : Tick} (ho : OutOk cfg s)
    (hv : ∀ n, ∀ c ∈ (cfg.env n).resizeOut ++ (cfg.env n).resizeErr, ValidCall c)
    (hvt : ∀ e, t.poll = some e → ∀ c ∈ e.scrapeOut ++ e.scrapeErr, ValidCall c)
    (h : tick cfg s t = some s') : OutOk cfg s' := by
  unfold tick at h
  simp only [Option.bind_eq_some_iff] at h
  obtain ⟨s1, h1, s2, h2, s3, h3, s4, h4, h5⟩ := h
  have k1 : OutOk cfg s1 := by
    unfold tickControl at h1
    split at h1
    · cases h1
    · rename_i p did hp
      have k : OutOk cfg { s with control := p } := ⟨ho.term, ho.err, ho.log⟩
      split at h1
      · unfold pollControlPipe at h1
        split at h1
        · simp only [Option.some.injEq] at h1; subst h1
          exact ⟨k.term, k.err, outOk_log k.log trivial⟩
        · split at h1
          · cases h1
          · rename_i a ha
            have := pollLoop_ok hv _ _ _ _ k ha
            simp only [Option.some.injEq] at h1; subst h1
            exact ⟨this.term, this.err, this.log⟩
      · simp only [Option.some.injEq] at h1; subst h1; exact k
  have k2 : OutOk cfg s2 := by
    unfold tickConin at h2
    split at h2
    · cases h2
    · rename_i p did hp
      split at h2
      · unfold pollConinPipe at h2
        split at h2
        · cases h2
        · rename_i q _ _
          exact sendDsrs_ok _ (s := { s1 with conin := q }) ⟨k1.term, k1.err, k1.log⟩ h2
      · simp only [Option.some.injEq] at h2; subst h2; exact ⟨k1.term, k1.err, k1.log⟩
  have k3 : OutOk cfg s3 := by
    unfold tickConout at h3
    split at h3
    · cases h3
    · rename_i p did hp
      have k : OutOk cfg { s2 with conout := p } := ⟨k2.term, k2.err, k2.log⟩
      split at h3
      · exact autoClose_ok k h3
      · simp only [Option.some.injEq] at h3; subst h3; exact k
  have k4 : OutOk cfg s4 := by
    unfold tickConerr at h4
    split at h4
    · simp only [Option.some.injEq] at h4; subst h4; exact k3
    · rename_i q term he
      split at h4
      · cases h4
      · rename_i p did hp
        have k : OutOk cfg { s3 with err := some (p, term) } :=
          ⟨k3.term, fun p' t' hp' => by cases hp'; exact k3.err q term he, k3.log⟩
        split at h4
        · exact autoClose_ok k h4
        · simp only [Option.some.injEq] at h4; subst h4; exact k
  split at h5
  · simp only [Option.some.injEq] at h5; subst h5; exact k4
  · rename_i e he
    have hve := hvt e he
    unfold onPollTimeout at h5
    simp only [Option.bind_eq_some_iff] at h5
    obtain ⟨s5, h5, s6, h6, h7⟩ := h5
    have kc : OutOk cfg (checkChild s4 e) := by
      unfold checkChild
      split
      · exact ⟨k4.term, k4.err, outOk_log k4.log trivial⟩
      · exact k4
    have k5 : OutOk cfg s5 := by
      split at h5
      · rw [Option.bind_eq_some_iff] at h5
        obtain ⟨u, u1, u2⟩ := h5
        have ku := syncConsoleTitle_ok kc u1
        unfold scrapeBuffers at u2
        rw [Option.bind_eq_some_iff] at u2
        obtain ⟨v, v1, v2⟩ := u2
        have k0 : OutOk cfg { u with log := u.log ++ [.scraped] } :=
          ⟨ku.term, ku.err, outOk_log ku.log trivial⟩
        exact useError_ok (.inl rfl) (usePrimary_ok (.inl rfl) k0
          (fun c hc => hve c (List.mem_append_left _ hc)) v1)
          (fun c hc => hve c (List.mem_append_right _ hc)) v2
      · simp only [Option.some.injEq] at h5; subst h5; exact kc
    exact autoClose_ok (setMouse_ok k5 h6) h7

theorem loop_ok {cfg : Cfg}
    (hv : ∀ n, ∀ c ∈ (cfg.env n).resizeOut ++ (cfg.env n).resizeErr, ValidCall c) :
    ∀ (ts : List Tick) {s s' : State}, OutOk cfg s →
    (∀ t ∈ ts, ∀ e, t.poll = some e → ∀ c ∈ e.scrapeOut ++ e.scrapeErr, ValidCall c) →
    loop cfg s ts = some s' → OutOk cfg s' := by
  intro ts
  induction ts with
  | nil => intro s s' ho _ h; simp only [loop, Option.some.injEq] at h; subst h; exact ho
  | cons t ts ih =>
    intro s s' ho hvt h
    simp only [loop] at h
    split at h
    · simp only [Option.some.injEq] at h; subst h; exact ho
    · rw [Option.bind_eq_some_iff] at h
      obtain ⟨s1, h1, h2⟩ := h
      exact ih (tick_ok ho hv (hvt t (List.mem_cons_self ..)) h1)
        (fun t ht => hvt t (List.mem_cons_of_mem _ ht)) h2

theorem start_ok {cfg : Cfg} {names : List (List Nat)} {connected : Bool × Bool × Bool} {cols rows : Int}
    {out err : List TermCall} {s : State} (hv : ∀ c ∈ out ++ err, ValidCall c)
    (h : start cfg names connected cols rows out err = some s) : OutOk cfg s := by
  unfold start at h
  split at h
  · simp only [Option.bind_eq_some_iff] at h
    obtain ⟨s1, h1, s2, h2, h3⟩ := h
    have hinit : TermOk cfg (Terminal.init cfg.plainMode cfg.outputColor) := ⟨rfl, rfl, fun _ => rfl⟩
    refine useError_ok (.inr rfl) (usePrimary_ok (.inr rfl) (writePacket_ok ⟨hinit, ?_, ?_⟩ h1)
      (fun c hc => hv c (List.mem_append_left _ hc)) h2) (fun c hc => hv c (List.mem_append_right _ hc)) h3
    · intro p t he
      simp only at he
      split at he <;> cases he
      exact hinit
    · intro e he
      rw [List.mem_singleton] at he
      subst he
      exact trivial
  · cases h

theorem reaches_ok {cfg : Cfg} {ts : List Tick} {s : State} (h : ReachesValid cfg ts s) : OutOk cfg s := by
  obtain ⟨h1, h2, _, _, _, _, _, _, s0, h3, h4, h5⟩ := h
  exact loop_ok h1 ts (start_ok h3 h4) h2 h5

end Winpty.Agent
