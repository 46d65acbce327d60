import Verif.Spec.ClientView
import Verif.Lemmas.AgentOut
import Verif.Lemmas.TerminalOps
import Verif.Lemmas.ScraperLines
import Verif.Props.Output

/-! # The client's terminal over a whole session -/
namespace Winpty.ClientView

open Winpty.Spec.Vt

/-! ## Titles and queries change nothing else -/

/-- The same but for the title. -/
def Same (e e' : Emu) : Prop := ∃ x, e' = { e with title := x }

theorem Same.refl (e : Emu) : Same e e := ⟨e.title, rfl⟩

theorem Same.parse {e e' : Emu} (h : Same e e') : e'.parse = e.parse := by
  obtain ⟨x, rfl⟩ := h; rfl

theorem Same.trans {a b c : Emu} (h : Same a b) (g : Same b c) : Same a c := by
  obtain ⟨x, rfl⟩ := h
  obtain ⟨y, rfl⟩ := g
  exact ⟨y, rfl⟩

theorem setMode_same (on : Bool) (e : Emu) (x : List Nat) (n : Nat) :
    setMode on { e with title := x } n = { setMode on e n with title := x } := by
  unfold setMode; split <;> rfl

theorem setModes_same (on : Bool) (ps : List Nat) : ∀ (e : Emu) (x : List Nat),
    ps.foldl (setMode on) { e with title := x } = { ps.foldl (setMode on) e with title := x } := by
  induction ps with
  | nil => intro e x; rfl
  | cons p ps ih => intro e x; rw [List.foldl_cons, setMode_same, ih]; rfl

theorem place_same (cfg : Cfg) (e : Emu) (x : List Nat) (c : Nat) :
    place cfg { e with title := x } c = { place cfg e c with title := x } := rfl

theorem print_same (cfg : Cfg) (e : Emu) (x : List Nat) (c : Nat) :
    print cfg { e with title := x } c = { print cfg e c with title := x } := by
  unfold print
  dsimp only
  split <;> rfl

theorem control_same (cfg : Cfg) (e : Emu) (x : List Nat) (c : Nat) :
    Spec.Vt.control cfg { e with title := x } c = { Spec.Vt.control cfg e c with title := x } := by
  unfold Spec.Vt.control
  repeat' split
  all_goals rfl

theorem dispatch_same (cfg : Cfg) (e : Emu) (x : List Nat) (p : Bool) (ps : List Nat) (f : Nat) :
    dispatch cfg { e with title := x } p ps f = { dispatch cfg e p ps f with title := x } := by
  unfold dispatch
  repeat' split
  all_goals first | rfl | exact setModes_same _ _ _ _

theorem groundByte_same (cfg : Cfg) (e : Emu) (x : List Nat) (b : Nat) :
    groundByte cfg { e with title := x } b = { groundByte cfg e b with title := x } := by
  unfold groundByte
  repeat' split
  all_goals first | rfl | exact control_same .. | exact print_same ..

theorem printWide_same (cfg : Cfg) (e : Emu) (x : List Nat) (c : Nat) :
    printWide cfg { e with title := x } c = { printWide cfg e c with title := x } := by
  unfold printWide
  split
  · rfl
  · exact print_same ..

theorem byte_same (cfg : Cfg) (e : Emu) (x : List Nat) (b : Nat) :
    Same (byte cfg e b) (byte cfg { e with title := x } b) := by
  obtain ⟨r, t, ro, c, g, cv, mo, ti, p⟩ := e
  cases p with
  | ground => exact ⟨x, groundByte_same cfg ⟨r, t, ro, c, g, cv, mo, ti, .ground⟩ x b⟩
  | esc =>
    refine ⟨x, ?_⟩
    simp only [byte]
    repeat' split
    all_goals rfl
  | csi p d n =>
    refine ⟨x, ?_⟩
    simp only [byte]
    repeat' split
    all_goals first | rfl | exact dispatch_same cfg ⟨r, t, ro, c, g, cv, mo, ti, .ground⟩ x _ _ _
  | osc text =>
    simp only [byte]
    repeat' split
    · exact ⟨text, rfl⟩
    · exact ⟨x, rfl⟩
    · exact ⟨x, rfl⟩
  | utf8 m v =>
    refine ⟨x, ?_⟩
    simp only [byte]
    repeat' split
    · exact printWide_same cfg ⟨r, t, ro, c, g, cv, mo, ti, .ground⟩ x _
    · rfl
    · exact groundByte_same cfg ⟨r, t, ro, c, g, cv, mo, ti, .ground⟩ x _

theorem feed_same (cfg : Cfg) (bs : List Nat) : ∀ {e e' : Emu}, Same e e' →
    Same (feed cfg e bs) (feed cfg e' bs) := by
  induction bs with
  | nil => intro e e' h; exact h
  | cons b bs ih =>
    intro e e' h
    obtain ⟨x, rfl⟩ := h
    exact ih (byte_same cfg e x b)

/-! ## The title is not changed by the terminal writer -/

/-- Not reading a title, nor the beginning of a control sequence. -/
def Calm (p : Parse) : Prop := p ≠ .esc ∧ ∀ t, p ≠ .osc t

theorem setModes_keep (on : Bool) (ps : List Nat) : ∀ (e : Emu),
    (ps.foldl (setMode on) e).title = e.title ∧ (ps.foldl (setMode on) e).parse = e.parse := by
  induction ps with
  | nil => intro e; exact ⟨rfl, rfl⟩
  | cons p ps ih =>
    intro e
    rw [List.foldl_cons, (ih _).1, (ih _).2]
    unfold setMode; split <;> exact ⟨rfl, rfl⟩

theorem dispatch_keep (cfg : Cfg) (e : Emu) (p : Bool) (ps : List Nat) (f : Nat) :
    (dispatch cfg e p ps f).title = e.title ∧ (dispatch cfg e p ps f).parse = e.parse := by
  unfold dispatch
  repeat' split
  all_goals first | exact ⟨rfl, rfl⟩ | exact setModes_keep _ _ _

theorem print_keep (cfg : Cfg) (e : Emu) (c : Nat) :
    (print cfg e c).title = e.title ∧ (print cfg e c).parse = e.parse := by
  unfold print
  split <;> exact ⟨rfl, rfl⟩

theorem control_keep (cfg : Cfg) (e : Emu) (c : Nat) :
    (Spec.Vt.control cfg e c).title = e.title ∧ (Spec.Vt.control cfg e c).parse = e.parse := by
  unfold Spec.Vt.control
  repeat' split
  all_goals exact ⟨rfl, rfl⟩

theorem calm_ground : Calm .ground := ⟨by simp, by simp⟩

theorem groundByte_keep (cfg : Cfg) (e : Emu) (b : Nat) (hb : b ≠ 0x1b) (hg : e.parse = .ground) :
    (groundByte cfg e b).title = e.title ∧ Calm (groundByte cfg e b).parse := by
  unfold groundByte
  rw [if_neg hb]
  repeat' split
  · rw [(control_keep ..).1, (control_keep ..).2, hg]; exact ⟨rfl, calm_ground⟩
  · rw [(print_keep ..).1, (print_keep ..).2, hg]; exact ⟨rfl, calm_ground⟩
  · exact ⟨rfl, by simp, by simp⟩
  · exact ⟨rfl, by simp, by simp⟩
  · exact ⟨rfl, by simp, by simp⟩
  · rw [(print_keep ..).1, (print_keep ..).2, hg]; exact ⟨rfl, calm_ground⟩

theorem printWide_keep (cfg : Cfg) (e : Emu) (c : Nat) :
    (printWide cfg e c).title = e.title ∧ (printWide cfg e c).parse = e.parse := by
  unfold printWide
  split
  · exact ⟨rfl, rfl⟩
  · exact print_keep ..

theorem byte_keep (cfg : Cfg) (e : Emu) (b : Nat) (hb : b ≠ 0x1b) (hc : Calm e.parse) :
    (byte cfg e b).title = e.title ∧ Calm (byte cfg e b).parse := by
  cases hp : e.parse with
  | ground => unfold byte; simp only [hp]; exact groundByte_keep cfg e b hb hp
  | esc => exact absurd hp hc.1
  | osc t => exact absurd hp (hc.2 t)
  | csi p d c =>
    unfold byte
    simp only [hp]
    repeat' split
    · exact ⟨rfl, by simp, by simp⟩
    · exact ⟨rfl, by simp, by simp⟩
    · exact ⟨rfl, by simp, by simp⟩
    · rw [(dispatch_keep ..).1, (dispatch_keep ..).2]; exact ⟨rfl, calm_ground⟩
    · rw [hp]; exact ⟨rfl, by simp, by simp⟩
  | utf8 m v =>
    unfold byte
    simp only [hp]
    repeat' split
    · rw [(printWide_keep ..).1, (printWide_keep ..).2]; exact ⟨rfl, calm_ground⟩
    · exact ⟨rfl, by simp, by simp⟩
    · exact groundByte_keep cfg { e with parse := .ground } b hb rfl

theorem feed_keep (cfg : Cfg) (bs : List Nat) : ∀ (e : Emu), (∀ b ∈ bs, b ≠ 0x1b) → Calm e.parse →
    (feed cfg e bs).title = e.title ∧ Calm (feed cfg e bs).parse := by
  induction bs with
  | nil => intro e _ h; exact ⟨rfl, h⟩
  | cons b bs ih =>
    intro e hb h
    obtain ⟨h1, h2⟩ := byte_keep cfg e b (hb b (List.mem_cons_self ..)) h
    obtain ⟨h3, h4⟩ := ih _ (fun x hx => hb x (List.mem_cons_of_mem _ hx)) h2
    exact ⟨h3.trans h1, h4⟩

/-- `ESC [`. -/
theorem feed_escape (cfg : Cfg) (e : Emu) (h : Calm e.parse) :
    (feed cfg e [0x1b, 0x5b]).title = e.title ∧ Calm (feed cfg e [0x1b, 0x5b]).parse := by
  have hstart : ∀ e : Emu, e.parse = .ground →
      (byte cfg (groundByte cfg e 0x1b) 0x5b).title = e.title ∧
      Calm (byte cfg (groundByte cfg e 0x1b) 0x5b).parse := by
    intro e _
    have : groundByte cfg e 0x1b = { e with parse := .esc } := by simp [groundByte]
    rw [this]
    refine ⟨by simp [byte], ?_⟩
    simp only [byte, if_true]
    exact ⟨by simp, by simp⟩
  show (byte cfg (byte cfg e 0x1b) 0x5b).title = e.title ∧ Calm (byte cfg (byte cfg e 0x1b) 0x5b).parse
  cases hp : e.parse with
  | ground =>
    have : byte cfg e 0x1b = groundByte cfg e 0x1b := by unfold byte; simp only [hp]
    rw [this]; exact hstart e hp
  | esc => exact absurd hp h.1
  | osc t => exact absurd hp (h.2 t)
  | csi p d c =>
    have : byte cfg e 0x1b = e := by unfold byte; simp only [hp]; simp
    rw [this]; exact byte_keep cfg e 0x5b (by decide) h
  | utf8 m v =>
    have : byte cfg e 0x1b = groundByte cfg { e with parse := .ground } 0x1b := by
      unfold byte; simp only [hp]; simp
    rw [this]; exact hstart { e with parse := .ground } rfl

open Winpty.Spec.Output in
theorem feed_stream (cfg : Cfg) {p c : Bool} {bs : List Nat} (hs : Stream (Allowed p c) bs) (e : Emu)
    (h : Calm e.parse) : (feed cfg e bs).title = e.title ∧ Calm (feed cfg e bs).parse := by
  obtain ⟨toks, rfl, ht⟩ := hs
  induction toks generalizing e with
  | nil => exact ⟨rfl, h⟩
  | cons t toks ih =>
    rw [List.flatten_cons, Terminal.feed_append]
    have key : (feed cfg e t).title = e.title ∧ Calm (feed cfg e t).parse := by
      have hseq : IsSeq t → (feed cfg e t).title = e.title ∧ Calm (feed cfg e t).parse := by
        rintro ⟨ps, f, rfl, h1, h2⟩
        have : (0x1b :: 0x5b :: (ps ++ [f]) : List Nat) = [0x1b, 0x5b] ++ (ps ++ [f]) := rfl
        rw [this, Terminal.feed_append]
        obtain ⟨a1, a2⟩ := feed_escape cfg e h
        obtain ⟨b1, b2⟩ := feed_keep cfg (ps ++ [f]) _ (by
          intro b hb
          rcases List.mem_append.1 hb with hb | hb
          · have := h1 b hb; omega
          · rw [List.mem_singleton] at hb; subst hb
            intro hb; subst hb; revert h2; decide) a2
        exact ⟨b1.trans a1, b2⟩
      rcases ht t (List.mem_cons_self ..) with ⟨c, _, hc, rfl⟩ | hf
      · exact feed_keep cfg _ e (fun b hb hbe => Props.utf8_no_esc c hc (hbe ▸ hb)) h
      · unfold Allowed at hf
        split at hf
        · obtain ⟨_, ps, rfl, h1⟩ := hf
          exact hseq ⟨ps, 0x6d, rfl, fun b hb => (h1 b hb).imp id .inl, by decide⟩
        · exact hseq hf
    obtain ⟨a1, a2⟩ := ih (feed cfg e t) key.2 (fun x hx => ht x (List.mem_cons_of_mem _ hx))
    exact ⟨a1.trans key.1, a2⟩

/-! ## Titles and queries -/

theorem feed_query (cfg : Cfg) {e : Emu} (h : e.parse = .ground) :
    feed cfg e [0x1b, 0x5b, 0x36, 0x6e] = e := by
  have : ([0x1b, 0x5b, 0x36, 0x6e] : List Nat) = Terminal.csi ++ [0x36, 0x6e] := rfl
  rw [this, Terminal.feed_csi cfg h]
  show byte cfg (byte cfg { e with parse := .csi false [] 0 } 0x36) 0x6e = e
  cases e
  simp only at h
  subst h
  simp [byte, dispatch]

theorem feed_osc (cfg : Cfg) (bs : List Nat) : ∀ (e : Emu) (t : List Nat), e.parse = .osc t →
    (∀ b ∈ bs, b ≠ 7 ∧ b ≠ 0x1b) → feed cfg e bs = { e with parse := .osc (t ++ bs) } := by
  induction bs with
  | nil => intro e t h _; cases e; simp only at h; subst h; simp [feed]
  | cons b bs ih =>
    intro e t h hb
    have h1 := hb b (List.mem_cons_self ..)
    have : byte cfg e b = { e with parse := .osc (t ++ [b]) } := by
      unfold byte; simp only [h]; rw [if_neg h1.1, if_neg h1.2]
    rw [Terminal.feed_cons, this, ih _ (t ++ [b]) rfl (fun x hx => hb x (List.mem_cons_of_mem _ hx))]
    simp

theorem feed_title (cfg : Cfg) {e : Emu} (h : e.parse = .ground) (t : List Nat)
    (ht : ∀ b ∈ t, b ≠ 7 ∧ b ≠ 0x1b) :
    feed cfg e ([0x1b, 0x5d, 0x30, 0x3b] ++ t ++ [0x07]) = { e with title := [0x30, 0x3b] ++ t } := by
  have h1 : feed cfg e [0x1b, 0x5d] = { e with parse := .osc [] } := by
    show byte cfg (byte cfg e 0x1b) 0x5d = _
    have : byte cfg e 0x1b = { e with parse := .esc } := by simp [byte, h, groundByte]
    rw [this]; simp [byte]
  have : ([0x1b, 0x5d, 0x30, 0x3b] ++ t ++ [0x07] : List Nat) = [0x1b, 0x5d] ++ (([0x30, 0x3b] ++ t) ++ [0x07]) := rfl
  rw [this, Terminal.feed_append, h1, Terminal.feed_append, feed_osc cfg ([0x30, 0x3b] ++ t) _ [] rfl (by
    intro b hb
    rcases List.mem_append.1 hb with hb | hb
    · simp only [List.mem_cons, List.not_mem_nil, or_false] at hb; omega
    · exact ht b hb)]
  cases e
  simp only at h
  subst h
  simp [feed, byte]

/-! ## Requests and calls -/

open Winpty.Agent Winpty.Spec.Agent Winpty.Spec.ClientView
open Winpty.Spec.Term (Op Want OpsOk OpOk CfgOk FreshEmu)
open Winpty.Spec.Scrape (opOf)
open Winpty.Terminal (Term Rel performAll perform)

theorem step_mouse (w : Want) (m : Bool) (c : TermCall) :
    ({ w with mouse := m } : Want).step (opOf c) = { w.step (opOf c) with mouse := m } := by
  cases c <;> rfl

theorem run_mouse (cs : List TermCall) : ∀ (w : Want) (m : Bool),
    ({ w with mouse := m } : Want).run (cs.map opOf) = { w.run (cs.map opOf) with mouse := m } := by
  induction cs with
  | nil => intro w m; rfl
  | cons c cs ih =>
    intro w m
    simp only [Want.run, List.map_cons, List.foldl_cons] at ih ⊢
    rw [step_mouse, ih]

theorem opsOk_mouse (vcfg : Spec.Vt.Cfg) (cs : List TermCall) : ∀ (w : Want) (m : Bool),
    OpsOk vcfg { w with mouse := m } (cs.map opOf) ↔ OpsOk vcfg w (cs.map opOf) := by
  induction cs with
  | nil => intro w m; exact Iff.rfl
  | cons c cs ih =>
    intro w m
    simp only [List.map_cons, OpsOk]
    rw [step_mouse, ih]
    refine and_congr ?_ Iff.rfl
    cases c <;> exact Iff.rfl

theorem perform_call (t : Term) (c : TermCall) (h : ∀ l, c ≠ .reset false l) :
    perform t (opOf c) = callTerminal t c := by
  cases c with
  | reset b l =>
    cases b with
    | true => rfl
    | false => exact absurd rfl (h l)
  | _ => rfl

theorem perform_calls : ∀ (cs : List TermCall) (t : Term), (∀ l, .reset false l ∉ cs) →
    performAll t (cs.map opOf) = callTerminals t cs := by
  intro cs
  induction cs with
  | nil => intro t _; rfl
  | cons c cs ih =>
    intro t h
    simp only [List.map_cons, performAll, callTerminals]
    rw [perform_call t c (fun l hl => h l (by rw [hl]; exact List.mem_cons_self ..))]
    cases callTerminal t c with
    | none => rfl
    | some u => exact ih u (fun l hl => h l (List.mem_cons_of_mem _ hl))

theorem valid_calls (vcfg : Spec.Vt.Cfg) : ∀ (cs : List TermCall) (w : Want), OpsOk vcfg w (cs.map opOf) →
    ∀ c ∈ cs, ValidCall c := by
  intro cs
  induction cs with
  | nil => intro w _ c hc; simp at hc
  | cons c cs ih =>
    intro w h x hx
    rcases List.mem_cons.1 hx with rfl | hx
    · cases x with
      | reset b l => trivial
      | sendLine l cells cc => exact h.1.2.2.2.1
      | showCursor c l => exact h.1.2.1
      | hideCursor => trivial
    · exact ih _ h.2 x hx

/-! ## What the client's terminal shows while the agent works -/

section
variable (cfg : Agent.Cfg) (vcfg : Spec.Vt.Cfg) (e0 : Emu) (line : Int)

/-- The CONOUT pipe is open, or the agent has closed it (it is not broken). -/
def Live (s : State) : Prop := s.conout.pipe.opened = true ∨ .closeConout ∈ s.log

theorem Live.back {s s' : State} {es : List Entry} (hl : s'.log = s.log ++ es)
    (ho : s'.conout.pipe.opened = true → s.conout.pipe.opened = true)
    (hc : .closeConout ∈ es → s.conout.pipe.opened = true) (h : Live s') : Live s := by
  rcases h with h | h
  · exact .inl (ho h)
  · rw [hl] at h
    rcases List.mem_append.1 h with h | h
    · exact .inr h
    · exact .inl (hc h)

/-- The client's terminal, having read everything written so far, when the scraper has made the calls
`cs`. -/
structure View (s : State) (cs : List TermCall) : Prop where
  rel : ∃ off, Rel vcfg e0 cfg.outputColor s.term (feed vcfg e0 s.term.out)
    { (Want.start line).run (cs.map opOf) with mouse := s.term.mouseModeEnabled } off
  same : Same (feed vcfg e0 s.term.out) (feed vcfg e0 (outBytes s.log))
  title : Live s →
    (s.title = [0x20] ∧ (feed vcfg e0 (outBytes s.log)).title = e0.title) ∨
    (feed vcfg e0 (outBytes s.log)).title = [0x30, 0x3b] ++ cfg.utf8FromWide s.title

/-- The same for calls in keeping with the terminal's size. -/
def Good (s : State) (cs : List TermCall) : Prop :=
  OpsOk vcfg (Want.start line) (cs.map opOf) → (∀ l, .reset false l ∉ cs) → View cfg vcfg e0 line s cs

end

section
variable {cfg : Agent.Cfg} {vcfg : Spec.Vt.Cfg} {e0 : Emu} {line : Int} {s s' : State} {cs : List TermCall}

theorem View.ground (h : View cfg vcfg e0 line s cs) :
    (feed vcfg e0 s.term.out).parse = .ground ∧ (feed vcfg e0 (outBytes s.log)).parse = .ground := by
  obtain ⟨off, hr⟩ := h.rel
  exact ⟨hr.ground, by rw [h.same.parse]; exact hr.ground⟩

theorem Good.congr (h : Good cfg vcfg e0 line s cs) (h1 : s'.term = s.term)
    (h2 : outBytes s'.log = outBytes s.log) (h3 : s'.title = s.title)
    (h4 : Live s' → Live s) : Good cfg vcfg e0 line s' cs := by
  intro g1 g2
  obtain ⟨a, b, c⟩ := h g1 g2
  refine ⟨by rw [h1]; exact a, by rw [h1, h2]; exact b, ?_⟩
  intro ho
  rw [h2, h3]
  exact c (h4 ho)

/-- What `writeConout` does. -/
theorem writeConout_eq {src : Source} {b : List Nat} (h : writeConout s src b = some s') :
    s'.term = s.term ∧ outBytes s'.log = outBytes s.log ++ b ∧ s'.title = s.title ∧
    s'.conout.pipe.opened = s.conout.pipe.opened ∧ s'.served = s.served ∧ s'.closing = s.closing ∧
    ∃ es, s'.log = s.log ++ es ∧ ∀ e ∈ es, e = .conout src b := by
  unfold writeConout at h
  split at h
  · rename_i hb
    simp only [Option.some.injEq] at h
    subst h; subst hb
    exact ⟨rfl, by simp, rfl, rfl, rfl, rfl, [], by simp, by simp⟩
  · split at h
    · cases h
    · rename_i p r hst
      simp only [Option.some.injEq] at h
      subst h
      have := step_write _ _ _ _ hst
      subst this
      exact ⟨rfl, by simp [outBytes_append, outBytes], rfl, rfl, rfl, rfl, _, rfl, by simp⟩

theorem live_conout {u : State} {src : Source} {b : List Nat} (h : writeConout u src b = some s')
    (hl : u.log = s.log) (hc : u.conout = s.conout) (h' : Live s') : Live s := by
  obtain ⟨_, _, _, e4, _, _, es, e5, e6⟩ := writeConout_eq h
  refine Live.back (es := es) (by rw [e5, hl]) (by rw [e4, hc]; exact id) ?_ h'
  intro hm
  cases e6 _ hm

/-- Bytes of the terminal writer. -/
theorem good_term {src : Source} {t' : Term} {cs' : List TermCall} {c : Bool}
    (h : Good cfg vcfg e0 line s cs)
    (hw : writeConout { s with term := t' } src (newBytes s.term t') = some s')
    (hx : ∃ d, t'.out = s.term.out ++ d)
    (hstep : OpsOk vcfg (Want.start line) (cs'.map opOf) → (∀ l, .reset false l ∉ cs') →
      OpsOk vcfg (Want.start line) (cs.map opOf) ∧ (∀ l, .reset false l ∉ cs) ∧
      (View cfg vcfg e0 line s cs → (∃ off, Rel vcfg e0 cfg.outputColor t' (feed vcfg e0 t'.out)
        { (Want.start line).run (cs'.map opOf) with mouse := t'.mouseModeEnabled } off) ∧
        Spec.Output.Stream (Spec.Output.Allowed false c) (newBytes s.term t'))) :
    Good cfg vcfg e0 line s' cs' := by
  intro g1 g2
  obtain ⟨k1, k2, k3⟩ := hstep g1 g2
  have hv := h k1 k2
  obtain ⟨r, st⟩ := k3 hv
  obtain ⟨e1, e2, e3, e4, _⟩ := writeConout_eq hw
  have e1 : s'.term = t' := e1
  have e2 : outBytes s'.log = outBytes s.log ++ newBytes s.term t' := e2
  have e3 : s'.title = s.title := e3
  have hn : t'.out = s.term.out ++ newBytes s.term t' := by
    obtain ⟨d, hd⟩ := hx
    simp [newBytes, hd]
  refine ⟨by rw [e1]; exact r, ?_, ?_⟩
  · rw [e1, e2, hn, Terminal.feed_append, Terminal.feed_append]
    exact feed_same vcfg _ hv.same
  · intro ho
    rw [e2, e3, Terminal.feed_append, (feed_stream vcfg st _ (by rw [hv.ground.2]; exact calm_ground)).1]
    exact hv.title (live_conout hw rfl rfl ho)

theorem Rel.outInv {oc : Bool} {t : Term} {e : Emu} {w : Want} {off : Int} (h : Rel vcfg e0 oc t e w off) :
    Terminal.OutInv Spec.Output.NotEsc t.out t :=
  ⟨⟨[], by simp, Spec.Output.StreamOf.nil _⟩, fun hd => (h.data hd).1⟩

theorem stream_new {oc : Bool} {t t' : Term} {e : Emu} {w : Want} {off : Int}
    (h : Rel vcfg e0 oc t e w off) (hi : Terminal.OutInv Spec.Output.NotEsc t.out t')
    (hp : t'.plainMode = t.plainMode) :
    Spec.Output.Stream (Spec.Output.Allowed false t'.outputColor) (newBytes t t') := by
  obtain ⟨d, h1, h2⟩ := hi.stream
  rw [hp, h.plain] at h2
  unfold newBytes
  rw [h1, List.drop_left]
  exact h2

theorem good_primary (hcfg : CfgOk vcfg) {src : Source} {new : List TermCall}
    (h : Good cfg vcfg e0 line s cs) (hw : usePrimary s src new = some s') :
    Good cfg vcfg e0 line s' (cs ++ new) := by
  unfold usePrimary at hw
  split at hw
  · cases hw
  · rename_i t' ht
    have hx := termExt_calls new _ _ ht
    refine good_term (c := t'.outputColor) h hw hx.1 ?_
    intro g1 g2
    rw [List.map_append, Scraper.opsOk_append] at g1
    have hn : ∀ l, TermCall.reset false l ∉ new := fun l hl => g2 l (List.mem_append_right _ hl)
    refine ⟨g1.1, fun l hl => g2 l (List.mem_append_left _ hl), ?_⟩
    intro hv
    obtain ⟨off, hr⟩ := hv.rel
    obtain ⟨t1, e1, off1, p, hr1⟩ := Terminal.rel_run hcfg (new.map opOf) _ _ _ _ hr
      ((opsOk_mouse vcfg new _ _).2 g1.2)
    rw [perform_calls new _ hn, ht, Option.some.injEq] at p
    subst p
    obtain ⟨a1, a2, _⟩ := calls_ok new (valid_calls vcfg new _ g1.2) (Rel.outInv hr) ht
    refine ⟨⟨off1, ?_⟩, stream_new hr a1 a2⟩
    have hf := hr1.fed
    subst hf
    rw [run_mouse, ← Scraper.run_append, ← List.map_append] at hr1
    rw [hx.2.1]
    exact hr1

theorem good_mouse (hp : s.term.plainMode = true → s.term.mouseModeEnabled = false) {on : Bool}
    (h : Good cfg vcfg e0 line s cs) (hw : setMouse s on = some s') : Good cfg vcfg e0 line s' cs := by
  unfold setMouse at hw
  have hx : ∃ d, (Terminal.enableMouseMode s.term on).out = s.term.out ++ d := by
    rcases enableMouse_cases s.term on hp with ⟨he, _⟩ | ⟨_, _, _, _, h5⟩
    · rw [he]; exact ⟨[], by simp⟩
    · exact ⟨_, h5⟩
  refine good_term (c := (Terminal.enableMouseMode s.term on).outputColor) h hw hx ?_
  intro g1 g2
  refine ⟨g1, g2, ?_⟩
  intro hv
  obtain ⟨off, hr⟩ := hv.rel
  obtain ⟨e1, hr1, _⟩ := Terminal.rel_mouse hr on
  obtain ⟨a1, a2, _⟩ := Terminal.outInv_mouse (Rel.outInv hr) on
  refine ⟨⟨off, ?_⟩, stream_new hr a1 a2⟩
  have hf := hr1.fed
  subst hf
  have hm := hr1.mouse
  rw [hm]
  exact hr1

theorem good_dsrs : ∀ (n : Nat) {s : State}, Good cfg vcfg e0 line s cs → sendDsrs cfg s n = some s' →
    Good cfg vcfg e0 line s' cs := by
  intro n
  induction n with
  | zero => intro s h hw; simp only [sendDsrs, Option.some.injEq] at hw; subst hw; exact h
  | succ n ih =>
    intro s h hw
    simp only [sendDsrs] at hw
    split at hw
    · rw [Option.bind_eq_some_iff] at hw
      obtain ⟨s1, h1, h2⟩ := hw
      refine ih ?_ h2
      intro g1 g2
      obtain ⟨e1, e2, e3, e4, _⟩ := writeConout_eq h1
      have hv := h g1 g2
      have hq := feed_query vcfg hv.ground.2
      refine ⟨by rw [e1]; exact hv.rel, ?_, ?_⟩
      · rw [e1, e2, Terminal.feed_append, hq]; exact hv.same
      · intro ho
        rw [e2, e3, Terminal.feed_append, hq]
        exact hv.title (live_conout h1 rfl rfl ho)
    · exact ih h hw

theorem takeWhile_all (p : Nat → Bool) (l : List Nat) (h : ∀ b ∈ l, p b = true) : l.takeWhile p = l := by
  induction l with
  | nil => rfl
  | cons b l ih =>
    rw [List.takeWhile_cons, if_pos (h b (List.mem_cons_self ..)), ih fun b' hb' => h b' (List.mem_cons_of_mem _ hb')]

theorem title_bytes (t : List Nat) (h : Clean t) :
    ([0x1b, 0x5d, 0x30, 0x3b] ++ t ++ [0x07]).takeWhile (· ≠ 0) = [0x1b, 0x5d, 0x30, 0x3b] ++ t ++ [0x07] := by
  refine takeWhile_all _ _ ?_
  intro b hb
  simp only [List.mem_append, List.mem_cons, List.not_mem_nil, or_false] at hb
  have : b ≠ 0 := by
    rcases hb with (hb | hb) | hb
    · omega
    · have := h b hb; omega
    · omega
  simpa using this

theorem good_title (hp : cfg.plainMode = false) (hnc : .closeConout ∉ s.log) {ti : List Nat} (hc : Clean (cfg.utf8FromWide ti))
    (h : Good cfg vcfg e0 line s cs) (hw : syncConsoleTitle cfg s ti = some s') :
    Good cfg vcfg e0 line s' cs := by
  unfold syncConsoleTitle at hw
  split at hw
  · split at hw
    · intro g1 g2
      have hv := h g1 g2
      obtain ⟨e1, e2, e3, e4, _⟩ := writeConout_eq hw
      have e1 : s'.term = s.term := e1
      rw [title_bytes _ hc] at e2
      have e2 : outBytes s'.log = outBytes s.log ++ ([0x1b, 0x5d, 0x30, 0x3b] ++ cfg.utf8FromWide ti ++ [0x07]) := e2
      have e3 : s'.title = ti := e3
      have hq := feed_title vcfg hv.ground.2 (cfg.utf8FromWide ti) (fun b hb => by have := hc b hb; omega)
      refine ⟨by rw [e1]; exact hv.rel, ?_, ?_⟩
      · rw [e1, e2, Terminal.feed_append, hq]
        exact hv.same.trans ⟨_, rfl⟩
      · intro _
        right
        rw [e2, e3, Terminal.feed_append, hq]
    · rename_i hn
      simp only [Option.some.injEq] at hw
      subst hw
      intro g1 g2
      have hv := h g1 g2
      refine ⟨hv.rel, hv.same, ?_⟩
      intro ho
      have ho : s.conout.pipe.opened = true := ho.resolve_right hnc
      simp [hp, NamedPipe.Pipe.isClosed, ho] at hn
  · simp only [Option.some.injEq] at hw; subst hw; exact h

end

/-! ## The log -/

/-- How many packets have been handled. -/
def packets : List Entry → Nat
  | [] => 0
  | .packet _ :: log => packets log + 1
  | _ :: log => packets log

theorem packets_append (a b : List Entry) : packets (a ++ b) = packets a + packets b := by
  induction a with
  | nil => simp [packets]
  | cons e a ih => cases e <;> simp [packets, ih] <;> omega

theorem scrapes_append (a b : List Entry) : scrapes (a ++ b) = scrapes a + scrapes b := by
  induction a with
  | nil => simp [scrapes]
  | cons e a ih => cases e <;> simp [scrapes, ih] <;> omega

theorem callsMade_append (env : Nat → PacketEnv) (a b : List Entry) : ∀ (n : Nat) (ps : List PollEnv),
    callsMade env n ps (a ++ b) =
      callsMade env n ps a ++ callsMade env (n + packets a) (ps.drop (scrapes a)) b := by
  induction a with
  | nil => intro n ps; simp [callsMade, packets, scrapes]
  | cons e a ih =>
    intro n ps
    cases e with
    | packet p =>
      simp only [List.cons_append, callsMade, packets, scrapes, ih]
      rw [show n + 1 + packets a = n + (packets a + 1) by omega]
    | resized c r =>
      cases n with
      | zero => simp only [List.cons_append, callsMade, packets, scrapes, ih]
      | succ n => simp only [List.cons_append, callsMade, packets, scrapes, ih, List.append_assoc]
    | scraped =>
      cases ps with
      | nil => cases n <;> simp only [List.cons_append, callsMade, packets, scrapes, ih, List.drop_nil]
      | cons q ps =>
        simp only [List.cons_append, callsMade, packets, scrapes, ih, List.append_assoc, List.drop_succ_cons]
    | _ => simp only [List.cons_append, callsMade, packets, scrapes, ih]

/-- An entry that is neither a packet nor a resize nor a scrape. -/
def Idle : Entry → Prop
  | .packet _ | .resized _ _ | .scraped => False
  | _ => True

theorem idle_facts : ∀ (es : List Entry), (∀ e ∈ es, Idle e) → ∀ (env : Nat → PacketEnv) (n : Nat)
    (ps : List PollEnv), packets es = 0 ∧ scrapes es = 0 ∧ callsMade env n ps es = [] := by
  intro es
  induction es with
  | nil => intro _ env n ps; simp [packets, scrapes, callsMade]
  | cons e es ih =>
    intro h env n ps
    obtain ⟨a, b, c⟩ := ih (fun e he => h e (List.mem_cons_of_mem _ he)) env n ps
    have he := h e (List.mem_cons_self ..)
    cases e <;> simp only [Idle] at he <;> simp [packets, scrapes, callsMade, a, b, c]

/-! ## One step at a time -/

section
variable (cfg : Agent.Cfg) (vcfg : Spec.Vt.Cfg) (e0 : Emu) (line : Int) (polls : List PollEnv)

/-- The client's terminal after `k` scrapes, when the console's title was last seen to be `ti` and the
mouse is wanted if `mo`; `cl` says that the agent is closing its pipes. -/
structure V (k : Nat) (ti : List Nat) (mo cl : Bool) (s : State) : Prop where
  served : s.served = packets s.log
  scraped : scrapes s.log = k
  titleEq : s.title = ti
  mouseEq : s.term.mouseModeEnabled = mo
  closingEq : s.closing = cl
  plain : s.term.plainMode = false
  good : Good cfg vcfg e0 line s (callsMade cfg.env 0 polls s.log)

end

section
variable {cfg : Agent.Cfg} {vcfg : Spec.Vt.Cfg} {e0 : Emu} {line : Int} {polls : List PollEnv}
  {k : Nat} {ti : List Nat} {mo cl : Bool} {s s' : State}

theorem V.idle (h : V cfg vcfg e0 line polls k ti mo cl s) {es : List Entry} {ti' : List Nat} {mo' cl' : Bool}
    (hl : s'.log = s.log ++ es)
    (he : ∀ e ∈ es, Idle e) (h1 : s'.served = s.served) (h2 : s'.title = ti')
    (h3 : s'.term.mouseModeEnabled = mo') (h4 : s'.closing = cl')
    (h5 : s'.term.plainMode = s.term.plainMode)
    (hg : Good cfg vcfg e0 line s' (callsMade cfg.env 0 polls s.log)) :
    V cfg vcfg e0 line polls k ti' mo' cl' s' := by
  obtain ⟨a, b, c⟩ := idle_facts es he cfg.env (0 + packets s.log) (polls.drop (scrapes s.log))
  refine ⟨?_, ?_, h2, h3, h4, h5.trans h.plain, ?_⟩
  · rw [h1, h.served, hl, packets_append, a]; rfl
  · rw [hl, scrapes_append, b, h.scraped]; rfl
  · rw [hl, callsMade_append, c, List.append_nil]; exact hg

/-- A step that leaves the terminal, its bytes and the title alone. -/
theorem V.aside (h : V cfg vcfg e0 line polls k ti mo cl s) {es : List Entry} {cl' : Bool}
    (hl : s'.log = s.log ++ es) (he : ∀ e ∈ es, Idle e) (ho : outBytes es = [])
    (h1 : s'.served = s.served) (h2 : s'.title = s.title) (h3 : s'.term = s.term)
    (h4 : s'.closing = cl') (h5 : s'.conout.pipe.opened = true → s.conout.pipe.opened = true)
    (h6 : .closeConout ∈ es → s.conout.pipe.opened = true := by simp) :
    V cfg vcfg e0 line polls k ti mo cl' s' :=
  h.idle hl he h1 (h2.trans h.titleEq) (by rw [h3]; exact h.mouseEq) h4 (by rw [h3])
    (h.good.congr h3 (by rw [hl, outBytes_append, ho, List.append_nil]) h2 (Live.back hl h5 h6))

theorem useError_V {src : Source} {calls : List TermCall} (h : V cfg vcfg e0 line polls k ti mo cl s)
    (hw : useError s src calls = some s') : V cfg vcfg e0 line polls k ti mo cl s' := by
  unfold useError at hw
  split at hw
  · simp only [Option.some.injEq] at hw; subst hw; exact h
  · split at hw
    · cases hw
    · unfold writeConerr at hw
      split at hw
      · simp only [Option.some.injEq] at hw; subst hw
        exact h.aside (es := []) (by simp) (by simp) rfl rfl rfl rfl h.closingEq id
      · split at hw
        · cases hw
        · simp only [Option.some.injEq] at hw; subst hw
          exact h.aside rfl (by simp [Idle]) rfl rfl rfl rfl h.closingEq id

theorem writePacket_V {fs : List Buffer.Field} (h : V cfg vcfg e0 line polls k ti mo cl s)
    (hw : writePacket s fs = some s') : V cfg vcfg e0 line polls k ti mo cl s' := by
  unfold writePacket at hw
  split at hw
  · cases hw
  · split at hw
    · cases hw
    · simp only [Option.some.injEq] at hw
      subst hw
      exact h.aside rfl (by simp [Idle]) rfl rfl rfl rfl h.closingEq id

/-- The scraper makes calls that the log accounts for. -/
theorem usePrimary_V (hcfg : CfgOk vcfg) {src : Source} {calls : List TermCall} {es : List Entry} {k' : Nat}
    {u : State}
    (h : V cfg vcfg e0 line polls k ti mo cl s)
    (hl : u.log = s.log ++ es) (h1 : u.term = s.term) (h2 : u.title = s.title) (h3 : u.conout = s.conout)
    (h4 : u.closing = s.closing) (h5 : u.served = packets u.log) (h6 : scrapes u.log = k')
    (ho : outBytes es = []) (hne : .closeConout ∉ es)
    (hc : callsMade cfg.env (packets s.log) (polls.drop k) es = calls)
    (hw : usePrimary u src calls = some s') : V cfg vcfg e0 line polls k' ti mo cl s' := by
  have g0 : Good cfg vcfg e0 line u (callsMade cfg.env 0 polls s.log) :=
    h.good.congr h1 (by rw [hl, outBytes_append, ho, List.append_nil]) h2
      (Live.back hl (by rw [h3]; exact id) (fun h => absurd h hne))
  have g := good_primary hcfg g0 hw
  unfold usePrimary at hw
  split at hw
  · cases hw
  · rename_i t' ht
    have hx := termExt_calls calls _ _ ht
    obtain ⟨e1, e2, e3, e4, e5, e6, es', e7, e8⟩ := writeConout_eq hw
    have hi : ∀ e ∈ es', Idle e := fun e he => by rw [e8 e he]; trivial
    obtain ⟨a, b, c⟩ := idle_facts es' hi cfg.env (0 + packets u.log) (polls.drop (scrapes u.log))
    refine ⟨?_, ?_, ?_, ?_, ?_, ?_, ?_⟩
    · rw [e5, e7, packets_append, a]; exact h5
    · rw [e7, scrapes_append, b]; exact h6
    · rw [e3]; exact h2.trans h.titleEq
    · rw [e1]
      show t'.mouseModeEnabled = mo
      rw [hx.2.1, h1]; exact h.mouseEq
    · rw [e6]; exact h4.trans h.closingEq
    · rw [e1]
      show t'.plainMode = false
      rw [hx.2.2, h1]; exact h.plain
    · have e7 : s'.log = u.log ++ es' := e7
      rw [e7, callsMade_append, c, List.append_nil, hl, callsMade_append, Nat.zero_add, h.scraped, hc]
      exact g

theorem conout_V {src : Source} {b : List Nat} {u : State} {ti' : List Nat} {mo' : Bool}
    (h : V cfg vcfg e0 line polls k ti mo cl s)
    (hl : u.log = s.log) (h1 : u.served = s.served) (h2 : u.title = ti')
    (h3 : u.term.mouseModeEnabled = mo') (h4 : u.closing = s.closing) (h5 : u.term.plainMode = s.term.plainMode)
    (hw : writeConout u src b = some s')
    (hg : Good cfg vcfg e0 line s' (callsMade cfg.env 0 polls s.log)) :
    V cfg vcfg e0 line polls k ti' mo' cl s' := by
  obtain ⟨e1, e2, e3, e4, e5, e6, es', e7, e8⟩ := writeConout_eq hw
  refine h.idle (es := es') (by rw [e7, hl]) (fun e he => by rw [e8 e he]; trivial) (e5.trans h1) (e3.trans h2)
    (by rw [e1]; exact h3) (e6.trans (h4.trans h.closingEq)) (by rw [e1]; exact h5) hg

theorem dsrs_V : ∀ (n : Nat) {s : State}, V cfg vcfg e0 line polls k ti mo cl s → sendDsrs cfg s n = some s' →
    V cfg vcfg e0 line polls k ti mo cl s' := by
  intro n
  induction n with
  | zero => intro s h hw; simp only [sendDsrs, Option.some.injEq] at hw; subst hw; exact h
  | succ n ih =>
    intro s h hw
    simp only [sendDsrs] at hw
    split at hw
    · rename_i hc
      rw [Option.bind_eq_some_iff] at hw
      obtain ⟨s1, h1, h2⟩ := hw
      refine ih (conout_V h rfl rfl h.titleEq h.mouseEq rfl rfl h1 ?_) h2
      refine good_dsrs 1 h.good ?_
      simp only [sendDsrs, if_pos hc, h1, Option.bind_some]
    · exact ih h hw

theorem title_V (hp : cfg.plainMode = false) (hnc : .closeConout ∉ s.log) {ti' : List Nat} (hc : Clean (cfg.utf8FromWide ti'))
    (h : V cfg vcfg e0 line polls k ti mo cl s) (hw : syncConsoleTitle cfg s ti' = some s') :
    V cfg vcfg e0 line polls k ti' mo cl s' := by
  have hg := good_title hp hnc hc h.good hw
  unfold syncConsoleTitle at hw
  split at hw
  · split at hw
    · exact conout_V (u := { s with title := ti' }) h rfl rfl rfl h.mouseEq rfl rfl hw hg
    · simp only [Option.some.injEq] at hw; subst hw
      exact h.idle (es := []) (by simp) (by simp) rfl rfl h.mouseEq h.closingEq rfl hg
  · rename_i hne
    simp only [Option.some.injEq] at hw; subst hw
    have : ti' = s.title := Classical.not_not.1 hne
    rw [this]
    exact h.titleEq.symm ▸ h

theorem mouse_V {on : Bool} (h : V cfg vcfg e0 line polls k ti mo cl s) (hw : setMouse s on = some s') :
    V cfg vcfg e0 line polls k ti on cl s' := by
  have hp : s.term.plainMode = true → s.term.mouseModeEnabled = false := by
    intro hp; rw [h.plain] at hp; cases hp
  have hg := good_mouse hp h.good hw
  unfold setMouse at hw
  have hm : (Terminal.enableMouseMode s.term on).mouseModeEnabled = on ∧
      (Terminal.enableMouseMode s.term on).plainMode = s.term.plainMode := by
    rcases enableMouse_cases s.term on hp with ⟨he, h1⟩ | ⟨h1, _, h2, h3, _⟩
    · rw [he]
      refine ⟨?_, rfl⟩
      rcases h1 with h1 | h1
      · rw [h.plain] at h1; cases h1
      · exact h1
    · exact ⟨h2, by rw [h3, h1]⟩
  exact conout_V (u := { s with term := Terminal.enableMouseMode s.term on }) h rfl rfl h.titleEq hm.1 rfl hm.2 hw hg

theorem autoClose_V (h : V cfg vcfg e0 line polls k ti mo cl s)
    (hw : autoClosePipesForShutdown s = some s') : V cfg vcfg e0 line polls k ti mo cl s' := by
  unfold autoClosePipesForShutdown at hw
  split at hw
  · simp only [Option.bind_eq_some_iff, Option.some.injEq] at hw
    obtain ⟨s1, h1, s2, h2, rfl⟩ := hw
    have k1 : V cfg vcfg e0 line polls k ti mo cl s1 := by
      unfold closeConoutIfDone at h1
      split at h1
      · rename_i hcon
        split at h1
        · cases h1
        · split at h1 <;> simp only [Option.some.injEq] at h1 <;> subst h1
          · simp only [NamedPipe.Pipe.isConnected, NamedPipe.Pipe.isClosed, Bool.and_eq_true, Bool.not_not] at hcon
            exact h.aside rfl (by simp [Idle]) rfl rfl rfl rfl h.closingEq (fun _ => hcon.1) (fun _ => hcon.1)
          · exact h
      · simp only [Option.some.injEq] at h1; subst h1; exact h
    have k2 : V cfg vcfg e0 line polls k ti mo cl s2 := by
      unfold closeConerrIfDone at h2
      split at h2
      · simp only [Option.some.injEq] at h2; subst h2; exact k1
      · split at h2
        · split at h2
          · cases h2
          · split at h2 <;> simp only [Option.some.injEq] at h2 <;> subst h2
            · exact k1.aside rfl (by simp [Idle]) rfl rfl rfl rfl k1.closingEq id
            · exact k1
        · simp only [Option.some.injEq] at h2; subst h2; exact k1
    unfold exitIfDone
    split
    · exact k2.aside (es := [.exit]) rfl (by simp [Idle]) rfl rfl rfl rfl k2.closingEq id
    · exact k2
  · simp only [Option.some.injEq] at hw; subst hw; exact h

theorem resizeWindow_V (hcfg : CfgOk vcfg) {cols rows : Int} {n : Nat} (h : V cfg vcfg e0 line polls k ti mo cl s)
    (hn : packets s.log = n + 1) (hw : resizeWindow s cols rows (cfg.env n) = some s') :
    V cfg vcfg e0 line polls k ti mo cl s' := by
  unfold resizeWindow at hw
  split at hw
  · rw [Option.bind_eq_some_iff] at hw
    obtain ⟨s2, h3, h4⟩ := hw
    refine useError_V (usePrimary_V hcfg (u := { s with log := s.log ++ [.resized (min cols maxConsoleWidth) (min rows maxConsoleHeight)] })
      (es := [.resized (min cols maxConsoleWidth) (min rows maxConsoleHeight)]) h rfl rfl rfl rfl rfl ?_ ?_ rfl (by simp) ?_ h3) h4
    · simp only [packets_append, packets, Nat.add_zero, h.served]
    · simp only [scrapes_append, scrapes, Nat.add_zero, h.scraped]
    · simp only [hn, callsMade, List.append_nil]
  · cases hw

theorem handlePacket_V (hcfg : CfgOk vcfg) {p : List Nat} (h : V cfg vcfg e0 line polls k ti mo cl s)
    (hw : handlePacket cfg s p = some s') : V cfg vcfg e0 line polls k ti mo cl s' := by
  unfold handlePacket at hw
  split at hw
  · have k0 : V cfg vcfg e0 line polls k ti mo cl { s with served := s.served + 1, log := s.log ++ [.packet p] } := by
      refine ⟨?_, ?_, h.titleEq, h.mouseEq, h.closingEq, h.plain, ?_⟩
      · show s.served + 1 = packets (s.log ++ [.packet p])
        rw [packets_append, h.served]; rfl
      · show scrapes (s.log ++ [.packet p]) = k
        rw [scrapes_append, h.scraped]; rfl
      · show Good cfg vcfg e0 line _ (callsMade cfg.env 0 polls (s.log ++ [.packet p]))
        rw [callsMade_append]
        simp only [callsMade, List.append_nil]
        exact h.good.congr rfl (by simp [outBytes_append, outBytes]) rfl
          (Live.back (es := [.packet p]) rfl id (by simp))
    have hn : packets (s.log ++ [.packet p]) = s.served + 1 := by
      rw [packets_append, h.served]; rfl
    unfold Agent.dispatch at hw
    split at hw
    · unfold handleStartProcessPacket at hw
      split at hw
      · cases hw
      · split at hw
        · split at hw
          · unfold startProcess at hw
            split at hw
            · refine writePacket_V ?_ hw
              exact k0.aside rfl (by simp [Idle]) rfl rfl rfl rfl k0.closingEq id
            · refine writePacket_V ?_ hw
              exact k0.aside rfl (by simp [Idle]) rfl rfl rfl rfl k0.closingEq id
          · cases hw
        · cases hw
    · split at hw
      · unfold handleSetSizePacket at hw
        split at hw
        · split at hw
          · rw [Option.bind_eq_some_iff] at hw
            obtain ⟨s1, h1, h2⟩ := hw
            refine writePacket_V ?_ h2
            exact resizeWindow_V hcfg k0 (n := s.served) hn h1
          · cases hw
        · cases hw
      · split at hw
        · unfold handleGetConsoleProcessListPacket at hw
          split at hw
          · exact writePacket_V k0 hw
          · cases hw
        · simp only [Option.some.injEq] at hw
          subst hw
          exact k0
  · cases hw

theorem pollLoop_V (hcfg : CfgOk vcfg) (q : List Nat) (rbs : Nat) (s : State) (a : Framing.Agent State)
    (ho : V cfg vcfg e0 line polls k ti mo cl s)
    (h : Framing.pollLoop cfg.buffer.sizeMax (handlePacket cfg) s q rbs = .running a) :
    V cfg vcfg e0 line polls k ti mo cl a.handler := by
  induction hl : q.length using Nat.strongRecOn generalizing s q with
  | ind n ih =>
    subst hl
    rw [Framing.pollLoop] at h
    split at h
    · cases h; exact ho
    · split at h
      · cases h
      · split at h
        · cases h; exact ho
        · rename_i h8 hn hlt
          split at h
          · cases h
          · rename_i s1 hs1
            exact ih _ (by rw [List.length_drop]; omega) _ _ (handlePacket_V hcfg ho hs1) h rfl

/-- The turns of the pipes. -/
theorem pipes_V (hcfg : CfgOk vcfg) {t : Tick} {s1 s2 s3 s4 : State} (hr : Rest s) (hx : s.exiting = false)
    (h : V cfg vcfg e0 line polls k ti mo cl s)
    (h1 : tickControl cfg s t = some s1) (h2 : tickConin cfg s1 t = some s2)
    (h3 : tickConout s2 t = some s3) (h4 : tickConerr s3 t = some s4) :
    V cfg vcfg e0 line polls k ti mo cl s4 := by
  have r1 := tickControl_rest hr hx h1
  have r2 := (tickConin_rest r1 h2).1
  have k1 : V cfg vcfg e0 line polls k ti mo cl s1 := by
    unfold tickControl at h1
    split at h1
    · cases h1
    · rename_i p did hp
      have k : V cfg vcfg e0 line polls k ti mo cl { s with control := p } :=
        h.aside (es := []) (by simp) (by simp) rfl rfl rfl rfl h.closingEq id
      split at h1
      · unfold pollControlPipe at h1
        split at h1
        · simp only [Option.some.injEq] at h1; subst h1
          exact k.aside (es := [.exit]) rfl (by simp [Idle]) rfl rfl rfl rfl k.closingEq id
        · split at h1
          · cases h1
          · rename_i a ha
            have := pollLoop_V hcfg _ _ _ _ k ha
            simp only [Option.some.injEq] at h1; subst h1
            exact this.aside (es := []) (by simp) (by simp) rfl rfl rfl rfl this.closingEq id
      · simp only [Option.some.injEq] at h1; subst h1; exact k
  have k2 : V cfg vcfg e0 line polls k ti mo cl s2 := by
    unfold tickConin at h2
    split at h2
    · cases h2
    · rename_i p did hp
      split at h2
      · unfold pollConinPipe at h2
        split at h2
        · cases h2
        · rename_i q _ _
          exact dsrs_V _ (s := { s1 with conin := q })
            (k1.aside (es := []) (by simp) (by simp) rfl rfl rfl rfl k1.closingEq id) h2
      · simp only [Option.some.injEq] at h2; subst h2
        exact k1.aside (es := []) (by simp) (by simp) rfl rfl rfl rfl k1.closingEq id
  have k3 : V cfg vcfg e0 line polls k ti mo cl s3 := by
    unfold tickConout at h3
    split at h3
    · cases h3
    · rename_i p did hp
      have hf := (servicePipe_facts r2.pre.inv.out hp).2.2.2.1
      have k : V cfg vcfg e0 line polls k ti mo cl { s2 with conout := p } := by
        refine k2.aside (es := []) (by simp) (by simp) rfl rfl rfl rfl k2.closingEq ?_
        intro ho
        cases hop : s2.conout.pipe.opened with
        | true => rfl
        | false =>
          have ho : p.pipe.opened = true := ho
          rw [(hf hop).1, hop] at ho
          cases ho
      split at h3
      · exact autoClose_V k h3
      · simp only [Option.some.injEq] at h3; subst h3; exact k
  unfold tickConerr at h4
  split at h4
  · simp only [Option.some.injEq] at h4; subst h4; exact k3
  · rename_i q term he
    split at h4
    · cases h4
    · rename_i p did hp
      have k : V cfg vcfg e0 line polls k ti mo cl { s3 with err := some (p, term) } :=
        k3.aside (es := []) (by simp) (by simp) rfl rfl rfl rfl k3.closingEq id
      split at h4
      · exact autoClose_V k h4
      · simp only [Option.some.injEq] at h4; subst h4; exact k

theorem checkChild_V {e : PollEnv} (h : V cfg vcfg e0 line polls k ti mo cl s) :
    V cfg vcfg e0 line polls k ti mo (checkChild s e).closing (checkChild s e) := by
  unfold checkChild
  split
  · exact h.aside rfl (by simp [Idle]) rfl rfl rfl rfl rfl id
  · exact h.closingEq ▸ h

theorem poll_V (hcfg : CfgOk vcfg) (hp : cfg.plainMode = false) {e : PollEnv} {rest : List PollEnv}
    (hc : Clean (cfg.utf8FromWide e.title)) (hi : Inv s) (h : V cfg vcfg e0 line polls k ti mo cl s)
    (hd : cl = false → polls.drop k = e :: rest) (hw : onPollTimeout cfg s e = some s') :
    V cfg vcfg e0 line polls (if cl then k else k + 1) (if cl then ti else e.title)
      (e.wantMouse && !s'.closing) s'.closing s' ∧ (cl = true → s'.closing = true) := by
  unfold onPollTimeout at hw
  simp only [Option.bind_eq_some_iff] at hw
  obtain ⟨s3, h3, s4, h4, h5⟩ := hw
  have kc := checkChild_V (e := e) h
  have hcc : cl = true → (checkChild s e).closing = true := by
    intro hcl
    have := h.closingEq.trans hcl
    unfold checkChild
    split
    · rfl
    · exact this
  have k3 : V cfg vcfg e0 line polls (if cl then k else k + 1) (if cl then ti else e.title) mo
      (checkChild s e).closing s3 := by
    have hcl := h.closingEq
    split at h3
    · rename_i hn
      have hcl : cl = false := by rw [← hcl]; simpa using hn
      subst hcl
      rw [Option.bind_eq_some_iff] at h3
      obtain ⟨u, u1, u2⟩ := h3
      have hnc : Entry.closeConout ∉ (checkChild s e).log := by
        have h0 : Entry.closeConout ∉ s.log := by
          intro hm
          obtain ⟨pre, post, hsp⟩ := List.append_of_mem hm
          obtain ⟨_, _, ⟨x, y, hxy, _⟩, _⟩ := hi.closedOut pre post hsp
          have : s.closing = true := hi.closing.2 (by rw [hsp, hxy]; simp)
          rw [h.closingEq] at this
          cases this
        unfold checkChild
        split
        · simp [h0]
        · exact h0
      have ku := title_V hp hnc hc kc u1
      unfold scrapeBuffers at u2
      rw [Option.bind_eq_some_iff] at u2
      obtain ⟨v, v1, v2⟩ := u2
      refine useError_V (usePrimary_V hcfg (u := { u with log := u.log ++ [.scraped] }) ku (es := [.scraped]) rfl rfl rfl rfl rfl ?_ ?_ rfl (by simp) ?_ v1) v2
      · show u.served = packets (u.log ++ [.scraped])
        rw [packets_append]; exact ku.served
      · show scrapes (u.log ++ [.scraped]) = k + 1
        rw [scrapes_append, ku.scraped]; rfl
      · rw [hd rfl]
        cases packets u.log <;> simp [callsMade]
    · rename_i hn
      have hcl : cl = true := by rw [← hcl]; simpa using hn
      subst hcl
      simp only [Option.some.injEq] at h3; subst h3
      exact kc
  have k4 := mouse_V k3 h4
  have k5 := autoClose_V k4 h5
  have e3 := k3.closingEq
  have e5 := k5.closingEq
  rw [e3] at k5
  rw [e5]
  exact ⟨k5, hcc⟩

/-- What the first `k` polls and the closing of the pipes say about the title and the mouse. -/
structure Tracks (polls : List PollEnv) (k : Nat) (ti : List Nat) (mo cl : Bool) : Prop where
  title : (k = 0 ∧ ti = [0x20]) ∨ lastTitle (polls.take k) = some ti
  mouse : mo = (lastMouse (polls.take k) && !cl)

theorem take_drop_succ {α : Type} : ∀ (l : List α) (k : Nat) (a : α) (r : List α), l.drop k = a :: r →
    l.take (k + 1) = l.take k ++ [a] ∧ l.drop (k + 1) = r := by
  intro l
  induction l with
  | nil => intro k a r h; simp at h
  | cons b l ih =>
    intro k a r h
    cases k with
    | zero => simp only [List.drop_zero, List.cons.injEq] at h; obtain ⟨rfl, rfl⟩ := h; simp
    | succ k =>
      simp only [List.drop_succ_cons] at h
      obtain ⟨h1, h2⟩ := ih k a r h
      exact ⟨by rw [List.take_succ_cons, h1, List.take_succ_cons, List.cons_append], by rw [List.drop_succ_cons, h2]⟩

theorem loop_V (hcfg : CfgOk vcfg) (hp : cfg.plainMode = false) :
    ∀ (ts : List Tick) {s : State} {k : Nat} {ti : List Nat} {mo cl : Bool}, Rest s →
    V cfg vcfg e0 line polls k ti mo cl s →
    Tracks polls k ti mo cl →
    (cl = false → polls.drop k = ts.filterMap (·.poll)) →
    (∀ t ∈ ts, ∀ e, t.poll = some e → Clean (cfg.utf8FromWide e.title)) →
    loop cfg s ts = some s' →
    Rest s' ∧ ∃ k' ti' mo' cl', V cfg vcfg e0 line polls k' ti' mo' cl' s' ∧ Tracks polls k' ti' mo' cl' := by
  intro ts
  induction ts with
  | nil =>
    intro s k ti mo cl hr hv ht _ _ h
    simp only [loop, Option.some.injEq] at h; subst h
    exact ⟨hr, k, ti, mo, cl, hv, ht⟩
  | cons t ts ih =>
    intro s k ti mo cl hr hv ht hd hc h
    simp only [loop] at h
    split at h
    · simp only [Option.some.injEq] at h; subst h
      exact ⟨hr, k, ti, mo, cl, hv, ht⟩
    · rename_i hx
      rw [Option.bind_eq_some_iff] at h
      obtain ⟨s5, h5, h6⟩ := h
      have hx : s.exiting = false := by simpa using hx
      have r5 := tick_rest hr hx h5
      have hc' : ∀ t ∈ ts, ∀ e, t.poll = some e → Clean (cfg.utf8FromWide e.title) :=
        fun t ht => hc t (List.mem_cons_of_mem _ ht)
      unfold tick at h5
      simp only [Option.bind_eq_some_iff] at h5
      obtain ⟨s1, h1, s2, h2, s3, h3, s4, h4, h5⟩ := h5
      have k4 := pipes_V hcfg hr hx hv h1 h2 h3 h4
      cases hpo : t.poll with
      | none =>
        rw [hpo] at h5
        simp only [Option.some.injEq] at h5; subst h5
        refine ih r5 k4 ht ?_ hc' h6
        intro hcl
        rw [hd hcl, List.filterMap_cons, hpo]
      | some e =>
        rw [hpo] at h5
        have hd' : cl = false → polls.drop k = e :: ts.filterMap (·.poll) := by
          intro hcl; rw [hd hcl, List.filterMap_cons, hpo]
        obtain ⟨v5, hcc⟩ := poll_V hcfg hp (hc t (List.mem_cons_self ..) e hpo)
          (tickConerr_rest (tickConout_rest (tickConin_rest (tickControl_rest hr hx h1) h2).1 h3) h4).pre.inv k4 hd' h5
        cases cl with
        | true =>
          have hcl := hcc rfl
          rw [hcl] at v5
          refine ih r5 v5 ⟨?_, ?_⟩ ?_ hc' h6
          · exact ht.title
          · simp
          · intro h; cases h
        | false =>
          obtain ⟨e1, e2⟩ := take_drop_succ polls k e _ (hd' rfl)
          refine ih r5 v5 ⟨.inr ?_, ?_⟩ ?_ hc' h6
          · simp [lastTitle, e1]
          · simp [lastMouse, e1]
          · intro _
            simpa using e2

theorem start_V (hcfg : CfgOk vcfg) (he : FreshEmu vcfg e0) (hp : cfg.plainMode = false)
    {names : List (List Nat)} {connected : Bool × Bool × Bool} {cols rows : Int} {err : List TermCall}
    (h : start cfg names connected cols rows [.reset false line] err = some s) :
    V cfg vcfg e0 line polls 0 [0x20] false false s := by
  unfold start at h
  split at h
  · simp only [Option.bind_eq_some_iff] at h
    obtain ⟨s1, h1, s2, h2, h3⟩ := h
    refine useError_V ?_ h3
    have hr := Terminal.rel_start hcfg e0 cfg.outputColor line he
    unfold writePacket at h1
    split at h1
    · cases h1
    · rename_i by1 hb
      split at h1
      · cases h1
      · rename_i q r hq
        simp only [Option.some.injEq] at h1
        subst h1
        have hn : newBytes (Terminal.init cfg.plainMode cfg.outputColor)
            (Terminal.reset (Terminal.init cfg.plainMode cfg.outputColor) false line) = [] := by
          simp [newBytes, Terminal.reset, Terminal.init]
        simp only [usePrimary, callTerminals, callTerminal, hn, writeConout, if_true, Option.some.injEq] at h2
        subst h2
        refine ⟨rfl, rfl, rfl, rfl, rfl, hp, ?_⟩
        intro _ _
        simp only [callsMade, List.map_nil]
        rw [hp]
        refine ⟨⟨e0.row - line, ?_⟩, ?_, ?_⟩
        · exact hr
        · exact Same.refl _
        · intro _; exact .inl ⟨rfl, rfl⟩
  · cases h

/-- The client's terminal once it has read everything the agent wrote. -/
theorem reaches_view (hcfg : CfgOk vcfg) (he : FreshEmu vcfg e0) (hp : cfg.plainMode = false)
    {names : List (List Nat)} {connected : Bool × Bool × Bool} {cols rows : Int} {err : List TermCall}
    {s0 : State} {ts : List Tick}
    (hs : start cfg names connected cols rows [.reset false line] err = some s0)
    (hl : loop cfg s0 ts = some s')
    (hc : ∀ t ∈ ts, ∀ e, t.poll = some e → Clean (cfg.utf8FromWide e.title))
    (hok : OpsOk vcfg (Want.start line) ((callsMade cfg.env 0 (ts.filterMap (·.poll)) s'.log).map opOf))
    (hnr : ∀ l, .reset false l ∉ callsMade cfg.env 0 (ts.filterMap (·.poll)) s'.log) :
    Rest s' ∧ View cfg vcfg e0 line s' (callsMade cfg.env 0 (ts.filterMap (·.poll)) s'.log) ∧
    Tracks (ts.filterMap (·.poll)) (scrapes s'.log) s'.title s'.term.mouseModeEnabled s'.closing := by
  obtain ⟨hr, k, ti, mo, cl, hv, ht⟩ := loop_V (polls := ts.filterMap (·.poll)) hcfg hp ts (start_rest hs)
    (start_V hcfg he hp hs) ⟨.inl ⟨rfl, rfl⟩, by simp [lastMouse]⟩ (fun _ => rfl) hc hl
  refine ⟨hr, hv.good hok hnr, ?_⟩
  rw [hv.scraped, hv.titleEq, hv.mouseEq, hv.closingEq]
  exact ht

end

end Winpty.ClientView
