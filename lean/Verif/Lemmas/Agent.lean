import Verif.Spec.Agent
import Verif.Props.NamedPipe

/-! # Lemmas about the agent: what each handler does to the pipes and the log -/
namespace Winpty.Agent

open Winpty.Terminal (Term)

/-! ## The terminal only appends to its output -/

/-- `t'` is `t` after more output, with the same mouse mode. -/
def TermExt (t t' : Term) : Prop :=
  (∃ d, t'.out = t.out ++ d) ∧ t'.mouseModeEnabled = t.mouseModeEnabled ∧ t'.plainMode = t.plainMode

theorem TermExt.refl (t : Term) : TermExt t t := ⟨⟨[], by simp⟩, rfl, rfl⟩

theorem TermExt.trans {a b c : Term} (h : TermExt a b) (g : TermExt b c) : TermExt a c := by
  obtain ⟨⟨d, h1⟩, h2, h3⟩ := h
  obtain ⟨⟨e, g1⟩, g2, g3⟩ := g
  exact ⟨⟨d ++ e, by rw [g1, h1, List.append_assoc]⟩, g2.trans h2, g3.trans h3⟩

theorem termExt_write (t : Term) (b : List Nat) : TermExt t (Terminal.write t b) :=
  ⟨⟨b, rfl⟩, rfl, rfl⟩

/-- Other fields do not matter. -/
theorem TermExt.congr {t a b : Term} (h : TermExt t a) (h1 : b.out = a.out)
    (h2 : b.mouseModeEnabled = a.mouseModeEnabled) (h3 : b.plainMode = a.plainMode) : TermExt t b :=
  ⟨by rw [h1]; exact h.1, h2.trans h.2.1, h3.trans h.2.2⟩

theorem termExt_hide (t : Term) : TermExt t (Terminal.hideTerminalCursor t) := by
  unfold Terminal.hideTerminalCursor
  split
  · split
    · exact TermExt.refl t
    · exact (termExt_write t _).congr rfl rfl rfl
  · exact TermExt.refl t

theorem termExt_reset (t : Term) (c : Bool) (l : Int) : TermExt t (Terminal.reset t c l) := by
  unfold Terminal.reset
  simp only
  split
  · exact (termExt_write t _).congr rfl rfl rfl
  · exact (TermExt.refl t).congr rfl rfl rfl

theorem termExt_move (t : Term) (l : Int) : TermExt t (Terminal.moveTerminalToLine t l) := by
  unfold Terminal.moveTerminalToLine
  simp only
  split
  · exact TermExt.refl t
  · split
    · split
      · exact ((termExt_hide t).trans (termExt_write _ _)).congr rfl rfl rfl
      · exact ((termExt_hide t).trans (termExt_write _ _)).congr rfl rfl rfl
    · exact ((termExt_hide t).trans (termExt_write _ _)).congr rfl rfl rfl

theorem termExt_startRow (t : Term) (v : Bool) : TermExt t (Terminal.startRow t v) := by
  unfold Terminal.startRow
  split
  · exact (TermExt.refl t).congr rfl rfl rfl
  · exact ((termExt_hide t).trans (termExt_write _ _)).congr rfl rfl rfl

theorem termExt_finish (t t' : Term) (line : List ConsoleLine.Cell) (cc : Int) (s : Terminal.Loop)
    (h : Terminal.finishLine t line cc s = some t') : TermExt t t' := by
  have h0 : TermExt t { t with remoteColor := s.remoteColor } := (TermExt.refl t).congr rfl rfl rfl
  have h1 : TermExt t (if cc ≠ -1 ∧ (s.trimmedCellCount : Int) > cc then
      Terminal.hideTerminalCursor { t with remoteColor := s.remoteColor }
      else { t with remoteColor := s.remoteColor }) := by
    split
    · exact h0.trans (termExt_hide _)
    · exact h0
  unfold Terminal.finishLine at h
  simp only at h
  generalize (if cc ≠ -1 ∧ (s.trimmedCellCount : Int) > cc then
      Terminal.hideTerminalCursor { t with remoteColor := s.remoteColor }
      else { t with remoteColor := s.remoteColor }) = u at *
  have h2 : TermExt t (Terminal.write u (s.termLine.take s.trimmedLineLength)) :=
    h1.trans (termExt_write _ _)
  generalize Terminal.write u (s.termLine.take s.trimmedLineLength) = v at *
  split at h
  · cases h
  · simp only [Option.some.injEq] at h
    subst h
    split
    · exact (h2.trans (termExt_write v _)).congr rfl rfl rfl
    · exact h2.congr rfl rfl rfl

theorem termExt_send (t t' : Term) (l : Int) (cells : List ConsoleLine.Cell) (cc : Int)
    (h : Terminal.sendLine t l cells cc = some t') : TermExt t t' := by
  unfold Terminal.sendLine at h
  simp only at h
  split at h
  · cases h
  · split at h
    · cases h
    · split at h
      · cases h
      · exact ((termExt_move t l).trans (termExt_startRow _ _)).trans (termExt_finish _ _ _ _ _ h)

theorem termExt_show (t : Term) (c l : Int) : TermExt t (Terminal.showTerminalCursor t c l) := by
  have hm := termExt_move t l
  unfold Terminal.showTerminalCursor
  simp only
  generalize Terminal.moveTerminalToLine t l = m at *
  split
  · have h1 : TermExt t (if m.remoteColumn ≠ c then
        { Terminal.write m (Terminal.csi ++ Terminal.formatInt (c + 1) ++ [71]) with
          lineDataValid := decide (c = 0), lineData := [], remoteColumn := c } else m) := by
      split
      · exact (hm.trans (termExt_write _ _)).congr rfl rfl rfl
      · exact hm
    generalize (if m.remoteColumn ≠ c then
        { Terminal.write m (Terminal.csi ++ Terminal.formatInt (c + 1) ++ [71]) with
          lineDataValid := decide (c = 0), lineData := [], remoteColumn := c } else m) = u at *
    split
    · exact (h1.trans (termExt_write _ _)).congr rfl rfl rfl
    · exact h1
  · exact hm

theorem termExt_call (t t' : Term) (c : TermCall) (h : callTerminal t c = some t') : TermExt t t' := by
  cases c with
  | reset sc l => simp only [callTerminal, Option.some.injEq] at h; subst h; exact termExt_reset _ _ _
  | sendLine l cs cc => exact termExt_send _ _ _ _ _ h
  | showCursor c l => simp only [callTerminal, Option.some.injEq] at h; subst h; exact termExt_show _ _ _
  | hideCursor => simp only [callTerminal, Option.some.injEq] at h; subst h; exact termExt_hide _

theorem termExt_calls : ∀ (cs : List TermCall) (t t' : Term), callTerminals t cs = some t' →
    TermExt t t' := by
  intro cs
  induction cs with
  | nil => intro t t' h; simp only [callTerminals, Option.some.injEq] at h; subst h; exact TermExt.refl _
  | cons c cs ih =>
    intro t t' h
    simp only [callTerminals] at h
    split at h
    · cases h
    · rename_i u hu
      exact (termExt_call t u c hu).trans (ih u t' h)

theorem newBytes_append {t t' : Term} (h : TermExt t t') : t'.out = t.out ++ newBytes t t' := by
  obtain ⟨⟨d, h1⟩, _⟩ := h
  simp [newBytes, h1]

end Winpty.Agent

namespace Winpty.Agent
open Winpty.Spec.Agent
open Winpty.Terminal (Term)

/-! ## Log functions and concatenation -/

theorem outBytes_append (a b : List Entry) : outBytes (a ++ b) = outBytes a ++ outBytes b := by
  induction a with
  | nil => rfl
  | cons e es ih => cases e <;> simp [outBytes, ih]

theorem errBytes_append (a b : List Entry) : errBytes (a ++ b) = errBytes a ++ errBytes b := by
  induction a with
  | nil => rfl
  | cons e es ih => cases e <;> simp [errBytes, ih]

theorem controlBytes_append (a b : List Entry) :
    controlBytes (a ++ b) = controlBytes a ++ controlBytes b := by
  induction a with
  | nil => rfl
  | cons e es ih => cases e <;> simp [controlBytes, ih]

theorem termBytes_append (a b : List Entry) : termBytes (a ++ b) = termBytes a ++ termBytes b := by
  induction a with
  | nil => rfl
  | cons e es ih =>
    cases e with
    | conout src b => cases src <;> simp [termBytes, ih]
    | _ => simp [termBytes, ih]

theorem mouseWrites_append (a b : List Entry) :
    mouseWrites (a ++ b) = mouseWrites a ++ mouseWrites b := by
  induction a with
  | nil => rfl
  | cons e es ih =>
    cases e with
    | conout src b => cases src <;> simp [mouseWrites, ih]
    | _ => simp [mouseWrites, ih]

/-! ## Steps that only write -/

/-- A pipe with more bytes queued. -/
def push (p : NamedPipe.State) (x : List Nat) : NamedPipe.State :=
  { p with pipe := { p.pipe with outQueue := p.pipe.outQueue ++ x } }

theorem push_nil (p : NamedPipe.State) : push p [] = p := by simp [push]

theorem push_push (p : NamedPipe.State) (x y : List Nat) : push (push p x) y = push p (x ++ y) := by
  simp [push]

theorem step_write (p p' : NamedPipe.State) (b r : List Nat)
    (h : NamedPipe.step p (.write b) = some (p', r)) : p' = push p b := by
  simp only [NamedPipe.step] at h
  split at h
  · simp only [Option.some.injEq, Prod.mk.injEq] at h
    exact h.1.symm
  · cases h

/-- Between `s` and `s'` the agent only logged entries satisfying `P` and queued on the pipes what
the log says; nothing else that matters here changed. -/
structure Writes (P : Entry → Prop) (s s' : State) : Prop where
  ex : ∃ es, s'.log = s.log ++ es ∧ (∀ e ∈ es, P e) ∧ s'.conout = push s.conout (outBytes es) ∧
    s'.err.map Prod.fst = s.err.map (fun pt => push pt.1 (errBytes es)) ∧
    s'.control = push s.control (controlBytes es) ∧ s'.term.out = s.term.out ++ termBytes es
  conin : s'.conin = s.conin
  closing : s'.closing = s.closing
  exiting : s'.exiting = s.exiting
  exitAfter : s.closing = true → s'.exitAfterShutdown = s.exitAfterShutdown
  child : s.closing = true → s'.child = s.child
  plain : s'.term.plainMode = s.term.plainMode

theorem Writes.refl {P : Entry → Prop} (s : State) : Writes P s s :=
  ⟨⟨[], by simp, by simp, by simp [outBytes, push_nil], by simp [errBytes, push_nil],
    by simp [controlBytes, push_nil], by simp [termBytes]⟩, rfl, rfl, rfl, fun _ => rfl, fun _ => rfl, rfl⟩

theorem Writes.mono {P Q : Entry → Prop} {s s' : State} (h : Writes P s s') (hpq : ∀ e, P e → Q e) :
    Writes Q s s' := by
  obtain ⟨⟨es, h1, h2, h3⟩, h4, h5, h6, h7, h8, h9⟩ := h
  exact ⟨⟨es, h1, fun e he => hpq e (h2 e he), h3⟩, h4, h5, h6, h7, h8, h9⟩

theorem Writes.trans {P : Entry → Prop} {a b c : State} (h : Writes P a b) (g : Writes P b c) :
    Writes P a c := by
  obtain ⟨⟨es, h1, h2, h3, h4, h5, h6⟩, h7, h8, h9, h10, h11, h12⟩ := h
  obtain ⟨⟨fs, g1, g2, g3, g4, g5, g6⟩, g7, g8, g9, g10, g11, g12⟩ := g
  refine ⟨⟨es ++ fs, by rw [g1, h1, List.append_assoc], ?_, by rw [g3, h3, push_push, outBytes_append],
    ?_, by rw [g5, h5, push_push, controlBytes_append], by rw [g6, h6, termBytes_append, List.append_assoc]⟩,
    g7.trans h7, g8.trans h8, g9.trans h9, fun hc => (g10 (h8.trans hc)).trans (h10 hc),
    fun hc => (g11 (h8.trans hc)).trans (h11 hc), g12.trans h12⟩
  · intro e he
    rcases List.mem_append.1 he with he | he
    · exact h2 e he
    · exact g2 e he
  · rw [g4]
    have : b.err.map (fun pt => push pt.1 (errBytes fs)) =
        (b.err.map Prod.fst).map (fun p => push p (errBytes fs)) := by simp [Function.comp_def]
    rw [this, h4]
    simp [push_push, errBytes_append, Function.comp_def]

/-- The source of terminal output. -/
def TermSource (src : Source) : Prop := src = .scrape ∨ src = .resize ∨ src = .mouse

theorem writes_conout {s s' : State} {src : Source} {b : List Nat} (t : Term)
    (hsrc : TermSource src → t.out = s.term.out ++ b) (hsrc' : ¬ TermSource src → t.out = s.term.out)
    (hp : t.plainMode = s.term.plainMode)
    (h : writeConout { s with term := t } src b = some s') :
    Writes (fun e => e = .conout src b) s s' ∧ s'.term = t := by
  unfold writeConout at h
  split at h
  · rename_i hb
    simp only [Option.some.injEq] at h
    subst h; subst hb
    refine ⟨⟨⟨[], by simp, by simp, by simp [outBytes, push_nil], by simp [errBytes, push_nil],
      by simp [controlBytes, push_nil], ?_⟩, rfl, rfl, rfl, fun _ => rfl, fun _ => rfl, hp⟩, rfl⟩
    by_cases hs : TermSource src
    · simpa [termBytes] using hsrc hs
    · simpa [termBytes] using hsrc' hs
  · split at h
    · cases h
    · rename_i p r hst
      simp only [Option.some.injEq] at h
      subst h
      refine ⟨⟨⟨[.conout src b], rfl, by simp, ?_, by simp [errBytes, push_nil],
        by simp [controlBytes, push_nil], ?_⟩, rfl, rfl, rfl, fun _ => rfl, fun _ => rfl, hp⟩, rfl⟩
      · have := step_write _ _ _ _ hst
        simpa [outBytes] using this
      · by_cases hs : TermSource src
        · have h1 := hsrc hs
          rcases hs with hs | hs | hs <;> subst hs <;> simpa [termBytes] using h1
        · have h1 := hsrc' hs
          cases src <;> simp [TermSource] at hs <;> simpa [termBytes] using h1

theorem writes_primary {s s' : State} {src : Source} {calls : List TermCall} (hs : TermSource src)
    (h : usePrimary s src calls = some s') :
    Writes (IsOutput src) s s' ∧ s'.term.mouseModeEnabled = s.term.mouseModeEnabled := by
  unfold usePrimary at h
  split at h
  · cases h
  · rename_i t' ht
    have hx := termExt_calls calls _ _ ht
    obtain ⟨h1, h2⟩ := writes_conout t' (fun _ => newBytes_append hx) (fun hn => absurd hs hn) hx.2.2 h
    exact ⟨h1.mono (fun e he => .inl ⟨_, he⟩), by rw [h2]; exact hx.2.1⟩

theorem writes_error {s s' : State} {src : Source} {calls : List TermCall}
    (h : useError s src calls = some s') :
    Writes (IsOutput src) s s' ∧ s'.term = s.term := by
  unfold useError at h
  split at h
  · simp only [Option.some.injEq] at h; subst h; exact ⟨Writes.refl s, rfl⟩
  · rename_i p t he
    split at h
    · cases h
    · rename_i t' ht
      unfold writeConerr at h
      split at h
      · simp only [Option.some.injEq] at h
        subst h
        exact ⟨⟨⟨[], by simp, by simp, by simp [outBytes, push_nil], by simp [errBytes, push_nil, he],
          by simp [controlBytes, push_nil], by simp [termBytes]⟩, rfl, rfl, rfl, fun _ => rfl, fun _ => rfl, rfl⟩, rfl⟩
      · split at h
        · cases h
        · rename_i p' r hst
          simp only [Option.some.injEq] at h
          subst h
          refine ⟨⟨⟨[.conerr src (newBytes t t')], rfl, ?_, by simp [outBytes, push_nil], ?_,
            by simp [controlBytes, push_nil], by simp [termBytes]⟩, rfl, rfl, rfl, fun _ => rfl,
            fun _ => rfl, rfl⟩, rfl⟩
          · intro e he'
            rw [List.mem_singleton] at he'
            exact .inr ⟨_, he'⟩
          · have := step_write _ _ _ _ hst
            simp [errBytes, he, this]

theorem writes_packet {s s' : State} {fs : List Buffer.Field} (h : writePacket s fs = some s') :
    Writes (fun e => ∃ b, e = .control b) s s' ∧ s'.term = s.term := by
  unfold writePacket at h
  split at h
  · cases h
  · rename_i b hb
    split at h
    · cases h
    · rename_i p r hst
      simp only [Option.some.injEq] at h
      subst h
      refine ⟨⟨⟨[.control b], rfl, by simp, by simp [outBytes, push_nil], by simp [errBytes, push_nil],
        ?_, by simp [termBytes]⟩, rfl, rfl, rfl, fun _ => rfl, fun _ => rfl, rfl⟩, rfl⟩
      simpa [controlBytes] using step_write _ _ _ _ hst

theorem writes_dsrs {cfg : Cfg} : ∀ (n : Nat) {s s' : State}, sendDsrs cfg s n = some s' →
    Writes (IsOutput .dsr) s s' ∧ s'.term = s.term := by
  intro n
  induction n with
  | zero =>
    intro s s' h
    simp only [sendDsrs, Option.some.injEq] at h; subst h; exact ⟨Writes.refl s, rfl⟩
  | succ n ih =>
    intro s s' h
    simp only [sendDsrs] at h
    split at h
    · rw [Option.bind_eq_some_iff] at h
      obtain ⟨s1, h1, h2⟩ := h
      obtain ⟨g1, g2⟩ := writes_conout s.term (src := .dsr) (fun hs => by simp [TermSource] at hs)
        (fun _ => rfl) rfl h1
      obtain ⟨i1, i2⟩ := ih h2
      exact ⟨(g1.mono (fun e he => .inl ⟨_, he⟩)).trans i1, i2.trans g2⟩
    · exact ih h

/-- An extra log entry that is neither output nor a reply. -/
def Silent : Entry → Prop
  | .conout _ _ | .conerr _ _ | .control _ => False
  | _ => True

theorem writes_log (s : State) (e : Entry) (he : Silent e) (n : Nat) :
    Writes (fun x => x = e) s { s with log := s.log ++ [e], served := n } := by
  refine ⟨⟨[e], rfl, by simp, ?_, ?_, ?_, ?_⟩, rfl, rfl, rfl, fun _ => rfl, fun _ => rfl, rfl⟩ <;>
    cases e <;> simp_all [Silent, outBytes, errBytes, controlBytes, termBytes, push_nil]

/-- What handling a request can log. -/
def RequestEntry (e : Entry) : Prop := (IsRequest e ∧ SizeOk e) ∨ IsOutput .resize e

theorem writes_resize {s s' : State} {cols rows : Int} {e : PacketEnv}
    (h : resizeWindow s cols rows e = some s') :
    Writes (fun x => x = .resized (min cols maxConsoleWidth) (min rows maxConsoleHeight) ∨
      IsOutput .resize x) s s' ∧ s'.term.mouseModeEnabled = s.term.mouseModeEnabled ∧ 1 ≤ cols ∧ 1 ≤ rows := by
  unfold resizeWindow at h
  split at h
  · rename_i hge
    rw [Option.bind_eq_some_iff] at h
    obtain ⟨s1, h1, h2⟩ := h
    obtain ⟨g1, g2⟩ := writes_primary (by simp [TermSource]) h1
    obtain ⟨k1, k2⟩ := writes_error h2
    have h0 := writes_log s (.resized (min cols maxConsoleWidth) (min rows maxConsoleHeight)) trivial s.served
    exact ⟨((h0.mono (fun _ h => .inl h)).trans (g1.mono (fun _ h => .inr h))).trans
      (k1.mono (fun _ h => .inr h)), by rw [k2]; exact g2, hge⟩
  · cases h

theorem writes_startProcess {s s' : State} {args : CreateArgs} {flags : Int} {wp wt : Bool}
    {e : PacketEnv} (hc : s.closing = false) (h : startProcess s args flags wp wt e = some s') :
    Writes RequestEntry s s' ∧ s'.term = s.term := by
  have hx : ∀ e, (∃ b, e = Entry.control b) → RequestEntry e := by
    rintro e ⟨b, rfl⟩; exact .inl ⟨trivial, trivial⟩
  have hnc : ∀ P : Prop, s.closing = true → P := fun P h => by rw [hc] at h; cases h
  unfold startProcess at h
  split at h
  · obtain ⟨g1, g2⟩ := writes_packet h
    refine ⟨Writes.trans ?_ (g1.mono hx), g2⟩
    exact ⟨⟨[.createProcess args], rfl, fun e he => by
        rw [List.mem_singleton] at he; subst he; exact .inl ⟨trivial, trivial⟩, by simp [outBytes, push_nil],
        by simp [errBytes, push_nil], by simp [controlBytes, push_nil], by simp [termBytes]⟩, rfl, rfl, rfl,
        hnc _, hnc _, rfl⟩
  · obtain ⟨g1, g2⟩ := writes_packet h
    refine ⟨Writes.trans ?_ (g1.mono hx), g2⟩
    exact (writes_log s (.createProcess args) trivial s.served).mono (by rintro e rfl; exact .inl ⟨trivial, trivial⟩)

theorem writes_handlePacket {cfg : Cfg} {s s' : State} {p : List Nat}
    (h : handlePacket cfg s p = some s') :
    Writes RequestEntry s s' ∧ s'.term.mouseModeEnabled = s.term.mouseModeEnabled := by
  have hx : ∀ e, (∃ b, e = Entry.control b) → RequestEntry e := by
    rintro e ⟨b, rfl⟩; exact .inl ⟨trivial, trivial⟩
  unfold handlePacket at h
  split at h
  · rename_i type off _
    have h0 : Writes RequestEntry s { s with served := s.served + 1, log := s.log ++ [.packet p] } :=
      (writes_log s (.packet p) trivial (s.served + 1)).mono (by rintro e rfl; exact .inl ⟨trivial, trivial⟩)
    have ht : ({ s with served := s.served + 1, log := s.log ++ [.packet p] } : State).term = s.term := rfl
    generalize ({ s with served := s.served + 1, log := s.log ++ [.packet p] } : State) = u at *
    generalize cfg.env s.served = e at *
    unfold dispatch at h
    split at h
    · unfold handleStartProcessPacket at h
      split at h
      · cases h
      · rename_i hcc
        split at h
        · split at h
          · obtain ⟨g1, g2⟩ := writes_startProcess (by
              cases hu : u.closing with
              | false => rfl
              | true => simp [hu] at hcc) h
            exact ⟨h0.trans g1, by rw [g2, ht]⟩
          · cases h
        · cases h
    · split at h
      · unfold handleSetSizePacket at h
        split at h
        · split at h
          · rw [Option.bind_eq_some_iff] at h
            obtain ⟨s1, h1, h2⟩ := h
            obtain ⟨g1, g2, g3, g4⟩ := writes_resize h1
            obtain ⟨k1, k2⟩ := writes_packet h2
            refine ⟨(h0.trans (g1.mono ?_)).trans (k1.mono hx), by rw [k2, g2, ht]⟩
            rintro e (rfl | he)
            · exact .inl ⟨trivial, by simp only [SizeOk, maxConsoleWidth, maxConsoleHeight]; omega⟩
            · exact .inr he
          · cases h
        · cases h
      · split at h
        · unfold handleGetConsoleProcessListPacket at h
          split at h
          · obtain ⟨k1, k2⟩ := writes_packet h
            exact ⟨h0.trans (k1.mono hx), by rw [k2, ht]⟩
          · cases h
        · simp only [Option.some.injEq] at h
          subst h
          exact ⟨h0, by rw [ht]⟩
  · cases h

end Winpty.Agent
