import Verif.Lemmas.Output
import Verif.Lemmas.Unicode
import Verif.Props.Terminal

/-!
# The output stream, whatever the console cells contain (C19, C20, C53)

Unlike C17 these theorems assume nothing about the lines but that cells are 16-bit.  `Spec/Output`
says what a stream of characters and control sequences is.
-/
namespace Winpty.Props

open Winpty.Terminal Winpty.Spec Winpty.Spec.Vt Winpty.Spec.Screen Winpty.Spec.Term Winpty.Spec.Output
open Winpty.ConsoleLine (Cell)

/-- Requests with any cells and any line numbers. -/
def AnyOp : Op → Prop
  | .send _ cells _ => cells ≠ [] ∧ ∀ c ∈ cells, c.ch < 65536
  | .show column _ => 0 ≤ column
  | _ => True

theorem outInv_run {ok : Nat → Prop} (hb : Basic ok) (ops : List Op) (hok : ∀ op ∈ ops, AnyOp op)
    (hcells : ∀ op ∈ ops, ∀ l cells cc, op = .send l cells cc →
      ∀ code, (∃ c ∈ cells, code = c.ch) ∨ 0x10000 ≤ code ∨ code = 0x3f → ok (shownCode code))
    (t : Term) (h : OutInv ok [] t) :
    ∃ t', performAll t ops = some t' ∧ OutInv ok [] t' ∧ t'.plainMode = t.plainMode ∧
      t'.outputColor = t.outputColor := by
  induction ops generalizing t with
  | nil => exact ⟨t, rfl, h, rfl, rfl⟩
  | cons op ops ih =>
    have hop := hok op (List.mem_cons_self ..)
    have hstep : ∃ t1, perform t op = some t1 ∧ OutInv ok [] t1 ∧ t1.plainMode = t.plainMode ∧
        t1.outputColor = t.outputColor := by
      cases op with
      | clear l => exact ⟨_, rfl, outInv_reset h true l⟩
      | send l cells cc => exact outInv_send hb h l cells cc hop.1 hop.2 (hcells _ (List.mem_cons_self ..) l cells cc rfl)
      | «show» c l => exact ⟨_, rfl, outInv_show hb h c l hop⟩
      | hide => exact ⟨_, rfl, outInv_hide h⟩
      | mouse on => exact ⟨_, rfl, outInv_mouse h on⟩
    obtain ⟨t1, p1, h1, a1, b1⟩ := hstep
    obtain ⟨t2, p2, h2, a2, b2⟩ := ih (fun o ho => hok o (List.mem_cons_of_mem _ ho))
      (fun o ho => hcells o (List.mem_cons_of_mem _ ho)) t1 h1
    exact ⟨t2, by simp only [performAll, p1]; exact p2, h2, a2.trans a1, b2.trans b1⟩

theorem outInv_start {ok : Nat → Prop} (plain colour : Bool) (line : Int) :
    OutInv ok [] (reset (init plain colour) false line) :=
  (outInv_reset ⟨⟨[], rfl, StreamOf.nil _⟩, fun _ => rfl⟩ false line).1

/-- C19.  Whatever the cells contain, in every mode: nothing is aborted, and the output is a
sequence of characters other than ESC and of the agent's own control sequences.  In plain mode these
are only the selection of colours, and only if colours were asked for. -/
theorem C19_no_injection (plain colour : Bool) (line : Int) (ops : List Op)
    (hok : ∀ op ∈ ops, AnyOp op) :
    ∃ t, performAll (reset (init plain colour) false line) ops = some t ∧
      Stream (Allowed plain colour) t.out := by
  obtain ⟨t, p, h, a, b⟩ := outInv_run basic_notEsc ops hok
    (fun _ _ _ _ _ _ _ _ => shownCode_ne_esc _) _ (outInv_start plain colour line)
  obtain ⟨d, h1, h2⟩ := h.stream
  rw [a, b] at h2
  rw [List.nil_append] at h1
  exact ⟨t, p, h1 ▸ h2⟩

theorem utf8_no_esc (c : Nat) (hc : c ≠ 0x1b) : 0x1b ∉ utf8 c := by
  unfold utf8
  repeat' split
  all_goals simp
  all_goals omega

/-- C19, plain mode without colours: no ESC at all. -/
theorem C19_plain_no_escape (line : Int) (ops : List Op) (hok : ∀ op ∈ ops, AnyOp op) :
    ∃ t, performAll (reset (init true false) false line) ops = some t ∧ 0x1b ∉ t.out := by
  obtain ⟨t, p, toks, h1, h2⟩ := C19_no_injection true false line ops hok
  refine ⟨t, p, ?_⟩
  rw [h1]
  intro hm
  obtain ⟨tok, ht, he⟩ := List.mem_flatten.mp hm
  rcases h2 tok ht with ⟨c, _, hc, rfl⟩ | hf
  · exact utf8_no_esc c hc he
  · simp [Allowed] at hf

/-- C19, every mode: an ESC in the output is always followed by `[`; no escape sequence other than
the agent's begins anywhere. -/
theorem C19_esc_is_csi (plain colour : Bool) (line : Int) (ops : List Op)
    (hok : ∀ op ∈ ops, AnyOp op) :
    ∃ t, performAll (reset (init plain colour) false line) ops = some t ∧
      ∀ k, t.out[k]? = some 0x1b → t.out[k + 1]? = some 0x5b := by
  obtain ⟨t, p, toks, h1, h2⟩ := C19_no_injection plain colour line ops hok
  refine ⟨t, p, ?_⟩
  rw [h1]
  clear p h1
  induction toks with
  | nil => intro k hk; simp at hk
  | cons tok toks ih =>
    have ih' := ih (fun x hx => h2 x (List.mem_cons_of_mem _ hx))
    intro k hk
    rw [List.flatten_cons] at hk ⊢
    by_cases hlt : k < tok.length
    · rw [List.getElem?_append_left hlt] at hk
      rcases (h2 tok (List.mem_cons_self ..)).imp id allowed_isSeq with ⟨c, _, hc, rfl⟩ | ⟨ps, f, rfl, hps, hf⟩
      · exact absurd (List.mem_of_getElem? hk) (utf8_no_esc c hc)
      · match k with
        | 0 => rfl
        | 1 => simp at hk
        | k + 2 =>
          simp only [List.getElem?_cons_succ] at hk
          have hm := List.mem_of_getElem? hk
          rcases List.mem_append.mp hm with hm | hm
          · have := hps _ hm; omega
          · simp only [List.mem_singleton] at hm
            subst hm
            simp at hf
    · rw [List.getElem?_append_right (by omega)] at hk
      rw [List.getElem?_append_right (by omega)]
      have := ih' _ hk
      rw [← this]; congr 1; omega

/-- Well-formed UTF-8: a sequence of encoded scalar values. -/
def WellFormedUtf8 (bs : List Nat) : Prop :=
  ∃ cs : List Nat, (∀ c ∈ cs, IsScalar c) ∧ bs = cs.flatMap utf8

theorem wellFormed_seq (bs : List Nat) (h : ∀ b ∈ bs, b < 0x80) : WellFormedUtf8 bs := by
  refine ⟨bs, fun c hc => Or.inl (by have := h c hc; omega), ?_⟩
  induction bs with
  | nil => rfl
  | cons b bs ih =>
    rw [List.flatMap_cons, utf8_small b (h b (List.mem_cons_self ..)),
      ← ih (fun x hx => h x (List.mem_cons_of_mem _ hx))]
    rfl

theorem wellFormed_append {a b : List Nat} (ha : WellFormedUtf8 a) (hb : WellFormedUtf8 b) :
    WellFormedUtf8 (a ++ b) := by
  obtain ⟨ca, h1, rfl⟩ := ha
  obtain ⟨cb, h2, rfl⟩ := hb
  refine ⟨ca ++ cb, ?_, by simp⟩
  intro c hc
  rcases List.mem_append.mp hc with hc | hc
  · exact h1 c hc
  · exact h2 c hc

/-- C20.  The output is well-formed UTF-8, whatever the cells contain. -/
theorem C20_utf8 (plain colour : Bool) (line : Int) (ops : List Op) (hok : ∀ op ∈ ops, AnyOp op) :
    ∃ t, performAll (reset (init plain colour) false line) ops = some t ∧ WellFormedUtf8 t.out := by
  obtain ⟨t, p, toks, h1, h2⟩ := C19_no_injection plain colour line ops hok
  refine ⟨t, p, ?_⟩
  rw [h1]
  clear p h1
  induction toks with
  | nil => exact ⟨[], by simp, rfl⟩
  | cons tok toks ih =>
    rw [List.flatten_cons]
    refine wellFormed_append ?_ (ih (fun x hx => h2 x (List.mem_cons_of_mem _ hx)))
    rcases (h2 tok (List.mem_cons_self ..)).imp id allowed_isSeq with ⟨c, hc, _, rfl⟩ | ⟨ps, f, rfl, hps, hf⟩
    · exact ⟨[c], by simpa using hc, by simp⟩
    · refine wellFormed_seq _ ?_
      intro b hb
      simp only [List.mem_cons, List.mem_append, List.not_mem_nil, or_false] at hb
      rcases hb with rfl | rfl | hb | rfl
      · decide
      · decide
      · have := hps b hb; omega
      · simp at hf; omega

/-- C20, the cells of a line: the loop that turns the cells (those not yet shown) into text takes
them one segment after the other — an ordinary character, a surrogate pair, or a lone surrogate,
each possibly double-width — every cell exactly once, and appends for each exactly its character
(after control sequences, if any).  `fuel` only has to be large enough. -/
theorem C20_cells_once (plain colour : Bool) (fuel : Nat) (cells : List Cell) (i : Nat) (col : Int)
    (hf : cells.length ≤ fuel) (hch : ∀ c ∈ cells, c.ch < 65536) :
    ∃ s segs, outputLoop plain colour fuel cells i ⟨[], 0, i, false, col⟩ = some s ∧
      (segs.map (·.1)).flatten = cells ∧ (∀ g ∈ segs, Segment g.1 g.2) ∧
      LineText (Allowed plain colour) segs s.termLine ∧
      (∀ b ∈ s.termLine.drop s.trimmedLineLength, b = 0x20) := by
  obtain ⟨s, segs, bytes, K, n, q1, q2, q3, q4, q5, q6, q7, _, _⟩ :=
    loop_text basic_notEsc plain colour fuel cells i ⟨[], 0, i, false, col⟩ hf hch
      (fun _ _ => shownCode_ne_esc _) [] 0 rfl rfl (StreamOf.nil _)
      (Nat.le_refl _)
  refine ⟨s, segs, q1, q2, fun g hg => (q3 g hg).1, ?_, ?_⟩
  · rw [q5]; exact q4
  · rw [q6, q7, List.drop_left]
    intro b hb
    exact (List.mem_replicate.mp hb).2

/-- Beside C19 and C20: lines with ESC, lone surrogates and broken double-width cells. -/
def oddOps : List Op :=
  [.send 3 [⟨0x1b, 0x07⟩, ⟨0x5b, 0x07⟩, ⟨0x32, 0x07⟩, ⟨0x4a, 0x07⟩] 0,
   .send 900 [⟨0xdc00, 0x1ff⟩, ⟨0xd800, 0x107⟩, ⟨0xd800, 0x207⟩, ⟨0xdc01, 0x107⟩, ⟨0xdc01, 0x207⟩,
              ⟨0xd83d, 7⟩] (-1),
   .clear (-4), .show 5 5, .hide, .mouse true, .mouse false]

example : ∀ op ∈ oddOps, AnyOp op := by
  intro op hop
  simp only [oddOps, List.mem_cons, List.not_mem_nil, or_false] at hop
  rcases hop with rfl | rfl | rfl | rfl | rfl | rfl | rfl <;> simp [AnyOp]

example : ∃ t, performAll (reset (init false true) false 0) oddOps = some t ∧ 0x3f ∈ t.out :=
  ⟨_, rfl, by decide +kernel⟩

/-! ## C53: control characters in cells -/

/-- A control character that the agent replaces by another one: the codes the console uses for box drawing
characters, and ESC. -/
def Replaced (c : Nat) : Prop := (1 ≤ c ∧ c ≤ 6) ∨ c = 0x1b

/-- The history contains a cell with this character. -/
def InSomeCell (ops : List Op) (c : Nat) : Prop :=
  ∃ l cells cc, Op.send l cells cc ∈ ops ∧ ∃ cell ∈ cells, cell.ch = c

/-- A character that may be written to the terminal: one that can be printed, one of the agent's own new
lines, or a control character that is in a cell and is not replaced. -/
def MayAppear (ops : List Op) (c : Nat) : Prop :=
  Printable c ∨ c = 0x0d ∨ c = 0x0a ∨ (InSomeCell ops c ∧ ¬ Replaced c)

/-- C53, whatever the cells contain, in every mode: outside of the agent's own sequences, the only control
characters in the output are the agent's own new lines and the control characters of the cells that are
neither box drawing codes nor ESC.  Missing: that those others (line feed, for instance) are not written
either, which is false: `C53_defect`. -/
theorem C53_controls_partial (plain colour : Bool) (line : Int) (ops : List Op)
    (hok : ∀ op ∈ ops, AnyOp op) :
    ∃ t, performAll (reset (init plain colour) false line) ops = some t ∧
      StreamOf (MayAppear ops) (Allowed plain colour) t.out := by
  have hb : Basic (MayAppear ops) :=
    ⟨.inr (.inl rfl), .inr (.inr (.inl rfl)), .inl (by unfold Printable; omega)⟩
  obtain ⟨t, p, h, a, b⟩ := outInv_run hb ops hok (by
    intro op hop l cells cc he code hc
    subst he
    rcases hc with ⟨c, hc, rfl⟩ | hc | rfl
    · by_cases hr : Replaced c.ch
      · left
        have : c.ch = 1 ∨ c.ch = 2 ∨ c.ch = 3 ∨ c.ch = 4 ∨ c.ch = 5 ∨ c.ch = 6 ∨ c.ch = 0x1b := by
          unfold Replaced at hr; omega
        rcases this with h | h | h | h | h | h | h <;> rw [h] <;> decide
      · refine .inr (.inr (.inr ?_))
        have : shownCode c.ch = c.ch := by
          unfold shownCode Replaced at *
          split <;> first | rfl | (exfalso; omega)
        rw [this]
        exact ⟨⟨l, cells, cc, hop, c, hc, rfl⟩, hr⟩
    · left
      have : shownCode code = code := by
        unfold shownCode
        split <;> first | rfl | (exfalso; omega)
      rw [this]; unfold Printable; omega
    · left; decide) _ (outInv_start plain colour line)
  obtain ⟨d, h1, h2⟩ := h.stream
  rw [a, b] at h2
  rw [List.nil_append] at h1
  exact ⟨t, p, h1 ▸ h2⟩

/-- C53 for lines all of whose control characters are replaced, on the terminal: each such character is
shown as one character in the column of its cell, and every other cell of the line is where it would be
without it. -/
theorem C53_shown_partial (cfg : Cfg) (hcfg : CfgOk cfg) (e0 : Emu) (he : FreshEmu cfg e0)
    (colour : Bool) (line : Int) (ops : List Op) (hok : OpsOk cfg (Want.start line) ops) :
    ∃ t off, performAll (startTerm colour line) ops = some t ∧
      (feed cfg e0 t.out).row = ((Want.start line).run ops).cur + off ∧
      ∀ l cells, ((Want.start line).run ops).sent l = some cells →
        (∀ c ∈ cells, isLead c = false ∧ c.ch < 0xD800) →
        ∀ k c, cells[k]? = some c →
          charOf ((feed cfg e0 t.out).rows (l + off) k) = some (shownCode c.ch) := by
  obtain ⟨t, off, p, hrow, hs, _⟩ := C17_sent_lines_shown cfg hcfg e0 he colour line ops hok
  refine ⟨t, off, p, hrow, ?_⟩
  intro l cells hl hsimple k c hk
  obtain ⟨gs, hg, h1, _⟩ := hs l cells hl
  have key : ∀ (cells : List Cell) (gs : List Glyph), (∀ c ∈ cells, isLead c = false ∧ c.ch < 0xD800) →
      glyphsOf cells = some gs → wanted gs = cells.map fun c => (some (shownCode c.ch), c.attr) := by
    intro cells
    induction cells with
    | nil => intro gs _ h; simp only [glyphsOf, Option.some.injEq] at h; subst h; rfl
    | cons a rest ih =>
      intro gs hsm h
      have ha := hsm a (List.mem_cons_self ..)
      have e1 : isHigh a = false := by unfold isHigh; simp only [decide_eq_false_iff_not]; omega
      have e2 : isLow a = false := by unfold isLow; simp only [decide_eq_false_iff_not]; omega
      unfold glyphsOf at h
      simp only [e1, e2, ha.1, Bool.or_self, Bool.false_eq_true, if_false, Option.map_eq_some_iff] at h
      obtain ⟨gs', hg', rfl⟩ := h
      have := ih gs' (fun c hc => hsm c (List.mem_cons_of_mem _ hc)) hg'
      unfold wanted at this ⊢
      rw [List.flatMap_cons, this]
      rfl
  have := h1 k (some (shownCode c.ch), c.attr) (by rw [key cells gs hsimple hg]; simp [hk])
  exact this.1

/-- Like `demoCfg`, but the box drawing characters are one column wide, as they usually are. -/
def demoBoxCfg : Cfg := ⟨8, 3, fun c => if c < 0x3000 then 1 else 2⟩

/-- Beside C53: a line with box drawing codes and an ESC. -/
example : OpsOk demoBoxCfg (Want.start 10) [.send 10 [⟨1, 7⟩, ⟨0x1b, 7⟩, ⟨0x41, 7⟩] (-1)] ∧
    ((Want.start 10).run [.send 10 [⟨1, 7⟩, ⟨0x1b, 7⟩, ⟨0x41, 7⟩] (-1)]).sent 10 =
      some [⟨1, 7⟩, ⟨0x1b, 7⟩, ⟨0x41, 7⟩] ∧
    AnyOp (.send 10 [⟨1, 7⟩, ⟨0x1b, 7⟩, ⟨0x41, 7⟩] (-1)) := by
  refine ⟨⟨⟨?_, ?_, ?_, ?_, [⟨1, 1, 7⟩, ⟨0x1b, 1, 7⟩, ⟨0x41, 1, 7⟩], ?_, ?_⟩, trivial⟩, rfl, ?_⟩
  · simp only [InWindow, Want.start, demoBoxCfg]; decide
  · simp
  · simp [demoBoxCfg]
  · simp
  · decide
  · intro g hg
    simp only [List.mem_cons, List.not_mem_nil, or_false] at hg
    rcases hg with rfl | rfl | rfl <;> decide
  · simp [AnyOp]

end Winpty.Props
