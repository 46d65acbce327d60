import Verif.Lemmas.TerminalOps
import Verif.Spec.Output

/-! # The output stream, whatever the cells contain -/
namespace Winpty.Terminal

open Winpty.Spec Winpty.Spec.Vt Winpty.Spec.Screen Winpty.Spec.Term Winpty.Spec.Output
open Winpty.ConsoleLine (Cell)

/-! ## Streams -/

variable {ok : Nat → Prop}

/-- The characters the agent writes on its own account. -/
structure Basic (ok : Nat → Prop) : Prop where
  cr : ok 0x0d
  lf : ok 0x0a
  blank : ok 0x20

theorem basic_notEsc : Basic NotEsc := ⟨fun h => (by cases h), fun h => (by cases h), fun h => (by cases h)⟩

theorem _root_.Winpty.Spec.Output.StreamOf.nil (q : List Nat → Prop) : StreamOf ok q [] := ⟨[], rfl, by simp⟩

theorem _root_.Winpty.Spec.Output.StreamOf.append {q : List Nat → Prop} {a b : List Nat} (ha : StreamOf ok q a) (hb : StreamOf ok q b) :
    StreamOf ok q (a ++ b) := by
  obtain ⟨ta, rfl, ha⟩ := ha
  obtain ⟨tb, rfl, hb⟩ := hb
  refine ⟨ta ++ tb, by simp, ?_⟩
  intro t ht
  rcases List.mem_append.mp ht with ht | ht
  · exact ha t ht
  · exact hb t ht

theorem _root_.Winpty.Spec.Output.StreamOf.text (q : List Nat → Prop) (c : Nat) (h : IsScalar c) (he : ok c) : StreamOf ok q (utf8 c) :=
  ⟨[utf8 c], by simp, by intro t ht; simp only [List.mem_singleton] at ht; subst ht; exact Or.inl ⟨c, h, he, rfl⟩⟩

theorem _root_.Winpty.Spec.Output.StreamOf.seq {q : List Nat → Prop} (bs : List Nat) (h : q bs) : StreamOf ok q bs :=
  ⟨[bs], by simp, by intro t ht; simp only [List.mem_singleton] at ht; subst ht; exact Or.inr h⟩

theorem _root_.Winpty.Spec.Output.StreamOf.seqs (q : List Nat → Prop) (ts : List (List Nat)) (h : ∀ t ∈ ts, q t) :
    StreamOf ok q ts.flatten :=
  ⟨ts, rfl, fun t ht => Or.inr (h t ht)⟩

theorem utf8_small (c : Nat) (h : c < 0x80) : utf8 c = [c] := by unfold utf8; rw [if_pos h]

theorem _root_.Winpty.Spec.Output.StreamOf.ascii (q : List Nat → Prop) (c : Nat) (h : c < 0x80) (he : ok c) : StreamOf ok q [c] := by
  rw [← utf8_small c h]
  exact StreamOf.text q c (Or.inl (by omega)) he

theorem isSeq_digits (ds : List Nat) (hd : ∀ b ∈ ds, (0x30 ≤ b ∧ b ≤ 0x39) ∨ b = 0x3b ∨ b = 0x3f)
    (f : Nat) (hf : f ∈ [0x41, 0x47, 0x48, 0x4a, 0x4b, 0x68, 0x6c, 0x6d]) :
    IsSeq (csi ++ (ds ++ [f])) := ⟨ds, f, rfl, hd, hf⟩

theorem outUInt_digits (n : Nat) : ∀ b ∈ outUInt n, (0x30 ≤ b ∧ b ≤ 0x39) ∨ b = 0x3b ∨ b = 0x3f :=
  fun b hb => Or.inl ((outUInt_spec n).1 b hb)

theorem allowed_seq {plain colour : Bool} {bs : List Nat} (hp : ¬ plain = true) (h : IsSeq bs) :
    Allowed plain colour bs := by
  unfold Allowed; rw [if_neg hp]; exact h

theorem isSgr_color (a : Nat) : IsSgr (outputSetColor (a &&& colorAttributeMask)) := by
  rw [outputSetColor_eq, setColorBytes_eq]
  rw [show outUInt 0 ++ (paramsBytes (setColorParams (wantFore a) (wantBack a) (wantUnderline a)) ++ [0x6d])
    = (outUInt 0 ++ paramsBytes (setColorParams (wantFore a) (wantBack a) (wantUnderline a))) ++ [0x6d] by
      simp]
  refine ⟨outUInt 0 ++ paramsBytes (setColorParams (wantFore a) (wantBack a) (wantUnderline a)), rfl, ?_⟩
  intro b hb
  rcases List.mem_append.mp hb with hb | hb
  · exact Or.inl ((outUInt_spec 0).1 b hb)
  · unfold paramsBytes at hb
    simp only [List.mem_flatMap, List.mem_cons] at hb
    obtain ⟨p, _, h | h⟩ := hb
    · exact Or.inr h
    · exact Or.inl ((outUInt_spec p).1 b h)

theorem isSeq_of_sgr {bs : List Nat} (h : IsSgr bs) : IsSeq bs := by
  obtain ⟨ps, h1, h2⟩ := h
  exact ⟨ps, 0x6d, h1, fun b hb => (h2 b hb).elim Or.inl (fun h => Or.inr (Or.inl h)), by simp⟩

theorem allowed_isSeq {plain colour : Bool} {bs : List Nat} (h : Allowed plain colour bs) : IsSeq bs := by
  unfold Allowed at h
  split at h
  · exact isSeq_of_sgr h.2
  · exact h

theorem allowed_color (plain : Bool) (a : Nat) :
    Allowed plain true (outputSetColor (a &&& colorAttributeMask)) := by
  unfold Allowed
  split
  · exact ⟨rfl, isSgr_color a⟩
  · exact isSeq_of_sgr (isSgr_color a)

/-! ## Cells -/

theorem cellWidth_half (a : Cell) (rest : List Cell) :
    Half ((a :: rest).take (cellWidth (a :: rest))) a.ch ∧ 1 ≤ cellWidth (a :: rest) ∧
    cellWidth (a :: rest) ≤ (a :: rest).length := by
  unfold cellWidth
  cases rest with
  | nil => exact ⟨Or.inl ⟨a, rfl, rfl⟩, by simp [isFullWidthCharacter], by simp [isFullWidthCharacter]⟩
  | cons b rest =>
    by_cases h : isFullWidthCharacter (a :: b :: rest) = true
    · rw [if_pos h]
      simp only [isFullWidthCharacter, Bool.and_eq_true, decide_eq_true_eq] at h
      refine ⟨Or.inr ⟨a, b, rfl, (lead_iff a).mp h.1.1, (trail_iff b).mp h.1.2, h.2.symm, rfl⟩,
        by simp, by simp⟩
    · rw [if_neg h]
      exact ⟨Or.inl ⟨a, rfl, rfl⟩, by simp, by simp⟩

/-- The scan takes the cells of one segment. -/
theorem scan_segment (a : Cell) (rest : List Cell) (hch : ∀ c ∈ a :: rest, c.ch < 65536) :
    ∃ n code, scanUnicodeScalarValue (a :: rest) = some (n, code) ∧ 1 ≤ n ∧
      n ≤ (a :: rest).length ∧ IsScalar code ∧ Segment ((a :: rest).take n) code := by
  obtain ⟨w1, w2, w3⟩ := cellWidth_half a rest
  have ha := hch a (List.mem_cons_self ..)
  unfold scanUnicodeScalarValue
  simp only
  by_cases hs : a.ch &&& 0xF800 = 0xD800
  · rw [if_pos hs]
    rw [and_f800 _ ha] at hs
    have hlone : IsScalar 0x3f ∧ Segment ((a :: rest).take (cellWidth (a :: rest))) 0x3f :=
      ⟨Or.inl (by omega), Or.inr (Or.inr ⟨a.ch, w1, hs.1, hs.2, rfl⟩)⟩
    cases hd : (a :: rest).drop (cellWidth (a :: rest)) with
    | nil => exact ⟨_, _, rfl, w2, w3, hlone⟩
    | cons b rest' =>
      simp only
      have hb : b.ch < 65536 := hch b (List.mem_of_mem_drop (by rw [hd]; exact List.mem_cons_self ..))
      by_cases hp : a.ch &&& 0xFC00 ≠ 0xD800 ∨ b.ch &&& 0xFC00 ≠ 0xDC00
      · rw [if_pos hp]
        exact ⟨_, _, rfl, w2, w3, hlone⟩
      · rw [if_neg hp]
        have hp1 : a.ch &&& 0xFC00 = 0xD800 := Decidable.byContradiction fun x => hp (Or.inl x)
        have hp2 : b.ch &&& 0xFC00 = 0xDC00 := Decidable.byContradiction fun x => hp (Or.inr x)
        rw [and_fc00 _ _ ha (Or.inl rfl)] at hp1
        rw [and_fc00 _ _ hb (Or.inr rfl)] at hp2
        obtain ⟨v1, v2, v3⟩ := cellWidth_half b rest'
        have hlen : cellWidth (a :: rest) + (b :: rest').length = (a :: rest).length := by
          rw [← hd, List.length_drop]; omega
        have hdec : Winpty.Unicode.decodeSurrogatePair a.ch b.ch
            = 0x10000 + (a.ch - 0xD800) * 0x400 + (b.ch - 0xDC00) :=
          decodeSurrogatePair_eq _ _ hp1.1 (by omega) hp2.1 (by omega)
        refine ⟨_, _, rfl, by omega, by omega, ?_, ?_⟩
        · rw [hdec]; exact Or.inr (by omega)
        · refine Or.inr (Or.inl ⟨_, _, a.ch, b.ch, ?_, w1, v1, hp1.1, by omega, hp2.1, by omega, hdec⟩)
          rw [List.take_add, hd]
  · rw [if_neg hs]
    rw [and_f800 _ ha] at hs
    exact ⟨_, _, rfl, w2, w3, by unfold IsScalar; omega, Or.inl ⟨w1, hs⟩⟩

/-! ## The loop -/

theorem shownCode_ne_esc (c : Nat) : shownCode c ≠ 0x1b := by
  unfold shownCode
  split <;> first | decide | (intro h; simp_all)

theorem _root_.Winpty.Spec.Output.LineText.append {q : List Nat → Prop} {s1 s2 : List (List Cell × Nat)} {b1 b2 : List Nat}
    (h1 : LineText q s1 b1) (h2 : LineText q s2 b2) : LineText q (s1 ++ s2) (b1 ++ b2) := by
  induction h1 with
  | nil => exact h2
  | cons part code segs pre bytes _ hp ih =>
    have := LineText.cons part code _ pre _ ih hp
    simpa using this

theorem _root_.Winpty.Spec.Output.LineText.one {q : List Nat → Prop} (part : List Cell) (code : Nat) (pre : List Nat)
    (h : ∃ ts : List (List Nat), pre = ts.flatten ∧ ∀ t ∈ ts, q t) :
    LineText q [(part, code)] (pre ++ utf8 (shownCode code)) := by
  have := LineText.cons part code [] pre [] .nil h
  simpa using this

theorem segment_code {part cells : List Cell} {code : Nat} (hp : ∀ c ∈ part, c ∈ cells)
    (h : Segment part code) : (∃ c ∈ cells, code = c.ch) ∨ 0x10000 ≤ code ∨ code = 0x3f := by
  rcases h with ⟨h, _⟩ | ⟨p, q, hi, lo, _, _, _, _, _, _, _, hc⟩ | ⟨_, _, _, _, rfl⟩
  · left
    rcases h with ⟨a, rfl, rfl⟩ | ⟨a, b, rfl, _, _, _, rfl⟩
    · exact ⟨a, hp a (List.mem_cons_self ..), rfl⟩
    · exact ⟨a, hp a (List.mem_cons_self ..), rfl⟩
  · right; left
    rw [hc, Nat.add_assoc]
    exact Nat.le_add_right _ _
  · exact .inr (.inr rfl)

/-- What the loop appends for the rest of the line, and where the trailing blanks begin. -/
theorem loop_text (hb : Basic ok) (plain oc : Bool) (fuel : Nat) (cells : List Cell) (i : Nat) (s : Loop)
    (hf : cells.length ≤ fuel) (hch : ∀ c ∈ cells, c.ch < 65536)
    (hok : ∀ code, (∃ c ∈ cells, code = c.ch) ∨ 0x10000 ≤ code ∨ code = 0x3f → ok (shownCode code))
    (K : List Nat) (n : Nat) (hK : s.termLine = K ++ List.replicate n 0x20)
    (hl : s.trimmedLineLength = K.length) (hs : StreamOf ok (Allowed plain oc) K)
    (htc : s.trimmedCellCount ≤ i) :
    ∃ s' segs bytes K' n', outputLoop plain oc fuel cells i s = some s' ∧
      (segs.map (·.1)).flatten = cells ∧ (∀ g ∈ segs, Segment g.1 g.2 ∧ IsScalar g.2) ∧
      LineText (Allowed plain oc) segs bytes ∧ s'.termLine = s.termLine ++ bytes ∧
      s'.termLine = K' ++ List.replicate n' 0x20 ∧ s'.trimmedLineLength = K'.length ∧
      StreamOf ok (Allowed plain oc) K' ∧ s'.trimmedCellCount ≤ i + cells.length := by
  induction fuel generalizing cells i s K n with
  | zero =>
    have : cells = [] := List.length_eq_zero_iff.mp (by omega)
    subst this
    exact ⟨s, [], [], K, n, by simp [outputLoop], rfl, by simp, .nil, by simp, hK, hl, hs, by simpa using htc⟩
  | succ fuel ih =>
    cases cells with
    | nil => exact ⟨s, [], [], K, n, by simp [outputLoop], rfl, by simp, .nil, by simp, hK, hl, hs, by simpa using htc⟩
    | cons c cs =>
      obtain ⟨m, code, hscan, hm1, hm2, hsc, hseg⟩ := scan_segment c cs hch
      simp only [outputLoop, hscan]
      -- the colour
      have hcol : ∃ pre K1 n1, (loopColor oc s i c.attr).termLine = s.termLine ++ pre ∧
          (∃ ts : List (List Nat), pre = ts.flatten ∧ ∀ t ∈ ts, Allowed plain oc t) ∧
          (loopColor oc s i c.attr).termLine = K1 ++ List.replicate n1 0x20 ∧
          (loopColor oc s i c.attr).trimmedLineLength = K1.length ∧ StreamOf ok (Allowed plain oc) K1 ∧
          (loopColor oc s i c.attr).trimmedCellCount ≤ i := by
        unfold loopColor
        by_cases ho : oc = true
        · rw [if_pos ho]
          by_cases hr : ((c.attr &&& colorAttributeMask : Nat) : Int) ≠ s.remoteColor
          · rw [if_pos hr]
            refine ⟨outputSetColor (c.attr &&& colorAttributeMask),
              s.termLine ++ outputSetColor (c.attr &&& colorAttributeMask), 0, rfl,
              ⟨[outputSetColor (c.attr &&& colorAttributeMask)], by simp, ?_⟩, by simp, rfl, ?_,
              Nat.le_refl _⟩
            · intro t ht
              simp only [List.mem_singleton] at ht
              subst ht
              rw [ho]; exact allowed_color _ _
            · rw [hK]
              refine (hs.append ?_).append ?_
              · exact ⟨List.replicate n [0x20], by simp, by
                  intro t ht
                  rw [(List.mem_replicate.mp ht).2]
                  exact Or.inl ⟨0x20, Or.inl (by omega), hb.blank, rfl⟩⟩
              · rw [ho]; exact StreamOf.seq _ (allowed_color _ _)
          · rw [if_neg hr]
            exact ⟨[], K, n, by simp, ⟨[], rfl, by simp⟩, hK, hl, hs, htc⟩
        · rw [if_neg ho]
          exact ⟨[], K, n, by simp, ⟨[], rfl, by simp⟩, hK, hl, hs, htc⟩
      obtain ⟨pre, K1, n1, c1, c2, c3, c4, c5, c6⟩ := hcol
      generalize loopColor oc s i c.attr = s1 at *
      -- the character
      have hchar : ∀ last, ∃ pre2 K2 n2,
          (loopChar plain s1 (i + m) last code).termLine = s1.termLine ++ pre2 ++ utf8 (shownCode code) ∧
          (∃ ts : List (List Nat), pre2 = ts.flatten ∧ ∀ t ∈ ts, Allowed plain oc t) ∧
          (loopChar plain s1 (i + m) last code).termLine = K2 ++ List.replicate n2 0x20 ∧
          (loopChar plain s1 (i + m) last code).trimmedLineLength = K2.length ∧
          StreamOf ok (Allowed plain oc) K2 ∧
          (loopChar plain s1 (i + m) last code).trimmedCellCount ≤ i + m := by
        intro last
        unfold loopChar
        by_cases hsp : code = 0x20
        · rw [if_pos hsp]
          refine ⟨[], K1, n1 + 1, ?_, ⟨[], rfl, by simp⟩, ?_, c4, c5, by simp only; omega⟩
          · rw [hsp, List.append_nil]; rfl
          · simp only; rw [c3, List.replicate_succ', List.append_assoc]
        · rw [if_neg hsp]
          have hp2 : ∃ ts : List (List Nat),
              (if last = true ∧ ¬ plain = true then csi ++ [0x30, 0x4b] else []) = ts.flatten ∧
              ∀ t ∈ ts, Allowed plain oc t := by
            by_cases hc : last = true ∧ ¬ plain = true
            · rw [if_pos hc]
              refine ⟨[csi ++ [0x30, 0x4b]], by simp, ?_⟩
              intro t ht
              simp only [List.mem_singleton] at ht
              subst ht
              exact allowed_seq hc.2 (isSeq_digits [0x30] (by simp) 0x4b (by simp))
            · rw [if_neg hc]; exact ⟨[], rfl, by simp⟩
          refine ⟨(if last = true ∧ ¬ plain = true then csi ++ [0x30, 0x4b] else []),
            s1.termLine ++ (if last = true ∧ ¬ plain = true then csi ++ [0x30, 0x4b] else []) ++
              utf8 (shownCode code), 0, ?_, hp2, ?_, ?_, ?_, Nat.le_refl _⟩
          · simp only; rw [fixSpecialCharacters_eq, encodeOr_eq _ (shownCode_scalar _ hsc)]
          · simp only
            rw [fixSpecialCharacters_eq, encodeOr_eq _ (shownCode_scalar _ hsc)]; simp
          · simp only; rw [fixSpecialCharacters_eq, encodeOr_eq _ (shownCode_scalar _ hsc)]
          · rw [c3]
            obtain ⟨ts, ht1, ht2⟩ := hp2
            rw [ht1]
            refine ((c5.append ?_).append (StreamOf.seqs _ ts ht2)).append
              (StreamOf.text _ _ (shownCode_scalar _ hsc)
                (hok _ (segment_code (fun x hx => List.mem_of_mem_take hx) hseg)))
            exact ⟨List.replicate n1 [0x20], by simp, by
              intro t ht
              rw [(List.mem_replicate.mp ht).2]
              exact Or.inl ⟨0x20, Or.inl (by omega), hb.blank, rfl⟩⟩
      obtain ⟨pre2, K2, n2, d1, d2, d3, d4, d5, d6⟩ := hchar (decide (m = (c :: cs).length))
      obtain ⟨s', segs, bytes, K', n', q1, q2, q3, q4, q5, q6, q7, q8, q9⟩ :=
        ih ((c :: cs).drop m) (i + m) _ (by rw [List.length_drop]; simp only [List.length_cons] at hf ⊢; omega)
          (fun x hx => hch x (List.mem_of_mem_drop hx))
          (fun code hc => hok code (hc.imp (fun ⟨x, h1, h2⟩ => ⟨x, List.mem_of_mem_drop h1, h2⟩) id)) K2 n2 d3 d4 d5 d6
      refine ⟨s', ((c :: cs).take m, code) :: segs, (pre ++ pre2 ++ utf8 (shownCode code)) ++ bytes,
        K', n', q1, ?_, ?_, ?_, ?_, q6, q7, q8, ?_⟩
      · simp only [List.map_cons, List.flatten_cons, q2, List.take_append_drop]
      · intro g hg
        rcases List.mem_cons.mp hg with hg | hg
        · subst hg; exact ⟨hseg, hsc⟩
        · exact q3 g hg
      · refine LineText.cons _ _ _ (pre ++ pre2) _ q4 ?_
        obtain ⟨t1, a1, a2⟩ := c2
        obtain ⟨t2, b1, b2⟩ := d2
        refine ⟨t1 ++ t2, by rw [a1, b1]; simp, ?_⟩
        intro t ht
        rcases List.mem_append.mp ht with ht | ht
        · exact a2 t ht
        · exact b2 t ht
      · rw [q5, d1, c1]; simp
      · rw [List.length_drop] at q9; omega

/-! ## Operations -/

/-- Everything written after `base` is a stream. -/
def From (ok : Nat → Prop) (base : List Nat) (q : List Nat → Prop) (out : List Nat) : Prop :=
  ∃ d, out = base ++ d ∧ StreamOf ok q d

theorem From.append {base : List Nat} {q : List Nat → Prop} {a b : List Nat} (ha : From ok base q a)
    (hb : StreamOf ok q b) : From ok base q (a ++ b) := by
  obtain ⟨d, rfl, hd⟩ := ha
  exact ⟨d ++ b, by simp, hd.append hb⟩

/-- Valid whatever the cells contain. -/
structure OutInv (ok : Nat → Prop) (base : List Nat) (t : Term) : Prop where
  stream : From ok base (Allowed t.plainMode t.outputColor) t.out
  data : t.lineDataValid = true → (t.lineData.length : Int) = t.remoteColumn

variable {base : List Nat}

theorem stream_hide {plain colour : Bool} (hp : ¬ plain = true) :
    StreamOf ok (Allowed plain colour) (csi ++ [0x3f, 0x32, 0x35, 0x6c]) :=
  StreamOf.seq _ (allowed_seq hp (isSeq_digits [0x3f, 0x32, 0x35] (by simp) 0x6c (by simp)))

theorem outInv_hide {t : Term} (h : OutInv ok base t) : OutInv ok base (hideTerminalCursor t) ∧
    (hideTerminalCursor t).plainMode = t.plainMode ∧
    (hideTerminalCursor t).outputColor = t.outputColor := by
  unfold hideTerminalCursor
  by_cases hp : ¬ t.plainMode = true
  · rw [if_pos hp]
    by_cases hh : t.cursorHidden = true
    · rw [if_pos hh]; exact ⟨h, rfl, rfl⟩
    · rw [if_neg hh]
      exact ⟨⟨h.stream.append (stream_hide hp), h.data⟩, rfl, rfl⟩
  · rw [if_neg hp]; exact ⟨h, rfl, rfl⟩

theorem stream_newLines (hb : Basic ok) (q : List Nat → Prop) (n : Nat) : StreamOf ok q (newLines n) := by
  induction n with
  | zero => exact StreamOf.nil q
  | succ n ih =>
    exact ((StreamOf.ascii q 0x0d (by decide) hb.cr).append
      (StreamOf.ascii q 0x0a (by decide) hb.lf)).append ih

theorem stream_crlf (hb : Basic ok) (q : List Nat → Prop) : StreamOf ok q [0x0d, 0x0a] :=
  (StreamOf.ascii q 0x0d (by decide) hb.cr).append (StreamOf.ascii q 0x0a (by decide) hb.lf)

theorem outInv_move (hb : Basic ok) {t : Term} (h : OutInv ok base t) (line : Int) :
    OutInv ok base (moveTerminalToLine t line) ∧
    (moveTerminalToLine t line).plainMode = t.plainMode ∧
    (moveTerminalToLine t line).outputColor = t.outputColor := by
  unfold moveTerminalToLine
  split
  · exact ⟨h, rfl, rfl⟩
  · obtain ⟨h1, h2, h3⟩ := outInv_hide h
    generalize hideTerminalCursor t = t1 at *
    simp only
    have hs := h1.stream
    split
    · split
      · next hp =>
        exact ⟨⟨hs.append (stream_crlf hb _), fun _ => rfl⟩, h2, h3⟩
      · next hp =>
        refine ⟨⟨hs.append ?_, fun _ => rfl⟩, h2, h3⟩
        rw [List.append_assoc, List.append_assoc]
        refine (StreamOf.ascii _ 0x0d (by decide) hb.cr).append ?_
        exact StreamOf.seq _ (allowed_seq hp (isSeq_digits _ (outUInt_digits _) 0x41 (by simp)))
    · exact ⟨⟨hs.append (stream_newLines hb _ _), fun _ => rfl⟩, h2, h3⟩

theorem outInv_reset {t : Term} (h : OutInv ok base t) (clear : Bool) (line : Int) :
    OutInv ok base (reset t clear line) ∧ (reset t clear line).plainMode = t.plainMode ∧
    (reset t clear line).outputColor = t.outputColor := by
  unfold reset
  by_cases hc : clear = true ∧ ¬ t.plainMode = true
  · rw [if_pos hc]
    refine ⟨⟨?_, fun _ => rfl⟩, rfl, rfl⟩
    simp only [write]
    refine h.stream.append ?_
    rw [List.append_assoc _ csi [0x32, 0x4a], List.append_assoc _ csi [0x31, 0x3b, 0x31, 0x48]]
    exact ((StreamOf.seq _ (allowed_seq hc.2 (isSeq_digits [0x30] (by simp) 0x6d (by simp)))).append
      (StreamOf.seq _ (allowed_seq hc.2 (isSeq_digits [0x31, 0x3b, 0x31] (by simp) 0x48 (by simp))))).append
      (StreamOf.seq _ (allowed_seq hc.2 (isSeq_digits [0x32] (by simp) 0x4a (by simp))))
  · rw [if_neg hc]
    exact ⟨⟨h.stream, fun _ => rfl⟩, rfl, rfl⟩

theorem outInv_show (hb : Basic ok) {t : Term} (h : OutInv ok base t) (column line : Int) (hc : 0 ≤ column) :
    OutInv ok base (showTerminalCursor t column line) ∧
    (showTerminalCursor t column line).plainMode = t.plainMode ∧
    (showTerminalCursor t column line).outputColor = t.outputColor := by
  unfold showTerminalCursor
  obtain ⟨h1, h2, h3⟩ := outInv_move hb h line
  generalize moveTerminalToLine t line = t1 at *
  simp only
  by_cases hp : ¬ t1.plainMode = true
  · rw [if_pos hp]
    have hmid : ∀ t2, (if t1.remoteColumn ≠ column then
          { write t1 (csi ++ formatInt (column + 1) ++ [0x47]) with
            lineDataValid := decide (column = 0), lineData := [], remoteColumn := column }
          else t1) = t2 → OutInv ok base t2 ∧ t2.plainMode = t1.plainMode ∧ t2.outputColor = t1.outputColor := by
      intro t2 ht2
      subst ht2
      split
      · refine ⟨⟨?_, ?_⟩, rfl, rfl⟩
        · simp only [write]
          refine h1.stream.append ?_
          rw [List.append_assoc]
          refine StreamOf.seq _ (allowed_seq hp (isSeq_digits _ ?_ 0x47 (by simp)))
          unfold formatInt
          rw [if_neg (by omega)]
          exact outUInt_digits _
        · intro hv
          simp only [decide_eq_true_eq] at hv
          simp [hv]
      · exact ⟨h1, rfl, rfl⟩
    generalize (if t1.remoteColumn ≠ column then
          { write t1 (csi ++ formatInt (column + 1) ++ [0x47]) with
            lineDataValid := decide (column = 0), lineData := [], remoteColumn := column }
          else t1) = t2 at *
    obtain ⟨m1, m2, m3⟩ := hmid t2 rfl
    split
    · refine ⟨⟨?_, m1.data⟩, m2.trans h2, m3.trans h3⟩
      simp only [write]
      refine m1.stream.append ?_
      rw [m2, m3]
      exact StreamOf.seq _ (allowed_seq hp (isSeq_digits [0x3f, 0x32, 0x35] (by simp) 0x68 (by simp)))
    · exact ⟨m1, m2.trans h2, m3.trans h3⟩
  · rw [if_neg hp]; exact ⟨h1, h2, h3⟩

theorem stream_modeBytes (ms : List (Nat × Bool)) : StreamOf ok IsSeq (modeBytes ms) := by
  induction ms with
  | nil => exact StreamOf.nil _
  | cons m ms ih =>
    unfold modeBytes at ih ⊢
    rw [List.flatMap_cons]
    refine StreamOf.append ?_ ih
    rw [← List.cons_append]
    refine StreamOf.seq _ (isSeq_digits (0x3f :: outUInt m.1) ?_ _ (by split <;> simp))
    intro b hb
    rcases List.mem_cons.mp hb with hb | hb
    · exact Or.inr (Or.inr hb)
    · exact outUInt_digits _ b hb

theorem outInv_mouse {t : Term} (h : OutInv ok base t) (on : Bool) :
    OutInv ok base (enableMouseMode t on) ∧ (enableMouseMode t on).plainMode = t.plainMode ∧
    (enableMouseMode t on).outputColor = t.outputColor := by
  rw [enableMouseMode_eq]
  by_cases hc : t.mouseModeEnabled = on ∨ t.plainMode = true
  · rw [if_pos hc]; exact ⟨h, rfl, rfl⟩
  · rw [if_neg hc]
    refine ⟨⟨?_, h.data⟩, rfl, rfl⟩
    simp only [write]
    refine h.stream.append ?_
    have hp : ¬ t.plainMode = true := fun x => hc (Or.inr x)
    rw [show Allowed t.plainMode t.outputColor = IsSeq by funext bs; unfold Allowed; rw [if_neg hp]]
    exact stream_modeBytes _

/-- Sending any line whatsoever. -/
theorem outInv_send (hb : Basic ok) {t : Term} (h : OutInv ok base t) (line : Int) (cells : List Cell) (cc : Int)
    (hne : cells ≠ []) (hch : ∀ c ∈ cells, c.ch < 65536)
    (hok : ∀ code, (∃ c ∈ cells, code = c.ch) ∨ 0x10000 ≤ code ∨ code = 0x3f → ok (shownCode code)) :
    ∃ t', sendLine t line cells cc = some t' ∧ OutInv ok base t' ∧ t'.plainMode = t.plainMode ∧
      t'.outputColor = t.outputColor := by
  have hlen : 1 ≤ cells.length := List.length_pos_iff.mpr hne
  unfold sendLine
  rw [if_neg (by omega)]
  obtain ⟨h1, h2, h3⟩ := outInv_move hb h line
  generalize moveTerminalToLine t line = t1 at *
  simp only
  have hca : ∃ valid, checkAppend t1 cells = some valid ∧
      (valid = true → t1.lineDataValid = true ∧ t1.lineData.length ≤ cells.length) := by
    unfold checkAppend
    by_cases hv : t1.lineDataValid = true
    · rw [if_pos hv, if_neg (by rw [h1.data hv]; simp)]
      split
      · refine ⟨_, rfl, ?_⟩
        intro hh
        simp only [Bool.and_eq_true] at hh
        refine ⟨hv, ?_⟩
        have := hh.1
        split at this <;> simp only [decide_eq_true_eq] at this <;> omega
      · next hr =>
        refine ⟨_, rfl, fun _ => ⟨hv, ?_⟩⟩
        have := h1.data hv
        omega
    · rw [if_neg hv]; exact ⟨false, rfl, by simp⟩
  obtain ⟨valid, c1, c2⟩ := hca
  simp only [c1]
  have hst : OutInv ok base (startRow t1 valid) ∧ (startRow t1 valid).plainMode = t1.plainMode ∧
      (startRow t1 valid).outputColor = t1.outputColor ∧
      (startRow t1 valid).lineData.length ≤ cells.length ∧
      ((startRow t1 valid).lineData.length : Int) = (startRow t1 valid).remoteColumn := by
    unfold startRow
    cases valid with
    | true =>
      rw [if_pos rfl]
      obtain ⟨v1, v2⟩ := c2 rfl
      exact ⟨⟨h1.stream, fun _ => h1.data v1⟩, rfl, rfl, v2, h1.data v1⟩
    | false =>
      simp only [Bool.false_eq_true, if_false]
      obtain ⟨g1, g2, g3⟩ := outInv_hide h1
      generalize hideTerminalCursor t1 = t2 at *
      refine ⟨⟨?_, fun _ => rfl⟩, g2, g3, Nat.zero_le _, rfl⟩
      simp only [write]
      refine g1.stream.append ?_
      split
      · exact stream_crlf hb _
      · exact StreamOf.ascii _ _ (by decide) hb.cr
  obtain ⟨s1, s2, s3, s4, s5⟩ := hst
  generalize startRow t1 valid = t2 at *
  obtain ⟨s, segs, bytes, K, n, q1, q2, q3, q4, q5, q6, q7, q8, q9⟩ :=
    loop_text hb t2.plainMode t2.outputColor cells.length (cells.drop t2.lineData.length)
      t2.lineData.length ⟨[], 0, t2.lineData.length, false, t2.remoteColor⟩
      (by rw [List.length_drop]; omega) (fun c hc => hch c (List.mem_of_mem_drop hc))
      (fun code hc => hok code (hc.imp (fun ⟨x, h1, h2⟩ => ⟨x, List.mem_of_mem_drop h1, h2⟩) id)) [] 0 rfl rfl
      (StreamOf.nil _) (Nat.le_refl _)
  rw [q1]
  simp only
  have htr := loop_trimmed _ _ _ _ _ _ _ q1 (Nat.le_refl _)
  simp only at htr
  have htl : s.trimmedCellCount ≤ cells.length := by rw [List.length_drop] at q9; omega
  have htake : s.termLine.take s.trimmedLineLength = K := by
    rw [q6, q7, List.take_left]
  unfold finishLine
  simp only
  rw [if_neg (by omega), htake]
  have hmid : ∀ t3, (if cc ≠ -1 ∧ (s.trimmedCellCount : Int) > cc then
      hideTerminalCursor { t2 with remoteColor := s.remoteColor }
      else { t2 with remoteColor := s.remoteColor }) = t3 →
      From ok base (Allowed t2.plainMode t2.outputColor) t3.out ∧ t3.plainMode = t2.plainMode ∧
      t3.outputColor = t2.outputColor ∧ t3.lineData = t2.lineData := by
    intro t3 ht3
    subst ht3
    split
    · obtain ⟨a, b, c⟩ := outInv_hide (ok := ok) (base := base) (t := { t2 with remoteColor := s.remoteColor })
        ⟨s1.stream, s1.data⟩
      refine ⟨?_, b, c, ?_⟩
      · have := a.stream
        rw [b, c] at this
        exact this
      · unfold hideTerminalCursor
        simp only [write]
        repeat' split
        all_goals rfl
    · exact ⟨s1.stream, rfl, rfl, rfl⟩
  generalize (if cc ≠ -1 ∧ (s.trimmedCellCount : Int) > cc then
      hideTerminalCursor { t2 with remoteColor := s.remoteColor }
      else { t2 with remoteColor := s.remoteColor }) = t3 at *
  obtain ⟨m1, m2, m3, m4⟩ := hmid t3 rfl
  refine ⟨_, rfl, ?_, ?_, ?_⟩
  · constructor
    · by_cases hc : ¬ s.alreadyErasedLine = true ∧ ¬ (write t3 K).plainMode = true
      · rw [if_pos hc]
        simp only [write]
        rw [m2, m3]
        refine (m1.append q8).append ?_
        have : ¬ t2.plainMode = true := by rw [← m2]; exact hc.2
        exact StreamOf.seq _ (allowed_seq this (isSeq_digits [0x30] (by simp) 0x4b (by simp)))
      · rw [if_neg hc]
        simp only [write]
        rw [m2, m3]
        exact m1.append q8
    · intro _
      have hld : (if ¬ s.alreadyErasedLine = true ∧ ¬ (write t3 K).plainMode = true then
          write (write t3 K) (csi ++ [0x30, 0x4b]) else write t3 K).lineData = t2.lineData := by
        split <;> exact m4
      simp only [hld]
      rw [List.length_append, List.length_take, List.length_drop]
      omega
  · have : ∀ c : Prop, ∀ [Decidable c], (if c then
          write (write t3 K) (csi ++ [0x30, 0x4b]) else write t3 K).plainMode = t3.plainMode := by
      intro c _; split <;> rfl
    simp only [this]
    rw [m2, s2, h2]
  · have : ∀ c : Prop, ∀ [Decidable c], (if c then
          write (write t3 K) (csi ++ [0x30, 0x4b]) else write t3 K).outputColor = t3.outputColor := by
      intro c _; split <;> rfl
    simp only [this]
    rw [m3, s3, h3]

end Winpty.Terminal
