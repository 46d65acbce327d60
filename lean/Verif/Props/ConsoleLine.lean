import Verif.Model.ConsoleLine
import Verif.Spec.ConsoleLine

/-! # C16: no visible change to a console line is missed -/
namespace Winpty.ConsoleLine

open Winpty.Spec.Line

/-- One operation on the object; the last component is what `detectChangeAndSetLine` returned. -/
def apply (o : Obj) : Op → Option (Obj × Option Bool)
  | .reset => some (reset o, none)
  | .blank a => some (blank o a, none)
  | .set l => some (setLine o l, none)
  | .detect l =>
    match detectChangeAndSetLine o l with
    | none => none
    | some (o', r) => some (o', some r)

/-- The object after a list of operations. -/
def run (o : Obj) : List Op → Option Obj
  | [] => some o
  | op :: ops =>
    match apply o op with
    | none => none
    | some (o', _) => run o' ops

theorem isLineBlankLoop_iff (a : Nat) (l : List Cell) :
    isLineBlankLoop a l = true ↔ ∀ c ∈ l, c = ⟨0x20, a⟩ := by
  induction l with
  | nil => simp [isLineBlankLoop]
  | cons c cs ih =>
    simp only [isLineBlankLoop]
    by_cases h : c.attr ≠ a ∨ c.ch ≠ 0x20
    · rw [if_pos h]
      constructor
      · intro hf; exact absurd hf (by decide)
      · intro hall
        have := hall c (List.mem_cons_self ..)
        subst this
        simp at h
    · rw [if_neg h]
      have hc : c = ⟨0x20, a⟩ := by
        cases c with
        | mk ch attr =>
          simp only [not_or, Decidable.not_not] at h
          simp only [Cell.mk.injEq]
          exact ⟨h.2, h.1⟩
      rw [ih]
      constructor
      · intro hall d hd
        rcases List.mem_cons.mp hd with rfl | hd
        · exact hc
        · exact hall d hd
      · intro hall d hd
        exact hall d (List.mem_cons_of_mem _ hd)

/-- The link between an object and what its history recorded. -/
structure Rep (o : Obj) (rec : List Cell) (obs : Nat → Option Cell) : Prop where
  len : o.prevLength = rec.length
  le : o.prevLength ≤ o.prevData.length
  vis : o.prevData.take o.prevLength = rec
  obs : ∀ col, o.prevData[col]? = obs col

theorem rep_setLine {o rec obs} (h : Rep o rec obs) (l : List Cell) :
    Rep (setLine o l) l (fun col => if col < l.length then l[col]? else obs col) := by
  have hd : ∀ col, l.length ≤ col →
      (if o.prevData.length < l.length then resize o.prevData l.length else o.prevData)[col]?
        = o.prevData[col]? := by
    intro col hc
    by_cases hlt : o.prevData.length < l.length
    · rw [if_pos hlt]
      unfold resize
      rw [List.getElem?_eq_none (by simp; omega), List.getElem?_eq_none (by omega)]
    · rw [if_neg hlt]
  constructor
  · rfl
  · simp only [setLine, overwrite, List.length_append]; omega
  · simp only [setLine, overwrite]
    rw [List.take_append_of_le_length (Nat.le_refl _), List.take_length]
  · intro col
    simp only [setLine, overwrite]
    by_cases hc : col < l.length
    · rw [if_pos hc, List.getElem?_append_left hc]
    · rw [if_neg hc, List.getElem?_append_right (by omega), List.getElem?_drop,
        show l.length + (col - l.length) = col by omega, hd col (by omega), h.obs]

theorem lastAttr_eq {l : List Cell} {c : Cell} (h : l[l.length - 1]? = some c) :
    lastAttr l = c.attr := by
  simp only [lastAttr, List.getLast?_eq_getElem?, h]

/-- What `detectChangeAndSetLine` does, in terms of the history. -/
theorem rep_detect {o rec obs} (h : Rep o rec obs) (l : List Cell) (hl : l ≠ []) :
    ∃ o' r, detectChangeAndSetLine o l = some (o', r) ∧
      Rep o' l (fun col => if col < l.length then l[col]? else obs col) ∧
      (r = false ↔
        rec ≠ [] ∧ LooksSame (fill rec l) rec l ∧
        ∀ col, rec.length ≤ col → col < l.length → ∀ c, obs col = some c →
          c = ⟨0x20, fill rec l⟩) := by
  have hpos : l.length ≥ 1 := by
    cases l with
    | nil => exact absurd rfl hl
    | cons _ _ => simp
  have hset := rep_setLine h l
  simp only [detectChangeAndSetLine]
  rw [if_neg (by simpa using hl), if_neg (by have := h.le; omega)]
  by_cases he : l.length = o.prevLength
  · rw [if_pos he]
    have hle := h.le
    simp only [areLinesEqual]
    rw [if_pos ⟨by omega, Nat.le_refl _⟩]
    have ht : o.prevData.take l.length = rec := by rw [he]; exact h.vis
    have hne : rec ≠ [] := by
      intro hr; have := h.len; rw [hr] at this; simp at this; omega
    have hlen : rec.length = l.length := by rw [he]; exact h.len.symm
    rw [ht, List.take_length]
    refine ⟨_, _, rfl, ?_, ?_⟩
    · by_cases heq : rec = l
      · simp only [heq, decide_true, if_true]
        constructor
        · rw [he]
        · exact h.le
        · rw [h.vis, heq]
        · intro col
          rw [← h.obs]
          by_cases hc : col < l.length
          · rw [if_pos hc, ← heq, ← h.vis, List.getElem?_take, if_pos (by omega)]
          · rw [if_neg hc]
      · simp only [heq, decide_false]
        exact hset
    · rw [Bool.not_eq_false', decide_eq_true_iff]
      constructor
      · intro heq
        refine ⟨hne, ?_, ?_⟩
        · intro col; rw [heq]
        · intro col h1 h2; omega
      · intro ⟨_, hs, _⟩
        apply List.ext_getElem hlen
        intro i h1 h2
        have := hs i
        simpa [cellAt, List.getD, List.getElem?_eq_getElem h1, List.getElem?_eq_getElem h2] using this
  · rw [if_neg he]
    by_cases hz : o.prevLength = 0
    · rw [if_pos hz]
      refine ⟨_, _, rfl, hset, ?_⟩
      constructor
      · intro hf; exact absurd hf (by decide)
      · intro ⟨hne, _⟩
        exact absurd (List.length_eq_zero_iff.mp (by rw [← h.len]; exact hz)) hne
    · rw [if_neg hz]
      have hle := h.le
      have hlen := h.len
      have hne : rec ≠ [] := by
        intro hr; rw [hr] at hlen; simp at hlen; omega
      obtain ⟨cn, hcn⟩ : ∃ c, l[l.length - 1]? = some c :=
        ⟨_, List.getElem?_eq_getElem (by omega)⟩
      obtain ⟨cp, hcp⟩ : ∃ c, rec[rec.length - 1]? = some c :=
        ⟨_, List.getElem?_eq_getElem (by omega)⟩
      have hvis : ∀ i, i < rec.length → rec[i]? = o.prevData[i]? := by
        intro i hi
        rw [← h.vis, List.getElem?_take, if_pos (by omega)]
      have hcp' : o.prevData[o.prevLength - 1]? = some cp := by
        rw [h.len, ← hvis _ (by omega)]; exact hcp
      rw [hcp', hcn]
      simp only
      by_cases hlt : l.length < o.prevLength
      · rw [if_pos hlt]
        have hf : fill rec l = cn.attr := by
          simp only [fill]; rw [if_neg (by omega)]; exact lastAttr_eq hcn
        simp only [equalShorter, areLinesEqual, isLineBlank]
        rw [if_pos ⟨by omega, Nat.le_refl _⟩, if_pos (by omega), List.take_length]
        have key : (andThen (some (decide (o.prevData.take l.length = l)))
            (some (isLineBlankLoop cn.attr
              ((o.prevData.drop l.length).take (o.prevLength - l.length)))))
            = some (decide (o.prevData.take l.length = l) &&
              isLineBlankLoop cn.attr
              ((o.prevData.drop l.length).take (o.prevLength - l.length))) := by
          cases decide (o.prevData.take l.length = l) <;> rfl
        rw [key]
        refine ⟨_, _, rfl, hset, ?_⟩
        rw [Bool.not_eq_false', Bool.and_eq_true, decide_eq_true_iff, isLineBlankLoop_iff, hf]
        constructor
        · intro ⟨h1, h2⟩
          refine ⟨hne, ?_, ?_⟩
          · intro col
            simp only [cellAt, List.getD]
            by_cases hc : col < l.length
            · rw [hvis col (by omega)]
              have : (o.prevData.take l.length)[col]? = o.prevData[col]? := by
                rw [List.getElem?_take, if_pos hc]
              rw [h1] at this
              rw [this]
            · rw [List.getElem?_eq_none (by omega : l.length ≤ col)]
              by_cases hc' : col < rec.length
              · have hcol : o.prevData[col]? = some o.prevData[col] :=
                  List.getElem?_eq_getElem (by omega)
                rw [hvis col hc', hcol]
                refine h2 (o.prevData[col]'(by omega)) ?_
                rw [List.mem_iff_getElem?]
                refine ⟨col - l.length, ?_⟩
                rw [List.getElem?_take, if_pos (by omega), List.getElem?_drop,
                  show l.length + (col - l.length) = col by omega, hcol]
              · rw [List.getElem?_eq_none (by omega : rec.length ≤ col)]
          · intro col g1 g2; omega
        · intro ⟨_, hs, _⟩
          constructor
          · apply List.ext_getElem (by simp; omega)
            intro i g1 g2
            have := hs i
            rw [List.getElem_take]
            simp only [cellAt, List.getD] at this
            rw [hvis i (by omega), List.getElem?_eq_getElem (by omega),
              List.getElem?_eq_getElem g2] at this
            simpa using this
          · intro c hc
            rw [List.mem_iff_getElem?] at hc
            obtain ⟨i, hi⟩ := hc
            rw [List.getElem?_take] at hi
            by_cases hi' : i < o.prevLength - l.length
            · rw [if_pos hi', List.getElem?_drop] at hi
              have := hs (l.length + i)
              simp only [cellAt, List.getD] at this
              rw [hvis _ (by omega), hi, List.getElem?_eq_none (by omega)] at this
              simpa using this
            · rw [if_neg hi'] at hi; exact absurd hi (by simp)
      · rw [if_neg hlt]
        have hf : fill rec l = cp.attr := by
          simp only [fill]; rw [if_pos (by omega)]; exact lastAttr_eq hcp
        simp only [equalLonger, areLinesEqual, isLineBlank]
        rw [if_pos ⟨by omega, by omega⟩, if_pos (by omega), if_pos (by omega)]
        have key : ∀ a b c : Bool, (andThen (some a) (andThen (some b) (some c)))
            = some (a && (b && c)) := by
          intro a b c; cases a <;> cases b <;> rfl
        rw [key]
        refine ⟨_, _, rfl, hset, ?_⟩
        rw [Bool.not_eq_false', Bool.and_eq_true, Bool.and_eq_true, decide_eq_true_iff,
          isLineBlankLoop_iff, isLineBlankLoop_iff, hf, h.vis, h.len]
        constructor
        · intro ⟨h1, h2, h3⟩
          refine ⟨hne, ?_, ?_⟩
          · intro col
            simp only [cellAt, List.getD]
            by_cases hc : col < rec.length
            · have : (l.take rec.length)[col]? = l[col]? := by
                rw [List.getElem?_take, if_pos hc]
              rw [← h1] at this
              rw [this]
            · rw [List.getElem?_eq_none (by omega : rec.length ≤ col)]
              by_cases hc' : col < l.length
              · have hcol : l[col]? = some l[col] := List.getElem?_eq_getElem hc'
                rw [hcol]
                symm
                refine h3 (l[col]'hc') ?_
                rw [List.mem_iff_getElem?]
                refine ⟨col - rec.length, ?_⟩
                rw [List.getElem?_take, if_pos (by omega), List.getElem?_drop,
                  show rec.length + (col - rec.length) = col by omega, hcol]
              · rw [List.getElem?_eq_none (by omega : l.length ≤ col)]
          · intro col g1 g2 c hc
            rw [← h.obs] at hc
            apply h2
            rw [List.mem_iff_getElem?]
            refine ⟨col - rec.length, ?_⟩
            have hd := (List.getElem?_eq_some_iff.mp hc).1
            rw [List.getElem?_take, if_pos (by omega), List.getElem?_drop,
              show rec.length + (col - rec.length) = col by omega, hc]
        · intro ⟨_, hs, ho⟩
          refine ⟨?_, ?_, ?_⟩
          · apply List.ext_getElem (by simp; omega)
            intro i g1 g2
            have := hs i
            rw [List.getElem_take]
            simp only [cellAt, List.getD] at this
            rw [List.getElem?_eq_getElem g1, List.getElem?_eq_getElem (by omega)] at this
            simpa using this
          · intro c hc
            rw [List.mem_iff_getElem?] at hc
            obtain ⟨i, hi⟩ := hc
            rw [List.getElem?_take] at hi
            by_cases hi' : i < min o.prevData.length l.length - rec.length
            · rw [if_pos hi', List.getElem?_drop] at hi
              exact ho (rec.length + i) (by omega) (by omega) c (by rw [← h.obs]; exact hi)
            · rw [if_neg hi'] at hi; exact absurd hi (by simp)
          · intro c hc
            rw [List.mem_iff_getElem?] at hc
            obtain ⟨i, hi⟩ := hc
            rw [List.getElem?_take] at hi
            by_cases hi' : i < l.length - rec.length
            · rw [if_pos hi', List.getElem?_drop] at hi
              have := hs (rec.length + i)
              simp only [cellAt, List.getD] at this
              rw [hi, List.getElem?_eq_none (by omega)] at this
              simpa using this.symm
            · rw [if_neg hi'] at hi; exact absurd hi (by simp)

theorem rep_init : Rep init [] (fun _ => none) := by
  constructor <;> simp [init]

theorem rep_reset (o : Obj) : Rep (reset o) [] (fun _ => none) := by
  constructor <;> simp [reset]

theorem rep_blank (o : Obj) (a : Nat) :
    Rep (blank o a) [⟨0x20, a⟩] (fun col => if col = 0 then some ⟨0x20, a⟩ else none) := by
  constructor
  · rfl
  · simp [blank]
  · rfl
  · intro col
    cases col with
    | zero => rfl
    | succ n => simp [blank]

/-- The history invariant. -/
theorem run_rep (ops : List Op) (hv : Valid ops) (o : Obj) (rec : List Cell)
    (obs : Nat → Option Cell) (h : Rep o rec obs) :
    ∃ o', run o ops = some o' ∧
      Rep o' (recorded ops rec) (fun col => obscured ops col (obs col)) := by
  induction ops generalizing o rec obs with
  | nil => exact ⟨o, rfl, h⟩
  | cons op ops ih =>
    have hv' : Valid ops := fun x hx => hv x (List.mem_cons_of_mem _ hx)
    cases op with
    | reset => exact ih hv' _ _ _ (rep_reset o)
    | blank a => exact ih hv' _ _ _ (rep_blank o a)
    | set l => exact ih hv' _ _ _ (rep_setLine h l)
    | detect l =>
      obtain ⟨o', r, h1, h2, _⟩ :=
        rep_detect h l (hv _ (List.mem_cons_self ..) l (Or.inr rfl))
      obtain ⟨o'', h3, h4⟩ := ih hv' o' _ _ h2
      refine ⟨o'', ?_, h4⟩
      simp only [run, apply, h1]
      exact h3

end Winpty.ConsoleLine

namespace Winpty.Props

open Winpty.ConsoleLine Winpty.Spec.Line

/-- **C16.**  After any history of resets, blanks and recorded lines of any widths, no assertion
fails and no read is out of bounds, and change detection for a line `l`
* reports "unchanged" exactly if a line was recorded, it looks the same as `l` when the shorter of
  the two is continued by blanks like its last cell, and any obscured cells that `l` exposes again
  are such blanks (so skipping the redraw loses nothing);
* in either case the record becomes `l`. -/
theorem C16_change_detection (ops : List Op) (hv : Valid ops) (l : List Cell) (hl : l ≠ []) :
    ∃ o o' changed, run init ops = some o ∧
      detectChangeAndSetLine o l = some (o', changed) ∧
      (changed = false ↔
        recorded ops [] ≠ [] ∧
        LooksSame (fill (recorded ops []) l) (recorded ops []) l ∧
        ∀ col, (recorded ops []).length ≤ col → col < l.length →
          ∀ c, obscured ops col none = some c → c = ⟨0x20, fill (recorded ops []) l⟩) ∧
      o'.prevData.take o'.prevLength = l := by
  obtain ⟨o, h1, h2⟩ := run_rep ops hv init [] (fun _ => none) rep_init
  obtain ⟨o', r, h3, h4, h5⟩ := rep_detect h2 l hl
  exact ⟨o, o', r, h1, h3, h5, h4.vis⟩

/-- **C16**, as a user sees it: whatever happened before, a redraw is only skipped when every
column of the screen already shows what it should. -/
theorem C16_skip_is_safe (ops : List Op) (hv : Valid ops) (l : List Cell) (hl : l ≠ [])
    (o o' : Obj) (h : run init ops = some o)
    (hskip : detectChangeAndSetLine o l = some (o', false)) :
    ∃ a, ∀ col, cellAt a (recorded ops []) col = cellAt a l col := by
  obtain ⟨o₁, o₂, c, h1, h2, h3, _⟩ := C16_change_detection ops hv l hl
  rw [h] at h1
  cases h1
  rw [hskip] at h2
  cases h2
  exact ⟨_, (h3.mp rfl).2.1⟩

/-- Non-vacuity: `"ab "` recorded, then narrowed to `"ab"`: unchanged; then widened back over
obscured text `"abX"`: changed. -/
example :
    (detectChangeAndSetLine (setLine init [⟨97, 7⟩, ⟨98, 7⟩, ⟨32, 7⟩]) [⟨97, 7⟩, ⟨98, 7⟩]).map (·.2)
      = some false ∧
    ((run init [.set [⟨97, 7⟩, ⟨98, 7⟩, ⟨88, 7⟩], .detect [⟨97, 7⟩, ⟨98, 7⟩]]).bind
      fun o => (detectChangeAndSetLine o [⟨97, 7⟩, ⟨98, 7⟩, ⟨32, 7⟩]).map (·.2)) = some true := by
  decide

end Winpty.Props
