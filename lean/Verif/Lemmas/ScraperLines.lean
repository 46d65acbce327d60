import Verif.Lemmas.ScraperMarker
import Verif.Props.ConsoleLine

/-! Lemmas about reading, comparing and sending lines in `Scraper.cc`. -/
namespace Winpty.Scraper

open Winpty.Spec.Scrape
open Winpty.SmallRect
open Winpty.LargeRead (Buf largeConsoleRead lineData)
open Winpty.ConsoleLine (Cell Obj Rep)
open Winpty.Agent (TermCall)
open Winpty.Spec.Term

/-! ## Equality of lines -/

theorem extends_refl {l : List Cell} (h : l ≠ []) : Extends l l := ⟨h, 0, by simp⟩

theorem SameLine.refl {l : List Cell} (h : l ≠ []) : SameLine l l :=
  ⟨l, extends_refl h, extends_refl h⟩

theorem SameLine.symm {a b : List Cell} (h : SameLine a b) : SameLine b a :=
  let ⟨l, h1, h2⟩ := h
  ⟨l, h2, h1⟩

theorem extends_last {a b : List Cell} (h : Extends a b) :
    (b.getLast?.getD ⟨0, 0⟩).attr = (a.getLast?.getD ⟨0, 0⟩).attr := by
  obtain ⟨_, n, rfl⟩ := h
  cases n with
  | zero => simp
  | succ n => rw [List.replicate_succ']; simp [List.getLast?_append]

theorem extends_trans {a b c : List Cell} (h1 : Extends a b) (h2 : Extends b c) : Extends a c := by
  have hl := extends_last h1
  obtain ⟨ha, n, hn⟩ := h1
  obtain ⟨_, m, hm⟩ := h2
  refine ⟨ha, n + m, ?_⟩
  rw [hm, hl, hn, List.append_assoc, List.replicate_append_replicate]

/-- Of two beginnings of a line one is a beginning of the other. -/
theorem extends_linear {a b c : List Cell} (h1 : Extends a c) (h2 : Extends b c)
    (hle : a.length ≤ b.length) : Extends a b := by
  obtain ⟨ha, n, hn⟩ := h1
  obtain ⟨_, m, hm⟩ := h2
  refine ⟨ha, b.length - a.length, ?_⟩
  have hb : b = c.take b.length := by rw [hm]; simp
  have hlen : c.length = a.length + n := by rw [hn]; simp
  have hlen2 : c.length = b.length + m := by rw [hm]; simp
  generalize hx : (⟨0x20, (a.getLast?.getD ⟨0, 0⟩).attr⟩ : Cell) = x at *
  have h3 : b = List.take b.length (a ++ List.replicate n x) := by rw [← hn]; exact hb
  rw [List.take_append, List.take_of_length_le hle, List.take_replicate,
    Nat.min_eq_left (by omega)] at h3
  exact h3

theorem SameLine.trans {a b c : List Cell} (h1 : SameLine a b) (h2 : SameLine b c) :
    SameLine a c := by
  obtain ⟨l, h1a, h1b⟩ := h1
  obtain ⟨m, h2b, h2c⟩ := h2
  by_cases hle : l.length ≤ m.length
  · exact ⟨l, h1a, extends_trans (extends_linear h1b h2b hle) h2c⟩
  · exact ⟨m, extends_trans (extends_linear h2b h1b (by omega)) h1a, h2c⟩

theorem lastAttr_getD (l : List Cell) (h : l ≠ []) :
    Spec.Line.lastAttr l = (l.getLast?.getD ⟨0, 0⟩).attr := by
  unfold Spec.Line.lastAttr
  rw [List.getLast?_eq_some_getLast h]
  rfl

theorem extends_of_looks {a b : List Cell} (ha : a ≠ []) (hle : a.length ≤ b.length)
    (h : Spec.Line.LooksSame (Spec.Line.lastAttr a) a b) : Extends a b := by
  refine ⟨ha, b.length - a.length, ?_⟩
  apply List.ext_getElem?
  intro i
  have hi := h i
  simp only [Spec.Line.cellAt, List.getD] at hi
  by_cases h1 : i < a.length
  · rw [List.getElem?_append_left h1]
    rw [List.getElem?_eq_getElem h1, List.getElem?_eq_getElem (by omega : i < b.length)] at hi ⊢
    simpa using hi.symm
  · rw [List.getElem?_append_right (by omega), List.getElem?_replicate]
    by_cases h2 : i < b.length
    · rw [if_pos (by omega), List.getElem?_eq_getElem h2]
      rw [List.getElem?_eq_none (by omega : a.length ≤ i), List.getElem?_eq_getElem h2] at hi
      simp only [Option.getD_none, Option.getD_some] at hi
      rw [← hi, lastAttr_getD a ha]
    · rw [if_neg (by omega), List.getElem?_eq_none (by omega)]

theorem sameLine_of_looks {a b : List Cell} (ha : a ≠ []) (hb : b ≠ [])
    (h : Spec.Line.LooksSame (Spec.Line.fill a b) a b) : SameLine a b := by
  unfold Spec.Line.fill at h
  by_cases hle : a.length ≤ b.length
  · rw [if_pos hle] at h
    exact ⟨a, extends_refl ha, extends_of_looks ha hle h⟩
  · rw [if_neg hle] at h
    exact ⟨b, extends_of_looks hb (by omega) (fun i => (h i).symm), extends_refl hb⟩

theorem rep_unique {o : Obj} {r1 r2 : List Cell} {o1 o2 : Nat → Option Cell} (h1 : Rep o r1 o1)
    (h2 : Rep o r2 o2) : r1 = r2 := by rw [← h1.vis, ← h2.vis]

/-! ## Where a line's record is -/

def idx (l : Int) : Nat := (l % 3000).toNat

theorem bufferIndex_eq {l : Int} (h : 0 ≤ l) : bufferIndex l = some (idx l) := by
  unfold bufferIndex idx bufferLineCount
  rw [if_neg (by omega), Int.tmod_eq_emod_of_nonneg h]

theorem idx_inj {a b : Int} (h1 : a - b < 3000) (h2 : b - a < 3000) (h : idx a = idx b) : a = b := by
  unfold idx at h
  omega

/-! ## Sending -/

/-- The calls for lines `m`, `m + 1`, … (`n` of them). -/
def sends (R : Int → List Cell) (cl cc m : Int) (n : Nat) : List TermCall :=
  (List.range n).map fun i : Nat =>
    .sendLine (m + i) (R (m + i)) (if m + i = cl then cc else -1)

theorem sends_cons (R : Int → List Cell) (cl cc m : Int) (n : Nat) :
    sends R cl cc m (n + 1) =
      .sendLine m (R m) (if m = cl then cc else -1) :: sends R cl cc (m + 1) n := by
  simp only [sends, List.range_succ_eq_map, List.map_cons, List.map_map]
  congr 1
  · simp
  · apply List.map_congr_left
    intro i _
    simp only [Function.comp, Nat.succ_eq_add_one, Int.natCast_add, Int.natCast_one]
    simp only [show m + ((i : Int) + 1) = m + 1 + i by omega]

/-- The cells of a record after `l` was written over it. -/
def over (l : List Cell) (obs : Nat → Option Cell) : Nat → Option Cell :=
  fun col => if col < l.length then l[col]? else obs col

/-- A row does not differ from its record. -/
def Unchanged (rec : List Cell) (obs : Nat → Option Cell) (l : List Cell) : Prop :=
  rec ≠ [] ∧ Spec.Line.LooksSame (Spec.Line.fill rec l) rec l ∧
    ∀ col, rec.length ≤ col → col < l.length → ∀ c, obs col = some c →
      c = ⟨0x20, Spec.Line.fill rec l⟩

theorem unchanged_refl {l : List Cell} {obs : Nat → Option Cell} (h : l ≠ []) : Unchanged l obs l :=
  ⟨h, fun _ => rfl, fun col h1 h2 => by omega⟩

theorem unchanged_blanked {rec l : List Cell} {obs : Nat → Option Cell} (h1 : Blanked rec)
    (h2 : Blanked l) (h3 : ∀ col c, obs col = some c → c = ⟨0x20, 7⟩) : Unchanged rec obs l := by
  have hla : ∀ x : List Cell, Blanked x → Spec.Line.lastAttr x = 7 := by
    intro x hx
    unfold Spec.Line.lastAttr
    cases hg : x.getLast? with
    | none => exact absurd (List.getLast?_eq_none_iff.mp hg) hx.1
    | some c => rw [hx.2 c (List.mem_of_getLast? hg)]
  have hfill : Spec.Line.fill rec l = 7 := by
    unfold Spec.Line.fill; split
    · exact hla rec h1
    · exact hla l h2
  have hat : ∀ (x : List Cell), Blanked x → ∀ col, Spec.Line.cellAt 7 x col = ⟨0x20, 7⟩ := by
    intro x hx col
    unfold Spec.Line.cellAt
    rw [List.getD_eq_getElem?_getD]
    cases hg : x[col]? with
    | none => rfl
    | some c => exact hx.2 c (List.mem_of_getElem? hg)
  refine ⟨h1.1, ?_, ?_⟩
  · rw [hfill]; intro col; rw [hat rec h1, hat l h2]
  · rw [hfill]; intro col _ _ c hc; exact h3 col c hc

/-- What the loop that sends lines does. -/
structure Sent (s : S) (R : Int → List Cell) (cl cc l0 : Int) (n : Nat) (saw : Bool) (s' : S)
    (calls : List TermCall) (m : Int) : Prop where
  lo : l0 ≤ m
  hi : m ≤ l0 + n
  first : saw = true → m = l0
  calls : calls = sends R cl cc m (l0 + n - m).toNat
  same : ∀ l, l0 ≤ l → l < m → l ≤ s.maxBufferedLine ∧
    ∀ rec obs, Rep (s.bufferData (idx l)) rec obs → SameLine rec (R l)
  state : s' = { s with
    maxBufferedLine := if m < l0 + n then max s.maxBufferedLine (l0 + n - 1) else s.maxBufferedLine
    bufferData := s'.bufferData }
  recorded : ∀ l, l0 ≤ l → l < l0 + n → ∀ rec obs, Rep (s.bufferData (idx l)) rec obs →
    Rep (s'.bufferData (idx l)) (R l) (over (R l) obs)
  others : ∀ i, (∀ l, l0 ≤ l → l < l0 + n → idx l ≠ i) → s'.bufferData i = s.bufferData i
  why : m < l0 + n → saw = false → s.maxBufferedLine < m ∨
    ∀ rec obs, Rep (s.bufferData (idx m)) rec obs → ¬ Unchanged rec obs (R m)

theorem sendLoop_spec (R : Int → List Cell) (cl cc : Int) : ∀ (n : Nat) (s : S) (l0 : Int) (saw : Bool),
    0 ≤ l0 → n ≤ 3000 → (∀ i, ∃ rec obs, Rep (s.bufferData i) rec obs) →
    (∀ l, l0 ≤ l → l < l0 + n →
      rowAt s.readBuffer s.readBuffer.rect.width (l - s.scrolledCount) = some (R l) ∧ R l ≠ []) →
    ∃ s' calls m, sendLoop s cl cc n l0 saw = some (s', calls) ∧ Sent s R cl cc l0 n saw s' calls m := by
  intro n
  induction n with
  | zero =>
    intro s l0 saw h0 _ _ _
    refine ⟨s, [], l0, rfl, ?_⟩
    constructor
    · omega
    · omega
    · intro _; rfl
    · simp [sends]
    · intro l _ _; omega
    · simp
    · intro l _ _; omega
    · intro i _; rfl
    · intro h; omega
  | succ n ih =>
    intro s l0 saw h0 hn hobj hrow
    obtain ⟨hr0, hne0⟩ := hrow l0 (by omega) (by omega)
    have hni : ∀ l, l0 + 1 ≤ l → l < l0 + 1 + n → idx l ≠ idx l0 := by
      intro l g1 g2 he
      have := idx_inj (a := l) (b := l0) (by omega) (by omega) he
      omega
    simp only [sendLoop, hr0, bufferIndex_eq h0]
    obtain ⟨rec0, obs0, hrep0⟩ := hobj (idx l0)
    by_cases hs : (saw || decide (l0 > s.maxBufferedLine)) = true
    · rw [if_pos hs]
      have hrep1 := ConsoleLine.rep_setLine hrep0 (R l0)
      obtain ⟨s', calls, m, hl, hsent⟩ := ih
        (setBufferLine { s with maxBufferedLine := max s.maxBufferedLine l0 } (idx l0)
          (ConsoleLine.setLine (s.bufferData (idx l0)) (R l0))) (l0 + 1) true (by omega) (by omega)
        (by
          intro i
          by_cases hi : i = idx l0
          · simp only [setBufferLine, hi, if_true]; exact ⟨_, _, hrep1⟩
          · simp only [setBufferLine, hi, if_false]; exact hobj i)
        (fun l g1 g2 => hrow l (by omega) (by omega))
      have hm := hsent.first rfl
      rw [hl]
      refine ⟨s', _, l0, rfl, ?_⟩
      have hst := hsent.state
      have hoth := hsent.others
      have hrec := hsent.recorded
      constructor
      · omega
      · omega
      · intro _; rfl
      · rw [show (l0 + ((n + 1 : Nat) : Int) - l0).toNat = n + 1 by omega, sends_cons, hsent.calls, hm,
          show (l0 + 1 + (n : Int) - (l0 + 1)).toNat = n by omega]
      · intro l _ _; omega
      · rw [hst]
        simp only [setBufferLine]
        congr 1
        rw [if_pos (show l0 < l0 + ((n + 1 : Nat) : Int) by omega)]
        split <;> omega
      · intro l g1 g2 rec obs hrep
        by_cases hl0 : l = l0
        · subst hl0
          rw [hoth _ (fun l' g3 g4 => hni l' g3 (by omega))]
          simp only [setBufferLine, if_true]
          exact ConsoleLine.rep_setLine hrep (R l)
        · apply hrec l (by omega) (by omega) rec obs
          simp only [setBufferLine]
          rw [if_neg (hni l (by omega) (by omega))]
          exact hrep
      · intro i hi
        rw [hoth i (fun l g1 g2 => hi l (by omega) (by omega))]
        simp only [setBufferLine]
        rw [if_neg (fun he => hi l0 (by omega) (by omega) he.symm)]
      · intro _ h
        simp only [h, Bool.false_or, decide_eq_true_eq] at hs
        exact .inl hs
    · rw [if_neg hs]
      simp only [Bool.or_eq_true, decide_eq_true_eq, not_or] at hs
      obtain ⟨o, ch, hd, hrep1, hiff⟩ := ConsoleLine.rep_detect hrep0 (R l0) hne0
      rw [hd]
      obtain ⟨s', calls, m, hl, hsent⟩ := ih (setBufferLine s (idx l0) o) (l0 + 1) ch (by omega) (by omega)
        (by
          intro i
          by_cases hi : i = idx l0
          · simp only [setBufferLine, hi, if_true]; exact ⟨_, _, hrep1⟩
          · simp only [setBufferLine, hi, if_false]; exact hobj i)
        (fun l g1 g2 => hrow l (by omega) (by omega))
      have hoth := hsent.others
      have hrec := hsent.recorded
      have hst := hsent.state
      have hlo := hsent.lo
      have hhi := hsent.hi
      simp only [hl]
      have hrecorded : ∀ l, l0 ≤ l → l < l0 + ((n + 1 : Nat) : Int) →
          ∀ rec obs, Rep (s.bufferData (idx l)) rec obs →
          Rep (s'.bufferData (idx l)) (R l) (over (R l) obs) := by
        intro l g1 g2 rec obs hrep
        by_cases hl0 : l = l0
        · subst hl0
          rw [hoth _ (fun l' g3 g4 => hni l' g3 (by omega))]
          simp only [setBufferLine, if_true]
          rw [show obs = obs0 from funext fun col => by rw [← hrep.obs, hrep0.obs]]
          exact hrep1
        · apply hrec l (by omega) (by omega) rec obs
          simp only [setBufferLine]
          rw [if_neg (hni l (by omega) (by omega))]
          exact hrep
      have hothers : ∀ i, (∀ l, l0 ≤ l → l < l0 + ((n + 1 : Nat) : Int) → idx l ≠ i) →
          s'.bufferData i = s.bufferData i := by
        intro i hi
        rw [hoth i (fun l g1 g2 => hi l (by omega) (by omega))]
        simp only [setBufferLine]
        rw [if_neg (fun he => hi l0 (by omega) (by omega) he.symm)]
      cases ch with
      | true =>
        have hm := hsent.first rfl
        refine ⟨s', _, l0, rfl, ?_⟩
        constructor
        · omega
        · omega
        · intro _; rfl
        · rw [show (l0 + ((n + 1 : Nat) : Int) - l0).toNat = n + 1 by omega, sends_cons, hsent.calls, hm,
            show (l0 + 1 + (n : Int) - (l0 + 1)).toNat = n by omega]
          rfl
        · intro l _ _; omega
        · rw [hst]
          simp only [setBufferLine]
          congr 1
          rw [if_pos (show l0 < l0 + ((n + 1 : Nat) : Int) by omega)]
          split <;> omega
        · exact hrecorded
        · exact hothers
        · intro _ _
          refine .inr ?_
          intro rec obs hrep hu
          have e1 := rep_unique hrep hrep0
          have e2 : obs = obs0 := funext fun col => by rw [← hrep.obs, hrep0.obs]
          rw [e1, e2] at hu
          exact absurd (hiff.mpr hu) (by decide)
      | false =>
        refine ⟨s', _, m, rfl, ?_⟩
        constructor
        · omega
        · omega
        · intro h; exact absurd h hs.1
        · rw [show (l0 + ((n + 1 : Nat) : Int) - m).toNat = (l0 + 1 + (n : Int) - m).toNat by omega,
            hsent.calls]
          rfl
        · intro l g1 g2
          by_cases hl0 : l = l0
          · subst hl0
            refine ⟨by omega, ?_⟩
            intro rec obs hrep
            rw [rep_unique hrep hrep0]
            obtain ⟨k1, k2, _⟩ := hiff.mp rfl
            exact sameLine_of_looks k1 hne0 k2
          · obtain ⟨k1, k2⟩ := hsent.same l (by omega) g2
            refine ⟨k1, ?_⟩
            intro rec obs hrep
            apply k2 rec obs
            simp only [setBufferLine]
            rw [if_neg (hni l (by omega) (by omega))]
            exact hrep
        · rw [hst]
          simp only [setBufferLine]
          congr 1
          have : (m < l0 + 1 + (n : Int)) ↔ (m < l0 + ((n + 1 : Nat) : Int)) := by omega
          simp only [this]
          split <;> omega
        · exact hrecorded
        · exact hothers
        · intro g _
          rcases hsent.why (by omega) rfl with h | h
          · exact .inl h
          · refine .inr ?_
            intro rec obs hrep
            apply h rec obs
            simp only [setBufferLine]
            rw [if_neg (hni m (by omega) (by omega))]
            exact hrep

/-! ## Looking for lines that are not blank -/

theorem anyDirtyCell_false (a : Nat) : ∀ (l : List Cell), anyDirtyCell a l = false → AllBlank l := by
  intro l
  induction l with
  | nil => intro _ c hc; cases hc
  | cons c cs ih =>
    intro h d hd
    simp only [anyDirtyCell] at h
    by_cases hc : c.ch ≠ 0x20 ∨ c.attr ≠ a
    · rw [if_pos hc] at h; cases h
    · rw [if_neg hc] at h
      rcases List.mem_cons.mp hd with rfl | hd
      · exact Decidable.byContradiction fun h => hc (.inl h)
      · exact ih h d hd

theorem scanLoop_spec (b : Buf) (w : Int) (Q : Int → List Cell) : ∀ (n : Nat) (line : Int) (prev : Nat)
    (dirty : Int), dirty ≤ line →
    (∀ r, line ≤ r → r < line + n → rowAt b w r = some (Q r) ∧ Q r ≠ []) →
    ∃ d, scanLoop b w n line prev dirty = some d ∧ dirty ≤ d ∧ d ≤ max dirty (line + n) ∧
      ∀ r, line ≤ r → r < line + n → d ≤ r → AllBlank (Q r) := by
  intro n
  induction n with
  | zero => intro line prev dirty h _; exact ⟨dirty, rfl, by omega, by omega, fun r _ _ _ => by omega⟩
  | succ n ih =>
    intro line prev dirty h hrow
    obtain ⟨h1, h2⟩ := hrow line (by omega) (by omega)
    simp only [scanLoop, h1, List.getLast?_eq_some_getLast h2]
    obtain ⟨d, hd, hlo, hhi, hb⟩ := ih (line + 1) ((Q line).getLast h2).attr
      (if anyDirtyCell prev (Q line) = true then line + 1 else dirty) (by split <;> omega)
      (fun r g1 g2 => hrow r (by omega) (by omega))
    refine ⟨d, hd, by revert hlo; split <;> omega, by revert hhi; split <;> omega, ?_⟩
    intro r g1 g2 g3
    by_cases hr : r = line
    · subst hr
      cases hc : anyDirtyCell prev (Q r) with
      | true => rw [hc, if_pos rfl] at hlo; omega
      | false => exact anyDirtyCell_false prev _ hc
    · exact hb r (by omega) (by omega) g3

/-- The attributes of the last cell of a row. -/
def endAttr (Q : Int → List Cell) (r : Int) : Nat := ((Q r).getLast?.getD ⟨0, 0⟩).attr

/-- What the search finds, row by row. -/
theorem scanLoop_rest (b : Buf) (w : Int) (Q : Int → List Cell) : ∀ (n : Nat) (line : Int) (dirty d : Int),
    dirty ≤ line → (∀ r, line ≤ r → r < line + n → rowAt b w r = some (Q r) ∧ Q r ≠ []) →
    scanLoop b w n line (endAttr Q (line - 1)) dirty = some d →
    (∀ r, line ≤ r → r < line + n → d ≤ r → anyDirtyCell (endAttr Q (r - 1)) (Q r) = false) ∧
    ((∀ r, line ≤ r → r < line + n → anyDirtyCell (endAttr Q (r - 1)) (Q r) = false) → d = dirty) := by
  intro n
  induction n with
  | zero =>
    intro line dirty d _ _ hd
    simp only [scanLoop, Option.some.injEq] at hd
    exact ⟨fun r _ _ _ => by omega, fun _ => hd.symm⟩
  | succ n ih =>
    intro line dirty d h hrow hd
    obtain ⟨h1, h2⟩ := hrow line (by omega) (by omega)
    simp only [scanLoop, h1, List.getLast?_eq_some_getLast h2] at hd
    have hattr : ((Q line).getLast h2).attr = endAttr Q (line + 1 - 1) := by
      rw [show line + 1 - 1 = line by omega]
      unfold endAttr
      rw [List.getLast?_eq_some_getLast h2]
      rfl
    rw [hattr] at hd
    have hrow' : ∀ r, line + 1 ≤ r → r < line + 1 + n → rowAt b w r = some (Q r) ∧ Q r ≠ [] :=
      fun r g1 g2 => hrow r (by omega) (by omega)
    cases hc : anyDirtyCell (endAttr Q (line - 1)) (Q line) with
    | true =>
      rw [hc, if_pos rfl] at hd
      obtain ⟨h3, _⟩ := ih (line + 1) (line + 1) d (Int.le_refl _) hrow' hd
      obtain ⟨d', hd', hlo, _⟩ := scanLoop_spec b w Q n (line + 1) (endAttr Q (line + 1 - 1)) (line + 1)
        (Int.le_refl _) hrow'
      rw [hd, Option.some.injEq] at hd'
      refine ⟨fun r g1 g2 g3 => h3 r (by omega) (by omega) g3, fun hall => ?_⟩
      rw [hall line (by omega) (by omega)] at hc
      cases hc
    | false =>
      rw [hc, if_neg (by decide)] at hd
      obtain ⟨h3, h4⟩ := ih (line + 1) dirty d (by omega) hrow' hd
      refine ⟨fun r g1 g2 g3 => ?_, fun hall => h4 fun r g1 g2 => hall r (by omega) (by omega)⟩
      by_cases hr : r = line
      · rw [hr]; exact hc
      · exact h3 r (by omega) (by omega) g3

/-! ## Reading -/

theorem rowAt_read (sys : Sys) (hs : SysOk sys) (out : Buf) (c : Con) (info : Info) (mask : Nat)
    (top stop : Int) (h0 : 0 ≤ top) (h1 : top < stop) (h2 : stop ≤ 3000)
    (hx : 1 ≤ info.size.x ∧ info.size.x ≤ 32767) :
    ∃ b, largeConsoleRead out (view sys c) (mk4 0 top (min info.size.x maxConsoleWidth) (stop - top)) mask
        = some b ∧ b.rect = ⟨0, top, min info.size.x 2500 - 1, stop - 1⟩ ∧
      ∀ r, top ≤ r → r < stop →
        rowAt b b.rect.width r = some (rowCells { c with info := info } mask r) ∧
        rowCells { c with info := info } mask r ≠ [] := by
  have hmk : mk4 0 top (min info.size.x maxConsoleWidth) (stop - top) =
      ⟨0, top, min info.size.x 2500 - 1, stop - 1⟩ := by
    simp only [mk4, short, maxConsoleWidth]
    rw [Rect.mk.injEq]
    omega
  rw [hmk]
  generalize hw : (min info.size.x 2500).toNat = w
  have hw0 : 0 < w := by omega
  have a : LargeRead.Area ⟨0, top, min info.size.x 2500 - 1, stop - 1⟩ w (stop - top).toNat := by
    constructor <;> (try simp only) <;> omega
  have hlim : ∀ (x y : Int), 0 ≤ x → x < w → top ≤ y → y < stop →
      ∃ out' line, largeConsoleRead out (view sys c) ⟨0, top, min info.size.x 2500 - 1, stop - 1⟩ mask =
        some out' ∧ lineData out' y = some line ∧ line[x.toNat]? = some (masked mask (c.screen x y)) ∧
        out'.rect = ⟨0, top, min info.size.x 2500 - 1, stop - 1⟩ := by
    intro x y g1 g2 g3 g4
    by_cases h25 : 2500 ≤ sys.oldLimit
    · obtain ⟨o, line, k1, k2, k3⟩ := Props.C24_cells_in_place out (view sys c)
        ⟨0, top, min info.size.x 2500 - 1, stop - 1⟩ mask
        (by unfold Props.Readable; simp only; omega) h25 x y (by simp only; omega) (by simp only; omega)
      refine ⟨o, line, k1, k2, by simpa [view, masked] using k3, ?_⟩
      rw [LargeRead.largeConsoleRead_spec out (view sys c) mask a h25] at k1
      simp only [Option.some.injEq] at k1
      rw [← k1]
    · -- the limit does not matter on newer systems
      have h8 : sys.isAtLeastWindows8 = true := by
        rcases hs with h | h
        · exact h
        · omega
      have he : largeConsoleRead out (view sys c) ⟨0, top, min info.size.x 2500 - 1, stop - 1⟩ mask =
          largeConsoleRead out ⟨c.screen, true, 2500⟩ ⟨0, top, min info.size.x 2500 - 1, stop - 1⟩ mask := by
        have hread : ∀ r d o, LargeRead.read (view sys c) r d o =
            LargeRead.read ⟨c.screen, true, 2500⟩ r d o := by
          intro r d o; unfold LargeRead.read view; simp [h8]
        unfold largeConsoleRead
        simp only [hread]
        simp only [view, h8, if_true]
      obtain ⟨o, line, k1, k2, k3⟩ := Props.C24_cells_in_place out ⟨c.screen, true, 2500⟩
        ⟨0, top, min info.size.x 2500 - 1, stop - 1⟩ mask
        (by unfold Props.Readable; simp only; omega) (Nat.le_refl _) x y (by simp only; omega)
        (by simp only; omega)
      refine ⟨o, line, by rw [he]; exact k1, k2, by simpa [masked] using k3, ?_⟩
      rw [LargeRead.largeConsoleRead_spec out ⟨c.screen, true, 2500⟩ mask a (Nat.le_refl _)] at k1
      simp only [Option.some.injEq] at k1
      rw [← k1]
  obtain ⟨b, _, hb, _, _, hrect⟩ := hlim 0 top (by omega) (by omega) (by omega) (by omega)
  refine ⟨b, hb, hrect, ?_⟩
  intro r g1 g2
  have hlen : (rowCells { c with info := info } mask r).length = w := by simp [rowCells, hw]
  refine ⟨?_, fun h => by rw [h] at hlen; simp at hlen; omega⟩
  have hwidth : b.rect.width = w := by rw [hrect]; exact a.width
  obtain ⟨o0, line, k1, k2, k3, _⟩ := hlim (w - 1) r (by omega) (by omega) g1 g2
  rw [hb, Option.some.injEq] at k1
  subst k1
  have hll : w ≤ line.length := by
    have := (List.getElem?_eq_some_iff.mp k3).1
    omega
  unfold rowAt
  rw [k2, hwidth]
  simp only
  rw [if_neg (by omega), Int.toNat_natCast, Option.some.injEq]
  apply List.ext_getElem?
  intro i
  by_cases hi : i < w
  · obtain ⟨o1, line1, j1, j2, j3, _⟩ := hlim i r (by omega) (by omega) g1 g2
    rw [hb, Option.some.injEq] at j1
    subst j1
    rw [k2, Option.some.injEq] at j2
    subst j2
    rw [List.getElem?_take, if_pos hi]
    simp only [rowCells, hw, List.getElem?_map, List.getElem?_range hi, Option.map_some]
    rw [← j3, Int.toNat_natCast]
  · rw [List.getElem?_eq_none (by rw [List.length_take]; omega),
      List.getElem?_eq_none (by rw [hlen]; omega)]

/-! ## The requests -/

theorem run_append (w : Want) (a b : List Op) : w.run (a ++ b) = (w.run a).run b := by
  simp [Want.run, List.foldl_append]

theorem opsOk_append (cfg : Spec.Vt.Cfg) : ∀ (a b : List Op) (w : Want),
    OpsOk cfg w (a ++ b) ↔ OpsOk cfg w a ∧ OpsOk cfg (w.run a) b := by
  intro a
  induction a with
  | nil => intro b w; simp [OpsOk, Want.run]
  | cons op a ih =>
    intro b w
    simp only [List.cons_append, OpsOk, ih, and_assoc]
    rfl

/-- What sending lines `m`, `m + 1`, … asks for. -/
theorem run_sends (R : Int → List Cell) (cl cc : Int) : ∀ (n : Nat) (m : Int) (w : Want),
    (w.run ((sends R cl cc m n).map opOf)).base = w.base ∧
    (w.run ((sends R cl cc m n).map opOf)).highest ≤ max w.highest (m + n - 1) ∧
    w.highest ≤ (w.run ((sends R cl cc m n).map opOf)).highest ∧
    ∀ l, (w.run ((sends R cl cc m n).map opOf)).sent l =
      if m ≤ l ∧ l < m + n then some (R l) else w.sent l := by
  intro n
  induction n with
  | zero =>
    intro m w
    refine ⟨rfl, ?_, ?_, ?_⟩
    · simp only [sends, List.range_zero, List.map_nil, Want.run, List.foldl_nil]; omega
    · exact Int.le_refl _
    · intro l
      rw [if_neg (by omega)]
      rfl
  | succ n ih =>
    intro m w
    rw [sends_cons]
    simp only [List.map_cons, opOf]
    obtain ⟨h1, h2, h3, h4⟩ := ih (m + 1) (w.step (.send m (R m) (if m = cl then cc else -1)))
    have hb : (w.step (.send m (R m) (if m = cl then cc else -1))).base = w.base := rfl
    have hh : (w.step (.send m (R m) (if m = cl then cc else -1))).highest = max w.highest m := rfl
    have hs : (w.step (.send m (R m) (if m = cl then cc else -1))).sent =
      fun l => if l = m then some (R m) else w.sent l := rfl
    have hr : ∀ op ops, w.run (op :: ops) = (w.step op).run ops := fun _ _ => rfl
    rw [hr]
    refine ⟨by rw [h1, hb], by rw [hh] at h2; omega, by rw [hh] at h3; omega, ?_⟩
    intro l
    rw [h4, hs]
    simp only
    by_cases hl : l = m
    · subst hl
      rw [if_neg (by omega), if_pos rfl, if_pos (by omega)]
    · rw [if_neg hl]
      have : (m + 1 ≤ l ∧ l < m + 1 + (n : Int)) ↔ (m ≤ l ∧ l < m + ((n + 1 : Nat) : Int)) := by omega
      simp only [this]

theorem opsOk_sends (cfg : Spec.Vt.Cfg) (R : Int → List Cell) (cl cc : Int) : ∀ (n : Nat) (m : Int)
    (w : Want), w.base ≤ m → w.highest < m + cfg.height → 1 ≤ cfg.height →
    (∀ l, m ≤ l → l < m + n → LineOk cfg (R l)) → OpsOk cfg w ((sends R cl cc m n).map opOf) := by
  intro n
  induction n with
  | zero => intro m w _ _ _ _; simp [sends, OpsOk]
  | succ n ih =>
    intro m w h1 h2 h3 h4
    rw [sends_cons]
    simp only [List.map_cons, opOf, OpsOk, OpOk, InWindow]
    refine ⟨⟨⟨h1, h2⟩, h4 m (by omega) (by omega)⟩, ih (m + 1) _ ?_ ?_ h3
      (fun l g1 g2 => h4 l (by omega) (by omega))⟩
    · have hb : (w.step (.send m (R m) (if m = cl then cc else -1))).base = w.base := rfl
      omega
    · have hh : (w.step (.send m (R m) (if m = cl then cc else -1))).highest = max w.highest m := rfl
      omega

end Winpty.Scraper
