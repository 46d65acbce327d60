import Verif.Spec.ScraperSession
import Verif.Lemmas.ScraperResizeInv

/-!
# Direct mode
-/
namespace Winpty.Scraper

open Winpty.SmallRect
open Winpty.LargeRead (Buf largeConsoleRead lineData)
open Winpty.ConsoleLine (Cell Obj Rep)
open Winpty.Agent (TermCall)
open Winpty.Spec.Scrape
open Winpty.Spec.Term

/-! ## Reading -/

theorem rowAt_rect (sys : Sys) (hs : SysOk sys) (out : Buf) (c : Con) (mask : Nat) (left top : Int)
    (w h : Nat) (hl : 0 ≤ left) (ht : 0 ≤ top) (hw : 0 < w ∧ w ≤ 2500) (hh : 0 < h)
    (hr : left + w ≤ 32767) (hb : top + h ≤ 32767) :
    ∃ b, largeConsoleRead out (view sys c) ⟨left, top, left + w - 1, top + h - 1⟩ mask = some b ∧
      b.rect = ⟨left, top, left + w - 1, top + h - 1⟩ ∧
      ∀ r : Nat, r < h → rowAt b b.rect.width (top + r) =
        some ((List.range w).map fun x : Nat => masked mask (c.screen (left + x) (top + r))) := by
  have a : LargeRead.Area ⟨left, top, left + w - 1, top + h - 1⟩ w h := by
    constructor <;> (try simp only) <;> omega
  have hlim : ∀ (x r : Nat), x < w → r < h →
      ∃ out' line, largeConsoleRead out (view sys c) ⟨left, top, left + w - 1, top + h - 1⟩ mask =
        some out' ∧ lineData out' (top + r) = some line ∧
        line[x]? = some (masked mask (c.screen (left + x) (top + r))) ∧
        out'.rect = ⟨left, top, left + w - 1, top + h - 1⟩ := by
    intro x r g1 g2
    have hx : (left + (x : Int) - left).toNat = x := by omega
    by_cases h25 : 2500 ≤ sys.oldLimit
    · obtain ⟨o, line, k1, k2, k3⟩ := Props.C24_cells_in_place out (view sys c)
        ⟨left, top, left + w - 1, top + h - 1⟩ mask
        (by unfold Props.Readable; simp only; omega) h25 (left + x) (top + r) (by simp only; omega)
        (by simp only; omega)
      refine ⟨o, line, k1, k2, ?_, ?_⟩
      · simp only [hx] at k3
        rw [k3]
        simp [view, masked]
      · rw [LargeRead.largeConsoleRead_spec out (view sys c) mask a h25] at k1
        simp only [Option.some.injEq] at k1
        rw [← k1]
    · have h8 : sys.isAtLeastWindows8 = true := by
        rcases hs with h | h
        · exact h
        · omega
      have he : largeConsoleRead out (view sys c) ⟨left, top, left + w - 1, top + h - 1⟩ mask =
          largeConsoleRead out ⟨c.screen, true, 2500⟩ ⟨left, top, left + w - 1, top + h - 1⟩ mask := by
        have hread : ∀ r d o, LargeRead.read (view sys c) r d o =
            LargeRead.read ⟨c.screen, true, 2500⟩ r d o := by
          intro r d o; unfold LargeRead.read view; simp [h8]
        unfold largeConsoleRead
        simp only [hread]
        simp only [view, h8, if_true]
      obtain ⟨o, line, k1, k2, k3⟩ := Props.C24_cells_in_place out ⟨c.screen, true, 2500⟩
        ⟨left, top, left + w - 1, top + h - 1⟩ mask
        (by unfold Props.Readable; simp only; omega) (Nat.le_refl _) (left + x) (top + r)
        (by simp only; omega) (by simp only; omega)
      refine ⟨o, line, by rw [he]; exact k1, k2, ?_, ?_⟩
      · simp only [hx] at k3
        rw [k3]
        simp [masked]
      · rw [LargeRead.largeConsoleRead_spec out ⟨c.screen, true, 2500⟩ mask a (Nat.le_refl _)] at k1
        simp only [Option.some.injEq] at k1
        rw [← k1]
  obtain ⟨b, _, hb, _, _, hrect⟩ := hlim 0 0 hw.1 hh
  refine ⟨b, hb, hrect, ?_⟩
  intro r hr
  have hwidth : b.rect.width = w := by rw [hrect]; exact a.width
  obtain ⟨o0, line, k1, k2, k3, _⟩ := hlim (w - 1) r (by omega) hr
  rw [hb, Option.some.injEq] at k1
  subst k1
  have hll : w ≤ line.length := by
    have := (List.getElem?_eq_some_iff.mp k3).1
    omega
  unfold rowAt
  rw [k2, hwidth]
  simp only
  rw [if_neg (by omega), Int.toNat_natCast, Option.some.injEq]
  apply List.ext_getElem?
  intro i
  by_cases hi : i < w
  · obtain ⟨o1, line1, j1, j2, j3, _⟩ := hlim i r hi hr
    rw [hb, Option.some.injEq] at j1
    subst j1
    rw [k2, Option.some.injEq] at j2
    subst j2
    rw [List.getElem?_take, if_pos hi, j3]
    simp only [List.getElem?_map, List.getElem?_range hi, Option.map_some]
  · rw [List.getElem?_eq_none (by rw [List.length_take]; omega),
      List.getElem?_eq_none (by simp; omega)]

/-! ## Sending some lines -/

/-- Sending these lines. -/
def sendsOf (R : Int → List Cell) (cl cc : Int) (lines : List Int) : List TermCall :=
  lines.map fun l => .sendLine l (R l) (if l = cl then cc else -1)

theorem sentLines_sendsOf (R : Int → List Cell) (cl cc : Int) (lines : List Int) :
    sentLines (sendsOf R cl cc lines) = lines := by
  induction lines with
  | nil => rfl
  | cons l lines ih => 
    simp only [sendsOf, List.map_cons, sentLines, List.filterMap_cons] at ih ⊢
    rw [ih]

theorem run_sendsOf (R : Int → List Cell) (cl cc hi : Int) : ∀ (lines : List Int) (w : Want),
    (∀ l ∈ lines, l ≤ hi) →
    (w.run ((sendsOf R cl cc lines).map opOf)).base = w.base ∧
    (w.run ((sendsOf R cl cc lines).map opOf)).highest ≤ max w.highest hi ∧
    w.highest ≤ (w.run ((sendsOf R cl cc lines).map opOf)).highest ∧
    ∀ l, (w.run ((sendsOf R cl cc lines).map opOf)).sent l =
      if l ∈ lines then some (R l) else w.sent l := by
  intro lines
  induction lines with
  | nil =>
    intro w _
    refine ⟨rfl, ?_, Int.le_refl _, ?_⟩
    · have : w.run ((sendsOf R cl cc []).map opOf) = w := rfl
      rw [this]; omega
    · intro l; rw [if_neg (by simp)]; rfl
  | cons m lines ih =>
    intro w hle
    simp only [sendsOf, List.map_cons, opOf] at ih ⊢
    have hm := hle m (by simp)
    obtain ⟨h1, h2, h3, h4⟩ := ih (w.step (.send m (R m) (if m = cl then cc else -1)))
      (fun l hl => hle l (by simp [hl]))
    have hb : (w.step (.send m (R m) (if m = cl then cc else -1))).base = w.base := rfl
    have hh : (w.step (.send m (R m) (if m = cl then cc else -1))).highest = max w.highest m := rfl
    have hs : (w.step (.send m (R m) (if m = cl then cc else -1))).sent =
      fun l => if l = m then some (R m) else w.sent l := rfl
    have hr : ∀ op ops, w.run (op :: ops) = (w.step op).run ops := fun _ _ => rfl
    rw [hr]
    refine ⟨by rw [h1, hb], by rw [hh] at h2; omega, by rw [hh] at h3; omega, ?_⟩
    intro l
    rw [h4, hs]
    by_cases hl : l ∈ lines
    · rw [if_pos hl, if_pos (by simp [hl])]
    · rw [if_neg hl]
      by_cases hlm : l = m
      · subst hlm; simp
      · simp [hl, hlm]

theorem opsOk_sendsOf (cfg : Spec.Vt.Cfg) (R : Int → List Cell) (cl cc : Int) : ∀ (lines : List Int)
    (w : Want), w.base ≤ 0 → w.highest < cfg.height → (∀ l ∈ lines, 0 ≤ l ∧ l < cfg.height) →
    (∀ l ∈ lines, LineOk cfg (R l)) → OpsOk cfg w ((sendsOf R cl cc lines).map opOf) := by
  intro lines
  induction lines with
  | nil => intro w _ _ _ _; simp [sendsOf, OpsOk]
  | cons m lines ih =>
    intro w h1 h2 h3 h4
    have hm := h3 m (by simp)
    simp only [sendsOf, List.map_cons, opOf, OpsOk, OpOk, InWindow] at ih ⊢
    refine ⟨⟨⟨by omega, by omega⟩, h4 m (by simp)⟩, ih _ ?_ ?_ (fun l hl => h3 l (by simp [hl]))
      (fun l hl => h4 l (by simp [hl]))⟩
    · exact h1
    · have hh : (w.step (.send m (R m) (if m = cl then cc else -1))).highest = max w.highest m := rfl
      omega

/-! ## The loop -/

/-- What the loop over the rows of the window does. -/
structure Looped (s : S) (R : Int → List Cell) (cl cc l0 : Int) (n : Nat) (s' : S)
    (calls : List TermCall) (lines : List Int) : Prop where
  same : s' = { s with bufferData := s'.bufferData }
  sent : calls = sendsOf R cl cc lines
  range : ∀ l ∈ lines, l0 ≤ l ∧ l < l0 + n
  order : lines.Pairwise (· < ·)
  others : ∀ i : Nat, (i : Int) < l0 ∨ l0 + n ≤ i → s'.bufferData i = s.bufferData i
  recorded : ∀ l : Nat, l0 ≤ l → (l : Int) < l0 + n → ∃ rec obs obs', Rep (s.bufferData l) rec obs ∧
    Rep (s'.bufferData l) (R l) obs' ∧ ((l : Int) ∉ lines ↔ Unchanged rec obs (R l))

theorem directLoop_spec (R : Int → List Cell) (top cl cc : Int) : ∀ (n : Nat) (s : S) (l0 : Int),
    0 ≤ l0 → l0 + n ≤ 3000 → (∀ i, ∃ rec obs, Rep (s.bufferData i) rec obs) →
    (∀ l, l0 ≤ l → l < l0 + n → rowAt s.readBuffer s.readBuffer.rect.width (top + l) = some (R l) ∧
      R l ≠ []) →
    ∃ s' calls lines, directLoop s top cl cc n l0 = some (s', calls) ∧
      Looped s R cl cc l0 n s' calls lines := by
  intro n
  induction n with
  | zero =>
    intro s l0 _ _ _ _
    refine ⟨s, [], [], rfl, rfl, rfl, by simp, List.Pairwise.nil, fun _ _ => rfl, ?_⟩
    intro l g1 g2; omega
  | succ n ih =>
    intro s l0 h0 h1 hrep hrow
    obtain ⟨hr, hne⟩ := hrow l0 (Int.le_refl _) (by omega)
    obtain ⟨rec, obs, hrp⟩ := hrep l0.toNat
    obtain ⟨o, ch, hdet, hrp', hch⟩ := ConsoleLine.rep_detect hrp (R l0) hne
    obtain ⟨s', calls, lines, hloop, hL⟩ := ih (setBufferLine s l0.toNat o) (l0 + 1) (by omega) (by omega)
      (by
        intro i
        simp only [setBufferLine]
        split
        · exact ⟨_, _, hrp'⟩
        · exact hrep i)
      (fun l g1 g2 => hrow l (by omega) (by omega))
    have hsd : directLoop s top cl cc (n + 1) l0 = some (s', (if ch then
        [.sendLine l0 (R l0) (if l0 = cl then cc else -1)] else []) ++ calls) := by
      simp only [directLoop, hr]
      rw [if_neg (show ¬ (l0 < 0 ∨ bufferLineCount ≤ l0) by unfold bufferLineCount; omega)]
      simp only [hdet, hloop]
    refine ⟨s', _, (if ch then [l0] else []) ++ lines, hsd, ?_, ?_, ?_, ?_, ?_, ?_⟩
    · have := hL.same
      rw [this]
      rfl
    · rw [hL.sent]
      cases ch <;> simp [sendsOf]
    · intro l hl
      rw [List.mem_append] at hl
      rcases hl with hl | hl
      · cases ch <;> simp at hl
        omega
      · have := hL.range l hl; omega
    · cases ch with
      | false => simpa using hL.order
      | true =>
        simp only [if_true, List.singleton_append, List.pairwise_cons]
        exact ⟨fun l hl => by have := hL.range l hl; omega, hL.order⟩
    · intro i hi
      rw [hL.others i (by omega)]
      simp only [setBufferLine]
      rw [if_neg (by omega)]
    · intro l g1 g2
      by_cases hl : (l : Int) = l0
      · have hln : l0.toNat = l := by omega
        rw [hln] at hrp
        have hnin : (l : Int) ∉ lines := fun h => by have := hL.range _ h; omega
        refine ⟨rec, obs, over (R l0) obs, hrp, ?_, ?_⟩
        · rw [hL.others l (by omega)]
          simp only [setBufferLine, hln, if_true, hl]
          exact hrp'
        · rw [hl] at hnin ⊢
          unfold Unchanged
          rw [← hch]
          cases ch <;> simp [hnin]
      · have hlo : l ≠ l0.toNat := by omega
        obtain ⟨rec2, obs2, obs3, k1, k2, k3⟩ := hL.recorded l (by omega) (by omega)
        simp only [setBufferLine] at k1
        rw [if_neg hlo] at k1
        refine ⟨rec2, obs2, obs3, k1, k2, ?_⟩
        rw [← k3, List.mem_append]
        cases ch <;> simp [hl]

/-! ## The invariant of direct mode -/

/-- What the scraper knows agrees with the rows that had to be transferred and with what was sent. -/
structure DirectInv (H : Int) (n : Nat) (s : S) (c : Con) (rows : Int → Option (List Cell)) (w : Want) :
    Prop where
  mode : s.directMode = true
  known : Known s c
  count : s.syncCounter ≤ n
  objs : ∀ l : Nat, ∃ rec obs, Rep (s.bufferData l) rec obs ∧ (rec = [] ∨ rows l = some rec)
  lines : ∀ l cells, rows l = some cells → ∃ x, w.sent l = some x ∧ SameLine x cells
  only : ∀ l, rows l = none → w.sent l = none
  base : w.base = 0
  highest : 0 ≤ w.highest ∧ w.highest < H

theorem DirectInv.pty {H : Int} {n : Nat} {s : S} {c : Con} {rows : Int → Option (List Cell)} {w : Want}
    (h : DirectInv H n s c rows w) (size : Coord) : DirectInv H n { s with ptySize := size } c rows w := by
  obtain ⟨a, b, c, d, e, f, g, i⟩ := h
  exact ⟨a, b, c, d, e, f, g, i⟩

theorem known_anything {s : S} {c c' : Con} (h : Known s c) (ha : Anything c c') : Known s c' := by
  intro i m g1 g2 g3
  obtain ⟨i', g4, g5⟩ := ha.genuine i m g1 g2 g3
  exact h i' m g4 g2 g5

/-- What the calls of a scrape in direct mode are. -/
structure DirectCalls (s : S) (info : Info) (visible : Bool) (R : Int → List Cell)
    (calls : List TermCall) (lines : List Int) : Prop where
  shape : ∃ cc cl cc' cl',
    calls = emitted (directCursorShown s info visible) cc cl (sendsOf R cl' cc' lines) ∧
    (directCursorShown s info visible = true → cc = info.cursor.x - info.window.left ∧
      cl = info.cursor.y - info.window.top)
  range : ∀ l ∈ lines, 0 ≤ l ∧ l < shownRows info s.ptySize
  order : lines.Pairwise (· < ·)

theorem scrapeRect_eq (s : S) {info : Info} (hi : DirectInfoOk info) (hx : 1 ≤ s.ptySize.x)
    (hy : 1 ≤ s.ptySize.y) : 1 ≤ shownCols info s.ptySize ∧ 1 ≤ shownRows info s.ptySize ∧
    shownCols info s.ptySize ≤ 2500 ∧ shownRows info s.ptySize ≤ 3000 ∧
    info.window.left + shownCols info s.ptySize ≤ info.size.x ∧
    info.window.top + shownRows info s.ptySize ≤ info.size.y ∧
    scrapeRect s info.window = ⟨info.window.left, info.window.top,
      info.window.left + shownCols info s.ptySize - 1, info.window.top + shownRows info s.ptySize - 1⟩ := by
  obtain ⟨_, h1, h2, h3, h4, h5, h6, h7, h8⟩ := hi
  have hsh : ∀ i : Int, -1 ≤ i → i ≤ 32767 → short i = i := by intro i g1 g2; unfold short; omega
  unfold scrapeRect mk4 Rect.width Rect.height maxConsoleWidth bufferLineCount shownCols shownRows
  rw [hsh (info.window.right - info.window.left + 1) (by omega) (by omega),
    hsh (info.window.bottom - info.window.top + 1) (by omega) (by omega),
    hsh info.window.left (by omega) (by omega), hsh info.window.top (by omega) (by omega)]
  refine ⟨by omega, by omega, by omega, by omega, by omega, by omega, ?_⟩
  rw [Rect.mk.injEq]
  refine ⟨rfl, rfl, ?_, ?_⟩
  · generalize hm : min (min (info.window.right - info.window.left + 1) s.ptySize.x) 2500 = m
    have : 1 ≤ m ∧ m ≤ 2500 ∧ m ≤ info.window.right - info.window.left + 1 := by omega
    clear hm
    rw [hsh m (by omega) (by omega), hsh _ (by omega) (by omega)]
  · generalize hm : min (min (info.window.bottom - info.window.top + 1) s.ptySize.y) 3000 = m
    have : 1 ≤ m ∧ m ≤ 3000 ∧ m ≤ info.window.bottom - info.window.top + 1 := by omega
    clear hm
    rw [hsh m (by omega) (by omega), hsh _ (by omega) (by omega)]

theorem cursor_shown (s : S) {info : Info} (hi : DirectInfoOk info) (hx : 1 ≤ s.ptySize.x)
    (hy : 1 ≤ s.ptySize.y) (visible : Bool) : directCursorShown s info visible = true ↔
    visible = true ∧ 0 ≤ info.cursor.x - info.window.left ∧
      info.cursor.x - info.window.left < shownCols info s.ptySize ∧
      0 ≤ info.cursor.y - info.window.top ∧
      info.cursor.y - info.window.top < shownRows info s.ptySize := by
  obtain ⟨_, _, _, _, _, _, hr⟩ := scrapeRect_eq s hi hx hy
  unfold directCursorShown Rect.containsCoord
  rw [hr]
  simp only [Bool.and_eq_true, decide_eq_true_eq]
  constructor
  · rintro ⟨h1, ⟨⟨h2, h3⟩, h4⟩, h5⟩
    refine ⟨h1, ?_, ?_, ?_, ?_⟩ <;> omega
  · rintro ⟨h1, h2, h3, h4, h5⟩
    refine ⟨h1, ⟨⟨?_, ?_⟩, ?_⟩, ?_⟩ <;> omega

theorem emitted_sendsOf (shown : Bool) (R : Int → List Cell) (cc cl cc' cl' hi : Int) (lines : List Int)
    (w : Want) (hle : ∀ l ∈ lines, l ≤ hi) (hcl : shown = true → cl ≤ hi) :
    (w.run ((emitted shown cc cl (sendsOf R cl' cc' lines)).map opOf)).base = w.base ∧
    (w.run ((emitted shown cc cl (sendsOf R cl' cc' lines)).map opOf)).highest ≤ max w.highest hi ∧
    w.highest ≤ (w.run ((emitted shown cc cl (sendsOf R cl' cc' lines)).map opOf)).highest ∧
    ∀ l, (w.run ((emitted shown cc cl (sendsOf R cl' cc' lines)).map opOf)).sent l =
      if l ∈ lines then some (R l) else w.sent l := by
  unfold emitted
  cases shown with
  | true =>
    obtain ⟨h1, h2, h3, h4⟩ := run_sendsOf R cl' cc' hi lines w hle
    have hcl := hcl rfl
    simp only [if_true, List.nil_append, List.map_append, List.map_cons, List.map_nil, run_append, opOf]
    generalize w.run ((sendsOf R cl' cc' lines).map opOf) = w1 at *
    have e1 : (w1.run [.show cc cl]).base = w1.base := rfl
    have e2 : (w1.run [.show cc cl]).highest = max w1.highest cl := rfl
    have e3 : (w1.run [.show cc cl]).sent = w1.sent := rfl
    rw [e1, e2, e3]
    exact ⟨h1, by omega, by omega, h4⟩
  | false =>
    obtain ⟨h1, h2, h3, h4⟩ := run_sendsOf R cl' cc' hi lines (w.step .hide) hle
    simp only [Bool.false_eq_true, if_false, List.append_nil, List.singleton_append, List.map_cons, opOf]
    exact ⟨h1, h2, h3, h4⟩

theorem opsOk_emitted_sendsOf (cfg : Spec.Vt.Cfg) (shown : Bool) (R : Int → List Cell)
    (cc cl cc' cl' : Int) (lines : List Int) (w : Want) (hb : w.base ≤ 0) (hh : w.highest < cfg.height)
    (hl : ∀ l ∈ lines, 0 ≤ l ∧ l < cfg.height) (hok : ∀ l ∈ lines, LineOk cfg (R l))
    (hs : shown = true → 0 ≤ cl ∧ cl < cfg.height ∧ 0 ≤ cc ∧ cc < cfg.width) :
    OpsOk cfg w ((emitted shown cc cl (sendsOf R cl' cc' lines)).map opOf) := by
  unfold emitted
  cases shown with
  | true =>
    obtain ⟨k1, k2, k3, k4⟩ := hs rfl
    obtain ⟨h1, h2, h3, h4⟩ := run_sendsOf R cl' cc' (cfg.height - 1) lines w
      (fun l g => by have := hl l g; omega)
    simp only [if_true, List.nil_append, List.map_append, List.map_cons, List.map_nil, opOf]
    rw [opsOk_append]
    refine ⟨opsOk_sendsOf cfg R cl' cc' lines w hb hh hl hok, ⟨⟨?_, ?_⟩, k3, k4⟩, trivial⟩
    · rw [h1]; omega
    · omega
  | false =>
    simp only [Bool.false_eq_true, if_false, List.append_nil, List.singleton_append, List.map_cons, opOf]
    exact ⟨trivial, opsOk_sendsOf cfg R cl' cc' lines _ hb hh hl hok⟩

theorem windowRow_ne (c : Con) {info : Info} {size : Coord} (h : 1 ≤ shownCols info size) (mask : Nat)
    (row : Int) : windowRow c info size mask row ≠ [] := by
  unfold windowRow
  intro g
  have := congrArg List.length g
  simp at this
  omega

/-- A scrape in direct mode. -/
theorem directScrape_spec {H : Int} {n : Nat} {s : S} {c : Con} {rows : Int → Option (List Cell)}
    {w : Want} (hv : DirectInv H n s c rows w) {info : Info} (hi : DirectInfoOk info)
    (hx : 1 ≤ s.ptySize.x) (hy : 1 ≤ s.ptySize.y) (hH : shownRows info s.ptySize ≤ H)
    (sys : Sys) (hs : SysOk sys) (con : Con) (hk : Known s con) (visible : Bool) (mask : Nat) :
    ∃ s' calls lines, directScrapeOutput sys s con info visible mask = some (s', calls) ∧
      DirectInv H n s' con (directRows rows con info s.ptySize mask) (w.run (calls.map opOf)) ∧
      DirectCalls s info visible (windowRow con info s.ptySize mask) calls lines ∧
      s'.ptySize = s.ptySize ∧
      s'.readBuffer.rect = ⟨info.window.left, info.window.top,
        info.window.left + shownCols info s.ptySize - 1, info.window.top + shownRows info s.ptySize - 1⟩ ∧
      (∀ l : Nat, (l : Int) < shownRows info s.ptySize →
        (∃ obs, Rep (s'.bufferData l) (windowRow con info s.ptySize mask l) obs) ∧
        ((∃ obs, Rep (s.bufferData l) (windowRow con info s.ptySize mask l) obs) → (l : Int) ∉ lines)) ∧
      ∀ cfg : Spec.Vt.Cfg, H ≤ cfg.height → shownCols info s.ptySize ≤ cfg.width →
        (∀ line cells col, .sendLine line cells col ∈ calls → LineOk cfg cells) →
        OpsOk cfg w (calls.map opOf) := by
  obtain ⟨c1, r1, c2, r2, hcx, hry, hrect⟩ := scrapeRect_eq s hi hx hy
  have hcur := cursor_shown s hi hx hy visible
  obtain ⟨_, h1, h2, h3, h4, h5, h6, h7, h8⟩ := hi
  have hcn : (((shownCols info s.ptySize).toNat : Nat) : Int) = shownCols info s.ptySize := by omega
  have hrn : (((shownRows info s.ptySize).toNat : Nat) : Int) = shownRows info s.ptySize := by omega
  obtain ⟨b, hread, hbr, hrows⟩ := rowAt_rect sys hs s.readBuffer con mask info.window.left info.window.top
    (shownCols info s.ptySize).toNat (shownRows info s.ptySize).toNat h3 h6 ⟨by omega, by omega⟩ (by omega)
    (by omega) (by omega)
  rw [hcn, hrn, ← hrect] at hread hbr
  generalize hR : windowRow con info s.ptySize mask = R
  have hRow : ∀ l : Int, 0 ≤ l → l < 0 + ((shownRows info s.ptySize).toNat : Int) →
      rowAt b b.rect.width (info.window.top + l) = some (R l) ∧ R l ≠ [] := by
    intro l g1 g2
    rw [← hR]
    refine ⟨?_, windowRow_ne con c1 mask l⟩
    have := hrows l.toNat (by omega)
    rw [show ((l.toNat : Nat) : Int) = l by omega] at this
    rw [this]
    rfl
  have hheight : (scrapeRect s info.window).height.toNat = (shownRows info s.ptySize).toNat := by
    rw [hrect]; unfold Rect.height short; simp only; omega
  obtain ⟨s', calls, lines, hloop, hL⟩ := directLoop_spec R info.window.top
    (if directCursorShown s info visible then info.cursor.y - info.window.top else -1)
    (if directCursorShown s info visible then info.cursor.x - info.window.left else -1)
    (shownRows info s.ptySize).toNat { s with readBuffer := b } 0 (Int.le_refl _) (by omega)
    (fun i => by obtain ⟨rec, obs, h, _⟩ := hv.objs i; exact ⟨rec, obs, h⟩) hRow
  have hsame : s' = { s with readBuffer := s'.readBuffer, bufferData := s'.bufferData } := by
    rw [hL.same]
  have e1 : s'.directMode = s.directMode := by rw [hsame]
  have e2 : s'.syncCounter = s.syncCounter := by rw [hsame]
  have e3 : s'.ptySize = s.ptySize := by rw [hsame]
  have e4 : s'.readBuffer.rect = ⟨info.window.left, info.window.top,
      info.window.left + shownCols info s.ptySize - 1,
      info.window.top + shownRows info s.ptySize - 1⟩ := by
    have : s'.readBuffer = b := by rw [hL.same]
    rw [this, hbr, hrect]
  have htl : (scrapeRect s info.window).top = info.window.top ∧
      (scrapeRect s info.window).left = info.window.left := by rw [hrect]; exact ⟨rfl, rfl⟩
  have hrange : ∀ l ∈ lines, 0 ≤ l ∧ l < shownRows info s.ptySize := by
    intro l hl; have := hL.range l hl; omega
  have heq : directScrapeOutput sys s con info visible mask = some (s',
      emitted (directCursorShown s info visible) (info.cursor.x - info.window.left)
        (info.cursor.y - info.window.top) calls) := by
    unfold directScrapeOutput
    rw [hread]
    simp only [htl.1, htl.2, hheight, hloop]
    rfl
  have hsent := hL.sent
  subst hsent
  obtain ⟨w1, w2, w3, w4⟩ := emitted_sendsOf (directCursorShown s info visible) R
    (info.cursor.x - info.window.left) (info.cursor.y - info.window.top)
    (if directCursorShown s info visible then info.cursor.x - info.window.left else -1)
    (if directCursorShown s info visible then info.cursor.y - info.window.top else -1) (H - 1) lines w
    (fun l g => by have := hrange l g; omega) (fun g => by have := (hcur.mp g); omega)
  refine ⟨s', _, lines, heq, ?_, ⟨⟨_, _, _, _, rfl, fun _ => ⟨rfl, rfl⟩⟩, hrange, hL.order⟩, e3, e4, ?_, ?_⟩
  · -- what is known and sent
    have hrowsIn : ∀ l, 0 ≤ l ∧ l < shownRows info s.ptySize →
        directRows rows con info s.ptySize mask l = some (R l) := by
      intro l g; unfold directRows; rw [if_pos g, hR]
    have hrowsOut : ∀ l, ¬ (0 ≤ l ∧ l < shownRows info s.ptySize) →
        directRows rows con info s.ptySize mask l = rows l := by
      intro l g; unfold directRows; rw [if_neg g]
    constructor
    · rw [e1]; exact hv.mode
    · unfold Known; rw [e2]; exact hk
    · rw [e2]; exact hv.count
    · intro l
      by_cases g : (l : Int) < shownRows info s.ptySize
      · obtain ⟨rec, obs, obs', _, k2, _⟩ := hL.recorded l (by omega) (by omega)
        exact ⟨_, _, k2, .inr (hrowsIn l ⟨by omega, g⟩)⟩
      · rw [hL.others l (.inr (by omega)), hrowsOut l (fun h => g h.2)]
        exact hv.objs l
    · intro l cells hcells
      rw [w4]
      by_cases g : 0 ≤ l ∧ l < shownRows info s.ptySize
      · rw [hrowsIn l g, Option.some.injEq] at hcells
        subst hcells
        by_cases hl : l ∈ lines
        · rw [if_pos hl]; exact ⟨_, rfl, SameLine.refl (by rw [← hR]; exact windowRow_ne con c1 mask l)⟩
        · rw [if_neg hl]
          have hln : ((l.toNat : Nat) : Int) = l := by omega
          obtain ⟨rec, obs, obs', k1, k2, k3⟩ := hL.recorded l.toNat (by omega) (by omega)
          rw [hln] at k3
          obtain ⟨u1, u2, _⟩ := k3.mp hl
          obtain ⟨rec', obs2, k4, k5⟩ := hv.objs l.toNat
          have := rep_unique k1 k4
          subst this
          rw [hln] at k5
          obtain ⟨x, k6, k7⟩ := hv.lines l rec (k5.resolve_left u1)
          exact ⟨x, k6, SameLine.trans k7
            (sameLine_of_looks u1 (by rw [← hR]; exact windowRow_ne con c1 mask l) u2)⟩
      · rw [hrowsOut l g] at hcells
        rw [if_neg (fun h => g (hrange l h))]
        exact hv.lines l cells hcells
    · intro l hnone
      by_cases g : 0 ≤ l ∧ l < shownRows info s.ptySize
      · rw [hrowsIn l g] at hnone; cases hnone
      · rw [hrowsOut l g] at hnone
        rw [w4, if_neg (fun h => g (hrange l h))]
        exact hv.only l hnone
    · rw [w1]; exact hv.base
    · have := hv.highest; omega
  · intro l g
    obtain ⟨rec, obs, obs', k1, k2, k3⟩ := hL.recorded l (by omega) (by omega)
    refine ⟨⟨_, k2⟩, ?_⟩
    rintro ⟨obs2, h⟩
    have := rep_unique k1 h
    rw [k3, this]
    exact unchanged_refl (by rw [← hR]; exact windowRow_ne con c1 mask l)
  · intro cfg g1 g2 g3
    refine opsOk_emitted_sendsOf cfg _ R _ _ _ _ lines w ?_ ?_ ?_ ?_ ?_
    · rw [hv.base]; exact Int.le_refl _
    · have := hv.highest; omega
    · intro l hl; have := hrange l hl; omega
    · intro l hl
      refine g3 l (R l) (if l = (if directCursorShown s info visible then info.cursor.y - info.window.top else -1)
        then (if directCursorShown s info visible then info.cursor.x - info.window.left else -1) else -1) ?_
      unfold emitted
      simp only [List.mem_append]
      refine .inl (.inr ?_)
      exact List.mem_map.mpr ⟨l, hl, rfl⟩
    · intro hshown
      have := hcur.mp hshown
      omega

/-! ## Histories -/

/-- The invariant of either mode. -/
def InvOf (H : Int) (n : Nat) (s : S) (c : Con) (sh : Shown) (w : Want) : Prop :=
  match sh with
  | .scrolling t => Inv H n s c t w
  | .direct rows => DirectInv H n s c rows w

theorem InvOf.pty {H : Int} {n : Nat} {s : S} {c : Con} {sh : Shown} {w : Want} (h : InvOf H n s c sh w)
    (size : Coord) : InvOf H n { s with ptySize := size } c sh w := by
  cases sh with
  | scrolling t => exact Inv.pty h size
  | direct rows => exact DirectInv.pty h size

theorem InvOf.known {H : Int} {n : Nat} {s : S} {c : Con} {sh : Shown} {w : Want} (h : InvOf H n s c sh w) :
    Known s c := by
  cases sh with
  | scrolling t => exact Inv.known h
  | direct rows => exact DirectInv.known h

/-- Entering direct mode, or staying in it. -/
theorem enter_direct {H : Int} {n : Nat} {s : S} {c : Con} {sh : Shown} {w : Want} (h : InvOf H n s c sh w)
    {info : Info} (hy : info.size.y ≠ 3000) (hH : 1 ≤ H) :
    DirectInv H n (changeMode s info).1 c sh.rows (w.run ((changeMode s info).2.map opOf)) ∧
    (changeMode s info).1.ptySize = s.ptySize ∧ (changeMode s info).1.syncCounter = s.syncCounter ∧
    sentLines (changeMode s info).2 = [] ∧
    (∀ rows, sh = .direct rows → changeMode s info = (s, [])) ∧
    (∀ t, sh = .scrolling t → (changeMode s info).2 = [.reset true 0]) ∧
    ∀ cfg : Spec.Vt.Cfg, OpsOk cfg w ((changeMode s info).2.map opOf) := by
  cases sh with
  | scrolling t =>
    have hm : s.directMode = false := Core.mode (Inv.core h)
    have hk : Known s c := Inv.known h
    have hcnt : s.syncCounter ≤ n := Inv.count h
    have he : changeMode s info =
        ({ (resetConsoleTracking s true 0).1 with directMode := true }, [.reset true 0]) := by
      unfold changeMode bufferLineCount
      simp [hm, hy]
      rfl
    rw [he]
    refine ⟨?_, rfl, rfl, rfl, (fun _ h => by cases h), fun _ _ => rfl, fun cfg => ⟨trivial, trivial⟩⟩
    constructor
    · rfl
    · exact hk
    · exact hcnt
    · intro l; exact ⟨_, _, ConsoleLine.rep_reset (s.bufferData l), .inl rfl⟩
    · intro l cells g; cases g
    · intro l g; rfl
    · rfl
    · exact ⟨Int.le_refl _, hH⟩
  | direct rows =>
    have hm : s.directMode = true := DirectInv.mode h
    have he : changeMode s info = (s, []) := by
      unfold changeMode bufferLineCount
      simp [hm, hy]
    rw [he]
    exact ⟨h, rfl, rfl, rfl, fun _ _ => rfl, (fun _ h => by cases h), fun _ => trivial⟩

/-- What a scrape in direct mode leaves, including the change of mode before it. -/
structure DirectDone (H : Int) (n : Nat) (sh : Shown) (w : Want) (info : Info) (size : Coord)
    (con : Con) (visible : Bool) (mask : Nat) (r : Result) : Prop where
  inv : DirectInv H n r.state con (directRows sh.rows con info size mask) (w.run (r.calls.map opOf))
  left : r.con = con
  ok : ∀ cfg : Spec.Vt.Cfg, H ≤ cfg.height → shownCols info size ≤ cfg.width →
    (∀ line cells col, .sendLine line cells col ∈ r.calls → LineOk cfg cells) →
    OpsOk cfg w (r.calls.map opOf)
  calls : ∃ s1 before after lines, r.calls = before ++ after ∧
    (∀ rows, sh = .direct rows → before = []) ∧ (∀ t, sh = .scrolling t → before = [.reset true 0]) ∧
    s1.ptySize = size ∧ DirectCalls s1 info visible (windowRow con info size mask) after lines ∧
    sentLines r.calls = lines
  recorded : ∀ l : Nat, (l : Int) < shownRows info size →
    ∃ obs, Rep (r.state.bufferData l) (windowRow con info size mask l) obs
  read : r.state.readBuffer.rect = ⟨info.window.left, info.window.top,
    info.window.left + shownCols info size - 1, info.window.top + shownRows info size - 1⟩

theorem sentLines_append (a b : List TermCall) : sentLines (a ++ b) = sentLines a ++ sentLines b := by
  unfold sentLines; exact List.filterMap_append

theorem sentLines_emittedOf (shown : Bool) (cc cl : Int) (R : Int → List Cell) (cl' cc' : Int)
    (lines : List Int) : sentLines (emitted shown cc cl (sendsOf R cl' cc' lines)) = lines := by
  unfold emitted
  rw [sentLines_append, sentLines_append, sentLines_sendsOf]
  cases shown <;> simp [sentLines]

theorem DirectCalls.sent {s : S} {info : Info} {visible : Bool} {R : Int → List Cell}
    {calls : List TermCall} {lines : List Int} (h : DirectCalls s info visible R calls lines) :
    sentLines calls = lines := by
  obtain ⟨cc, cl, cc', cl', he, _⟩ := h.shape
  rw [he, sentLines_emittedOf]

theorem directPoll_spec {H : Int} {n : Nat} {s : S} {c : Con} {sh : Shown} {w : Want}
    (hv : InvOf H n s c sh w) {sys : Sys} (hs : SysOk sys) (frozen : Bool) {v : SyncViews}
    (hi : DirectInfoOk v.first.info) (hx : 1 ≤ s.ptySize.x) (hy : 1 ≤ s.ptySize.y)
    (hH : shownRows v.first.info s.ptySize ≤ H) (ha : Anything c (directContent sys frozen v)) :
    ∃ r, scrapeBuffer sys s frozen v = some r ∧
      DirectDone H n sh w v.first.info s.ptySize (directContent sys frozen v) v.cursorVisible v.mask r ∧
      r.state.ptySize = s.ptySize ∧
      (∀ rows, sh = .direct rows → ∀ l : Nat, (l : Int) < shownRows v.first.info s.ptySize →
        (∃ obs, Rep (s.bufferData l)
          (windowRow (directContent sys frozen v) v.first.info s.ptySize v.mask l) obs) →
        (l : Int) ∉ sentLines r.calls) := by
  obtain ⟨c1, r1, c2, r2, hcx, hry, hrect⟩ := scrapeRect_eq s hi hx hy
  obtain ⟨d1, d2, d3, d4, d5, d6, d7⟩ := enter_direct hv hi.1 (by omega)
  have hkn : Known (changeMode s v.first.info).1 (directContent sys frozen v) := by
    unfold Known; rw [d3]; exact known_anything hv.known ha
  obtain ⟨s', calls, lines, he, k1, k2, k2', k5, k3, k4⟩ := directScrape_spec d1 hi (by rw [d2]; exact hx)
    (by rw [d2]; exact hy) (by rw [d2]; exact hH) sys hs _ hkn v.cursorVisible v.mask
  have hpty : s'.ptySize = s.ptySize := by rw [k2', d2]
  rw [d2] at k1 k2 k5 k3 k4
  have hsl : sentLines ((changeMode s v.first.info).2 ++ calls) = lines := by
    rw [sentLines_append, d4, List.nil_append, k2.sent]
  refine ⟨⟨s', directContent sys frozen v, frozenThroughout sys frozen,
    (changeMode s v.first.info).2 ++ calls, [], v.first.info⟩, ?_, ⟨?_, rfl, ?_, ?_, ?_, k5⟩, hpty, ?_⟩
  · unfold scrapeBuffer syncConsoleContentAndSize
    rw [if_pos d1.mode]
    unfold syncDirect
    simp only [Bool.or_false, Bool.false_eq_true, if_false]
    have : (if (frozen || !sys.isNewW10) = true then v.first else v.frozen) =
      directContent sys frozen v := rfl
    rw [this, he]
    rfl
  · rw [List.map_append, run_append]; exact k1
  · intro cfg g1 g2 g3
    rw [List.map_append, opsOk_append]
    exact ⟨d7 cfg, k4 cfg g1 g2 (fun l cells col hm => g3 l cells col (List.mem_append_right _ hm))⟩
  · exact ⟨_, _, _, lines, rfl, fun rows h => by rw [d5 rows h], d6, d2, k2, hsl⟩
  · intro l g; exact (k3 l g).1
  · intro rows hsh l g hrec
    rw [hsl]
    refine (k3 l g).2 ?_
    rw [d5 rows hsh]; exact hrec

theorem directResize_spec {H : Int} {n : Nat} {s : S} {c : Con} {sh : Shown} {w : Want}
    (hv : InvOf H n s c sh w) {sys : Sys} (hs : SysOk sys) (frozen : Bool) {size : Coord} {v : SyncViews}
    (hi : DirectInfoOk v.first.info) (hx : 1 ≤ size.x) (hy : 1 ≤ size.y)
    (hH : shownRows v.first.info size ≤ H) (ha : Anything c v.resize.last) :
    ∃ r, resizeWindow sys s frozen size v = some r ∧
      DirectDone H n sh w v.first.info size v.resize.last v.cursorVisible v.mask r ∧
      r.state.ptySize = size := by
  have hv' := hv.pty size
  obtain ⟨c1, r1, c2, r2, hcx, hry, hrect⟩ := scrapeRect_eq { s with ptySize := size } hi hx hy
  obtain ⟨d1, d2, d3, d4, d5, d6, d7⟩ := enter_direct hv' hi.1 (by simp only at r1; omega)
  simp only at d2
  generalize hs1 : (changeMode { s with ptySize := size } v.first.info).1 = s1 at *
  generalize hc1 : (changeMode { s with ptySize := size } v.first.info).2 = calls1 at *
  obtain ⟨s2, reqs, himpl, hd2⟩ : ∃ s2 reqs,
      resizeImpl s1 v.first v.first.info v.resize = some (s2, v.first, reqs) ∧
      (DirectInv H n s2 c sh.rows (w.run (calls1.map opOf)) ∧ s2.ptySize = size ∧
        s2.syncCounter = s1.syncCounter) := by
    unfold resizeImpl prepareResize
    rw [if_pos d1.mode]
    refine ⟨_, _, rfl, ?_, d2, rfl⟩
    obtain ⟨a, b, c, d, e, f, g, i⟩ := d1
    exact ⟨a, b, c, fun l => ⟨_, _, ConsoleLine.rep_reset (s1.bufferData l), .inl rfl⟩, e, f, g, i⟩
  obtain ⟨hd, hp2, hcnt2⟩ := hd2
  have hkn : Known s2 v.resize.last := by
    unfold Known; rw [hcnt2, d3]; exact known_anything hv.known ha
  obtain ⟨s', calls, lines, he, k1, k2, k2', k5, k3, k4⟩ := directScrape_spec hd hi (by rw [hp2]; exact hx)
    (by rw [hp2]; exact hy) (by rw [hp2]; exact hH) sys hs _ hkn v.cursorVisible v.mask
  have hpty : s'.ptySize = size := by rw [k2', hp2]
  rw [hp2] at k1 k2 k5 k3 k4
  refine ⟨⟨s', v.resize.last, true, calls1 ++ calls, reqs, v.resize.last.info⟩, ?_,
    ⟨?_, rfl, ?_, ?_, ?_, k5⟩, hpty⟩
  · unfold resizeWindow syncConsoleContentAndSize
    rw [hs1, hc1, if_pos d1.mode]
    unfold syncDirect
    simp only [Bool.or_true, if_true, himpl, he]
  · rw [List.map_append, run_append]; exact k1
  · intro cfg g1 g2 g3
    rw [List.map_append, opsOk_append]
    exact ⟨d7 cfg, k4 cfg g1 g2 (fun l cells col hm => g3 l cells col (List.mem_append_right _ hm))⟩
  · refine ⟨s2, _, _, lines, rfl, ?_, d6, hp2, k2, ?_⟩
    · intro rows h
      have := d5 rows h
      rw [this] at hc1
      exact hc1.symm
    · rw [sentLines_append, d4, List.nil_append, k2.sent]
  · intro l g; exact (k3 l g).1

/-! ## Leaving direct mode -/

/-- The scrape when direct mode is left: everything is transferred anew. -/
theorem back_spec {H : Int} {n : Nat} {s : S} {c : Con} {rows : Int → Option (List Cell)} {w : Want}
    (hv : DirectInv H n s c rows w) {sys : Sys} (hs : SysOk sys) {info : Info} (hi : InfoOk info)
    (hH : info.window.height ≤ H) (hn : n + 1 < 2 ^ 32) {con : Con} (hinfo : con.info = info)
    (ha : Anything c con) (visible : Bool) (mask : Nat) :
    changeMode s info = ((resetConsoleTracking { s with directMode := false } true info.window.top).1,
      [.reset true info.window.top]) ∧
    ∃ s' c' calls, scrollingScrapeOutput sys (changeMode s info).1 (Views.still con) info visible false
        mask = some (true, s', c', calls) ∧
      Inv H (n + 1) s' c' ((Track.start info.window.top).scrape 0 info con mask)
        (w.run ((.reset true info.window.top :: calls).map opOf)) ∧
      c'.info = info ∧
      Polled H (w.step (.clear info.window.top)) info con ⟨s', c', true, calls, [], info⟩ ∧
      (s'.syncRow = -1 ∨ (1 ≤ s'.syncRow ∧ s'.syncRow + 216 ≤ info.window.top)) ∧
      ¬ Clears calls := by
  have hm := hv.mode
  have hi' := hi
  obtain ⟨hy, hx, _, _, _, _, ht0, htb, hb, _⟩ := hi'
  have hh := height_eq hi
  have he : changeMode s info = ((resetConsoleTracking { s with directMode := false } true info.window.top).1,
      [.reset true info.window.top]) := by
    unfold changeMode bufferLineCount
    simp [hm, hy]
    exact ⟨rfl, rfl⟩
  refine ⟨he, ?_⟩
  rw [he]
  have hcnt := hv.count
  have hcore := core_reset (s := { s with directMode := false }) (H := H) w (top := info.window.top)
    (by omega) ⟨ht0, by omega⟩ rfl (by simp only; omega)
  simp only
  generalize hs0 : (resetConsoleTracking { s with directMode := false } true info.window.top).1 = s0 at *
  have q1 : s0.dirtyWindowTop = -1 := by rw [← hs0]; rfl
  have q2 : s0.syncRow = -1 := by rw [← hs0]; rfl
  have q3 : s0.syncCounter = s.syncCounter := by rw [← hs0]; rfl
  have q4 : s0.scrolledCount = 0 := by rw [← hs0]; rfl
  have q5 : s0.scrapedLineCount = info.window.top := by rw [← hs0]; rfl
  have hkn : Known s0 con := by unfold Known; rw [q3]; exact known_anything hv.known ha
  obtain ⟨s', c', calls, hscr, hcase⟩ := frozen_spec hcore hi hH sys hs visible con mask
    (by rw [hinfo]; exact hx) (by rw [hinfo]; exact hy) hkn (by omega) (.inl q2) (fun _ => by omega)
  refine ⟨s', c', calls, hscr, ?_⟩
  rcases hcase with ⟨d, hk⟩ | hcl
  · obtain ⟨_, hinv⟩ := inv_kept (n := n) 0 0 hcore hk (by rw [q4]; rfl) (fun g => absurd q2 g)
      (fun g => absurd q2 g) (fun _ => rfl) (by omega) (by rw [hinfo]; exact Int.le_refl _) ht0
    have hp := kept_polled (fz := true) (reqs := []) (fi := info) hcore hk
    refine ⟨hinv, by have := hp.sizes; simp only at this; rw [this, hinfo], hp, ?_, kept_not_clears hk⟩
    obtain ⟨s2, due, p1, p2, p3, p4, p5, p6, p7, p8, _, hf⟩ := hk.fin
    have hd := hk.without q2
    cases due with
    | true => have := (hf.made rfl).1; have := hf.low rfl; right; omega
    | false => left; have := (hf.kept rfl).1; omega
  · rcases hcl.why with ⟨g, _⟩ | ⟨g, _⟩
    · exact absurd q2 g
    · exact absurd q1 g

/-- What leaving direct mode leaves. -/
theorem back_inv {H : Int} {n : Nat} {s : S} {c c' : Con} {rows : Int → Option (List Cell)} {w : Want}
    (hv : DirectInv H n s c rows w) {sys : Sys} (hs : SysOk sys) (frozen force : Bool) {v : SyncViews}
    (hi : InfoOk v.first.info) (hH : v.first.info.window.height ≤ H) (hn : n + 2 < 2 ^ 32) {con : Con}
    (hcon : con = if frozen || !sys.isNewW10 || force then v.first else v.frozen)
    (hinfo : con.info = v.first.info) (ha : Anything c con) {r : Result}
    (he : syncConsoleContentAndSize sys s frozen force v = some r) {t' : Track}
    (ht : t' = (Track.start v.first.info.window.top).scrape 0 v.first.info con v.mask)
    (hok : ResizeOk H s.ptySize v t') {top : Int} (htop : askedTop r.requests = some top)
    (hres : Resized r.con c' top) :
    Inv H (n + 2) r.state c' (t'.resize s.ptySize.y top) (w.run (r.calls.map opOf)) ∧
    ∀ cfg : Spec.Vt.Cfg, H ≤ cfg.height → v.first.info.size.x ≤ cfg.width →
      (∀ line cells col, .sendLine line cells col ∈ r.calls → LineOk cfg cells) →
      OpsOk cfg w (r.calls.map opOf) := by
  obtain ⟨hcm, s', cs, calls, hscr, hinv, hsz, hpol, _, _⟩ := back_spec hv hs hi hH (by omega) hinfo ha
    v.cursorVisible v.mask
  have hm := hv.mode
  have hpty := scrape_pty hscr
  have hpty2 : s'.ptySize = s.ptySize := by rw [hpty, hcm]; rfl
  unfold syncConsoleContentAndSize at he
  have hdm : (changeMode s v.first.info).1.directMode = false := by rw [hcm]; rfl
  have hl : leavesDirect s v.first.info = true := by
    unfold leavesDirect bufferLineCount; simp [hm, hi.1]
  rw [hdm] at he
  simp only [Bool.false_eq_true, if_false, hl, if_true] at he
  rw [← hcon] at he
  unfold syncScrolling at he
  simp only [if_true, hscr] at he
  unfold finishScrolling at he
  rw [if_pos rfl] at he
  split at he
  · cases he
  · rename_i s2 c2 reqs himpl
    simp only [Option.some.injEq] at he
    subst he
    simp only [List.append_nil] at htop hres ⊢
    have hcalls : (changeMode s v.first.info).2 ++ calls =
        .reset true v.first.info.window.top :: calls := by rw [hcm]; rfl
    rw [hcalls]
    subst ht
    refine ⟨?_, ?_⟩
    · refine after_resize hinv hpty2 hi hsz rfl ?_ (by omega) himpl hok htop hres
      simp only [Track.scrape, Track.start]; omega
    · intro cfg g1 g2 g3
      exact ⟨trivial, hpol.ok cfg g1 g2
        (fun l cells col hm => g3 l cells col (List.mem_cons_of_mem _ hm))⟩

/-- Leaving direct mode does not abort the agent. -/
theorem back_through {H : Int} {n : Nat} {s : S} {c : Con} {rows : Int → Option (List Cell)} {w : Want}
    (hv : DirectInv H n s c rows w) {sys : Sys} (hs : SysOk sys) (frozen force : Bool) {v : SyncViews}
    (hi : InfoOk v.first.info) (hH : v.first.info.window.height ≤ H) (hn : n + 1 < 2 ^ 32) {con : Con}
    (hcon : con = if frozen || !sys.isNewW10 || force then v.first else v.frozen)
    (hinfo : con.info = v.first.info) (ha : Anything c con)
    (hrows : 1 ≤ s.ptySize.y ∧ s.ptySize.y ≤ 2000) :
    ∃ r calls, syncConsoleContentAndSize sys s frozen force v = some r ∧
      r.calls = .reset true v.first.info.window.top :: calls ∧ ¬ Clears calls ∧
      ∃ top, askedTop r.requests = some top := by
  obtain ⟨hcm, s', cs, calls, hscr, hinv, hsz, hpol, hrow, hnc⟩ := back_spec hv hs hi hH hn hinfo ha
    v.cursorVisible v.mask
  have hm := hv.mode
  have hpty := scrape_pty hscr
  have hpty2 : s'.ptySize = s.ptySize := by rw [hpty, hcm]; rfl
  have hdm : (changeMode s v.first.info).1.directMode = false := by rw [hcm]; rfl
  have hl : leavesDirect s v.first.info = true := by
    unfold leavesDirect bufferLineCount; simp [hm, hi.1]
  obtain ⟨s2, c2, hprep, _⟩ := prepareResize_spec s' cs v.first.info hinv.core.mode hinv.core.scrolled hsz hi
    hrow (by rw [hpty2]; exact hrows)
  unfold syncConsoleContentAndSize
  rw [hdm]
  simp only [Bool.false_eq_true, if_false, hl, if_true]
  rw [← hcon]
  unfold syncScrolling
  simp only [if_true, hscr]
  unfold finishScrolling resizeImpl
  rw [if_pos rfl, hprep]
  refine ⟨_, calls, rfl, ?_, hnc, _, rfl⟩
  simp only [List.append_nil]
  rw [hcm]; rfl

/-! ## All histories -/

theorem history_inv {sys : Sys} {H W line : Int} (hs : SysOk sys) {n : Nat} {s : S} {c : Con} {sh : Shown}
    {calls : List TermCall} (h : History sys H W line n s c sh calls) (hn : n < 2 ^ 32) :
    InvOf H n s c sh ((Want.start line).run (calls.map opOf)) ∧
    ∀ cfg : Spec.Vt.Cfg, H ≤ cfg.height → W ≤ cfg.width →
      (∀ l cells col, .sendLine l cells col ∈ calls → LineOk cfg cells) →
      OpsOk cfg (Want.start line) (calls.map opOf) := by
  have hjoin : ∀ {calls calls' : List TermCall} (cfg : Spec.Vt.Cfg),
      ((∀ l cells col, .sendLine l cells col ∈ calls → LineOk cfg cells) →
        OpsOk cfg (Want.start line) (calls.map opOf)) →
      ((∀ l cells col, .sendLine l cells col ∈ calls' → LineOk cfg cells) →
        OpsOk cfg ((Want.start line).run (calls.map opOf)) (calls'.map opOf)) →
      (∀ l cells col, .sendLine l cells col ∈ calls ++ calls' → LineOk cfg cells) →
      OpsOk cfg (Want.start line) ((calls ++ calls').map opOf) := by
    intro calls calls' cfg h1 h2 h3
    rw [List.map_append, opsOk_append]
    exact ⟨h1 (fun l cells col hm => h3 l cells col (List.mem_append_left _ hm)),
      h2 (fun l cells col hm => h3 l cells col (List.mem_append_right _ hm))⟩
  induction h with
  | start ptySize c hi hH hl hm =>
    refine ⟨?_, fun _ _ _ _ => trivial⟩
    show Inv _ _ _ _ _ _
    have hh := height_eq hi
    obtain ⟨_, _, _, _, _, _, ht0, htb, hb, _⟩ := hi
    have hcore : Core H (Scraper.init ptySize line).1 (Track.start line) (Want.start line) := by
      have hlow : low (Scraper.init ptySize line).1 = line := by
        simp [low, Scraper.init, resetConsoleTracking]
      constructor <;> (try rw [hlow]) <;>
        simp only [Scraper.init, resetConsoleTracking, Track.start, Want.start]
      · omega
      · omega
      · omega
      · omega
      · omega
      · intro h; exact absurd rfl h
      · intro i; exact ⟨_, _, ConsoleLine.rep_reset _⟩
      · intro l h1 h2; omega
      · intro l cells h; cases h
      · intro l old h; cases h
      · intro _ _; trivial
      · intro _ _; trivial
      · intro l h1 h2; omega
      · omega
      · omega
      · omega
      · intro l h1 h2; omega
    constructor
    · exact hcore
    · exact .inl rfl
    · intro i m g1 g2 g3; exact absurd g3 (hm i m g1 g2)
    · intro g; exact absurd rfl g
    · rfl
    · exact ⟨rfl, Int.le_refl _⟩
    · simp only [low, Scraper.init, resetConsoleTracking, if_true]; omega
    · intro g; exact absurd rfl g
    · exact Nat.le_refl _
    · intro g; simp [Track.start] at g
  | poll frozen v _ hi hH hW he hp ih =>
    obtain ⟨hinv, hok⟩ := ih (by omega)
    have hpi := polls_inv hinv hs hi hH (by omega) he hp
    refine ⟨?_, fun cfg h1 h2 => hjoin cfg (hok cfg h1 h2) (hpi.polled.ok cfg h1 (by omega))⟩
    rw [List.map_append, run_append]
    exact hpi.inv
  | resize frozen size v c' _ hi hH hW he hp hro htop hres ih =>
    obtain ⟨hinv, hok⟩ := ih (by omega)
    obtain ⟨hinv', r0, hcalls, hp0⟩ := resized_inv hinv hs hi hH (by omega) he hp hro htop hres
    refine ⟨?_, ?_⟩
    · rw [List.map_append, run_append]
      exact hinv'
    · rw [hcalls]
      exact fun cfg h1 h2 => hjoin cfg (hok cfg h1 h2) (hp0.ok cfg h1 (by omega))
  | directPoll frozen v _ hi hx hy hH hW he ha ih =>
    obtain ⟨hinv, hok⟩ := ih hn
    obtain ⟨r', he', hd, _⟩ := directPoll_spec hinv hs frozen hi hx hy hH ha
    rw [he, Option.some.injEq] at he'
    subst he'
    refine ⟨?_, fun cfg h1 h2 => hjoin cfg (hok cfg h1 h2) (hd.ok cfg h1 (by omega))⟩
    rw [List.map_append, run_append, hd.left]
    exact hd.inv
  | directResize frozen size v _ hi hx hy hH hW he _ _ ha ih =>
    obtain ⟨hinv, hok⟩ := ih hn
    obtain ⟨r', he', hd, _⟩ := directResize_spec hinv hs frozen hi hx hy hH ha
    rw [he, Option.some.injEq] at he'
    subst he'
    refine ⟨?_, fun cfg h1 h2 => hjoin cfg (hok cfg h1 h2) (hd.ok cfg h1 (by omega))⟩
    rw [List.map_append, run_append, hd.left]
    exact hd.inv
  | backPoll frozen v c' _ hi hH hW he hinfo ha ht hro htop hres ih =>
    obtain ⟨hinv, hok⟩ := ih (by omega)
    obtain ⟨hinv', hok'⟩ := back_inv hinv hs frozen false hi hH (by omega)
      (con := directContent sys frozen v) (by simp only [Bool.or_false]; rfl) hinfo ha he ht hro htop hres
    refine ⟨?_, fun cfg h1 h2 => hjoin cfg (hok cfg h1 h2) (hok' cfg h1 (by omega))⟩
    rw [List.map_append, run_append]
    exact hinv'
  | backResize frozen size v c' _ hi hH hW he ha ht hro htop hres ih =>
    obtain ⟨hinv, hok⟩ := ih (by omega)
    obtain ⟨hinv', hok'⟩ := back_inv (DirectInv.pty hinv size) hs frozen true hi hH (by omega)
      (con := v.first) (by simp only [Bool.or_true, if_true]) rfl ha he ht hro htop hres
    refine ⟨?_, fun cfg h1 h2 => hjoin cfg (hok cfg h1 h2) (hok' cfg h1 (by omega))⟩
    rw [List.map_append, run_append]
    exact hinv'

end Winpty.Scraper
