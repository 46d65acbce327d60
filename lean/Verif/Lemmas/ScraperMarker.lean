import Verif.Spec.Scraper
import Verif.Props.LargeConsoleRead

/-! Lemmas about the sync marker of `Scraper.cc`. -/
namespace Winpty.Scraper

open Winpty.Spec.Scrape
open Winpty.SmallRect
open Winpty.ConsoleLine (Cell Obj)
open Winpty.Agent (TermCall)

/-! ## The text -/

theorem hexDigit_eq : ∀ d, d < 16 → hexDigit d = hexChar d := by decide

theorem hexChar_inj : ∀ a, a < 16 → ∀ b, b < 16 → hexChar a = hexChar b → a = b := by decide

theorem hexChar_ne : ∀ d, d < 16 → hexChar d ≠ 0x53 ∧ hexChar d ≠ 0x20 := by decide

theorem hex8_eq (n : Nat) :
    hex8 n = [7, 6, 5, 4, 3, 2, 1, 0].map fun i => hexChar (n / 16 ^ i % 16) := by
  simp only [hex8, List.map_cons, List.map_nil]
  rw [hexDigit_eq _ (Nat.mod_lt _ (by decide)), hexDigit_eq _ (Nat.mod_lt _ (by decide)),
    hexDigit_eq _ (Nat.mod_lt _ (by decide)), hexDigit_eq _ (Nat.mod_lt _ (by decide)),
    hexDigit_eq _ (Nat.mod_lt _ (by decide)), hexDigit_eq _ (Nat.mod_lt _ (by decide)),
    hexDigit_eq _ (Nat.mod_lt _ (by decide)), hexDigit_eq _ (Nat.mod_lt _ (by decide))]
  simp

theorem syncMarkerText_eq (s : S) :
    syncMarkerText s = (markerText s.syncCounter).map fun ch => ⟨ch, 7⟩ := by
  unfold syncMarkerText markerText
  rw [hex8_eq]

theorem markerText_length (n : Nat) : (markerText n).length = 16 := by
  simp [markerText]

theorem markerText_zero (n : Nat) : (markerText n)[0]? = some 0x53 := rfl

theorem markerText_chars (n j : Nat) (ch : Nat) (h : (markerText n)[j]? = some ch) :
    ch ≠ 0x20 ∧ (ch = 0x53 → j = 0) := by
  have hj : j < 16 := by
    have := (List.getElem?_eq_some_iff.mp h).1
    rwa [markerText_length] at this
  have hx : ∀ m, hexChar (m % 16) ≠ 0x53 ∧ hexChar (m % 16) ≠ 0x20 := fun m =>
    hexChar_ne _ (Nat.mod_lt _ (by decide))
  have hc : j = 0 ∨ j = 1 ∨ j = 2 ∨ j = 3 ∨ j = 4 ∨ j = 5 ∨ j = 6 ∨ j = 7 ∨ j = 8 ∨ j = 9 ∨ j = 10 ∨
      j = 11 ∨ j = 12 ∨ j = 13 ∨ j = 14 ∨ j = 15 := by omega
  rcases hc with h' | h' | h' | h' | h' | h' | h' | h' | h' | h' | h' | h' | h' | h' | h' | h' <;>
    subst h' <;> simp [markerText] at h <;> subst h <;>
    first
    | decide
    | exact ⟨(hx _).2, fun he => absurd he (hx _).1⟩

theorem markerText_inj (m n : Nat) (hm : m < 2 ^ 32) (hn : n < 2 ^ 32)
    (h : ∀ (j : Nat) (ch : Nat), (markerText m)[j]? = some ch → (markerText n)[j]? = some ch) : m = n := by
  have key : ∀ i, i < 8 → m / 16 ^ i % 16 = n / 16 ^ i % 16 := by
    intro i hi
    have h8 : ∀ k, i < 8 → (markerText k)[15 - i]? = some (hexChar (k / 16 ^ i % 16)) := by
      intro k hi
      have hc : i = 0 ∨ i = 1 ∨ i = 2 ∨ i = 3 ∨ i = 4 ∨ i = 5 ∨ i = 6 ∨ i = 7 := by omega
      rcases hc with h' | h' | h' | h' | h' | h' | h' | h' <;> subst h' <;> simp [markerText]
    have := h (15 - i) _ (h8 m hi)
    rw [h8 n hi] at this
    simp only [Option.some.injEq] at this
    exact (hexChar_inj _ (Nat.mod_lt _ (by decide)) _ (Nat.mod_lt _ (by decide)) this).symm
  have k0 := key 0 (by decide)
  have k1 := key 1 (by decide)
  have k2 := key 2 (by decide)
  have k3 := key 3 (by decide)
  have k4 := key 4 (by decide)
  have k5 := key 5 (by decide)
  have k6 := key 6 (by decide)
  have k7 := key 7 (by decide)
  simp only [Nat.reducePow, Nat.div_one] at k0 k1 k2 k3 k4 k5 k6 k7
  omega

theorem markerAt_unique {c : Con} {i : Int} {m n : Nat} (hm : m < 2 ^ 32) (hn : n < 2 ^ 32)
    (h1 : MarkerAt c i m) (h2 : MarkerAt c i n) : m = n := by
  apply markerText_inj m n hm hn
  intro j ch hj
  have hlt := (List.getElem?_eq_some_iff.mp hj).1
  rw [markerText_length] at hlt
  have h3 : (markerText n)[j]? = some ((markerText n)[j]'(by rw [markerText_length]; exact hlt)) :=
    List.getElem?_eq_getElem _
  have := h2 j _ h3
  rw [h1 j ch hj] at this
  rw [h3, this]

/-! ## Searching -/

theorem markerAt_spec (column : List Cell) : ∀ (marker : List Cell) (i : Nat),
    i + marker.length ≤ column.length →
    (markerAt column i marker = some true ∧
      ∀ (j : Nat) (m : Cell), marker[j]? = some m → (column[i + j]?.getD ⟨0, 0⟩).ch = m.ch) ∨
    (markerAt column i marker = some false ∧
      ¬ ∀ (j : Nat) (m : Cell), marker[j]? = some m → (column[i + j]?.getD ⟨0, 0⟩).ch = m.ch) := by
  intro marker
  induction marker with
  | nil => intro i _; exact .inl ⟨rfl, by simp⟩
  | cons m ms ih =>
    intro i h
    simp only [List.length_cons] at h
    have hi : column[i]? = some column[i] := List.getElem?_eq_getElem (by omega)
    simp only [markerAt, hi]
    by_cases hc : (column[i]'(by omega)).ch = m.ch
    · rw [if_neg (by simp [hc])]
      rcases ih (i + 1) (by omega) with ⟨h1, hall⟩ | ⟨h1, hall⟩
      · refine .inl ⟨h1, ?_⟩
        intro j d hj
        cases j with
        | zero =>
          simp only [List.getElem?_cons_zero, Option.some.injEq] at hj
          subst hj
          simp only [Nat.add_zero, hi, Option.getD_some]
          exact hc
        | succ j =>
          have := hall j d (by simpa using hj)
          rwa [show i + 1 + j = i + (j + 1) by omega] at this
      · refine .inr ⟨h1, fun hall' => hall ?_⟩
        intro j d hj
        have := hall' (j + 1) d (by simpa using hj)
        rwa [show i + (j + 1) = i + 1 + j by omega] at this
    · rw [if_pos hc]
      refine .inr ⟨rfl, fun hall => ?_⟩
      have := hall 0 m (by simp)
      simp only [Nat.add_zero, hi, Option.getD_some] at this
      exact hc this

theorem searchLoop_spec (column marker : List Cell) (P : Nat → Prop) : ∀ (n : Nat),
    (∀ i, i < n → (markerAt column i marker = some true ∧ P i) ∨
      (markerAt column i marker = some false ∧ ¬ P i)) →
    ∃ r, searchLoop column marker n = some r ∧
      ((r = -1 ∧ ∀ i, i < n → ¬ P i) ∨
       (∃ i : Nat, r = i ∧ i < n ∧ P i ∧ ∀ j, i < j → j < n → ¬ P j)) := by
  intro n
  induction n with
  | zero => intro _; exact ⟨-1, rfl, .inl ⟨rfl, by omega⟩⟩
  | succ n ih =>
    intro h
    simp only [searchLoop]
    rcases h n (by omega) with ⟨h1, h2⟩ | ⟨h1, h2⟩
    · rw [h1]
      exact ⟨_, rfl, .inr ⟨n, rfl, by omega, h2, by omega⟩⟩
    · rw [h1]
      obtain ⟨r, hr, hc⟩ := ih (fun i hi => h i (by omega))
      refine ⟨r, hr, ?_⟩
      rcases hc with ⟨e, ha⟩ | ⟨i, e, hi, hp, hj⟩
      · refine .inl ⟨e, fun i hi => ?_⟩
        by_cases hin : i = n
        · subst hin; exact h2
        · exact ha i (by omega)
      · refine .inr ⟨i, e, by omega, hp, fun j h3 h4 => ?_⟩
        by_cases hjn : j = n
        · subst hjn; exact h2
        · exact hj j h3 (by omega)

/-- Can the system transfer a column of the buffer in one read? -/
def SysOk (sys : Sys) : Prop := sys.isAtLeastWindows8 = true ∨ 3000 ≤ sys.oldLimit

theorem column_get (screen : Int → Int → Cell) : ∀ (h i : Nat) (top : Int), i < h →
    (LargeRead.rectCells screen 0 top 1 h)[i]? = some (screen 0 (top + i)) := by
  intro h
  induction h with
  | zero => intro i _ hi; omega
  | succ h ih =>
    intro i top hi
    simp only [LargeRead.rectCells]
    cases i with
    | zero => simp
    | succ i =>
      have := ih i (top + 1) (by omega)
      simp only [List.range_one, List.map_cons, List.map_nil, List.singleton_append,
        List.getElem?_cons_succ]
      rw [this]
      congr 2
      omega

theorem column_length (screen : Int → Int → Cell) : ∀ (h : Nat) (top : Int),
    (LargeRead.rectCells screen 0 top 1 h).length = h := by
  intro h
  induction h with
  | zero => intro _; rfl
  | succ h ih => intro top; simp only [LargeRead.rectCells, List.length_append, ih]; simp; omega

theorem findSyncMarker_spec (sys : Sys) (hs : SysOk sys) (s : S) (c : Con) (h0 : 0 ≤ s.syncRow)
    (h1 : s.syncRow + 16 ≤ 3000) :
    ∃ r, findSyncMarker sys s c = some r ∧
      ((r = -1 ∧ ∀ i, 0 ≤ i → i ≤ s.syncRow → ¬ MarkerAt c i s.syncCounter) ∨
       (0 ≤ r ∧ r ≤ s.syncRow ∧ MarkerAt c r s.syncCounter ∧
        ∀ i, r < i → i ≤ s.syncRow → ¬ MarkerAt c i s.syncCounter)) := by
  unfold findSyncMarker
  rw [if_neg (by omega)]
  have hmk : mk4 0 0 1 (s.syncRow + syncMarkerLen) = ⟨0, 0, 0, s.syncRow + 15⟩ := by
    simp only [mk4, short, syncMarkerLen]
    rw [Rect.mk.injEq]
    omega
  have hw : (⟨0, 0, 0, s.syncRow + 15⟩ : Rect).width = 1 := by simp [Rect.width, short]
  have hh : (⟨0, 0, 0, s.syncRow + 15⟩ : Rect).height = s.syncRow + 16 := by
    simp only [Rect.height, short]; omega
  generalize hN : (s.syncRow + 16).toNat = N
  have hN16 : 16 ≤ N := by omega
  have hread : LargeRead.read (view sys c) (mk4 0 0 1 (s.syncRow + syncMarkerLen))
      (List.replicate 3000 ⟨0, 0⟩) 0 =
      some (LargeRead.rectCells c.screen 0 0 1 N ++ (List.replicate 3000 (⟨0, 0⟩ : Cell)).drop N) := by
    rw [hmk]
    unfold LargeRead.read
    simp only [Rect.size, hw, hh]
    rw [if_neg, if_neg]
    · simp only [view, Int.toNat_one, Nat.one_mul, hN, Int.toNat_zero, List.take_zero,
        List.nil_append, Nat.zero_add]
    · rcases hs with h | h
      · simp [view, h]
      · simp only [view, Int.toNat_one, Nat.one_mul, hN]; omega
    · simp only [List.length_replicate]; omega
  rw [hread]
  have hcol : ∀ i, i < N →
      (LargeRead.rectCells c.screen 0 0 1 N ++ (List.replicate 3000 (⟨0, 0⟩ : Cell)).drop N)[i]? =
        some (c.screen 0 i) := by
    intro i hi
    rw [List.getElem?_append_left (by rw [column_length]; exact hi), column_get _ _ _ _ hi]
    simp
  have hlen : (LargeRead.rectCells c.screen 0 0 1 N ++
      (List.replicate 3000 (⟨0, 0⟩ : Cell)).drop N).length = 3000 := by
    simp only [List.length_append, column_length, List.length_drop, List.length_replicate]; omega
  generalize LargeRead.rectCells c.screen 0 0 1 N ++
      (List.replicate 3000 (⟨0, 0⟩ : Cell)).drop N = column at hcol hlen
  have hml : (syncMarkerText s).length = 16 := by
    rw [syncMarkerText_eq, List.length_map, markerText_length]
  obtain ⟨r, hr, hc⟩ := searchLoop_spec column (syncMarkerText s)
    (fun i => MarkerAt c i s.syncCounter) (s.syncRow + 1).toNat (by
      intro i hi
      have hiff : (∀ (j : Nat) (m : Cell), (syncMarkerText s)[j]? = some m → (column[i + j]?.getD ⟨0, 0⟩).ch = m.ch) ↔
          MarkerAt c i s.syncCounter := by
        unfold MarkerAt
        constructor
        · intro h j ch hj
          have hlt := (List.getElem?_eq_some_iff.mp hj).1
          rw [markerText_length] at hlt
          have := h j ⟨ch, 7⟩ (by rw [syncMarkerText_eq, List.getElem?_map, hj]; rfl)
          rw [hcol (i + j) (by omega)] at this
          simpa using this
        · intro h j m hj
          have hlt := (List.getElem?_eq_some_iff.mp hj).1
          rw [hml] at hlt
          rw [syncMarkerText_eq, List.getElem?_map, Option.map_eq_some_iff] at hj
          obtain ⟨ch, h3, h4⟩ := hj
          subst h4
          rw [hcol (i + j) (by omega)]
          have := h j ch h3
          simpa using this
      rcases markerAt_spec column (syncMarkerText s) i (by rw [hml, hlen]; omega) with ⟨h3, h4⟩ | ⟨h3, h4⟩
      · exact .inl ⟨h3, hiff.mp h4⟩
      · exact .inr ⟨h3, fun hm => h4 (hiff.mpr hm)⟩)
  refine ⟨r, hr, ?_⟩
  rcases hc with ⟨e, ha⟩ | ⟨i, e, hi, hp, hj⟩
  · refine .inl ⟨e, fun i g0 g1 => ?_⟩
    have := ha i.toNat (by omega)
    rwa [Int.toNat_of_nonneg g0] at this
  · refine .inr ⟨by omega, by omega, by rw [e]; exact hp, fun j g0 g1 => ?_⟩
    have := hj j.toNat (by omega) (by omega)
    rwa [Int.toNat_of_nonneg (by omega)] at this

/-! ## Clearing and writing -/

/-- A cell index lies in the first `W * n` cells from a row on iff its row is one of the `n` rows. -/
theorem fill_rows {W x d n : Int} (hx0 : 0 ≤ x) (hx1 : x < W) :
    (0 ≤ d * W + x ∧ d * W + x < W * n) ↔ (0 ≤ d ∧ d < n) := by
  constructor
  · intro ⟨h1, h2⟩
    constructor
    · apply Int.not_lt.mp
      intro hd
      have : d * W ≤ -1 * W := Int.mul_le_mul_of_nonneg_right (by omega) (by omega)
      omega
    · apply Int.not_le.mp
      intro hd
      have : n * W ≤ d * W := Int.mul_le_mul_of_nonneg_right hd (by omega)
      rw [Int.mul_comm n W] at this
      omega
  · intro ⟨h1, h2⟩
    constructor
    · have := Int.mul_nonneg h1 (by omega : 0 ≤ W)
      omega
    · have : d * W ≤ (n - 1) * W := Int.mul_le_mul_of_nonneg_right (by omega) (by omega)
      rw [Int.sub_mul, Int.one_mul, Int.mul_comm n W] at this
      omega

theorem clearLines_screen (c : Con) (row n : Int) (x y : Int) :
    (clearLines c row n c.info).screen x y =
      if (0 ≤ x ∧ x < c.info.size.x) ∧ (0 ≤ y ∧ y < c.info.size.y) ∧ row ≤ y ∧ y < row + n then
        ⟨0x20, 7⟩ else c.screen x y := by
  simp only [clearLines, fillBlank, defaultAttributes]
  by_cases hx : 0 ≤ x ∧ x < c.info.size.x
  · have := fill_rows (W := c.info.size.x) (x := x) (d := y - row) (n := n) hx.1 hx.2
    by_cases hr : row ≤ y ∧ y < row + n
    · have h2 := this.mpr ⟨by omega, by omega⟩
      by_cases hy : 0 ≤ y ∧ y < c.info.size.y
      · rw [if_pos ⟨hx.1, hx.2, hy.1, hy.2, h2.1, h2.2⟩, if_pos ⟨hx, hy, hr.1, hr.2⟩]
      · rw [if_neg (fun h => hy ⟨h.2.2.1, h.2.2.2.1⟩), if_neg (fun h => hy h.2.1)]
    · rw [if_neg (fun h => hr (by
        have := this.mp ⟨h.2.2.2.2.1, h.2.2.2.2.2⟩
        omega)), if_neg (fun h => hr ⟨h.2.2.1, h.2.2.2⟩)]
  · rw [if_neg (fun h => hx ⟨h.1, h.2.1⟩), if_neg (fun h => hx h.1)]

/-- What `createSyncMarker` leaves behind. -/
structure Created (s : S) (c : Con) (row : Int) (s' : S) (c' : Con) : Prop where
  info : c'.info = c.info
  state : s' = { s with syncCounter := (s.syncCounter + 1) % 2 ^ 32, syncRow := row }
  other : ∀ x y, (y < row - 1 ∨ row + 16 ≤ y) → c'.screen x y = c.screen x y
  placed : MarkerAt c' row s'.syncCounter
  only : ∀ i n, 0 ≤ i → n < 2 ^ 32 → MarkerAt c' i n →
    (i = row ∧ n = s'.syncCounter) ∨ MarkerAt c i n

theorem createSyncMarker_spec (s : S) (c : Con) (row : Int) (h1 : 1 ≤ row)
    (hx : 1 ≤ c.info.size.x) (hy : row + 16 ≤ c.info.size.y) :
    ∃ s' c', createSyncMarker s c row = some (s', c') ∧ Created s c row s' c' := by
  unfold createSyncMarker
  rw [if_neg (by omega)]
  refine ⟨_, _, rfl, ?_⟩
  rw [syncMarkerText_eq]
  generalize hn : (s.syncCounter + 1) % 2 ^ 32 = n'
  simp only
  have hscreen : ∀ x y, (writeColumn (clearLines c (row - 1) (syncMarkerLen + 1) c.info) row
      ((markerText n').map fun ch => ⟨ch, 7⟩)).screen x y =
      (if x = 0 ∧ row ≤ y ∧ y < row + 16 then ⟨((markerText n')[(y - row).toNat]?).getD 0, 7⟩
       else if (0 ≤ x ∧ x < c.info.size.x) ∧ row - 1 ≤ y ∧ y < row + 16 then ⟨0x20, 7⟩
       else c.screen x y) := by
    intro x y
    have hcl := clearLines_screen c (row - 1) (syncMarkerLen + 1) x y
    have hci : (clearLines c (row - 1) (syncMarkerLen + 1) c.info).info = c.info := rfl
    simp only [writeColumn, hci]
    rw [hcl]
    simp only [syncMarkerLen]
    by_cases ha : x = 0 ∧ row ≤ y ∧ y < row + 16
    · rw [if_pos ⟨ha.1, by omega, by omega, ha.2.1⟩, if_pos ha, List.getElem?_map]
      have : (markerText n')[(y - row).toNat]? =
          some ((markerText n')[(y - row).toNat]'(by rw [markerText_length]; omega)) :=
        List.getElem?_eq_getElem _
      rw [this]
      rfl
    · rw [if_neg ha]
      have hcond : ((0 ≤ x ∧ x < c.info.size.x) ∧ (0 ≤ y ∧ y < c.info.size.y) ∧ row - 1 ≤ y ∧
          y < row - 1 + (16 + 1)) ↔ ((0 ≤ x ∧ x < c.info.size.x) ∧ row - 1 ≤ y ∧ y < row + 16) := by
        omega
      simp only [hcond]
      by_cases hb : x = 0 ∧ 0 ≤ y ∧ y < c.info.size.y ∧ row ≤ y
      · rw [if_pos hb, List.getElem?_map, List.getElem?_eq_none (by rw [markerText_length]; omega)]
        rfl
      · rw [if_neg hb]
  constructor
  · rfl
  · simp only [hn]
  · intro x y hy'
    rw [hscreen, if_neg (by omega), if_neg (by omega)]
  · intro j ch hj
    have hlt := (List.getElem?_eq_some_iff.mp hj).1
    rw [markerText_length] at hlt
    rw [hscreen, if_pos ⟨rfl, by omega, by omega⟩]
    simp only
    rw [show (row + (j : Int) - row).toNat = j by omega, hj]
    rfl
  · intro i n hi hn32 hm
    simp only at hm ⊢
    have hcell : ∀ y ch, row ≤ y → y < row + 16 → ((writeColumn (clearLines c (row - 1)
        (syncMarkerLen + 1) c.info) row ((markerText n').map fun ch => ⟨ch, 7⟩)).screen 0 y).ch = ch →
        (markerText n')[(y - row).toNat]? = some ch := by
      intro y ch g1 g2 g3
      rw [hscreen, if_pos ⟨rfl, g1, g2⟩] at g3
      simp only at g3
      have : (markerText n')[(y - row).toNat]? =
          some ((markerText n')[(y - row).toNat]'(by rw [markerText_length]; omega)) :=
        List.getElem?_eq_getElem _
      rw [this] at g3 ⊢
      simpa using g3
    by_cases heq : i = row
    · refine .inl ⟨heq, ?_⟩
      subst heq
      apply markerText_inj n n' hn32 (by rw [← hn]; exact Nat.mod_lt _ (by decide))
      intro j ch hj
      have hlt := (List.getElem?_eq_some_iff.mp hj).1
      rw [markerText_length] at hlt
      have := hcell (i + j) ch (by omega) (by omega) (hm j ch hj)
      rwa [show (i + (j : Int) - i).toNat = j by omega] at this
    · right
      by_cases hov1 : row < i ∧ i < row + 16
      · exfalso
        have h0 := hm 0 0x53 (markerText_zero n)
        simp only [Int.natCast_zero, Int.add_zero] at h0
        have := hcell i 0x53 (by omega) (by omega) h0
        have := (markerText_chars n' _ _ this).2 rfl
        omega
      · by_cases hov2 : i ≤ row - 1 ∧ row - 1 ≤ i + 15
        · exfalso
          have hj : (row - 1 - i).toNat < 16 := by omega
          have h3 : (markerText n)[(row - 1 - i).toNat]? =
              some ((markerText n)[(row - 1 - i).toNat]'(by rw [markerText_length]; exact hj)) :=
            List.getElem?_eq_getElem _
          have h4 := hm _ _ h3
          rw [show i + (((row - 1 - i).toNat : Nat) : Int) = row - 1 by omega, hscreen,
            if_neg (by omega), if_pos ⟨⟨by omega, by omega⟩, by omega, by omega⟩] at h4
          simp only at h4
          exact (markerText_chars n _ _ h3).1 h4.symm
        · intro j ch hj
          have hlt := (List.getElem?_eq_some_iff.mp hj).1
          rw [markerText_length] at hlt
          have := hm j ch hj
          rwa [hscreen, if_neg (by omega), if_neg (by omega)] at this

end Winpty.Scraper
