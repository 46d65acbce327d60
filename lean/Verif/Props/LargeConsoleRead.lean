import Verif.Model.LargeConsoleRead

/-! # C24: large screen reads are complete and correctly placed -/
namespace Winpty.LargeRead

open Winpty.SmallRect
open Winpty.ConsoleLine (Cell)

theorem rectCells_length (s : Int → Int → Cell) (l t : Int) (w h : Nat) :
    (rectCells s l t w h).length = w * h := by
  induction h generalizing t with
  | zero => simp [rectCells]
  | succ h ih => simp [rectCells, ih, Nat.mul_succ, Nat.add_comm]

theorem rectCells_add (s : Int → Int → Cell) (l t : Int) (w h1 h2 : Nat) :
    rectCells s l t w (h1 + h2) = rectCells s l t w h1 ++ rectCells s l (t + h1) w h2 := by
  induction h1 generalizing t with
  | zero => simp [rectCells]
  | succ h ih =>
    have e : h + 1 + h2 = (h + h2) + 1 := by omega
    rw [e]
    simp only [rectCells]
    rw [ih (t + 1)]
    have e2 : t + 1 + (h : Int) = t + ((h + 1 : Nat) : Int) := by omega
    rw [e2, List.append_assoc]

/-- The cell in column `j` of row `i`. -/
theorem rectCells_get (s : Int → Int → Cell) (l t : Int) (w h i j : Nat) (hi : i < h) (hj : j < w) :
    (rectCells s l t w h)[w * i + j]? = some (s (l + j) (t + i)) := by
  induction h generalizing t i with
  | zero => omega
  | succ h ih =>
    simp only [rectCells]
    cases i with
    | zero =>
      rw [List.getElem?_append_left (by simp; omega)]
      simp [List.getElem?_range hj]
    | succ i =>
      have hlen : ((List.range w).map (fun j : Nat => s (l + j) t)).length = w := by simp
      rw [List.getElem?_append_right (by rw [hlen, Nat.mul_succ]; omega), hlen]
      have e : w * (i + 1) + j - w = w * i + j := by rw [Nat.mul_succ]; omega
      rw [e, ih (t + 1) i (by omega)]
      congr 2
      omega

/-- Facts about a permitted rectangle. -/
structure Area (r : Rect) (w h : Nat) : Prop where
  left : 0 ≤ r.left
  top : 0 ≤ r.top
  right : r.right = r.left + w - 1
  bottom : r.bottom = r.top + h - 1
  wpos : 0 < w
  hpos : 0 < h
  wmax : w ≤ 2500
  rmax : r.right ≤ 32767
  bmax : r.bottom ≤ 32766

theorem Area.width {r : Rect} {w h : Nat} (a : Area r w h) : r.width = w := by
  have := a.right
  have := a.left
  have := a.wmax
  have := a.wpos
  simp only [Rect.width, short]
  omega

theorem Area.height {r : Rect} {w h : Nat} (a : Area r w h) : r.height = h := by
  have := a.bottom
  have := a.top
  have := a.bmax
  have := a.hpos
  simp only [Rect.height, short]
  omega

/-- Number of lines in the next chunk. -/
def chunkLines (w rest : Nat) : Nat := min (max 1 (2500 / w)) rest

theorem subReadArea_eq {r : Rect} {w h : Nat} (a : Area r w h) (k : Nat) (hk : k < h) :
    subReadArea r (r.top + k) =
      ⟨r.left, r.top + k, r.right, r.top + k + chunkLines w (h - k) - 1⟩ ∧
    (subReadArea r (r.top + k)).size = ⟨w, chunkLines w (h - k)⟩ := by
  have e1 : Int.tdiv maxConsoleWidth r.width = ((2500 / w : Nat) : Int) := by
    rw [a.width]
    unfold maxConsoleWidth
    exact (Int.ofNat_tdiv 2500 w).symm
  have e2 : r.bottom + 1 - (r.top + k) = ((h - k : Nat) : Int) := by
    have := a.bottom
    omega
  have e3 : min (max (1 : Int) ((2500 / w : Nat) : Int)) ((h - k : Nat) : Int) =
      (chunkLines w (h - k) : Nat) := by
    unfold chunkLines
    omega
  have hc : chunkLines w (h - k) ≤ h - k := by unfold chunkLines; omega
  have hc0 : 0 < chunkLines w (h - k) := by unfold chunkLines; omega
  have eq : subReadArea r (r.top + k) =
      ⟨r.left, r.top + k, r.right, r.top + k + chunkLines w (h - k) - 1⟩ := by
    unfold subReadArea
    rw [e1, e2, e3, a.width]
    generalize chunkLines w (h - k) = c at *
    have := a.left
    have := a.top
    have := a.right
    have := a.bottom
    have := a.rmax
    have := a.bmax
    have := a.wpos
    have := a.wmax
    simp only [mk4, short, Rect.mk.injEq]
    omega
  refine ⟨eq, ?_⟩
  rw [eq]
  generalize chunkLines w (h - k) = c at *
  have := a.left
  have := a.right
  have := a.top
  have := a.bottom
  have := a.bmax
  have := a.wpos
  have := a.wmax
  simp only [Rect.size, Rect.width, Rect.height, short, Coord.mk.injEq]
  omega

theorem chunk_cells (w rest : Nat) (hw : 0 < w) (hw' : w ≤ 2500) : w * chunkLines w rest ≤ 2500 := by
  have h2 : w * (2500 / w) ≤ 2500 := Nat.mul_div_le 2500 w
  have h3 : 0 < 2500 / w := Nat.div_pos hw' hw
  have h1 : chunkLines w rest ≤ 2500 / w := by
    unfold chunkLines
    generalize 2500 / w = q at *
    omega
  exact Nat.le_trans (Nat.mul_le_mul_left w h1) h2

theorem chunkLoop_end (c : Console) (r : Rect) (b : Buf) (cur : Int) (fuel : Nat)
    (h : ¬ cur ≤ r.bottom) : chunkLoop c r b cur fuel = some b := by
  have hs : chunkStep c r b cur = some none := if_neg h
  cases fuel with
  | zero => unfold chunkLoop; rw [hs]
  | succ n => unfold chunkLoop; rw [hs]

theorem chunkLoop_step (c : Console) (r : Rect) (b : Buf) (cur : Int) (fuel : Nat)
    (h : cur ≤ r.bottom) (off : Int) (ho : lineOffset b cur = some off) (d : List Cell)
    (hd : read c (subReadArea r cur) b.data off = some d) :
    chunkLoop c r b cur (fuel + 1) =
      chunkLoop c r { b with data := d } ((subReadArea r cur).bottom + 1) fuel := by
  have hs : chunkStep c r b cur =
      some (some ({ b with data := d }, (subReadArea r cur).bottom + 1)) := by
    unfold chunkStep
    rw [if_pos h, ho]
    simp only
    rw [hd]
  rw [chunkLoop, hs]

/-- One chunk. -/
theorem read_chunk (c : Console) (hlim : 2500 ≤ c.oldLimit) {r : Rect} {w h : Nat}
    (a : Area r w h) (tail old : List Cell) (k : Nat) (hk : k < h)
    (hold : old.length = w * (h - k)) :
    read c (subReadArea r (r.top + k))
      (rectCells c.screen r.left r.top w k ++ old ++ tail) ((k * w : Nat) : Int) =
      some (rectCells c.screen r.left r.top w (k + chunkLines w (h - k)) ++
        old.drop (w * chunkLines w (h - k)) ++ tail) := by
  obtain ⟨hsub, hsize⟩ := subReadArea_eq a k hk
  have hc : chunkLines w (h - k) ≤ h - k := by unfold chunkLines; omega
  have hcells := chunk_cells w (h - k) a.wpos a.wmax
  have hold2 : w * chunkLines w (h - k) ≤ old.length := by
    rw [hold]; exact Nat.mul_le_mul_left _ hc
  generalize chunkLines w (h - k) = n at *
  have hlen : (rectCells c.screen r.left r.top w k ++ old ++ tail).length =
      w * k + old.length + tail.length := by
    rw [List.length_append, List.length_append, rectCells_length]
  have hl : (rectCells c.screen r.left r.top w k).length = w * k := rectCells_length ..
  unfold read
  rw [hsize]
  simp only
  have hmul : ((w : Int) * (n : Int)) = ((w * n : Nat) : Int) := (Int.natCast_mul _ _).symm
  have hkw : k * w = w * k := Nat.mul_comm _ _
  rw [hmul, hlen, hkw, if_neg (by omega)]
  simp only [Int.toNat_natCast]
  rw [if_neg (by omega), hsub]
  simp only
  rw [rectCells_add]
  congr 1
  rw [List.append_assoc (rectCells c.screen r.left r.top w k) old tail,
    List.take_append_of_le_length (by omega), List.take_of_length_le (by omega),
    List.drop_append, List.drop_of_length_le (by omega), List.nil_append]
  have e : w * k + w * n - (rectCells c.screen r.left r.top w k).length = w * n := by omega
  rw [e, List.drop_append_of_le_length hold2]
  simp only [List.append_assoc]

/-- The chunked read, from line `k` on. -/
theorem chunkLoop_spec (c : Console) (hlim : 2500 ≤ c.oldLimit) {r : Rect} {w h : Nat}
    (a : Area r w h) (tail : List Cell) :
    ∀ (fuel k : Nat) (old : List Cell), k ≤ h → h - k ≤ fuel → old.length = w * (h - k) →
      chunkLoop c r ⟨r, r.width, rectCells c.screen r.left r.top w k ++ old ++ tail⟩
          (r.top + k) fuel =
        some ⟨r, r.width, rectCells c.screen r.left r.top w h ++ tail⟩ := by
  have hb := a.bottom
  intro fuel
  induction fuel with
  | zero =>
    intro k old hk hf hold
    have hkh : h = k := by omega
    subst hkh
    have : old = [] := List.eq_nil_of_length_eq_zero (by rw [hold, Nat.sub_self, Nat.mul_zero])
    rw [this, List.append_nil]
    exact chunkLoop_end _ _ _ _ _ (by omega)
  | succ fuel ih =>
    intro k old hk hf hold
    by_cases hkh : h = k
    · subst hkh
      have : old = [] := List.eq_nil_of_length_eq_zero (by rw [hold, Nat.sub_self, Nat.mul_zero])
      rw [this, List.append_nil]
      exact chunkLoop_end _ _ _ _ _ (by omega)
    · have hlt : k < h := by omega
      have hc : chunkLines w (h - k) ≤ h - k := by unfold chunkLines; omega
      have hc0 : 0 < chunkLines w (h - k) := by unfold chunkLines; omega
      have hoff : lineOffset ⟨r, r.width, rectCells c.screen r.left r.top w k ++ old ++ tail⟩
          (r.top + k) = some ((k * w : Nat) : Int) := by
        unfold lineOffset
        simp only
        rw [if_neg (by omega), a.width, show r.top + (k : Int) - r.top = k from by omega,
          Int.natCast_mul]
      have hnext : (subReadArea r (r.top + k)).bottom + 1 =
          r.top + ((k + chunkLines w (h - k) : Nat) : Int) := by
        rw [(subReadArea_eq a k hlt).1]
        simp only
        omega
      rw [chunkLoop_step c r _ _ _ (by omega) _ hoff _ (read_chunk c hlim a tail old k hlt hold),
        hnext]
      refine ih (k + chunkLines w (h - k)) (old.drop (w * chunkLines w (h - k))) (by omega)
        (by omega) ?_
      rw [List.length_drop, hold, ← Nat.mul_sub]
      congr 1
      omega

/-- What the buffer contains after a read. -/
theorem largeConsoleRead_spec (out : Buf) (c : Console) (mask : Nat) {r : Rect} {w h : Nat}
    (a : Area r w h) (hlim : 2500 ≤ c.oldLimit) :
    largeConsoleRead out c r mask = some ⟨r, w,
      maskCells mask (w * h) (rectCells c.screen r.left r.top w h ++ out.data.drop (w * h))⟩ := by
  have h1 := a.left
  have h2 := a.top
  have h3 := a.right
  have h4 := a.bottom
  have h5 := a.wpos
  have h6 := a.hpos
  have h7 := a.wmax
  have hcount : (r.width * r.height).toNat = w * h := by
    rw [a.width, a.height, ← Int.natCast_mul]; exact Int.toNat_natCast _
  have hnn : ¬ r.width * r.height < 0 := by
    rw [a.width, a.height, ← Int.natCast_mul]; omega
  unfold largeConsoleRead
  rw [if_pos ⟨by omega, by omega, by omega, by omega, by rw [a.width]; unfold maxConsoleWidth; omega⟩,
    if_neg hnn, hcount]
  -- the resized array
  obtain ⟨old, hold, htail⟩ : ∃ old : List Cell, old.length = w * h ∧
      out.data ++ List.replicate (w * h - out.data.length) ⟨0, 0⟩ =
        old ++ out.data.drop (w * h) := by
    refine ⟨(out.data ++ List.replicate (w * h - out.data.length) (⟨0, 0⟩ : Cell)).take (w * h), ?_, ?_⟩
    · simp only [List.length_take, List.length_append, List.length_replicate]; omega
    · by_cases hle : w * h ≤ out.data.length
      · have : w * h - out.data.length = 0 := by omega
        rw [this]
        simp
      · rw [List.drop_of_length_le (by omega), List.append_nil, List.take_of_length_le]
        simp only [List.length_append, List.length_replicate]; omega
  rw [htail]
  cases hw8 : c.isAtLeastWindows8 with
  | true =>
    simp only [if_true]
    have : read c r (old ++ out.data.drop (w * h)) 0 =
        some (rectCells c.screen r.left r.top w h ++ out.data.drop (w * h)) := by
      unfold read
      simp only [Rect.size, a.width, a.height]
      rw [if_neg, if_neg (by simp [hw8])]
      · simp only [Int.toNat_natCast, Int.toNat_zero, List.take_zero, List.nil_append, Nat.zero_add]
        rw [List.drop_append, List.drop_of_length_le (by omega)]
        simp [hold]
      · rw [← Int.natCast_mul]
        simp only [List.length_append, hold]
        omega
    rw [this]
    simp only [a.width]
  | false =>
    simp only [Bool.false_eq_true, if_false]
    have hf : (r.bottom + 1 - r.top).toNat = h := by omega
    rw [hf]
    have hd := chunkLoop_spec c hlim a (out.data.drop (w * h)) h 0 old (by omega)
      (by omega) (by simpa using hold)
    rw [show r.top + ((0 : Nat) : Int) = r.top from by omega] at hd
    simp only [rectCells, List.nil_append] at hd
    rw [hd]
    simp only [a.width]

end Winpty.LargeRead

namespace Winpty.Props

open Winpty.SmallRect Winpty.LargeRead
open Winpty.ConsoleLine (Cell)

/-- A rectangle the reader accepts: not empty, inside the first quadrant of 16-bit coordinates, at
most 2500 columns wide (and not reaching the very last representable row). -/
def Readable (r : Rect) : Prop :=
  0 ≤ r.left ∧ 0 ≤ r.top ∧ r.left ≤ r.right ∧ r.top ≤ r.bottom ∧
  r.right - r.left + 1 ≤ 2500 ∧ r.right ≤ 32767 ∧ r.bottom ≤ 32766

theorem Readable.area {r : Rect} (h : Readable r) :
    Area r (r.right - r.left + 1).toNat (r.bottom - r.top + 1).toNat := by
  obtain ⟨h1, h2, h3, h4, h5, h6, h7⟩ := h
  constructor <;> omega

/-- C24.  After reading a rectangle (however the transfer is split), every cell of the rectangle is
found in the line of its row at the position of its column, with the requested attribute bits. -/
theorem C24_cells_in_place (out : Buf) (c : Console) (r : Rect) (mask : Nat) (hr : Readable r)
    (hlim : 2500 ≤ c.oldLimit) (x y : Int) (hx : r.left ≤ x ∧ x ≤ r.right)
    (hy : r.top ≤ y ∧ y ≤ r.bottom) :
    ∃ out' line, largeConsoleRead out c r mask = some out' ∧ lineData out' y = some line ∧
      line[(x - r.left).toNat]? = some
        { c.screen x y with
          attr := if mask = 0xFFFF then (c.screen x y).attr
            else Nat.land (c.screen x y).attr mask } := by
  have a := hr.area
  obtain ⟨h1, h2, h3, h4, h5, h6, h7⟩ := hr
  have hspec := largeConsoleRead_spec out c mask a hlim
  generalize hw : (r.right - r.left + 1).toNat = w at *
  generalize hh : (r.bottom - r.top + 1).toNat = h at *
  generalize hi : (y - r.top).toNat = i at *
  generalize hj : (x - r.left).toNat = j at *
  have hi' : i < h := by omega
  have hj' : j < w := by omega
  have hxe : r.left + (j : Int) = x := by omega
  have hye : r.top + (i : Int) = y := by omega
  have hidx : w * i + j < w * h := by
    calc w * i + j < w * i + w := by omega
      _ = w * (i + 1) := by rw [Nat.mul_succ]
      _ ≤ w * h := Nat.mul_le_mul_left _ (by omega)
  have hget : (rectCells c.screen r.left r.top w h ++ out.data.drop (w * h))[w * i + j]? =
      some (c.screen x y) := by
    rw [List.getElem?_append_left (by rw [rectCells_length]; omega),
      rectCells_get _ _ _ _ _ _ _ hi' hj', hxe, hye]
  refine ⟨_, (maskCells mask (w * h)
      (rectCells c.screen r.left r.top w h ++ out.data.drop (w * h))).drop (w * i), hspec, ?_, ?_⟩
  · unfold lineData lineOffset
    simp only
    rw [if_neg (by omega)]
    simp only
    congr 2
    have : (y - r.top) * (w : Int) = ((w * i : Nat) : Int) := by
      rw [show y - r.top = (i : Int) from by omega, ← Int.natCast_mul, Nat.mul_comm]
    rw [this]; exact Int.toNat_natCast _
  · rw [List.getElem?_drop]
    unfold maskCells
    by_cases hm : mask = 0xFFFF
    · rw [if_neg (by simp [hm]), hget, if_pos hm]
    · rw [if_pos hm, List.getElem?_append_left, List.getElem?_map, List.getElem?_take_of_lt hidx,
        hget, if_neg hm]
      · rfl
      · simp only [List.length_map, List.length_take, List.length_append, rectCells_length]
        omega

/-- C24.  The chunked read gives exactly what one big read gives. -/
theorem C24_chunks_equal_one_read (out : Buf) (c c' : Console) (r : Rect) (mask : Nat)
    (hr : Readable r) (hlim : 2500 ≤ c.oldLimit) (_hold : c.isAtLeastWindows8 = false)
    (hnew : c'.isAtLeastWindows8 = true) (hs : c'.screen = c.screen) :
    largeConsoleRead out c r mask = largeConsoleRead out c' r mask := by
  obtain ⟨scr, w8, lim⟩ := c'
  simp only at hnew hs
  subst hnew hs
  have e : largeConsoleRead out ⟨c.screen, true, lim⟩ r mask =
      largeConsoleRead out ⟨c.screen, true, 2500⟩ r mask := by
    have hread : ∀ d o, LargeRead.read ⟨c.screen, true, lim⟩ r d o =
        LargeRead.read ⟨c.screen, true, 2500⟩ r d o := by
      intro d o; unfold LargeRead.read; simp
    unfold largeConsoleRead
    simp only [if_true, hread]
  rw [e, largeConsoleRead_spec out c mask hr.area hlim,
    largeConsoleRead_spec out ⟨c.screen, true, 2500⟩ mask hr.area (Nat.le_refl _)]

/-- C24.  No line outside the rectangle can be obtained. -/
theorem C24_no_other_lines (b : Buf) (y : Int) (h : y < b.rect.top ∨ b.rect.bottom < y) :
    lineData b y = none := by
  unfold lineData lineOffset
  rw [if_pos h]

/-- A screen whose cells all differ. -/
def demoScreen : Console := ⟨fun x y => ⟨(x + 3 * y).toNat, 0x107⟩, false, 2500⟩

example : Readable ⟨1, 10, 2, 12⟩ := by unfold Readable; decide
-- two columns, three rows, chunked; the mask drops the 0x100 bit
example : (largeConsoleRead Buf.init demoScreen ⟨1, 10, 2, 12⟩ 0xFF).map (fun b => b.data) =
    some [⟨31, 7⟩, ⟨32, 7⟩, ⟨34, 7⟩, ⟨35, 7⟩, ⟨37, 7⟩, ⟨38, 7⟩] := by decide
example : (largeConsoleRead Buf.init { demoScreen with isAtLeastWindows8 := true } ⟨1, 10, 2, 12⟩
    0xFFFF).map (fun b => b.data) =
    some [⟨31, 0x107⟩, ⟨32, 0x107⟩, ⟨34, 0x107⟩, ⟨35, 0x107⟩, ⟨37, 0x107⟩, ⟨38, 0x107⟩] := by decide

/-- Why the chunks matter: a single read of two rows of 2500 cells is beyond what old versions of
Windows can transfer, and would leave the buffer unread. -/
theorem C24_single_read_would_fail :
    ∃ (c : Console) (r : Rect) (d : List Cell), c.isAtLeastWindows8 = false ∧ Readable r ∧
      d.length = 2500 * 2 ∧ LargeRead.read c r d 0 = some d := by
  refine ⟨demoScreen, ⟨0, 0, 2499, 1⟩, List.replicate 5000 ⟨0, 0⟩, rfl, ?_, List.length_replicate, ?_⟩
  · unfold Readable; decide
  · unfold LargeRead.read
    rw [List.length_replicate, if_neg (by decide), if_pos (by decide)]

end Winpty.Props
