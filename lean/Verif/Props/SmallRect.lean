import Verif.Model.SmallRect

/-! # C47: console rectangle operations are set operations -/
namespace Winpty.Spec.Rect

open Winpty.SmallRect

/-- The set of cells (column, row) a rectangle denotes: its corners are inclusive. -/
def Covers (r : Rect) (x y : Int) : Prop := r.left ≤ x ∧ x ≤ r.right ∧ r.top ≤ y ∧ y ≤ r.bottom

/-- A 16-bit signed value. -/
def IsShort (i : Int) : Prop := -32768 ≤ i ∧ i ≤ 32767

/-- A rectangle whose corners are 16-bit signed values, as every `SMALL_RECT` has. -/
def IsRect (r : Rect) : Prop := IsShort r.left ∧ IsShort r.top ∧ IsShort r.right ∧ IsShort r.bottom

/-- A rectangle covering at least one cell. -/
def Nonempty (r : Rect) : Prop := r.left ≤ r.right ∧ r.top ≤ r.bottom

end Winpty.Spec.Rect

namespace Winpty.SmallRect

open Winpty.Spec.Rect

theorem short_range (i : Int) : IsShort (short i) := by
  unfold short IsShort; omega

theorem short_id (i : Int) (h : IsShort i) : short i = i := by
  unfold IsShort at h; unfold short; omega

end Winpty.SmallRect

namespace Winpty.Props

open Winpty.SmallRect Winpty.Spec.Rect

/-- C47.  A cell is in the intersection exactly when it is in both rectangles, for all rectangles
with 16-bit corners (even empty ones, and ones wider than a `SHORT` can count). -/
theorem C47_intersection (a b : Rect) (ha : IsRect a) (hb : IsRect b) (x y : Int) :
    Covers (a.intersected b) x y ↔ Covers a x y ∧ Covers b x y := by
  obtain ⟨⟨_, _⟩, ⟨_, _⟩, ⟨_, _⟩, ⟨_, _⟩⟩ := ha
  obtain ⟨⟨_, _⟩, ⟨_, _⟩, ⟨_, _⟩, ⟨_, _⟩⟩ := hb
  simp only [Covers, Rect.intersected, mk4, short]
  omega

/-- C47.  Containment of a cell is membership. -/
theorem C47_contains_cell (r : Rect) (c : Coord) :
    r.containsCoord c = true ↔ Covers r c.x c.y := by
  simp only [Rect.containsCoord, Covers, Bool.and_eq_true, decide_eq_true_eq]
  omega

/-- C47.  Containment of a nonempty rectangle is the subset relation. -/
theorem C47_contains_rect (r s : Rect) (hs : Nonempty s) :
    r.containsRect s = true ↔ ∀ x y, Covers s x y → Covers r x y := by
  obtain ⟨h1, h2⟩ := hs
  simp only [Rect.containsRect, Covers, Bool.and_eq_true, decide_eq_true_eq]
  constructor
  · intro _ x y _; omega
  · intro h
    have := h s.left s.top (by omega)
    have := h s.right s.bottom (by omega)
    omega

/-- C47.  A rectangle made from a position and a size covers exactly the cells from the position on,
as many as the size says. -/
theorem C47_construct (x y w h : Int) (hx : IsShort x) (hy : IsShort y)
    (hw : 0 ≤ w) (hh : 0 ≤ h) (hxw : x + w ≤ 32768) (hyh : y + h ≤ 32768)
    (hx0 : -32768 < x ∨ 0 < w) (hy0 : -32768 < y ∨ 0 < h) (cx cy : Int) :
    Covers (mk4 x y w h) cx cy ↔ (x ≤ cx ∧ cx < x + w ∧ y ≤ cy ∧ cy < y + h) := by
  obtain ⟨_, _⟩ := hx
  obtain ⟨_, _⟩ := hy
  simp only [Covers, mk4, short]
  omega

/-- C47.  Width and height count the columns and rows. -/
theorem C47_size (r : Rect) (hr : Nonempty r) (hw : r.right - r.left < 32767)
    (hh : r.bottom - r.top < 32767) :
    r.width = r.right - r.left + 1 ∧ r.height = r.bottom - r.top + 1 := by
  obtain ⟨_, _⟩ := hr
  simp only [Rect.width, Rect.height, short]
  omega

/-- C47.  A rectangle made from a corner and a size covers exactly the cells from that corner on. -/
theorem C47_construct_at (corner size : Coord) (hw : 0 ≤ size.x) (hh : 0 ≤ size.y)
    (hx : -32768 < corner.x) (hy : -32768 < corner.y)
    (hxw : corner.x + size.x ≤ 32768) (hyh : corner.y + size.y ≤ 32768) (cx cy : Int) :
    Covers (mk2 corner size) cx cy ↔
      (corner.x ≤ cx ∧ cx < corner.x + size.x ∧ corner.y ≤ cy ∧ cy < corner.y + size.y) := by
  simp only [Covers, mk2, short]
  omega

example : Covers (mk2 ⟨3, 4⟩ ⟨2, 1⟩) 4 4 ∧ ¬ Covers (mk2 ⟨3, 4⟩ ⟨2, 1⟩) 4 5 := by
  simp only [Covers, mk2, short]; omega

/-- C47.  Moving a nonempty rectangle so that it includes a line: the result includes the line, the
rectangle is only moved vertically (same columns, same number of rows), it is not moved at all if it
included the line already, and otherwise the line becomes its nearest edge (so it is moved no
further than necessary). -/
theorem C47_ensure_line (r : Rect) (hr : IsRect r) (hn : Nonempty r) (line : Int)
    (hl : IsShort line) :
    let m := r.ensureLineIncluded line
    IsRect m ∧ m.top ≤ line ∧ line ≤ m.bottom ∧
    m.left = r.left ∧ m.right = r.right ∧ m.bottom - m.top = r.bottom - r.top ∧
    (r.top ≤ line → line ≤ r.bottom → m = r) ∧
    (line < r.top → m.top = line) ∧ (r.bottom < line → m.bottom = line) := by
  obtain ⟨⟨_, _⟩, ⟨_, _⟩, ⟨_, _⟩, ⟨_, _⟩⟩ := hr
  obtain ⟨_, _⟩ := hn
  obtain ⟨_, _⟩ := hl
  intro m
  by_cases h1 : line < r.top
  · have hm : m = mk4 r.left line r.width r.height := if_pos h1
    rw [hm]
    simp only [mk4, Rect.width, Rect.height, short, IsRect, IsShort]
    refine ⟨?_, ?_, ?_, ?_, ?_, ?_, ?_, ?_, ?_⟩ <;> first | omega | (intro _; omega) | (intro _ _; omega)
  · by_cases h2 : line > r.bottom
    · have hm : m = mk4 r.left (line - r.height + 1) r.width r.height := by
        show (if _ then _ else _) = _
        rw [if_neg h1, if_pos h2]
      rw [hm]
      simp only [mk4, Rect.width, Rect.height, short, IsRect, IsShort]
      refine ⟨?_, ?_, ?_, ?_, ?_, ?_, ?_, ?_, ?_⟩ <;>
        first | omega | (intro _; omega) | (intro _ _; omega)
    · have hm : m = r := by
        show (if _ then _ else _) = _
        rw [if_neg h1, if_neg h2]
      rw [hm]
      simp only [IsRect, IsShort]
      refine ⟨?_, ?_, ?_, ?_, ?_, ?_, ?_, ?_, ?_⟩ <;>
        first | trivial | omega | (intro _; omega) | (intro _ _; trivial)

/-- C47.  Setting the left edge or the top of a rectangle moves only that edge; setting its width or
height makes it that wide or high. -/
theorem C47_set (r : Rect) (hr : IsRect r) (v : Int) (hv : IsShort v) :
    (r.setLeft v = { r with left := v } ∧ r.setTop v = { r with top := v }) ∧
    (0 < v → r.left + v ≤ 32768 → (r.setWidth v).right - (r.setWidth v).left + 1 = v ∧
      (r.setWidth v).left = r.left) ∧
    (0 < v → r.top + v ≤ 32768 → (r.setHeight v).bottom - (r.setHeight v).top + 1 = v ∧
      (r.setHeight v).top = r.top) := by
  obtain ⟨⟨_, _⟩, ⟨_, _⟩, ⟨_, _⟩, ⟨_, _⟩⟩ := hr
  obtain ⟨h1, h2⟩ := id hv
  refine ⟨?_, ?_, ?_⟩
  · simp only [Rect.setLeft, Rect.setTop, short_id v hv, and_self]
  · intro _ _
    refine ⟨?_, rfl⟩
    simp only [Rect.setWidth, short]
    omega
  · intro _ _
    refine ⟨?_, rfl⟩
    simp only [Rect.setHeight, short]
    omega

-- overlapping, touching and disjoint rectangles; a rectangle over the full range
example : (mk4 0 0 10 5).intersected (mk4 8 3 10 10) = mk4 8 3 2 2 := by decide
example : (mk4 0 0 10 5).intersected (mk4 20 3 10 10) = ⟨20, 3, 19, 4⟩ := by decide
example : (Rect.mk (-32768) (-32768) 32767 32767).intersected ⟨-32768, 0, 32767, 9⟩ =
    ⟨-32768, 0, 32767, 9⟩ := by decide
example : (mk4 0 10 80 25).ensureLineIncluded 100 = mk4 0 76 80 25 := by decide
example : IsRect (mk4 0 10 80 25) ∧ Nonempty (mk4 0 10 80 25) := by
  simp [IsRect, IsShort, Spec.Rect.Nonempty, mk4, short]

/-- The containment test is not the subset relation for an empty argument: it then looks at the
coordinates of rectangles that cover no cell. -/
theorem C47_contains_empty :
    ∃ r s : Rect, (∀ x y, Covers s x y → Covers r x y) ∧ r.containsRect s = false := by
  refine ⟨mk4 0 0 5 5, mk4 7 7 0 0, ?_, by decide⟩
  intro x y h
  simp only [Covers, mk4, short] at h
  omega

end Winpty.Props
