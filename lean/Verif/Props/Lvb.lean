/-
C21, the reverse-video and underscore flags: the agent reads a cell's attributes as the console
shows them, whatever the code page and the output mode are.
-/
import Verif.Spec.Lvb
import Verif.Model.Scraper
import Verif.Props.LargeConsoleRead
import Verif.Props.Terminal

namespace Winpty.Props

open Winpty.LargeRead (Buf Console largeConsoleRead lineData)
open Winpty.SmallRect (Rect)
open Winpty.Scraper (Sys attributesMask)
open Winpty.Terminal Winpty.Spec Winpty.Spec.Vt Winpty.Spec.Screen
open Winpty.Spec.Lvb

private theorem land_ne_zero_pow (m k : Nat) : Nat.land m (2 ^ k) ≠ 0 ↔ m.testBit k = true := by
  show m &&& 2 ^ k ≠ 0 ↔ _
  constructor
  · intro h
    cases hb : m.testBit k with
    | true => rfl
    | false =>
      exfalso; apply h
      apply Nat.eq_of_testBit_eq
      intro i
      rw [Nat.testBit_and, Nat.testBit_two_pow, Nat.zero_testBit]
      by_cases hi : k = i
      · subst hi; simp [hb]
      · simp [hi]
  · intro h h0
    have := congrArg (fun n => n.testBit k) h0
    simp [Nat.testBit_and, Nat.testBit_two_pow, h] at this

private theorem honours_iff (cp mode : Nat) :
    (cp = 932 ∨ cp = 936 ∨ cp = 949 ∨ cp = 950 ∨ Nat.land mode 0x10 ≠ 0 ∨ Nat.land mode 0x4 ≠ 0) ↔
      HonoursUnderscore cp mode := by
  unfold HonoursUnderscore eastAsianPages
  simp only [List.mem_cons, List.not_mem_nil, or_false]
  rw [← land_ne_zero_pow mode 4, ← land_ne_zero_pow mode 2]
  constructor
  · rintro (h | h | h | h | h | h) <;> simp_all
  · rintro ((h | h | h | h) | h | h) <;> simp_all

private theorem mask_honoured (sys : Sys) (cp mode : Nat) (h : HonoursUnderscore cp mode) :
    attributesMask sys cp mode = 0xFFFF := by
  have h' := (honours_iff cp mode).2 h
  have h2 : cp = 932 ∨ cp = 936 ∨ cp = 949 ∨ cp = 950 ∨ Nat.land mode 0x10 ≠ 0 ∨
      Nat.land mode 0x4 ≠ 0 ∨ sys.isNewW10 = true := by
    rcases h' with h | h | h | h | h | h
    · exact .inl h
    · exact .inr (.inl h)
    · exact .inr (.inr (.inl h))
    · exact .inr (.inr (.inr (.inl h)))
    · exact .inr (.inr (.inr (.inr (.inl h))))
    · exact .inr (.inr (.inr (.inr (.inr (.inl h)))))
  unfold attributesMask
  rw [if_pos h2, if_pos h']
  decide

private theorem mask_new (sys : Sys) (cp mode : Nat) (h : ¬ HonoursUnderscore cp mode)
    (hn : sys.isNewW10 = true) : attributesMask sys cp mode = 0x7FFF := by
  have h' := fun x => h ((honours_iff cp mode).1 x)
  have h2 : cp = 932 ∨ cp = 936 ∨ cp = 949 ∨ cp = 950 ∨ Nat.land mode 0x10 ≠ 0 ∨
      Nat.land mode 0x4 ≠ 0 ∨ sys.isNewW10 = true := by simp [hn]
  unfold attributesMask
  rw [if_pos h2, if_neg h']
  decide

private theorem mask_old (sys : Sys) (cp mode : Nat) (h : ¬ HonoursUnderscore cp mode)
    (hn : ¬ sys.isNewW10 = true) : attributesMask sys cp mode = 0x3FFF := by
  have h' := fun x => h ((honours_iff cp mode).1 x)
  have h2 : ¬ (cp = 932 ∨ cp = 936 ∨ cp = 949 ∨ cp = 950 ∨ Nat.land mode 0x10 ≠ 0 ∨
      Nat.land mode 0x4 ≠ 0 ∨ sys.isNewW10 = true) := by
    rintro (h | h | h | h | h | h | h)
    · exact h' (by simp [h])
    · exact h' (by simp [h])
    · exact h' (by simp [h])
    · exact h' (by simp [h])
    · exact h' (.inr (.inr (.inr (.inr (.inl h)))))
    · exact h' (.inr (.inr (.inr (.inr (.inr h)))))
    · exact hn h
  unfold attributesMask
  rw [if_neg h2, if_neg h']
  decide

private theorem asShown (sys : Sys) (cp mode attr : Nat) (ha : attr < 65536) :
    AsShown cp mode sys.isNewW10 attr
      (if attributesMask sys cp mode = 0xFFFF then attr
        else Nat.land attr (attributesMask sys cp mode)) := by
  have big : ∀ i, 16 ≤ i → attr.testBit i = false := fun i hi =>
    Nat.testBit_lt_two_pow (Nat.lt_of_lt_of_le ha (Nat.pow_le_pow_right (n := 2) (by decide) hi))
  have lnd : ∀ m i, (Nat.land attr m).testBit i = (attr.testBit i && m.testBit i) :=
    fun m i => Nat.testBit_and attr m i
  by_cases h : HonoursUnderscore cp mode
  · rw [mask_honoured sys cp mode h, if_pos rfl]
    exact ⟨fun _ _ => rfl, by simp [HonoursReverse, h], by simp [h], big⟩
  · by_cases hn : sys.isNewW10 = true
    · rw [mask_new sys cp mode h hn, if_neg (by decide)]
      refine ⟨fun i hi => ?_, ?_, ?_, fun i hi => ?_⟩
      · rw [lnd, show 0x7FFF = 2 ^ 15 - 1 from rfl, Nat.testBit_two_pow_sub_one]
        simp; omega
      · rw [lnd, show 0x7FFF = 2 ^ 15 - 1 from rfl, Nat.testBit_two_pow_sub_one]
        simp [HonoursReverse, hn]
      · rw [lnd, show 0x7FFF = 2 ^ 15 - 1 from rfl, Nat.testBit_two_pow_sub_one]
        simp [h]
      · rw [lnd, big i hi]; rfl
    · rw [mask_old sys cp mode h hn, if_neg (by decide)]
      refine ⟨fun i hi => ?_, ?_, ?_, fun i hi => ?_⟩
      · rw [lnd, show 0x3FFF = 2 ^ 14 - 1 from rfl, Nat.testBit_two_pow_sub_one]
        simp; omega
      · rw [lnd, show 0x3FFF = 2 ^ 14 - 1 from rfl, Nat.testBit_two_pow_sub_one]
        simp [HonoursReverse, hn, h]
      · rw [lnd, show 0x3FFF = 2 ^ 14 - 1 from rfl, Nat.testBit_two_pow_sub_one]
        simp [h]
      · rw [lnd, big i hi]; rfl

/-- C21, reading: whatever the console's output code page and mode are, every cell of a rectangle
the agent reads comes with its character and with its attribute word as the console itself shows
it: the reverse-video and underscore flags are dropped exactly where the console ignores them. -/
theorem C21_flags_read (sys : Sys) (cp mode : Nat) (out : Buf) (c : Console) (r : Rect)
    (hr : Readable r) (hlim : 2500 ≤ c.oldLimit) (x y : Int) (hx : r.left ≤ x ∧ x ≤ r.right)
    (hy : r.top ≤ y ∧ y ≤ r.bottom) (hword : (c.screen x y).attr < 65536) :
    ∃ out' line cell, largeConsoleRead out c r (attributesMask sys cp mode) = some out' ∧
      lineData out' y = some line ∧ line[(x - r.left).toNat]? = some cell ∧
      cell.ch = (c.screen x y).ch ∧
      AsShown cp mode sys.isNewW10 (c.screen x y).attr cell.attr := by
  obtain ⟨out', line, h1, h2, h3⟩ :=
    C24_cells_in_place out c r (attributesMask sys cp mode) hr hlim x y hx hy
  exact ⟨out', line, _, h1, h2, h3, rfl, asShown sys cp mode _ hword⟩

/-- C21, reading and rendering: after the colour sequence for a cell read in this way the terminal
underlines text exactly if the cell asks for it and the console honours that, and it exchanges the
two colours exactly if the cell asks for reverse video and the console honours that. -/
theorem C21_flags_shown (sys : Sys) (cp mode : Nat) (out : Buf) (c : Console) (r : Rect)
    (hr : Readable r) (hlim : 2500 ≤ c.oldLimit) (x y : Int) (hx : r.left ≤ x ∧ x ≤ r.right)
    (hy : r.top ≤ y ∧ y ≤ r.bottom) (hword : (c.screen x y).attr < 65536)
    (cfg : Cfg) (e : Emu) (he : e.parse = .ground) :
    ∃ out' line cell g, largeConsoleRead out c r (attributesMask sys cp mode) = some out' ∧
      lineData out' y = some line ∧ line[(x - r.left).toNat]? = some cell ∧
      feed cfg e (outputSetColor (cell.attr &&& colorAttributeMask)) = { e with gfx := g } ∧
      Renders g cell.attr ∧
      (g.underline = true ↔
        (c.screen x y).attr.testBit 15 = true ∧ HonoursUnderscore cp mode) ∧
      ((c.screen x y).attr.testBit 14 = true ∧ HonoursReverse cp mode sys.isNewW10 →
        wantFore cell.attr = attrBack (c.screen x y).attr ∧
        wantBack cell.attr = attrFore (c.screen x y).attr) ∧
      (¬ ((c.screen x y).attr.testBit 14 = true ∧ HonoursReverse cp mode sys.isNewW10) →
        wantFore cell.attr = attrFore (c.screen x y).attr ∧
        wantBack cell.attr = attrBack (c.screen x y).attr) := by
  obtain ⟨out', line, cell, h1, h2, h3, _, h5⟩ :=
    C21_flags_read sys cp mode out c r hr hlim x y hx hy hword
  obtain ⟨g, g1, g2⟩ := C21_colours cfg e he cell.attr
  obtain ⟨lo, b14, b15, _⟩ := h5
  have hf : attrFore cell.attr = attrFore (c.screen x y).attr := by
    unfold attrFore
    rw [lo 0 (by decide), lo 1 (by decide), lo 2 (by decide), lo 3 (by decide)]
  have hb : attrBack cell.attr = attrBack (c.screen x y).attr := by
    unfold attrBack
    rw [lo 4 (by decide), lo 5 (by decide), lo 6 (by decide), lo 7 (by decide)]
  refine ⟨out', line, cell, g, h1, h2, h3, g1, g2, ?_, fun hrev => ?_, fun hrev => ?_⟩
  · rw [g2.2.2.2.1]; exact b15
  · have := b14.2 hrev
    unfold wantFore wantBack
    rw [if_pos this, if_pos this]
    exact ⟨hb, hf⟩
  · have h14 : ¬ cell.attr.testBit 14 = true := fun h => hrev (b14.1 h)
    unfold wantFore wantBack
    rw [if_neg h14, if_neg h14]
    exact ⟨hf, hb⟩

/-- Non-vacuity: a console with both flags set in every cell, in code page 437 and 932. -/
def flaggedConsole : Console := ⟨fun _ _ => ⟨0x41, 0xC01F⟩, true, 2500⟩

example : (flaggedConsole.screen 3 2).attr < 65536 ∧ 2500 ≤ flaggedConsole.oldLimit ∧
    Readable ⟨0, 0, 7, 3⟩ ∧ HonoursUnderscore 932 0 ∧ ¬ HonoursUnderscore 437 3 ∧
    HonoursReverse 437 3 true ∧ HonoursUnderscore 437 7 ∧
    (flaggedConsole.screen 3 2).attr.testBit 15 = true := by
  refine ⟨by decide, by decide, ⟨by decide, by decide, by decide, by decide, by decide, by decide, by decide⟩,
    .inl (by decide), ?_, .inr rfl, .inr (.inr (by decide)), by decide⟩
  rintro (h | h | h) <;> revert h <;> decide

end Winpty.Props
