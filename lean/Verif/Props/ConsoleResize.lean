import Verif.Spec.ConsoleApi

/-!
# C68: what size the console ends up with
-/
namespace Winpty.ConsoleResize

open Winpty.SmallRect
open Winpty.Scraper
open Winpty.Spec.ConsoleApi

/-! ## Lemmas -/

theorem clearBufferLoop_same : ∀ (n : Nat) (s s' : S) (row : Int), clearBufferLoop s row n = some s' →
    s'.ptySize = s.ptySize ∧ s'.dirtyLineCount = s.dirtyLineCount ∧ s'.directMode = s.directMode := by
  intro n
  induction n with
  | zero => intro s s' row h; simp only [clearBufferLoop, Option.some.injEq] at h; subst h; exact ⟨rfl, rfl, rfl⟩
  | succ n ih =>
    intro s s' row h
    simp only [clearBufferLoop] at h
    split at h
    · cases h
    · have := ih _ _ _ h
      exact this

theorem prepareResize_same {s s1 : S} {c c1 : Con} {o : Info} (h : prepareResize s c o = some (s1, c1)) :
    s1.ptySize = s.ptySize ∧ s1.dirtyLineCount = s.dirtyLineCount ∧ s1.directMode = s.directMode ∧
    c1.info = c.info := by
  unfold prepareResize at h
  split at h
  · simp only [Option.some.injEq, Prod.mk.injEq] at h
    obtain ⟨h1, h2⟩ := h
    subst h1; subst h2
    exact ⟨rfl, rfl, rfl, rfl⟩
  · split at h
    · cases h
    · rename_i s2 hs2
      simp only [clearBufferLines] at hs2
      split at hs2
      · cases hs2
      · obtain ⟨e1, e2, e3⟩ := clearBufferLoop_same _ _ _ _ hs2
        split at h
        · unfold createSyncMarker at h
          split at h
          · cases h
          · simp only [Option.some.injEq, Prod.mk.injEq] at h
            obtain ⟨h1, h2⟩ := h
            subst h1; subst h2
            exact ⟨e1, e2, e3, rfl⟩
        · simp only [Option.some.injEq, Prod.mk.injEq] at h
          obtain ⟨h1, h2⟩ := h
          subst h1; subst h2
          exact ⟨e1, e2, e3, rfl⟩

/-- The window while the buffer is resized. -/
theorem tmp_spec {i : Info} {cols rows : Int} (hi : Fine i) (hc : 1 ≤ cols) (hr : 1 ≤ rows) :
    Inside (tmpWindowRect i cols rows) i.size ∧
    HasSize (tmpWindowRect i cols rows) (min i.size.x cols) (min i.size.y rows) ∧
    (i.window.top ≤ i.cursor.y → i.cursor.y ≤ i.window.bottom →
      (tmpWindowRect i cols rows).top ≤ i.cursor.y ∧ i.cursor.y ≤ (tmpWindowRect i cols rows).bottom) := by
  obtain ⟨hx, hy, ⟨w1, w2, w3, w4, w5, w6⟩, ⟨c1, c2⟩, ⟨c3, c4⟩⟩ := hi
  have hm : Inside (mk4 0 (min (i.size.y - min i.size.y rows) i.window.top) (min i.size.x cols)
        (min i.size.y rows)) i.size ∧
      HasSize (mk4 0 (min (i.size.y - min i.size.y rows) i.window.top) (min i.size.x cols)
        (min i.size.y rows)) (min i.size.x cols) (min i.size.y rows) := by
    simp only [Inside, HasSize, mk4, short]
    omega
  unfold tmpWindowRect
  generalize mk4 0 (min (i.size.y - min i.size.y rows) i.window.top) (min i.size.x cols)
        (min i.size.y rows) = r at *
  generalize min i.size.x cols = C at *
  generalize min i.size.y rows = R at *
  obtain ⟨⟨h1, h2, h3, h4, h5, h6⟩, h7, h8⟩ := hm
  by_cases hcu : cursorInWindow i = true
  · rw [if_pos hcu]
    simp only [Inside, HasSize, Rect.ensureLineIncluded]
    split
    · simp only [mk4, short, Rect.width, Rect.height]
      omega
    · split
      · simp only [mk4, short, Rect.width, Rect.height]
        omega
      · omega
  · rw [if_neg hcu]
    simp only [cursorInWindow, Bool.and_eq_true, decide_eq_true_eq] at hcu
    refine ⟨⟨h1, h2, h3, h4, h5, h6⟩, ⟨h7, h8⟩, fun g1 g2 => absurd ⟨g1, g2⟩ hcu⟩

/-- The window at the end. -/
theorem final_spec {s : S} {i : Info} {cols rows : Int} (hi : Fine i) (hc : 1 ≤ cols) (hr : 1 ≤ rows)
    (hcx : cols ≤ i.size.x) (hry : rows ≤ i.size.y)
    (hd : s.directMode = false → s.dirtyLineCount ≤ i.size.y) :
    Inside (finalWindowRect s i cols rows) i.size ∧
    HasSize (finalWindowRect s i cols rows) cols rows ∧ (finalWindowRect s i cols rows).left = 0 ∧
    (i.window.top ≤ i.cursor.y → i.cursor.y ≤ i.window.bottom →
      (finalWindowRect s i cols rows).top ≤ i.cursor.y ∧
      i.cursor.y ≤ (finalWindowRect s i cols rows).bottom) ∧
    (s.directMode = false → s.dirtyLineCount ≤ (finalWindowRect s i cols rows).bottom + 1 ∨
      (i.window.top ≤ i.cursor.y ∧ i.cursor.y ≤ i.window.bottom ∧
        (finalWindowRect s i cols rows).top = i.cursor.y)) ∧
    ((s.directMode = false → s.dirtyLineCount ≤ min (i.size.y - rows) i.window.top + rows) →
      (i.window.top ≤ i.cursor.y → i.cursor.y ≤ i.window.bottom →
        i.cursor.y < i.window.top + rows) →
      (finalWindowRect s i cols rows).top = min (i.size.y - rows) i.window.top) := by
  obtain ⟨hx, hy, ⟨w1, w2, w3, w4, w5, w6⟩, ⟨c1, c2⟩, ⟨c3, c4⟩⟩ := hi
  have hm : Inside (wantedWindowRect s i cols rows) i.size ∧
      HasSize (wantedWindowRect s i cols rows) cols rows ∧ (wantedWindowRect s i cols rows).left = 0 ∧
      (s.directMode = false → s.dirtyLineCount ≤ (wantedWindowRect s i cols rows).bottom + 1) ∧
      ((s.directMode = false → s.dirtyLineCount ≤ min (i.size.y - rows) i.window.top + rows) →
        (wantedWindowRect s i cols rows).top = min (i.size.y - rows) i.window.top) := by
    unfold wantedWindowRect
    split
    · rename_i g
      obtain ⟨g1, g2⟩ := g
      have hd1 := hd g1
      simp only [mk4, short] at g2
      simp only [Inside, HasSize, mk4, short, g1, true_implies]
      omega
    · rename_i g
      have hd2 : s.directMode = false → s.dirtyLineCount ≤
          (mk4 0 (min (i.size.y - rows) i.window.top) cols rows).bottom + 1 := by
        intro g1
        by_cases g2 : s.dirtyLineCount > (mk4 0 (min (i.size.y - rows) i.window.top) cols rows).bottom + 1
        · exact absurd ⟨g1, g2⟩ g
        · omega
      refine ⟨?_, ?_, ?_, hd2, fun _ => ?_⟩ <;> (simp only [Inside, HasSize, mk4, short]; omega)
  unfold finalWindowRect
  generalize wantedWindowRect s i cols rows = r at *
  obtain ⟨⟨h1, h2, h3, h4, h5, h6⟩, ⟨h7, h8⟩, h9, h10, h11⟩ := hm
  by_cases hcu : cursorInWindow i = true
  · rw [if_pos hcu]
    simp only [cursorInWindow, Bool.and_eq_true, decide_eq_true_eq] at hcu
    simp only [Inside, HasSize, Rect.ensureLineIncluded]
    split
    · simp only [mk4, short, Rect.width, Rect.height]
      refine ⟨by omega, by omega, by omega, by omega, fun _ => .inr (by omega), fun g1 g2 => ?_⟩
      have := h11 g1
      have := g2 (by omega) (by omega)
      omega
    · split
      · simp only [mk4, short, Rect.width, Rect.height]
        refine ⟨by omega, by omega, by omega, by omega, fun g => .inl ?_, fun g1 g2 => ?_⟩
        · have := h10 g; omega
        · have := h11 g1
          have := g2 (by omega) (by omega)
          omega
      · refine ⟨by omega, by omega, by omega, by omega, fun g => .inl (h10 g), fun g1 _ => h11 g1⟩
  · rw [if_neg hcu]
    simp only [cursorInWindow, Bool.and_eq_true, decide_eq_true_eq] at hcu
    exact ⟨⟨h1, h2, h3, h4, h5, h6⟩, ⟨h7, h8⟩, h9, fun g1 g2 => absurd ⟨g1, g2⟩ hcu,
      fun g => .inl (h10 g), fun g1 _ => h11 g1⟩

/-! ## Setting the size of the buffer -/

theorem tryWider_narrow {api : Api} {minWidth : Int} (ha : Documented api minWidth) (c : Con) (y : Int) :
    ∀ (n : Nat) (x : Int), x + n = minWidth - 1 → ∀ k : Nat,
      tryWider api c x y (n + k) = tryWider api c (minWidth - 1) y k := by
  intro n
  induction n with
  | zero => intro x hx k; rw [Nat.zero_add, show x = minWidth - 1 by omega]
  | succ n ih =>
    intro x hx k
    rw [show n + 1 + k = (n + k) + 1 by omega, tryWider, ha.narrow c ⟨x + 1, y⟩ (show x + 1 < minWidth by omega)]
    simp only [Bool.false_eq_true, if_false]
    exact ih (x + 1) (by omega) k

theorem range_spec {api : Api} {minWidth : Int} (ha : Documented api minWidth) {c : Con} {sz : Coord}
    (hc : Fine c.info) (hm : minWidth ≤ 20 ∨ minWidth ≤ sz.x) (hx : sz.x ≤ 32767) (hy : sz.y ≤ 32767)
    (hw : c.info.window.right - c.info.window.left < sz.x)
    (hh : c.info.window.bottom - c.info.window.top < sz.y) :
    resizeBufferRange api c sz =
      ((api.setSize c ⟨widthFor minWidth sz.x, sz.y⟩).1, some ⟨widthFor minWidth sz.x, sz.y⟩) := by
  unfold resizeBufferRange widthFor
  by_cases h : minWidth ≤ sz.x
  · simp only [(ha.size c sz hc hx hy hw hh h).1, h, if_true]
  · rw [ha.narrow c sz (by omega), if_neg h]
    simp only [Bool.false_eq_true, if_false]
    have h1 : minWidth ≤ 20 := by omega
    obtain ⟨n, hn⟩ : ∃ n : Nat, sz.x + n = minWidth - 1 := ⟨(minWidth - 1 - sz.x).toNat, by omega⟩
    obtain ⟨k, hk⟩ : ∃ k : Nat, (20 - sz.x).toNat = n + (k + 1) := ⟨(20 - minWidth).toNat, by omega⟩
    rw [hk, tryWider_narrow ha c sz.y n sz.x hn (k + 1), tryWider,
      show minWidth - 1 + 1 = minWidth by omega]
    rw [(ha.size c ⟨minWidth, sz.y⟩ hc (show minWidth ≤ 32767 by omega) hy
      (show _ < minWidth by omega) hh (Int.le_refl _)).1]
    simp

theorem tryWider_size (api : Api) : ∀ (n : Nat) (c : Con) (x y : Int) (c' : Con) (sz : Coord),
    tryWider api c x y n = (c', some sz) → sz.y = y ∧ x < sz.x ∧ sz.x ≤ x + n ∧
      ∃ b, api.setSize b sz = (c', true) := by
  intro n
  induction n with
  | zero => intro c x y c' sz h; simp [tryWider] at h
  | succ n ih =>
    intro c x y c' sz h
    rw [tryWider] at h
    split at h
    · rename_i h1
      simp only [Prod.mk.injEq, Option.some.injEq] at h
      obtain ⟨h2, h3⟩ := h
      subst h3
      refine ⟨rfl, by simp only; omega, by simp only; omega, c, ?_⟩
      rw [← h2, ← h1]
    · obtain ⟨h1, h2, h3, h4⟩ := ih _ _ _ _ _ h
      exact ⟨h1, by omega, by omega, h4⟩

end Winpty.ConsoleResize

namespace Winpty.Props

open Winpty.SmallRect
open Winpty.Scraper
open Winpty.ConsoleResize
open Winpty.Spec.ConsoleApi

/-- C68.  Setting the size of the buffer, whatever the console does: if a size was set it is the one
asked for, or a wider one of the same height and at most 20 columns. -/
theorem C68_range (api : Api) (c c' : Con) (size sz : Coord)
    (h : resizeBufferRange api c size = (c', some sz)) :
    (∃ b, api.setSize b sz = (c', true)) ∧
    (sz = size ∨ (sz.y = size.y ∧ size.x < sz.x ∧ sz.x ≤ 20)) := by
  unfold resizeBufferRange at h
  split at h
  · rename_i h1
    simp only [Prod.mk.injEq, Option.some.injEq] at h
    obtain ⟨h2, h3⟩ := h
    subst h3
    exact ⟨⟨c, by rw [← h2, ← h1]⟩, .inl rfl⟩
  · obtain ⟨h1, h2, h3, h4⟩ := tryWider_size api _ _ _ _ _ _ h
    exact ⟨h4, .inr ⟨h1, h2, by omega⟩⟩

/-- C68.  A resize, whatever the console is like, with programs that write meanwhile but leave its
sizes alone.  `b` is the console after its buffer was resized.
* The buffer gets the width asked for (or the smallest possible one, if that is wider), and the height
  of the window if it had no scrollback, else at least the height it had.
* The window gets the size asked for, as far as the monitor allows, and lies in the buffer.
* If the window showed the cursor's row, it still does.
* The window shows the last line that was tracked as written, unless the cursor's row is its first.
* The scraper knows where the window is. -/
theorem C68_resize (api : Api) (minWidth : Int) (m : Meddling) (s s1 : S) (c c1 : Con) (origInfo : Info)
    (ha : Documented api minWidth) (hm : Polite api m) (hmin : minWidth ≤ 20 ∨ minWidth ≤ s.ptySize.x)
    (hc : Fine c.info) (ho : Fine origInfo)
    (hx : 1 ≤ s.ptySize.x ∧ s.ptySize.x ≤ 32767) (hy : 1 ≤ s.ptySize.y ∧ s.ptySize.y ≤ 32767)
    (hd : s.directMode = false → s.dirtyLineCount ≤ origInfo.size.y ∧
      origInfo.window.bottom - origInfo.window.top + 1 ≠ origInfo.size.y)
    (hp : prepareResize s c origInfo = some (s1, c1)) :
    ∃ s' c' b, resizeConsole api m s c origInfo = some (s', c') ∧
      b = beforeExpand api m s1 c1 origInfo ∧
      c'.info.size.x = widthFor minWidth s.ptySize.x ∧
      (origInfo.window.bottom - origInfo.window.top + 1 = origInfo.size.y →
        c'.info.size.y = s.ptySize.y) ∧
      (origInfo.window.bottom - origInfo.window.top + 1 ≠ origInfo.size.y →
        c'.info.size.y = max s.ptySize.y origInfo.size.y) ∧
      Fine c'.info ∧ c'.info.window.left = 0 ∧
      HasSize c'.info.window (min s.ptySize.x (api.largest c').x) (min s.ptySize.y (api.largest c').y) ∧
      c'.screen = b.screen ∧ c'.info.cursor = b.info.cursor ∧
      (b.info.window.top ≤ b.info.cursor.y → b.info.cursor.y ≤ b.info.window.bottom →
        c'.info.window.top ≤ c'.info.cursor.y ∧ c'.info.cursor.y ≤ c'.info.window.bottom) ∧
      (s.directMode = false → s.dirtyLineCount ≤ c'.info.window.bottom + 1 ∨
        c'.info.window.top = c'.info.cursor.y) ∧
      s'.dirtyWindowTop = c'.info.window.top := by
  obtain ⟨e1, e2, e3, e4⟩ := prepareResize_same hp
  have hl1 := ha.largest (m.font c1)
  -- the window is made smaller
  have hf0 := hm.font c1 (by rw [e4]; exact hc)
  obtain ⟨hf1, hs1, hL1⟩ := hm.fine _ (.inl rfl) _ hf0
  have hvc : 1 ≤ visibleCols s1 (api.largest (m.font c1)) ∧
      visibleCols s1 (api.largest (m.font c1)) ≤ s.ptySize.x ∧
      visibleCols s1 (api.largest (m.font c1)) ≤ (api.largest (m.font c1)).x := by
    unfold visibleCols; rw [e1]; omega
  have hvr : 1 ≤ visibleRows s1 (api.largest (m.font c1)) ∧
      visibleRows s1 (api.largest (m.font c1)) ≤ s.ptySize.y ∧
      visibleRows s1 (api.largest (m.font c1)) ≤ (api.largest (m.font c1)).y := by
    unfold visibleRows; rw [e1]; omega
  obtain ⟨ht1, ht2, _⟩ := tmp_spec (cols := visibleCols s1 (api.largest (m.font c1)))
    (rows := visibleRows s1 (api.largest (m.font c1))) hf1 hvc.1 hvr.1
  have hfin : finalBufferSize s1 origInfo =
      ⟨s.ptySize.x, if origInfo.window.bottom - origInfo.window.top + 1 = origInfo.size.y then s.ptySize.y
        else max s.ptySize.y origInfo.size.y⟩ := by
    obtain ⟨_, _, ⟨_, _, _, _, _, _⟩, _, _⟩ := ho
    unfold finalBufferSize Rect.height
    rw [show short (origInfo.window.bottom - origInfo.window.top + 1) =
      origInfo.window.bottom - origInfo.window.top + 1 by unfold short; omega, e1]
  have hres : resizeConsole api m s c origInfo = some
      ({ s1 with dirtyWindowTop := (finalWindowRect s1 (beforeExpand api m s1 c1 origInfo).info
          (visibleCols s1 (api.largest (m.font c1))) (visibleRows s1 (api.largest (m.font c1)))).top },
        afterExpand api m s1 c1 origInfo) := by
    unfold resizeConsole
    simp only [hp, resizeImpl]
    rfl
  refine ⟨_, _, _, hres, rfl, ?_⟩
  generalize hB : beforeExpand api m s1 c1 origInfo = B
  unfold beforeExpand ConsoleResize.beforeShrink at hB
  unfold afterExpand
  rw [show beforeExpand api m s1 c1 origInfo = B from hB]
  generalize hC : visibleCols s1 (api.largest (m.font c1)) = C at *
  generalize hR : visibleRows s1 (api.largest (m.font c1)) = R at *
  have hC' : C = min s.ptySize.x (api.largest (m.font c1)).x := by rw [← hC, visibleCols, e1]
  have hR' : R = min s.ptySize.y (api.largest (m.font c1)).y := by rw [← hR, visibleRows, e1]
  clear hC hR hres
  generalize m.font c1 = F at *
  rw [ha.window (m.untilFrozen F) _ hf1 ht1 (by rw [hL1]; obtain ⟨_, _⟩ := ht2; omega)
    (by rw [hL1]; obtain ⟨_, _⟩ := ht2; omega)] at hB
  have hf2 : Fine { m.untilFrozen F with
      info := { (m.untilFrozen F).info with
        window := tmpWindowRect (m.untilFrozen F).info C R } }.info :=
    ⟨hf1.x, hf1.y, ht1, hf1.cursorX, hf1.cursorY⟩
  have hL2 : api.largest { m.untilFrozen F with
      info := { (m.untilFrozen F).info with
        window := tmpWindowRect (m.untilFrozen F).info C R } } = api.largest F := by
    rw [← ha.window (m.untilFrozen F) _ hf1 ht1 (by rw [hL1]; obtain ⟨_, _⟩ := ht2; omega)
      (by rw [hL1]; obtain ⟨_, _⟩ := ht2; omega), ha.stays, hL1]
  have hT1 : ({ m.untilFrozen F with
      info := { (m.untilFrozen F).info with
        window := tmpWindowRect (m.untilFrozen F).info C R } } : Con).info.window.right -
      ({ m.untilFrozen F with
      info := { (m.untilFrozen F).info with
        window := tmpWindowRect (m.untilFrozen F).info C R } } : Con).info.window.left < s.ptySize.x := by
    obtain ⟨g1, g2⟩ := ht2
    simp only
    omega
  have hT2 : ({ m.untilFrozen F with
      info := { (m.untilFrozen F).info with
        window := tmpWindowRect (m.untilFrozen F).info C R } } : Con).info.window.bottom -
      ({ m.untilFrozen F with
      info := { (m.untilFrozen F).info with
        window := tmpWindowRect (m.untilFrozen F).info C R } } : Con).info.window.top < s.ptySize.y := by
    obtain ⟨g1, g2⟩ := ht2
    simp only
    omega
  generalize { m.untilFrozen F with
      info := { (m.untilFrozen F).info with
        window := tmpWindowRect (m.untilFrozen F).info C R } } = T at *
  clear ht1 ht2 hf1 hs1 hL1
  -- the buffer is resized
  obtain ⟨hf3, ⟨hs3, hs3x, hs3y⟩, hL3⟩ := hm.fine _ (.inr (.inl rfl)) _ hf2
  generalize m.beforeResize T = U at *
  rw [hfin] at hB
  generalize hY : (if origInfo.window.bottom - origInfo.window.top + 1 = origInfo.size.y then s.ptySize.y
        else max s.ptySize.y origInfo.size.y) = Y at *
  have hY1 : s.ptySize.y ≤ Y ∧ Y ≤ 32767 := by
    have := ho.y
    rw [← hY]; split <;> omega
  have hmin' : minWidth ≤ 32767 := by omega
  have hWx : s.ptySize.x ≤ widthFor minWidth s.ptySize.x ∧ widthFor minWidth s.ptySize.x ≤ 32767 ∧
      minWidth ≤ widthFor minWidth s.ptySize.x := by
    unfold widthFor; split <;> omega
  rw [range_spec (sz := ⟨s.ptySize.x, Y⟩) ha hf3 hmin (show s.ptySize.x ≤ 32767 from hx.2) (show Y ≤ 32767 from hY1.2)
    (show _ < s.ptySize.x by omega) (show _ < Y by omega)] at hB
  simp only at hB
  generalize widthFor minWidth s.ptySize.x = W at *
  obtain ⟨_, hz1, hz2, _, _⟩ := ha.size U ⟨W, Y⟩ hf3 hWx.2.1 hY1.2 (show _ < W by omega)
    (show _ < Y by omega) hWx.2.2
  have hL4 := ha.stays' U ⟨W, Y⟩
  generalize (api.setSize U ⟨W, Y⟩).1 = V at *
  obtain ⟨hf5, ⟨hs5, _, _⟩, hL5⟩ := hm.fine _ (.inr (.inr rfl)) _ hz2
  rw [hB] at hf5 hs5 hL5
  rw [hz1] at hs5
  have hLB : api.largest B = api.largest F := by rw [hL5, hL4, hL3, hL2]
  -- the window is expanded
  have hBx : B.info.size.x = W := by rw [hs5]
  have hBy : B.info.size.y = Y := by rw [hs5]
  obtain ⟨k1, k2, k3, k4, k5, _⟩ := final_spec (s := s1) (i := B.info) (cols := C) (rows := R) hf5 hvc.1 hvr.1
    (by omega) (by omega) (by
      intro g
      rw [e3] at g
      obtain ⟨g1, g2⟩ := hd g
      rw [e2, hBy, ← hY, if_neg g2]
      omega)
  have hset := ha.window B _ hf5 k1 (by rw [hLB]; obtain ⟨_, _⟩ := k2; omega)
    (by rw [hLB]; obtain ⟨_, _⟩ := k2; omega)
  have hLast : api.largest (api.setWindow B (finalWindowRect s1 B.info C R)) = api.largest F := by
    rw [ha.stays, hLB]
  rw [hLast, ← hC', ← hR', hset]
  rw [e2, e3] at k5
  refine ⟨hBx, ?_, ?_, ⟨hf5.x, hf5.y, k1, hf5.cursorX, hf5.cursorY⟩, k3, k2, rfl, rfl, k4, ?_, rfl⟩
  · intro g; simp only; rw [hBy, ← hY, if_pos g]
  · intro g; simp only; rw [hBy, ← hY, if_neg g]
  · intro g
    rcases k5 g with h | ⟨_, _, h⟩
    · exact .inl h
    · exact .inr h

/-- C68.  While the window is made smaller so that the buffer can shrink, whatever the console is
like: the window asked for lies in the buffer, is no larger than the window wanted in the end nor than
the new buffer, and if the window showed the cursor's row it still does. -/
theorem C68_shrink (i origInfo : Info) (s : S) (largest : Coord) (hi : Fine i)
    (hx : 1 ≤ s.ptySize.x) (hy : 1 ≤ s.ptySize.y) (hl : 1 ≤ largest.x ∧ 1 ≤ largest.y) :
    ∃ r, r = tmpWindowRect i (visibleCols s largest) (visibleRows s largest) ∧
      Inside r i.size ∧ r.right - r.left < min s.ptySize.x largest.x ∧
      r.bottom - r.top < min s.ptySize.y largest.y ∧
      r.right - r.left < (finalBufferSize s origInfo).x ∧
      r.bottom - r.top < (finalBufferSize s origInfo).y ∧
      (i.window.top ≤ i.cursor.y → i.cursor.y ≤ i.window.bottom →
        r.top ≤ i.cursor.y ∧ i.cursor.y ≤ r.bottom) := by
  have hvc : visibleCols s largest = min s.ptySize.x largest.x := rfl
  have hvr : visibleRows s largest = min s.ptySize.y largest.y := rfl
  obtain ⟨h1, ⟨h2, h3⟩, h4⟩ := tmp_spec (cols := visibleCols s largest) (rows := visibleRows s largest) hi
    (by omega) (by omega)
  refine ⟨_, rfl, h1, by omega, by omega, ?_, ?_, h4⟩
  · simp only [finalBufferSize]; omega
  · simp only [finalBufferSize]; split <;> omega

/-- C68.  A resize moves the window no further than needed: if it fits into the buffer from its first
row on, and shows all that is to be shown, it stays where it is. -/
theorem C68_stays (s : S) (i : Info) (cols rows : Int) (hi : Fine i) (hc : 1 ≤ cols) (hr : 1 ≤ rows)
    (hcx : cols ≤ i.size.x) (hfit : i.window.top + rows ≤ i.size.y)
    (hd : s.directMode = false → s.dirtyLineCount ≤ i.window.top + rows)
    (hcur : i.window.top ≤ i.cursor.y → i.cursor.y ≤ i.window.bottom → i.cursor.y < i.window.top + rows) :
    (finalWindowRect s i cols rows).top = i.window.top := by
  obtain ⟨_, _, ⟨_, _, _, _, _, _⟩, _, _⟩ := id hi
  have h := (final_spec (s := s) hi hc hr hcx (by omega) (fun g => by have := hd g; omega)).2.2.2.2.2
    (fun g => by have := hd g; omega) hcur
  omega

/-- C68.  What the agent makes of the console at the start: the buffer has 3000 rows and the width
asked for (or the smallest possible), the window the size asked for as far as the monitor allows, and
is at the top; the cursor is in the corner, and all is blank. -/
theorem C68_set_up (api : Api) (minWidth : Int) (font : Con → Con) (c : Con) (size : Coord)
    (ha : Documented api minWidth) (hf : Fine c.info → Fine (font c).info) (hc : Fine c.info)
    (hmin : minWidth ≤ 20 ∨ minWidth ≤ size.x) (hx : 1 ≤ size.x ∧ size.x ≤ 32767)
    (hy : 1 ≤ size.y ∧ size.y ≤ 3000) :
    ∃ c', c' = setUp api font c size ∧
      c'.info.size = ⟨widthFor minWidth size.x, 3000⟩ ∧
      (∃ L, 1 ≤ L.x ∧ 1 ≤ L.y ∧ L = api.largest (font c) ∧
        c'.info.window = ⟨0, 0, min size.x L.x - 1, min size.y L.y - 1⟩) ∧
      c'.info.cursor = ⟨0, 0⟩ ∧ Fine c'.info ∧
      ∀ x y, 0 ≤ x → x < c'.info.size.x → 0 ≤ y → y < 3000 → c'.screen x y = ⟨0x20, 7⟩ := by
  refine ⟨_, rfl, ?_⟩
  have hF := hf hc
  have hl := ha.largest (font c)
  unfold setUp
  generalize font c = F at *
  have h11 : mk4 0 0 1 1 = ⟨0, 0, 0, 0⟩ := by decide
  have hin : Inside ⟨0, 0, 0, 0⟩ F.info.size := by
    obtain ⟨_, _, ⟨_, _, _, _, _, _⟩, _, _⟩ := hF
    refine ⟨?_, ?_, ?_, ?_, ?_, ?_⟩ <;> simp only <;> omega
  have hw1 := ha.window F ⟨0, 0, 0, 0⟩ hF hin (by simp only; omega) (by simp only; omega)
  rw [h11]
  have hL1 := ha.stays F ⟨0, 0, 0, 0⟩
  rw [hw1] at hL1 ⊢
  have hf1 : Fine ({ F with info := { F.info with window := ⟨0, 0, 0, 0⟩ } } : Con).info :=
    ⟨hF.x, hF.y, hin, hF.cursorX, hF.cursorY⟩
  have hW : size.x ≤ widthFor minWidth size.x ∧ widthFor minWidth size.x ≤ 32767 ∧
      minWidth ≤ widthFor minWidth size.x := by
    unfold widthFor; split <;> omega
  have hwd : ({ F with info := { F.info with window := ⟨0, 0, 0, 0⟩ } } : Con).info.window.right -
    ({ F with info := { F.info with window := ⟨0, 0, 0, 0⟩ } } : Con).info.window.left = 0 := rfl
  have hwh : ({ F with info := { F.info with window := ⟨0, 0, 0, 0⟩ } } : Con).info.window.bottom -
    ({ F with info := { F.info with window := ⟨0, 0, 0, 0⟩ } } : Con).info.window.top = 0 := rfl
  generalize ({ F with info := { F.info with window := ⟨0, 0, 0, 0⟩ } } : Con) = T at *
  have hrange := range_spec (sz := ⟨size.x, 3000⟩) ha hf1 hmin hx.2 (show (3000 : Int) ≤ 32767 by omega)
    (show _ < size.x by omega) (show _ < (3000 : Int) by omega)
  simp only [bufferLineCount, hrange]
  generalize widthFor minWidth size.x = W at *
  obtain ⟨_, hz1, hz2, _, _⟩ := ha.size T ⟨W, 3000⟩ hf1 hW.2.1 (show (3000 : Int) ≤ 32767 by omega)
    (show _ < W by omega) (show _ < (3000 : Int) by omega) hW.2.2
  have hL4 := ha.stays' T ⟨W, 3000⟩
  generalize (api.setSize T ⟨W, 3000⟩).1 = V at *
  rw [hL1] at hL4
  rw [hL4]
  have hVx : V.info.size.x = W := by rw [hz1]
  have hVy : V.info.size.y = 3000 := by rw [hz1]
  have hr : mk4 0 0 (min size.x (api.largest F).x) (min size.y (api.largest F).y) =
      ⟨0, 0, min size.x (api.largest F).x - 1, min size.y (api.largest F).y - 1⟩ := by
    simp only [mk4, Rect.mk.injEq, short]
    omega
  rw [hr]
  have hin2 : Inside ⟨0, 0, min size.x (api.largest F).x - 1, min size.y (api.largest F).y - 1⟩
      V.info.size := by
    refine ⟨?_, ?_, ?_, ?_, ?_, ?_⟩ <;> simp only <;> omega
  rw [ha.window V _ hz2 hin2 (by rw [hL4]; simp only; omega) (by rw [hL4]; simp only; omega)]
  have hfw : Fine ({ V with info := { V.info with
      window := ⟨0, 0, min size.x (api.largest F).x - 1, min size.y (api.largest F).y - 1⟩ } } : Con).info :=
    ⟨hz2.x, hz2.y, hin2, hz2.cursorX, hz2.cursorY⟩
  rw [ha.cursor' _ ⟨0, 0⟩ hfw (by simp only; omega) (by simp only; omega)
    (by simp only; omega) (by simp only; omega)]
  refine ⟨hz1, ⟨_, hl.1, hl.2, rfl, rfl⟩, rfl, ⟨?_, ?_, hin2, ?_, ?_⟩, ?_⟩
  · exact hz2.x
  · exact hz2.y
  · simp only [clearLines, fillBlank]; omega
  · simp only [clearLines, fillBlank]; omega
  · intro x y g1 g2 g3 g4
    simp only [clearLines, fillBlank, hVx, hVy, Int.sub_zero] at g2 ⊢
    have p1 : 0 ≤ y * W := Int.mul_nonneg g3 (by omega)
    have p2 : y * W ≤ 2999 * W := Int.mul_le_mul_of_nonneg_right (by omega) (by omega)
    rw [if_pos ⟨g1, g2, g3, g4, by omega, by omega⟩]
    rfl

/-! ## A concrete console -/

/-- The window is moved to show a cell. -/
def demoShow (w : Rect) (p : Coord) : Rect :=
  ⟨if p.x < w.left then p.x else if w.right < p.x then p.x - (w.right - w.left) else w.left,
   if p.y < w.top then p.y else if w.bottom < p.y then p.y - (w.bottom - w.top) else w.top,
   if p.x < w.left then p.x + (w.right - w.left) else if w.right < p.x then p.x else w.right,
   if p.y < w.top then p.y + (w.bottom - w.top) else if w.bottom < p.y then p.y else w.bottom⟩

/-- A console whose largest window has 200 columns and 60 rows and whose narrowest buffer has 15
columns. -/
def sizesDemoApi : Api where
  setWindow := fun c r =>
    if 0 ≤ r.left ∧ r.left ≤ r.right ∧ r.right < c.info.size.x ∧ 0 ≤ r.top ∧ r.top ≤ r.bottom ∧
        r.bottom < c.info.size.y ∧ r.right - r.left + 1 ≤ 200 ∧ r.bottom - r.top + 1 ≤ 60
    then { c with info := { c.info with window := r } } else c
  setSize := fun c sz =>
    if c.info.window.right - c.info.window.left < sz.x ∧
        c.info.window.bottom - c.info.window.top < sz.y ∧ 15 ≤ sz.x
    then ({ c with info :=
      { size := sz
        window :=
          ⟨min c.info.window.left (sz.x - (c.info.window.right - c.info.window.left + 1)),
           min c.info.window.top (sz.y - (c.info.window.bottom - c.info.window.top + 1)),
           min c.info.window.left (sz.x - (c.info.window.right - c.info.window.left + 1)) +
             (c.info.window.right - c.info.window.left),
           min c.info.window.top (sz.y - (c.info.window.bottom - c.info.window.top + 1)) +
             (c.info.window.bottom - c.info.window.top)⟩
        cursor := ⟨min c.info.cursor.x (sz.x - 1), min c.info.cursor.y (sz.y - 1)⟩ } }, true)
    else (c, false)
  largest := fun _ => ⟨200, 60⟩
  setCursor := fun c p =>
    if 0 ≤ p.x ∧ p.x < c.info.size.x ∧ 0 ≤ p.y ∧ p.y < c.info.size.y
    then { c with info := { c.info with
      cursor := p
      window := demoShow c.info.window p } } else c

theorem demoApi_documented : Documented sizesDemoApi 15 where
  largest := fun _ => by simp [sizesDemoApi]
  window := fun c r _ hr h1 h2 => by
    obtain ⟨g1, g2, g3, g4, g5, g6⟩ := hr
    exact if_pos ⟨g1, g2, g3, g4, g5, g6, h1, h2⟩
  size := fun c sz hc hx hy h1 h2 h3 => by
    obtain ⟨_, _, ⟨_, _, _, _, _, _⟩, ⟨_, _⟩, ⟨_, _⟩⟩ := hc
    simp only [sizesDemoApi, if_pos (show c.info.window.right - c.info.window.left < sz.x ∧
      c.info.window.bottom - c.info.window.top < sz.y ∧ 15 ≤ sz.x from ⟨h1, h2, h3⟩)]
    refine ⟨trivial, trivial, ⟨hx, hy, ?_, ?_, ?_⟩, ?_, ?_⟩ <;> (try simp only [Inside]) <;> omega
  narrow := fun c sz h => if_neg (by omega)
  stays := fun _ _ => rfl
  stays' := fun _ _ => rfl
  cursor := fun c p hc h1 h2 h3 h4 => by
    obtain ⟨_, _, ⟨_, _, _, _, _, _⟩, ⟨_, _⟩, ⟨_, _⟩⟩ := hc
    simp only [sizesDemoApi, if_pos (show 0 ≤ p.x ∧ p.x < c.info.size.x ∧ 0 ≤ p.y ∧ p.y < c.info.size.y from
      ⟨h1, h2, h3, h4⟩), SameSizes, demoShow]
    refine ⟨⟨by assumption, by assumption, ?_, by simp only; omega, by simp only; omega⟩, trivial, trivial, ?_, ?_⟩
    · simp only [Inside]
      repeat' apply And.intro
      all_goals (repeat' split) <;> omega
    all_goals (repeat' split) <;> omega
  cursor' := fun c p hc h1 h2 h3 h4 => by
    obtain ⟨_, _, ⟨_, _, _, _, _, _⟩, ⟨_, _⟩, ⟨_, _⟩⟩ := hc
    simp only [sizesDemoApi, if_pos (show 0 ≤ p.x ∧ p.x < c.info.size.x ∧ 0 ≤ p.y ∧ p.y < c.info.size.y by omega),
      demoShow]
    rw [if_neg (by omega), if_neg (by omega), if_neg (by omega), if_neg (by omega), if_neg (by omega),
      if_neg (by omega), if_neg (by omega), if_neg (by omega)]

/-- Meanwhile a program scrolls the window by two rows. -/
def demoMeddling : Meddling where
  font := id
  untilFrozen := id
  beforeResize := id
  afterResize := fun c =>
    if c.info.window.bottom + 2 < c.info.size.y then
      { c with info := { c.info with
        window := { c.info.window with top := c.info.window.top + 2, bottom := c.info.window.bottom + 2 } } }
    else c

theorem demoMeddling_polite : Polite sizesDemoApi demoMeddling where
  font := fun _ h => h
  fine := by
    intro f hf c hc
    rcases hf with h | h | h
    · subst h; exact ⟨hc, ⟨rfl, rfl, rfl⟩, rfl⟩
    · subst h; exact ⟨hc, ⟨rfl, rfl, rfl⟩, rfl⟩
    · subst h
      refine ⟨?_, ?_, rfl⟩
      · simp only [demoMeddling]
        split
        · obtain ⟨g1, g2, ⟨g3, g4, g5, g6, g7, g8⟩, g9, g10⟩ := hc
          refine ⟨g1, g2, ⟨g3, g4, g5, ?_, ?_, ?_⟩, g9, g10⟩ <;> simp only <;> omega
        · exact hc
      · simp only [demoMeddling, SameSizes]
        split
        · refine ⟨rfl, rfl, ?_⟩
          simp only; omega
        · simp only [and_self]

/-- 80 columns, 25 rows from row 100 on, the cursor at the last one. -/
def sizesDemoCon : Con :=
  ⟨fun _ _ => ⟨0x20, 7⟩, ⟨⟨80, 3000⟩, ⟨0, 100, 79, 124⟩, ⟨5, 124⟩⟩⟩

/-- The terminal is to have 10 columns and 80 rows. -/
def demoState : S := { (Scraper.init ⟨80, 25⟩ 0).1 with ptySize := ⟨10, 80⟩, dirtyLineCount := 125 }

-- a narrow high terminal: 15 columns are the least possible, the monitor has room for 60 rows
example : (resizeConsole sizesDemoApi demoMeddling demoState sizesDemoCon sizesDemoCon.info).map (·.2.info) =
    some ⟨⟨15, 3000⟩, ⟨0, 102, 9, 161⟩, ⟨5, 124⟩⟩ := by decide +kernel
-- the hypotheses of C68_resize
example : Fine sizesDemoCon.info ∧ (prepareResize demoState sizesDemoCon sizesDemoCon.info).isSome = true ∧
    demoState.dirtyLineCount ≤ sizesDemoCon.info.size.y := by
  refine ⟨⟨by decide, by decide, ?_, by decide, by decide⟩, by decide +kernel, by decide⟩
  simp only [Inside, sizesDemoCon]
  omega
-- a small terminal: the window is put where the last line written and the cursor are
example : (resizeConsole sizesDemoApi demoMeddling { demoState with ptySize := ⟨40, 4⟩ } sizesDemoCon
    sizesDemoCon.info).map (·.2.info) = some ⟨⟨40, 3000⟩, ⟨0, 123, 39, 126⟩, ⟨5, 124⟩⟩ := by decide +kernel
-- a program that had no scrollback keeps having none
example : (resizeConsole sizesDemoApi demoMeddling { demoState with ptySize := ⟨40, 20⟩, directMode := true }
    ⟨fun _ _ => ⟨0x20, 7⟩, ⟨⟨80, 25⟩, ⟨0, 0, 79, 24⟩, ⟨5, 3⟩⟩⟩
    ⟨⟨80, 25⟩, ⟨0, 0, 79, 24⟩, ⟨5, 3⟩⟩).map (·.2.info) =
    some ⟨⟨40, 20⟩, ⟨0, 0, 39, 19⟩, ⟨5, 3⟩⟩ := by decide +kernel
-- start-up
example : (setUp sizesDemoApi id ⟨fun _ _ => ⟨0x41, 7⟩, ⟨⟨80, 300⟩, ⟨0, 0, 79, 24⟩, ⟨5, 3⟩⟩⟩ ⟨100, 70⟩).info =
    ⟨⟨100, 3000⟩, ⟨0, 0, 99, 59⟩, ⟨0, 0⟩⟩ := by decide +kernel

end Winpty.Props
