import Verif.Model.ConsoleFont
import Verif.Spec.Text

/-! # C48: font selection always yields a usable font -/
namespace Winpty.Spec.Font

/-- The narrowest console (in pixels) that Windows allows with the tested fonts. -/
def minPixels : Int := 160

/-- The number of columns after halving, but no fewer than 40 unless there were fewer before. -/
def halved (columns : Int) : Int := min columns (max 40 (columns / 2))

/-- A cell width with which the window is wide enough. -/
def Fits (columns width : Int) : Prop := minPixels ≤ width * columns

/-- A cell width with which the window is wide enough even after its columns are halved. -/
def FitsHalved (columns width : Int) : Prop := Fits columns width ∧ minPixels ≤ width * halved columns

/-- The best of some cell widths: the smallest one that stays wide enough after halving; if there is
none, the smallest one that is wide enough; if there is none, the largest one. -/
def Best (columns : Int) (widths : List Int) (w : Int) : Prop :=
  w ∈ widths ∧
  ((∃ v ∈ widths, FitsHalved columns v) →
    FitsHalved columns w ∧ ∀ v ∈ widths, FitsHalved columns v → w ≤ v) ∧
  ((¬ ∃ v ∈ widths, FitsHalved columns v) → (∃ v ∈ widths, Fits columns v) →
    Fits columns w ∧ ∀ v ∈ widths, Fits columns v → w ≤ v) ∧
  ((¬ ∃ v ∈ widths, Fits columns v) → ∀ v ∈ widths, v ≤ w)

/-- The face name of the font used for a code page: Japanese, simplified Chinese, Korean, traditional Chinese,
and all others. -/
def face (codePage : Int) : List Char :=
  if codePage = 932 then ['Ｍ', 'Ｓ', ' ', 'ゴ', 'シ', 'ッ', 'ク']
  else if codePage = 936 then ['新', '宋', '体']
  else if codePage = 949 then ['굴', '림', '체']
  else if codePage = 950 then ['細', '明', '體']
  else ['L', 'u', 'c', 'i', 'd', 'a', ' ', 'C', 'o', 'n', 's', 'o', 'l', 'e']

/-- The widths of East Asian fonts since Windows 10: cells half as wide as high. -/
def eastAsianWidths : List Int := [3, 4, 5, 6, 7, 8, 9, 10, 11, 12, 18, 24, 30, 36]

/-- The heights and widths of the cells that are known to work, by code page and version of Windows (measured by
the authors; MS Gothic's depend on the version). -/
def cells (codePage : Int) (newWindows10 windows8 : Bool) : List (Int × Int) :=
  if codePage = 932 ∧ newWindows10 = false then
    if windows8 then
      (([5, 7, 9, 11, 13, 15, 17, 20, 22, 24, 36, 48, 60, 72] : List Int).zip eastAsianWidths)
    else (([6, 8, 10, 12, 13, 15, 17, 19, 21] : List Int).zip (eastAsianWidths.take 9))
  else if codePage = 932 ∨ codePage = 936 ∨ codePage = 949 ∨ codePage = 950 then
    eastAsianWidths.map (fun w => (2 * w, w))
  else ([5, 6, 8, 10, 12, 14, 16, 18, 20, 36, 48, 60, 72] : List Int).zip [3, 4, 5, 6, 7, 8, 10, 11, 12, 22, 29, 36, 43]

end Winpty.Spec.Font

namespace Winpty.ConsoleFont

open Winpty.Spec.Font

/-- A table whose widths are positive and small enough for the products not to overflow. -/
def TableOk (t : List FontSize) : Prop := ∀ e ∈ t, 0 < e.width ∧ e.width ≤ 1000

theorem halfColumns_eq (c : Int) (h : 0 < c) : halfColumns c = halved c := by
  unfold halfColumns halved
  rw [Int.tdiv_eq_ediv_of_nonneg (by omega)]

theorem halved_range (c : Int) (h : 0 < c) : 0 < halved c ∧ halved c ≤ c := by
  unfold halved; omega

theorem mulInt_eq (a b : Int) (ha : 0 < a) (ha' : a ≤ 1000) (hb : 0 < b) (hb' : b ≤ 32767) :
    mulInt a b = some (a * b) := by
  unfold mulInt
  have h1 : 0 < a * b := Int.mul_pos ha hb
  have h2 : a * b ≤ 1000 * 32767 := Int.mul_le_mul ha' hb' (by omega) (by omega)
  rw [if_pos (by omega)]

theorem score_eq (c : Int) (e : FontSize) (hc : 0 < c) (hc' : c ≤ 32767) (hw : 0 < e.width)
    (hw' : e.width ≤ 1000) :
    score c e = some (if 160 ≤ e.width * c ∧ 160 ≤ e.width * halved c then (2, -(e.width * c))
      else if 160 ≤ e.width * c then (1, -(e.width * c)) else (0, e.width * c)) := by
  have hh := halved_range c hc
  unfold score
  rw [halfColumns_eq c hc, mulInt_eq _ _ hw hw' hc hc', mulInt_eq _ _ hw hw' hh.1 (by omega)]
  simp only [ge_iff_le]
  repeat' split
  all_goals rfl

/-- `a` is at least as good as `b`. -/
def ge (a b : Int × Int) : Prop := gt b a = false

theorem ge_refl (a : Int × Int) : ge a a := by simp [ge, gt]

theorem ge_trans {a b c : Int × Int} (h1 : ge a b) (h2 : ge b c) : ge a c := by
  simp only [ge, gt, decide_eq_false_iff_not] at h1 h2 ⊢
  omega

theorem ge_of_gt {a b : Int × Int} (h : gt a b = true) : ge a b := by
  simp only [ge, gt, decide_eq_true_eq, decide_eq_false_iff_not] at h ⊢
  omega

/-- The loop returns an entry with the greatest score. -/
theorem selectLoop_spec (c : Int) (es : List FontSize)
    (hs : ∀ e ∈ es, (score c e).isSome = true) :
    ∀ (best : Option FontSize) (bs : Int × Int),
      (∀ e, best = some e → score c e = some bs) →
      ∃ r, selectLoop c es best bs = some r ∧
        (∀ e, r = some e → e ∈ es ∨ best = some e) ∧
        ((r = best ∧ ∀ e ∈ es, ∀ s, score c e = some s → ge bs s) ∨
         (∃ e s, r = some e ∧ score c e = some s ∧ ge s bs ∧
           ∀ e' ∈ es, ∀ s', score c e' = some s' → ge s s')) := by
  induction es with
  | nil =>
    intro best bs _
    exact ⟨best, rfl, fun e h => Or.inr h, Or.inl ⟨rfl, by simp⟩⟩
  | cons e es ih =>
    intro best bs hb
    obtain ⟨sc, hsc⟩ := Option.isSome_iff_exists.mp (hs e (List.mem_cons_self ..))
    have hs' : ∀ e ∈ es, (score c e).isSome = true := fun x hx => hs x (List.mem_cons_of_mem _ hx)
    simp only [selectLoop, hsc]
    by_cases hg : gt sc bs = true
    · rw [if_pos hg]
      obtain ⟨r, h1, h2, h3⟩ := ih hs' (some e) sc (by intro x hx; cases hx; exact hsc)
      refine ⟨r, h1, ?_, Or.inr ?_⟩
      · intro x hx
        rcases h2 x hx with h | h
        · exact Or.inl (List.mem_cons_of_mem _ h)
        · cases h; exact Or.inl (List.mem_cons_self ..)
      · rcases h3 with ⟨h4, h5⟩ | ⟨x, s, h4, h5, h6, h7⟩
        · refine ⟨e, sc, h4, hsc, ge_of_gt hg, ?_⟩
          intro x hx s hsx
          rcases List.mem_cons.mp hx with rfl | hx
          · rw [hsc] at hsx; cases hsx; exact ge_refl _
          · exact h5 x hx s hsx
        · refine ⟨x, s, h4, h5, ge_trans h6 (ge_of_gt hg), ?_⟩
          intro y hy s' hs'
          rcases List.mem_cons.mp hy with rfl | hy
          · rw [hsc] at hs'; cases hs'; exact h6
          · exact h7 y hy s' hs'
    · rw [if_neg hg]
      have hg' : ge bs sc := by simpa [ge] using hg
      obtain ⟨r, h1, h2, h3⟩ := ih hs' best bs hb
      refine ⟨r, h1, ?_, ?_⟩
      · intro x hx
        rcases h2 x hx with h | h
        · exact Or.inl (List.mem_cons_of_mem _ h)
        · exact Or.inr h
      · rcases h3 with ⟨h4, h5⟩ | ⟨x, s, h4, h5, h6, h7⟩
        · refine Or.inl ⟨h4, ?_⟩
          intro x hx s hsx
          rcases List.mem_cons.mp hx with rfl | hx
          · rw [hsc] at hsx; cases hsx; exact hg'
          · exact h5 x hx s hsx
        · refine Or.inr ⟨x, s, h4, h5, h6, ?_⟩
          intro y hy s' hs'
          rcases List.mem_cons.mp hy with rfl | hy
          · rw [hsc] at hs'; cases hs'; exact ge_trans h6 hg'
          · exact h7 y hy s' hs'

/-- The chosen entry has the greatest score. -/
theorem selectFrom_spec (c : Int) (t : List FontSize) (ht : t ≠ []) (hok : TableOk t)
    (hc : 0 < c) (hc' : c ≤ 32767) :
    ∃ e s, selectFrom c t = some e ∧ e ∈ t ∧ score c e = some s ∧
      ∀ e' ∈ t, ∀ s', score c e' = some s' → ge s s' := by
  have hsome : ∀ e ∈ t, (score c e).isSome = true := by
    intro e he
    rw [score_eq c e hc hc' (hok e he).1 (hok e he).2]; rfl
  obtain ⟨r, h1, h2, h3⟩ := selectLoop_spec c t hsome none (-1, -1) (by intro e h; cases h)
  unfold selectFrom
  rw [h1]
  rcases h3 with ⟨_, h5⟩ | ⟨e, s, h4, h5, _, h7⟩
  · exfalso
    cases t with
    | nil => exact ht rfl
    | cons e es =>
      have hm : e ∈ e :: es := List.mem_cons_self ..
      have hsc := score_eq c e hc hc' (hok e hm).1 (hok e hm).2
      have := h5 e hm _ hsc
      simp only [ge, gt, decide_eq_false_iff_not] at this
      apply this
      left
      repeat' split
      all_goals simp
  · rw [h4]
    rcases h2 e h4 with h | h
    · exact ⟨e, s, rfl, h, h5, h7⟩
    · cases h

theorem mul_le_iff (a b c : Int) (hc : 0 < c) : a * c ≤ b * c ↔ a ≤ b :=
  ⟨fun h => Int.le_of_mul_le_mul_right h hc, fun h => Int.mul_le_mul_of_nonneg_right h (by omega)⟩

theorem best_of_score (c : Int) (t : List FontSize) (hok : TableOk t) (hc : 0 < c)
    (hc' : c ≤ 32767) (e : FontSize) (he : e ∈ t) (s : Int × Int) (hs : score c e = some s)
    (hmax : ∀ e' ∈ t, ∀ s', score c e' = some s' → ge s s') :
    Best c (t.map (·.width)) e.width := by
  rw [score_eq c e hc hc' (hok e he).1 (hok e he).2] at hs
  simp only [Option.some.injEq] at hs
  have hm : ∀ f ∈ t, ge s (if 160 ≤ f.width * c ∧ 160 ≤ f.width * halved c then (2, -(f.width * c))
      else if 160 ≤ f.width * c then (1, -(f.width * c)) else (0, f.width * c)) := by
    intro f hf
    exact hmax f hf _ (score_eq c f hc hc' (hok f hf).1 (hok f hf).2)
  refine ⟨List.mem_map.mpr ⟨e, he, rfl⟩, ?_, ?_, ?_⟩
  · rintro ⟨v, hv, hg⟩
    obtain ⟨f, hf, rfl⟩ := List.mem_map.mp hv
    have hg' : 160 ≤ f.width * c ∧ 160 ≤ f.width * halved c := hg
    have h1 := hm f hf
    rw [if_pos hg'] at h1
    have he2 : 160 ≤ e.width * c ∧ 160 ≤ e.width * halved c := by
      by_cases h : 160 ≤ e.width * c ∧ 160 ≤ e.width * halved c
      · exact h
      · exfalso
        rw [if_neg h] at hs
        rw [← hs] at h1
        simp only [ge, gt, decide_eq_false_iff_not] at h1
        apply h1
        left
        repeat' split
        all_goals simp
    refine ⟨he2, ?_⟩
    intro w hw hgw
    obtain ⟨g, hgm, rfl⟩ := List.mem_map.mp hw
    have hgw' : 160 ≤ g.width * c ∧ 160 ≤ g.width * halved c := hgw
    have h2 := hm g hgm
    rw [if_pos hgw'] at h2
    rw [if_pos he2] at hs
    rw [← hs] at h2
    simp only [ge, gt, decide_eq_false_iff_not, true_and] at h2
    rw [← mul_le_iff _ _ c hc]
    omega
  · intro hno hfit
    obtain ⟨v, hv, hg⟩ := hfit
    obtain ⟨f, hf, rfl⟩ := List.mem_map.mp hv
    have hg' : 160 ≤ f.width * c := hg
    have hnh : ∀ x ∈ t, ¬ (160 ≤ x.width * c ∧ 160 ≤ x.width * halved c) := by
      intro x hx h
      exact hno ⟨x.width, List.mem_map.mpr ⟨x, hx, rfl⟩, h⟩
    have h1 := hm f hf
    rw [if_neg (hnh f hf), if_pos hg'] at h1
    rw [if_neg (hnh e he)] at hs
    have he1 : 160 ≤ e.width * c := by
      by_cases h : 160 ≤ e.width * c
      · exact h
      · exfalso
        rw [if_neg h] at hs
        rw [← hs] at h1
        simp only [ge, gt, decide_eq_false_iff_not] at h1
        exact h1 (Or.inl (by simp))
    refine ⟨he1, ?_⟩
    intro w hw hgw
    obtain ⟨g, hgm, rfl⟩ := List.mem_map.mp hw
    have hgw' : 160 ≤ g.width * c := hgw
    have h2 := hm g hgm
    rw [if_neg (hnh g hgm), if_pos hgw'] at h2
    rw [if_pos he1] at hs
    rw [← hs] at h2
    simp only [ge, gt, decide_eq_false_iff_not, true_and] at h2
    rw [← mul_le_iff _ _ c hc]
    omega
  · intro hno w hw
    obtain ⟨g, hgm, rfl⟩ := List.mem_map.mp hw
    have hnf : ∀ x ∈ t, ¬ (160 ≤ x.width * c) := by
      intro x hx h
      exact hno ⟨x.width, List.mem_map.mpr ⟨x, hx, rfl⟩, h⟩
    have h2 := hm g hgm
    rw [if_neg (fun h => hnf g hgm h.1), if_neg (hnf g hgm)] at h2
    rw [if_neg (fun h => hnf e he h.1), if_neg (hnf e he)] at hs
    rw [← hs] at h2
    simp only [ge, gt, decide_eq_false_iff_not, true_and] at h2
    rw [← mul_le_iff _ _ c hc]
    omega

theorem tableFor_ok (cp : Int) (n w : Bool) :
    (tableFor cp n w).2 ≠ [] ∧ TableOk (tableFor cp n w).2 := by
  have h : ∀ t ∈ [k932GothicWin10, k932GothicWin8, k932GothicVista, k936SimSun, k949GulimChe,
      k950MingLight, kLucidaFontSizes], t ≠ [] ∧ TableOk t := by
    intro t ht
    simp only [List.mem_cons, List.not_mem_nil, or_false] at ht
    unfold TableOk
    rcases ht with rfl | rfl | rfl | rfl | rfl | rfl | rfl <;> decide
  unfold tableFor
  repeat' split
  all_goals exact h _ (by simp)

theorem tableFor_eq (cp : Int) (n w : Bool) :
    (tableFor cp n w).1 = Spec.codes (face cp) ∧
    cells cp n w = (tableFor cp n w).2.map (fun e => (e.size, e.width)) := by
  unfold tableFor face cells
  by_cases h1 : cp = 932
  · subst h1; cases n <;> cases w <;> exact ⟨by decide, by decide⟩
  by_cases h2 : cp = 936
  · subst h2; cases n <;> cases w <;> exact ⟨by decide, by decide⟩
  by_cases h3 : cp = 949
  · subst h3; cases n <;> cases w <;> exact ⟨by decide, by decide⟩
  by_cases h4 : cp = 950
  · subst h4; cases n <;> cases w <;> exact ⟨by decide, by decide⟩
  simp only [h1, h2, h3, h4, false_and, or_false, if_false]
  exact ⟨by decide, by decide⟩

end Winpty.ConsoleFont

namespace Winpty.Props

open Winpty.ConsoleFont Winpty.Spec.Font

/-- C48.  For every table of candidate sizes and every number of columns a console can have, the
choice is made, and it is the best candidate. -/
theorem C48_best_of_any_table (columns : Int) (table : List FontSize) (ht : table ≠ [])
    (hw : ∀ e ∈ table, 0 < e.width ∧ e.width ≤ 1000) (hc : 0 < columns) (hc' : columns ≤ 32767) :
    ∃ e ∈ table, selectFrom columns table = some e ∧
      Best columns (table.map (·.width)) e.width := by
  obtain ⟨e, s, h1, h2, h3, h4⟩ := selectFrom_spec columns table ht hw hc hc'
  exact ⟨e, h2, h1, best_of_score columns table hw hc hc' e h2 s h3 h4⟩

/-- C48.  For every code page, Windows version and number of columns the agent chooses a font: one
of the sizes listed for the code page, the best one for this number of columns. -/
theorem C48_small_font (codePage columns : Int) (isNewW10 isWin8 : Bool)
    (hc : 0 < columns) (hc' : columns ≤ 32767) :
    ∃ font height width, selectSmallFont codePage columns isNewW10 isWin8 = some font ∧
      (height, width) ∈ cells codePage isNewW10 isWin8 ∧
      font = ⟨Spec.codes (face codePage), 0x36, height⟩ ∧
      Best columns ((cells codePage isNewW10 isWin8).map Prod.snd) width := by
  obtain ⟨hne, hok⟩ := tableFor_ok codePage isNewW10 isWin8
  obtain ⟨e, h1, h2, h3⟩ := C48_best_of_any_table columns _ hne hok hc hc'
  have hf := tableFor_eq codePage isNewW10 isWin8
  refine ⟨⟨(tableFor codePage isNewW10 isWin8).1, 0x36, e.size⟩, e.size, e.width, ?_, ?_, ?_, ?_⟩
  · unfold selectSmallFont
    rw [h2]
  · rw [hf.2]
    exact List.mem_map.2 ⟨e, h1, rfl⟩
  · rw [hf.1]
  · rw [hf.2, List.map_map]
    exact h3

/-- C48.  The window is wide enough with the chosen font whenever some listed font makes it so. -/
theorem C48_wide_enough (codePage columns : Int) (isNewW10 isWin8 : Bool)
    (hc : 0 < columns) (hc' : columns ≤ 32767)
    (h : ∃ c ∈ cells codePage isNewW10 isWin8, 160 ≤ c.2 * columns) :
    ∃ font width, selectSmallFont codePage columns isNewW10 isWin8 = some font ∧
      (font.size, width) ∈ cells codePage isNewW10 isWin8 ∧ 160 ≤ width * columns := by
  obtain ⟨font, height, width, h1, h2, h3, h4⟩ := C48_small_font codePage columns isNewW10 isWin8 hc hc'
  refine ⟨font, width, h1, by rw [h3]; exact h2, ?_⟩
  obtain ⟨_, b1, b2, _⟩ := h4
  by_cases hh : ∃ v ∈ (cells codePage isNewW10 isWin8).map Prod.snd, FitsHalved columns v
  · exact (b1 hh).1.1
  · obtain ⟨x, hx, hx'⟩ := h
    exact (b2 hh ⟨x.2, List.mem_map.mpr ⟨x, hx, rfl⟩, hx'⟩).1

/-- C48.  If Windows refuses the font of an East Asian code page, the default font is tried; at most
these two fonts are tried, each chosen as above; and the attempt succeeds exactly when one of them
is accepted. -/
theorem C48_fallback (accept : Font → Bool) (codePage columns : Int) (isNewW10 isWin8 : Bool)
    (hc : 0 < columns) (hc' : columns ≤ 32767) :
    ∃ tried ok, setSmallFontVista accept codePage columns isNewW10 isWin8 = some (tried, ok) ∧
      tried.length ≤ 2 ∧ tried.head? = selectSmallFont codePage columns isNewW10 isWin8 ∧
      (ok = true ↔ ∃ f ∈ tried, accept f = true) ∧
      (ok = false → (codePage = 932 ∨ codePage = 936 ∨ codePage = 949 ∨ codePage = 950) →
        tried.getLast? = selectSmallFont 0 columns isNewW10 isWin8) := by
  obtain ⟨f1, _, _, h1, _⟩ := C48_small_font codePage columns isNewW10 isWin8 hc hc'
  obtain ⟨f2, _, _, h2, _⟩ := C48_small_font 0 columns isNewW10 isWin8 hc hc'
  unfold setSmallFontVista
  rw [h1, h2]
  simp only
  by_cases ha : accept f1 = true
  · rw [if_pos ha]
    exact ⟨_, _, rfl, by simp, rfl, by simp [ha], by simp⟩
  · rw [if_neg ha]
    by_cases hcp : codePage = 932 ∨ codePage = 936 ∨ codePage = 949 ∨ codePage = 950
    · rw [if_pos hcp]
      exact ⟨_, _, rfl, by simp, rfl, by simp [ha], fun _ _ => rfl⟩
    · rw [if_neg hcp]
      exact ⟨_, _, rfl, by simp, rfl, by simp [ha], fun _ h => absurd h hcp⟩

/-- C48.  On Windows XP: whatever order the library's sort gives to fonts of equal size, the font
settled on is not too narrow, was accepted, and no smaller usable font would have been accepted. -/
theorem C48_xp (attempt : Nat → XpTry) (table sorted : List XpFont) (hp : sorted.Perm table)
    (hs : sorted.Pairwise (fun a b => xpScore a ≤ xpScore b)) (f : XpFont)
    (h : xpLoop attempt sorted = some f) :
    f ∈ table ∧ 4 ≤ f.x ∧ attempt f.index = .ok ∧
      ∀ g ∈ table, xpScore g < xpScore f → 4 ≤ g.x → attempt g.index ≠ .ok := by
  have main : ∀ l : List XpFont, l.Pairwise (fun a b => xpScore a ≤ xpScore b) →
      xpLoop attempt l = some f → f ∈ l ∧ 4 ≤ f.x ∧ attempt f.index = .ok ∧
      ∀ g ∈ l, xpScore g < xpScore f → 4 ≤ g.x → attempt g.index ≠ .ok := by
    intro l
    induction l with
    | nil => intro _ h; simp [xpLoop] at h
    | cons a l ih =>
      intro hs h
      rw [List.pairwise_cons] at hs
      simp only [xpLoop] at h
      have skip : xpLoop attempt l = some f → (4 ≤ a.x → attempt a.index ≠ .ok) →
          f ∈ a :: l ∧ 4 ≤ f.x ∧ attempt f.index = .ok ∧
          ∀ g ∈ a :: l, xpScore g < xpScore f → 4 ≤ g.x → attempt g.index ≠ .ok := by
        intro h ha
        obtain ⟨i1, i2, i3, i4⟩ := ih hs.2 h
        refine ⟨List.mem_cons_of_mem _ i1, i2, i3, ?_⟩
        intro g hg hlt hx
        rcases List.mem_cons.mp hg with rfl | hg
        · exact ha hx
        · exact i4 g hg hlt hx
      by_cases hx : a.x < 4
      · rw [if_pos hx] at h
        exact skip h (fun h4 => by omega)
      · rw [if_neg hx] at h
        cases ht : attempt a.index with
        | setFailed => rw [ht] at h; exact skip h (fun _ e => by rw [ht] at e; cases e)
        | notSet => rw [ht] at h; exact skip h (fun _ e => by rw [ht] at e; cases e)
        | getFailed => rw [ht] at h; exact absurd h (by simp)
        | ok =>
          rw [ht] at h
          simp only [Option.some.injEq] at h
          subst h
          refine ⟨List.mem_cons_self .., by omega, ht, ?_⟩
          intro g hg hlt
          rcases List.mem_cons.mp hg with rfl | hg
          · omega
          · have := hs.1 g hg; omega
  obtain ⟨h1, h2, h3, h4⟩ := main sorted hs h
  exact ⟨hp.subset h1, h2, h3, fun g hg => h4 g (hp.symm.subset hg)⟩

/-- C48.  On Windows XP: no usable font is overlooked — if none is set, then none was accepted
(unless the current font could not be read back). -/
theorem C48_xp_none (attempt : Nat → XpTry) (table sorted : List XpFont) (hp : sorted.Perm table)
    (hg : ∀ g ∈ table, attempt g.index ≠ .getFailed)
    (h : xpLoop attempt sorted = none) : ∀ g ∈ table, 4 ≤ g.x → attempt g.index ≠ .ok := by
  have main : ∀ l : List XpFont, (∀ g ∈ l, attempt g.index ≠ .getFailed) →
      xpLoop attempt l = none → ∀ g ∈ l, 4 ≤ g.x → attempt g.index ≠ .ok := by
    intro l
    induction l with
    | nil => intro _ _ g hg; simp at hg
    | cons a l ih =>
      intro hn h g hg hx
      have hn' : ∀ g ∈ l, attempt g.index ≠ .getFailed := fun g hg => hn g (List.mem_cons_of_mem _ hg)
      simp only [xpLoop] at h
      by_cases hax : a.x < 4
      · rw [if_pos hax] at h
        rcases List.mem_cons.mp hg with rfl | hg
        · omega
        · exact ih hn' h g hg hx
      · rw [if_neg hax] at h
        cases ht : attempt a.index with
        | setFailed =>
          rw [ht] at h
          rcases List.mem_cons.mp hg with rfl | hg
          · rw [ht]; intro e; cases e
          · exact ih hn' h g hg hx
        | notSet =>
          rw [ht] at h
          rcases List.mem_cons.mp hg with rfl | hg
          · rw [ht]; intro e; cases e
          · exact ih hn' h g hg hx
        | getFailed => exact absurd ht (hn a (List.mem_cons_self ..))
        | ok => rw [ht] at h; exact absurd h (by simp)
  intro g hgm
  exact main sorted (fun g h => hg g (hp.subset h)) h g (hp.symm.subset hgm)

private theorem table_mem (size : Nat → Int × Int) (i : Nat) (f : XpFont) : ∀ (n k : Nat),
    ⟨i, f.x, f.y⟩ ∈ readFontTable size k n ↔ k ≤ i ∧ i < k + n ∧ size i = (f.x, f.y) ∧
      ∀ j, k ≤ j → j ≤ i → size j ≠ (0, 0) := by
  intro n
  induction n with
  | zero => intro k; simp only [readFontTable, List.not_mem_nil, false_iff]; omega
  | succ n ih =>
    intro k
    have hz : ((size k).1 = 0 ∧ (size k).2 = 0) ↔ size k = (0, 0) := by
      constructor
      · rintro ⟨a, b⟩; exact Prod.ext a b
      · intro e; rw [e]; exact ⟨rfl, rfl⟩
    simp only [readFontTable]
    by_cases h0 : (size k).1 = 0 ∧ (size k).2 = 0
    · rw [if_pos h0]
      simp only [List.not_mem_nil, false_iff]
      rintro ⟨h1, _, _, h4⟩
      exact h4 k (Nat.le_refl k) h1 (hz.1 h0)
    · rw [if_neg h0, List.mem_cons, ih]
      have hk : size k ≠ (0, 0) := fun e => h0 (hz.2 e)
      constructor
      · rintro (h | ⟨h1, h2, h3, h4⟩)
        · simp only [XpFont.mk.injEq] at h
          obtain ⟨rfl, h2, h3⟩ := h
          refine ⟨Nat.le_refl i, by omega, Prod.ext h2.symm h3.symm, ?_⟩
          intro j h5 h6
          have : j = i := by omega
          rw [this]; exact hk
        · refine ⟨by omega, by omega, h3, ?_⟩
          intro j h5 h6
          by_cases hj : j = k
          · rw [hj]; exact hk
          · exact h4 j (by omega) h6
      · rintro ⟨h1, h2, h3, h4⟩
        by_cases hi : i = k
        · left
          subst hi
          rw [h3]
        · right
          exact ⟨by omega, by omega, h3, fun j h5 h6 => h4 j (by omega) h6⟩

/-- C48.  On Windows XP, from the system's table to the font: the system has `count` fonts, of the sizes `size`,
the table ending early at the first font without a size.  The font settled on is one of them, not narrower than 4
pixels, and was accepted; and no font of the table that is not too narrow and would be accepted is smaller. -/
theorem C48_xp_smallest (size : Nat → Int × Int) (count : Nat) (attempt : Nat → XpTry) (sorted : List XpFont)
    (hp : sorted.Perm (readFontTable size 0 count)) (hs : sorted.Pairwise (fun a b => xpScore a ≤ xpScore b))
    (f : XpFont) (h : xpLoop attempt sorted = some f) :
    f.index < count ∧ size f.index = (f.x, f.y) ∧ 4 ≤ f.x ∧ attempt f.index = .ok ∧
      ∀ i, i < count → (∀ j, j ≤ i → size j ≠ (0, 0)) → 4 ≤ (size i).1 → attempt i = .ok →
        f.x + f.y ≤ (size i).1 + (size i).2 := by
  obtain ⟨h1, h2, h3, h4⟩ := C48_xp attempt _ sorted hp hs f h
  obtain ⟨_, k1, k2, _⟩ := (table_mem size f.index f count 0).1 h1
  refine ⟨by omega, k2, h2, h3, ?_⟩
  intro i hi hj hx ha
  have hm := (table_mem size i ⟨i, (size i).1, (size i).2⟩ count 0).2
    ⟨Nat.zero_le i, by omega, rfl, fun j _ h => hj j h⟩
  have := h4 _ hm
  simp only [xpScore] at this
  by_cases hlt : (size i).1 + (size i).2 < f.x + f.y
  · exact absurd ha (this hlt hx)
  · omega

/-- C48.  And if it settles on none, then no font of the system's table that is not too narrow would have been
accepted (unless the current font could not be read back). -/
theorem C48_xp_no_font (size : Nat → Int × Int) (count : Nat) (attempt : Nat → XpTry) (sorted : List XpFont)
    (hp : sorted.Perm (readFontTable size 0 count)) (hg : ∀ i, attempt i ≠ .getFailed)
    (h : xpLoop attempt sorted = none) (i : Nat) (hi : i < count) (hj : ∀ j, j ≤ i → size j ≠ (0, 0))
    (hx : 4 ≤ (size i).1) : attempt i ≠ .ok :=
  C48_xp_none attempt _ sorted hp (fun g _ => hg g.index) h ⟨i, (size i).1, (size i).2⟩
    ((table_mem size i ⟨i, (size i).1, (size i).2⟩ count 0).2
      ⟨Nat.zero_le i, by omega, rfl, fun j _ h => hj j h⟩) hx

-- a table that ends early, with a font that is too narrow
example : readFontTable (fun i => [(8, 12), (3, 5), (4, 6), (0, 0), (5, 5)].getD i (0, 0)) 0 10 =
    [⟨0, 8, 12⟩, ⟨1, 3, 5⟩, ⟨2, 4, 6⟩] := by decide

-- 80 columns on a Western code page: size 6, cells 4 pixels wide; 20 columns need larger cells;
-- with 3 columns no font is wide enough and the largest is taken
example : selectSmallFont 437 80 false true = some ⟨kLucidaConsole, 0x36, 6⟩ := by decide
example : selectSmallFont 437 20 false true = some ⟨kLucidaConsole, 0x36, 14⟩ := by decide
example : selectSmallFont 932 3 false false = some ⟨kMSGothic, 0x36, 21⟩ := by decide
example : setSmallFontVista (fun f => f.faceName == kLucidaConsole) 932 80 true true =
    some ([⟨kMSGothic, 0x36, 8⟩, ⟨kLucidaConsole, 0x36, 6⟩], true) := by decide
example : xpLoop (fun i => if i = 2 then .setFailed else .ok) [⟨0, 3, 5⟩, ⟨2, 4, 6⟩, ⟨1, 6, 8⟩] =
    some ⟨1, 6, 8⟩ := by decide

end Winpty.Props
