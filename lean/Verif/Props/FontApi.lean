import Verif.Lemmas.FontApi

/-!
# Setting the console's font with the functions this Windows has (C84)

`setSmallFont` of the model is the whole of src/agent/ConsoleFont.cc, from finding the functions in
kernel32.dll to the last trace message.  `api` is the console with these functions; what they do and
which of them exist is arbitrary.
-/
namespace Winpty.Props

open Winpty.FontApi
open Winpty.ConsoleFont (Font XpFont selectSmallFont readFontTable)
open Winpty.Spec.FontApi

private theorem vistaOf_valid {σ : Type} (api : Api σ) :
    (vistaOf api).valid = true ↔ HasVista api.present := by
  unfold Vista.valid vistaOf Xp.valid xpOf HasVista
  simp [and_assoc]

private theorem undocumentedOf_valid {σ : Type} (api : Api σ) :
    (undocumentedOf api).valid = true ↔ HasXp api.present := by
  unfold Undocumented.valid undocumentedOf Xp.valid xpOf HasXp
  simp [and_assoc]

private theorem around {σ : Type} (api : Api σ) (hk : api.kernel32 = true) (tracing : Bool)
    (sort : List XpFont → List XpFont) (columns : Int) (a b : Bool) (w : World σ) (c' : σ)
    (sets : List Ev)
    (h : ∀ log, Does api (if (vistaOf api).valid then withVista api tracing (vistaOf api) columns a b
      else withoutVista api tracing sort) ⟨w.con, w.modules + 1 + 1, log⟩ () c' (w.modules + 1 + 1) sets) :
    Does api (setSmallFont api tracing sort columns a b) w () c' w.modules sets := by
  refine (does_note api tracing _ w).bind0 fun l1 => ?_
  refine (does_newVista api hk tracing ⟨w.con, w.modules, l1⟩).bind0 fun l2 => ?_
  have := Does.bind (k := fun _ => freeTwo) (h l2) fun l3 =>
    does_freeTwo api ⟨c', w.modules + 1 + 1, l3⟩
  rwa [List.append_nil] at this

private theorem whole_vista {σ : Type} (api : Api σ) (hk : api.kernel32 = true)
    (hp : HasVista api.present) (hn : ∀ s info, api.getEx s = some info → info.faceName.length = 32)
    (tracing : Bool) (sort : List XpFont → List XpFont) (columns : Int) (a b : Bool) (w : World σ)
    (font fontFB : Font)
    (h1 : selectSmallFont (api.outputCP w.con) columns a b = some font)
    (h2 : selectSmallFont 0 columns a b = some fontFB) :
    Does api (setSmallFont api tracing sort columns a b) w () (vistaEnd api w.con font fontFB).1
      w.modules (vistaEnd api w.con font fontFB).2 := by
  have hv := (vistaOf_valid api).2 hp
  refine around api hk tracing sort columns a b w _ _ fun log => ?_
  rw [if_pos hv]
  exact does_withVista api hk tracing columns a b font fontFB ⟨w.con, _, log⟩ hv hn h1 h2

private theorem whole_xp {σ : Type} (api : Api σ) (hk : api.kernel32 = true)
    (hnp : ¬ HasVista api.present) (hp : HasXp api.present)
    (sort : List XpFont → List XpFont) (columns : Int) (a b : Bool) (c : σ) (n : Nat) :
    ∃ tried, (∀ tracing log, Does api (setSmallFont api tracing sort columns a b) ⟨c, n, log⟩ ()
        (tried.foldl (askedXp api) c) n (tried.map fun _ => .call .setConsoleFont)) ∧
      TriedUntilGranted api c
        (((sort (readFontTable (api.size c) 0 (api.count c))).filter fun f => decide (4 ≤ f.x)).map
          (·.index)) tried := by
  have hv := (undocumentedOf_valid api).2 hp
  have hnv : ¬ (vistaOf api).valid = true := fun h => hnp ((vistaOf_valid api).1 h)
  obtain ⟨tried, h1, h2⟩ := does_withXp api hk sort hv c (n + 1 + 1 + 1 + 1)
  refine ⟨tried, fun tracing log => around api hk tracing sort columns a b ⟨c, n, log⟩ _ _ fun l1 => ?_, h2⟩
  rw [if_neg hnv]
  unfold withoutVista
  refine (does_newUndocumented api hk tracing ⟨c, n + 1 + 1, l1⟩).bind0 fun l2 => ?_
  rw [if_pos hv]
  have := Does.bind (k := fun _ => freeTwo) (h1 tracing l2) fun l3 =>
    does_freeTwo api ⟨tried.foldl (askedXp api) c, n + 1 + 1 + 1 + 1, l3⟩
  rwa [List.append_nil] at this

private theorem whole_none {σ : Type} (api : Api σ) (hk : api.kernel32 = true)
    (hnv : ¬ HasVista api.present) (hnx : ¬ HasXp api.present)
    (tracing : Bool) (sort : List XpFont → List XpFont) (columns : Int) (a b : Bool) (w : World σ) :
    Does api (setSmallFont api tracing sort columns a b) w () w.con w.modules [] := by
  have h1 : ¬ (vistaOf api).valid = true := fun h => hnv ((vistaOf_valid api).1 h)
  have h2 : ¬ (undocumentedOf api).valid = true := fun h => hnx ((undocumentedOf_valid api).1 h)
  refine around api hk tracing sort columns a b w _ _ fun log => ?_
  rw [if_neg h1]
  unfold withoutVista
  refine (does_newUndocumented api hk tracing ⟨w.con, w.modules + 1 + 1, log⟩).bind0 fun l2 => ?_
  rw [if_neg h2]
  refine Does.bind0 (a := ()) (c := w.con) (n := w.modules + 1 + 1 + 1 + 1) ?_ fun l3 =>
    does_freeTwo api ⟨w.con, w.modules + 1 + 1 + 1 + 1, l3⟩
  exact (does_note api tracing _ ⟨w.con, w.modules + 1 + 1 + 1 + 1, l2⟩).bind0 fun l3 =>
    does_dumpFontTable api hk tracing ⟨w.con, w.modules + 1 + 1 + 1 + 1, l3⟩

private theorem fonts_chosen (codePage columns : Int) (a b : Bool) (hc : 0 < columns)
    (hc' : columns ≤ 32767) : ∃ font, selectSmallFont codePage columns a b = some font := by
  obtain ⟨font, _, _, h, _⟩ := C48_small_font codePage columns a b hc hc'
  exact ⟨font, h⟩

/-- C84.  Whichever of the functions exist, and whatever they answer: setting the font ends normally
(no failed assertion, no call through a null pointer, no array is left), calls only functions that
exist, and gives back every reference to the library that it took. -/
theorem C84_safe {σ : Type} (api : Api σ) (hk : api.kernel32 = true)
    (hn : ∀ s info, api.getEx s = some info → info.faceName.length = 32)
    (tracing : Bool) (sort : List XpFont → List XpFont) (columns : Int) (isNewW10 isWin8 : Bool)
    (hc : 0 < columns) (hc' : columns ≤ 32767) (w : World σ) :
    ∃ c' evs, setSmallFont api tracing sort columns isNewW10 isWin8 w =
        .ok () ⟨c', w.modules, w.log ++ evs⟩ ∧
      ∀ f, Ev.call f ∈ evs → api.present f = true := by
  by_cases hv : HasVista api.present
  · obtain ⟨font, h1⟩ := fonts_chosen (api.outputCP w.con) columns isNewW10 isWin8 hc hc'
    obtain ⟨fontFB, h2⟩ := fonts_chosen 0 columns isNewW10 isWin8 hc hc'
    obtain ⟨evs, e1, e2, _⟩ :=
      whole_vista api hk hv hn tracing sort columns isNewW10 isWin8 w font fontFB h1 h2
    exact ⟨_, evs, e1, e2⟩
  · by_cases hx : HasXp api.present
    · obtain ⟨tried, h, _⟩ :=
        whole_xp api hk hv hx sort columns isNewW10 isWin8 w.con w.modules
      obtain ⟨evs, e1, e2, _⟩ := h tracing w.log
      exact ⟨_, evs, e1, e2⟩
    · obtain ⟨evs, e1, e2, _⟩ := whole_none api hk hv hx tracing sort columns isNewW10 isWin8 w
      exact ⟨_, evs, e1, e2⟩

/-- C84, Windows Vista and later: the best font for the code page is asked for; if Windows does not
grant it and the code page is an East Asian one, the best font of the other code pages is asked for
next.  Nothing else is done to the console, and the functions of Windows XP are not used to set a
font. -/
theorem C84_vista {σ : Type} (api : Api σ) (hk : api.kernel32 = true) (hp : HasVista api.present)
    (hn : ∀ s info, api.getEx s = some info → info.faceName.length = 32)
    (tracing : Bool) (sort : List XpFont → List XpFont) (columns : Int) (isNewW10 isWin8 : Bool)
    (hc : 0 < columns) (hc' : columns ≤ 32767) (w : World σ) :
    ∃ font fontFB c' evs,
      selectSmallFont (api.outputCP w.con) columns isNewW10 isWin8 = some font ∧
      selectSmallFont 0 columns isNewW10 isWin8 = some fontFB ∧
      setSmallFont api tracing sort columns isNewW10 isWin8 w =
        .ok () ⟨c', w.modules, w.log ++ evs⟩ ∧
      Ev.call .setConsoleFont ∉ evs ∧
      (Granted api w.con font.faceName font.family font.size ∨
          api.outputCP w.con ∉ [932, 936, 949, 950] →
        c' = asked api w.con font.faceName font.family font.size ∧
        evs.count (.call .setCurrentConsoleFontEx) = 1) ∧
      (¬ Granted api w.con font.faceName font.family font.size →
          api.outputCP w.con ∈ [932, 936, 949, 950] →
        c' = asked api (asked api w.con font.faceName font.family font.size)
          fontFB.faceName fontFB.family fontFB.size ∧
        evs.count (.call .setCurrentConsoleFontEx) = 2) := by
  obtain ⟨font, h1⟩ := fonts_chosen (api.outputCP w.con) columns isNewW10 isWin8 hc hc'
  obtain ⟨fontFB, h2⟩ := fonts_chosen 0 columns isNewW10 isWin8 hc hc'
  obtain ⟨evs, e1, _, e3⟩ :=
    whole_vista api hk hp hn tracing sort columns isNewW10 isWin8 w font fontFB h1 h2
  have only : ∀ ev, changesFont ev = true → evs.count ev = (vistaEnd api w.con font fontFB).2.count ev := by
    intro ev hev
    rw [← e3, List.count_filter hev]
  refine ⟨font, fontFB, _, evs, h1, h2, e1, ?_, ?_, ?_⟩
  · rw [← List.count_eq_zero, only _ rfl]
    unfold vistaEnd
    split
    · simp
    · split <;> simp
  · intro h
    rw [only _ rfl]
    unfold vistaEnd
    by_cases hg : granted api w.con font = true
    · rw [if_pos hg]; exact ⟨rfl, by simp⟩
    · rw [if_neg hg]
      rcases h with h | h
      · exact absurd ((granted_iff api w.con font).2 h) hg
      · rw [if_neg (by simpa using h)]; exact ⟨rfl, by simp⟩
  · intro hg hcp
    rw [only _ rfl]
    unfold vistaEnd
    rw [if_neg (fun h => hg ((granted_iff api w.con font).1 h)), if_pos (by simpa using hcp)]
    exact ⟨rfl, by simp⟩

/-- C84, Windows XP: the fonts that are at least 4 pixels wide are asked for in the order of the
sorted table until one is granted; nothing else is done to the console. -/
theorem C84_xp {σ : Type} (api : Api σ) (hk : api.kernel32 = true) (hnv : ¬ HasVista api.present)
    (hp : HasXp api.present) (tracing : Bool) (sort : List XpFont → List XpFont)
    (columns : Int) (isNewW10 isWin8 : Bool) (w : World σ) :
    ∃ tried evs, setSmallFont api tracing sort columns isNewW10 isWin8 w =
        .ok () ⟨tried.foldl (askedXp api) w.con, w.modules, w.log ++ evs⟩ ∧
      evs.filter changesFont = tried.map (fun _ => .call .setConsoleFont) ∧
      TriedUntilGranted api w.con
        (((sort (readFontTable (api.size w.con) 0 (api.count w.con))).filter
          fun f => decide (4 ≤ f.x)).map (·.index)) tried := by
  obtain ⟨tried, h, h2⟩ :=
    whole_xp api hk hnv hp sort columns isNewW10 isWin8 w.con w.modules
  obtain ⟨evs, e1, _, e3⟩ := h tracing w.log
  exact ⟨tried, evs, e1, e3, h2⟩

/-- C84: where neither group of functions is complete, the font stays as it is and no function that
could change it is called. -/
theorem C84_neither {σ : Type} (api : Api σ) (hk : api.kernel32 = true)
    (hnv : ¬ HasVista api.present) (hnx : ¬ HasXp api.present) (tracing : Bool)
    (sort : List XpFont → List XpFont) (columns : Int) (isNewW10 isWin8 : Bool) (w : World σ) :
    ∃ evs, setSmallFont api tracing sort columns isNewW10 isWin8 w =
        .ok () ⟨w.con, w.modules, w.log ++ evs⟩ ∧
      Ev.call .setConsoleFont ∉ evs ∧ Ev.call .setCurrentConsoleFontEx ∉ evs := by
  obtain ⟨evs, e1, _, e3⟩ := whole_none api hk hnv hnx tracing sort columns isNewW10 isWin8 w
  refine ⟨evs, e1, ?_, ?_⟩ <;>
  · intro h
    have := List.mem_filter (p := changesFont).2 ⟨h, rfl⟩
    rw [e3] at this
    cases this

/-- C84: turning tracing on changes nothing about the console: the same font is set. -/
theorem C84_tracing {σ : Type} (api : Api σ) (hk : api.kernel32 = true)
    (hn : ∀ s info, api.getEx s = some info → info.faceName.length = 32)
    (sort : List XpFont → List XpFont) (columns : Int) (isNewW10 isWin8 : Bool)
    (hc : 0 < columns) (hc' : columns ≤ 32767) (w : World σ) :
    ∃ c' quiet loud,
      setSmallFont api false sort columns isNewW10 isWin8 w = .ok () ⟨c', w.modules, w.log ++ quiet⟩ ∧
      setSmallFont api true sort columns isNewW10 isWin8 w = .ok () ⟨c', w.modules, w.log ++ loud⟩ ∧
      quiet.filter changesFont = loud.filter changesFont := by
  by_cases hv : HasVista api.present
  · obtain ⟨font, h1⟩ := fonts_chosen (api.outputCP w.con) columns isNewW10 isWin8 hc hc'
    obtain ⟨fontFB, h2⟩ := fonts_chosen 0 columns isNewW10 isWin8 hc hc'
    obtain ⟨quiet, q1, _, q2⟩ :=
      whole_vista api hk hv hn false sort columns isNewW10 isWin8 w font fontFB h1 h2
    obtain ⟨loud, l1, _, l2⟩ :=
      whole_vista api hk hv hn true sort columns isNewW10 isWin8 w font fontFB h1 h2
    exact ⟨_, quiet, loud, q1, l1, by rw [q2, l2]⟩
  · by_cases hx : HasXp api.present
    · obtain ⟨tried, h, _⟩ :=
        whole_xp api hk hv hx sort columns isNewW10 isWin8 w.con w.modules
      obtain ⟨quiet, q1, _, q2⟩ := h false w.log
      obtain ⟨loud, l1, _, l2⟩ := h true w.log
      exact ⟨_, quiet, loud, q1, l1, by rw [q2, l2]⟩
    · obtain ⟨quiet, q1, _, q2⟩ := whole_none api hk hv hx false sort columns isNewW10 isWin8 w
      obtain ⟨loud, l1, _, l2⟩ := whole_none api hk hv hx true sort columns isNewW10 isWin8 w
      exact ⟨_, quiet, loud, q1, l1, by rw [q2, l2]⟩

/-- C84: if kernel32.dll cannot be loaded the agent stops with a failed assertion; it does not go on
with pointers it never got. -/
theorem C84_no_library {σ : Type} (api : Api σ) (hk : api.kernel32 = false) (tracing : Bool)
    (sort : List XpFont → List XpFont) (columns : Int) (isNewW10 isWin8 : Bool) (w : World σ) :
    setSmallFont api tracing sort columns isNewW10 isWin8 w = .assertFailed := by
  cases tracing <;> simp [setSmallFont, newVista, newXp, loadModule, Run.bind, trace, hk]

/-- The sizes in a line of the trace. -/
def sizesOf : Ev → List (Int × Int)
  | .fonts _ _ sizes => sizes
  | _ => []

/-- A line of the trace as it should be: at most ten fonts, at least one, with the numbers of the first
and the last one. -/
def LineFrom (first : Nat) (ev : Ev) : Prop :=
  ∃ sizes, ev = .fonts first (first + sizes.length - 1) sizes ∧ 0 < sizes.length ∧ sizes.length ≤ 10

private theorem dumpLines_log {σ : Type} (table : List XpFont) (fuel : Nat) :
    ∀ (first : Nat) (w : World σ), table.length ≤ first + fuel → first ≤ table.length →
      ∃ evs, dumpLines true table first fuel w = .ok () { w with log := w.log ++ evs } ∧
        evs.flatMap sizesOf = (table.drop first).map (fun f => (f.x, f.y)) ∧
        ∀ (k : Nat) (ev : Ev), evs[k]? = some ev → LineFrom (first + 10 * k) ev := by
  induction fuel with
  | zero =>
    intro first w h h'
    refine ⟨[], ?_, ?_, by intro k ev h; simp at h⟩
    · rw [dumpLines, if_neg (by omega)]
      simp [Run.pure]
    · rw [List.drop_eq_nil_of_le (by omega)]; rfl
  | succ fuel ih =>
    intro first w h h'
    by_cases hl : first < table.length
    · have hlast : lastOfLine table.length first + 1 = min table.length (first + 10) := by
        unfold lastOfLine; omega
      obtain ⟨evs, e1, e2, e3⟩ := ih (lastOfLine table.length first + 1)
        { w with log := w.log ++
          [.fonts first (lastOfLine table.length first) (lineSizes table first)] }
        (by omega) (by omega)
      have hlen : (lineSizes table first).length = min table.length (first + 10) - first := by
        unfold lineSizes
        rw [List.length_map, List.length_take, List.length_drop, hlast]
        omega
      refine ⟨.fonts first (lastOfLine table.length first) (lineSizes table first) :: evs, ?_, ?_, ?_⟩
      · rw [dumpLines, if_pos hl]
        simp only [Run.bind, trace, if_true]
        rw [e1]
        simp
      · rw [List.flatMap_cons, e2]
        show lineSizes table first ++ _ = _
        unfold lineSizes
        rw [← List.map_append, hlast]
        congr 1
        have : table.drop (min table.length (first + 10)) =
            (table.drop first).drop (min table.length (first + 10) - first) := by
          rw [List.drop_drop]; congr 1; omega
        rw [this, List.take_append_drop]
      · intro k ev hk
        cases k with
        | zero =>
          simp only [List.getElem?_cons_zero, Option.some.injEq] at hk
          subst hk
          refine ⟨lineSizes table first, ?_, by omega, by omega⟩
          have : lastOfLine table.length first = first + 10 * 0 + (lineSizes table first).length - 1 := by
            omega
          rw [← this]; rfl
        | succ k =>
          simp only [List.getElem?_cons_succ] at hk
          have := e3 k ev hk
          by_cases hfull : first + 10 ≤ table.length
          · rw [hlast, Nat.min_eq_right hfull] at this
            have he : first + 10 * (k + 1) = first + 10 + 10 * k := by omega
            rw [he]; exact this
          · exfalso
            have hend : (table.drop (lastOfLine table.length first + 1)).map (fun f => (f.x, f.y)) = [] := by
              rw [List.drop_eq_nil_of_le (by omega)]; rfl
            rw [hend, List.flatMap_eq_nil_iff] at e2
            obtain ⟨sizes, r1, r2, _⟩ := this
            have := e2 ev (List.mem_of_getElem? hk)
            rw [r1] at this
            simp only [sizesOf] at this
            rw [this] at r2
            simp at r2
    · refine ⟨[], ?_, ?_, by intro k ev h; simp at h⟩
      · rw [dumpLines, if_neg hl]
        simp [Run.pure]
      · rw [List.drop_eq_nil_of_le (by omega)]; rfl

/-- C84: in the trace of a font table of any length every font appears exactly once and in order, ten
to a line (fewer in the last one), each line with the right numbers. -/
theorem C84_table_traced {σ : Type} (table : List XpFont) (w : World σ) :
    ∃ evs, dumpLines true table 0 table.length w = .ok () { w with log := w.log ++ evs } ∧
      evs.flatMap sizesOf = table.map (fun f => (f.x, f.y)) ∧
      ∀ (k : Nat) (ev : Ev), evs[k]? = some ev → LineFrom (10 * k) ev := by
  obtain ⟨evs, e1, e2, e3⟩ := dumpLines_log table table.length 0 w (by omega) (by omega)
  refine ⟨evs, e1, by simpa using e2, fun k ev h => by simpa using e3 k ev h⟩

/-! ## Examples

A console that remembers what was asked of it, and refuses the first request. -/

def rememberingApi (vista : Bool) (cp : Nat) : Api (List (List Nat × Int)) where
  kernel32 := true
  present := fun f => match f with
    | .setConsoleFont => !vista
    | .getNumberOfConsoleFonts => !vista
    | .getCurrentConsoleFontEx => vista
    | .setCurrentConsoleFontEx => vista
    | _ => true
  outputCP := fun _ => cp
  setEx := fun s i => (decide (s ≠ []), s ++ [(i.faceName, i.y)])
  getEx := fun s => match s.getLast? with
    | some (n, y) => if n.length = 32 then some ⟨84, 0, 0, y, 0x36, 400, n⟩ else none
    | none => none
  setXp := fun s i => (true, s ++ [([i], 0)])
  getXp := fun s => if s.length = 2 then (s.getLast?.map fun p => p.1.headD 0) else some 99
  size := fun _ i => if i < 4 then (3 + i, 5) else (0, 0)
  count := fun _ => 6

example : (rememberingApi true 932).kernel32 = true ∧ HasVista (rememberingApi true 932).present ∧
    (∀ s info, (rememberingApi true 932).getEx s = some info → info.faceName.length = 32) ∧
    ¬ HasVista (rememberingApi false 932).present ∧ HasXp (rememberingApi false 932).present := by
  refine ⟨rfl, ⟨rfl, rfl, rfl, rfl⟩, ?_, ?_, ⟨rfl, rfl, rfl, rfl⟩⟩
  · intro s info h
    unfold rememberingApi at h
    simp only at h
    split at h
    · split at h
      · cases h; assumption
      · cases h
    · cases h
  · intro h; exact absurd h.2.2.1 (by decide)

-- on Windows XP, with four fonts of which the first is too narrow, the second one asked for is granted
example : (match setSmallFont (rememberingApi false 437) false id 80 false false ⟨[], 0, []⟩ with
    | .ok _ w => (w.con, w.modules)
    | _ => ([], 1)) = ([([1], 0), ([2], 0)], 0) := by decide

-- with a Japanese code page the font refused first is followed by the default one
example : (match setSmallFont (rememberingApi true 932) true id 80 true true ⟨[], 0, []⟩ with
    | .ok _ w => (w.con.map (·.2), w.modules)
    | _ => ([], 1)) = ([8, 6], 0) := by decide +kernel

end Winpty.Props
