import Verif.Spec.FontApi
import Verif.Props.StringUtil
import Verif.Props.ConsoleFont

/-!
# Lemmas about the font functions

`Does api m w a c n sets`: the piece of code `m`, started in `w`, ends normally with the result `a`,
leaves the console in the state `c` and `n` references to the module, calls only functions that exist,
and the calls that change the font are `sets`.
-/
namespace Winpty.FontApi

open Winpty.ConsoleFont (Font XpFont selectSmallFont readFontTable)
open Winpty.Spec.FontApi

def Does {σ α : Type} (api : Api σ) (m : Run σ α) (w : World σ) (a : α) (c : σ) (n : Nat)
    (sets : List Ev) : Prop :=
  ∃ evs, m w = .ok a ⟨c, n, w.log ++ evs⟩ ∧ (∀ f, Ev.call f ∈ evs → api.present f = true) ∧
    evs.filter changesFont = sets

theorem Does.bind {σ α β : Type} {api : Api σ} {m : Run σ α} {k : α → Run σ β} {w : World σ} {a : α}
    {c : σ} {n : Nat} {sets : List Ev} {b : β} {c' : σ} {n' : Nat} {sets' : List Ev}
    (h : Does api m w a c n sets)
    (h' : ∀ log, Does api (k a) ⟨c, n, log⟩ b c' n' sets') :
    Does api (Run.bind m k) w b c' n' (sets ++ sets') := by
  obtain ⟨e1, h1, p1, f1⟩ := h
  obtain ⟨e2, h2, p2, f2⟩ := h' (w.log ++ e1)
  refine ⟨e1 ++ e2, ?_, ?_, ?_⟩
  · show (match m w with
      | .ok a w' => k a w'
      | .assertFailed => .assertFailed
      | .nullCall => .nullCall
      | .undefined => .undefined) = _
    rw [h1]
    show k a _ = _
    rw [h2, List.append_assoc]
  · intro f hf
    rcases List.mem_append.1 hf with hf | hf
    · exact p1 f hf
    · exact p2 f hf
  · rw [List.filter_append, f1, f2]

/-- For pieces that make no changing call. -/
theorem Does.bind0 {σ α β : Type} {api : Api σ} {m : Run σ α} {k : α → Run σ β} {w : World σ} {a : α}
    {c : σ} {n : Nat} {b : β} {c' : σ} {n' : Nat} {sets' : List Ev}
    (h : Does api m w a c n [])
    (h' : ∀ log, Does api (k a) ⟨c, n, log⟩ b c' n' sets') :
    Does api (Run.bind m k) w b c' n' sets' := h.bind h'

theorem does_pure {σ α : Type} (api : Api σ) (a : α) (w : World σ) :
    Does api (Run.pure a) w a w.con w.modules [] :=
  ⟨[], by unfold Run.pure; simp, by simp, rfl⟩

theorem does_trace {σ : Type} (api : Api σ) (tracing : Bool) (ev : Ev) (w : World σ)
    (h : ∀ f, ev ≠ .call f) : Does api (trace tracing ev) w () w.con w.modules [] := by
  cases tracing with
  | false => exact ⟨[], by unfold trace; simp, by simp, rfl⟩
  | true =>
    refine ⟨[ev], by unfold trace; simp, ?_, ?_⟩
    · intro f hf
      rcases List.mem_singleton.1 hf with hf
      exact absurd hf.symm (h f)
    · cases ev with
      | call f => exact absurd rfl (h f)
      | note _ => rfl
      | fonts _ _ _ => rfl

theorem does_note {σ : Type} (api : Api σ) (tracing : Bool) (s : String) (w : World σ) :
    Does api (trace tracing (.note s)) w () w.con w.modules [] :=
  does_trace api tracing _ w (by intro f h; cases h)

theorem does_load {σ : Type} (api : Api σ) (hk : api.kernel32 = true) (w : World σ) :
    Does api (loadModule api) w () w.con (w.modules + 1) [] :=
  ⟨[], by unfold loadModule; rw [hk]; simp, by simp, rfl⟩

theorem does_free {σ : Type} (api : Api σ) (w : World σ) :
    Does api freeModule w () w.con (w.modules - 1) [] :=
  ⟨[], by unfold freeModule; simp, by simp, rfl⟩

theorem does_freeTwo {σ : Type} (api : Api σ) (w : World σ) :
    Does api freeTwo w () w.con (w.modules - 1 - 1) [] :=
  (does_free api w).bind0 fun log => does_free api ⟨w.con, w.modules - 1, log⟩

theorem does_proc {σ : Type} (api : Api σ) (tracing : Bool) (f : Fn) (w : World σ) :
    Does api (proc api tracing f) w (api.present f) w.con w.modules [] := by
  unfold proc
  cases h : api.present f with
  | true => exact does_pure api true w
  | false =>
    exact (does_note api tracing _ w).bind0 fun log => does_pure api false ⟨w.con, w.modules, log⟩

def xpOf {σ : Type} (api : Api σ) : Xp :=
  ⟨api.present .getCurrentConsoleFont, api.present .getConsoleFontSize⟩

def undocumentedOf {σ : Type} (api : Api σ) : Undocumented :=
  ⟨xpOf api, api.present .setConsoleFont, api.present .getNumberOfConsoleFonts⟩

def vistaOf {σ : Type} (api : Api σ) : Vista :=
  ⟨xpOf api, api.present .getCurrentConsoleFontEx, api.present .setCurrentConsoleFontEx⟩

theorem does_newXp {σ : Type} (api : Api σ) (hk : api.kernel32 = true) (tracing : Bool) (w : World σ) :
    Does api (newXp api tracing) w (xpOf api) w.con (w.modules + 1) [] :=
  (does_load api hk w).bind0 fun l1 =>
  (does_proc api tracing _ ⟨w.con, w.modules + 1, l1⟩).bind0 fun l2 =>
  (does_proc api tracing _ ⟨w.con, w.modules + 1, l2⟩).bind0 fun l3 =>
  does_pure api _ ⟨w.con, w.modules + 1, l3⟩

theorem does_newUndocumented {σ : Type} (api : Api σ) (hk : api.kernel32 = true) (tracing : Bool)
    (w : World σ) :
    Does api (newUndocumented api tracing) w (undocumentedOf api) w.con (w.modules + 1 + 1) [] :=
  (does_newXp api hk tracing w).bind0 fun l0 =>
  (does_load api hk ⟨w.con, w.modules + 1, l0⟩).bind0 fun l1 =>
  (does_proc api tracing _ ⟨w.con, w.modules + 1 + 1, l1⟩).bind0 fun l2 =>
  (does_proc api tracing _ ⟨w.con, w.modules + 1 + 1, l2⟩).bind0 fun l3 =>
  does_pure api _ ⟨w.con, w.modules + 1 + 1, l3⟩

theorem does_newVista {σ : Type} (api : Api σ) (hk : api.kernel32 = true) (tracing : Bool)
    (w : World σ) :
    Does api (newVista api tracing) w (vistaOf api) w.con (w.modules + 1 + 1) [] :=
  (does_newXp api hk tracing w).bind0 fun l0 =>
  (does_load api hk ⟨w.con, w.modules + 1, l0⟩).bind0 fun l1 =>
  (does_proc api tracing _ ⟨w.con, w.modules + 1 + 1, l1⟩).bind0 fun l2 =>
  (does_proc api tracing _ ⟨w.con, w.modules + 1 + 1, l2⟩).bind0 fun l3 =>
  does_pure api _ ⟨w.con, w.modules + 1 + 1, l3⟩

theorem does_use {σ α : Type} (api : Api σ) (v p : Bool) (f : Fn) (e : σ → α × σ) (w : World σ)
    (hv : v = true) (hp : p = true) (hf : api.present f = true) :
    Does api (use v p f e) w (e w.con).1 (e w.con).2 w.modules ([Ev.call f].filter changesFont) := by
  subst hv; subst hp
  refine ⟨[.call f], by unfold use; simp, ?_, rfl⟩
  intro g hg
  rcases List.mem_singleton.1 hg with hg
  cases hg
  exact hf

theorem does_readTable {σ : Type} (api : Api σ) (a : Xp) (hv : a.valid = true)
    (hf : api.present .getConsoleFontSize = true) (left : Nat) : ∀ (i : Nat) (w : World σ),
    Does api (readTable api a i left) w (readFontTable (api.size w.con) i left) w.con w.modules [] := by
  have hp : a.getConsoleFontSize = true := by
    unfold Xp.valid at hv; revert hv; cases a.getConsoleFontSize <;> simp
  induction left with
  | zero => intro i w; exact does_pure api [] w
  | succ left ih =>
    intro i w
    unfold readTable
    refine (does_use api _ _ _ _ w hv hp hf).bind0 (sets' := []) fun l1 => ?_
    show Does api (if (api.size w.con i).1 = 0 ∧ (api.size w.con i).2 = 0 then _ else _) _ _ _ _ _
    rw [readFontTable]
    by_cases h : (api.size w.con i).1 = 0 ∧ (api.size w.con i).2 = 0
    · rw [if_pos h, if_pos h]
      exact does_pure api [] ⟨w.con, w.modules, l1⟩
    · rw [if_neg h, if_neg h]
      exact (ih (i + 1) ⟨w.con, w.modules, l1⟩).bind0 fun l2 => does_pure api _ ⟨w.con, w.modules, l2⟩

theorem does_dumpLines {σ : Type} (api : Api σ) (tracing : Bool) (table : List XpFont) (fuel : Nat) :
    ∀ (first : Nat) (w : World σ), table.length ≤ first + fuel →
      Does api (dumpLines tracing table first fuel) w () w.con w.modules [] := by
  induction fuel with
  | zero =>
    intro first w h
    rw [dumpLines, if_neg (by omega)]
    exact does_pure api () w
  | succ fuel ih =>
    intro first w h
    rw [dumpLines]
    by_cases hl : first < table.length
    · rw [if_pos hl]
      refine (does_trace api tracing _ w (by intro f h; cases h)).bind0 fun l1 => ?_
      exact ih _ ⟨w.con, w.modules, l1⟩ (by unfold lastOfLine; omega)
    · rw [if_neg hl]
      exact does_pure api () w

theorem does_dumpFontTable {σ : Type} (api : Api σ) (hk : api.kernel32 = true) (tracing : Bool)
    (w : World σ) : Does api (dumpFontTable api tracing) w () w.con w.modules [] := by
  unfold dumpFontTable
  cases tracing with
  | false => exact does_pure api () w
  | true =>
    refine (does_newXp api hk true w).bind0 fun l1 => ?_
    cases hv : (xpOf api).valid with
    | false =>
      simp only [Bool.not_false, if_true]
      exact (does_note api true _ ⟨w.con, w.modules + 1, l1⟩).bind0 fun l2 =>
        does_free api ⟨w.con, w.modules + 1, l2⟩
    | true =>
      simp only [Bool.not_true, Bool.false_eq_true, if_false]
      have hp : api.present .getConsoleFontSize = true := by
        unfold Xp.valid xpOf at hv
        revert hv; cases api.present .getConsoleFontSize <;> simp
      refine (does_readTable api _ hv hp 1000 0 ⟨w.con, w.modules + 1, l1⟩).bind0 fun l2 => ?_
      refine (does_dumpLines api true _ _ 0 ⟨w.con, w.modules + 1, l2⟩ (by omega)).bind0 fun l3 => ?_
      refine Does.bind0 (a := ()) (c := w.con) (n := w.modules + 1) ?_ fun l4 =>
        does_free api ⟨w.con, w.modules + 1, l4⟩
      split
      · exact does_note api true _ ⟨w.con, w.modules + 1, l3⟩
      · exact does_pure api () ⟨w.con, w.modules + 1, l3⟩

theorem does_dumpVistaFont {σ : Type} (api : Api σ) (tracing : Bool) (w : World σ)
    (hv : (vistaOf api).valid = true) :
    Does api (dumpVistaFont api tracing (vistaOf api)) w () w.con w.modules [] := by
  have hp : api.present .getCurrentConsoleFontEx = true := by
    unfold Vista.valid vistaOf at hv
    revert hv; cases api.present .getCurrentConsoleFontEx <;> simp
  unfold dumpVistaFont
  cases tracing with
  | false => exact does_pure api () w
  | true =>
    refine (does_use api _ _ _ _ w hv hp hp).bind0 (sets' := []) fun l1 => ?_
    show Does api (match api.getEx w.con with | none => _ | some _ => _) ⟨w.con, w.modules, l1⟩ _ _ _ _
    cases api.getEx w.con with
    | none => exact does_note api true _ ⟨w.con, w.modules, l1⟩
    | some _ => exact does_note api true _ ⟨w.con, w.modules, l1⟩

theorem does_dumpXPFont {σ : Type} (api : Api σ) (tracing : Bool) (w : World σ)
    (hv : (xpOf api).valid = true) :
    Does api (dumpXPFont api tracing (xpOf api)) w () w.con w.modules [] := by
  have hp : api.present .getCurrentConsoleFont = true := by
    unfold Xp.valid xpOf at hv
    revert hv; cases api.present .getCurrentConsoleFont <;> simp
  unfold dumpXPFont
  cases tracing with
  | false => exact does_pure api () w
  | true =>
    refine (does_use api _ _ _ _ w hv hp hp).bind0 (sets' := []) fun l1 => ?_
    show Does api (match api.getXp w.con with | none => _ | some _ => _) ⟨w.con, w.modules, l1⟩ _ _ _ _
    cases api.getXp w.con with
    | none => exact does_note api true _ ⟨w.con, w.modules, l1⟩
    | some _ => exact does_note api true _ ⟨w.con, w.modules, l1⟩

/-! ## Windows Vista and later -/

theorem wcsncmpEq_spec (face : List Nat) (hz : ∀ u ∈ face, u ≠ 0) : ∀ (name : List Nat) (n : Nat),
    face.length < n → n ≤ name.length →
    wcsncmpEq name (face ++ [0]) n = some (decide ((face ++ [0]) <+: name)) := by
  induction face with
  | nil =>
    intro name n h1 h2
    cases n with
    | zero => simp at h1
    | succ n =>
      cases name with
      | nil => simp at h2
      | cons a as =>
        by_cases ha : a = 0
        · subst ha
          simp [wcsncmpEq]
        · have : ¬ ([0] <+: a :: as) := by
            rw [List.cons_prefix_cons]
            exact fun h => ha h.1.symm
          simp only [List.nil_append, wcsncmpEq]
          rw [if_pos ha, decide_eq_false this]
  | cons f fs ih =>
    intro name n h1 h2
    cases n with
    | zero => simp at h1
    | succ n =>
      cases name with
      | nil => simp at h2
      | cons a as =>
        have hf : f ≠ 0 := hz f (by simp)
        simp only [List.cons_append, wcsncmpEq]
        by_cases ha : a = f
        · subst ha
          rw [if_neg (by simp), if_neg hf, ih (fun u hu => hz u (by simp [hu])) as n
            (by simpa using h1) (by simpa using h2)]
          simp [List.cons_prefix_cons]
        · have : ¬ (f :: (fs ++ [0]) <+: a :: as) := by
            rw [List.cons_prefix_cons]
            exact fun h => ha h.1.symm
          rw [if_pos ha, decide_eq_false this]

theorem tableFor_face (codePage : Int) (a b : Bool) :
    (∀ u ∈ (ConsoleFont.tableFor codePage a b).1, u ≠ 0) ∧
      (ConsoleFont.tableFor codePage a b).1.length < 31 := by
  unfold ConsoleFont.tableFor
  split
  · show (∀ u ∈ ConsoleFont.kMSGothic, u ≠ 0) ∧ ConsoleFont.kMSGothic.length < 31
    decide
  · split
    · decide
    · split
      · decide
      · split
        · decide
        · decide

theorem selected_face {codePage columns : Int} {a b : Bool} {font : Font}
    (h : selectSmallFont codePage columns a b = some font) :
    (∀ u ∈ font.faceName, u ≠ 0) ∧ font.faceName.length < 31 := by
  unfold selectSmallFont at h
  split at h
  · cases h
  · cases h
    exact tableFor_face codePage a b

theorem infoFor_eq (font : Font) (hz : ∀ u ∈ font.faceName, u ≠ 0) (hl : font.faceName.length < 31) :
    infoFor font = some (request font.faceName font.family font.size) := by
  unfold infoFor
  rw [Props.C45_copy_nul (List.replicate 32 0) font.faceName [] hz (by simp)]
  simp only [List.length_replicate]
  rw [List.take_of_length_le (by omega), Nat.min_eq_left (by omega)]
  rfl

/-- The two results of asking for a font. -/
def granted {σ : Type} (api : Api σ) (s : σ) (font : Font) : Bool :=
  match api.setEx s (request font.faceName font.family font.size) with
  | (false, _) => false
  | (true, s') =>
    match api.getEx s' with
    | none => false
    | some info => decide ((font.faceName ++ [0]) <+: info.faceName)

theorem granted_iff {σ : Type} (api : Api σ) (s : σ) (font : Font) :
    granted api s font = true ↔ Granted api s font.faceName font.family font.size := by
  unfold granted Granted asked
  cases h : api.setEx s (request font.faceName font.family font.size) with
  | mk ok s' =>
    cases ok with
    | false => simp
    | true =>
      cases hg : api.getEx s' with
      | none => simp [hg]
      | some info => simp [hg]

theorem does_setFontVista {σ : Type} (api : Api σ) (tracing : Bool) (font : Font) (w : World σ)
    (hv : (vistaOf api).valid = true) (hz : ∀ u ∈ font.faceName, u ≠ 0)
    (hl : font.faceName.length < 31)
    (hn : ∀ s info, api.getEx s = some info → info.faceName.length = 32) :
    Does api (setFontVista api tracing (vistaOf api) font) w (granted api w.con font)
      (asked api w.con font.faceName font.family font.size) w.modules
      [.call .setCurrentConsoleFontEx] := by
  have hp : api.present .getCurrentConsoleFontEx = true ∧
      api.present .setCurrentConsoleFontEx = true := by
    unfold Vista.valid vistaOf at hv
    revert hv
    cases api.present .getCurrentConsoleFontEx <;> cases api.present .setCurrentConsoleFontEx <;> simp
  unfold setFontVista
  rw [infoFor_eq font hz hl]
  refine (does_note api tracing _ w).bind0 fun l1 => ?_
  refine (does_use api _ _ _ _ ⟨w.con, w.modules, l1⟩ hv hp.2 hp.2).bind (sets' := []) fun l2 => ?_
  unfold granted asked
  cases h : api.setEx w.con (request font.faceName font.family font.size) with
  | mk ok s' =>
    cases ok with
    | false =>
      simp only
      exact (does_note api tracing _ ⟨s', w.modules, l2⟩).bind0 fun l3 =>
        does_pure api false ⟨s', w.modules, l3⟩
    | true =>
      simp only
      refine (does_use api _ _ _ _ ⟨s', w.modules, l2⟩ hv hp.1 hp.1).bind0 (sets' := []) fun l3 => ?_
      show Does api (match api.getEx s' with | none => _ | some info => _) ⟨s', w.modules, l3⟩ _ _ _ _
      cases hg : api.getEx s' with
      | none =>
        exact (does_note api tracing _ ⟨s', w.modules, l3⟩).bind0 fun l4 =>
          does_pure api false ⟨s', w.modules, l4⟩
      | some info =>
        simp only [checkFace]
        rw [wcsncmpEq_spec font.faceName hz info.faceName 32 (by omega) (by rw [hn s' info hg]; omega)]
        cases hd : decide ((font.faceName ++ [0]) <+: info.faceName) with
        | true => exact does_pure api true ⟨s', w.modules, l3⟩
        | false =>
          exact (does_note api tracing _ ⟨s', w.modules, l3⟩).bind0 fun l4 =>
            (does_note api tracing _ ⟨s', w.modules, l4⟩).bind0 fun l5 =>
            does_pure api false ⟨s', w.modules, l5⟩

theorem does_choose {σ : Type} (api : Api σ) (codePage columns : Int) (a b : Bool) (font : Font)
    (h : selectSmallFont codePage columns a b = some font) (w : World σ) :
    Does api (choose codePage columns a b) w font w.con w.modules [] := by
  unfold choose
  rw [h]
  exact does_pure api font w

/-- The console after `setSmallFontVista`, and the calls that changed it. -/
def vistaEnd {σ : Type} (api : Api σ) (s : σ) (font fontFB : Font) : σ × List Ev :=
  if granted api s font then
    (asked api s font.faceName font.family font.size, [.call .setCurrentConsoleFontEx])
  else if api.outputCP s = 932 ∨ api.outputCP s = 936 ∨ api.outputCP s = 949 ∨ api.outputCP s = 950 then
    (asked api (asked api s font.faceName font.family font.size) fontFB.faceName fontFB.family
      fontFB.size, [.call .setCurrentConsoleFontEx, .call .setCurrentConsoleFontEx])
  else (asked api s font.faceName font.family font.size, [.call .setCurrentConsoleFontEx])

theorem does_setSmallFontVista {σ : Type} (api : Api σ) (tracing : Bool) (columns : Int) (a b : Bool)
    (font fontFB : Font) (w : World σ) (hv : (vistaOf api).valid = true)
    (hn : ∀ s info, api.getEx s = some info → info.faceName.length = 32)
    (h1 : selectSmallFont (api.outputCP w.con) columns a b = some font)
    (h2 : selectSmallFont 0 columns a b = some fontFB) :
    Does api (setSmallFontVista api tracing (vistaOf api) columns a b) w ()
      (vistaEnd api w.con font fontFB).1 w.modules (vistaEnd api w.con font fontFB).2 := by
  have f1 := selected_face h1
  have f2 := selected_face h2
  unfold setSmallFontVista
  have ho : Does api (outputCP api) w (api.outputCP w.con) w.con w.modules [] :=
    ⟨[], by unfold outputCP; simp, by simp, rfl⟩
  refine ho.bind0 fun l1 => ?_
  refine (does_choose api _ columns a b font h1 ⟨w.con, w.modules, l1⟩).bind0 fun l2 => ?_
  unfold vistaEnd
  have step := does_setFontVista api tracing font ⟨w.con, w.modules, l2⟩ hv f1.1 f1.2 hn
  cases hg : granted api w.con font with
  | true =>
    simp only [hg] at step
    refine step.bind (sets' := []) fun l3 => ?_
    exact does_note api tracing _ ⟨_, w.modules, l3⟩
  | false =>
    simp only [hg] at step
    simp only [Bool.false_eq_true, if_false]
    by_cases hc : api.outputCP w.con = 932 ∨ api.outputCP w.con = 936 ∨ api.outputCP w.con = 949 ∨
        api.outputCP w.con = 950
    · rw [if_pos hc]
      refine step.bind (sets' := [.call .setCurrentConsoleFontEx]) fun l3 => ?_
      simp only [Bool.false_eq_true, if_false]
      unfold fallBack
      rw [if_pos hc]
      refine (does_note api tracing _ ⟨_, w.modules, l3⟩).bind0 fun l4 => ?_
      refine (does_choose api 0 columns a b fontFB h2 ⟨_, w.modules, l4⟩).bind0 fun l5 => ?_
      refine (does_setFontVista api tracing fontFB ⟨_, w.modules, l5⟩ hv f2.1 f2.2 hn).bind
        (sets' := []) fun l6 => ?_
      split
      · exact does_note api tracing _ ⟨_, w.modules, l6⟩
      · exact does_note api tracing _ ⟨_, w.modules, l6⟩
    · rw [if_neg hc]
      refine step.bind (sets' := []) fun l3 => ?_
      simp only [Bool.false_eq_true, if_false]
      unfold fallBack
      rw [if_neg hc]
      exact does_note api tracing _ ⟨_, w.modules, l3⟩

theorem does_withVista {σ : Type} (api : Api σ) (hk : api.kernel32 = true) (tracing : Bool)
    (columns : Int) (a b : Bool) (font fontFB : Font) (w : World σ) (hv : (vistaOf api).valid = true)
    (hn : ∀ s info, api.getEx s = some info → info.faceName.length = 32)
    (h1 : selectSmallFont (api.outputCP w.con) columns a b = some font)
    (h2 : selectSmallFont 0 columns a b = some fontFB) :
    Does api (withVista api tracing (vistaOf api) columns a b) w ()
      (vistaEnd api w.con font fontFB).1 w.modules (vistaEnd api w.con font fontFB).2 := by
  refine (does_dumpVistaFont api tracing w hv).bind0 fun l1 => ?_
  refine (does_dumpFontTable api hk tracing ⟨w.con, w.modules, l1⟩).bind0 fun l2 => ?_
  have step := does_setSmallFontVista api tracing columns a b font fontFB ⟨w.con, w.modules, l2⟩ hv hn h1 h2
  have rest : ∀ l3, Does api (Run.bind (dumpVistaFont api tracing (vistaOf api)) fun _ =>
      dumpFontTable api tracing) ⟨(vistaEnd api w.con font fontFB).1, w.modules, l3⟩ ()
      (vistaEnd api w.con font fontFB).1 w.modules [] := fun l3 =>
    (does_dumpVistaFont api tracing ⟨_, w.modules, l3⟩ hv).bind0 fun l4 =>
      does_dumpFontTable api hk tracing ⟨_, w.modules, l4⟩
  have := Does.bind (k := fun _ => Run.bind (dumpVistaFont api tracing (vistaOf api)) fun _ =>
      dumpFontTable api tracing) step rest
  rwa [List.append_nil] at this

/-! ## Windows XP -/

theorem tried_nil {σ : Type} (api : Api σ) (s : σ) : TriedUntilGranted api s [] [] :=
  ⟨List.prefix_rfl, by intro a i b h; simp at h, .inl rfl⟩

theorem tried_stop {σ : Type} (api : Api σ) (s : σ) (i : Nat) (rest : List Nat)
    (h : GrantedXp api s i ∨ UnreadableXp api s i) : TriedUntilGranted api s (i :: rest) [i] := by
  refine ⟨⟨rest, rfl⟩, ?_, .inr ⟨[], i, rfl, h⟩⟩
  intro a j b hj hb
  cases a with
  | nil =>
    simp only [List.nil_append, List.cons.injEq] at hj
    exact absurd hj.2.symm hb
  | cons a as => simp at hj

theorem tried_cons {σ : Type} (api : Api σ) (s : σ) (i : Nat) (rest tried : List Nat)
    (hg : ¬ GrantedXp api s i) (hu : ¬ UnreadableXp api s i)
    (h : TriedUntilGranted api (askedXp api s i) rest tried) :
    TriedUntilGranted api s (i :: rest) (i :: tried) := by
  obtain ⟨h1, h2, h3⟩ := h
  refine ⟨List.cons_prefix_cons.2 ⟨rfl, h1⟩, ?_, ?_⟩
  · intro a j b hj hb
    cases a with
    | nil =>
      simp only [List.nil_append, List.cons.injEq] at hj
      rw [← hj.1]
      exact ⟨hg, hu⟩
    | cons a as =>
      simp only [List.cons_append, List.cons.injEq] at hj
      rw [← hj.1]
      exact h2 as j b hj.2 hb
  · rcases h3 with h3 | ⟨a, j, h3, h4⟩
    · exact .inl (by rw [h3])
    · exact .inr ⟨i :: a, j, by rw [h3]; rfl, h4⟩

theorem does_tryFonts {σ : Type} (api : Api σ) (hv : (undocumentedOf api).valid = true)
    (fs : List XpFont) : ∀ (c : σ) (n : Nat), ∃ tried,
      (∀ tracing log, Does api (tryFonts api tracing (undocumentedOf api) fs) ⟨c, n, log⟩ ()
        (tried.foldl (askedXp api) c) n (tried.map fun _ => .call .setConsoleFont)) ∧
      TriedUntilGranted api c ((fs.filter fun f => decide (4 ≤ f.x)).map (·.index)) tried := by
  have hp : (xpOf api).valid = true ∧ api.present .getCurrentConsoleFont = true ∧
      api.present .setConsoleFont = true := by
    unfold Undocumented.valid undocumentedOf Xp.valid xpOf at hv
    unfold Xp.valid xpOf
    revert hv
    cases api.present .getCurrentConsoleFont <;> cases api.present .setConsoleFont <;>
      cases api.present .getConsoleFontSize <;> simp
  induction fs with
  | nil =>
    intro c n
    exact ⟨[], fun tracing log => does_note api tracing _ ⟨c, n, log⟩, tried_nil api c⟩
  | cons f fs ih =>
    intro c n
    by_cases hx : f.x < 4
    · obtain ⟨tried, h1, h2⟩ := ih c n
      refine ⟨tried, fun tracing log => ?_, ?_⟩
      · rw [tryFonts, if_pos hx]
        exact h1 tracing log
      · rw [List.filter_cons_of_neg (by simpa using hx)]
        exact h2
    · rw [List.filter_cons_of_pos (by simpa using hx), List.map_cons]
      have start : ∀ l1, Does api (use (undocumentedOf api).valid (undocumentedOf api).setConsoleFont
          .setConsoleFont fun s => api.setXp s f.index) ⟨c, n, l1⟩
          (api.setXp c f.index).1 (askedXp api c f.index) n
          [.call .setConsoleFont] := fun l1 =>
        does_use api _ _ _ _ ⟨c, n, l1⟩ hv hp.2.2 hp.2.2
      have get : ∀ l1, Does api (use (undocumentedOf api).base.valid
          (undocumentedOf api).base.getCurrentConsoleFont .getCurrentConsoleFont (reading api.getXp))
          ⟨askedXp api c f.index, n, l1⟩ (api.getXp (askedXp api c f.index)) (askedXp api c f.index) n
          [] := fun l1 =>
        does_use api _ _ _ _ ⟨askedXp api c f.index, n, l1⟩ hp.1 hp.2.1 hp.2.1
      obtain ⟨tried, h1, h2⟩ := ih (askedXp api c f.index) n
      cases hd : (api.setXp c f.index).1 with
      | false =>
        refine ⟨f.index :: tried, fun tracing log => ?_, ?_⟩
        · rw [tryFonts, if_neg hx]
          refine (does_note api tracing _ ⟨c, n, log⟩).bind0 fun l1 => ?_
          have st := start l1
          rw [hd] at st
          refine st.bind (sets' := tried.map fun _ => .call .setConsoleFont) fun l2 => ?_
          simp only [Bool.not_false, if_true]
          exact (does_note api tracing _ ⟨_, n, l2⟩).bind0 fun l3 => h1 tracing l3
        · exact tried_cons api c f.index _ tried (fun h => by simp [GrantedXp, hd] at h)
            (fun h => by simp [UnreadableXp, hd] at h) h2
      | true =>
        cases hg : api.getXp (askedXp api c f.index) with
        | none =>
          refine ⟨[f.index], fun tracing log => ?_, tried_stop api c f.index _ (.inr ⟨hd, hg⟩)⟩
          rw [tryFonts, if_neg hx]
          refine (does_note api tracing _ ⟨c, n, log⟩).bind0 fun l1 => ?_
          have st := start l1
          rw [hd] at st
          refine st.bind (sets' := []) fun l2 => ?_
          simp only [Bool.not_true, Bool.false_eq_true, if_false]
          have gt := get l2
          rw [hg] at gt
          exact gt.bind0 fun l3 => does_note api tracing _ ⟨_, n, l3⟩
        | some m =>
          by_cases hm : m = f.index
          · subst hm
            refine ⟨[f.index], fun tracing log => ?_, tried_stop api c f.index _ (.inl ⟨hd, hg⟩)⟩
            rw [tryFonts, if_neg hx]
            refine (does_note api tracing _ ⟨c, n, log⟩).bind0 fun l1 => ?_
            have st := start l1
            rw [hd] at st
            refine st.bind (sets' := []) fun l2 => ?_
            simp only [Bool.not_true, Bool.false_eq_true, if_false]
            have gt := get l2
            rw [hg] at gt
            refine gt.bind0 fun l3 => ?_
            simp only [ne_eq, not_true_eq_false, if_false]
            exact does_note api tracing _ ⟨_, n, l3⟩
          · refine ⟨f.index :: tried, fun tracing log => ?_, ?_⟩
            · rw [tryFonts, if_neg hx]
              refine (does_note api tracing _ ⟨c, n, log⟩).bind0 fun l1 => ?_
              have st := start l1
              rw [hd] at st
              refine st.bind (sets' := tried.map fun _ => .call .setConsoleFont) fun l2 => ?_
              simp only [Bool.not_true, Bool.false_eq_true, if_false]
              have gt := get l2
              rw [hg] at gt
              refine gt.bind0 fun l3 => ?_
              simp only [ne_eq, hm, not_false_eq_true, if_true]
              exact (does_note api tracing _ ⟨_, n, l3⟩).bind0 fun l4 =>
                (does_dumpXPFont api tracing ⟨_, n, l4⟩ hp.1).bind0 fun l5 => h1 tracing l5
            · exact tried_cons api c f.index _ tried
                (fun h => by simp [GrantedXp, hg] at h; exact hm h.2)
                (fun h => by simp [UnreadableXp, hg] at h) h2

theorem does_withXp {σ : Type} (api : Api σ) (hk : api.kernel32 = true)
    (sort : List XpFont → List XpFont) (hv : (undocumentedOf api).valid = true) (c : σ) (n : Nat) :
    ∃ tried, (∀ tracing log, Does api (withXp api tracing sort (undocumentedOf api)) ⟨c, n, log⟩ ()
        (tried.foldl (askedXp api) c) n (tried.map fun _ => .call .setConsoleFont)) ∧
      TriedUntilGranted api c
        (((sort (readFontTable (api.size c) 0 (api.count c))).filter fun f => decide (4 ≤ f.x)).map
          (·.index)) tried := by
  have hp : (xpOf api).valid = true ∧ api.present .getConsoleFontSize = true ∧
      api.present .getNumberOfConsoleFonts = true := by
    unfold Undocumented.valid undocumentedOf Xp.valid xpOf at hv
    unfold Xp.valid xpOf
    revert hv
    cases api.present .getCurrentConsoleFont <;> cases api.present .setConsoleFont <;>
      cases api.present .getConsoleFontSize <;> simp
  obtain ⟨tried, h1, h2⟩ := does_tryFonts api hv
    (sort (readFontTable (api.size c) 0 (api.count c))) c n
  refine ⟨tried, fun tracing log => ?_, h2⟩
  refine (does_dumpXPFont api tracing ⟨c, n, log⟩ hp.1).bind0 fun l1 => ?_
  refine (does_dumpFontTable api hk tracing ⟨c, n, l1⟩).bind0 fun l2 => ?_
  have mid : Does api (setSmallFontXP api tracing sort (undocumentedOf api)) ⟨c, n, l2⟩ ()
      (tried.foldl (askedXp api) c) n (tried.map fun _ => .call .setConsoleFont) := by
    unfold setSmallFontXP
    refine (does_use api _ _ _ _ ⟨c, n, l2⟩ hv hp.2.2 hp.2.2).bind0
      (sets' := tried.map fun _ => .call .setConsoleFont) fun l3 => ?_
    refine (does_note api tracing _ ⟨c, n, l3⟩).bind0 fun l4 => ?_
    exact (does_readTable api _ hp.1 hp.2.1 _ 0 ⟨c, n, l4⟩).bind0 fun l5 => h1 tracing l5
  have rest : ∀ l3, Does api (Run.bind (dumpXPFont api tracing (undocumentedOf api).base) fun _ =>
      dumpFontTable api tracing) ⟨tried.foldl (askedXp api) c, n, l3⟩ ()
      (tried.foldl (askedXp api) c) n [] := fun l3 =>
    (does_dumpXPFont api tracing ⟨_, n, l3⟩ hp.1).bind0 fun l4 =>
      does_dumpFontTable api hk tracing ⟨_, n, l4⟩
  have := Does.bind (k := fun _ => Run.bind (dumpXPFont api tracing (undocumentedOf api).base) fun _ =>
      dumpFontTable api tracing) mid rest
  rwa [List.append_nil] at this

end Winpty.FontApi
