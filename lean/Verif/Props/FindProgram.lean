import Verif.Spec.FindProgram

/-!
# C66, C67: the program the adapter starts, and its environment
-/
namespace Winpty.Props

open Winpty.FindProgram Winpty.Spec.Find

theorem tolower_iff (c d : Nat) (hd : d < 65 ∨ 90 < d) : tolower c = d ↔ SameLetter c d := by
  unfold tolower SameLetter
  split <;> omega

theorem map_tolower_iff (e ext : List Nat) (he : ∀ d ∈ ext, d < 65 ∨ 90 < d) :
    e.map tolower = ext ↔ e.length = ext.length ∧ ∀ p ∈ e.zip ext, SameLetter p.1 p.2 := by
  induction e generalizing ext with
  | nil => cases ext <;> simp
  | cons c e ih =>
    cases ext with
    | nil => simp
    | cons d ext =>
      have h1 := tolower_iff c d (he d (by simp))
      have h2 := ih ext fun d hd => he d (by simp [hd])
      simp only [List.map_cons, List.cons.injEq, h1, h2, List.length_cons, List.zip_cons_cons,
        List.mem_cons, forall_eq_or_imp]
      constructor
      · rintro ⟨h1, h2, h3⟩; exact ⟨by omega, h1, h3⟩
      · rintro ⟨h1, h2, h3⟩; exact ⟨h2, by omega, h3⟩

theorem endsWith_iff (file ext : List Nat) (he : ∀ d ∈ ext, d < 65 ∨ 90 < d) :
    endsWith file ext = true ↔ HasExt file ext := by
  unfold endsWith HasExt
  split
  · rename_i hl
    simp only [Bool.false_eq_true, false_iff]
    rintro ⟨stem, e, rfl, h1, h2⟩
    simp at hl; omega
  · rename_i hl
    rw [beq_iff_eq, map_tolower_iff _ _ he]
    constructor
    · rintro ⟨h1, h2⟩
      exact ⟨file.take (file.length - ext.length), _, (List.take_append_drop _ _).symm, h1, h2⟩
    · rintro ⟨stem, e, rfl, h1, h2⟩
      have : (stem ++ e).drop ((stem ++ e).length - ext.length) = e := by
        rw [← h1]; simp
      rw [this]
      exact ⟨h1, h2⟩

theorem isPath_iff (dir prog p : List Nat) : IsPath dir prog p ↔ p = joinPath dir prog := by
  unfold IsPath joinPath
  have hl : (∃ d, dir = d ++ [47]) ↔ dir.getLast? = some 47 := by
    rw [List.getLast?_eq_some_iff]
  rw [hl]
  cases dir with
  | nil => simp
  | cons c dir =>
    by_cases h : (c :: dir).getLast? = some 47
    · simp [h]
    · simp [h]

theorem runnable_iff (r : List Nat) :
    (Batch r ↔ (endsWith r dotBat || endsWith r dotCmd) = true) ∧
    (Binary r ↔ (endsWith r dotCom || endsWith r dotExe) = true) := by
  have h1 := endsWith_iff r dotBat (by simp [dotBat])
  have h2 := endsWith_iff r dotCmd (by simp [dotCmd])
  have h3 := endsWith_iff r dotCom (by simp [dotCom])
  have h4 := endsWith_iff r dotExe (by simp [dotExe])
  rw [Bool.or_eq_true, Bool.or_eq_true, h1, h2, h3, h4]
  exact ⟨Iff.rfl, Iff.rfl⟩

theorem usable_iff (env : Env) (prog dir file : List Nat) :
    Usable env prog dir file ↔ tryEntry env prog dir = some file := by
  have key : ∀ r : List Nat, (((Runnable r ∧ file = r) ∨ (¬ Runnable r ∧ file = r ++ [46, 101, 120, 101])) ∧
    ((Batch r ∧ env.msys = true → env.access file .read = true) ∧
      (¬ (Batch r ∧ env.msys = true) → env.access file .execute = true))) ↔
      (file = (checkExt env r).2 ∧ env.access file (checkExt env r).1 = true) := by
    intro r
    obtain ⟨hb, hp⟩ := runnable_iff r
    unfold checkExt Runnable
    rw [hb, hp]
    by_cases h1 : (endsWith r dotBat || endsWith r dotCmd) = true
    · simp only [h1, if_true]
      cases env.msys <;> simp
    · by_cases h2 : (endsWith r dotCom || endsWith r dotExe) = true
      · simp only [h1, h2, if_true, if_false]
        simp
      · simp only [h1, h2, if_false]
        simp [dotExe]
  unfold Usable tryEntry
  constructor
  · rintro ⟨p, r, hp, rfl, hr, h⟩
    rw [isPath_iff] at hp; subst hp
    obtain ⟨e, h⟩ := (key _).1 h
    rw [if_neg (by simpa using hr), ← e, if_pos h]
  · intro h
    split at h
    · cases h
    · rename_i hr
      split at h
      · rename_i ha
        cases h
        exact ⟨_, _, (isPath_iff _ _ _).2 rfl, rfl, by simpa using hr, (key _).2 ⟨rfl, ha⟩⟩
      · cases h

theorem find_none_iff (s : List Nat) (pos : Nat) (h : findFrom s 58 pos = none) :
    entries (s.drop pos) = [s.drop pos] := by
  fun_induction findFrom s 58 pos with
  | case1 pos hp he => cases h
  | case2 pos hp he ih =>
    rw [List.drop_eq_getElem_cons hp]
    have hne : s[pos] ≠ 58 := by
      intro e; apply he; rw [List.getElem?_eq_getElem hp, e]
    simp only [entries, hne, if_false, ih h]
  | case3 pos hp => rw [List.drop_eq_nil_of_le (by omega)]; rfl

theorem find_some (s : List Nat) (pos i : Nat) (h : findFrom s 58 pos = some i) :
    entries (s.drop pos) = (s.drop pos).take (i - pos) :: entries (s.drop (i + 1)) := by
  fun_induction findFrom s 58 pos with
  | case1 pos hp he =>
    cases h
    rw [List.drop_eq_getElem_cons hp]
    rw [List.getElem?_eq_getElem hp] at he
    have he' : s[i] = 58 := by simpa using he
    simp [entries, he']
  | case2 pos hp he ih =>
    have hb := findFrom_bounds _ _ _ _ h
    have := ih h
    rw [List.drop_eq_getElem_cons hp]
    have hne : s[pos] ≠ 58 := by
      intro e; apply he; rw [List.getElem?_eq_getElem hp, e]
    simp only [entries, hne, if_false, this]
    have e : i - pos = (i - (pos + 1)) + 1 := by omega
    rw [e, List.take_succ_cons]
  | case3 pos hp => cases h

/-- The search is a search through the entries, in their order. -/
theorem search_entries (env : Env) (prog s : List Nat) (pos : Nat) :
    searchFrom env prog s pos = (entries (s.drop pos)).findSome? (tryEntry env prog) := by
  fun_induction searchFrom env prog s pos with
  | case1 pos h => rw [find_none_iff s pos h]; simp
  | case2 pos i h c hc => rw [find_some s pos i h]; simp [hc]
  | case3 pos i h hc ih => rw [find_some s pos i h, ih]; simp [hc]

/-- C66.  A program given by a plain name is looked for in the entries of the `PATH` in their order; the
first entry in which there is a usable one counts, and what the session is asked to run is that file's
Windows path, which contains no `/`. -/
theorem C66_found (env : Env) (prog : List Nat) (h1 : 47 ∉ prog) (h2 : 92 ∉ prog) (out : List Nat) :
    findProgram env prog = .ok out ↔
      ∃ pre dir post file, entries (searchPath env) = pre ++ dir :: post ∧
        (∀ d ∈ pre, ∀ f, ¬ Usable env prog d f) ∧ Usable env prog dir file ∧
        out.length = (env.convPath file).length ∧
        ∀ i (hi : i < out.length) (hi' : i < (env.convPath file).length),
          ((env.convPath file)[i] = 47 → out[i] = 92) ∧
          ((env.convPath file)[i] ≠ 47 → out[i] = (env.convPath file)[i]) := by
  have hconv : ∀ file, (out = convertPosixPathToWin env file ↔
      out.length = (env.convPath file).length ∧
        ∀ i (hi : i < out.length) (hi' : i < (env.convPath file).length),
          ((env.convPath file)[i] = 47 → out[i] = 92) ∧
          ((env.convPath file)[i] ≠ 47 → out[i] = (env.convPath file)[i])) := by
    intro file
    constructor
    · rintro rfl
      refine ⟨by simp [convertPosixPathToWin], fun i hi hi' => ⟨fun h => ?_, fun h => ?_⟩⟩ <;>
        simp [convertPosixPathToWin, h]
    · rintro ⟨hl, h⟩
      refine List.ext_getElem (by simp [convertPosixPathToWin, hl]) fun i hi hi' => ?_
      have := h i hi (by omega)
      simp only [convertPosixPathToWin, List.getElem_map]
      split
      · rename_i e; exact this.1 e
      · rename_i e; exact this.2 e
  have hp : env.path.getD [] = searchPath env := by unfold searchPath; cases env.path <;> rfl
  unfold findProgram
  rw [if_pos (by simp [h1, h2]), search_entries, hp, List.drop_zero]
  constructor
  · intro h
    split at h
    · rename_i c hc
      cases h
      obtain ⟨pre, dir, post, e1, e2, e3⟩ := List.findSome?_eq_some_iff.1 hc
      refine ⟨pre, dir, post, c, e1, fun d hd f hu => ?_, (usable_iff _ _ _ _).2 e2, (hconv c).1 rfl⟩
      rw [usable_iff, e3 d hd] at hu; cases hu
    · cases h
  · rintro ⟨pre, dir, post, file, e1, e2, e3, e4⟩
    have hc : (entries (searchPath env)).findSome? (tryEntry env prog) = some file := by
      refine List.findSome?_eq_some_iff.2 ⟨pre, dir, post, e1, (usable_iff _ _ _ _).1 e3, fun d hd => ?_⟩
      cases ht : tryEntry env prog d with
      | none => rfl
      | some f => exact absurd ((usable_iff _ _ _ _).2 ht) (e2 d hd f)
    rw [hc]
    simp only [(hconv file).2 e4]

/-- C66.  It is reported as missing exactly if no entry of the `PATH` has a usable one. -/
theorem C66_not_found (env : Env) (prog : List Nat) (h1 : 47 ∉ prog) (h2 : 92 ∉ prog) :
    findProgram env prog = .notFound ↔
      ∀ dir ∈ entries (searchPath env), ∀ file, ¬ Usable env prog dir file := by
  have hp : env.path.getD [] = searchPath env := by unfold searchPath; cases env.path <;> rfl
  unfold findProgram
  rw [if_pos (by simp [h1, h2]), search_entries, hp, List.drop_zero]
  constructor
  · intro h
    split at h
    · cases h
    · rename_i hc
      rw [List.findSome?_eq_none_iff] at hc
      intro dir hd f hu
      rw [usable_iff, hc dir hd] at hu; cases hu
  · intro h
    have : (entries (searchPath env)).findSome? (tryEntry env prog) = none := by
      rw [List.findSome?_eq_none_iff]
      intro dir hd
      cases ht : tryEntry env prog dir with
      | none => rfl
      | some f => exact absurd ((usable_iff _ _ _ _).2 ht) (h dir hd f)
    rw [this]

/-- C66.  What is found in the `PATH` is something Windows can run: never a shell script. -/
theorem C66_runnable (env : Env) (prog dir file : List Nat) (h : Usable env prog dir file) :
    Runnable file := by
  obtain ⟨p, r, _, _, _, h, _⟩ := h
  rcases h with ⟨h, rfl⟩ | ⟨_, rfl⟩
  · exact h
  · exact .inr (.inr ⟨r, _, rfl, rfl, by simp [SameLetter]⟩)

/-- C66.  A program given with a directory is not looked for in the `PATH`. -/
theorem C66_with_directory (env : Env) (prog : List Nat) (h : 47 ∈ prog ∨ 92 ∈ prog) (p : Option (List Nat)) :
    findProgram { env with path := p } prog = findProgram env prog ∧
    (findProgram env prog = .unresolvable ↔ env.realpath prog = []) ∧
    (∀ out, findProgram env prog = .ok out → out = convertPosixPathToWin env (env.realpath prog)) := by
  have hc : ¬ (prog.contains 47 = false ∧ prog.contains 92 = false) := by
    rcases h with h | h <;> simp [h]
  refine ⟨?_, ?_, ?_⟩
  · unfold findProgram
    rw [if_neg hc, if_neg hc]; rfl
  · unfold findProgram
    rw [if_neg hc]
    cases env.realpath prog <;> simp
  · intro out
    unfold findProgram
    rw [if_neg hc]
    split
    · intro h; cases h
    · intro h; cases h; rfl

/-- A system in which `/usr/bin/python3` is a program `/usr/bin/python3.8.exe`, `/bin/sh` a shell
script, and `/opt/run` a batch file. -/
def someSystem : Env :=
  { path := some [47, 98, 58, 58, 47, 117, 47]
    realpath := fun p =>
      if p = [47, 98, 47, 112] then [47, 98, 47, 112]
      else if p = [47, 117, 47, 112] then [47, 117, 47, 112, 46, 69, 88, 69]
      else if p = [46, 47, 114] then [47, 111, 47, 114, 46, 98, 97, 116]
      else []
    access := fun f perm => f = [47, 117, 47, 112, 46, 69, 88, 69] && perm == .execute
    convPath := fun p => 67 :: 58 :: p
    msys := false }

/-- `PATH=/b::/u/`, looking for `p`: `/b/p` is a shell script (there is no `/b/p.exe`), the current
directory has none, `/u/p` is the program `/u/p.EXE`. -/
example : findProgram someSystem [112] = .ok [67, 58, 92, 117, 92, 112, 46, 69, 88, 69] ∧
    entries (searchPath someSystem) = [[47, 98], [], [47, 117, 47]] := by
  constructor
  · rw [C66_found _ _ (by simp) (by simp)]
    refine ⟨[[47, 98], []], [47, 117, 47], [], [47, 117, 47, 112, 46, 69, 88, 69], rfl, ?_, ?_, rfl, ?_⟩
    · intro d hd f
      rw [usable_iff]
      simp at hd
      rcases hd with rfl | rfl <;> exact fun h => by cases h
    · rw [usable_iff]; rfl
    · intro i hi _
      have : i < 10 := hi
      match i, this with
      | 0, _ | 1, _ | 2, _ | 3, _ | 4, _ | 5, _ | 6, _ | 7, _ | 8, _ | 9, _ =>
        simp [someSystem]
  · rfl

example : findProgram someSystem [113] = .notFound := by
  rw [C66_not_found _ _ (by simp) (by simp)]
  intro d hd f
  rw [usable_iff]
  have : entries (searchPath someSystem) = [[47, 98], [], [47, 117, 47]] := rfl
  rw [this] at hd
  simp at hd
  rcases hd with rfl | rfl | rfl <;> exact fun h => by cases h

example : findProgram someSystem [46, 47, 114] =
    .ok [67, 58, 92, 111, 92, 114, 46, 98, 97, 116] := rfl

/-! ## C67: the environment of the agent and the program -/

theorem copy_other (unix sync : Vars) (widen : List Nat → List Nat) (n : List Nat)
    (h1 : n ≠ nameDebug) (h2 : n ≠ nameShow) (h3 : n ≠ nameTerm) :
    setupWin32Environment unix sync widen n = sync n := by
  unfold setupWin32Environment setVar varsToCopy
  simp only [h3, if_false, List.filterMap_cons, List.filterMap_nil]
  cases unix nameDebug with
  | none =>
    cases unix nameShow with
    | none => simp
    | some b => by_cases hb : b = [] <;> simp [hb, h2]
  | some a =>
    cases unix nameShow with
    | none => by_cases ha : a = [] <;> simp [ha, h1]
    | some b => by_cases ha : a = [] <;> by_cases hb : b = [] <;> simp [ha, hb, h1, h2]

/-- C67.  The agent, and through it the program, gets the user's environment as Cygwin translates it,
with three exceptions: `TERM` is removed, because the program's terminal is a Windows console, and a
debug setting of the user's that is not empty is passed on. -/
theorem C67_environment (unix sync : Vars) (widen : List Nat → List Nat) (n : List Nat) :
    setupWin32Environment unix sync widen termVar = none ∧
    (n = debugVar ∨ n = showVar → ∀ v, unix n = some v → v ≠ [] →
      setupWin32Environment unix sync widen n = some (widen v)) ∧
    (n = debugVar ∨ n = showVar → unix n = none ∨ unix n = some [] →
      setupWin32Environment unix sync widen n = sync n) ∧
    (n ≠ debugVar → n ≠ showVar → n ≠ termVar → setupWin32Environment unix sync widen n = sync n) := by
  have e1 : debugVar = nameDebug := by decide
  have e2 : showVar = nameShow := by decide
  have e3 : termVar = nameTerm := by decide
  rw [e1, e2, e3]
  refine ⟨by simp [setupWin32Environment, setVar], ?_, ?_, copy_other unix sync widen n⟩
  · rintro (rfl | rfl) v hv hne
    · have e : nameDebug ≠ nameShow ∧ nameDebug ≠ nameTerm := by decide
      unfold setupWin32Environment setVar varsToCopy
      simp only [e.2, if_false, List.filterMap_cons, List.filterMap_nil, hv]
      cases hs : unix nameShow with
      | none => simp [hne]
      | some x => by_cases hx : x = [] <;> simp [hne, hx, e.1]
    · have e : nameShow ≠ nameDebug ∧ nameShow ≠ nameTerm := by decide
      unfold setupWin32Environment setVar varsToCopy
      simp only [e.2, if_false, List.filterMap_cons, List.filterMap_nil, hv]
      cases hs : unix nameDebug with
      | none => simp [hne]
      | some x => by_cases hx : x = [] <;> simp [hne, hx, e.1]
  · rintro (rfl | rfl) h
    · have e : nameDebug ≠ nameShow ∧ nameDebug ≠ nameTerm := by decide
      unfold setupWin32Environment setVar varsToCopy
      simp only [e.2, if_false, List.filterMap_cons, List.filterMap_nil]
      cases hs : unix nameShow with
      | none => rcases h with h | h <;> simp [h]
      | some x => by_cases hx : x = [] <;> rcases h with h | h <;> simp [h, hx, e.1]
    · have e : nameShow ≠ nameDebug ∧ nameShow ≠ nameTerm := by decide
      unfold setupWin32Environment setVar varsToCopy
      simp only [e.2, if_false, List.filterMap_cons, List.filterMap_nil]
      cases hs : unix nameDebug with
      | none => rcases h with h | h <;> simp [h]
      | some x => by_cases hx : x = [] <;> rcases h with h | h <;> simp [h, hx, e.1]

example : setupWin32Environment (fun n => if n = nameDebug then some [49] else some [120])
    (fun _ => some [121]) id nameDebug = some [49] := rfl

/-! ## C67: error messages -/

theorem findLast_spec (s : List Nat) (n : Nat) (hn : n ≤ s.length) :
    (findLastNotSpace s n = none → ∀ c ∈ s.take n, isSpace c = true) ∧
    (∀ i, findLastNotSpace s n = some i → ∃ h : i < n, isSpace (s[i]'(by omega)) = false ∧
      ∀ c ∈ (s.take n).drop (i + 1), isSpace c = true) := by
  induction n with
  | zero => simp [findLastNotSpace]
  | succ n ih =>
    have hl : n < s.length := by omega
    obtain ⟨i1, i2⟩ := ih (by omega)
    simp only [findLastNotSpace, List.getElem?_eq_getElem hl]
    have ht : s.take (n + 1) = s.take n ++ [s[n]] := by simp
    by_cases hc : isSpace s[n] = true
    · simp only [hc, if_true]
      refine ⟨fun h => ?_, fun i h => ?_⟩
      · rw [ht]
        intro c hcm
        rcases List.mem_append.1 hcm with h1 | h1
        · exact i1 h c h1
        · simp at h1; rw [h1]; exact hc
      · obtain ⟨h1, h2, h3⟩ := i2 i h
        refine ⟨by omega, h2, ?_⟩
        rw [ht, List.drop_append_of_le_length (by simp; omega)]
        intro c hcm
        rcases List.mem_append.1 hcm with h1 | h1
        · exact h3 c h1
        · simp at h1; rw [h1]; exact hc
    · simp only [hc, if_false]
      refine ⟨(fun h => by simp at h), fun i h => ?_⟩
      simp at h; subst h
      refine ⟨by omega, by simpa using hc, ?_⟩
      rw [List.drop_eq_nil_of_le (by simp; omega)]
      simp

/-- C67.  A system's error message is shown without the blanks and line ends at its end, and always
together with the error's number; if there is no message, the number alone is shown. -/
theorem C67_message (system : Option (List Nat)) (code : List Nat) :
    ∃ text rest, system.getD [] = text ++ rest ∧ (∀ c ∈ rest, c = 32 ∨ c = 13 ∨ c = 10 ∨ c = 9) ∧
      (∀ c, text.getLast? = some c → c ≠ 32 ∧ c ≠ 13 ∧ c ≠ 10 ∧ c ≠ 9) ∧
      formatErrorMessage system code = if text = [] then code else text ++ [32, 40] ++ code ++ [41] := by
  have sp : ∀ c, isSpace c = true ↔ c = 32 ∨ c = 13 ∨ c = 10 ∨ c = 9 := by
    intro c; simp [isSpace, or_assoc]
  obtain ⟨f1, f2⟩ := findLast_spec (system.getD []) (system.getD []).length (Nat.le_refl _)
  refine ⟨trimEnd (system.getD []), (system.getD []).drop (trimEnd (system.getD [])).length, ?_, ?_, ?_, ?_⟩
  · unfold trimEnd
    split
    · simp
    · rename_i pos hp
      obtain ⟨h, _⟩ := f2 pos hp
      rw [List.length_take, Nat.min_eq_left (by omega)]
      exact (List.take_append_drop _ _).symm
  · intro c hc
    rw [← sp]
    unfold trimEnd at hc
    split at hc
    · rename_i hp
      exact f1 hp c (by simpa using hc)
    · rename_i pos hp
      obtain ⟨h, _, h3⟩ := f2 pos hp
      rw [List.length_take, Nat.min_eq_left (by omega)] at hc
      exact h3 c (by simpa using hc)
  · intro c hc
    unfold trimEnd at hc
    split at hc
    · simp at hc
    · rename_i pos hp
      obtain ⟨h, h2, _⟩ := f2 pos hp
      have : c = (system.getD [])[pos] := by
        rw [List.getLast?_eq_getElem?, List.length_take, Nat.min_eq_left (by omega)] at hc
        simp at hc
        rw [List.getElem?_eq_getElem h] at hc
        simpa using hc.symm
      rw [← this] at h2
      have : ¬ (c = 32 ∨ c = 13 ∨ c = 10 ∨ c = 9) := fun h => by simp [(sp c).2 h] at h2
      simpa [not_or] using this
  · unfold formatErrorMessage
    simp only [List.isEmpty_iff]

example : formatErrorMessage (some [111, 107, 46, 13, 10]) [48] = [111, 107, 46, 32, 40, 48, 41] := rfl

end Winpty.Props
