import Verif.Lemmas.AdapterMain

/-!
# C79: the adapter's start
-/
namespace Winpty.Props

open Winpty.AdapterMain Winpty.Argv Winpty.Spec Winpty.Spec.Start Winpty.Spec.Find
open Winpty.FindProgram (findProgram Vars)
open Winpty.Startup (Config)

/-! ## Conversions -/

/-- C79.  Converting text to the Windows form and back loses nothing: the arrays are always big enough, for
every text in a UTF-8 locale. -/
theorem C79_conversions (loc : Locale) (hl : Utf8 loc) (cs : List Nat) (h : ∀ c ∈ cs, IsScalar c) :
    heapMbsToWcs loc (utf8Text cs) = some (utf16Text cs) ∧
    wcsToMbs loc (utf16Text cs) = some (utf8Text cs) :=
  ⟨heapMbsToWcs_text hl cs h, wcsToMbs_text hl cs h⟩

/-- C79.  In every locale with at most three bytes for a wide character, no message is read past the end of
its array, and what can be converted is converted whole. -/
theorem C79_messages_whole (loc : Locale) (ws : List Nat)
    (hs : ∀ chars, loc.narrow ws = some chars → chars.flatten.length ≤ 3 * ws.length) :
    wcsToMbs loc ws = some (match loc.narrow ws with | none => [] | some chars => chars.flatten) := by
  unfold wcsToMbs
  rw [heapWcsToMbs_fits loc ws hs]
  cases loc.narrow ws <;> rfl

/-- C79, a defect of the code.  In a locale with characters of four bytes (GB18030) a message can leave the
array without a terminator, and is then read past the end of the array: three such characters take 12
bytes, the array has room for 10, and the call returns 8. -/
theorem C79_four_bytes_defect :
    ∃ loc : Locale, (∀ ws chars, loc.narrow ws = some chars → ∀ c ∈ chars, c.length ≤ 4) ∧
      wcsToMbs loc [0x20, 0x3B, 0x3C] = none :=
  ⟨⟨some, fun ws => some (ws.map fun _ => [0x81, 0x30, 0x81, 0x30])⟩, by
    intro ws chars h c hc
    simp only [Option.some.injEq] at h
    rw [← h] at hc
    simp only [List.mem_map] at hc
    obtain ⟨_, _, rfl⟩ := hc
    decide, by decide⟩

/-! ## A UTF-8 locale exists -/

theorem utf8Text_inj (a b : List Nat) (ha : ∀ c ∈ a, IsScalar c) (hb : ∀ c ∈ b, IsScalar c)
    (h : utf8Text a = utf8Text b) : a = b := by
  have bytesOk : ∀ l : List Nat, (∀ c ∈ l, IsScalar c) → ∀ x ∈ utf8Text l, x < 256 := by
    intro l hl x hx
    simp only [utf8Text, List.mem_flatMap] at hx
    obtain ⟨c, hc, hx⟩ := hx
    exact Unicode.utf8_bytes c (hl c hc) x hx
  induction a generalizing b with
  | nil =>
    cases b with
    | nil => rfl
    | cons d b =>
      simp only [utf8Text, List.flatMap_nil, List.flatMap_cons] at h
      exact absurd (List.append_eq_nil_iff.1 h.symm).1 (Unicode.utf8_ne_nil d)
  | cons c a ih =>
    cases b with
    | nil =>
      simp only [utf8Text, List.flatMap_nil, List.flatMap_cons] at h
      exact absurd (List.append_eq_nil_iff.1 h).1 (Unicode.utf8_ne_nil c)
    | cons d b =>
      have ha' : ∀ x ∈ a, IsScalar x := fun x hx => ha x (by simp [hx])
      have hb' : ∀ x ∈ b, IsScalar x := fun x hx => hb x (by simp [hx])
      have e1 : Unicode.decodeUtf8 (utf8Text (c :: a)) = .ok c := by
        simp only [utf8Text, List.flatMap_cons]
        exact Unicode.decode_utf8 c (ha c (by simp)) _ (bytesOk a ha')
      have e2 : Unicode.decodeUtf8 (utf8Text (d :: b)) = .ok d := by
        simp only [utf8Text, List.flatMap_cons]
        exact Unicode.decode_utf8 d (hb d (by simp)) _ (bytesOk b hb')
      rw [h, e2] at e1
      simp only [Unicode.Dec.ok.injEq] at e1
      subst e1
      simp only [utf8Text, List.flatMap_cons, List.append_cancel_left_eq] at h
      rw [ih b ha' hb' h]

theorem utf16Text_inj (a b : List Nat) (ha : ∀ c ∈ a, IsScalar c) (hb : ∀ c ∈ b, IsScalar c)
    (h : utf16Text a = utf16Text b) : a = b := by
  induction a generalizing b with
  | nil =>
    cases b with
    | nil => rfl
    | cons d b =>
      simp only [utf16Text, List.flatMap_nil, List.flatMap_cons] at h
      have := (List.append_eq_nil_iff.1 h.symm).1
      unfold utf16 at this; split at this <;> cases this
  | cons c a ih =>
    cases b with
    | nil =>
      simp only [utf16Text, List.flatMap_nil, List.flatMap_cons] at h
      have := (List.append_eq_nil_iff.1 h).1
      unfold utf16 at this; split at this <;> cases this
    | cons d b =>
      have ha' : ∀ x ∈ a, IsScalar x := fun x hx => ha x (by simp [hx])
      have hb' : ∀ x ∈ b, IsScalar x := fun x hx => hb x (by simp [hx])
      have hc := ha c (by simp)
      have hd := hb d (by simp)
      unfold IsScalar at hc hd
      have key : c = d ∧ utf16Text a = utf16Text b := by
        simp only [utf16Text, List.flatMap_cons] at h ⊢
        generalize List.flatMap utf16 a = u at h ⊢
        generalize List.flatMap utf16 b = v at h ⊢
        unfold utf16 at h
        split at h <;> split at h
        · simpa using h
        · simp only [List.cons_append, List.nil_append, List.cons.injEq] at h
          omega
        · simp only [List.cons_append, List.nil_append, List.cons.injEq] at h
          omega
        · simp only [List.cons_append, List.nil_append, List.cons.injEq] at h
          refine ⟨by omega, h.2.2⟩
      rw [key.1, ih b ha' hb' key.2]

open Classical in
/-- A UTF-8 locale that refuses what is no text. -/
noncomputable def strictUtf8 : Locale where
  widen bs := if h : ∃ cs, (∀ c ∈ cs, IsScalar c) ∧ utf8Text cs = bs then some (utf16Text h.choose) else none
  narrow ws := if h : ∃ cs, (∀ c ∈ cs, IsScalar c) ∧ utf16Text cs = ws then some (h.choose.map utf8) else none

theorem strictUtf8_ok : Utf8 strictUtf8 := by
  refine ⟨?_, ?_, ?_⟩
  · intro cs hcs
    have hx : ∃ cs', (∀ c ∈ cs', IsScalar c) ∧ utf8Text cs' = utf8Text cs := ⟨cs, hcs, rfl⟩
    simp only [strictUtf8]
    rw [dif_pos hx, utf8Text_inj _ _ hx.choose_spec.1 hcs hx.choose_spec.2]
  · intro cs hcs
    have hx : ∃ cs', (∀ c ∈ cs', IsScalar c) ∧ utf16Text cs' = utf16Text cs := ⟨cs, hcs, rfl⟩
    simp only [strictUtf8]
    rw [dif_pos hx, utf16Text_inj _ _ hx.choose_spec.1 hcs hx.choose_spec.2]
  · intro ws chars h
    simp only [strictUtf8] at h
    split at h
    · rename_i hx
      simp only [Option.some.injEq] at h
      rw [← h]
      have e := hx.choose_spec.2
      generalize hx.choose = cs at e
      rw [← e]
      clear e h hx
      induction cs with
      | nil => simp
      | cons c cs ih =>
        have : (utf8 c).length ≤ 3 * (utf16 c).length := by
          unfold utf16 utf8
          repeat' split
          all_goals simp
          all_goals omega
        simp only [List.map_cons, List.flatten_cons, List.length_append, utf16Text, List.flatMap_cons] at *
        omega
    · cases h

/-! ## The configuration -/

theorem agentConfig_eq (os : Os) (a : Arguments) (hp : 0 < (initialSize os).1 ∧ 0 < (initialSize os).2) :
    agentConfig os a = some ⟨agentFlags a, (initialSize os).1, (initialSize os).2,
      if a.mouseInput then 2 else 1, 30000⟩ := by
  have h1 : Startup.configNew (agentFlags a) = some { flags := agentFlags a } := by
    unfold Startup.configNew
    rw [if_pos]
    obtain ⟨m, n, c, p, e, k⟩ := a
    cases m <;> cases n <;> cases c <;> cases p <;> cases e <;> cases k <;> decide
  unfold agentConfig
  rw [h1]
  simp only [Startup.setInitialSize]
  rw [if_pos ⟨hp.1, hp.2⟩]
  cases a.mouseInput <;> simp [Startup.setMouseMode]

theorem agentFlags_bits (a : Arguments) :
    (agentFlags a).testBit 0 = a.testConerr ∧ (agentFlags a).testBit 1 = a.testPlainOutput ∧
    (agentFlags a).testBit 2 = a.testColorEscapes ∧ (agentFlags a).testBit 3 = true ∧ agentFlags a < 16 := by
  obtain ⟨m, n, c, p, e, k⟩ := a
  cases m <;> cases n <;> cases c <;> cases p <;> cases e <;> cases k <;> decide

theorem parse_asks (argv0 : String) (words flags : List String) (prog : String) (args : List String)
    (hf : ∀ f ∈ flags, f ∈ flagWords) (ha : Asks words flags prog args) :
    parseArguments (argv0 :: words) = .run (settings flags) (prog :: args) := by
  rcases ha with ⟨rfl, h⟩ | rfl
  · exact (C37_child_arguments_untouched argv0 flags args hf).1 prog h
  · exact (C37_child_arguments_untouched argv0 flags (prog :: args) hf).2 (by simp)

/-- The variables that are copied are text. -/
def DebugText (os : Os) : Prop :=
  ∀ n v, n = debugVar ∨ n = showVar → os.unix n = some v → ∃ cs, (∀ c ∈ cs, IsScalar c) ∧ v = utf8Text cs

/-- The terminal has a size, if it has one, of at least one column and row. -/
def HasCells (os : Os) : Prop := ∀ sz, os.winSize = some sz → 0 < sz.cols ∧ 0 < sz.rows

theorem vars_convert (os : Os) (hl : Utf8 os.loc) (hd : DebugText os) :
    ((FindProgram.varsToCopy os.unix).any fun nv =>
      (heapMbsToWcs os.loc nv.1).isNone || (heapMbsToWcs os.loc nv.2).isNone) = false := by
  rw [List.any_eq_false]
  intro nv hnv
  simp only [FindProgram.varsToCopy, List.mem_filterMap] at hnv
  obtain ⟨n, hn, h⟩ := hnv
  have hname : n = debugVar ∨ n = showVar := by
    have e1 : debugVar = FindProgram.nameDebug := by decide
    have e2 : showVar = FindProgram.nameShow := by decide
    rw [e1, e2]
    simpa using hn
  split at h
  · rename_i v hv
    split at h
    · cases h
    · simp only [Option.some.injEq] at h
      subst h
      obtain ⟨cs, hcs, rfl⟩ := hd n v hname hv
      have hascii : ∃ ns, (∀ c ∈ ns, IsScalar c) ∧ n = utf8Text ns := by
        rcases hname with rfl | rfl
        · exact ⟨debugVar, by decide, by decide⟩
        · exact ⟨showVar, by decide, by decide⟩
      obtain ⟨ns, hns, rfl⟩ := hascii
      rw [heapMbsToWcs_text hl cs hcs, heapMbsToWcs_text hl ns hns]
      simp
  · cases h

theorem initialSize_pos (os : Os) (hz : HasCells os) : 0 < (initialSize os).1 ∧ 0 < (initialSize os).2 := by
  unfold initialSize
  split
  · exact ⟨by decide, by decide⟩
  · rename_i sz h
    have := hz sz h
    simp only
    omega

theorem start_eq (os : Os) (hl : Utf8 os.loc) (hd : DebugText os) (hz : HasCells os) (a : Arguments)
    (argv0 prog : List Nat) (args : List (List Nat)) :
    ∃ vars cfg, cfg = ⟨agentFlags a, (initialSize os).1, (initialSize os).2,
        if a.mouseInput then 2 else 1, 30000⟩ ∧
      vars = FindProgram.setupWin32Environment os.unix os.sync
        (fun v => (heapMbsToWcs os.loc v).getD []) ∧
      start os a argv0 prog args =
        (.environment vars :: (openSession os a argv0 prog args cfg).1,
          (openSession os a argv0 prog args cfg).2) := by
  refine ⟨_, _, rfl, rfl, ?_⟩
  unfold start
  rw [vars_convert os hl hd, agentConfig_eq os a (initialSize_pos os hz)]
  rfl

theorem main_run (os : Os) (argv0 : String) (words flags : List String) (prog : String) (args : List String)
    (hf : ∀ f ∈ flags, f ∈ flagWords) (ha : Asks words flags prog args) :
    main os (argv0 :: words) =
      start os (settings flags) (utf8Text (points argv0)) (utf8Text (points prog))
        (args.map fun a => utf8Text (points a)) := by
  unfold main
  rw [parse_asks argv0 words flags prog args hf ha]
  have e : bytes = fun a => utf8Text (points a) := funext bytes_eq
  simp only [e, AdapterMain.argv0]

/-- C79.  The user asks for a program with arguments.  If it is found as `file`, and the session and the
program can be started, then the adapter does three things and no more: it sets up the environment; it
opens a session of the terminal's size (80 by 25 if the terminal's size is not known), with mouse input
forced if that was asked for, and the output options asked for; and it starts a program in it, with a
command line that every Windows program splits into exactly `file` and the user's arguments, character for
character.  Nothing is printed. -/
theorem C79_starts (os : Os) (hl : Utf8 os.loc) (hd : DebugText os) (hz : HasCells os)
    (argv0 : String) (words flags : List String) (prog : String) (args : List String)
    (hf : ∀ f ∈ flags, f ∈ flagWords) (ha : Asks words flags prog args)
    (file : List Nat) (hs : ∀ c ∈ file, IsScalar c) (hq : 34 ∉ file) (he : file.getLast? ≠ some 92)
    (hfind : findProgram os.find (utf8Text (points prog)) = .ok (utf8Text file))
    (ho : os.openError = none) (hpipes : os.conin = true ∧ os.conout = true ∧ os.conerr = true)
    (hsp : os.spawned = .ok) :
    ∃ (vars : Vars) (cfg : Config) (cmd : List Nat),
      main os (argv0 :: words) =
        ([.environment vars, .openSession cfg, .spawn 1 cmd], .running (settings flags)) ∧
      (∀ dbl, parseCommandLine dbl cmd = utf16Text file :: args.map fun a => utf16Text (points a)) ∧
      (os.winSize = none → cfg.cols = 80 ∧ cfg.rows = 25) ∧
      (∀ sz, os.winSize = some sz → cfg.cols = sz.cols ∧ cfg.rows = sz.rows) ∧
      (cfg.mouseMode = 2 ↔ "--mouse" ∈ flags) ∧ (cfg.mouseMode = 1 ↔ "--mouse" ∉ flags) ∧
      cfg.flags.testBit 0 = decide ("-Xconerr" ∈ flags) ∧
      cfg.flags.testBit 1 = decide ("-Xplain" ∈ flags) ∧
      cfg.flags.testBit 2 = decide ("-Xcolor" ∈ flags) ∧
      cfg.flags.testBit 3 = true ∧ cfg.flags < 16 ∧
      vars termVar = none ∧
      (∀ n cs, n = debugVar ∨ n = showVar → (∀ c ∈ cs, IsScalar c) → cs ≠ [] →
        os.unix n = some (utf8Text cs) → vars n = some (utf16Text cs)) := by
  obtain ⟨vars, cfg, hcfg, hvars, hstart⟩ := start_eq os hl hd hz (settings flags) (utf8Text (points argv0))
    (utf8Text (points prog)) (args.map fun a => utf8Text (points a))
  have hcmd : argvToCommandLine (utf8Text file :: args.map fun a => utf8Text (points a)) =
      utf8Text (argvToCommandLine (file :: args.map points)) := by
    have := argv_encode ascii_utf8 (file :: args.map points)
    simp only [List.map_cons, List.map_map] at this
    exact this
  have hscalar : ∀ c ∈ argvToCommandLine (file :: args.map points), IsScalar c := by
    intro c hc
    rcases argv_mem _ c hc with ⟨a, h1, h2⟩ | rfl | rfl | rfl
    · rcases List.mem_cons.1 h1 with rfl | h1
      · exact hs c h2
      · obtain ⟨s, _, rfl⟩ := List.mem_map.1 h1
        exact points_scalar s c h2
    · decide
    · decide
    · decide
  have hwide : utf16Text (argvToCommandLine (file :: args.map points)) =
      argvToCommandLine (utf16Text file :: args.map fun a => utf16Text (points a)) := by
    have := argv_encode ascii_utf16 (file :: args.map points)
    simp only [List.map_cons, List.map_map] at this
    exact this.symm
  have hopen : openSession os (settings flags) (utf8Text (points argv0)) (utf8Text (points prog))
      (args.map fun a => utf8Text (points a)) cfg = ([.openSession cfg,
        .spawn 1 (utf16Text (argvToCommandLine (file :: args.map points)))], .running (settings flags)) := by
    unfold openSession
    simp only [ho, hpipes]
    rw [if_neg (by simp)]
    unfold startProgram
    simp only [hfind]
    rw [hcmd]
    unfold spawnProgram
    rw [heapMbsToWcs_text hl _ hscalar]
    simp only [hsp, if_true]
  obtain ⟨b0, b1, b2, b3, b4⟩ := agentFlags_bits (settings flags)
  refine ⟨vars, cfg, utf16Text (argvToCommandLine (file :: args.map points)), ?_, ?_, ?_, ?_, ?_, ?_, ?_, ?_, ?_, ?_, ?_, ?_, ?_⟩
  · rw [main_run os argv0 words flags prog args hf ha, hstart, hopen]
  · intro dbl
    rw [hwide]
    refine C36_with_program_name dbl _ _ ?_ ?_
    · intro h; exact hq ((mem_encode ascii_utf16 file 34 (by decide)).1 h)
    · intro _ h
      rw [List.getLast?_eq_some_iff] at h
      obtain ⟨ys, h⟩ := h
      rcases List.eq_nil_or_concat file with rfl | ⟨l, d, rfl⟩
      · simp [utf16Text] at h
      · simp only [List.concat_eq_append, utf16Text, List.flatMap_append, List.flatMap_cons,
          List.flatMap_nil, List.append_nil] at h
        by_cases hd : d < 128
        · rw [ascii_utf16.low d hd] at h
          have := List.append_inj_right' h rfl
          simp only [List.cons.injEq, and_true] at this
          subst this
          simp at he
        · obtain ⟨h1, h2⟩ := ascii_utf16.high d (by omega)
          rcases List.eq_nil_or_concat (utf16 d) with h3 | ⟨m, x, h3⟩
          · exact h1 h3
          · rw [h3, List.concat_eq_append, ← List.append_assoc] at h
            have hx := h2 x (by simp [h3])
            have := List.append_inj_right' h rfl
            simp only [List.cons.injEq, and_true] at this
            omega
  · intro hn; rw [hcfg]; simp only [initialSize, hn, and_self]
  · intro sz hn; rw [hcfg]; simp only [initialSize, hn, and_self]
  · rw [hcfg]; simp only [settings]; by_cases h : "--mouse" ∈ flags <;> simp [h]
  · rw [hcfg]; simp only [settings]; by_cases h : "--mouse" ∈ flags <;> simp [h]
  · rw [hcfg]; exact b0
  · rw [hcfg]; exact b1
  · rw [hcfg]; exact b2
  · rw [hcfg]; exact b3
  · rw [hcfg]; exact b4
  · rw [hvars]; exact (C67_environment _ _ _ termVar).1
  · intro n cs hn hcs hne hu
    rw [hvars, (C67_environment _ _ _ n).2.1 hn _ hu (by
      rw [Ne, utf8Text, encode_nil ascii_utf8]; exact hne), heapMbsToWcs_text hl cs hcs]
    rfl

/-! ## Failures -/

theorem usage_code (argv : List String) (code : Nat) (h : parseArguments argv = .usage code) :
    code = 0 ∨ code = 1 := by
  unfold parseArguments at h
  generalize ({} : Arguments) = a at h
  have hfin : ∀ a child, finishParse a child = .usage code → code = 1 := by
    intro a child h
    unfold finishParse at h
    split at h
    · cases h
    · split at h
      · cases h; rfl
      · cases h
  generalize argv.tail = ws at h
  induction ws generalizing a with
  | nil => exact .inr (hfin _ _ h)
  | cons w ws ih =>
    rw [parseLoop] at h
    repeat' split at h
    all_goals first
      | exact .inr (hfin _ _ h)
      | exact ih _ h
      | (cases h; exact .inl rfl)
      | cases h

theorem hexDigits_eq (n : Nat) (h : 0 < n) : hexDigits n = hexadecimal n := by
  unfold hexadecimal
  induction n using Nat.strongRecOn with
  | ind n ih =>
    have hd : ∀ d, d < 16 → [hexChar d] = codes [Nat.digitChar d] := by decide
    rw [hexDigits, if_neg (by omega)]
    by_cases hn : n < 16
    · rw [Nat.toDigits_of_lt_base hn, show n / 16 = 0 by omega, Nat.mod_eq_of_lt hn, hexDigits]
      simp [hd n hn]
    · rw [Nat.toDigits_of_base_le (by omega) (by omega), ih (n / 16) (by omega) (by omega), hd _ (by omega)]
      simp [codes]

/-- The number of an error, as it is printed. -/
def errorNumber (err : Nat) : List Nat :=
  if err = 0 then say "error 0" else say "error 0x" ++ hexadecimal err

theorem errorCode_eq (err : Nat) : errorCode err = errorNumber err := by
  unfold errorCode errorNumber
  split
  · rfl
  · rw [hexDigits_eq err (by omega)]; rfl

/-- C79.  If the session cannot be opened, the adapter says why, in full, and exits with the code 1; no
program is started. -/
theorem C79_no_session (os : Os) (hl : Utf8 os.loc) (hd : DebugText os) (hz : HasCells os)
    (argv0 : String) (words flags : List String) (prog : String) (args : List String)
    (hf : ∀ f ∈ flags, f ∈ flagWords) (ha : Asks words flags prog args)
    (why : List Nat) (hw : ∀ c ∈ why, IsScalar c) (ho : os.openError = some (utf16Text why)) :
    ∃ vars cfg, main os (argv0 :: words) =
      ([.environment vars, .openSession cfg,
        .stderr (say "Error creating winpty: " ++ utf8Text why ++ say "\n")], .exit 1) := by
  obtain ⟨vars, cfg, _, _, h⟩ := start_eq os hl hd hz (settings flags) (utf8Text (points argv0))
    (utf8Text (points prog)) (args.map fun a => utf8Text (points a))
  refine ⟨vars, cfg, ?_⟩
  rw [main_run os argv0 words flags prog args hf ha, h]
  unfold openSession
  simp only [ho, wcsToMbs_text hl why hw]
  rfl

/-- C79.  If the program is not in the `PATH`, or the name with a directory does not resolve, the adapter
says so, naming itself and the program, and exits with the code 1; no program is started. -/
theorem C79_not_found (os : Os) (hl : Utf8 os.loc) (hd : DebugText os) (hz : HasCells os)
    (argv0 : String) (words flags : List String) (prog : String) (args : List String)
    (hf : ∀ f ∈ flags, f ∈ flagWords) (ha : Asks words flags prog args)
    (ho : os.openError = none) (hpipes : os.conin = true ∧ os.conout = true ∧ os.conerr = true) :
    (findProgram os.find (utf8Text (points prog)) = .notFound →
      ∃ vars cfg, main os (argv0 :: words) =
        ([.environment vars, .openSession cfg,
          .stderr (utf8Text (points argv0) ++ say ": error: cannot start '" ++ utf8Text (points prog) ++
            say "': Not found in PATH\n")], .exit 1)) ∧
    (findProgram os.find (utf8Text (points prog)) = .unresolvable →
      ∃ vars cfg, main os (argv0 :: words) =
        ([.environment vars, .openSession cfg,
          .stderr (utf8Text (points argv0) ++ say ": error: cannot start '" ++ utf8Text (points prog) ++
            say "': " ++ os.strerror ++ say "\n")], .exit 1)) := by
  obtain ⟨vars, cfg, _, _, h⟩ := start_eq os hl hd hz (settings flags) (utf8Text (points argv0))
    (utf8Text (points prog)) (args.map fun a => utf8Text (points a))
  rw [main_run os argv0 words flags prog args hf ha, h]
  constructor <;> intro hfind <;> refine ⟨vars, cfg, ?_⟩ <;> unfold openSession <;>
    simp only [ho, hpipes] <;> rw [if_neg (by simp)] <;> unfold startProgram <;> simp only [hfind] <;> rfl

/-- C79.  If Windows refuses to start the program, the adapter prints one line with its own name, the
command line, the system's explanation without the blanks and line ends after it, and the number of the
error; if the library fails for another reason, its explanation in full.  It exits with the code 1. -/
theorem C79_refused (os : Os) (hl : Utf8 os.loc) (hd : DebugText os) (hz : HasCells os)
    (argv0 : String) (words flags : List String) (prog : String) (args : List String)
    (hf : ∀ f ∈ flags, f ∈ flagWords) (ha : Asks words flags prog args)
    (file : List Nat) (hs : ∀ c ∈ file, IsScalar c)
    (hfind : findProgram os.find (utf8Text (points prog)) = .ok (utf8Text file))
    (ho : os.openError = none) (hpipes : os.conin = true ∧ os.conout = true ∧ os.conerr = true) :
    ∃ vars cfg line, (∀ c ∈ line, IsScalar c) ∧
      (∀ dbl, parseArgs dbl line = file :: args.map points) ∧
      (∀ err why, os.spawned = .refused err → (∀ c ∈ why, IsScalar c) →
        (os.formatMessage err = some (utf16Text why) ∨ (os.formatMessage err = none ∧ why = [])) →
        ∃ text rest, utf8Text why = text ++ rest ∧ (∀ c ∈ rest, c = 32 ∨ c = 13 ∨ c = 10 ∨ c = 9) ∧
          (∀ c, text.getLast? = some c → c ≠ 32 ∧ c ≠ 13 ∧ c ≠ 10 ∧ c ≠ 9) ∧
          main os (argv0 :: words) =
            ([.environment vars, .openSession cfg, .spawn 1 (utf16Text line),
              .stderr (utf8Text (points argv0) ++ say ": error: cannot start '" ++ utf8Text line ++ say "': " ++
                (if text = [] then errorNumber err
                  else text ++ say " (" ++ errorNumber err ++ say ")") ++ say "\n")], .exit 1)) ∧
      (∀ why, os.spawned = .failed (utf16Text why) → (∀ c ∈ why, IsScalar c) →
        main os (argv0 :: words) =
          ([.environment vars, .openSession cfg, .spawn 1 (utf16Text line),
            .stderr (utf8Text (points argv0) ++ say ": error: cannot start '" ++ utf8Text line ++
              say "': internal error: " ++ utf8Text why ++ say "\n")], .exit 1)) := by
  obtain ⟨vars, cfg, _, _, hstart⟩ := start_eq os hl hd hz (settings flags) (utf8Text (points argv0))
    (utf8Text (points prog)) (args.map fun a => utf8Text (points a))
  have hcmd : argvToCommandLine (utf8Text file :: args.map fun a => utf8Text (points a)) =
      utf8Text (argvToCommandLine (file :: args.map points)) := by
    have := argv_encode ascii_utf8 (file :: args.map points)
    simp only [List.map_cons, List.map_map] at this
    exact this
  have hscalar : ∀ c ∈ argvToCommandLine (file :: args.map points), IsScalar c := by
    intro c hc
    rcases argv_mem _ c hc with ⟨a, h1, h2⟩ | rfl | rfl | rfl
    · rcases List.mem_cons.1 h1 with rfl | h1
      · exact hs c h2
      · obtain ⟨s, _, rfl⟩ := List.mem_map.1 h1
        exact points_scalar s c h2
    · decide
    · decide
    · decide
  have hopen : os.spawned ≠ .ok → openSession os (settings flags) (utf8Text (points argv0))
      (utf8Text (points prog)) (args.map fun a => utf8Text (points a)) cfg =
        (.openSession cfg :: .spawn 1 (utf16Text (argvToCommandLine (file :: args.map points))) ::
          (spawnFailed os (utf8Text (points argv0)) (utf8Text (argvToCommandLine (file :: args.map points)))).1,
          (spawnFailed os (utf8Text (points argv0))
            (utf8Text (argvToCommandLine (file :: args.map points)))).2) := by
    intro hne
    unfold openSession
    simp only [ho, hpipes]
    rw [if_neg (by simp)]
    unfold startProgram
    simp only [hfind]
    rw [hcmd]
    unfold spawnProgram
    rw [heapMbsToWcs_text hl _ hscalar]
    simp only [hne, if_false]
  refine ⟨vars, cfg, argvToCommandLine (file :: args.map points), hscalar,
    fun dbl => C36_arguments_roundtrip dbl _, ?_, ?_⟩
  · intro err why hsp hw hm
    have htext : ∃ sys, errorText os.loc (os.formatMessage err) err =
        some (FindProgram.formatErrorMessage sys (errorNumber err)) ∧ sys.getD [] = utf8Text why := by
      rcases hm with hm | ⟨hm, rfl⟩
      · refine ⟨some (utf8Text why), ?_, rfl⟩
        rw [hm]
        simp only [errorText, wcsToMbs_text hl why hw, errorCode_eq]
      · refine ⟨none, ?_, rfl⟩
        rw [hm]
        simp only [errorText, errorCode_eq]
    obtain ⟨sys, h1, h2⟩ := htext
    obtain ⟨text, rest, g1, g2, g3, g4⟩ := C67_message sys (errorNumber err)
    refine ⟨text, rest, h2 ▸ g1, g2, g3, ?_⟩
    rw [main_run os argv0 words flags prog args hf ha, hstart, hopen (by rw [hsp]; simp)]
    unfold spawnFailed
    simp only [hsp, h1, g4]
    rfl
  · intro why hsp hw
    rw [main_run os argv0 words flags prog args hf ha, hstart, hopen (by rw [hsp]; simp)]
    unfold spawnFailed
    simp only [hsp, wcsToMbs_text hl why hw]
    rfl

/-- C79.  Whatever the user asks for and whatever happens, the adapter's start ends in one of these ways:
an exit with code 0 after printing to standard output, without opening a session; an exit with code 1
after one message, with nothing printed before it; a failed assertion, with nothing printed; showing keys,
with nothing done before; or a running program, with nothing printed, exactly one program started, and
Windows has started it.  In particular, memory outside an array is never read. -/
theorem C79_every_end (os : Os) (hl : Utf8 os.loc) (argv : List String) :
    ((main os argv).2 = .exit 0 ∧ ∃ t, (main os argv).1 = [.stdout t]) ∨
    ((main os argv).2 = .exit 1 ∧ ∃ acts m, (main os argv).1 = acts ++ [m] ∧ IsMessage m ∧
      ∀ a ∈ acts, ¬ IsMessage a) ∨
    ((main os argv).2 = .abort ∧ ∀ a ∈ (main os argv).1, ¬ IsMessage a ∧ ¬ IsSpawn a) ∨
    ((main os argv).1 = [] ∧ ∃ n, (main os argv).2 = .showKeys n) ∨
    (∃ a acts m, (main os argv).2 = .running a ∧ (main os argv).1 = acts ++ [m] ∧ IsSpawn m ∧
      os.spawned = .ok ∧ ∀ x ∈ acts, ¬ IsMessage x ∧ ¬ IsSpawn x) := by
  have hmsg : ∀ ws, ∃ m, wcsToMbs os.loc ws = some m := wcsToMbs_some hl
  unfold main
  split
  · rename_i code h
    have hc : code = 0 ∨ code = 1 := usage_code argv code h
    rcases hc with rfl | rfl
    · exact .inl ⟨rfl, _, rfl⟩
    · exact .inr (.inl ⟨rfl, [], _, rfl, trivial, by simp⟩)
  · exact .inl ⟨rfl, _, rfl⟩
  · exact .inr (.inl ⟨rfl, [], _, rfl, trivial, by simp⟩)
  · exact .inr (.inr (.inr (.inl ⟨rfl, _, rfl⟩)))
  · rename_i a h
    exact absurd rfl (C37_boundary argv a [] h).1
  · rename_i a prog args h
    generalize AdapterMain.argv0 argv = p0
    unfold start
    split
    · exact .inr (.inr (.inl ⟨rfl, by simp⟩))
    · generalize FindProgram.setupWin32Environment os.unix os.sync _ = vars
      split
      · exact .inr (.inr (.inl ⟨rfl, by simp [IsMessage, IsSpawn]⟩))
      · rename_i cfg _
        unfold openSession
        split
        · rename_i wide _
          obtain ⟨m, hm⟩ := hmsg wide
          simp only [hm]
          exact .inr (.inl ⟨trivial, [.environment vars, .openSession cfg], _, rfl, trivial,
            by simp [IsMessage]⟩)
        · split
          · exact .inr (.inr (.inl ⟨rfl, by simp [IsMessage, IsSpawn]⟩))
          · unfold startProgram
            split
            · exact .inr (.inl ⟨rfl, [.environment vars, .openSession cfg], _, rfl, trivial,
                by simp [IsMessage]⟩)
            · exact .inr (.inl ⟨rfl, [.environment vars, .openSession cfg], _, rfl, trivial,
                by simp [IsMessage]⟩)
            · unfold spawnProgram
              split
              · exact .inr (.inr (.inl ⟨rfl, by simp [IsMessage, IsSpawn]⟩))
              · split
                · rename_i hsp
                  exact .inr (.inr (.inr (.inr ⟨a, [.environment vars, .openSession cfg], _, rfl, rfl,
                    trivial, hsp, by simp [IsMessage, IsSpawn]⟩)))
                · rename_i hne
                  have hfail : ∀ cl, ∃ m, spawnFailed os p0 cl = ([.stderr m], .exit 1) := by
                    intro cl
                    unfold spawnFailed
                    split
                    · rename_i hsp; exact absurd hsp hne
                    · rename_i err _
                      unfold errorText
                      cases os.formatMessage err with
                      | none => exact ⟨_, rfl⟩
                      | some wide =>
                        obtain ⟨m, hm⟩ := hmsg wide
                        simp only [hm]
                        exact ⟨_, rfl⟩
                    · rename_i wide _
                      obtain ⟨m, hm⟩ := hmsg wide
                      simp only [hm]
                      exact ⟨_, rfl⟩
                  obtain ⟨m, hm⟩ := hfail _
                  rw [hm]
                  exact .inr (.inl ⟨rfl, [.environment vars, .openSession cfg, .spawn 1 _], _, rfl,
                    trivial, by simp [IsMessage]⟩)

/-- C79.  A failed assertion has one of these causes: a debug variable that is no text; a terminal that
claims to have no columns or no rows; a pipe of the new session that cannot be opened; a program whose
path is no text.  Partial: the user would rather be told (`C79_zero_size_defect`, `C79_not_text_defect`). -/
theorem C79_no_abort_partial (os : Os) (hl : Utf8 os.loc) (hd : DebugText os) (hz : HasCells os)
    (hpipes : os.conin = true ∧ os.conout = true ∧ os.conerr = true)
    (hpath : ∀ p f, findProgram os.find p = .ok f → ∃ cs, (∀ c ∈ cs, IsScalar c) ∧ f = utf8Text cs)
    (argv : List String) : (main os argv).2 ≠ .abort := by
  rcases C79_every_end os hl argv with h | h | h | h | h
  · rw [h.1]; simp
  · rw [h.1]; simp
  · intro _
    have h := h.1
    unfold main at h
    split at h
    · simp at h
    · simp at h
    · simp at h
    · simp at h
    · simp at h
    · rename_i a prog args hp
      generalize AdapterMain.argv0 argv = p0 at h
      obtain ⟨vars, cfg, _, _, hs⟩ := start_eq os hl hd hz a p0 (bytes prog) (args.map bytes)
      rw [hs] at h
      unfold openSession at h
      split at h
      · rename_i wide _
        obtain ⟨m, hm⟩ := wcsToMbs_some hl wide
        simp only [hm] at h
        simp at h
      · simp only [hpipes] at h
        rw [if_neg (by simp)] at h
        simp only at h
        unfold startProgram at h
        split at h
        · simp at h
        · simp at h
        · rename_i file hf
          obtain ⟨cs, hcs, rfl⟩ := hpath _ _ hf
          have hb : args.map bytes = args.map fun a => utf8Text (points a) := by
            rw [show bytes = fun a => utf8Text (points a) from funext bytes_eq]
          have hcmd : argvToCommandLine (utf8Text cs :: args.map bytes) =
              utf8Text (argvToCommandLine (cs :: args.map points)) := by
            have := argv_encode ascii_utf8 (cs :: args.map points)
            simp only [List.map_cons, List.map_map] at this
            rw [hb]; exact this
          have hscalar : ∀ c ∈ argvToCommandLine (cs :: args.map points), IsScalar c := by
            intro c hc
            rcases argv_mem _ c hc with ⟨a, h1, h2⟩ | rfl | rfl | rfl
            · rcases List.mem_cons.1 h1 with rfl | h1
              · exact hcs c h2
              · obtain ⟨s, _, rfl⟩ := List.mem_map.1 h1
                exact points_scalar s c h2
            · decide
            · decide
            · decide
          rw [hcmd] at h
          unfold spawnProgram at h
          rw [heapMbsToWcs_text hl _ hscalar] at h
          simp only at h
          split at h
          · simp at h
          · unfold spawnFailed at h
            split at h
            · simp at h
            · rename_i err _
              unfold errorText at h
              cases hm : os.formatMessage err with
              | none => rw [hm] at h; simp at h
              | some wide =>
                obtain ⟨m, hm'⟩ := wcsToMbs_some hl wide
                rw [hm] at h
                simp only [hm'] at h
                simp at h
            · rename_i wide _
              obtain ⟨m, hm⟩ := wcsToMbs_some hl wide
              simp only [hm] at h
              simp at h
  · obtain ⟨_, n, h⟩ := h; rw [h]; simp
  · obtain ⟨a, _, _, h, _⟩ := h; rw [h]; simp

private theorem in_the_middle (p q s r t : List Nat) :
    ∃ a b, p ++ (q ++ (s ++ r)) ++ t = a ++ s ++ b :=
  ⟨p ++ q, r ++ t, by simp [List.append_assoc]⟩

private theorem at_the_start (s p a b c d e f g : List Nat) :
    ∃ x, s ++ p ++ a ++ b ++ c ++ d ++ e ++ f ++ g = s ++ p ++ x :=
  ⟨a ++ b ++ c ++ d ++ e ++ f ++ g, by simp [List.append_assoc]⟩

/-- C79.  Asking for help or the version prints it and exits with the code 0.  A word that looks like an
option and is none is named in an error message, and leaving out the program prints the help; the exit
code is then 1.  In none of these cases anything else happens. -/
theorem C79_options (os : Os) (argv0 : String) (flags rest : List String)
    (hf : ∀ f ∈ flags, f ∈ flagWords) :
    ∃ help, (∃ a b, help = a ++ say "--showkey" ++ b) ∧ (∃ b, help = say "Usage: " ++ utf8Text (points argv0) ++ b) ∧
    main os (argv0 :: flags ++ "-h" :: rest) = ([.stdout help], .exit 0) ∧
    main os (argv0 :: flags ++ "--help" :: rest) = ([.stdout help], .exit 0) ∧
    main os (argv0 :: flags ++ "--version" :: rest) = ([.stdout os.version], .exit 0) ∧
    main os (argv0 :: flags) = ([.stdout help], .exit 1) ∧
    (∀ w, isOption w → w ∉ flagWords → w ∉ ["-h", "--help", "--showkey", "--version", "--"] →
      main os (argv0 :: flags ++ w :: rest) =
        ([.stderr (say "Error: unrecognized option: '" ++ utf8Text (points w) ++ say "'\n")], .exit 1)) := by
  obtain ⟨h1, h2, _, h3, h4, h5⟩ := C37_errors argv0 flags rest hf
  have hu : ∀ l, (if argv0 :: l = [] then Startup.lit "<program>" else AdapterMain.argv0 (argv0 :: l)) =
      utf8Text (points argv0) := by intro l; rw [if_neg (by simp)]; exact bytes_eq argv0
  refine ⟨usageText (utf8Text (points argv0)), ?_, ?_, ?_, ?_, ?_, ?_, ?_⟩
  · have e : Startup.lit "  --showkey   Dump STDIN escape sequences\n" =
        Startup.lit "  " ++ (say "--showkey" ++ Startup.lit "   Dump STDIN escape sequences\n") := by decide
    unfold usageText
    rw [e]
    exact in_the_middle _ _ _ _ _
  · exact at_the_start _ _ _ _ _ _ _ _ _
  · unfold main; rw [h3]; simp only [List.cons_append, hu]
  · unfold main; rw [h4]; simp only [List.cons_append, hu]
  · unfold main; rw [h5]
  · unfold main; rw [h2]; simp only [hu]
  · intro w hw1 hw2 hw3
    unfold main; rw [h1 w hw1 hw2 hw3]
    simp only [bytes_eq]
    rfl

/-! ## A concrete start -/

/-- A system where `/bin/x` resolves to `/bin/x.exe`, seen by Windows as `C:/bin/x.exe`. -/
private noncomputable def demoOs (size : Option Adapter.WinSize) (debug : Option (List Nat)) (sp : Spawned) :
    Os where
  find :=
    { path := some (say "/usr/bin:/bin")
      realpath := fun p => if p = say "/bin/x" then say "/bin/x.exe" else []
      access := fun p _ => decide (p = say "/bin/x.exe")
      convPath := fun p => say "C:" ++ p
      msys := false }
  loc := strictUtf8
  unix := fun n => if n = debugVar then debug else none
  sync := fun _ => none
  winSize := size
  strerror := say "No such file or directory"
  version := say "winpty version 0.4.4-dev\n"
  openError := none
  conin := true
  conout := true
  conerr := true
  spawned := sp
  formatMessage := fun _ => none

set_option maxRecDepth 100000 in
private theorem demo_found (size : Option Adapter.WinSize) (debug : Option (List Nat)) (sp : Spawned) :
    findProgram (demoOs size debug sp).find (utf8Text (points "x")) = .ok (utf8Text (say "C:\\bin\\x.exe")) := by
  have h1 : findProgram (demoOs size debug sp).find (utf8Text (points "x")) =
      findProgram
        { path := some (say "/usr/bin:/bin")
          realpath := fun p => if p = say "/bin/x" then say "/bin/x.exe" else []
          access := fun p _ => decide (p = say "/bin/x.exe")
          convPath := fun p => say "C:" ++ p
          msys := false } (utf8Text (points "x")) := rfl
  rw [h1]
  decide +kernel

/-- Non-vacuity: `winpty --mouse x "a b" ü` in a terminal of 100 by 40. -/
example : ∃ vars cfg cmd,
    main (demoOs (some ⟨100, 40, 0, 0⟩) none .ok) ["winpty", "--mouse", "x", "a b", "ü"] =
      ([.environment vars, .openSession cfg, .spawn 1 cmd],
        .running { mouseInput := true }) ∧
    (∀ dbl, parseCommandLine dbl cmd = [say "C:\\bin\\x.exe", say "a b", [0xFC]]) ∧
    cfg.cols = 100 ∧ cfg.rows = 40 ∧ cfg.mouseMode = 2 := by
  obtain ⟨vars, cfg, cmd, h1, h2, _, h4, h5, _⟩ :=
    C79_starts (demoOs (some ⟨100, 40, 0, 0⟩) none .ok) strictUtf8_ok
      (by intro n v hn hv; simp [demoOs] at hv)
      (by intro sz hsz; simp only [demoOs, Option.some.injEq] at hsz; rw [← hsz]; decide)
      "winpty" ["--mouse", "x", "a b", "ü"] ["--mouse"] "x" ["a b", "ü"] (by decide)
      (.inl ⟨rfl, by decide⟩) (say "C:\\bin\\x.exe") (by decide) (by decide) (by decide)
      (demo_found _ _ _) rfl ⟨rfl, rfl, rfl⟩ rfl
  refine ⟨vars, cfg, cmd, h1.trans (by rw [show settings ["--mouse"] = { mouseInput := true } by decide]),
    fun dbl => (h2 dbl).trans (by decide), (h4 _ rfl).1, (h4 _ rfl).2, h5.2 (by decide)⟩

/-- C79, a defect of the code.  In a terminal that claims to have no columns (as some terminals do that do
not know their size), the adapter does not fall back to 80 by 25 but dies of a failed assertion. -/
theorem C79_zero_size_defect :
    ∃ os, Utf8 os.loc ∧ os.winSize = some ⟨0, 0, 0, 0⟩ ∧ os.openError = none ∧ os.spawned = .ok ∧
      (∃ f, findProgram os.find (utf8Text (points "x")) = .ok (utf8Text f)) ∧
      (main os ["winpty", "x"]).2 = .abort := by
  refine ⟨demoOs (some ⟨0, 0, 0, 0⟩) none .ok, strictUtf8_ok, rfl, rfl, rfl, ⟨_, demo_found _ _ _⟩, ?_⟩
  have hp : parseArguments ["winpty", "x"] = .run {} ["x"] := by decide
  unfold main
  rw [hp]
  simp only
  unfold start
  rw [vars_convert _ strictUtf8_ok (by intro n v hn hv; simp [demoOs] at hv)]
  have : agentConfig (demoOs (some ⟨0, 0, 0, 0⟩) none .ok) {} = none := by
    simp [agentConfig, Startup.configNew, agentFlags, Startup.flagMask, Startup.setInitialSize, initialSize,
      demoOs]
  rw [this]
  rfl

/-- C79, a defect of the code.  If `WINPTY_DEBUG` is set to bytes that are no text, the adapter dies of a
failed assertion. -/
theorem C79_not_text_defect :
    ∃ os, Utf8 os.loc ∧ os.winSize = some ⟨80, 24, 0, 0⟩ ∧ os.unix debugVar = some [0xFF] ∧
      (main os ["winpty", "x"]) = ([], .abort) := by
  refine ⟨demoOs (some ⟨80, 24, 0, 0⟩) (some [0xFF]) .ok, strictUtf8_ok, rfl, rfl, ?_⟩
  have hp : parseArguments ["winpty", "x"] = .run {} ["x"] := by decide
  unfold main
  rw [hp]
  simp only
  unfold start
  rw [if_pos]
  have hv : FindProgram.varsToCopy (demoOs (some ⟨80, 24, 0, 0⟩) (some [0xFF]) .ok).unix =
      [(debugVar, [0xFF])] := by
    have : (demoOs (some ⟨80, 24, 0, 0⟩) (some [0xFF]) .ok).unix =
      fun n => if n = debugVar then some [0xFF] else none := rfl
    rw [this]; decide
  rw [hv]
  have hn : heapMbsToWcs strictUtf8 [0xFF] = none := by
    unfold heapMbsToWcs strictUtf8
    simp only
    rw [dif_neg]
    rintro ⟨cs, hcs, h⟩
    cases cs with
    | nil => cases h
    | cons c cs =>
      have hc := hcs c (by simp)
      unfold IsScalar at hc
      simp only [utf8Text, List.flatMap_cons] at h
      have : (utf8 c).head? = some 0xFF := by
        cases hu : utf8 c with
        | nil => exact absurd hu (Unicode.utf8_ne_nil c)
        | cons x xs => rw [hu] at h; simp at h; simp [h.1]
      unfold utf8 at this
      repeat' split at this
      all_goals simp at this; try omega
  have hl : (demoOs (some ⟨80, 24, 0, 0⟩) (some [0xFF]) .ok).loc = strictUtf8 := rfl
  rw [hl]
  simp [hn]

end Winpty.Props
