import Verif.Model.Startup
import Verif.Lemmas.StringBuilder
import Verif.Lemmas.Argv

/-!
# C35, C39, C40, C41: configuration, start-up parameters, environment blocks, unique names
-/
namespace Winpty.Props
open Winpty.Startup Winpty.Spec Winpty.StringBuilder Winpty.Buffer

/-! ## C40 -/

/-- The documented range of each setter. -/
def validSet : SetCall → Prop
  | .size cols rows => 0 < cols ∧ 0 < rows
  | .mouse m => m = 0 ∨ m = 1 ∨ m = 2
  | .timeout ms => 0 < ms

/-- The sizes, mouse modes and time-outs a program sets, in order. -/
def sizesSet (calls : List SetCall) : List (Int × Int) :=
  calls.filterMap fun | .size c r => some (c, r) | _ => none
/-- Mouse modes set. -/
def miceSet (calls : List SetCall) : List Int :=
  calls.filterMap fun | .mouse m => some m | _ => none
/-- Time-outs set. -/
def timeoutsSet (calls : List SetCall) : List Nat :=
  calls.filterMap fun | .timeout t => some t | _ => none

/-- The configuration after a sequence of setters: each field is the last value set for it. -/
def expectedConfig (start : Config) (calls : List SetCall) : Config where
  flags := start.flags
  cols := ((sizesSet calls).getLast?.map Prod.fst).getD start.cols
  rows := ((sizesSet calls).getLast?.map Prod.snd).getD start.rows
  mouseMode := (miceSet calls).getLast?.getD start.mouseMode
  timeoutMs := (timeoutsSet calls).getLast?.getD start.timeoutMs

theorem applySets_eq (start : Config) (calls : List SetCall) :
    ((∀ s ∈ calls, validSet s) → applySets start calls = some (expectedConfig start calls)) ∧
    ((∃ s ∈ calls, ¬ validSet s) → applySets start calls = none) := by
  induction calls generalizing start with
  | nil => simp [applySets, expectedConfig, sizesSet, miceSet, timeoutsSet]
  | cons s ss ih =>
    constructor
    · intro hv
      have hs := hv s (by simp)
      have hr := fun c => (ih c).1 fun s hs => hv s (List.mem_cons_of_mem _ hs)
      cases s with
      | size c r =>
        simp only [validSet] at hs
        simp only [applySets, applySet, setInitialSize, gt_iff_lt, hs, and_self, ↓reduceIte, hr]
        have e1 : sizesSet (.size c r :: ss) = (c, r) :: sizesSet ss := by simp [sizesSet]
        have e2 : miceSet (.size c r :: ss) = miceSet ss := by simp [miceSet]
        have e3 : timeoutsSet (.size c r :: ss) = timeoutsSet ss := by simp [timeoutsSet]
        simp only [expectedConfig, e1, e2, e3, List.getLast?_cons]
        cases (sizesSet ss).getLast? <;> simp
      | mouse m =>
        simp only [validSet] at hs
        have : m ≥ 0 ∧ m ≤ 2 := by omega
        simp only [applySets, applySet, setMouseMode, this, and_self, ↓reduceIte, hr]
        simp [expectedConfig, sizesSet, miceSet, timeoutsSet, List.getLast?_cons]
      | timeout t =>
        simp only [validSet] at hs
        simp only [applySets, applySet, setAgentTimeout, gt_iff_lt, hs, ↓reduceIte, hr]
        simp [expectedConfig, sizesSet, miceSet, timeoutsSet, List.getLast?_cons]
    · rintro ⟨t, ht, hbad⟩
      by_cases hs : validSet s
      · have ht' : t ∈ ss := by
          rcases List.mem_cons.1 ht with rfl | h
          · exact absurd hs hbad
          · exact h
        rw [applySets]
        split
        · rfl
        · exact (ih _).2 ⟨t, ht', hbad⟩
      · have : applySet start s = none := by
          cases s with
          | size c r => simp only [validSet] at hs; simp [applySet, setInitialSize]; omega
          | mouse m => simp only [validSet] at hs; simp [applySet, setMouseMode]; omega
          | timeout t => simp only [validSet] at hs; simp [applySet, setAgentTimeout]; omega
        rw [applySets, this]

/-- Configuration setters: a program whose values are all in the documented ranges ends up with the
last value it set for each field and the documented defaults elsewhere; any value out of range is
never stored (the library aborts with an assertion failure, `none`). -/
theorem C40_config (flags : Nat) (calls : List SetCall) :
    (flags < 16 → (∀ s ∈ calls, validSet s) →
      (configNew flags).bind (applySets · calls) =
        some (expectedConfig ⟨flags, 80, 25, 1, 30000⟩ calls)) ∧
    ((16 ≤ flags ∨ ∃ s ∈ calls, ¬ validSet s) → (configNew flags).bind (applySets · calls) = none) := by
  have hnew : configNew flags = if flags < 16 then some ⟨flags, 80, 25, 1, 30000⟩ else none := by
    unfold configNew
    have : flagMask = 2 ^ 4 - 1 := by decide
    rw [this, Nat.and_two_pow_sub_one_eq_mod]
    by_cases h : flags < 16
    · rw [if_pos (Nat.mod_eq_of_lt h), if_pos h]
    · rw [if_neg (by omega), if_neg h]
  rw [hnew]
  constructor
  · intro hf hv
    rw [if_pos hf]
    exact (applySets_eq _ calls).1 hv
  · rintro (h | h)
    · rw [if_neg (by omega)]; rfl
    · split
      · exact (applySets_eq _ calls).2 h
      · rfl

/-- Non-vacuity. -/
example : (∀ s ∈ [SetCall.size 100 30, .mouse 2, .size 90 20], validSet s) ∧
    (configNew 5).bind (applySets · [SetCall.size 100 30, .mouse 2, .size 90 20]) =
      some ⟨5, 90, 20, 2, 30000⟩ := by
  refine ⟨?_, by decide⟩
  intro s hs
  simp only [List.mem_cons, List.not_mem_nil, or_false] at hs
  rcases hs with rfl | rfl | rfl <;> simp [validSet]

/-! ## C39 -/

theorem escBody_plain (bs : Nat) (p : List Nat) (h : 34 ∉ p) :
    Argv.escBody false bs p = List.replicate bs 92 ++ p := by
  induction p generalizing bs with
  | nil => simp [Argv.escBody]
  | cons c p ih =>
    have h' : 34 ∉ p := fun hm => h (List.mem_cons_of_mem _ hm)
    rw [Argv.escBody]
    split
    · rename_i hc; subst hc; rw [ih _ h', List.replicate_succ']; simp
    · rw [if_neg (by rintro rfl; exact h (by simp)), ih _ h']; simp

theorem escArg_plain (p : List Nat) (hne : p ≠ []) (h : 34 ∉ p) (hb : 32 ∉ p ∧ 9 ∉ p) :
    Argv.escArg p = p := by
  unfold Argv.escArg
  have : Argv.needsQuote p = false := by simp [Argv.needsQuote, hb, hne]
  rw [this]
  simp [escBody_plain 0 p h]

theorem programName_quoted (exe rest : List Nat) (h : 34 ∉ exe) :
    programName true (exe ++ 34 :: rest) = (exe ++ (programName false rest).1, (programName false rest).2) := by
  induction exe with
  | nil => simp [programName]
  | cons c e ih =>
    have hc : c ≠ 34 := by rintro rfl; exact h (by simp)
    rw [List.cons_append, programName, if_neg hc, ih (fun hm => h (List.mem_cons_of_mem _ hm))]
    simp

theorem decimal_chars (i : Int) : decimal i ≠ [] ∧ ∀ c ∈ decimal i, c = 45 ∨ (48 ≤ c ∧ c < 58) := by
  obtain ⟨h1, _⟩ := toDigits10_codes i.natAbs
  have hne : codes (Nat.toDigits 10 i.natAbs) ≠ [] := by simp [codes]
  unfold decimal
  split
  · refine ⟨by simp [codes], ?_⟩
    intro c hc
    simp only [codes, List.map_cons, List.mem_cons] at hc
    rcases hc with rfl | hc
    · left; rfl
    · right; exact h1 c hc
  · exact ⟨hne, fun c hc => .inr (h1 c hc)⟩

/-- Start-up parameters survive: for every configuration a program can build with the setters
(arguments being C `int`s), the agent started on the resulting command line runs with exactly those
flags, mouse mode and size on that control pipe.  `exe` is any path without quotes; `pipe` any name
without blanks and quotes that is not itself an option; the command line is split by the standard
rules (`dbl` arbitrary); `utf8` is only assumed to keep ASCII text. -/
theorem C39_parameters_survive (dbl : Dbl) (utf8 : List Nat → List Nat)
    (hutf8 : ∀ s, (∀ c ∈ s, c < 128) → utf8 s = s)
    (exe pipe : List Nat) (hexe : 34 ∉ exe) (hpipe : pipe ≠ [] ∧ 34 ∉ pipe ∧ 32 ∉ pipe ∧ 9 ∉ pipe)
    (hpipe' : pipe ≠ lit "--show-input")
    (flags : Nat) (calls : List SetCall)
    (hint : ∀ c r, SetCall.size c r ∈ calls → c < 2 ^ 31 ∧ r < 2 ^ 31)
    (cfg : Config) (hcfg : (configNew flags).bind (applySets · calls) = some cfg) :
    agentMain utf8 strtolValue (parseCommandLine dbl (agentCommandLine exe pipe (params cfg))) =
      .run pipe cfg.flags cfg.mouseMode cfg.cols cfg.rows := by
  -- ranges of the fields
  obtain ⟨hflags, hvalid⟩ : flags < 16 ∧ ∀ s ∈ calls, validSet s := by
    by_cases h : 16 ≤ flags ∨ ∃ s ∈ calls, ¬ validSet s
    · rw [(C40_config flags calls).2 h] at hcfg; cases hcfg
    · constructor
      · exact Nat.lt_of_not_le fun h' => h (.inl h')
      · intro s hs
        exact Classical.byContradiction fun h' => h (.inr ⟨s, hs, h'⟩)
  rw [(C40_config flags calls).1 hflags hvalid] at hcfg
  cases hcfg
  have hsz : ∀ p ∈ sizesSet calls, 0 < p.1 ∧ 0 < p.2 ∧ p.1 < 2 ^ 31 ∧ p.2 < 2 ^ 31 := by
    intro p hp
    obtain ⟨s, hs, hsp⟩ := List.mem_filterMap.1 hp
    cases s <;> simp at hsp
    subst hsp
    have h1 := hvalid _ hs
    have h2 := hint _ _ hs
    simp only [validSet] at h1
    exact ⟨h1.1, h1.2, h2.1, h2.2⟩
  have hms : ∀ m ∈ miceSet calls, 0 ≤ m ∧ m ≤ 2 := by
    intro m hm
    obtain ⟨s, hs, hsp⟩ := List.mem_filterMap.1 hm
    cases s <;> simp at hsp
    subst hsp
    have h1 := hvalid _ hs
    simp only [validSet] at h1
    omega
  generalize hc : expectedConfig ⟨flags, 80, 25, 1, 30000⟩ calls = cfg
  have hf : cfg.flags < 16 := by subst hc; exact hflags
  have hcols : 0 < cfg.cols ∧ cfg.cols < 2 ^ 31 := by
    subst hc
    simp only [expectedConfig]
    cases hl : (sizesSet calls).getLast? with
    | none => simp
    | some p => have := hsz p (List.mem_of_getLast? hl); simp; omega
  have hrows : 0 < cfg.rows ∧ cfg.rows < 2 ^ 31 := by
    subst hc
    simp only [expectedConfig]
    cases hl : (sizesSet calls).getLast? with
    | none => simp
    | some p => have := hsz p (List.mem_of_getLast? hl); simp; omega
  have hmouse : 0 ≤ cfg.mouseMode ∧ cfg.mouseMode ≤ 2 := by
    subst hc
    simp only [expectedConfig]
    cases hl : (miceSet calls).getLast? with
    | none => simp
    | some p => have := hms p (List.mem_of_getLast? hl); simp; omega
  clear hc
  -- the four texts
  have tf : decText 8 (cfg.flags : Int) = decimal cfg.flags :=
    decText_eq 8 _ (by omega) ⟨by omega, by omega⟩
  have tm : decText 4 cfg.mouseMode = decimal cfg.mouseMode :=
    decText_eq 4 _ (by omega) ⟨by omega, by omega⟩
  have tc : decText 4 cfg.cols = decimal cfg.cols := decText_eq 4 _ (by omega) ⟨by omega, by omega⟩
  have tr : decText 4 cfg.rows = decimal cfg.rows := decText_eq 4 _ (by omega) ⟨by omega, by omega⟩
  have plain : ∀ i, Argv.escArg (decimal i) = decimal i := by
    intro i
    obtain ⟨h1, h2⟩ := decimal_chars i
    refine escArg_plain _ h1 ?_ ⟨?_, ?_⟩ <;> intro h <;> have := h2 _ h <;> omega
  have asciiD : ∀ i, utf8 (decimal i) = decimal i := by
    intro i
    apply hutf8
    intro c hc
    have := (decimal_chars i).2 c hc
    omega
  have sv : ∀ i, strtolValue (decimal i) = i := by
    intro i
    have := strtolValue_decimal i [] (by simp)
    simpa using this
  have hline : parseCommandLine dbl (agentCommandLine exe pipe (params cfg)) =
      [exe, pipe, decimal cfg.flags, decimal cfg.mouseMode, decimal cfg.cols, decimal cfg.rows] := by
    have e : agentCommandLine exe pipe (params cfg) = 34 :: (exe ++ 34 ::
        Argv.restArgs [pipe, decimal cfg.flags, decimal cfg.mouseMode, decimal cfg.cols,
          decimal cfg.rows]) := by
      simp only [agentCommandLine, params, tf, tm, tc, tr, Argv.restArgs, plain,
        escArg_plain pipe hpipe.1 hpipe.2.1 hpipe.2.2]
      simp
    rw [e]
    unfold parseCommandLine
    rw [show ∀ l, programName false (34 :: l) = programName true l from fun l => by
      simp [programName]]
    rw [programName_quoted exe _ hexe]
    have : ∀ l, programName false (Argv.restArgs (pipe :: l)) = ([], Argv.restArgs (pipe :: l)) := by
      intro l
      simp [Argv.restArgs, programName, blank]
    rw [this]
    simp only [List.append_nil]
    rw [Argv.parse_restArgs]
  rw [hline]
  unfold agentMain
  simp only [List.length_cons, List.length_nil]
  rw [if_neg (by omega), if_neg (by simp [hpipe']), if_neg (by omega)]
  simp only [asciiD, sv]
  rw [if_pos (by omega)]
  have : toUnsigned 64 (max (-2 ^ 63) (min (2 ^ 63 - 1) (cfg.flags : Int))) = cfg.flags := by
    rw [show max (-2 ^ 63) (min (2 ^ 63 - 1) (cfg.flags : Int)) = (cfg.flags : Int) by omega]
    rw [toUnsigned_nonneg 64 _ (by omega) (by omega)]
    omega
  rw [this]

/-! ## C41 -/

theorem hexadecimal_ok (n : Nat) : hexadecimal n ≠ [] := by simp [hexadecimal, codes]

theorem counterAt_range (k : Nat) : Fits 4 (counterAt k) := by
  unfold counterAt toSigned Fits
  have := Nat.mod_lt k (show 2 ^ 32 > 0 by omega)
  split <;> omega

/-- Two names made in one process are different, whatever the clock and the random source returned,
unless exactly a multiple of `2^32` names were made in between.  Names made in processes with
different process ids are always different. -/
theorem C41_names_differ (pid pid' : Nat) (hp : pid < 2 ^ 32) (hp' : pid' < 2 ^ 32) (k k' : Nat)
    (t t' : Nat) (r r' : List Nat) (h : pid ≠ pid' ∨ k % 2 ^ 32 ≠ k' % 2 ^ 32) :
    uniqueName pid (counterAt k) t r ≠ uniqueName pid' (counterAt k') t' r' := by
  intro heq
  unfold uniqueName at heq
  rw [decText_eq 4 (pid : Int) (by omega) ⟨by omega, by omega⟩,
    decText_eq 4 (pid' : Int) (by omega) ⟨by omega, by omega⟩,
    decText_eq 4 _ (by omega) (counterAt_range k), decText_eq 4 _ (by omega) (counterAt_range k')] at heq
  simp only [List.append_assoc, List.cons_append] at heq
  -- the process ids agree
  have hpid : (pid : Int) = pid' := by
    rw [← strtolValue_decimal (pid : Int) (45 :: (decimal (counterAt k) ++
      45 :: (hexText false 8 t ++ if (randomHexString r).isEmpty then [] else 45 :: randomHexString r)))
      (by intro c hc; cases hc; omega), heq]
    exact strtolValue_decimal _ _ (by intro c hc; cases hc; omega)
  rw [hpid] at heq
  have heq2 := List.append_cancel_left heq
  have heq3 := (List.cons.inj heq2).2
  have hcnt : counterAt k = counterAt k' := by
    rw [← strtolValue_decimal (counterAt k) (45 :: (hexText false 8 t ++
      if (randomHexString r).isEmpty then [] else 45 :: randomHexString r))
      (by intro c hc; cases hc; omega), heq3]
    exact strtolValue_decimal _ _ (by intro c hc; cases hc; omega)
  unfold counterAt toSigned at hcnt
  have := Nat.mod_lt k (show 2 ^ 32 > 0 by omega)
  have := Nat.mod_lt k' (show 2 ^ 32 > 0 by omega)
  have hk : k % 2 ^ 32 = k' % 2 ^ 32 := by
    split at hcnt <;> split at hcnt <;> omega
  rcases h with h | h
  · omega
  · exact h hk

/-- In particular any two of fewer than `2^32` successive names are different. -/
theorem C41_successive_names_differ (pid k k' t t' : Nat) (r r' : List Nat) (hp : pid < 2 ^ 32)
    (hlt : k < k') (hclose : k' < k + 2 ^ 32) :
    uniqueName pid (counterAt k) t r ≠ uniqueName pid (counterAt k') t' r' :=
  C41_names_differ pid pid hp hp k k' t t' r r' (.inr (by omega))

/-- The unrestricted claim fails: with a broken random source and a clock that does not advance, the
name after `2^32` further calls is the same. -/
theorem C41_wraps : ∃ k k', k ≠ k' ∧
    ∀ pid t, uniqueName pid (counterAt k) t [] = uniqueName pid (counterAt k') t [] := by
  refine ⟨1, 1 + 2 ^ 32, by omega, ?_⟩
  intro pid t
  have : counterAt (1 + 2 ^ 32) = counterAt 1 := by decide
  rw [this]

/-- Names are usable in a pipe path and on a command line: only lower-case hexadecimal digits and
dashes, so no blank, quote or backslash (`C39` needs this of the control pipe's name). -/
theorem C41_characters (pid : Nat) (hp : pid < 2 ^ 32) (k t : Nat) (r : List Nat)
    (hr : ∀ b ∈ r, b < 256) :
    ∀ c ∈ uniqueName pid (counterAt k) t r, c = 45 ∨ (48 ≤ c ∧ c < 58) ∨ (97 ≤ c ∧ c < 103) := by
  have hex : ∀ d, d < 16 → (48 ≤ hexDigit d ∧ hexDigit d < 58) ∨ (97 ≤ hexDigit d ∧ hexDigit d < 103) := by
    intro d hd; unfold hexDigit; split <;> omega
  have hemit : ∀ u r, ∀ c ∈ hexEmit u r, (48 ≤ c ∧ c < 58) ∨ (97 ≤ c ∧ c < 103) := by
    intro u r
    induction r with
    | zero => simp [hexEmit]
    | succ r ih =>
      intro c hc
      simp only [hexEmit, List.mem_cons] at hc
      rcases hc with rfl | hc
      · apply hex
        rw [shr_and]; exact Nat.mod_lt _ (by omega)
      · exact ih c hc
  have hrand : ∀ c ∈ randomHexString r, (48 ≤ c ∧ c < 58) ∨ (97 ≤ c ∧ c < 103) := by
    intro c hc
    simp only [randomHexString, List.mem_flatMap] at hc
    obtain ⟨b, hb, hc⟩ := hc
    have hb' := hr b hb
    simp only [List.mem_cons, List.not_mem_nil, or_false] at hc
    rcases hc with rfl | rfl
    · apply hex; rw [Nat.shiftRight_eq_div_pow]; omega
    · apply hex; exact Nat.lt_of_le_of_lt Nat.and_le_right (by omega)
  intro c hc
  unfold uniqueName at hc
  rw [decText_eq 4 (pid : Int) (by omega) ⟨by omega, by omega⟩,
    decText_eq 4 _ (by omega) (counterAt_range k)] at hc
  simp only [List.mem_append, List.mem_cons] at hc
  have key : c ∈ decimal (pid : Int) ∨ c = 45 ∨ c ∈ decimal (counterAt k) ∨ c ∈ hexText false 8 t ∨
      c ∈ randomHexString r := by
    rcases hc with (((h | h | h) | h | h) | h)
    · exact .inl h
    · exact .inr (.inl h)
    · exact .inr (.inr (.inl h))
    · exact .inr (.inl h)
    · exact .inr (.inr (.inr (.inl h)))
    · split at h
      · simp at h
      · rcases List.mem_cons.1 h with h | h
        · exact .inr (.inl h)
        · exact .inr (.inr (.inr (.inr h)))
  rcases key with h | h | h | h | h
  · have := (decimal_chars _).2 c h; omega
  · exact .inl h
  · have := (decimal_chars _).2 c h; omega
  · exact .inr (hemit _ _ c h)
  · exact .inr (hrand c h)

/-- The two together: the agent really started by `winpty_open` (unique pipe name) gets its
parameters. -/
theorem C39_with_unique_pipe_name (dbl : Dbl) (utf8 : List Nat → List Nat)
    (hutf8 : ∀ s, (∀ c ∈ s, c < 128) → utf8 s = s)
    (exe : List Nat) (hexe : 34 ∉ exe) (pid : Nat) (hp : pid < 2 ^ 32) (k t : Nat) (rnd : List Nat)
    (hr : ∀ b ∈ rnd, b < 256) (flags : Nat) (calls : List SetCall)
    (hint : ∀ c r, SetCall.size c r ∈ calls → c < 2 ^ 31 ∧ r < 2 ^ 31)
    (cfg : Config) (hcfg : (configNew flags).bind (applySets · calls) = some cfg) :
    agentMain utf8 strtolValue (parseCommandLine dbl
      (agentCommandLine exe (controlPipeName (uniqueName pid (counterAt k) t rnd)) (params cfg))) =
      .run (controlPipeName (uniqueName pid (counterAt k) t rnd))
        cfg.flags cfg.mouseMode cfg.cols cfg.rows := by
  have hpre : ∀ c ∈ lit "\\\\.\\pipe\\winpty-control-", c ≠ 34 ∧ c ≠ 32 ∧ c ≠ 9 := by decide
  have hall : ∀ c ∈ controlPipeName (uniqueName pid (counterAt k) t rnd), c ≠ 34 ∧ c ≠ 32 ∧ c ≠ 9 := by
    intro c hc
    rcases List.mem_append.1 hc with h | h
    · exact hpre c h
    · have := C41_characters pid hp k t rnd hr c h; omega
  refine C39_parameters_survive dbl utf8 hutf8 exe _ hexe ⟨?_, ?_, ?_, ?_⟩ ?_ flags calls hint cfg hcfg
  · simp [controlPipeName, lit]
  · intro h; exact (hall _ h).1 rfl
  · intro h; exact (hall _ h).2.1 rfl
  · intro h; exact (hall _ h).2.2 rfl
  · intro h
    have := congrArg List.head? h
    simp [controlPipeName, lit] at this

/-- Non-vacuity. -/
example : (configNew 8).bind (applySets · [SetCall.size 132 43, .mouse 0]) = some ⟨8, 132, 43, 0, 30000⟩ ∧
    uniqueName 12 (counterAt 3) 255 [0xA5] = lit "12-3-ff-a5" := by
  refine ⟨by decide, ?_⟩
  unfold uniqueName
  rw [decText_eq 4 _ (by omega) ⟨by omega, by omega⟩, decText_eq 4 _ (by omega) (counterAt_range 3)]
  decide

/-! ## C35 -/

/-- An environment block: every string followed by a NUL, and a final NUL. -/
def envBlock (vars : List (List Nat)) : List Nat := vars.flatMap (· ++ [0]) ++ [0]

theorem wcslen_eq (s r : List Nat) (h : 0 ∉ s) : wcslen (s ++ 0 :: r) = some s.length := by
  induction s with
  | nil => simp [wcslen]
  | cons c s ih =>
    have hc : c ≠ 0 := by rintro rfl; exact h (by simp)
    rw [List.cons_append, wcslen, if_neg hc, ih (fun hm => h (List.mem_cons_of_mem _ hm))]
    simp

theorem envLoop_eq (vars : List (List Nat)) (tail : List Nat)
    (h : ∀ v ∈ vars, v ≠ [] ∧ 0 ∉ v) :
    envLoop (vars.flatMap (· ++ [0]) ++ 0 :: tail) = some (vars.flatMap (· ++ [0])).length := by
  induction vars with
  | nil => rw [List.flatMap_nil, List.nil_append, envLoop]; simp
  | cons v vs ih =>
    obtain ⟨hne, h0⟩ := h v (by simp)
    obtain ⟨c, w, rfl⟩ := List.exists_cons_of_ne_nil hne
    have hc : c ≠ 0 := by rintro rfl; exact h0 (by simp)
    have ih' := ih fun x hx => h x (List.mem_cons_of_mem _ hx)
    have hw := wcslen_eq (c :: w) (vs.flatMap (· ++ [0]) ++ 0 :: tail) h0
    have e1 : ((c :: w) :: vs).flatMap (· ++ [0]) ++ 0 :: tail =
        c :: (w ++ 0 :: (vs.flatMap (· ++ [0]) ++ 0 :: tail)) := by simp
    rw [e1, envLoop, if_neg hc]
    rw [List.cons_append] at hw
    rw [hw]
    have hd : (c :: (w ++ 0 :: (vs.flatMap (· ++ [0]) ++ 0 :: tail))).drop ((c :: w).length + 1) =
        vs.flatMap (· ++ [0]) ++ 0 :: tail := by
      simp
    simp only [hd, ih']
    simp
    omega

theorem envChecks_eq (vars : List (List Nat)) (hne : vars ≠ []) (h : ∀ v ∈ vars, v ≠ [] ∧ 0 ∉ v) :
    envChecks (envBlock vars) = .ok (envBlock vars) := by
  obtain ⟨vs, v, rfl⟩ : ∃ vs v, vars = vs ++ [v] := ⟨vars.dropLast, vars.getLast hne, (List.dropLast_concat_getLast hne).symm⟩
  obtain ⟨hv, h0⟩ := h v (by simp)
  obtain ⟨w, c, rfl⟩ : ∃ w c, v = w ++ [c] := ⟨v.dropLast, v.getLast hv, (List.dropLast_concat_getLast hv).symm⟩
  have hc : c ≠ 0 := by rintro rfl; exact h0 (by simp)
  have e : envBlock (vs ++ [w ++ [c]]) = (vs.flatMap (· ++ [0]) ++ w) ++ [c, 0, 0] := by
    simp [envBlock]
  rw [e]
  generalize vs.flatMap (· ++ [0]) ++ w = L
  unfold envChecks
  simp only [List.length_append, List.length_cons, List.length_nil]
  rw [if_neg (by omega), if_pos]
  refine ⟨by omega, ?_, ?_, ?_⟩
  · rw [List.getElem?_append_right (by omega)]; simp [hc]
  · rw [List.getElem?_append_right (by omega), show L.length + (0 + 1 + 1 + 1) - 2 - L.length = 1 by omega]; rfl
  · rw [List.getElem?_append_right (by omega), show L.length + (0 + 1 + 1 + 1) - 1 - L.length = 2 by omega]; rfl

/-- An environment block is copied exactly, up to its final NUL and not beyond, whatever memory
follows; the copy never reads past the block's end and its sanity checks never fail.  An empty block
is stored as two NULs; a null pointer as the empty string. -/
theorem C35_block_copied (vars : List (List Nat)) (tail : List Nat)
    (h : ∀ v ∈ vars, v ≠ [] ∧ 0 ∉ v) :
    wstringFromEnvBlock (some (envBlock vars ++ tail)) =
      .ok (if vars = [] then [0, 0] else envBlock vars) ∧
    wstringFromEnvBlock none = .ok [] := by
  refine ⟨?_, rfl⟩
  have e : envBlock vars ++ tail = vars.flatMap (· ++ [0]) ++ 0 :: tail := by simp [envBlock]
  unfold wstringFromEnvBlock
  simp only [e, envLoop_eq vars tail h]
  rw [if_pos (by simp)]
  have ht : (vars.flatMap (· ++ [0]) ++ 0 :: tail).take ((vars.flatMap (· ++ [0])).length + 1) =
      envBlock vars := by
    rw [← e, List.take_left' (by simp [envBlock])]
  rw [ht]
  split
  · rename_i h0; subst h0; decide
  · rename_i h0; exact envChecks_eq vars h0 h

/-- What the child process is started with: the same block, or, when no block was given, the agent's
own environment (a null pointer). -/
theorem C35_child_gets_block (vars : List (List Nat)) (tail : List Nat)
    (h : ∀ v ∈ vars, v ≠ [] ∧ 0 ∉ v) :
    (∃ s, wstringFromEnvBlock (some (envBlock vars ++ tail)) = .ok s ∧
      agentEnvArg s = some (if vars = [] then [0, 0] else envBlock vars)) ∧
    (∃ s, wstringFromEnvBlock none = .ok s ∧ agentEnvArg s = none) := by
  refine ⟨⟨_, (C35_block_copied vars tail h).1, ?_⟩, ⟨_, rfl, rfl⟩⟩
  unfold agentEnvArg
  rw [if_neg]
  split <;> simp [envBlock]

/-- Non-vacuity: two variables followed by unrelated memory. -/
example : wstringFromEnvBlock (some (envBlock [lit "A=1", lit "B="] ++ [7, 7, 0])) =
    .ok (lit "A=1" ++ [0] ++ lit "B=" ++ [0, 0]) := by
  rw [(C35_block_copied [lit "A=1", lit "B="] [7, 7, 0] ?_).1]
  · decide
  · decide

/-! ## The agent's other commands -/

/-- The character codes of a word. -/
def optionText (s : String) : List Nat := s.toList.map Char.toNat

/-- Every option of `--show-input` is one of the two the usage text names. -/
def knownOptions (opts : List (List Nat)) : Prop :=
  ∀ a ∈ opts, a = optionText "--with-mouse" ∨ a = optionText "--escape-input"

/-- **C76 / C39.**  `winpty-agent --show-input` with options, in any order and number: if each of them is
`--with-mouse` or `--escape-input` the viewer runs with exactly the named ones switched on, and otherwise
the agent refuses to run. -/
theorem C76_options (utf8 : List Nat → List Nat) (strtol : List Nat → Int) (exe : List Nat)
    (opts : List (List Nat)) :
    (knownOptions opts → agentMain utf8 strtol (exe :: optionText "--show-input" :: opts) =
      .showInput (decide (optionText "--with-mouse" ∈ opts)) (decide (optionText "--escape-input" ∈ opts))) ∧
    (¬ knownOptions opts → agentMain utf8 strtol (exe :: optionText "--show-input" :: opts) = .badOption) := by
  have hl : ∀ w e, (knownOptions opts → showInputLoop w e opts =
      .showInput (w || decide (optionText "--with-mouse" ∈ opts)) (e || decide (optionText "--escape-input" ∈ opts))) ∧
      (¬ knownOptions opts → showInputLoop w e opts = .badOption) := by
    have l1 : lit "--with-mouse" = optionText "--with-mouse" := by decide
    have l2 : lit "--escape-input" = optionText "--escape-input" := by decide
    have hne : optionText "--escape-input" ≠ optionText "--with-mouse" := by decide
    induction opts with
    | nil => intro w e; simp [showInputLoop, knownOptions]
    | cons a as ih =>
      intro w e
      rw [showInputLoop, l1, l2]
      have hk : knownOptions (a :: as) ↔ (a = optionText "--with-mouse" ∨ a = optionText "--escape-input") ∧ knownOptions as := by
        simp [knownOptions]
      rw [hk]
      by_cases h1 : a = optionText "--with-mouse"
      · rw [if_pos h1]
        subst h1
        have := ih true e
        simp only [true_or, true_and]
        refine ⟨fun h => ?_, this.2⟩
        rw [this.1 h]; simp [hne]
      · rw [if_neg h1]
        by_cases h2 : a = optionText "--escape-input"
        · rw [if_pos h2]
          subst h2
          have := ih w true
          simp only [or_true, true_and]
          refine ⟨fun h => ?_, this.2⟩
          rw [this.1 h]; simp [hne.symm]
        · rw [if_neg h2]
          simp [h1, h2]
  have hm : agentMain utf8 strtol (exe :: optionText "--show-input" :: opts) = showInputLoop false false opts := by
    have l0 : lit "--show-input" = optionText "--show-input" := by decide
    have l1 : optionText "--show-input" ≠ lit "--version" := by decide
    unfold agentMain
    rw [if_neg (by simp [l1]), if_pos (by simp [l0])]
    rfl
  rw [hm]
  simpa using hl false false

example : agentMain id (fun _ => 0) [optionText "a.exe", optionText "--show-input", optionText "--escape-input"] =
    .showInput false true := by decide
example : ¬ knownOptions [optionText "--with-mouse", optionText "--mouse"] := by
  intro h
  have := h (optionText "--mouse") (by simp)
  revert this
  decide

/-- **C39.**  The agent's other two commands, and the refusal of anything else: `--version` alone prints
the version; a pipe name followed by `--create-desktop` makes a desktop for that pipe; and a command line
with a number of arguments that no command takes gets the usage text. -/
theorem C39_commands (utf8 : List Nat → List Nat) (strtol : List Nat → Int) (exe : List Nat) :
    agentMain utf8 strtol [exe, optionText "--version"] = .version ∧
    (∀ pipe, pipe ≠ optionText "--show-input" →
      agentMain utf8 strtol [exe, pipe, optionText "--create-desktop"] = .createDesktop pipe) ∧
    (∀ args : List (List Nat), args.length ≠ 5 → args ≠ [optionText "--version"] →
      args.head? ≠ some (optionText "--show-input") →
      (args.length = 2 → args.getLast? ≠ some (optionText "--create-desktop")) →
      agentMain utf8 strtol (exe :: args) = .usage) := by
  have l0 : lit "--show-input" = optionText "--show-input" := by decide
  have l1 : lit "--version" = optionText "--version" := by decide
  have l2 : lit "--create-desktop" = optionText "--create-desktop" := by decide
  refine ⟨?_, ?_, ?_⟩
  · unfold agentMain
    rw [if_pos (by simp [l1])]
  · intro pipe hp
    unfold agentMain
    rw [if_neg (by simp), if_neg (by simp [l0, hp]), if_pos (by simp [l2])]
    rfl
  · intro args h5 hv hs hd
    unfold agentMain
    rw [if_neg, if_neg, if_neg]
    · split
      · rename_i heq
        cases heq
        exact absurd rfl h5
      · rfl
    · rintro ⟨a, b⟩
      match args, a, b with
      | [x, y], _, b =>
        simp [l2] at b
        exact hd rfl (by simp [b])
    · rintro ⟨a, b⟩
      match args, a, b with
      | x :: xs, _, b =>
        simp [l0] at b
        exact hs (by simp [b])
    · rintro ⟨a, b⟩
      match args, a, b with
      | [x], _, b =>
        simp [l1] at b
        exact hv (by simp [b])

example : agentMain id (fun _ => 0) [optionText "a.exe", optionText "pipe", optionText "1"] = .usage := by decide

end Winpty.Props
