import Verif.Lemmas.Argv

/-!
# C36, C37: command line building and option parsing in the adapter
-/
namespace Winpty.Props
open Winpty.Argv Winpty.Spec

/-- Lossless quoting: the line built for any list of arguments is split by the standard rules back
into exactly those arguments, whichever convention the run-time has for doubled quotes.  (Any
characters, including quotes, backslashes, blanks, and empty arguments.) -/
theorem C36_arguments_roundtrip (dbl : Dbl) (args : List (List Nat)) :
    parseArgs dbl (argvToCommandLine args) = args := by
  cases args with
  | nil => rfl
  | cons a as =>
    unfold parseArgs argvToCommandLine
    rw [List.foldl_append]
    obtain ⟨a', h1, h2, h3⟩ := feed_escArg dbl [] a
    rw [h1, feed_restArgs dbl _ _ h3, h2]; rfl

/-- The same when the reader applies the special rule for the program name (no backslash escapes in
it): it holds for every program name that Windows allows, i.e. without a double quote, unless a name
with blanks ends in a backslash (a directory, not a program). -/
theorem C36_with_program_name (dbl : Dbl) (prog : List Nat) (args : List (List Nat))
    (hnq : 34 ∉ prog)
    (hend : (32 ∈ prog ∨ 9 ∈ prog) → prog.getLast? ≠ some 92) :
    parseCommandLine dbl (argvToCommandLine (prog :: args)) = prog :: args := by
  have hrest : restArgs args = [] ∨ ∃ c r, restArgs args = c :: r ∧ blank c = true := by
    cases args with
    | nil => exact .inl rfl
    | cons x xs => exact .inr ⟨32, _, rfl, by decide⟩
  have key : programName false (argvToCommandLine (prog :: args)) = (prog, restArgs args) := by
    unfold argvToCommandLine escArg
    cases hq : needsQuote prog with
    | true =>
      simp only [hq, ↓reduceIte, List.cons_append, programName, Bool.not_false]
      rw [programName_escBody true 0 prog _ hnq (by simp) (fun _ => ⟨?_, fun _ => rfl⟩) hrest]
      · simp
      · simp [needsQuote] at hq
        rcases hq with hq | hq
        · exact hend hq
        · subst hq; simp
    | false =>
      simp only [hq, Bool.false_eq_true, ↓reduceIte]
      rw [programName_escBody false 0 prog _ hnq (fun _ => (not_needsQuote hq).2) (by simp) hrest]
      simp
  unfold parseCommandLine
  rw [key, parse_restArgs]

/-- Non-vacuity: an ordinary program path with blanks and hostile arguments. -/
example : let prog := "C:\\my dir\\a.exe".toList.map Char.toNat
    let args := ["", "a b\\", "\\\"x\\\\\"", "\\\\", "\t\""].map fun s => s.toList.map Char.toNat
    34 ∉ prog ∧ ((32 ∈ prog ∨ 9 ∈ prog) → prog.getLast? ≠ some 92) ∧
    parseCommandLine .literalStay (argvToCommandLine (prog :: args)) = prog :: args := by
  decide

/-! ## Options -/

/-- Does a word look like an option? -/
def isOption (w : String) : Prop := w.toList.head? = some '-'

/-- The options that do not end option parsing by themselves. -/
def flagWords : List String := ["--mouse", "-Xallow-non-tty", "-Xconerr", "-Xplain", "-Xcolor"]

/-- The settings selected by a list of flags. -/
def settings (flags : List String) : Arguments :=
  ⟨decide ("--mouse" ∈ flags), decide ("-Xallow-non-tty" ∈ flags), decide ("-Xconerr" ∈ flags),
    decide ("-Xplain" ∈ flags), decide ("-Xcolor" ∈ flags), false⟩

/-- Everything from the program name on, or after `--`, is handed to the child unchanged and in
order, whatever it looks like; exactly the flags before it are in effect. -/
theorem C37_child_arguments_untouched (argv0 : String) (flags rest : List String)
    (hflags : ∀ f ∈ flags, f ∈ flagWords) :
    (∀ prog, ¬ isOption prog →
      parseArguments (argv0 :: flags ++ prog :: rest) = .run (settings flags) (prog :: rest)) ∧
    (rest ≠ [] →
      parseArguments (argv0 :: flags ++ "--" :: rest) = .run (settings flags) rest) := by
  constructor
  · intro prog hprog
    unfold isOption at hprog
    unfold parseArguments
    rw [List.cons_append, List.tail_cons, parseLoop_flags _ _ _ hflags, parseLoop, if_neg hprog]
    simp [finishParse, settings, addFlags]
  · intro hne
    unfold parseArguments
    rw [List.cons_append, List.tail_cons, parseLoop_flags _ _ _ hflags, parseLoop, if_pos (by decide)]
    simp [finishParse, settings, addFlags, hne]

/-- Unknown options, a missing program, and the informational options end the program without
running anything. -/
theorem C37_errors (argv0 : String) (flags rest : List String) (hflags : ∀ f ∈ flags, f ∈ flagWords) :
    (∀ w, isOption w → w ∉ flagWords → w ∉ ["-h", "--help", "--showkey", "--version", "--"] →
      parseArguments (argv0 :: flags ++ w :: rest) = .unrecognized w) ∧
    parseArguments (argv0 :: flags) = .usage 1 ∧
    parseArguments (argv0 :: flags ++ ["--"]) = .usage 1 ∧
    parseArguments (argv0 :: flags ++ "-h" :: rest) = .usage 0 ∧
    parseArguments (argv0 :: flags ++ "--help" :: rest) = .usage 0 ∧
    parseArguments (argv0 :: flags ++ "--version" :: rest) = .version := by
  unfold parseArguments
  have key := fun tail => parseLoop_flags flags tail {} hflags
  refine ⟨?_, ?_, ?_, ?_, ?_, ?_⟩
  · intro w hw h1 h2
    unfold isOption at hw
    rw [List.cons_append, List.tail_cons, key, parseLoop, if_pos hw]
    simp only [flagWords, List.mem_cons, List.not_mem_nil, or_false, not_or] at h1 h2
    simp [h1, h2]
  · have := key []
    rw [List.append_nil] at this
    rw [List.tail_cons, this, parseLoop]
    simp [finishParse, addFlags]
  all_goals
    rw [List.cons_append, List.tail_cons, key, parseLoop, if_pos (by decide)]
    simp [finishParse, addFlags]

/-- Conversely, whenever a child is run, its arguments are a non-empty final part of the words given,
and everything before it is a recognised flag (then either the child's first word is not an option,
or `--` separates them): no word is dropped, added or reordered. -/
theorem C37_boundary (argv : List String) (a : Arguments) (child : List String)
    (h : parseArguments argv = .run a child) :
    child ≠ [] ∧ ∃ flags, (∀ f ∈ flags, f ∈ flagWords) ∧ a = settings flags ∧
      ((argv.tail = flags ++ child ∧ ∀ p, child.head? = some p → ¬ isOption p) ∨
        argv.tail = flags ++ "--" :: child) := by
  obtain ⟨h1, _, flags, h2, h3, h4⟩ := parseLoop_run _ _ _ _ h
  exact ⟨h1, flags, h2, by rw [h3]; simp [addFlags, settings], h4⟩

/-- Non-vacuity. -/
example : (∀ f ∈ ["--mouse", "-Xplain"], f ∈ flagWords) ∧ ¬ isOption "vim" ∧
    parseArguments ["winpty", "--mouse", "-Xplain", "vim", "--mouse", "--", "x"] =
      .run { mouseInput := true, testPlainOutput := true } ["vim", "--mouse", "--", "x"] := by
  refine ⟨by decide, by unfold isOption; decide, by decide⟩

end Winpty.Props
