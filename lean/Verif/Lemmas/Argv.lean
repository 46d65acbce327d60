import Verif.Model.Argv
import Verif.Spec.Argv

namespace Winpty.Argv
open Winpty.Spec

theorem feed_bs (dbl : Dbl) (done : List (List Nat)) (m : Mode) (hm : m ≠ .closed) (b k : Nat)
    (cur : List Nat) :
    (List.replicate k 92).foldl (lineStep dbl) ⟨done, some ⟨m, b, cur⟩⟩ =
      ⟨done, some ⟨m, b + k, cur⟩⟩ := by
  induction k generalizing b with
  | zero => rfl
  | succ k ih =>
    rw [List.replicate_succ, List.foldl_cons]
    have : lineStep dbl ⟨done, some ⟨m, b, cur⟩⟩ 92 = ⟨done, some ⟨m, b + 1, cur⟩⟩ := by
      simp [lineStep, blank, argStep, hm]
    rw [this, ih, show b + 1 + k = b + (k + 1) by omega]

/-- Mode of an argument that was (not) quoted. -/
def modeOf (quote : Bool) : Mode := if quote then .quoted else .plain

theorem modeOf_ne (q : Bool) : modeOf q ≠ .closed := by cases q <;> simp [modeOf]

theorem feed_escBody (dbl : Dbl) (done : List (List Nat)) (quote : Bool) (bs : Nat) (r cur : List Nat)
    (hb : quote = false → ∀ c ∈ r, blank c = false) :
    ∃ a : ArgSt, (escBody quote bs r).foldl (lineStep dbl) ⟨done, some ⟨modeOf quote, 0, cur⟩⟩ =
        ⟨done, some a⟩ ∧ argEnd a = cur ++ List.replicate bs 92 ++ r ∧ a.mode ≠ .quoted := by
  induction r generalizing bs cur with
  | nil =>
    cases quote with
    | false =>
      simp only [escBody, Bool.false_eq_true, ↓reduceIte]
      rw [feed_bs dbl done _ (modeOf_ne _)]
      refine ⟨_, rfl, ?_, by simp [modeOf]⟩
      simp [argEnd]
    | true =>
      simp only [escBody, ↓reduceIte, List.foldl_append]
      rw [feed_bs dbl done _ (modeOf_ne _)]
      refine ⟨⟨.closed, 0, cur ++ List.replicate bs 92⟩, ?_, ?_, by simp⟩
      · simp [lineStep, blank, argStep, modeOf]
      · simp [argEnd]
  | cons c r ih =>
    have hb' : quote = false → ∀ c ∈ r, blank c = false :=
      fun hq x hx => hb hq x (List.mem_cons_of_mem _ hx)
    simp only [escBody]
    split
    · rename_i h92
      subst h92
      obtain ⟨a, h1, h2, h3⟩ := ih (bs + 1) cur hb'
      refine ⟨a, h1, ?_, h3⟩
      rw [h2, List.replicate_succ']; simp
    · rename_i h92
      split
      · rename_i h34
        subst h34
        rw [List.foldl_append, feed_bs dbl done _ (modeOf_ne _), List.foldl_cons]
        have hs : lineStep dbl ⟨done, some ⟨modeOf quote, 0 + (bs * 2 + 1), cur⟩⟩ 34 =
            ⟨done, some ⟨modeOf quote, 0, cur ++ List.replicate bs 92 ++ [34]⟩⟩ := by
          have h1 : (0 + (bs * 2 + 1)) % 2 = 1 := by omega
          have h2 : (0 + (bs * 2 + 1)) / 2 = bs := by omega
          simp only [lineStep, blank, argStep, h1, h2]
          simp
        rw [hs]
        obtain ⟨a, h1, h2, h3⟩ := ih 0 (cur ++ List.replicate bs 92 ++ [34]) hb'
        exact ⟨a, h1, by rw [h2]; simp, h3⟩
      · rename_i h34
        rw [List.foldl_append, feed_bs dbl done _ (modeOf_ne _), List.foldl_cons]
        have hs : lineStep dbl ⟨done, some ⟨modeOf quote, 0 + bs, cur⟩⟩ c =
            ⟨done, some ⟨modeOf quote, 0, cur ++ List.replicate bs 92 ++ [c]⟩⟩ := by
          have hnb : (blank c && modeOf quote ≠ .quoted) = false := by
            cases quote with
            | true => simp [modeOf]
            | false => simp [hb rfl c (by simp)]
          simp only [lineStep]
          rw [if_neg (by rw [hnb]; simp)]
          simp only [argStep, if_neg h92, if_neg h34, if_neg (modeOf_ne quote), Nat.zero_add]
        rw [hs]
        obtain ⟨a, h1, h2, h3⟩ := ih 0 (cur ++ List.replicate bs 92 ++ [c]) hb'
        exact ⟨a, h1, by rw [h2]; simp, h3⟩

theorem escBody_false_head (r : List Nat) (hne : r ≠ []) (bs : Nat) (hb : ∀ c ∈ r, blank c = false) :
    ∃ c t, escBody false bs r = c :: t ∧ blank c = false := by
  have h92 : blank 92 = false := by decide
  induction r generalizing bs with
  | nil => exact absurd rfl hne
  | cons c r ih =>
    simp only [escBody]
    split
    · cases r with
      | nil =>
        simp only [escBody, Bool.false_eq_true, ↓reduceIte, List.replicate_succ]
        exact ⟨92, _, rfl, h92⟩
      | cons d r =>
        exact ih (by simp) (bs + 1) (fun x hx => hb x (List.mem_cons_of_mem _ hx))
    · split
      · exact ⟨92, _, by rw [List.replicate_succ]; rfl, h92⟩
      · cases bs with
        | zero => exact ⟨c, _, rfl, hb c (by simp)⟩
        | succ bs => exact ⟨92, _, by rw [List.replicate_succ]; rfl, h92⟩

theorem not_needsQuote {a : List Nat} (h : needsQuote a = false) :
    a ≠ [] ∧ ∀ c ∈ a, blank c = false := by
  simp [needsQuote] at h
  refine ⟨?_, ?_⟩
  · rintro rfl; simp at h
  · intro c hc
    have h1 : c ≠ 32 := by rintro rfl; exact h.1.1 hc
    have h2 : c ≠ 9 := by rintro rfl; exact h.1.2 hc
    simp [blank, h1, h2]

theorem feed_escArg (dbl : Dbl) (done : List (List Nat)) (arg : List Nat) :
    ∃ a : ArgSt, (escArg arg).foldl (lineStep dbl) ⟨done, none⟩ = ⟨done, some a⟩ ∧
      argEnd a = arg ∧ a.mode ≠ .quoted := by
  unfold escArg
  cases hq : needsQuote arg with
  | true =>
    simp only [↓reduceIte, List.foldl_cons]
    have : lineStep dbl ⟨done, none⟩ 34 = ⟨done, some ⟨modeOf true, 0, []⟩⟩ := by
      simp [lineStep, blank, argStep, modeOf]
    rw [this]
    obtain ⟨a, h1, h2, h3⟩ := feed_escBody dbl done true 0 arg [] (by simp)
    exact ⟨a, h1, by simpa using h2, h3⟩
  | false =>
    obtain ⟨hne, hb⟩ := not_needsQuote hq
    simp only [Bool.false_eq_true, ↓reduceIte]
    obtain ⟨c, t, hct, hbc⟩ := escBody_false_head arg hne 0 hb
    obtain ⟨a, h1, h2, h3⟩ := feed_escBody dbl done false 0 arg [] (fun _ => hb)
    refine ⟨a, ?_, by simpa using h2, h3⟩
    rw [← h1, hct, List.foldl_cons, List.foldl_cons]
    congr 1
    simp [lineStep, hbc, modeOf]

theorem feed_restArgs (dbl : Dbl) (done : List (List Nat)) (a : ArgSt) (hm : a.mode ≠ .quoted)
    (as : List (List Nat)) :
    lineEnd ((restArgs as).foldl (lineStep dbl) ⟨done, some a⟩) = done ++ argEnd a :: as := by
  induction as generalizing done a with
  | nil => simp [restArgs, lineEnd]
  | cons x as ih =>
    simp only [restArgs, List.cons_append, List.foldl_cons, List.foldl_append]
    have : lineStep dbl ⟨done, some a⟩ 32 = ⟨done ++ [argEnd a], none⟩ := by
      simp [lineStep, blank, hm]
    rw [this]
    obtain ⟨a', h1, h2, h3⟩ := feed_escArg dbl (done ++ [argEnd a]) x
    rw [h1, ih _ _ h3, h2]; simp

theorem parse_restArgs (dbl : Dbl) (as : List (List Nat)) : parseArgs dbl (restArgs as) = as := by
  cases as with
  | nil => rfl
  | cons x as =>
    unfold parseArgs
    simp only [restArgs, List.cons_append, List.foldl_cons, List.foldl_append]
    have : lineStep dbl ⟨[], none⟩ 32 = ⟨[], none⟩ := by simp [lineStep, blank]
    rw [this]
    obtain ⟨a', h1, h2, h3⟩ := feed_escArg dbl [] x
    rw [h1, feed_restArgs dbl _ _ h3, h2]; rfl

/-! The program-name rule -/

theorem programName_bs (inq : Bool) (k : Nat) (r : List Nat) :
    programName inq (List.replicate k 92 ++ r) =
      (List.replicate k 92 ++ (programName inq r).1, (programName inq r).2) := by
  induction k with
  | zero => simp
  | succ k ih =>
    rw [List.replicate_succ, List.cons_append, programName]
    simp [ih, blank]

theorem programName_escBody (quote : Bool) (bs : Nat) (p rest : List Nat)
    (hnq : 34 ∉ p) (hb : quote = false → ∀ c ∈ p, blank c = false)
    (htail : quote = true → p.getLast? ≠ some 92 ∧ (p = [] → bs = 0))
    (hrest : rest = [] ∨ ∃ c r, rest = c :: r ∧ blank c = true) :
    programName quote (escBody quote bs p ++ rest) = (List.replicate bs 92 ++ p, rest) := by
  have hend : programName false rest = ([], rest) := by
    rcases hrest with rfl | ⟨c, r, rfl, hc⟩
    · rfl
    · rw [programName, if_neg (by rintro rfl; simp [blank] at hc)]
      simp [hc]
  induction p generalizing bs with
  | nil =>
    cases quote with
    | false =>
      simp only [escBody, Bool.false_eq_true, ↓reduceIte]
      rw [programName_bs, hend]
    | true =>
      have := (htail rfl).2 rfl
      subst this
      simp [escBody, programName, hend]
  | cons c p ih =>
    have hnq' : 34 ∉ p := fun h => hnq (List.mem_cons_of_mem _ h)
    have hb' : quote = false → ∀ c ∈ p, blank c = false :=
      fun hq x hx => hb hq x (List.mem_cons_of_mem _ hx)
    have ht' : quote = true → p.getLast? ≠ some 92 := by
      intro hq h
      apply (htail hq).1
      rw [List.getLast?_cons, h]; rfl
    simp only [escBody]
    split
    · rename_i h92
      subst h92
      rw [ih (bs + 1) hnq' hb' (fun hq => ⟨ht' hq, ?_⟩)]
      · rw [List.replicate_succ']; simp
      · rintro rfl
        exact absurd rfl (htail hq).1
    · rename_i h92
      rw [if_neg (by rintro rfl; exact hnq (by simp))]
      rw [List.append_assoc, programName_bs, List.cons_append, programName,
        if_neg (by rintro rfl; exact hnq (by simp))]
      rw [if_neg]
      · rw [ih 0 hnq' hb' (fun hq => ⟨ht' hq, fun _ => rfl⟩)]; simp
      · cases quote with
        | true => simp
        | false => simp [hb rfl c (by simp)]

/-! Option parsing -/

/-- The words that set a flag and go on. -/
abbrev plainFlags : List String := ["--mouse", "-Xallow-non-tty", "-Xconerr", "-Xplain", "-Xcolor"]

/-- Settings after reading some flags. -/
def addFlags (a : Arguments) (flags : List String) : Arguments :=
  { a with
    mouseInput := a.mouseInput || decide ("--mouse" ∈ flags)
    testAllowNonTtys := a.testAllowNonTtys || decide ("-Xallow-non-tty" ∈ flags)
    testConerr := a.testConerr || decide ("-Xconerr" ∈ flags)
    testPlainOutput := a.testPlainOutput || decide ("-Xplain" ∈ flags)
    testColorEscapes := a.testColorEscapes || decide ("-Xcolor" ∈ flags) }

theorem addFlags_nil (a : Arguments) : addFlags a [] = a := by simp [addFlags]

theorem addFlags_cons (a : Arguments) (f : String) (fs : List String) :
    addFlags a (f :: fs) = addFlags (addFlags a [f]) fs := by
  simp [addFlags, Bool.or_assoc]

theorem parseLoop_flag (a : Arguments) (f : String) (tail : List String) (hf : f ∈ plainFlags) :
    parseLoop a (f :: tail) = parseLoop (addFlags a [f]) tail := by
  simp only [plainFlags, List.mem_cons, List.not_mem_nil, or_false] at hf
  rcases hf with rfl | rfl | rfl | rfl | rfl <;>
    (rw [parseLoop, if_pos (by decide)]; simp [addFlags])

theorem parseLoop_flags (flags tail : List String) (a : Arguments)
    (hflags : ∀ f ∈ flags, f ∈ plainFlags) :
    parseLoop a (flags ++ tail) = parseLoop (addFlags a flags) tail := by
  induction flags generalizing a with
  | nil => simp [addFlags_nil]
  | cons f fs ih =>
    rw [List.cons_append, parseLoop_flag a f _ (hflags f (by simp)), addFlags_cons a f fs]
    exact ih _ fun g hg => hflags g (List.mem_cons_of_mem _ hg)

theorem finishParse_run (a a' : Arguments) (c child : List String)
    (h : finishParse a c = .run a' child) :
    c = child ∧ child ≠ [] ∧ a = a' ∧ a.doShowKeys = false := by
  unfold finishParse at h
  split at h
  · cases h
  · split at h
    · cases h
    · rename_i h1 h2
      cases h
      exact ⟨rfl, by intro h0; simp_all, rfl, by simpa using h1⟩

/-- Where a successful parse puts the boundary between options and the child's arguments. -/
theorem parseLoop_run (a a' : Arguments) (l child : List String) (h : parseLoop a l = .run a' child) :
    child ≠ [] ∧ a.doShowKeys = false ∧ ∃ flags, (∀ f ∈ flags, f ∈ plainFlags) ∧
      a' = addFlags a flags ∧
      ((l = flags ++ child ∧ ∀ p, child.head? = some p → p.toList.head? ≠ some '-') ∨
        l = flags ++ "--" :: child) := by
  induction l generalizing a with
  | nil =>
    rw [parseLoop] at h
    obtain ⟨rfl, h2, _⟩ := finishParse_run _ _ _ _ h
    exact absurd rfl h2
  | cons w ws ih =>
    by_cases hw : w ∈ plainFlags
    · rw [parseLoop_flag a w ws hw] at h
      obtain ⟨h1, h0, flags, h2, h3, h4⟩ := ih _ h
      refine ⟨h1, h0, w :: flags, ?_, by rw [addFlags_cons a w flags]; exact h3, ?_⟩
      · intro f hf
        rcases List.mem_cons.1 hf with rfl | hf
        · exact hw
        · exact h2 f hf
      · rcases h4 with ⟨h4, h5⟩ | h4
        · exact .inl ⟨by rw [h4]; rfl, h5⟩
        · exact .inr (by rw [h4]; rfl)
    · rw [parseLoop] at h
      split at h
      · simp only [plainFlags, List.mem_cons, List.not_mem_nil, or_false, not_or] at hw
        simp only [hw, if_false] at h
        split at h
        · cases h
        · split at h
          · obtain ⟨_, h0, _⟩ := ih _ h
            simp at h0
          · split at h
            · cases h
            · split at h
              · rename_i hw
                obtain ⟨rfl, h2, h3, h4⟩ := finishParse_run _ _ _ _ h
                exact ⟨h2, h4, [], by simp, by rw [addFlags_nil, h3], .inr (by rw [hw]; rfl)⟩
              · cases h
      · rename_i hw
        obtain ⟨rfl, h2, h3, h4⟩ := finishParse_run _ _ _ _ h
        exact ⟨h2, h4, [], by simp, by rw [addFlags_nil, h3],
          .inl ⟨rfl, by intro p hp; cases hp; exact hw⟩⟩

end Winpty.Argv
