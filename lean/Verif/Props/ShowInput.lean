import Verif.Lemmas.ShowInput

/-!
# C76: the dump of console input

`winpty-agent --show-input` shows what a program in the console receives.  Its output tells the events apart,
in order and completely up to Ctrl-D, and the console's mode is put back.
-/
namespace Winpty.Props
open Winpty.ShowInput Winpty.Spec.ShowInput
open Winpty.Spec (Fits decimal)

private theorem fits2 {i : Int} (h1 : -2 ^ 15 ≤ i) (h2 : i < 2 ^ 15) : Fits 2 i := by unfold Fits; omega

private theorem fitsW {n : Nat} (h : n < 2 ^ 16) : Fits 2 (n : Int) := by unfold Fits; omega

private theorem lineKey (down : Bool) (rpt vk scan ch state : Nat)
    (h1 : rpt < 2 ^ 16) (h2 : vk < 2 ^ 16) (h3 : scan < 2 ^ 16) (h4 : ch < 2 ^ 16) (h5 : state < 2 ^ 16) :
    lineOf (.key down rpt vk scan ch state) =
      text ['k', 'e', 'y', ':', ' '] ++ text (if down then ['d', 'n'] else ['u', 'p']) ++ text [' ', 'r', 'p', 't', '='] ++
        (decimal rpt ++ 32 :: (text ['s', 'c', 'n', '='] ++ (printHex scan ++ 32 :: (keyToString vk ch state ++ 10 :: [])))) := by
  have e : text (if scan ≠ 0 then ['0', 'x'] else []) ++ StringBuilder.hexText false 2 scan = printHex scan := by
    unfold printHex
    rw [hexText_is 2 scan (by decide) (by simpa using h3), hexText_is 4 scan (by decide) (by omega)]
    by_cases hz : scan = 0
    · subst hz; decide
    · rw [if_pos hz, if_neg hz]
  have m : state % 65536 = state := Nat.mod_eq_of_lt (by simpa using h5)
  rw [lineOf]
  rw [decText_is 2 _ (by decide) (fitsW h1), m, ← e]
  simp [text]

private theorem noSpaceDec (i : Int) : 32 ∉ decimal i ∧ 44 ∉ decimal i ∧ 41 ∉ decimal i ∧ 10 ∉ decimal i := by
  refine ⟨fun h => ?_, fun h => ?_, fun h => ?_, fun h => ?_⟩ <;> have := decimal_mem i _ h <;> omega

private theorem keyToString_nl (vk ch state : Nat) (h1 : vk < 2 ^ 32) (h2 : ch < 2 ^ 32) (h3 : state < 2 ^ 32) :
    10 ∉ keyToString vk ch state := by
  unfold keyToString
  obtain ⟨t, ht, hn⟩ := charText_form ch h2
  rw [ht]
  intro m
  rw [List.mem_append, List.mem_cons] at m
  rcases m with m | m | m
  · exact (keyPart_plain state vk h3 h1).2 m
  · omega
  · exact hn m

private theorem mouseLine (x y : Int) (b s f : Nat) (hx : Fits 2 x) (hy : Fits 2 y) :
    lineOf (.mouse x y b s f) =
      text ['m', 'o', 'u', 's', 'e', ':', ' ', 'p', 'o', 's', '='] ++
        (decimal x ++ 44 :: (decimal y ++ ((mouseTokens b s f).flatMap (fun t => 32 :: t) ++ [10]))) := by
  rw [lineOf]
  rw [mouse_eq, decText_is 2 x (by decide) hx, decText_is 2 y (by decide) hy]
  simp [text]

private theorem mouseTokens_plain (b s f : Nat) (hb : b < 2 ^ 32) (hs : s < 2 ^ 32) (hf : f < 2 ^ 32) :
    ∀ t ∈ mouseTokens b s f, 32 ∉ t ∧ 10 ∉ t := by
  intro t h
  unfold mouseTokens at h
  rw [List.mem_append, List.mem_append, List.mem_append] at h
  rcases h with h | h | h | h
  · have := tokens_plain names_control (by decide) s hs t h; exact ⟨this.1, this.2.1⟩
  · have := tokens_plain names_flags (by decide) f hf t h; exact ⟨this.1, this.2.1⟩
  · have := tokens_plain names_buttons (by decide) _ (Nat.lt_of_le_of_lt Nat.and_le_left hb) t h; exact ⟨this.1, this.2.1⟩
  · split at h
    · rw [List.mem_singleton] at h
      rw [h, decText_is 2 _ (by decide) (wheelOf_fits b)]
      constructor <;> intro m <;> rw [List.mem_append] at m <;> rcases m with m | m
      · simp [text] at m
      · exact (noSpaceDec _).1 m
      · simp [text] at m
      · exact (noSpaceDec _).2.2.2 m
    · cases h

/-- A number followed by a text that begins with no character of a number. -/
private theorem dec_cut {i j : Int} : ∀ {r s : List Nat},
    (∀ c, r.head? = some c → c ≠ 45 ∧ ¬ (48 ≤ c ∧ c ≤ 57)) → (∀ c, s.head? = some c → c ≠ 45 ∧ ¬ (48 ≤ c ∧ c ≤ 57)) →
    decimal i ++ r = decimal j ++ s → i = j ∧ r = s := by
  intro r s hr hs h
  have gen : ∀ (a b r s : List Nat), (∀ c ∈ a, c = 45 ∨ (48 ≤ c ∧ c ≤ 57)) → (∀ c ∈ b, c = 45 ∨ (48 ≤ c ∧ c ≤ 57)) →
      (∀ c, r.head? = some c → c ≠ 45 ∧ ¬ (48 ≤ c ∧ c ≤ 57)) → (∀ c, s.head? = some c → c ≠ 45 ∧ ¬ (48 ≤ c ∧ c ≤ 57)) →
      a ++ r = b ++ s → a = b ∧ r = s := by
    intro a
    induction a with
    | nil =>
      intro b r s _ hb hr _ h
      cases b with
      | nil => exact ⟨rfl, by simpa using h⟩
      | cons c b =>
        simp only [List.nil_append, List.cons_append] at h
        have := hb c (List.mem_cons_self ..)
        have := hr c (by rw [h]; rfl)
        omega
    | cons d a ih =>
      intro b r s ha hb hr hs h
      cases b with
      | nil =>
        simp only [List.nil_append, List.cons_append] at h
        have := ha d (List.mem_cons_self ..)
        have := hs d (by rw [← h]; rfl)
        omega
      | cons c b =>
        simp only [List.cons_append, List.cons.injEq] at h
        have := ih b r s (fun c hc => ha c (List.mem_cons_of_mem _ hc)) (fun c hc => hb c (List.mem_cons_of_mem _ hc)) hr hs h.2
        exact ⟨by rw [h.1, this.1], this.2⟩
  have := gen _ _ r s (decimal_mem i) (decimal_mem j) hr hs h
  exact ⟨decimal_inj i j this.1, this.2⟩

private theorem head_tokens (ts : List (List Nat)) : ∀ c, (ts.flatMap (fun t => 32 :: t) ++ [10]).head? = some c →
    c ≠ 45 ∧ ¬ (48 ≤ c ∧ c ≤ 57) := by
  intro c h
  cases ts with
  | nil => simp at h; omega
  | cons t ts => simp at h; omega

/-- The line of an event tells it from every other event, but for the key codes 0 and 48 (the full statement,
`lineOf a = lineOf b → a = b`, is false: `C76_zero_key_defect`). -/
theorem C76_readable_partial (a b : Record) (ha : InRange a) (hb : InRange b) (ka : known a = true) (kb : known b = true)
    (h : lineOf a = lineOf b) : Alike a b := by
  cases a with
  | key down rpt vk scan ch state =>
    obtain ⟨h1, h2, h3, h4, h5⟩ := ha
    cases b with
    | key down' rpt' vk' scan' ch' state' =>
      obtain ⟨h1', h2', h3', h4', h5'⟩ := hb
      rw [lineKey _ _ _ _ _ _ h1 h2 h3 h4 h5, lineKey _ _ _ _ _ _ h1' h2' h3' h4' h5'] at h
      have hd : down = down' ∧ decimal rpt ++ 32 :: (text ['s', 'c', 'n', '='] ++ (printHex scan ++ 32 :: (keyToString vk ch state ++ 10 :: []))) =
          decimal rpt' ++ 32 :: (text ['s', 'c', 'n', '='] ++ (printHex scan' ++ 32 :: (keyToString vk' ch' state' ++ 10 :: []))) := by
        cases down <;> cases down' <;> simp [text] at h ⊢ <;> exact h
      have c1 := cut hd.2 (noSpaceDec _).1 (noSpaceDec _).1
      have er : rpt = rpt' := by have := decimal_inj _ _ c1.1; omega
      rw [List.append_cancel_left_eq] at c1
      have ns : ∀ n, n < 2 ^ 16 → 32 ∉ printHex n := by
        intro n hn m
        have := printHex_mem (by omega) m
        omega
      have c2 := cut c1.2 (ns scan h3) (ns scan' h3')
      have es := printHex_inj (by omega) (by omega) c2.1
      have c3 := cut c2.2 (keyToString_nl vk ch state (by omega) (by omega) (by omega))
        (keyToString_nl vk' ch' state' (by omega) (by omega) (by omega))
      have ek := keyToString_inj (by omega) (by omega) (by omega) (by omega) (by omega) (by omega) c3.1
      exact ⟨hd.1, er, ek.1, es, ek.2.1, ek.2.2⟩
    | mouse => simp [lineOf, text] at h
    | bufferSize => simp [lineOf, text] at h
    | menu => simp [lineOf, text] at h
    | focus => simp [lineOf, text] at h
    | other => cases kb
  | mouse x y bs s f =>
    obtain ⟨x1, x2, y1, y2, h3, h4, h5⟩ := ha
    cases b with
    | key => simp [lineOf, text] at h
    | mouse x' y' b' s' f' =>
      obtain ⟨x1', x2', y1', y2', h3', h4', h5'⟩ := hb
      rw [mouseLine _ _ _ _ _ (fits2 x1 x2) (fits2 y1 y2), mouseLine _ _ _ _ _ (fits2 x1' x2') (fits2 y1' y2'),
        List.append_cancel_left_eq] at h
      have c1 := cut h (noSpaceDec _).2.1 (noSpaceDec _).2.1
      have ex := decimal_inj _ _ c1.1
      have c2 := dec_cut (head_tokens _) (head_tokens _) c1.2
      have et := tokens_before c2.2 (mouseTokens_plain _ _ _ h3 h4 h5) (mouseTokens_plain _ _ _ h3' h4' h5')
      have em := mouseTokens_inj h3 h4 h5 h3' h4' h5' et
      show Record.mouse x y bs s f = Record.mouse x' y' b' s' f'
      rw [ex, c2.1, em.1, em.2.1, em.2.2]
    | bufferSize => simp [lineOf, text] at h
    | menu => simp [lineOf, text] at h
    | focus => simp [lineOf, text] at h
    | other => cases kb
  | bufferSize x y =>
    obtain ⟨x1, x2, y1, y2⟩ := ha
    cases b with
    | bufferSize x' y' =>
      obtain ⟨x1', x2', y1', y2'⟩ := hb
      rw [lineOf, lineOf] at h
      rw [decText_is 2 x (by decide) (fits2 x1 x2), decText_is 2 y (by decide) (fits2 y1 y2),
        decText_is 2 x' (by decide) (fits2 x1' x2'), decText_is 2 y' (by decide) (fits2 y1' y2')] at h
      simp only [List.append_assoc, List.append_cancel_left_eq] at h
      have c1 := cut (x := 44) h (noSpaceDec _).2.1 (noSpaceDec _).2.1
      have c2 := cut (x := 41) c1.2 (noSpaceDec _).2.2.1 (noSpaceDec _).2.2.1
      show Record.bufferSize x y = Record.bufferSize x' y'
      rw [decimal_inj _ _ c1.1, decimal_inj _ _ c2.1]
    | key => simp [lineOf, text] at h
    | mouse => simp [lineOf, text] at h
    | menu => simp [lineOf, text] at h
    | focus => simp [lineOf, text] at h
    | other => cases kb
  | menu i =>
    cases b with
    | menu j =>
      rw [lineOf, lineOf] at h
      have ha' : i < 2 ^ 32 := ha
      have hb' : j < 2 ^ 32 := hb
      rw [hexText_is 4 i (by decide) (by simpa using ha'), hexText_is 4 j (by decide) (by simpa using hb')] at h
      simp only [List.append_assoc, List.append_cancel_left_eq, List.append_cancel_right_eq] at h
      show Record.menu i = Record.menu j
      rw [hexadecimal_inj i j h]
    | key => simp [lineOf, text] at h
    | mouse => simp [lineOf, text] at h
    | bufferSize => simp [lineOf, text] at h
    | focus => simp [lineOf, text] at h
    | other => cases kb
  | focus g =>
    cases b with
    | focus g' =>
      show Record.focus g = Record.focus g'
      cases g <;> cases g' <;> simp [lineOf, text] at h ⊢
    | key => simp [lineOf, text] at h
    | mouse => simp [lineOf, text] at h
    | bufferSize => simp [lineOf, text] at h
    | menu => simp [lineOf, text] at h
    | other => cases kb
  | other => cases ka

/-- A character typed without a key (key code 0) looks the same as one typed with the key of the digit 0:
`%#x` prints zero as `0`. -/
theorem C76_zero_key_defect :
    lineOf (.key true 1 0 11 97 0) = lineOf (.key true 1 48 11 97 0) ∧ InRange (.key true 1 0 11 97 0) ∧
      InRange (.key true 1 48 11 97 0) := by
  refine ⟨by decide +kernel, by simp [InRange], by simp [InRange]⟩

/-- Beside `C76_readable_partial`: a key with modifiers and a mouse event, with their lines. -/
example : InRange (.key true 1 0x41 0x1E 1 0x28) ∧ InRange (.mouse (-1) 7 0xFF880041 0x210 4) ∧
    lineOf (.key true 1 0x41 0x1E 1 0x28) =
      text ['k', 'e', 'y', ':', ' ', 'd', 'n', ' ', 'r', 'p', 't', '=', '1', ' ', 's', 'c', 'n', '=', '0', 'x', '1', 'e', ' ',
        'L', 'C', 't', 'r', 'l', '-', 'N', 'u', 'm', 'L', 'o', 'c', 'k', '-', 'A', ' ', 'c', 'h', '=', '0', 'x', '1', '\n'] ∧
    lineOf (.mouse (-1) 7 0xFF880041 0x210 4) =
      text ['m', 'o', 'u', 's', 'e', ':', ' ', 'p', 'o', 's', '=', '-', '1', ',', '7', ' ', 'S', 'h', 'i', 'f', 't', ' ',
        'k', 'e', 'y', 'S', 't', 'a', 't', 'e', '(', '0', 'x', '2', '0', '0', ')', ' ', 'W', 'h', 'e', 'e', 'l', ' ', '1', ' ',
        'b', 'u', 't', 't', 'o', 'n', 's', '(', '0', 'x', '4', '0', ')', ' ', 'w', 'h', 'e', 'e', 'l', '=', '-', '1', '2', '0', '\n'] := by
  refine ⟨by simp [InRange], by simp [InRange], by decide +kernel, by decide +kernel⟩

private theorem line_form (a : Record) (ha : InRange a) (ka : known a = true) : ∃ t, lineOf a = t ++ [10] ∧ 10 ∉ t := by
  cases a with
  | key down rpt vk scan ch state =>
    obtain ⟨h1, h2, h3, h4, h5⟩ := ha
    rw [lineKey _ _ _ _ _ _ h1 h2 h3 h4 h5]
    refine ⟨text ['k', 'e', 'y', ':', ' '] ++ text (if down then ['d', 'n'] else ['u', 'p']) ++ text [' ', 'r', 'p', 't', '='] ++
        (decimal rpt ++ 32 :: (text ['s', 'c', 'n', '='] ++ (printHex scan ++ 32 :: keyToString vk ch state))), by simp, ?_⟩
    intro m
    simp only [List.mem_append, List.mem_cons] at m
    rcases m with ((m | m) | m) | m | m | m | m | m | m
    · simp [text] at m
    · cases down <;> simp [text] at m
    · simp [text] at m
    · exact (noSpaceDec _).2.2.2 m
    · omega
    · simp [text] at m
    · have := printHex_mem (by omega) m; omega
    · omega
    · exact keyToString_nl vk ch state (by omega) (by omega) (by omega) m
  | mouse x y b s f =>
    obtain ⟨x1, x2, y1, y2, h3, h4, h5⟩ := ha
    rw [mouseLine _ _ _ _ _ (fits2 x1 x2) (fits2 y1 y2)]
    refine ⟨text ['m', 'o', 'u', 's', 'e', ':', ' ', 'p', 'o', 's', '='] ++
        (decimal x ++ 44 :: (decimal y ++ (mouseTokens b s f).flatMap (fun t => 32 :: t))), by simp, ?_⟩
    intro m
    simp only [List.mem_append, List.mem_cons, List.mem_flatMap] at m
    rcases m with m | m | m | m | ⟨t, ht, m⟩
    · simp [text] at m
    · exact (noSpaceDec _).2.2.2 m
    · omega
    · exact (noSpaceDec _).2.2.2 m
    · rcases m with m | m
      · omega
      · exact (mouseTokens_plain b s f h3 h4 h5 t ht).2 m
  | bufferSize x y =>
    obtain ⟨x1, x2, y1, y2⟩ := ha
    rw [lineOf, decText_is 2 x (by decide) (fits2 x1 x2), decText_is 2 y (by decide) (fits2 y1 y2)]
    refine ⟨text ['b', 'u', 'f', 'f', 'e', 'r', '-', 'r', 'e', 's', 'i', 'z', 'e', 'd', ':', ' ', 'd', 'w', 'S', 'i', 'z', 'e', '=', '('] ++
      decimal x ++ text [','] ++ decimal y ++ text [')'], by simp [text], ?_⟩
    intro m
    simp only [List.mem_append] at m
    rcases m with (((m | m) | m) | m) | m
    · simp [text] at m
    · exact (noSpaceDec _).2.2.2 m
    · simp [text] at m
    · exact (noSpaceDec _).2.2.2 m
    · simp [text] at m
  | menu i =>
    have ha' : i < 2 ^ 32 := ha
    rw [lineOf]
    refine ⟨_, rfl, ?_⟩
    intro m
    rw [List.mem_append] at m
    rcases m with m | m
    · simp [text] at m
    · have := hexText_mem _ _ ha' m; omega
  | focus g =>
    rw [lineOf]
    refine ⟨_, rfl, ?_⟩
    cases g <;> simp [text]
  | other => cases ka

/-- The output as a whole tells the events, in their order: two runs that show the same have received events
that are pairwise alike (events of an unknown kind are not shown). -/
theorem C76_output_partial : ∀ (as bs : List Record), (∀ r ∈ as, InRange r) → (∀ r ∈ bs, InRange r) →
    as.flatMap lineOf = bs.flatMap lineOf →
    (as.filter known).length = (bs.filter known).length ∧
      ∀ p ∈ (as.filter known).zip (bs.filter known), Alike p.1 p.2 := by
  have drop : ∀ l : List Record, (l.filter known).flatMap lineOf = l.flatMap lineOf := by
    intro l
    induction l with
    | nil => rfl
    | cons r l ih =>
      rw [List.filter_cons]
      split
      · rw [List.flatMap_cons, List.flatMap_cons, ih]
      · rename_i hk
        cases r <;> simp [known] at hk
        rw [List.flatMap_cons, ih]; rfl
  intro as bs ha hb h
  rw [← drop as, ← drop bs] at h
  have ha' : ∀ r ∈ as.filter known, InRange r ∧ known r = true := fun r hr =>
    ⟨ha r (List.mem_filter.1 hr).1, (List.mem_filter.1 hr).2⟩
  have hb' : ∀ r ∈ bs.filter known, InRange r ∧ known r = true := fun r hr =>
    ⟨hb r (List.mem_filter.1 hr).1, (List.mem_filter.1 hr).2⟩
  generalize as.filter known = as at *
  generalize bs.filter known = bs at *
  clear drop ha hb
  induction as generalizing bs with
  | nil =>
    cases bs with
    | nil => exact ⟨rfl, by simp⟩
    | cons b bs =>
      obtain ⟨t, ht, _⟩ := line_form b (hb' b (List.mem_cons_self ..)).1 (hb' b (List.mem_cons_self ..)).2
      simp [ht] at h
  | cons a as ih =>
    obtain ⟨t, ht, hn⟩ := line_form a (ha' a (List.mem_cons_self ..)).1 (ha' a (List.mem_cons_self ..)).2
    cases bs with
    | nil => simp [ht] at h
    | cons b bs =>
      obtain ⟨u, hu, hm⟩ := line_form b (hb' b (List.mem_cons_self ..)).1 (hb' b (List.mem_cons_self ..)).2
      rw [List.flatMap_cons, List.flatMap_cons, ht, hu, List.append_assoc, List.append_assoc] at h
      have c := cut h hn hm
      have l1 := ih (fun r hr => ha' r (List.mem_cons_of_mem _ hr)) bs (fun r hr => hb' r (List.mem_cons_of_mem _ hr)) c.2
      refine ⟨by simp [l1.1], ?_⟩
      intro p hp
      rw [List.zip_cons_cons, List.mem_cons] at hp
      rcases hp with hp | hp
      · subst hp
        exact C76_readable_partial a b (ha' a (List.mem_cons_self ..)).1 (hb' b (List.mem_cons_self ..)).1
          (ha' a (List.mem_cons_self ..)).2 (hb' b (List.mem_cons_self ..)).2 (by rw [ht, hu, c.1])
      · exact l1.2 p hp

private theorem named (table : List Flag) (name : Nat → Option (List Char)) (k : Nat)
    (h1 : ∀ i, i < k → ∀ n, name i = some n → ∃ f ∈ table, f.value = 2 ^ i ∧ f.name = text n)
    (h2 : ∀ i, k ≤ i → name i = none) : ∀ i n, name i = some n → ∃ f ∈ table, f.value = 2 ^ i ∧ f.name = text n := by
  intro i n h
  by_cases hi : i < k
  · exact h1 i hi n h
  · rw [h2 i (by omega)] at h; cases h

private theorem state_named : ∀ i n, stateName i = some n → ∃ f ∈ controlKeyStates, f.value = 2 ^ i ∧ f.name = text n := by
  apply named _ _ 9
  · intro i hi n h
    have : i = 0 ∨ i = 1 ∨ i = 2 ∨ i = 3 ∨ i = 4 ∨ i = 5 ∨ i = 6 ∨ i = 7 ∨ i = 8 := by omega
    rcases this with e | e | e | e | e | e | e | e | e <;> subst e <;> cases h <;> decide
  · intro i hi
    unfold stateName
    split <;> first | omega | rfl

private theorem flag_named : ∀ i n, flagName i = some n → ∃ f ∈ mouseEventFlags, f.value = 2 ^ i ∧ f.name = text n := by
  apply named _ _ 4
  · intro i hi n h
    have : i = 0 ∨ i = 1 ∨ i = 2 ∨ i = 3 := by omega
    rcases this with e | e | e | e <;> subst e <;> cases h <;> decide
  · intro i hi
    unfold flagName
    split <;> first | omega | rfl

private theorem button_named : ∀ i n, buttonName i = some n → ∃ f ∈ buttonStates, f.value = 2 ^ i ∧ f.name = text n := by
  apply named _ _ 5
  · intro i hi n h
    have : i = 0 ∨ i = 1 ∨ i = 2 ∨ i = 3 ∨ i = 4 := by omega
    rcases this with e | e | e | e | e <;> subst e <;> cases h <;> decide
  · intro i hi
    unfold buttonName
    split <;> first | omega | rfl

private theorem printHex_is (n : Nat) (h : n < 2 ^ 32) : printHex n = hexNumber n := by
  unfold printHex hexNumber
  rw [hexText_is 4 n (by decide) (by simpa using h)]
  rfl

/-- C76.  The beginning and the end of a key's line: whether the key was pressed or released, the number of
repetitions and the scan code; the character, itself if it can be printed.  The keys with letters and digits appear
as these, between the words for the control keys and the character. -/
theorem C76_key_text (down : Bool) (rpt vk scan ch state : Nat) (h : InRange (.key down rpt vk scan ch state)) :
    (∃ mid, lineOf (.key down rpt vk scan ch state) =
      text ['k', 'e', 'y', ':', ' '] ++ text (if down then ['d', 'n'] else ['u', 'p']) ++
        text [' ', 'r', 'p', 't', '='] ++ decimal rpt ++ text [' ', 's', 'c', 'n', '='] ++ hexNumber scan ++
        text [' '] ++ mid ++ text [' ', 'c', 'h', '='] ++ character ch ++ [10]) ∧
    ((48 ≤ vk ∧ vk ≤ 57) ∨ (65 ≤ vk ∧ vk ≤ 90) → ∃ front, front.getLast? ∈ [some 45, some 32] ∧
      lineOf (.key down rpt vk scan ch state) = front ++ [vk] ++ text [' ', 'c', 'h', '='] ++ character ch ++ [10]) := by
  obtain ⟨h1, h2, h3, h4, h5⟩ := h
  have hc : charText ch = text [' ', 'c', 'h', '='] ++ character ch := by
    unfold charText character
    by_cases hp : 32 ≤ ch ∧ ch ≤ 126
    · rw [if_pos hp, if_neg (by omega)]; rfl
    · rw [if_neg hp, if_pos (by omega), printHex_is ch (by omega)]
  have hl := lineKey down rpt vk scan ch state h1 h2 h3 h4 h5
  unfold keyToString at hl
  rw [hc, printHex_is scan (by omega), prefix_eq] at hl
  refine ⟨⟨(tokens state (text ['k', 'e', 'y', 'S', 't', 'a', 't', 'e']) controlKeyStates).flatMap
    (fun w => w ++ text ['-']) ++ keyName vk, ?_⟩, ?_⟩
  · rw [hl]; simp [text]
  · intro hv
    have hk : keyName vk = [vk] := by
      have hn : ∀ vk : Nat, vk < 91 → (48 ≤ vk ∧ vk ≤ 57) ∨ (65 ≤ vk ∧ vk ≤ 90) → virtualKeyString vk = none := by
        decide +kernel
      unfold keyName
      rw [hn vk (by omega) hv]
      simp only
      rw [if_pos (by omega)]
    rw [hk] at hl
    refine ⟨text ['k', 'e', 'y', ':', ' '] ++ text (if down then ['d', 'n'] else ['u', 'p']) ++
        text [' ', 'r', 'p', 't', '='] ++ decimal rpt ++ text [' ', 's', 'c', 'n', '='] ++ hexNumber scan ++
        text [' '] ++ (tokens state (text ['k', 'e', 'y', 'S', 't', 'a', 't', 'e']) controlKeyStates).flatMap
          (fun w => w ++ text ['-']), ?_, ?_⟩
    · generalize tokens state _ controlKeyStates = ws
      generalize text ['k', 'e', 'y', ':', ' '] ++ text (if down then ['d', 'n'] else ['u', 'p']) ++
        text [' ', 'r', 'p', 't', '='] ++ decimal rpt ++ text [' ', 's', 'c', 'n', '='] ++ hexNumber scan = front
      rcases List.eq_nil_or_concat ws with rfl | ⟨l, w, rfl⟩
      · simp [text, List.getLast?_append]
      · have e : front ++ text [' '] ++ (l.concat w).flatMap (fun w => w ++ text ['-']) =
            front ++ text [' '] ++ l.flatMap (fun w => w ++ text ['-']) ++ w ++ [45] := by simp [text]
        rw [e, List.getLast?_concat]
        simp
    · rw [hl]; simp [text]

example : InRange (.key true 1 65 30 97 8) ∧ lineOf (.key true 1 65 30 97 8) =
    text ['k', 'e', 'y', ':', ' ', 'd', 'n', ' ', 'r', 'p', 't', '=', '1', ' ', 's', 'c', 'n', '=', '0', 'x', '1', 'e',
      ' ', 'L', 'C', 't', 'r', 'l', '-', 'A', ' ', 'c', 'h', '=', '\'', 'a', '\'', '\n'] := by
  constructor
  · simp [InRange]
  · decide +kernel

/-- What a key's line says: after `scn=` and a space come words, each followed by a dash, and the words with the
names of the control keys are there exactly if the key's bit is set. -/
theorem C76_key_words (down : Bool) (rpt vk scan ch state : Nat) (h : InRange (.key down rpt vk scan ch state)) :
    ∃ (front : List Nat) (ws : List (List Nat)) (back : List Nat),
      lineOf (.key down rpt vk scan ch state) =
        front ++ text [' '] ++ ws.flatMap (fun w => w ++ text ['-']) ++ keyName vk ++ text [' '] ++ back ∧
      front = text ['k', 'e', 'y', ':', ' '] ++ text (if down then ['d', 'n'] else ['u', 'p']) ++ text [' ', 'r', 'p', 't', '='] ++
        decimal rpt ++ text [' ', 's', 'c', 'n', '='] ++ printHex scan ∧
      (∀ w ∈ ws, 45 ∉ w ∧ 32 ∉ w) ∧
      ∀ i n, stateName i = some n → (text n ∈ ws ↔ state.testBit i = true) := by
  obtain ⟨h1, h2, h3, h4, h5⟩ := h
  obtain ⟨t, ht, _⟩ := charText_form ch (by omega)
  refine ⟨_, tokens state (text ['k', 'e', 'y', 'S', 't', 'a', 't', 'e']) controlKeyStates, t ++ [10], ?_, rfl, ?_, ?_⟩
  · rw [lineKey _ _ _ _ _ _ h1 h2 h3 h4 h5]
    unfold keyToString
    rw [prefix_eq, ht]
    simp [text]
  · intro w hw
    have := tokens_plain names_control (by decide) state (by omega) w hw
    exact ⟨this.2.2, this.1⟩
  · intro i n hn
    obtain ⟨f, hf, hv, hm⟩ := state_named i n hn
    rw [← hm, mem_tokens names_control state _ f hf, hv]
    exact hit_bit i state

set_option maxRecDepth 100000 in
private theorem chart_same : (∀ p ∈ chartKeys, virtualKeyString p.1 = some (text p.2)) ∧
    (∀ p ∈ virtualKeyNames, ∃ q ∈ chartKeys, q.1 = p.1) := by
  constructor <;> decide +kernel

/-- How a key is named: by its name in the chart of virtual keys, a letter or digit by itself, any other by its
number after `0x`, in hexadecimal. -/
theorem C76_key_names (vk : Nat) (h : vk < 2 ^ 16) :
    (∀ n, (vk, n) ∈ chartKeys → keyName vk = text n) ∧
    ((65 ≤ vk ∧ vk ≤ 90) ∨ (48 ≤ vk ∧ vk ≤ 57) → (∀ n, (vk, n) ∉ chartKeys) ∧ keyName vk = [vk]) ∧
    ((∀ n, (vk, n) ∉ chartKeys) → ¬ ((65 ≤ vk ∧ vk ≤ 90) ∨ (48 ≤ vk ∧ vk ≤ 57)) → vk ≠ 0 →
      keyName vk = text ['0', 'x'] ++ Spec.hexadecimal vk) := by
  have hnone : (∀ n, (vk, n) ∉ chartKeys) → virtualKeyString vk = none := by
    intro hn
    unfold virtualKeyString
    cases hf : virtualKeyNames.find? (fun p => p.1 == vk) with
    | none => rfl
    | some p =>
      obtain ⟨q, hq, he⟩ := chart_same.2 p (List.mem_of_find?_eq_some hf)
      have : p.1 = vk := by simpa using List.find?_some hf
      exact absurd (by rw [← this, ← he]; exact hq) (hn q.2)
  have hplain : (65 ≤ vk ∧ vk ≤ 90) ∨ (48 ≤ vk ∧ vk ≤ 57) → ∀ n, (vk, n) ∉ chartKeys := by
    intro hp n hm
    have : ∀ q ∈ chartKeys, ¬ ((65 ≤ q.1 ∧ q.1 ≤ 90) ∨ (48 ≤ q.1 ∧ q.1 ≤ 57)) := by decide +kernel
    exact this _ hm hp
  refine ⟨?_, ?_, ?_⟩
  · intro n hm
    have := chart_same.1 _ hm
    simp only [keyName, this]
  · intro hp
    refine ⟨hplain hp, ?_⟩
    simp only [keyName, hnone (hplain hp), if_pos hp]
  · intro hn hp h0
    simp only [keyName, hnone hn, if_neg hp, printHex, if_neg h0]
    rw [hexText_is 4 vk (by decide) (by omega)]

example : keyName 0xBC = text ['O', 'E', 'M', '_', 'C', 'O', 'M', 'M', 'A'] ∧ keyName 0x42 = text ['B'] ∧
    keyName 0xFF = text ['0', 'x', 'f', 'f'] := by decide +kernel

private theorem mem_group {table : List Flag} {name : List Nat} {ts us : List (List Nat)} {f : Flag} (hf : f ∈ table)
    (h : ts.filter (Belongs table name) = us) : f.name ∈ ts ↔ f.name ∈ us := by
  have hb : Belongs table name f.name = true := by
    unfold Belongs
    have : table.any (fun g => g.name == f.name) = true := List.any_eq_true.2 ⟨f, hf, by simp⟩
    rw [this]; rfl
  rw [← h, List.mem_filter]
  exact ⟨fun m => ⟨m, hb⟩, fun m => m.1⟩

/-- What a mouse event's line says: the position, then words, each after a space; the words with the names of
control keys, of the kinds of event and of the buttons are there exactly if the bit is set, and the wheel's turn if
there is one. -/
theorem C76_mouse_words (x y : Int) (b s f : Nat) (h : InRange (.mouse x y b s f)) :
    ∃ ws : List (List Nat),
      lineOf (.mouse x y b s f) = text ['m', 'o', 'u', 's', 'e', ':', ' ', 'p', 'o', 's', '='] ++ decimal x ++ text [','] ++
        decimal y ++ ws.flatMap (fun w => text [' '] ++ w) ++ text ['\n'] ∧
      (∀ w ∈ ws, 32 ∉ w ∧ 10 ∉ w) ∧
      (∀ i n, stateName i = some n → (text n ∈ ws ↔ s.testBit i = true)) ∧
      (∀ i n, flagName i = some n → (text n ∈ ws ↔ f.testBit i = true)) ∧
      (∀ i n, buttonName i = some n → (text n ∈ ws ↔ b.testBit i = true)) ∧
      (∀ v : Int, v ≠ 0 → -2 ^ 15 ≤ v → v < 2 ^ 15 →
        (text ['w', 'h', 'e', 'e', 'l', '='] ++ decimal v ∈ ws ↔ (b / 2 ^ 16 : Nat) = v % 2 ^ 16)) := by
  obtain ⟨x1, x2, y1, y2, h3, h4, h5⟩ := h
  refine ⟨mouseTokens b s f, ?_, mouseTokens_plain b s f h3 h4 h5, ?_, ?_, ?_, ?_⟩
  · rw [mouseLine _ _ _ _ _ (fits2 x1 x2) (fits2 y1 y2)]
    simp [text]
  · intro i n hn
    obtain ⟨g, hg, hv, hm⟩ := state_named i n hn
    rw [← hm, mem_group hg (group_state b s f), mem_tokens names_control s _ g hg, hv]
    exact hit_bit i s
  · intro i n hn
    obtain ⟨g, hg, hv, hm⟩ := flag_named i n hn
    rw [← hm, mem_group hg (group_flags b s f), mem_tokens names_flags f _ g hg, hv]
    exact hit_bit i f
  · intro i n hn
    obtain ⟨g, hg, hv, hm⟩ := button_named i n hn
    rw [← hm, mem_group hg (group_buttons b s f), mem_tokens names_buttons _ _ g hg, hv, hit_bit, Nat.testBit_and,
      show (0xFFFF : Nat) = 2 ^ 16 - 1 from rfl, Nat.testBit_two_pow_sub_one]
    have : i < 16 := by
      by_cases hi : i < 16
      · exact hi
      · exfalso
        unfold buttonName at hn
        split at hn <;> first | omega | cases hn
    simp [this]
  · intro v hv v1 v2
    have none : ∀ (table : List Flag) (name : List Nat) (flags : Nat), (∀ g ∈ table, 61 ∉ g.name) → 61 ∉ name → flags < 2 ^ 32 →
        text ['w', 'h', 'e', 'e', 'l', '='] ++ decimal v ∉ tokens flags name table := by
      intro table name flags ht hn hlt hm
      unfold tokens at hm
      have m61 : (61 : Nat) ∈ text ['w', 'h', 'e', 'e', 'l', '='] ++ decimal v := by simp [text]
      rw [List.mem_append] at hm
      rcases hm with hm | hm
      · obtain ⟨g, hg, e⟩ := List.mem_map.1 hm
        rw [← e] at m61
        exact ht g (List.mem_filter.1 hg).1 m61
      · split at hm
        · cases hm
        · rw [List.mem_singleton] at hm
          rw [hm] at m61
          unfold restToken text at m61
          simp only [List.mem_append, List.map_cons, List.map_nil, List.mem_cons, List.not_mem_nil, or_false] at m61
          rcases m61 with ((m | m) | m) | m
          · exact hn m
          · rcases m with m | m | m <;> exact absurd m (by decide)
          · have := hexText_mem _ _ (rest_lt _ _ hlt) m; omega
          · exact absurd m (by decide)
    have e : text ['w', 'h', 'e', 'e', 'l', '='] ++ decimal v ∈ mouseTokens b s f ↔ wheelOf b = v := by
      unfold mouseTokens
      rw [List.mem_append, List.mem_append, List.mem_append]
      constructor
      · rintro (m | m | m | m)
        · exact absurd m (none _ _ _ (by decide) (by decide) h4)
        · exact absurd m (none _ _ _ (by decide) (by decide) h5)
        · exact absurd m (none _ _ _ (by decide) (by decide) (Nat.lt_of_le_of_lt Nat.and_le_left h3))
        · split at m
          · rw [List.mem_singleton, List.append_cancel_left_eq, decText_is 2 _ (by decide) (wheelOf_fits b)] at m
            exact (decimal_inj _ _ m).symm
          · cases m
      · intro e
        refine Or.inr (Or.inr (Or.inr ?_))
        rw [if_pos (by rw [e]; exact hv), List.mem_singleton, decText_is 2 _ (by decide) (wheelOf_fits b), e]
    rw [e]
    unfold wheelOf
    split <;> omega

/-- Beside the two: the examples above meet the hypothesis; control and the second button have these names. -/
example : stateName 3 = some ['L', 'C', 't', 'r', 'l'] ∧ buttonName 2 = some ['2'] ∧ flagName 2 = some ['W', 'h', 'e', 'e', 'l'] ∧
    InRange (.mouse (-1) 7 0xFF880041 0x210 4) := by
  refine ⟨rfl, rfl, rfl, by simp [InRange]⟩

private theorem isLast_iff (r : Record) : isLast r = true ↔ CtrlD r := by
  cases r with
  | key d rpt vk scan ch state =>
    have hb : (state &&& 12 != 0) = true ↔ state.testBit 2 = true ∨ state.testBit 3 = true := by
      have hz : state &&& 12 = 0 ↔ state.testBit 2 = false ∧ state.testBit 3 = false := by
        constructor
        · intro h
          have h2 := congrArg (fun x => x.testBit 2) h
          have h3 := congrArg (fun x => x.testBit 3) h
          simp only [Nat.testBit_and, Nat.zero_testBit] at h2 h3
          have e2 : (12 : Nat).testBit 2 = true := by decide
          have e3 : (12 : Nat).testBit 3 = true := by decide
          rw [e2, Bool.and_true] at h2
          rw [e3, Bool.and_true] at h3
          exact ⟨h2, h3⟩
        · intro ⟨h2, h3⟩
          apply Nat.eq_of_testBit_eq
          intro i
          rw [Nat.testBit_and, Nat.zero_testBit]
          by_cases i2 : i = 2
          · subst i2; rw [h2]; rfl
          · by_cases i3 : i = 3
            · subst i3; rw [h3]; rfl
            · have : (12 : Nat).testBit i = false := by
                by_cases hi : i < 4
                · have : i = 0 ∨ i = 1 := by omega
                  rcases this with e | e <;> subst e <;> decide
                · exact Nat.testBit_lt_two_pow (Nat.lt_of_lt_of_le (by decide : 12 < 2 ^ 4)
                    (Nat.pow_le_pow_right (by decide) (by omega)))
              rw [this, Bool.and_false]
      rw [bne_iff_ne]
      cases h2 : state.testBit 2 <;> cases h3 : state.testBit 3 <;> simp [hz, h2, h3]
    unfold isLast CtrlD
    rw [show (0x8 ||| 0x4 : Nat) = 12 from by decide, Bool.or_eq_true, Bool.and_eq_true, hb]
    simp
    constructor
    · rintro (⟨a, b⟩ | h)
      · exact Or.inl ⟨b, a⟩
      · exact Or.inr ⟨h.1.1, h.1.2, h.2⟩
    · rintro (⟨a, b⟩ | h)
      · exact Or.inl ⟨b, a⟩
      · exact Or.inr ⟨⟨h.1, h.2.1⟩, h.2.2⟩
  | _ => simp [isLast, CtrlD]

private theorem dump_records : ∀ rs : List Record,
    (∃ l d r, rs = l ++ d :: r ∧ (∀ x ∈ l, ¬ CtrlD x) ∧ CtrlD d ∧ dumpRecords rs = ((l ++ [d]).flatMap lineOf, true)) ∨
    ((∀ x ∈ rs, ¬ CtrlD x) ∧ dumpRecords rs = (rs.flatMap lineOf, false))
  | [] => Or.inr ⟨by simp, rfl⟩
  | r :: rs => by
    rw [dumpRecords]
    by_cases h : isLast r = true
    · rw [if_pos h]
      exact Or.inl ⟨[], r, rs, rfl, by simp, (isLast_iff r).1 h, by simp⟩
    · rw [if_neg h]
      have hr : ¬ CtrlD r := fun c => h ((isLast_iff r).2 c)
      rcases dump_records rs with ⟨l, d, q, e, hl, hd, ht⟩ | ⟨hl, ht⟩
      · refine Or.inl ⟨r :: l, d, q, by rw [e]; rfl, ?_, hd, by rw [ht]; simp⟩
        intro x hx
        rcases List.mem_cons.1 hx with hx | hx
        · rw [hx]; exact hr
        · exact hl x hx
      · refine Or.inr ⟨?_, by rw [ht]; simp⟩
        intro x hx
        rcases List.mem_cons.1 hx with hx | hx
        · rw [hx]; exact hr
        · exact hl x hx

private theorem dump_loop (m : Nat) (ok : Bool) : ∀ reads : List (Option (List Record)),
    ∃ shown rest, events reads = shown ++ rest ∧ printed (dumpLoop m ok reads).1 = shown.flatMap lineOf ∧
      modesSet (dumpLoop m ok reads).1 = (if (dumpLoop m ok reads).2 = .returned then [m] else []) ∧
      ((∃ l d, shown = l ++ [d] ∧ (∀ x ∈ l, ¬ CtrlD x) ∧ CtrlD d ∧ (dumpLoop m ok reads).2 = .returned) ∨
       (rest = [] ∧ (∀ x ∈ shown, ¬ CtrlD x) ∧ ((dumpLoop m ok reads).2 = .returned ↔ readFails reads) ∧
         ((dumpLoop m ok reads).2 = .waiting ↔ ¬ readFails reads)))
  | [] => ⟨[], [], rfl, rfl, rfl, Or.inr ⟨rfl, by simp, by simp [dumpLoop, readFails], by simp [dumpLoop, readFails]⟩⟩
  | none :: more => ⟨[], [], rfl, rfl, rfl, Or.inr ⟨rfl, by simp, by simp [dumpLoop, readFails], by simp [dumpLoop, readFails]⟩⟩
  | some [] :: more => ⟨[], [], rfl, rfl, rfl, Or.inr ⟨rfl, by simp, by simp [dumpLoop, readFails], by simp [dumpLoop, readFails]⟩⟩
  | some (r :: rs) :: more => by
    rw [dumpLoop, events]
    rcases dump_records (r :: rs) with ⟨l, d, q, e, hl, hd, ht⟩ | ⟨hl, ht⟩
    · rw [if_pos (by rw [ht])]
      refine ⟨l ++ [d], q ++ events more, by rw [e]; simp, by simp [printed, ht], rfl, Or.inl ⟨l, d, rfl, hl, hd, rfl⟩⟩
    · rw [if_neg (by rw [ht]; simp)]
      obtain ⟨shown, rest, h1, h2, h3, h4⟩ := dump_loop m ok more
      refine ⟨r :: rs ++ shown, rest, by rw [h1]; simp, by simp [printed, ht, h2], by simpa [modesSet] using h3, ?_⟩
      rcases h4 with ⟨l, d, hs, hl2, hd, he⟩ | ⟨hr, hn, he, he2⟩
      · refine Or.inl ⟨r :: rs ++ l, d, by rw [hs]; simp, ?_, hd, he⟩
        intro x hx
        rw [List.mem_append] at hx
        rcases hx with hx | hx
        · exact hl x hx
        · exact hl2 x hx
      · refine Or.inr ⟨hr, ?_, ?_, ?_⟩
        · intro x hx
          rw [List.mem_append] at hx
          rcases hx with hx | hx
          · exact hl x hx
          · exact hn x hx
        · simpa [readFails] using he
        · simpa [readFails] using he2

/-- Every event the console delivers is shown, once and in order, up to and including the first Ctrl-D; nothing
after it.  The dump returns at that Ctrl-D, or when a read fails or delivers nothing, and otherwise waits. -/
theorem C76_order (mouse escape : Bool) (orig : Nat) (restoreOk : Bool) (reads : List (Option (List Record))) :
    ∃ shown rest, events reads = shown ++ rest ∧
      printed (debugShowInput mouse escape (some orig) true restoreOk reads).1 = greeting ++ shown.flatMap lineOf ∧
      ((∃ l d, shown = l ++ [d] ∧ (∀ x ∈ l, ¬ CtrlD x) ∧ CtrlD d ∧
          (debugShowInput mouse escape (some orig) true restoreOk reads).2 = .returned) ∨
       (rest = [] ∧ (∀ x ∈ shown, ¬ CtrlD x) ∧
          ((debugShowInput mouse escape (some orig) true restoreOk reads).2 = .returned ↔ readFails reads) ∧
          ((debugShowInput mouse escape (some orig) true restoreOk reads).2 = .waiting ↔ ¬ readFails reads))) := by
  obtain ⟨shown, rest, h1, h2, _, h4⟩ := dump_loop (restoreMode mouse orig) restoreOk reads
  exact ⟨shown, rest, h1, by simp [debugShowInput, printed, h2], h4⟩

/-- Beside `C76_order`: three reads; the second contains Ctrl-D. -/
example : (debugShowInput false false (some 0x1F7) true true
      [some [.focus true], some [.menu 7, .key true 1 68 32 4 8, .focus false], some [.focus true]]).2 = .returned ∧
    printed (debugShowInput false false (some 0x1F7) true true
      [some [.focus true], some [.menu 7, .key true 1 68 32 4 8, .focus false], some [.focus true]]).1 =
      greeting ++ lineOf (.focus true) ++ lineOf (.menu 7) ++ lineOf (.key true 1 68 32 4 8) ∧
    CtrlD (.key true 1 68 32 4 8) := by
  refine ⟨by decide +kernel, by decide +kernel, Or.inl ⟨rfl, Or.inr (by decide)⟩⟩

/-- The console's mode.  While input is shown, processed input, line input and echo (bits 0 to 2) are off, so
that keys such as Ctrl-C come as events; window events (bit 3) are on; mouse events (bit 4) are on as asked, and
then quick edit (bit 6), which would swallow them, is off; bit 9 is set if escape sequences are asked for.  The
rest is left.  In the end the mode is what it was, except that with the mouse and without the bit that makes the
old values of quick edit and insert mode known (bit 7), these three are set.  If a mode cannot be read or set,
nothing is changed. -/
theorem C76_mode (mouse escape : Bool) (orig : Nat) (ho : orig < 2 ^ 32) (restoreOk : Bool)
    (reads : List (Option (List Record))) :
    (∃ during back, modesSet (debugShowInput mouse escape (some orig) true restoreOk reads).1 =
        during :: (if (debugShowInput mouse escape (some orig) true restoreOk reads).2 = .returned then [back] else []) ∧
      (debugShowInput mouse escape (some orig) true restoreOk reads).1.head? = some (.setMode during true) ∧
      (∀ i, during.testBit i =
        if i ≤ 2 then false else if i = 3 then true else if i = 4 then mouse
        else if i = 6 ∧ mouse = true then false else if i = 9 ∧ escape = true then true else back.testBit i) ∧
      (back = orig ∨ (mouse = true ∧ orig.testBit 7 = false ∧
        ∀ i, back.testBit i = if i = 5 ∨ i = 6 ∨ i = 7 then true else orig.testBit i)) ∧
      (mouse = false ∨ orig.testBit 7 = true → back = orig)) ∧
    debugShowInput mouse escape none true restoreOk reads = ([], .failed) ∧
    (∃ m, debugShowInput mouse escape (some orig) false restoreOk reads = ([.setMode m false], .failed)) := by
  refine ⟨?_, rfl, ⟨_, rfl⟩⟩
  obtain ⟨_, _, _, _, h3, _⟩ := dump_loop (restoreMode mouse orig) restoreOk reads
  have b7 : (orig &&& 0x80 == 0) = !orig.testBit 7 := by
    cases hb : orig.testBit 7
    · have : orig &&& 0x80 = 0 := by
        apply Nat.eq_of_testBit_eq
        intro i
        rw [Nat.testBit_and, Nat.zero_testBit, show (0x80 : Nat) = 2 ^ 7 from rfl, Nat.testBit_two_pow]
        by_cases e : 7 = i
        · subst e; rw [hb]; rfl
        · simp [e]
      rw [this]; rfl
    · have : orig &&& 0x80 ≠ 0 := by
        intro h
        have := congrArg (fun x => x.testBit 7) h
        simp only [Nat.testBit_and, Nat.zero_testBit, hb] at this
        exact absurd this (by decide)
      simp [this]
  have hback : restoreMode mouse orig < 2 ^ 32 := by
    unfold restoreMode
    split
    · exact Nat.or_lt_two_pow (Nat.or_lt_two_pow (Nat.or_lt_two_pow ho (by decide)) (by decide)) (by decide)
    · exact ho
  refine ⟨newMode mouse escape (restoreMode mouse orig), restoreMode mouse orig, ?_, rfl, ?_, ?_, ?_⟩
  · show _ :: modesSet (dumpLoop (restoreMode mouse orig) restoreOk reads).1 = _
    rw [h3]; rfl
  · intro i
    generalize restoreMode mouse orig = m at hback
    have clear : ∀ k, k < 32 → (0xFFFFFFFF - 2 ^ k).testBit i = decide (i < 32 ∧ i ≠ k) := by
      intro k hk
      by_cases hi : i < 32
      · have : ∀ k, k < 32 → ∀ i, i < 32 → (0xFFFFFFFF - 2 ^ k).testBit i = decide (i < 32 ∧ i ≠ k) := by decide +kernel
        exact this k hk i hi
      · rw [Nat.testBit_lt_two_pow (Nat.lt_of_lt_of_le (Nat.lt_of_le_of_lt (Nat.sub_le ..) (by decide : 0xFFFFFFFF < 2 ^ 32))
          (Nat.pow_le_pow_right (by decide) (by omega)))]
        simp [hi]
    have hm : 32 ≤ i → m.testBit i = false := fun hi =>
      Nat.testBit_lt_two_pow (Nat.lt_of_lt_of_le hback (Nat.pow_le_pow_right (by decide) hi))
    have c0 : (0xFFFFFFFF - 0x1 : Nat).testBit i = decide (i < 32 ∧ i ≠ 0) := clear 0 (by decide)
    have c1 : (0xFFFFFFFF - 0x2 : Nat).testBit i = decide (i < 32 ∧ i ≠ 1) := clear 1 (by decide)
    have c2 : (0xFFFFFFFF - 0x4 : Nat).testBit i = decide (i < 32 ∧ i ≠ 2) := clear 2 (by decide)
    have c4 : (0xFFFFFFFF - 0x10 : Nat).testBit i = decide (i < 32 ∧ i ≠ 4) := clear 4 (by decide)
    have c6 : (0xFFFFFFFF - 0x40 : Nat).testBit i = decide (i < 32 ∧ i ≠ 6) := clear 6 (by decide)
    have s3 : (0x8 : Nat).testBit i = decide (3 = i) := Nat.testBit_two_pow (n := 3) (m := i)
    have s4 : (0x10 : Nat).testBit i = decide (4 = i) := Nat.testBit_two_pow (n := 4) (m := i)
    have s9 : (0x200 : Nat).testBit i = decide (9 = i) := Nat.testBit_two_pow (n := 9) (m := i)
    have e : (newMode mouse escape m).testBit i =
        (if escape then fun b : Bool => b || decide (9 = i) else fun b => b)
          ((if mouse then fun b : Bool => (b || decide (4 = i)) && decide (i < 32 ∧ i ≠ 6)
            else fun b => b && decide (i < 32 ∧ i ≠ 4))
           (((m.testBit i && decide (i < 32 ∧ i ≠ 0)) && decide (i < 32 ∧ i ≠ 1) && decide (i < 32 ∧ i ≠ 2)) || decide (3 = i))) := by
      unfold newMode
      cases mouse <;> cases escape <;>
        simp only [Bool.false_eq_true, ↓reduceIte, Nat.testBit_or, Nat.testBit_and, s3, s4, s9, c0, c1, c2, c4, c6]
    rw [e]
    by_cases hi : i < 32
    · by_cases i0 : i = 0
      · subst i0; cases mouse <;> cases escape <;> simp
      by_cases i1 : i = 1
      · subst i1; cases mouse <;> cases escape <;> simp
      by_cases i2 : i = 2
      · subst i2; cases mouse <;> cases escape <;> simp
      by_cases i3 : i = 3
      · subst i3; cases mouse <;> cases escape <;> simp
      by_cases i4 : i = 4
      · subst i4; cases mouse <;> cases escape <;> simp
      by_cases i6 : i = 6
      · subst i6; cases mouse <;> cases escape <;> simp
      by_cases i9 : i = 9
      · subst i9; cases mouse <;> cases escape <;> simp
      have le : ¬ i ≤ 2 := by omega
      cases mouse <;> cases escape <;>
        simp [hi, i0, i1, i2, i3, i4, i6, i9, le, Ne.symm (a := i) i3, Ne.symm (a := i) i4, Ne.symm (a := i) i9]
    · have le : ¬ i ≤ 2 := by omega
      rw [hm (by omega)]
      cases mouse <;> cases escape <;> simp [hi, le, show ¬ 3 = i by omega, show ¬ i = 3 by omega, show ¬ 4 = i by omega, show ¬ i = 4 by omega, show ¬ 9 = i by omega, show ¬ i = 9 by omega]
  · unfold restoreMode
    rw [b7]
    cases mouse
    · exact Or.inl rfl
    · cases hb : orig.testBit 7
      · refine Or.inr ⟨rfl, rfl, ?_⟩
        intro i
        have s5 : (0x20 : Nat).testBit i = decide (5 = i) := Nat.testBit_two_pow (n := 5) (m := i)
        have s6 : (0x40 : Nat).testBit i = decide (6 = i) := Nat.testBit_two_pow (n := 6) (m := i)
        have s7 : (0x80 : Nat).testBit i = decide (7 = i) := Nat.testBit_two_pow (n := 7) (m := i)
        simp only [Bool.not_false, Bool.and_self, ↓reduceIte, Nat.testBit_or, s5, s6, s7]
        by_cases i5 : i = 5
        · subst i5; simp
        by_cases i6 : i = 6
        · subst i6; simp
        by_cases i7 : i = 7
        · subst i7; simp
        simp [i5, i6, i7, Ne.symm (a := i) i5, Ne.symm (a := i) i6, Ne.symm (a := i) i7]
      · exact Or.inl rfl
  · intro h
    unfold restoreMode
    rw [b7]
    rcases h with h | h
    · rw [h]; rfl
    · rw [h]; simp

/-- Beside `C76_mode`: the usual mode, with the mouse. -/
example : (debugShowInput true false (some 0x1F7) true true [none]).1 =
    [.setMode 0x1B8 true, .print greeting, .setMode 0x1F7 true] ∧
    (debugShowInput true true (some 0x7) true true [none]).1 =
    [.setMode 0x2B8 true, .print greeting, .setMode 0xE7 true] := by
  constructor <;> rfl

end Winpty.Props
