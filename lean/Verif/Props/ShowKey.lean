import Verif.Model.ShowKey
import Verif.Spec.ShowKey
import Verif.Props.TtyMode
import Verif.Props.AdapterMain

/-!
# C80: the key viewer
-/
namespace Winpty.Props

open Winpty.ShowKey Winpty.TtyMode Winpty.Spec.TtyMode Winpty.Spec.Keys

theorem line_eq (b : Nat) (h : b < 256) : line b = byteLine b := by
  have : ∀ b < 256, line b = byteLine b := by decide +kernel
  exact this b h

theorem echo_eq (b : Nat) (h : b < 256) : echo b = caret b := by
  have : ∀ b < 256, echo b = caret b := by decide +kernel
  exact this b h

theorem flatMap_same {α β : Type} {f g : α → List β} {l : List α} (h : ∀ x ∈ l, f x = g x) :
    l.flatMap f = l.flatMap g := by
  induction l with
  | nil => rfl
  | cons x l ih =>
    simp only [List.flatMap_cons]
    rw [h x (by simp), ih fun y hy => h y (by simp [hy])]

theorem viewed_sub (reads : List (List Nat)) : ∀ r ∈ viewed reads, r ∈ reads ∧ r ≠ [] := by
  induction reads with
  | nil => simp [viewed]
  | cons r more ih =>
    unfold viewed
    split
    · simp_all
    · simp_all
    · rename_i e
      cases e
      intro x hx
      simp at hx
      subst hx
      simp
    · rename_i e
      cases e
      intro x hx
      rcases List.mem_cons.1 hx with rfl | hx
      · refine ⟨by simp, ?_⟩
        intro h
        subst h
        simp_all
      · exact ⟨by simp [(ih x hx).1], (ih x hx).2⟩

theorem loop_viewed (reads : List (List Nat)) : loop reads = (viewed reads).flatMap showRead := by
  induction reads with
  | nil => rfl
  | cons r more ih =>
    cases r with
    | nil => simp [loop, viewed]
    | cons b r =>
      rw [loop]
      by_cases hb : b = 4
      · subst hb; simp [viewed]
      · simp [viewed, hb, ih]

theorem table_skip (s rest : List Nat) (h : ∀ c ∈ s, c ≠ 9) : table (s ++ rest) = table rest := by
  induction s with
  | nil => rfl
  | cons c s ih =>
    have hc := h c (by simp)
    have := ih fun x hx => h x (by simp [hx])
    rw [List.cons_append]
    rw [← this]
    conv => lhs; unfold table
    split
    · simp_all
    · simp_all
    · simp_all

theorem caret_no_tab (b : Nat) : ∀ c ∈ caret b, c ≠ 9 := by
  intro c hc
  unfold caret at hc
  split at hc
  · simp at hc; omega
  · simp at hc; omega

/-- A line begins with a tab and three places; the rest has no tab. -/
theorem line_shape (b : Nat) (h : b < 256) : ∃ x y z t, line b = 9 :: x :: y :: z :: t ∧
    100 * place x + 10 * place y + place z = b ∧ ∀ c ∈ t, c ≠ 9 := by
  have : ∀ b < 256, (match line b with
      | 9 :: x :: y :: z :: t => decide (100 * place x + 10 * place y + place z = b) && t.all (· ≠ 9)
      | _ => false) = true := by decide +kernel
  have h := this b h
  split at h
  · rename_i x y z t e
    rw [Bool.and_eq_true, decide_eq_true_eq] at h
    refine ⟨x, y, z, t, e, h.1, ?_⟩
    intro c hc
    simpa using List.all_eq_true.1 h.2 c hc
  · cases h

theorem table_lines (r rest : List Nat) (h : ∀ b ∈ r, b < 256) :
    table (r.flatMap line ++ rest) = r ++ table rest := by
  induction r with
  | nil => rfl
  | cons b r ih =>
    obtain ⟨x, y, z, t, e, hv, ht⟩ := line_shape b (h b (by simp))
    rw [List.flatMap_cons, e]
    simp only [List.cons_append, List.append_assoc]
    rw [table, table_skip t _ ht, ih fun c hc => h c (by simp [hc]), hv]

/-- C80.  What the viewer prints for the keys: for each piece of input the characters in caret notation, then
a line for each byte with its decimal, octal and hexadecimal number. -/
theorem C80_shown (reads : List (List Nat)) (hb : ∀ r ∈ reads, ∀ b ∈ r, b < 256) :
    loop reads = (viewed reads).flatMap fun r => r.flatMap caret ++ r.flatMap byteLine := by
  rw [loop_viewed]
  apply flatMap_same
  intro r hr
  have hr := hb r (viewed_sub reads r hr).1
  unfold showRead
  rw [flatMap_same (f := echo) (g := caret) fun b hb => echo_eq b (hr b hb),
    flatMap_same (f := line) (g := byteLine) fun b hb => line_eq b (hr b hb)]

/-- C80.  No byte is lost, added or moved: the numbers in the printed table are the bytes that were read, in
their order. -/
theorem C80_complete (reads : List (List Nat)) (hb : ∀ r ∈ reads, ∀ b ∈ r, b < 256) :
    table (banner ++ loop reads) = (viewed reads).flatten := by
  rw [table_skip banner _ (by decide)]
  rw [loop_viewed]
  have hv : ∀ r ∈ viewed reads, ∀ b ∈ r, b < 256 := fun r hr => hb r (viewed_sub reads r hr).1
  generalize viewed reads = v at hv
  induction v with
  | nil => rfl
  | cons r v ih =>
    have hr := hv r (by simp)
    rw [List.flatMap_cons, List.flatten_cons, ← ih fun x hx => hv x (by simp [hx])]
    unfold showRead
    rw [List.append_assoc, table_skip _ _ ?_, table_lines r _ hr]
    intro c hc
    obtain ⟨b, h1, h2⟩ := List.mem_flatMap.1 hc
    rw [echo_eq b (hr b h1)] at h2
    exact caret_no_tab b c h2

/-- C80.  No control character that is typed reaches the terminal: apart from tabs and line ends, the viewer
prints only characters that are not control characters of ASCII. -/
theorem C80_harmless (reads : List (List Nat)) (hb : ∀ r ∈ reads, ∀ b ∈ r, b < 256) :
    ∀ c ∈ banner ++ loop reads, c = 9 ∨ c = 10 ∨ (32 ≤ c ∧ c ≠ 127 ∧ c < 256) := by
  intro c hc
  rcases List.mem_append.1 hc with hc | hc
  · have : ∀ c ∈ banner, c = 9 ∨ c = 10 ∨ (32 ≤ c ∧ c ≠ 127 ∧ c < 256) := by decide
    exact this c hc
  · rw [C80_shown reads hb] at hc
    obtain ⟨r, h1, h2⟩ := List.mem_flatMap.1 hc
    have hr := hb r (viewed_sub reads r h1).1
    rcases List.mem_append.1 h2 with h2 | h2
    · obtain ⟨b, h3, h4⟩ := List.mem_flatMap.1 h2
      have := hr b h3
      unfold caret at h4
      split at h4
      · simp at h4; omega
      · simp at h4; omega
    · obtain ⟨b, h3, h4⟩ := List.mem_flatMap.1 h2
      have : ∀ b < 256, ∀ c ∈ byteLine b, c = 9 ∨ c = 10 ∨ (32 ≤ c ∧ c ≠ 127 ∧ c < 256) := by
        decide +kernel
      exact this b (hr b h3) c h4

/-- C80.  The viewer ends at a Ctrl-D that is typed alone or first, and at the end of the input; until then it
goes on.  Partial: a Ctrl-D that arrives behind another byte is not noticed (`C80_ctrl_d_defect`). -/
theorem C80_ends_partial (before : List (List Nat)) (r : List Nat) (after : List (List Nat))
    (h : ∀ x ∈ before, x ≠ [] ∧ x.head? ≠ some 4) :
    viewed (before ++ (4 :: r) :: after) = before ++ [4 :: r] ∧
    viewed (before ++ [] :: after) = before ∧ viewed before = before := by
  induction before with
  | nil => simp [viewed]
  | cons x before ih =>
    have hx := h x (by simp)
    have := ih fun y hy => h y (by simp [hy])
    cases x with
    | nil => simp at hx
    | cons b x =>
      simp at hx
      simp [viewed, hx, this]

/-- C80, a defect of the code.  Ctrl-D is promised to end the viewer, but if it arrives in the same read as an
earlier key it does not: the viewer goes on and shows what comes later. -/
theorem C80_ctrl_d_defect :
    loop [[97, 4], [98]] = showRead [97, 4] ++ showRead [98] ∧ table (loop [[97, 4], [98]]) = [97, 4, 98] ∧
    loop [[97], [4], [98]] = showRead [97] ++ showRead [4] := by decide +kernel

/-- C80.  `--showkey` among the options starts the viewer and nothing else: no session is opened and no
program is started, even if one is named after the options.  The input has to be a terminal unless
`-Xallow-non-tty` is given as well. -/
theorem C80_asked (os : AdapterMain.Os) (argv0 : String) (before after rest : List String)
    (hb : ∀ f ∈ before, f ∈ flagWords) (ha : ∀ f ∈ after, f ∈ flagWords)
    (hr : rest = [] ∨ ∃ w more, rest = w :: more ∧ (w = "--" ∨ ¬ isOption w)) :
    AdapterMain.main os (argv0 :: before ++ "--showkey" :: after ++ rest) =
      ([], .showKeys (decide ("-Xallow-non-tty" ∈ before ++ after))) := by
  have hp : Argv.parseArguments (argv0 :: before ++ "--showkey" :: after ++ rest) =
      .showKey (decide ("-Xallow-non-tty" ∈ before ++ after)) := by
    unfold Argv.parseArguments
    rw [List.append_assoc, List.cons_append, List.tail_cons, Argv.parseLoop_flags _ _ _ hb, List.cons_append,
      Argv.parseLoop, if_pos (by decide)]
    simp only [show ¬ ("--showkey" = "-h" ∨ "--showkey" = "--help") by decide,
      show ¬ "--showkey" = "--mouse" by decide, if_false, if_true]
    rw [Argv.parseLoop_flags _ _ _ ha]
    rcases hr with rfl | ⟨w, more, rfl, rfl | hw⟩
    · rw [Argv.parseLoop]
      simp [Argv.finishParse, Argv.addFlags]
    · rw [Argv.parseLoop, if_pos (by decide)]
      simp [Argv.finishParse, Argv.addFlags]
    · unfold isOption at hw
      rw [Argv.parseLoop, if_neg hw]
      simp [Argv.finishParse, Argv.addFlags]
  unfold AdapterMain.main
  rw [hp]

/-- C80.  If no terminal call fails and the input is a terminal (or need not be one), the viewer prints its
banner and the keys and exits with the code 0.  While it runs, the terminal of the input passes on every key at
once and unchanged, and the line ends on the output are treated as before.  At the end the terminal has the
mode it had at the start, whatever other programs did to it in between. -/
theorem C80_session (env : Env) (allow : Bool) (g : Nat → Termios) (w : World) (reads : List (List Nat))
    (during : World → World) (hf : ∀ n, env.fails n = false) (ht : allow = true ∨ (env.tty 0).isSome) :
    ∃ running, (∀ t, inputTty env t → KeysUnchanged (running.mode t)) ∧
      (∀ t, (running.mode t).opost = (w.mode t).opost) ∧
      (∀ t, ¬ inputTty env t → running.mode t = w.mode t) ∧
      (debugShowKey env allow g w reads during).stdout = banner ++ loop reads ∧
      (debugShowKey env allow g w reads during).code = 0 ∧
      (∀ t, inputTty env t → (debugShowKey env allow g w reads during).world.mode t = w.mode t) ∧
      (∀ t, ¬ inputTty env t →
        (debugShowKey env allow g w reads during).world.mode t = (during running).mode t) := by
  obtain ⟨saved, w1, h1, h2⟩ := C65_succeeds env allow false false g w hf (ht.imp_right fun h i hi => by
    rcases hi with rfl | ⟨_, hi⟩ | ⟨_, hi⟩
    · exact h
    · cases hi
    · cases hi)
  obtain ⟨u, w3, h3⟩ := h2 (during w1)
  have hno : ∀ t, ¬ outputTty env false false t := by
    rintro t (⟨h, _⟩ | ⟨h, _⟩) <;> cases h
  have e : debugShowKey env allow g w reads during = ⟨banner ++ loop reads, 0, w3⟩ := by
    simp [debugShowKey, h1, finish, h3]
  have hr := fun t => C65_raw env allow false false g w w1 saved h1 t
  have hres := fun t => C65_restored env allow false false g w w1 saved h1 (during w1) w3 u h3 t
  refine ⟨w1, fun t hi => (hr t).1 hi, fun t => (hr t).2.2.2.1 (hno t),
    fun t hi => (hr t).2.2.2.2.1 hi (hno t), by rw [e], by rw [e], fun t hi => ?_, fun t hi => ?_⟩
  · rw [e]; exact (hres t).1 (.inl hi)
  · rw [e]; exact (hres t).2 hi (hno t)

/-- C80.  If the input is not a terminal and has to be one, the viewer exits with the code 1, shows nothing but
its banner, and has changed no terminal. -/
theorem C80_refused (env : Env) (g : Nat → Termios) (w : World) (reads : List (List Nat))
    (during : World → World) (ht : env.tty 0 = none) :
    (debugShowKey env false g w reads during).code = 1 ∧
    (debugShowKey env false g w reads during).stdout = banner ∧
    (debugShowKey env false g w reads during).world.mode = w.mode := by
  obtain ⟨w', h1, h2⟩ := C65_refused env false false g w 0 (.inl rfl) ht
  simp [debugShowKey, h1, h2]

/-- Non-vacuity: the user types Escape, then `é` in UTF-8, then Ctrl-D. -/
example : viewed [[27], [195, 169], [4], [65]] = [[27], [195, 169], [4]] ∧
    caret 27 = [94, 91] ∧ byteLine 195 = Startup.lit "\t195 0303 0xc3\n" ∧
    byteLine 9 = Startup.lit "\t  9 0011 0x09\n" := by decide +kernel

/-- A terminal on all three streams and calls that do not fail. -/
example : ∃ env : Env, (∀ n, env.fails n = false) ∧ (env.tty 0).isSome = true ∧ inputTty env 7 :=
  ⟨⟨fun _ => some 7, fun _ => false⟩, fun _ => rfl, rfl, rfl⟩

end Winpty.Props
