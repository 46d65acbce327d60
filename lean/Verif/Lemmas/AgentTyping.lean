import Verif.Lemmas.AgentInputRun

/-! # What follows from the record of a session: text, keys, queries, the mouse -/
namespace Winpty.AgentInput
open Winpty.ConsoleInput (Out Rect Obj Op St Rec exec execAll written sent exec_out)
open Winpty.Spec Winpty.Spec.Typing Winpty.Unicode
open Winpty.InputMap (Node Key setAll newNode defaultRegs)

/-! ## Text -/

/-- Characters whose keys are not in the key table. -/
def Plain (cs : List Nat) : Prop := ∀ c ∈ cs, IsScalar c ∧ c ≠ 0 ∧ c ≠ 3 ∧ c ≠ 27 ∧ c ≠ 127

theorem utf8_first {c : Nat} (h : IsScalar c ∧ c ≠ 0 ∧ c ≠ 3 ∧ c ≠ 27 ∧ c ≠ 127) :
    ∃ b t, utf8 c = b :: t ∧ b < 256 ∧ b ≠ 3 ∧ b ≠ 27 ∧ b ≠ 127 ∧ utf8CharLength b = (utf8 c).length := by
  obtain ⟨b, t, e, l, n⟩ := utf8_head c h.1
  refine ⟨b, t, e, l, ?_, ?_, ?_, n⟩
  all_goals
    rintro rfl
    obtain ⟨h1, h2, h3, h4, h5⟩ := h
    unfold utf8 at e
    repeat' split at e
    all_goals
      simp only [List.cons.injEq] at e
      omega

/-- The length a first byte announces. -/
theorem announced {b n : Nat} (hb : b < 256)
    (h : 128 ≤ b ∧ (b < 192 ∨ 248 ≤ b) ∧ n = 0 ∨ 192 ≤ b ∧ b < 224 ∧ n = 1 ∨
      224 ≤ b ∧ b < 240 ∧ n = 2 ∨ 240 ≤ b ∧ b < 248 ∧ n = 3) :
    utf8CharLength b = n + 1 ∨ utf8CharLength b = 0 := by
  rw [utf8CharLength_eq b hb]
  repeat' split
  all_goals omega

theorem take_prefix {α : Type} {a b x y : List α} (h : a ++ x = b ++ y) (hl : a.length = b.length) : a = b :=
  (List.append_inj h hl).1

/-- A whole character at the head of a text is its first character. -/
theorem head_char {c : Nat} {cs rest : List Nat} (hc : IsScalar c) (hp : Plain cs)
    (h : utf8 c ++ rest = utf8Text cs) : ∃ cs', cs = c :: cs' ∧ rest = utf8Text cs' := by
  cases cs with
  | nil =>
    obtain ⟨b, t, e, _⟩ := utf8_head c hc
    rw [e] at h; cases h
  | cons d ds =>
    have h' : utf8 c ++ rest = utf8 d ++ utf8Text ds := h
    obtain ⟨b, t, e, l, n⟩ := utf8_head c hc
    obtain ⟨b', t', e', l', n'⟩ := utf8_head d (hp d (by simp)).1
    have hbb : b = b' := by
      rw [e, e', List.cons_append, List.cons_append, List.cons.injEq] at h'
      exact h'.1
    have hl : (utf8 c).length = (utf8 d).length := by rw [← n, ← n', hbb]
    obtain ⟨h1, h2⟩ := List.append_inj h' hl
    have hcd : c = d := by
      have g1 := decode_utf8 c hc [] (by simp)
      rw [h1, decode_utf8 d (hp d (by simp)).1 [] (by simp)] at g1
      cases g1; rfl
    exact ⟨ds, by rw [hcd], h2⟩

theorem key_heads {item : List Nat} {k : Key} (h : (item, k) ∈ defaultRegs) :
    ∃ b t, item = b :: t ∧ (b = 27 ∨ b = 127 ∨ b = 3) := by
  rw [InputMap.defaultRegs_eq] at h
  have : (InputMap.table.all fun r => match r.1 with
      | b :: _ => decide (b = 27 ∨ b = 127 ∨ b = 3)
      | [] => false) = true := by decide +kernel
  have := List.all_eq_true.1 this _ h
  cases item with
  | nil => simp at this
  | cons b t => exact ⟨b, t, rfl, by simpa using this⟩

theorem report_head {item : List Nat} (h : IsReport item) : ∃ t, item = 27 :: t := by
  obtain ⟨_, _, _, _, rfl⟩ := h; exact ⟨_, rfl⟩

theorem mouse_head {item : List Nat} {r} (h : MouseReport item r) : ∃ t, item = 27 :: t := by
  cases h <;> exact ⟨_, rfl⟩

theorem text_head {b : Nat} {t cs : List Nat} (hp : Plain cs) (h : b :: t = utf8Text cs) :
    b < 256 ∧ b ≠ 3 ∧ b ≠ 27 ∧ b ≠ 127 ∧ ∃ c cs', cs = c :: cs' ∧ (utf8 c).head? = some b ∧
      utf8CharLength b = (utf8 c).length := by
  cases cs with
  | nil => cases h
  | cons c cs' =>
    obtain ⟨b', t', e, l, h3, h27, h127, n⟩ := utf8_first (hp c (by simp))
    have h' : b :: t = utf8 c ++ utf8Text cs' := h
    rw [e, List.cons_append, List.cons.injEq] at h'
    obtain ⟨rfl, _⟩ := h'
    exact ⟨l, h3, h27, h127, c, cs', rfl, by rw [e]; rfl, n⟩

/-- Items cut from text are its characters, and mean them. -/
theorem text_items {items : List (List Nat)} {evs : List Out} (hm : Meanings defaultRegs false items evs) :
    ∀ {cs rest : List Nat}, Plain cs → items.flatten ++ rest = utf8Text cs →
      ∃ cs1 cs2, cs = cs1 ++ cs2 ∧ items.flatten = utf8Text cs1 ∧ rest = utf8Text cs2 ∧
        typed evs = utf16Text cs1 ∧ ∀ e ∈ evs, isKeyRecord e = true := by
  induction hm with
  | nil => intro cs rest hp h; exact ⟨[], cs, rfl, rfl, h, rfl, by simp⟩
  | cons item evs items more hi _ ih =>
    intro cs rest hp h
    rw [List.flatten_cons, List.append_assoc] at h
    have noHead : ∀ {b t}, item = b :: t → (b = 27 ∨ b = 127 ∨ b = 3) → False := by
      intro b t e hb
      rw [e, List.cons_append] at h
      have := text_head hp h
      omega
    cases hi with
    | interrupt => exact (noHead rfl (.inr (.inr rfl))).elim
    | report _ hi => obtain ⟨t, e⟩ := report_head hi; exact (noHead e (.inl rfl)).elim
    | mouse _ r _ hi => obtain ⟨t, e⟩ := mouse_head hi; exact (noHead e (.inl rfl)).elim
    | key _ k _ hi => obtain ⟨b, t, e, hb⟩ := key_heads hi; exact (noHead e hb).elim
    | char _ c alt _ hc e he =>
      cases alt with
      | true => exact (noHead (b := 27) e (.inl rfl)).elim
      | false =>
        have e : item = utf8 c := e
        rw [e] at h
        obtain ⟨cs', rfl, h'⟩ := head_char hc hp h
        obtain ⟨cs1, cs2, rfl, e1, e2, e3, e4⟩ := ih (fun x hx => hp x (List.mem_cons_of_mem _ hx)) h'
        obtain ⟨k1, k2⟩ := he rfl
        refine ⟨c :: cs1, cs2, rfl, ?_, e2, ?_, ?_⟩
        · rw [List.flatten_cons, e, e1]; rfl
        · have : typed (evs ++ more) = typed evs ++ typed more := by unfold typed; rw [List.filterMap_append]
          rw [this, k2 rfl (hp c (by simp)).2.1, e3]; rfl
        · intro x hx
          rcases List.mem_append.1 hx with hx | hx
          · exact k1 x hx
          · exact e4 x hx
    | invalid _ part alt hc e =>
      cases alt with
      | true => exact (noHead (b := 27) e (.inl rfl)).elim
      | false =>
        have e : item = part := e
        obtain ⟨b, t, rfl, hn, hs⟩ := hc
        rw [e, List.cons_append] at h
        obtain ⟨l, _, _, _, c, cs', rfl, hh, n⟩ := text_head hp h
        have hsc := (hp c (by simp)).1
        rcases announced l hn with hl | hl
        · have h' : (b :: t) ++ (items.flatten ++ rest) = utf8 c ++ utf8Text cs' := h
          exact (hs c hsc (take_prefix h' (by rw [← n, hl]; rfl))).elim
        · rw [hl] at n
          exact absurd (List.eq_nil_of_length_eq_zero n.symm) (by intro e0; rw [e0] at hh; cases hh)

/-- What waits, in the middle of text, is less than a character. -/
theorem text_waits {w rest cs : List Nat} (hp : Plain cs) (h : w ++ rest = utf8Text cs)
    (hw : w = [] ∨ Beginning defaultRegs w) :
    w = [] ∨ ∃ c cs', cs = c :: cs' ∧ w.length < (utf8 c).length := by
  cases w with
  | nil => exact .inl rfl
  | cons b t =>
    rcases hw with hw | hw
    · cases hw
    · right
      rw [List.cons_append] at h
      obtain ⟨l, h3, h27, h127, c, cs', rfl, hh, n⟩ := text_head hp h
      rcases hw with ⟨more, _, hr | ⟨r, hm⟩ | ⟨k, hk⟩⟩ | ⟨part, hpart, hcut⟩
      · obtain ⟨t', e⟩ := report_head hr
        rw [List.cons_append, List.cons.injEq] at e; exact absurd e.1 h27
      · obtain ⟨t', e⟩ := mouse_head hm
        rw [List.cons_append, List.cons.injEq] at e; exact absurd e.1 h27
      · obtain ⟨b', t', e, hb⟩ := key_heads hk
        rw [List.cons_append, List.cons.injEq] at e
        omega
      · refine ⟨c, cs', rfl, ?_⟩
        rcases hpart with e | e
        · obtain ⟨b', t', e', hlen⟩ := hcut
          rw [e', List.cons.injEq] at e
          obtain ⟨rfl, rfl⟩ := e
          rw [← n, utf8CharLength_eq b l, List.length_cons]
          repeat' split
          all_goals omega
        · rw [List.cons.injEq] at e; exact absurd e.1 h27

/-- What waits is part of a text, and less than its first character. -/
structure Part (hist : List Entry) (waiting cs1 cs2 rest : List Nat) : Prop where
  read : bytesRead hist = utf8Text cs1 ++ waiting
  text : waiting ++ rest = utf8Text cs2
  part : waiting = [] ∨ ∃ c cs', cs2 = c :: cs' ∧ waiting.length < (utf8 c).length
  typed : typed (eventsSeen hist) = utf16Text cs1
  keys : ∀ e ∈ eventsSeen hist, isKeyRecord e = true

theorem utf8Text_append (a b : List Nat) : utf8Text (a ++ b) = utf8Text a ++ utf8Text b := by
  simp [utf8Text, List.flatMap_append]

theorem utf16Text_append (a b : List Nat) : utf16Text (a ++ b) = utf16Text a ++ utf16Text b := by
  simp [utf16Text, List.flatMap_append]

theorem typed_append (a b : List Out) : Spec.typed (a ++ b) = Spec.typed a ++ Spec.typed b := by
  simp [Spec.typed, List.filterMap_append]

/-- Nothing waits after whole characters. -/
theorem nothing_waits {hist : List Entry} {waiting cs1 cs2 rest : List Nat} (hp : Plain (cs1 ++ cs2))
    (h : Part hist waiting cs1 cs2 rest) (hw : WellFormedUtf8 (bytesRead hist)) : waiting = [] := by
  obtain ⟨ds, hds, e⟩ := hw
  rw [h.read] at e
  have key : ∀ (cs1 ds : List Nat), (∀ c ∈ cs1, IsScalar c) → (∀ c ∈ ds, IsScalar c) →
      utf8Text ds = utf8Text cs1 ++ waiting → ∃ es, (∀ c ∈ es, IsScalar c) ∧ waiting = utf8Text es := by
    intro cs1
    induction cs1 with
    | nil => intro ds _ h2 e; exact ⟨ds, h2, e.symm⟩
    | cons c cs1 ih =>
      intro ds h1 h2 e
      have e' : utf8 c ++ (utf8Text cs1 ++ waiting) = utf8Text ds := by
        rw [e]; simp [utf8Text, List.append_assoc]
      cases ds with
      | nil =>
        obtain ⟨b, t, e0, _⟩ := utf8_head c (h1 c (by simp))
        rw [e0] at e'; cases e'
      | cons d ds =>
        have h' : utf8 c ++ (utf8Text cs1 ++ waiting) = utf8 d ++ utf8Text ds := e'
        obtain ⟨b, t, q, _, n⟩ := utf8_head c (h1 c (by simp))
        obtain ⟨b', t', q', _, n'⟩ := utf8_head d (h2 d (by simp))
        have hbb : b = b' := by
          rw [q, q', List.cons_append, List.cons_append, List.cons.injEq] at h'
          exact h'.1
        obtain ⟨_, h4⟩ := List.append_inj h' (by rw [← n, ← n', hbb])
        exact ih ds (fun x hx => h1 x (by simp [hx])) (fun x hx => h2 x (by simp [hx])) h4.symm
  obtain ⟨es, h1, h2⟩ := key cs1 ds (fun c hc => (hp c (by simp [hc])).1) hds e
  rcases h.part with h3 | ⟨c, cs', rfl, h3⟩
  · exact h3
  · cases es with
    | nil => exact h2
    | cons d es =>
      have h4 : waiting = utf8 d ++ utf8Text es := h2
      have ht : waiting ++ rest = utf8 c ++ utf8Text cs' := h.text
      obtain ⟨b, t, q, _, n⟩ := utf8_head c (hp c (by simp)).1
      obtain ⟨b', t', q', _, n'⟩ := utf8_head d (h1 d (by simp))
      have hbb : b' = b := by
        rw [h4, q, q', List.cons_append, List.cons_append, List.cons_append, List.cons.injEq] at ht
        exact ht.1
      have : (utf8 d).length = (utf8 c).length := by rw [← n, ← n', hbb]
      rw [h4, List.length_append] at h3
      omega

theorem part_frame {hist : List Entry} {waiting cs1 cs2 rest : List Nat} (h : Part hist waiting cs1 cs2 rest)
    (e : Entry) (h1 : bytesRead [e] = []) (h2 : eventsSeen [e] = []) :
    Part (hist ++ [e]) waiting cs1 cs2 rest := by
  refine ⟨?_, h.text, h.part, ?_, ?_⟩
  · rw [bytesRead_append, h1, List.append_nil]; exact h.read
  · rw [eventsSeen_append, h2, List.append_nil]; exact h.typed
  · rw [eventsSeen_append, h2, List.append_nil]; exact h.keys

theorem wantsVt_false {hist : List Entry} (h : ∀ m, .mode m ∈ hist → m.testBit 9 = false) :
    wantsVt hist = false := by
  unfold wantsVt lastMode
  cases e : (hist.filterMap fun e => match e with | .mode m => some m | _ => none).getLast? with
  | none => rfl
  | some m =>
    rw [Option.getD_some]
    have := List.mem_of_getLast? e
    obtain ⟨x, hx, he⟩ := List.mem_filterMap.1 this
    cases x <;> simp at he
    subst he
    exact h _ hx

/-- Text in a session without VT input and without a pause of more than a second inside a character. -/
theorem text_typed {hist : List Entry} {waiting : List Nat} (h : Hears defaultRegs hist waiting) :
    ∀ {cs rest : List Nat}, Plain cs → bytesRead hist ++ rest = utf8Text cs →
      (∀ m, .mode m ∈ hist → m.testBit 9 = false) →
      (∀ pre now post, hist = pre ++ .check now :: post → Late (lastRead pre) now → WellFormedUtf8 (bytesRead pre)) →
      ∃ cs1 cs2, cs = cs1 ++ cs2 ∧ Part hist waiting cs1 cs2 rest := by
  induction h with
  | start => intro cs rest _ h _ _; exact ⟨[], cs, rfl, rfl, h, .inl rfl, rfl, by simp [eventsSeen]⟩
  | mode hist w m _ ih =>
    intro cs rest hp hb hm hc
    obtain ⟨cs1, cs2, e, p⟩ := ih hp (by simpa [bytesRead_append, bytesRead] using hb)
      (fun m hx => hm m (List.mem_append_left _ hx))
      (fun pre now post e => hc pre now (post ++ [.mode m]) (by rw [e]; simp))
    exact ⟨cs1, cs2, e, part_frame p _ rfl rfl⟩
  | window hist w r _ ih =>
    intro cs rest hp hb hm hc
    obtain ⟨cs1, cs2, e, p⟩ := ih hp (by simpa [bytesRead_append, bytesRead] using hb)
      (fun m hx => hm m (List.mem_append_left _ hx))
      (fun pre now post e => hc pre now (post ++ [.window r]) (by rw [e]; simp))
    exact ⟨cs1, cs2, e, part_frame p _ rfl rfl⟩
  | size hist w c r _ ih =>
    intro cs rest hp hb hm hc
    obtain ⟨cs1, cs2, e, p⟩ := ih hp (by simpa [bytesRead_append, bytesRead] using hb)
      (fun m hx => hm m (List.mem_append_left _ hx))
      (fun pre now post e => hc pre now (post ++ [.size c r]) (by rw [e]; simp))
    exact ⟨cs1, cs2, e, part_frame p _ rfl rfl⟩
  | early hist w now _ _ ih =>
    intro cs rest hp hb hm hc
    obtain ⟨cs1, cs2, e, p⟩ := ih hp (by simpa [bytesRead_append, bytesRead] using hb)
      (fun m hx => hm m (List.mem_append_left _ hx))
      (fun pre now' post e => hc pre now' (post ++ [.check now]) (by rw [e]; simp))
    exact ⟨cs1, cs2, e, part_frame p _ rfl rfl⟩
  | read hist w bytes now items evs w' _ cut means waits ih =>
    intro cs rest hp hb hm hc
    have hbr : bytesRead (hist ++ .read now bytes :: evs.map .event) = bytesRead hist ++ bytes := by
      rw [bytesRead_append]; simp [bytesRead, bytesRead_events]
    have hev : eventsSeen (hist ++ .read now bytes :: evs.map .event) = eventsSeen hist ++ evs := by
      rw [eventsSeen_append]; simp [eventsSeen, eventsSeen_events]
    rw [hbr, List.append_assoc] at hb
    obtain ⟨cs1, cs2, rfl, p⟩ := ih hp hb (fun m hx => hm m (List.mem_append_left _ hx))
      (fun pre now' post e => hc pre now' (post ++ .read now bytes :: evs.map .event) (by rw [e]; simp))
    have hvt : wantsVt hist = false := wantsVt_false (fun m hx => hm m (List.mem_append_left _ hx))
    rw [hvt] at means
    have h2 : Plain cs2 := fun c hc => hp c (List.mem_append_right _ hc)
    have ht : items.flatten ++ (w' ++ rest) = utf8Text cs2 := by
      rw [← p.text, ← List.append_assoc, ← cut, List.append_assoc]
    obtain ⟨ds1, ds2, rfl, e1, e2, e3, e4⟩ := text_items means h2 ht
    refine ⟨cs1 ++ ds1, ds2, by rw [List.append_assoc], ?_, e2, ?_, ?_, ?_⟩
    · rw [hbr, p.read, List.append_assoc, cut, utf8Text_append, e1, List.append_assoc]
    · exact text_waits (fun c hc => h2 c (List.mem_append_right _ hc)) e2 waits
    · rw [hev, typed_append, p.typed, e3, utf16Text_append]
    · rw [hev]
      intro x hx
      rcases List.mem_append.1 hx with hx | hx
      · exact p.keys x hx
      · exact e4 x hx
  | late hist w now items evs dropped _ due cut means part ih =>
    intro cs rest hp hb hm hc
    have hbr : bytesRead (hist ++ .check now :: evs.map .event) = bytesRead hist := by
      rw [bytesRead_append]; simp [bytesRead, bytesRead_events]
    have hev : eventsSeen (hist ++ .check now :: evs.map .event) = eventsSeen hist ++ evs := by
      rw [eventsSeen_append]; simp [eventsSeen, eventsSeen_events]
    rw [hbr] at hb
    obtain ⟨cs1, cs2, rfl, p⟩ := ih hp hb (fun m hx => hm m (List.mem_append_left _ hx))
      (fun pre now' post e => hc pre now' (post ++ .check now :: evs.map .event) (by rw [e]; simp))
    have hw := nothing_waits hp p (hc hist now _ rfl due)
    subst hw
    have hvt : wantsVt hist = false := wantsVt_false (fun m hx => hm m (List.mem_append_left _ hx))
    rw [hvt] at means
    have ht : items.flatten ++ dropped = utf8Text [] := cut.symm
    obtain ⟨ds1, ds2, e0, e1, e2, e3, e4⟩ := text_items means (by intro c hc; cases hc) ht
    obtain ⟨rfl, rfl⟩ := List.append_eq_nil_iff.1 e0.symm
    refine ⟨cs1, cs2, rfl, ?_, p.text, .inl rfl, ?_, ?_⟩
    · rw [hbr]; exact p.read
    · rw [hev, typed_append, p.typed, e3, ← utf16Text_append, List.append_nil]
    · rw [hev]
      intro x hx
      rcases List.mem_append.1 hx with hx | hx
      · exact p.keys x hx
      · exact e4 x hx

end Winpty.AgentInput
