import Verif.Props.ConsoleKeys
/-!
# C11, C12: replies of the terminal, and incomplete sequences
-/
namespace Winpty.ConsoleInput
open Winpty.Unicode Winpty.InputMap Winpty.Spec

theorem report_head {u : List Nat} (h : IsReport u) : ∃ t, u = 27 :: 91 :: t := by
  obtain ⟨row, col, _, _, rfl⟩ := h
  exact ⟨_, rfl⟩

theorem scanInput_report (sys : Sys) (root : Node) (env : Env) (s : St) {u : List Nat} (h : IsReport u)
    (rest : List Nat) (eof : Bool) :
    scanInput sys root env s (u ++ rest) eof = .consumed u.length { s with dsrSent := false } := by
  have ha := parses_dsr.accept () u rest h trivial
  obtain ⟨t, rfl⟩ := report_head h
  simp only [List.cons_append] at ha ⊢
  simp only [scanInput, scanEsc, ha]
  simp
  omega

/-- A proper prefix of a report is incomplete. -/
theorem scanInput_report_prefix (sys : Sys) (root : Node) (env : Env) (s : St) {p ext : List Nat}
    (h : IsReport (p ++ ext)) (hp : p ≠ []) (he : ext ≠ []) :
    scanInput sys root env s p false = .incomplete := by
  have ha := parses_dsr.accept () (p ++ ext) [] h trivial
  rw [List.append_nil] at ha
  have hm : matchDsr p = .incomplete := by
    cases e : matchDsr p with
    | incomplete => rfl
    | overRead => exact absurd e (good_matchDsr.safe p hp)
    | noMatch => rw [good_matchDsr.noStable p ext hp e] at ha; cases ha
    | ok a r =>
      rw [good_matchDsr.okStable p ext a r e] at ha
      simp at ha
      exact absurd ha.2 he
  obtain ⟨t, ht⟩ := report_head h
  cases p with
  | nil => exact absurd rfl hp
  | cons b p' =>
    simp only [List.cons_append, List.cons.injEq] at ht
    obtain ⟨rfl, _⟩ := ht
    simp only [scanInput, scanEsc, hm]
    simp

/-- Writing part of a report. -/
theorem write_report (sys : Sys) (root : Node) (env : Nat → Env) (now : Nat) (o : Obj) (w ext : List Nat)
    (hw : w ≠ []) (h : IsReport (o.queue ++ w ++ ext)) (hrec : o.st.records = []) :
    ∃ o', writeInput sys root env now o w = some o' ∧ events o'.st.out = events o.st.out ∧
      o'.st.records = [] ∧ (ext ≠ [] → o'.queue = o.queue ++ w) ∧
      (ext = [] → o'.queue = [] ∧ o'.st.dsrSent = false) ∧
      o'.st.mouseButtonState = o.st.mouseButtonState := by
  have hne : o.queue ++ w ≠ [] := fun h0 => hw (List.append_eq_nil_iff.1 h0).2
  have hwl : ¬ w.length = 0 := by simpa using hw
  by_cases he : ext = []
  · subst he
    rw [List.append_nil] at h
    have hs := scanInput_report sys root (env o.pos) o.st h [] false
    rw [List.append_nil] at hs
    have hl : scanLoop sys root env false (o.queue ++ w).length o.pos o.st (o.queue ++ w) =
        some ({ o.st with dsrSent := false }, []) := by
      revert hs
      cases hq : o.queue ++ w with
      | nil => exact absurd hq hne
      | cons b t => intro hs; rw [List.length_cons, scanLoop, hs]; simp [scanLoop]
    simp only [writeInput, hwl, ↓reduceIte, doWrite, hl]
    refine ⟨_, rfl, by simp [flushInputRecords, hrec], rfl, fun h0 => absurd rfl h0, fun _ => ⟨rfl, rfl⟩, rfl⟩
  · have hs := scanInput_report_prefix sys root (env o.pos) o.st h hne he
    have hl : scanLoop sys root env false (o.queue ++ w).length o.pos o.st (o.queue ++ w) =
        some (o.st, o.queue ++ w) := by
      revert hs
      cases hq : o.queue ++ w with
      | nil => exact absurd hq hne
      | cons b t => intro hs; rw [List.length_cons, scanLoop, hs]
    simp only [writeInput, hwl, ↓reduceIte, doWrite, hl]
    split
    · refine ⟨_, rfl, by simp [flushInputRecords, hrec, events], rfl, fun _ => rfl, fun h0 => absurd h0 he, rfl⟩
    · refine ⟨_, rfl, by simp [flushInputRecords, hrec], rfl, fun _ => rfl, fun h0 => absurd h0 he, rfl⟩

theorem write_reports (sys : Sys) (root : Node) (env : Nat → Env) (chunks : List (Nat × List Nat)) (o : Obj)
    (h : IsReport (o.queue ++ (chunks.map (·.2)).flatten)) (hne : (chunks.map (·.2)).flatten ≠ [])
    (hrec : o.st.records = []) :
    ∃ o', writeAll sys root env o chunks = some o' ∧ o'.queue = [] ∧ events o'.st.out = events o.st.out ∧
      o'.st.dsrSent = false ∧ o'.st.mouseButtonState = o.st.mouseButtonState ∧ o'.st.records = [] := by
  induction chunks generalizing o with
  | nil => exact absurd rfl hne
  | cons c rest ih =>
    obtain ⟨now, w⟩ := c
    by_cases hw : w = []
    · subst hw
      exact ih o h hne hrec
    · simp only [List.map_cons, List.flatten_cons] at h hne
      rw [← List.append_assoc] at h
      obtain ⟨o1, e1, e2, e3, e4, e5, e6⟩ := write_report sys root env now o w _ hw h hrec
      rw [writeAll, e1, Option.bind_some]
      by_cases he : (rest.map (·.2)).flatten = []
      · obtain ⟨e7, e8⟩ := e5 he
        refine ⟨o1, ?_, e7, e2, e8, e6, e3⟩
        clear ih h hne e4 e5
        induction rest with
        | nil => rfl
        | cons d rest ih' =>
          obtain ⟨n', w'⟩ := d
          simp only [List.map_cons, List.flatten_cons, List.append_eq_nil_iff] at he
          rw [writeAll, he.1, writeInput_empty]
          exact ih' he.2
      · rw [← e4 he] at h
        obtain ⟨o2, f1, f2, f3, f4, f5, f6⟩ := ih o1 h he e3
        exact ⟨o2, f1, f2, f3.trans e2, f4, f5.trans e6, f6⟩

/-- Status requests in what was sent so far; the pending records contain none. -/
theorem queries_append (a b : List Out) : queries (a ++ b) = queries a + queries b := by
  simp [queries, List.count_append]

theorem queries_records (rs : List Rec) : queries (rs.map Out.record) = 0 := by
  unfold queries
  rw [List.count_eq_zero]
  simp

theorem press_queries (s : St) (vk dn up w vtc vts : Nat) :
    queries (appendKeyPress s vk dn up w vtc vts).out = queries s.out ∧
    (appendKeyPress s vk dn up w vtc vts).dsrSent = s.dsrSent := by
  rw [appendKeyPress_eq]
  split
  · refine ⟨?_, rfl⟩
    simp only [flushInputRecords]
    rw [queries_append, queries_append, queries_records]
    simp [queries]
  · exact ⟨rfl, rfl⟩

theorem effect_queries {sys : Sys} {env : Env} {item : List Nat} {s s' : St} (h : Effect sys env item s s') :
    queries s'.out = queries s.out ∧ (s'.dsrSent = s.dsrSent ∨ IsReport item ∧ s'.dsrSent = false) := by
  cases h with
  | ctrlC h =>
    refine ⟨?_, .inl rfl⟩
    simp only [flushInputRecords]
    rw [queries_append, queries_append, queries_records]
    simp [queries]
  | report h => exact ⟨rfl, .inr ⟨h, rfl⟩⟩
  | mouse r h =>
    have : (handleMouse env s r).out = s.out ∧ (handleMouse env s r).dsrSent = s.dsrSent := by
      unfold handleMouse pushMouse
      simp only
      repeat' split
      all_goals exact ⟨rfl, rfl⟩
    exact ⟨by rw [this.1], .inl this.2⟩
  | key k h =>
    have := press_queries s k.virtualKey
      (if has k.keyState LEFT_CTRL_PRESSED && has k.keyState LEFT_ALT_PRESSED then 0 else k.unicodeChar)
      (if has k.keyState LEFT_ALT_PRESSED then 0 else
        (if has k.keyState LEFT_CTRL_PRESSED && has k.keyState LEFT_ALT_PRESSED then 0 else k.unicodeChar))
      k.keyState k.unicodeChar k.keyState
    exact ⟨this.1, .inl this.2⟩
  | char c alt hc hi =>
    cases alt with
    | false =>
      rw [appendChar_eq]
      have := press_queries s (charVk sys c) c c (charMods sys c) c 0
      exact ⟨this.1, .inl this.2⟩
    | true =>
      rw [appendChar_alt_eq]
      have := press_queries s (charVk sys c) (if altCut sys c then 0 else c) 0
        (charMods sys c ||| LEFT_ALT_PRESSED) c LEFT_ALT_PRESSED
      exact ⟨this.1, .inl this.2⟩
  | skip => exact ⟨rfl, .inl rfl⟩

theorem run_queries {sys : Sys} {root : Node} (hr : Holds root table) {env : Nat → Env} {eof : Bool}
    {pos : Nat} {s s' : St} {q q' : List Nat} {items : List (List Nat)}
    (h : Winpty.Props.Run sys root env eof pos s q items s' q') (hb : ∀ b ∈ q, b < 256) :
    queries s'.out = queries s.out ∧ ∃ replies : List (List Nat), replies.Sublist items ∧ (∀ r ∈ replies, IsReport r) ∧
      (if s.dsrSent then 1 else 0) ≤ replies.length + (if s'.dsrSent then 1 else 0) := by
  induction h with
  | done pos s => exact ⟨rfl, [], .slnil, by simp, by simp⟩
  | pending pos s queue h => exact ⟨rfl, [], .slnil, by simp, by simp⟩
  | step pos s s1 s2 item queue rest items hi h hr' ih =>
    have heff := scanInput_effect hr hb h
    rw [List.take_left' rfl] at heff
    obtain ⟨e1, e2⟩ := effect_queries heff
    obtain ⟨f1, replies, f2, f3, f4⟩ := ih fun b hb' => hb b (List.mem_append_right _ hb')
    refine ⟨f1.trans e1, ?_⟩
    rcases e2 with e2 | ⟨e2, e3⟩
    · exact ⟨replies, f2.cons _, f3, by rw [← e2]; exact f4⟩
    · refine ⟨item :: replies, f2.cons₂ _, ?_, ?_⟩
      · intro r hm
        rcases List.mem_cons.1 hm with rfl | hm
        · exact e2
        · exact f3 r hm
      · simp only [List.length_cons]
        split <;> omega

/-- One operation: its items, the replies among them, and what it does to the number of requests. -/
theorem exec_items {sys : Sys} {root : Node} (hr : Holds root table) {env : Nat → Env} {o o' : Obj} {op : Op}
    (h : exec sys root env o op = some o') (hq : ∀ b ∈ o.queue, b < 256) (hb : ∀ b ∈ written [op], b < 256) :
    ∃ items replies : List (List Nat), o.queue ++ written [op] = items.flatten ++ o'.queue ∧ (∀ i ∈ items, i ≠ []) ∧
      replies.Sublist items ∧ (∀ r ∈ replies, IsReport r) ∧
      queries o'.st.out + (if o.st.dsrSent then 1 else 0) ≤
        queries o.st.out + replies.length + (if o'.st.dsrSent then 1 else 0) := by
  cases op with
  | mode m =>
    cases h
    exact ⟨[], [], by simp [written], by simp, .slnil, by simp, Nat.le_refl _⟩
  | window r =>
    cases h
    exact ⟨[], [], by simp [written], by simp, .slnil, by simp, by simp⟩
  | write now bytes =>
    have hw : written [Op.write now bytes] = bytes := by simp [written]
    rw [hw] at hb ⊢
    simp only [exec, writeInput] at h
    split at h
    · rename_i h0
      have h0 : bytes = [] := by simpa using h0
      cases h
      exact ⟨[], [], by simp [h0], by simp, .slnil, by simp, by simp⟩
    · obtain ⟨s1, c, q1, h1, h2, h3, _⟩ := doWrite_total sys root env false o.pos o.st (o.queue ++ bytes)
      have hbb : ∀ b ∈ o.queue ++ bytes, b < 256 := by
        intro b hb'
        rcases List.mem_append.1 hb' with hb' | hb'
        · exact hq b hb'
        · exact hb b hb'
      obtain ⟨items, hrun⟩ := Winpty.Props.run_of_loop h2
      obtain ⟨r1, r2, _⟩ := Winpty.Props.run_flatten hrun
      obtain ⟨g1, replies, g2, g3, g4⟩ := run_queries hr hrun hbb
      have g5 : queries (flushInputRecords s1).out = queries s1.out := by
        simp only [flushInputRecords]; rw [queries_append, queries_records]; rfl
      rw [h1] at h
      simp only at h
      split at h
      · rename_i hc
        cases h
        refine ⟨items, replies, r1, r2, g2, g3, ?_⟩
        have hf : s1.dsrSent = false := by simpa [flushInputRecords] using hc.2
        rw [hf] at g4
        simp only
        rw [queries_append, g5, g1]
        have e1 : queries [Out.dsr] = 1 := rfl
        rw [e1, if_pos trivial]
        simp only [Bool.false_eq_true, if_false] at g4
        omega
      · cases h
        refine ⟨items, replies, r1, r2, g2, g3, ?_⟩
        simp only
        rw [g5, g1]
        have : (flushInputRecords s1).dsrSent = s1.dsrSent := rfl
        rw [this]
        omega
  | poll now =>
    have hw : written [Op.poll now] = [] := by simp [written]
    rw [hw, List.append_nil]
    simp only [exec, flushIncompleteEscapeCode] at h
    split at h
    · obtain ⟨s1, c, q1, h1, h2, h3, _⟩ := doWrite_total sys root env true o.pos o.st o.queue
      obtain ⟨items, hrun⟩ := Winpty.Props.run_of_loop h2
      obtain ⟨r1, r2, _⟩ := Winpty.Props.run_flatten hrun
      obtain ⟨g1, replies, g2, g3, g4⟩ := run_queries hr hrun hq
      have g5 : queries (flushInputRecords s1).out = queries s1.out := by
        simp only [flushInputRecords]; rw [queries_append, queries_records]; rfl
      rw [h1] at h
      cases h
      refine ⟨items ++ (if q1 = [] then [] else [q1]), replies, ?_, ?_, g2.trans (List.sublist_append_left _ _), g3, ?_⟩
      · rw [r1]; split <;> simp_all
      · intro i hi
        rcases List.mem_append.1 hi with hi | hi
        · exact r2 i hi
        · split at hi
          · simp at hi
          · simp at hi; subst hi; assumption
      · simp only
        rw [g5, g1]
        have : (flushInputRecords s1).dsrSent = s1.dsrSent := rfl
        rw [this]
        omega
    · cases h
      exact ⟨[], [], by simp, by simp, .slnil, by simp, by simp⟩

end Winpty.ConsoleInput

namespace Winpty.Props
open Winpty.ConsoleInput Winpty.InputMap Winpty.Spec Winpty.Unicode

/-- **C11 (a).**  A cursor position report that arrives while nothing is pending is swallowed, in any
chunking: no console event, nothing pending, and no request outstanding afterwards. -/
theorem C11_reply_swallowed (sys : Sys) (root : Node) (env : Nat → Env) (o : Obj) (hq : o.queue = [])
    (hrec : o.st.records = []) (report : List Nat) (h : IsReport report) (chunks : List (Nat × List Nat))
    (hc : (chunks.map (·.2)).flatten = report) :
    ∃ o', writeAll sys root env o chunks = some o' ∧ o'.queue = [] ∧ events o'.st.out = events o.st.out ∧
      o'.st.dsrSent = false ∧ o'.st.mouseButtonState = o.st.mouseButtonState := by
  subst hc
  obtain ⟨o', e1, e2, e3, e4, e5, _⟩ := write_reports sys root env chunks o (by rw [hq]; exact h)
    (by intro h0; rw [h0] at h; obtain ⟨t, ht⟩ := report_head h; cases ht) hrec
  exact ⟨o', e1, e2, e3, e4, e5⟩

/-- Beside C11 (a): `ESC [ 12 ; 80 R`, split in the middle. -/
example (sys : Sys) (root : Node) (env : Nat → Env) :
    ∃ o', writeAll sys root env {} [(0, [27, 91, 49, 50]), (9, [59, 56, 48, 82])] = some o' ∧ o'.queue = [] ∧
      events o'.st.out = [] := by
  obtain ⟨o', h1, h2, h3, _⟩ := C11_reply_swallowed sys root env {} rfl rfl [27, 91, 49, 50, 59, 56, 48, 82]
    ⟨[49, 50], [56, 48], by unfold IsDigits; decide, by unfold IsDigits; decide, rfl⟩
    [(0, [27, 91, 49, 50]), (9, [59, 56, 48, 82])] rfl
  exact ⟨o', h1, h2, h3⟩

/-- **C11 (b).**  A write sends at most one status request, and only if at the end something is pending;
no other operation sends one.  Afterwards one is outstanding. -/
theorem C11_query_only_when_pending (sys : Sys) (root : Node) (hr : setAll newNode defaultRegs = some root)
    (env : Nat → Env) (o o' : Obj) (hq : ∀ b ∈ o.queue, b < 256) (op : Op) (hb : ∀ b ∈ written [op], b < 256)
    (h : exec sys root env o op = some o') :
    queries o'.st.out = queries o.st.out ∨
    queries o'.st.out = queries o.st.out + 1 ∧ (∃ now bytes, op = .write now bytes) ∧ o'.queue ≠ [] ∧
      o'.st.dsrSent = true := by
  have hr := default_holds hr
  have nq : ∀ (eof : Bool) q s1 q1, (∀ b ∈ q, b < 256) → scanLoop sys root env eof q.length o.pos o.st q = some (s1, q1) →
      queries (flushInputRecords s1).out = queries o.st.out := by
    intro eof q s1 q1 hb h2
    obtain ⟨items, hrun⟩ := run_of_loop h2
    obtain ⟨g1, _⟩ := run_queries hr hrun hb
    simp only [flushInputRecords]; rw [queries_append, queries_records, g1]; rfl
  cases op with
  | mode m => cases h; exact .inl rfl
  | window r => cases h; exact .inl rfl
  | write now bytes =>
    simp only [exec, writeInput] at h
    split at h
    · cases h; exact .inl rfl
    · obtain ⟨s1, c, q1, h1, h2, _, _⟩ := doWrite_total sys root env false o.pos o.st (o.queue ++ bytes)
      have := nq false _ s1 q1 (by
        intro b hb'
        rcases List.mem_append.1 hb' with hb' | hb'
        · exact hq b hb'
        · exact hb b (by simp [written, hb'])) h2
      rw [h1] at h
      simp only at h
      split at h
      · rename_i hc
        cases h
        right
        refine ⟨?_, ⟨now, bytes, rfl⟩, hc.1, rfl⟩
        simp only
        rw [queries_append, this]; rfl
      · cases h; exact .inl this
  | poll now =>
    simp only [exec, flushIncompleteEscapeCode] at h
    split at h
    · obtain ⟨s1, c, q1, h1, h2, _, _⟩ := doWrite_total sys root env true o.pos o.st o.queue
      have := nq true _ s1 q1 hq h2
      rw [h1] at h
      cases h
      exact .inl this
    · cases h; exact .inl rfl

/-- **C11 (c).**  After any history, everything written can be cut into items and the bytes still
pending, such that the number of status requests sent exceeds the number of cursor position reports
among the items by at most one: at most one request is outstanding. -/
theorem C11_one_outstanding (sys : Sys) (root : Node) (hr : setAll newNode defaultRegs = some root)
    (env : Nat → Env) (ops : List Op) (hb : ∀ b ∈ written ops, b < 256) :
    ∃ (o : Obj) (items replies : List (List Nat)), execAll sys root env {} ops = some o ∧ written ops = items.flatten ++ o.queue ∧
      (∀ i ∈ items, i ≠ []) ∧ replies.Sublist items ∧ (∀ r ∈ replies, IsReport r) ∧
      queries o.st.out ≤ replies.length + (if o.st.dsrSent then 1 else 0) := by
  have hr := default_holds hr
  suffices H : ∀ (ops : List Op) (o : Obj), (∀ b ∈ written ops, b < 256) → (∀ b ∈ o.queue, b < 256) →
      ∃ (o' : Obj) (items replies : List (List Nat)), execAll sys root env o ops = some o' ∧ o.queue ++ written ops = items.flatten ++ o'.queue ∧
        (∀ i ∈ items, i ≠ []) ∧ replies.Sublist items ∧ (∀ r ∈ replies, IsReport r) ∧
        queries o'.st.out + (if o.st.dsrSent then 1 else 0) ≤
          queries o.st.out + replies.length + (if o'.st.dsrSent then 1 else 0) by
    obtain ⟨o, items, replies, h1, h2, h3, h4, h5, h6⟩ := H ops {} hb (by simp)
    refine ⟨o, items, replies, h1, h2, h3, h4, h5, ?_⟩
    have e0 : (if ({} : Obj).st.dsrSent = true then 1 else 0) = 0 := rfl
    have e1 : queries ({} : Obj).st.out = 0 := rfl
    rw [e0, e1] at h6
    omega
  intro ops
  induction ops with
  | nil =>
    intro o _ _
    exact ⟨o, [], [], rfl, by simp [written], by simp, .slnil, by simp, by simp⟩
  | cons op ops ih =>
    intro o hb hq
    obtain ⟨o1, h1⟩ := exec_total sys root env o op
    have hw : written (op :: ops) = written [op] ++ written ops := by cases op <;> simp [written]
    rw [hw] at hb
    obtain ⟨i1, r1, a1, a2, a3, a4, a5⟩ := exec_items hr h1 hq fun b hb' => hb b (List.mem_append_left _ hb')
    have hq1 : ∀ b ∈ o1.queue, b < 256 := by
      intro b hb'
      have : b ∈ o.queue ++ written [op] := by rw [a1]; exact List.mem_append_right _ hb'
      rcases List.mem_append.1 this with h | h
      · exact hq b h
      · exact hb b (List.mem_append_left _ h)
    obtain ⟨o2, i2, r2, b0, b1, b2, b3, b4, b5⟩ := ih o1 (fun b hb' => hb b (List.mem_append_right _ hb')) hq1
    refine ⟨o2, i1 ++ i2, r1 ++ r2, by rw [execAll, h1, Option.bind_some, b0], ?_, ?_, a3.append b3, ?_, ?_⟩
    · rw [hw, ← List.append_assoc, a1, List.append_assoc, b1, List.flatten_append, List.append_assoc]
    · intro i hi
      rcases List.mem_append.1 hi with hi | hi
      · exact a2 i hi
      · exact b2 i hi
    · intro r hm
      rcases List.mem_append.1 hm with hm | hm
      · exact a4 r hm
      · exact b4 r hm
    · rw [List.length_append]; omega

/-- **C11 (d).**  After any history, if something is pending the terminal has been asked. -/
theorem C11_asked (sys : Sys) (root : Node) (hr : setAll newNode defaultRegs = some root)
    (env : Nat → Env) (ops : List Op) (hb : ∀ b ∈ written ops, b < 256) :
    ∃ o, execAll sys root env {} ops = some o ∧ (o.queue ≠ [] → 0 < queries o.st.out) := by
  have hroot := default_holds hr
  suffices H : ∀ (ops : List Op) (o : Obj), (∀ b ∈ written ops, b < 256) → (∀ b ∈ o.queue, b < 256) →
      (o.queue ≠ [] → o.st.dsrSent = true) → (o.st.dsrSent = true → 0 < queries o.st.out) →
      ∃ o', execAll sys root env o ops = some o' ∧ (o'.queue ≠ [] → 0 < queries o'.st.out) by
    exact H ops {} hb (by simp) (by simp) (by intro h; cases h)
  intro ops
  induction ops with
  | nil => intro o _ _ h1 h2; exact ⟨o, rfl, fun h => h2 (h1 h)⟩
  | cons op ops ih =>
    intro o hb hq h1 h2
    obtain ⟨o1, e1⟩ := exec_total sys root env o op
    have hw : written (op :: ops) = written [op] ++ written ops := by cases op <;> simp [written]
    rw [hw] at hb
    have hb1 := fun b hb' => hb b (List.mem_append_left _ hb')
    have hb2 := fun b hb' => hb b (List.mem_append_right _ hb')
    have hstep : o1.queue ≠ [] → o1.st.dsrSent = true := by
      cases op with
      | mode m => cases e1; exact h1
      | window r => cases e1; exact h1
      | write now bytes =>
        simp only [exec, writeInput] at e1
        split at e1
        · cases e1; exact h1
        · split at e1
          · cases e1
          · split at e1
            · cases e1; intro _; rfl
            · rename_i hc
              cases e1
              intro hne
              simp only at hne ⊢
              simpa [hne] using hc
      | poll now =>
        simp only [exec, flushIncompleteEscapeCode] at e1
        split at e1
        · split at e1
          · cases e1
          · cases e1; intro h; exact absurd rfl h
        · cases e1; exact h1
    have hg := exec_inv hroot (P := fun s => s.dsrSent = true → 0 < queries s.out) (sys := sys) (env := env)
      (o := o) (o' := o1) (op := op) ?_ ?_ ?_ (by intro now bytes e b hb'; subst e; exact hb1 b (by simp [written, hb']))
      (fun _ _ _ h => h) (fun _ _ _ h => h) e1 hq h2
    · obtain ⟨o2, q1, q2⟩ := ih o1 hb2 hg.2 hstep hg.1
      exact ⟨o2, by rw [execAll, e1, Option.bind_some, q1], q2⟩
    · intro e item s s' hs heff
      obtain ⟨g1, g2⟩ := effect_queries heff
      intro hd
      rw [g1]
      rcases g2 with g2 | g2
      · exact hs (g2 ▸ hd)
      · rw [g2.2] at hd; cases hd
    · intro s hs hd
      simp only [flushInputRecords]
      rw [queries_append]
      have := hs hd
      omega
    · intro s _ _ _ _
      simp only
      rw [queries_append]
      show 0 < _ + 1
      omega

/-- Beside `C11_asked`: the beginning of an arrow key's sequence. -/
example (root : Node) (hr : setAll newNode defaultRegs = some root) :
    ∃ o, execAll ⟨fun _ => -1⟩ root (fun _ => ⟨0x1F7, 0, 0⟩) {} [.write 0 [27, 91]] = some o ∧
      (o.queue ≠ [] → 0 < queries o.st.out) :=
  C11_asked _ root hr _ _ (by decide)

end Winpty.Props
