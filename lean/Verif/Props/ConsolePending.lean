import Verif.Props.ConsoleReplies
import Verif.Props.DefaultInputMap
/-!
# C11 (continued), C12: pending sequences
-/
namespace Winpty.ConsoleInput
open Winpty.Unicode Winpty.InputMap Winpty.Spec
set_option maxRecDepth 100000

/-- The reports that, after an ESC, are also the sequence of a key in the table. -/
def ambiguousReports : List (List Nat) :=
  [50, 51, 52, 53, 54, 55, 56].map fun d => [27, 91, 49, 59, d, 82]

def afterEscOk (x : List Nat × Key) : Bool :=
  match x.1 with
  | 27 :: e => e != [] && (decide (matchDsr e = .noMatch) || ambiguousReports.contains e)
  | _ => true

theorem table_afterEsc : table.all afterEscOk = true := by decide +kernel

theorem ambiguous_dsr : ∀ e ∈ ambiguousReports, matchDsr e = .ok () [] := by decide

theorem afterEsc {e : List Nat} {k : Key} (h : (27 :: e, k) ∈ table) :
    e ≠ [] ∧ (matchDsr e = .noMatch ∨ e ∈ ambiguousReports) := by
  have := List.all_eq_true.1 table_afterEsc _ h
  simpa [afterEscOk] using this

/-- A table entry that agrees with `ESC report …` is one of the ambiguous ones. -/
theorem no_entry {e : List Nat} {k : Key} (h : (27 :: e, k) ∈ table) {u rest : List Nat} (hu : IsReport u)
    (hc : e <+: u ++ rest ∨ u ++ rest <+: e) : u ∈ ambiguousReports := by
  have ha := parses_dsr.accept () u rest hu trivial
  obtain ⟨hne, hm⟩ := afterEsc h
  rcases hc with ⟨t, ht⟩ | ⟨t, ht⟩
  · rcases hm with hm | hm
    · have := good_matchDsr.noStable e t hne hm
      rw [ht, ha] at this; cases this
    · have := good_matchDsr.okStable e t _ _ (ambiguous_dsr e hm)
      rw [ht, ha] at this
      simp only [List.nil_append, MRes.ok.injEq, true_and] at this
      subst this
      rw [List.append_cancel_right ht] at hm
      exact hm
  · have := good_matchDsr.okStable _ t _ _ ha
    rw [ht] at this
    rcases hm with hm | hm
    · rw [hm] at this; cases this
    · rw [ambiguous_dsr e hm] at this
      simp only [MRes.ok.injEq, true_and] at this
      obtain ⟨h1, h2⟩ := List.append_eq_nil_iff.1 this.symm
      subst h1; subst h2
      simp only [List.append_nil] at ht
      rw [ht]; exact hm

theorem lookup_escReport {root : Node} (hr : Holds root table) {u : List Nat} (hu : IsReport u)
    (hn : u ∉ ambiguousReports) (rest : List Nat) :
    (lookupKey root (27 :: (u ++ rest))).len = 0 ∧ (lookupKey root (27 :: (u ++ rest))).incomplete = false := by
  constructor
  · apply Classical.byContradiction
    intro h
    obtain ⟨hm, _⟩ := table_lookup_mem (input := 27 :: (u ++ rest)) hr (by omega)
    obtain ⟨n, hn'⟩ : ∃ n, (lookupKey root (27 :: (u ++ rest))).len = n + 1 := ⟨_, (Nat.succ_pred (by omega)).symm⟩
    rw [hn', List.take_succ_cons] at hm
    exact hn (no_entry hm hu (.inl (List.take_prefix _ _)))
  · cases h : (lookupKey root (27 :: (u ++ rest))).incomplete with
    | false => rfl
    | true =>
      obtain ⟨⟨y, k⟩, hy, hp, _⟩ := (lookupKey_spec hr (27 :: (u ++ rest))).2.1 h
      cases y with
      | nil => simp at hp
      | cons b y =>
        obtain ⟨hb, hp'⟩ := List.cons_prefix_cons.1 hp
        subst hb
        exact absurd (no_entry hy hu (.inr hp')) hn

theorem mouse_escesc (t : List Nat) : matchMouseRecord (27 :: 27 :: t) = .noMatch := by
  simp [matchMouseRecord, matchMouse1006, matchMouse1015, matchMouseDefault, expect, MRes.bind]

theorem dsr_escesc (t : List Nat) : matchDsr (27 :: 27 :: t) = .noMatch := by
  simp [matchDsr, expect, MRes.bind]

theorem scanInput_escReport (sys : Sys) {root : Node} (hr : Holds root table) (env : Env) (s : St) {u : List Nat}
    (hu : IsReport u) (hn : u ∉ ambiguousReports) (rest : List Nat) (eof : Bool) :
    scanInput sys root env s (27 :: (u ++ rest)) eof = .consumed 1 (appendChar sys s 27 false) := by
  obtain ⟨h1, h2⟩ := lookup_escReport hr hu hn rest
  obtain ⟨t, rfl⟩ := report_head hu
  simp only [List.cons_append] at h1 h2 ⊢
  simp only [scanInput, scanEsc, dsr_escesc, scanMouse, mouse_escesc, scanMap, h1, h2]
  simp [scanAlt, scanUtf8, utf8CharLength, appendUtf8Char, decodeUtf8]

/-! ## What stays pending -/

theorem cut_of_length {b : Nat} {t : List Nat} (hb : b < 256) (h : utf8CharLength b > (b :: t).length) :
    CutCharacter (b :: t) := by
  refine ⟨b, t, rfl, ?_⟩
  rw [utf8CharLength_eq b hb, List.length_cons] at h
  revert h
  repeat' split
  all_goals omega

theorem scanAlt_incomplete {sys : Sys} {s : St} {p : List Nat} (hb : ∀ b ∈ p, b < 256)
    (h : scanAlt sys s p = .incomplete) : ∃ q, (p = q ∨ p = 27 :: q) ∧ CutCharacter q := by
  have hu : scanUtf8 sys s p = .incomplete → ∃ q, (p = q ∨ p = 27 :: q) ∧ CutCharacter q := by
    intro h
    cases p with
    | nil => simp [scanUtf8] at h
    | cons b t =>
      simp only [scanUtf8] at h
      split at h
      · cases h
      · split at h
        · rename_i hl
          exact ⟨_, .inl rfl, cut_of_length (hb b (by simp)) hl⟩
        · split at h <;> cases h
  unfold scanAlt at h
  split at h
  · rename_i b r
    split at h
    · split at h
      · rename_i hl
        refine ⟨b :: r, .inr rfl, cut_of_length (hb b (by simp)) ?_⟩
        simp only [List.length_cons] at hl ⊢
        omega
      · split at h <;> cases h
    · exact hu h
  · exact hu h

/-- After the timeout only part of a character can be left. -/
theorem scanInput_incomplete_eof {sys : Sys} {root : Node} {env : Env} {s : St} {p : List Nat}
    (hb : ∀ b ∈ p, b < 256) (h : scanInput sys root env s p true = .incomplete) :
    ∃ q, (p = q ∨ p = 27 :: q) ∧ CutCharacter q := by
  have hmap : scanMap sys root s p true = .incomplete → ∃ q, (p = q ∨ p = 27 :: q) ∧ CutCharacter q := by
    intro h
    unfold scanMap at h
    simp only [Bool.not_true, Bool.false_and, Bool.false_eq_true, ↓reduceIte] at h
    split at h
    · cases h
    · exact scanAlt_incomplete hb h
  have hmouse : scanMouse sys root env s p true = .incomplete → ∃ q, (p = q ∨ p = 27 :: q) ∧ CutCharacter q := by
    intro h
    unfold scanMouse at h
    split at h
    · cases h
    · cases h
    · exact hmap h
    · exact hmap h
  cases p with
  | nil => simp [scanInput] at h
  | cons b t =>
    simp only [scanInput] at h
    split at h
    · cases h
    · split at h
      · unfold scanEsc at h
        split at h
        · cases h
        · cases h
        · exact hmouse h
        · exact hmouse h
      · exact hmap h

/-- Before it, something that more input could complete. -/
theorem scanInput_incomplete {sys : Sys} {root : Node} (hr : Holds root table) {env : Env} {s : St} {p : List Nat}
    (hb : ∀ b ∈ p, b < 256) (h : scanInput sys root env s p false = .incomplete) :
    (∃ more, more ≠ [] ∧ (IsReport (p ++ more) ∨ (∃ r, MouseReport (p ++ more) r) ∨ ∃ k, (p ++ more, k) ∈ table)) ∨
    ∃ q, (p = q ∨ p = 27 :: q) ∧ CutCharacter q := by
  have hmap : scanMap sys root s p false = .incomplete →
    (∃ more, more ≠ [] ∧ (IsReport (p ++ more) ∨ (∃ r, MouseReport (p ++ more) r) ∨ ∃ k, (p ++ more, k) ∈ table)) ∨
    ∃ q, (p = q ∨ p = 27 :: q) ∧ CutCharacter q := by
    intro h
    unfold scanMap at h
    split at h
    · rename_i hc
      simp only [Bool.not_false, Bool.true_and] at hc
      obtain ⟨⟨y, k⟩, hy, ⟨more, hm⟩, hne⟩ := (lookupKey_spec hr p).2.1 hc
      refine .inl ⟨more, ?_, .inr (.inr ⟨k, by rw [hm]; exact hy⟩)⟩
      intro h0
      subst h0
      exact hne (by simpa using hm)
    · split at h
      · cases h
      · exact .inr (scanAlt_incomplete hb h)
  have hmouse : scanMouse sys root env s p false = .incomplete →
    (∃ more, more ≠ [] ∧ (IsReport (p ++ more) ∨ (∃ r, MouseReport (p ++ more) r) ∨ ∃ k, (p ++ more, k) ∈ table)) ∨
    ∃ q, (p = q ∨ p = 27 :: q) ∧ CutCharacter q := by
    intro h
    unfold scanMouse at h
    split at h
    · cases h
    · cases h
    · rename_i hm
      obtain ⟨ext, r, he⟩ := mouse_inc hm
      refine .inl ⟨ext, ?_, .inr (.inl ⟨r, he⟩)⟩
      intro h0
      subst h0
      have := mouse_accept he []
      simp only [List.append_nil] at this
      rw [hm] at this; cases this
    · exact hmap h
  cases p with
  | nil => simp [scanInput] at h
  | cons b t =>
    simp only [scanInput] at h
    split at h
    · cases h
    · split at h
      · unfold scanEsc at h
        split at h
        · cases h
        · cases h
        · rename_i hm
          obtain ⟨ext, _, he⟩ := parses_dsr.inc _ hm
          refine .inl ⟨ext, ?_, .inl he⟩
          intro h0
          subst h0
          have := parses_dsr.accept () _ [] he trivial
          simp only [List.append_nil] at this
          rw [hm] at this; cases this
        · exact hmouse h
      · exact hmap h

end Winpty.ConsoleInput

namespace Winpty.Props
open Winpty.ConsoleInput Winpty.InputMap Winpty.Spec Winpty.Unicode

/-- **C11 (d).**  The reply to a status request that was sent because of a pending ESC: in any chunking
the reply is swallowed, and the pending ESC is delivered as an ESC key press, unless the reply is one
of `ESC [ 1 ; 2 R` … `ESC [ 1 ; 8 R`. -/
theorem C11_reply_after_escape_partial (sys : Sys) (root : Node) (hr : setAll newNode defaultRegs = some root)
    (env : Nat → Env) (o : Obj) (hq : o.queue = [27]) (hrec : o.st.records = [])
    (hvt : o.st.escapeInputEnabled = false ∨ layoutKey sys 27 ∉ specialKeys)
    (report : List Nat) (h : IsReport report) (hn : report ∉ ambiguousReports) (chunks : List (Nat × List Nat))
    (hc : (chunks.map (·.2)).flatten = report) :
    ∃ o' new, writeAll sys root env o chunks = some o' ∧ o'.queue = [] ∧
      events o'.st.out = events o.st.out ++ new ∧ typed new = [27] ∧ ∀ e ∈ new, isKeyRecord e = true := by
  have hne : (chunks.map (·.2)).flatten ≠ [] := by
    rw [hc]; obtain ⟨t, rfl⟩ := report_head h; simp
  obtain ⟨o1, s1, q1, e1, e2, e3, e4, _, e6⟩ := writeAll_spec (sys := sys) (default_wf hr) env chunks o hne
  rw [hc, hq, List.singleton_append] at e2
  have hs1 := scanInput_escReport sys (default_holds hr) (env o.pos) o.st h hn [] false
  have hs2 := scanInput_report sys root (env (o.pos + 1)) (appendChar sys o.st 27 false) h [] false
  rw [List.append_nil] at hs1 hs2
  obtain ⟨t, ht⟩ := report_head h
  have hl : scanLoop sys root env false (27 :: report).length o.pos o.st (27 :: report) =
      some ({ appendChar sys o.st 27 false with dsrSent := false }, []) := by
    rw [List.length_cons, scanLoop, hs1]
    simp only [List.drop_succ_cons, List.drop_zero]
    rw [ht] at hs2 ⊢
    rw [List.length_cons, scanLoop, hs2]
    simp [scanLoop]
  rw [hl] at e2
  cases e2
  obtain ⟨rs, f1, f2, f3⟩ := appendChar_text sys o.st 27 (by unfold IsScalar; omega) (by omega) hvt
  refine ⟨o1, rs.map Out.record, e1, e4, ?_, f2, f3⟩
  have hR := ((R_iff _ _).1 e3).2.2.2.2.2.2.2
  rw [f1] at hR
  simp only [e6, hrec, List.map_nil, List.append_nil, List.nil_append] at hR
  have hf : (rs.map Out.record).filter (· ≠ Out.dsr) = rs.map Out.record := by
    apply List.filter_eq_self.2
    intro e he
    simp only [List.mem_map] at he
    obtain ⟨r, _, rfl⟩ := he
    simp
  unfold events
  rw [hR, List.filter_append, hf]

/-- Beside C11 (d): ESC, then `ESC [ 12 ; 80 R`. -/
example (root : Node) (hr : setAll newNode defaultRegs = some root) :
    ∃ o o' new, writeInput ⟨fun _ => -1⟩ root (fun _ => ⟨0, 0, 0⟩) 0 {} [27] = some o ∧
      writeAll ⟨fun _ => -1⟩ root (fun _ => ⟨0, 0, 0⟩) o [(5, [27, 91, 49]), (6, [50, 59, 56, 48, 82])] = some o' ∧
      o'.queue = [] ∧ events o'.st.out = new ∧ typed new = [27] := by
  obtain ⟨o', new, h1, h2, h3, h4, _⟩ := C11_reply_after_escape_partial ⟨fun _ => -1⟩ root hr (fun _ => ⟨0, 0, 0⟩)
    { st := { dsrSent := true, out := [.dsr] }, queue := [27] } rfl rfl (.inl rfl) [27, 91, 49, 50, 59, 56, 48, 82]
    ⟨[49, 50], [56, 48], by unfold IsDigits; decide, by unfold IsDigits; decide, rfl⟩ (by decide)
    [(5, [27, 91, 49]), (6, [50, 59, 56, 48, 82])] rfl
  exact ⟨_, o', new, rfl, h1, h2, h3, h4⟩

theorem altF3_entry : ([27, 27, 91, 49, 59, 50, 82], Key.mk 0x72 0 0x12) ∈ defaultRegs := by
  rw [defaultRegs_eq]
  have h : (table.any fun r => seqEq r.1 [27, 27, 91, 49, 59, 50, 82] &&
    decide (r.2 = Key.mk 0x72 0 0x12)) = true := by decide +kernel
  obtain ⟨r, hr, he⟩ := List.any_eq_true.1 h
  rw [Bool.and_eq_true, decide_eq_true_eq] at he
  rw [← seqEq_eq he.1, ← he.2]; exact hr

/-- **C11 fails here.**  ESC is typed, so a status request is sent; the cursor is in row 1, column 2, and
the terminal replies `ESC [ 1 ; 2 R`.  The agent takes ESC and the reply together for Alt-Shift-F3: the
console receives that key press instead of the ESC key, and the request stays outstanding. -/
theorem C11_reply_mistaken (root : Node) (hr : setAll newNode defaultRegs = some root) (env : Nat → Env) :
    IsReport [27, 91, 49, 59, 50, 82] ∧
    ∃ o o', writeInput ⟨fun _ => -1⟩ root env 0 {} [27] = some o ∧ queries o.st.out = 1 ∧
      writeInput ⟨fun _ => -1⟩ root env 1 o [27, 91, 49, 59, 50, 82] = some o' ∧
      .record (.key true 0x72 0 0x12) ∈ events o'.st.out ∧ typed o'.st.out = [] ∧ o'.st.dsrSent = true := by
  refine ⟨⟨[49], [50], by unfold IsDigits; decide, by unfold IsDigits; decide, rfl⟩, { st := { dsrSent := true, out := [.dsr] }, queue := [27] }, ?_⟩
  have hl := table_lookup (default_holds hr) (x := ([27, 27, 91, 49, 59, 50, 82], Key.mk 0x72 0 0x12))
    (by rw [← defaultRegs_eq]; exact altF3_entry) []
  simp only [List.append_nil] at hl
  have hs : ∀ e s, scanInput ⟨fun _ => -1⟩ root e s [27, 27, 91, 49, 59, 50, 82] false =
      .consumed 7 (appendMatch s (Key.mk 0x72 0 0x12)) := by
    intro e s
    simp only [scanInput, scanEsc, dsr_escesc, scanMouse, mouse_escesc, scanMap, hl]
    simp
  have hw : writeInput ⟨fun _ => -1⟩ root env 1 { st := { dsrSent := true, out := [.dsr] }, queue := [27] }
      [27, 91, 49, 59, 50, 82] = some { st := (flushInputRecords
        (appendMatch { dsrSent := true, out := [.dsr] } (Key.mk 0x72 0 0x12))), queue := [], pos := 7, lastTick := 1 } := by
    simp [writeInput, doWrite, scanLoop, hs]
  exact ⟨_, rfl, rfl, hw, by decide, by decide, by decide⟩

/-! ## C12 -/

/-- **C12 (a).**  Polls within a second of the last write (by the 32-bit millisecond clock, which may
wrap around) change nothing: what is pending is kept. -/
theorem C12_kept (sys : Sys) (root : Node) (env : Nat → Env) (o o' : Obj) (written polled : Nat)
    (bytes : List Nat) (hb : bytes ≠ []) (h : writeInput sys root env written o bytes = some o')
    (delay : Nat) (hd : delay ≤ 1000) (hp : polled = (written + delay) % 2 ^ 32) (hw : written < 2 ^ 32) :
    flushIncompleteEscapeCode sys root env polled o' = some o' := by
  have hl : o'.lastTick = written := by
    unfold writeInput at h
    rw [if_neg (by simpa using hb)] at h
    split at h
    · cases h
    · split at h <;> (cases h; rfl)
  unfold flushIncompleteEscapeCode kIncompleteEscapeTimeoutMs
  rw [if_neg]
  rintro ⟨_, hlt⟩
  rw [hl, hp] at hlt
  omega

/-- **C12 (b).**  A poll more than a second (and less than 49 days) after the last write empties what is
pending.  All of it is cut into items which are handled one after the other like any input, except that
the last bytes are dropped if they are only a part of a character (possibly after an ESC). -/
theorem C12_timeout_partial (sys : Sys) (root : Node) (env : Nat → Env) (o : Obj)
    (hq : ∀ b ∈ o.queue, b < 256) (hl : o.lastTick < 2 ^ 32)
    (polled delay : Nat) (hd : 1000 < delay) (hd' : delay < 2 ^ 32) (hp : polled = (o.lastTick + delay) % 2 ^ 32) :
    ∃ o' items s' cut, flushIncompleteEscapeCode sys root env polled o = some o' ∧ o'.queue = [] ∧
      Run sys root env true o.pos o.st o.queue items s' cut ∧ o.queue = items.flatten ++ cut ∧
      (cut = [] ∨ ∃ part, (cut = part ∨ cut = 27 :: part) ∧ CutCharacter part) ∧
      (o.queue ≠ [] → o'.st = flushInputRecords s') := by
  obtain ⟨s1, c, q1, h1, h2, h3, h4⟩ := doWrite_total sys root env true o.pos o.st o.queue
  obtain ⟨items, hrun⟩ := run_of_loop h2
  obtain ⟨r1, r2, r3⟩ := run_flatten hrun
  have hcut : q1 = [] ∨ ∃ part, (q1 = part ∨ q1 = 27 :: part) ∧ CutCharacter part := by
    rcases r3 with r3 | r3
    · exact .inl r3
    · exact .inr (scanInput_incomplete_eof (fun b hb => hq b (by rw [r1]; exact List.mem_append_right _ hb)) r3)
  by_cases hne : o.queue = []
  · exact ⟨o, items, s1, q1, by simp [flushIncompleteEscapeCode, hne], hne, hrun, r1, hcut, fun h => absurd hne h⟩
  · refine ⟨{ o with st := flushInputRecords s1, queue := [], pos := o.pos + o.queue.length }, items, s1, q1, ?_,
      rfl, hrun, r1, hcut, fun _ => rfl⟩
    · unfold flushIncompleteEscapeCode kIncompleteEscapeTimeoutMs
      rw [if_pos ⟨hne, by omega⟩, h1]

/-- Pending ASCII (every escape sequence is) is used up completely: nothing is dropped. -/
theorem C12_timeout_ascii (sys : Sys) (root : Node) (env : Nat → Env) (o : Obj)
    (hq : ∀ b ∈ o.queue, b < 128) (hl : o.lastTick < 2 ^ 32)
    (polled delay : Nat) (hd : 1000 < delay) (hd' : delay < 2 ^ 32) (hp : polled = (o.lastTick + delay) % 2 ^ 32) :
    ∃ o' items s', flushIncompleteEscapeCode sys root env polled o = some o' ∧ o'.queue = [] ∧
      Run sys root env true o.pos o.st o.queue items s' [] ∧ o.queue = items.flatten ∧
      (o.queue ≠ [] → o'.st = flushInputRecords s') := by
  obtain ⟨o', items, s', cut, h1, h2, h3, h4, h5, h6⟩ := C12_timeout_partial sys root env o
    (fun b hb => Nat.lt_trans (hq b hb) (by decide)) hl polled delay hd hd' hp
  have hc : cut = [] := by
    rcases h5 with h5 | ⟨part, h5, b, t, rfl, hb⟩
    · exact h5
    · have : b < 128 := hq b (by rw [h4]; rcases h5 with rfl | rfl <;> simp)
      omega
  subst hc
  exact ⟨o', items, s', h1, h2, h3, by simpa using h4, h6⟩

/-- A lone ESC, typed by the user, arrives as an ESC key press after the timeout. -/
theorem C12_escape_key (sys : Sys) (root : Node) (hr : setAll newNode defaultRegs = some root) (env : Nat → Env)
    (o : Obj) (hq : o.queue = [27]) (hrec : o.st.records = [])
    (hvt : o.st.escapeInputEnabled = false ∨ layoutKey sys 27 ∉ specialKeys) (hl : o.lastTick < 2 ^ 32)
    (polled delay : Nat) (hd : 1000 < delay) (hd' : delay < 2 ^ 32) (hp : polled = (o.lastTick + delay) % 2 ^ 32) :
    ∃ o' new, flushIncompleteEscapeCode sys root env polled o = some o' ∧ o'.queue = [] ∧
      events o'.st.out = events o.st.out ++ new ∧ typed new = [27] ∧ ∀ e ∈ new, isKeyRecord e = true := by
  have hlen : (lookupKey root [27]).len = 0 := by
    apply Classical.byContradiction
    intro h
    obtain ⟨hm, hle⟩ := table_lookup_mem (input := [27]) (default_holds hr) (by omega)
    simp only [List.length_singleton] at hle
    rw [show (lookupKey root [27]).len = 1 by omega] at hm
    exact (afterEsc hm).1 rfl
  have hs : scanInput sys root (env o.pos) o.st [27] true = .consumed 1 (appendChar sys o.st 27 false) := by
    simp only [scanInput, scanEsc, scanMouse, scanMap, hlen]
    simp [scanAlt, scanUtf8, utf8CharLength, appendUtf8Char, decodeUtf8, matchDsr, matchMouseRecord,
      matchMouse1006, expect, MRes.bind]
  obtain ⟨rs, f1, f2, f3⟩ := appendChar_text sys o.st 27 (by unfold IsScalar; omega) (by omega) hvt
  have hf : (rs.map Out.record).filter (· ≠ Out.dsr) = rs.map Out.record := by
    apply List.filter_eq_self.2
    intro e he
    simp only [List.mem_map] at he
    obtain ⟨r, _, rfl⟩ := he
    simp
  refine ⟨{ o with st := flushInputRecords (appendChar sys o.st 27 false), queue := [], pos := o.pos + 1 },
    rs.map Out.record, ?_, rfl, ?_, f2, f3⟩
  · unfold flushIncompleteEscapeCode kIncompleteEscapeTimeoutMs
    rw [if_pos ⟨by simp [hq], by omega⟩, hq]
    simp [doWrite, scanLoop, hs]
  · simp only [flushInputRecords, f1, hrec, List.nil_append, events]
    rw [List.filter_append, hf]

/-- Beside C12: ESC at 50 ms before the clock wraps around, polls 900 ms and 1100 ms later. -/
example (root : Node) (hr : setAll newNode defaultRegs = some root) :
    ∃ o o' new, writeInput ⟨fun _ => -1⟩ root (fun _ => ⟨0, 0, 0⟩) 4294967246 {} [27] = some o ∧
      flushIncompleteEscapeCode ⟨fun _ => -1⟩ root (fun _ => ⟨0, 0, 0⟩) 850 o = some o ∧
      flushIncompleteEscapeCode ⟨fun _ => -1⟩ root (fun _ => ⟨0, 0, 0⟩) 1050 o = some o' ∧
      o'.queue = [] ∧ events o'.st.out = new ∧ typed new = [27] := by
  have hw : writeInput ⟨fun _ => -1⟩ root (fun _ => ⟨0, 0, 0⟩) 4294967246 {} [27] =
    some { st := { dsrSent := true, out := [.dsr] }, queue := [27], lastTick := 4294967246 } := rfl
  obtain ⟨o', new, h1, h2, h3, h4, _⟩ := C12_escape_key ⟨fun _ => -1⟩ root hr (fun _ => ⟨0, 0, 0⟩)
    { st := { dsrSent := true, out := [.dsr] }, queue := [27], lastTick := 4294967246 } rfl rfl (.inl rfl)
    (by decide) 1050 1100 (by decide) (by decide) (by decide)
  exact ⟨_, o', new, hw, C12_kept _ root _ _ _ 4294967246 850 [27] (by decide) hw 900 (by decide) (by decide) (by decide),
    h1, h2, h3, h4⟩

/-- **C12 fails here.**  The first byte of a two-byte character is pending for longer than a second: it is
dropped without any console input, and when the second byte arrives it is dropped, too. -/
theorem C12_dropped (sys : Sys) (root : Node) (hr : setAll newNode defaultRegs = some root) (env : Nat → Env) :
    ∃ o o' o'', writeInput sys root env 0 {} [0xC3] = some o ∧ o.queue = [0xC3] ∧
      flushIncompleteEscapeCode sys root env 1001 o = some o' ∧ o'.queue = [] ∧ events o'.st.out = [] ∧
      writeInput sys root env 1002 o' [0xA9] = some o'' ∧ o''.queue = [] ∧ events o''.st.out = [] := by
  obtain ⟨l1, l2⟩ := table_lookup_none (default_holds hr) (b := 0xC3) [] (by decide) (by decide) (by decide)
  obtain ⟨l3, l4⟩ := table_lookup_none (default_holds hr) (b := 0xA9) [] (by decide) (by decide) (by decide)
  have hs : ∀ e s eof, scanInput sys root e s [0xC3] eof = .incomplete := by
    intro e s eof
    simp only [scanInput, scanMap, l1, l2]
    simp [scanAlt, scanUtf8, utf8CharLength]
  have hs' : ∀ e s eof, scanInput sys root e s [0xA9] eof = .consumed 1 s := by
    intro e s eof
    simp only [scanInput, scanMap, l3, l4]
    simp [scanAlt, scanUtf8, utf8CharLength]
  refine ⟨{ st := { dsrSent := true, out := [.dsr] }, queue := [0xC3] },
    { st := { dsrSent := true, out := [.dsr] }, queue := [], pos := 1 },
    { st := { dsrSent := true, out := [.dsr] }, queue := [], pos := 2, lastTick := 1002 }, ?_, rfl, ?_, rfl, rfl, ?_, rfl, rfl⟩
  · simp [writeInput, doWrite, scanLoop, hs, flushInputRecords]
  · simp [flushIncompleteEscapeCode, kIncompleteEscapeTimeoutMs, doWrite, scanLoop, hs, flushInputRecords]
  · simp [writeInput, doWrite, scanLoop, hs', flushInputRecords]

/-- **C12 (c).**  Complete input is never delayed: what is pending after a write is the proper beginning
of a report, a mouse report or a key sequence, or part of a character (possibly after an ESC). -/
theorem C12_never_delayed (sys : Sys) (root : Node) (hr : setAll newNode defaultRegs = some root)
    (env : Nat → Env) (now : Nat) (o o' : Obj) (hq : ∀ b ∈ o.queue, b < 256) (bytes : List Nat)
    (hb : ∀ b ∈ bytes, b < 256) (hne : bytes ≠ []) (h : writeInput sys root env now o bytes = some o') :
    o'.queue = [] ∨
    (∃ more, more ≠ [] ∧ (IsReport (o'.queue ++ more) ∨ (∃ r, MouseReport (o'.queue ++ more) r) ∨
      ∃ k, (o'.queue ++ more, k) ∈ defaultRegs)) ∨
    ∃ part, (o'.queue = part ∨ o'.queue = 27 :: part) ∧ CutCharacter part := by
  obtain ⟨o1, items, s', e1, _, e3, _, _, e6, _⟩ := C08_each_byte_once sys root env now o bytes hne
  rw [h] at e1
  cases e1
  rcases e6 with e6 | e6
  · exact .inl e6
  · rw [defaultRegs_eq]
    refine .inr (scanInput_incomplete (default_holds hr) ?_ e6)
    intro b hb'
    have : b ∈ o.queue ++ bytes := by rw [e3]; exact List.mem_append_right _ hb'
    rcases List.mem_append.1 this with h | h
    · exact hq b h
    · exact hb b h

/-- Beside C12 (c): after `ESC [ 1 5`, which is the beginning of the F5 key's sequence. -/
example (root : Node) :
    ∃ o', writeInput ⟨fun _ => -1⟩ root (fun _ => ⟨0, 0, 0⟩) 3 {} [27, 91, 49, 53] = some o' ∧
      o'.queue = [27, 91, 49, 53] :=
  ⟨_, rfl, rfl⟩

end Winpty.Props
