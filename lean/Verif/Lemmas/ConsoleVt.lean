import Verif.Props.ConsoleMouse
/-!
# How the key table's own sequences are scanned and re-encoded
-/
namespace Winpty.ConsoleInput
open Winpty.Unicode Winpty.InputMap Winpty.Spec Winpty.Props

/-- How the scanner's earlier stages treat a sequence of the key table. -/
def entryFree (x : List Nat × Key) : Bool :=
  match x.1 with
  | 27 :: _ => (decide (matchDsr x.1 = .noMatch) || ambiguousReports.contains x.1) &&
      (decide (matchMouseRecord x.1 = .noMatch) || x.1 == [27, 91, 77])
  | [] => false
  | _ => true

theorem table_entryFree : table.all entryFree = true := by decide +kernel

theorem ambiguous_isReport {u : List Nat} (h : u ∈ ambiguousReports) : IsReport u := by
  obtain ⟨w, e, h1⟩ := parses_dsr.ok _ _ _ (ambiguous_dsr u h)
  rw [List.append_nil] at e
  exact e ▸ h1

theorem entry_free {u : List Nat} {k : Key} (h : (u, k) ∈ table) (hr : ¬ IsReport u) (hm : u ≠ [27, 91, 77]) :
    u ≠ [] ∧ (∀ t, u = 27 :: t → matchDsr u = .noMatch ∧ matchMouseRecord u = .noMatch) := by
  have := List.all_eq_true.1 table_entryFree _ h
  refine ⟨by rintro rfl; simp [entryFree] at this, ?_⟩
  rintro t rfl
  simp only [entryFree, Bool.and_eq_true, Bool.or_eq_true, decide_eq_true_eq, beq_iff_eq,
    List.contains_iff_mem] at this
  obtain ⟨h1, h2⟩ := this
  exact ⟨h1.resolve_right fun h => hr (ambiguous_isReport h), h2.resolve_right hm⟩

theorem scanInput_key (sys : Sys) {root : Node} (hr : Holds root table) (env : Env) (s : St) {u : List Nat} {k : Key}
    (h : (u, k) ∈ table) (hrep : ¬ IsReport u) (hm : u ≠ [27, 91, 77]) (h3 : u ≠ [3] ∨ env.mode &&& 1 = 0) :
    scanInput sys root env s u false = .consumed u.length (appendMatch s k) := by
  obtain ⟨hne, hesc⟩ := entry_free h hrep hm
  have hl := table_lookup hr h []
  rw [List.append_nil] at hl
  have hmap : scanMap sys root s u false = .consumed u.length (appendMatch s k) := by
    simp only [scanMap, hl, Bool.not_false, Bool.and_false, Bool.false_eq_true, ↓reduceIte]
    rw [if_pos (List.length_pos_iff.2 hne)]
  cases u with
  | nil => exact absurd rfl hne
  | cons b t =>
    have hc3 : ¬ (b = 3 ∧ env.mode &&& ENABLE_PROCESSED_INPUT ≠ 0) := by
      rintro ⟨rfl, hmode⟩
      rcases h3 with h3 | h3
      · have hz : (table.all fun x => match x.1 with | 3 :: a :: _ => false | _ => true) = true := by decide +kernel
        have := List.all_eq_true.1 hz _ h
        cases t with
        | nil => exact h3 rfl
        | cons a t => simp at this
      · exact hmode h3
    simp only [scanInput]
    rw [if_neg hc3]
    split
    · rename_i hb
      subst hb
      obtain ⟨d1, d2⟩ := hesc t rfl
      simp only [scanEsc, d1, scanMouse, d2]
      exact hmap
    · exact hmap

/-- What the console is given for a key of the table. -/
def keyEvents (vt : Bool) (k : Key) : List Out :=
  if asMessage vt k.virtualKey k.keyState then [.keyMsg true k.virtualKey, .keyMsg false k.virtualKey]
  else (pressRecs vt k.virtualKey
    (if has k.keyState LEFT_CTRL_PRESSED && has k.keyState LEFT_ALT_PRESSED then 0 else k.unicodeChar)
    (if has k.keyState LEFT_ALT_PRESSED then 0 else
      (if has k.keyState LEFT_CTRL_PRESSED && has k.keyState LEFT_ALT_PRESSED then 0 else k.unicodeChar))
    k.keyState k.unicodeChar k.keyState).map .record

/-- A sequence of the key table, written in any chunks while nothing is pending. -/
theorem write_key (sys : Sys) {root : Node} (hr : setAll newNode defaultRegs = some root) (env : Nat → Env)
    (o : Obj) (hq : o.queue = []) (hrec : o.st.records = []) {u : List Nat} {k : Key}
    (h : (u, k) ∈ table) (hrep : ¬ IsReport u) (hm : u ≠ [27, 91, 77]) (h3 : u ≠ [3] ∨ ∀ i, (env i).mode &&& 1 = 0)
    (chunks : List (Nat × List Nat)) (hc : (chunks.map (·.2)).flatten = u) :
    ∃ o', writeAll sys root env o chunks = some o' ∧ o'.queue = [] ∧ o'.st.records = [] ∧
      o'.st.escapeInputEnabled = o.st.escapeInputEnabled ∧
      events o'.st.out = events o.st.out ++ keyEvents o.st.escapeInputEnabled k := by
  have hne := (entry_free h hrep hm).1
  obtain ⟨o1, s1, q1, e1, e2, e3, e4, e5, e6⟩ := writeAll_spec (sys := sys) (default_wf hr) env chunks o
    (by rw [hc]; exact hne)
  rw [hc, hq, List.nil_append] at e2
  have hs := scanInput_key sys (default_holds hr) (env o.pos) o.st h hrep hm (h3.imp_right fun h => h _)
  have hl : scanLoop sys root env false u.length o.pos o.st u = some (appendMatch o.st k, []) := by
    revert hs
    cases u with
    | nil => exact absurd rfl hne
    | cons b t => intro hs; rw [List.length_cons, scanLoop, hs]; simp [scanLoop]
  rw [hl] at e2
  cases e2
  have hR := (R_iff _ _).1 e3
  have hk : appendMatch o.st k = appendKeyPress o.st k.virtualKey
    (if has k.keyState LEFT_CTRL_PRESSED && has k.keyState LEFT_ALT_PRESSED then 0 else k.unicodeChar)
    (if has k.keyState LEFT_ALT_PRESSED then 0 else
      (if has k.keyState LEFT_CTRL_PRESSED && has k.keyState LEFT_ALT_PRESSED then 0 else k.unicodeChar))
    k.keyState k.unicodeChar k.keyState := rfl
  obtain ⟨p1, p2⟩ := sent_press o.st k.virtualKey
    (if has k.keyState LEFT_CTRL_PRESSED && has k.keyState LEFT_ALT_PRESSED then 0 else k.unicodeChar)
    (if has k.keyState LEFT_ALT_PRESSED then 0 else
      (if has k.keyState LEFT_CTRL_PRESSED && has k.keyState LEFT_ALT_PRESSED then 0 else k.unicodeChar))
    k.keyState k.unicodeChar k.keyState
  rw [← hk] at p1 p2
  refine ⟨o1, e1, e4, e6, hR.2.2.2.2.2.1.trans p2, ?_⟩
  have hR := hR.2.2.2.2.2.2.2
  have hs1 : o1.st.out ++ o1.st.records.map Out.record = o1.st.out := by rw [e6]; simp
  have hs2 : sent o.st = o.st.out := by unfold sent; rw [hrec]; simp
  have hf : (keyEvents o.st.escapeInputEnabled k).filter (· ≠ Out.dsr) = keyEvents o.st.escapeInputEnabled k := by
    apply List.filter_eq_self.2
    intro e he
    unfold keyEvents at he
    split at he
    · simp at he; rcases he with rfl | rfl <;> simp
    · simp only [List.mem_map] at he
      obtain ⟨r, _, rfl⟩ := he
      simp
  rw [hs1] at hR
  have hsent : sent (appendMatch o.st k) = o.st.out ++ keyEvents o.st.escapeInputEnabled k := by
    rw [p1, hs2]; rfl
  unfold sent at hsent
  rw [hsent, List.filter_append, hf] at hR
  exact hR

/-- The modifier words the key table uses. -/
def tableStates : List Nat := [0, 2, 8, 10, 16, 18, 24, 26].flatMap fun m => [m, m + 0x100]

def specialOk (x : List Nat × Key) : Bool :=
  !specialKeys.contains x.2.virtualKey || (x.2.unicodeChar == (if x.2.virtualKey = 8 then 8 else 0) &&
    tableStates.contains x.2.keyState && (x.2.virtualKey != 8 || x.2.keyState &&& 0x18 == 0))

theorem table_special : table.all specialOk = true := by decide +kernel

/-- The same key with the same Shift, Alt and Ctrl, as the table knows it. -/
def backOk (entries : List (List Nat × Key)) (vk st : Nat) : Bool :=
  entries.any (fun r => Nat.beq (Nat.land r.2.keyState 0xFF) (Nat.land st 0xFF) &&
    (seqEq r.1 (reencodeChars vk (if vk = 8 then 8 else 0) st) &&
      Nat.beq r.2.unicodeChar (if vk = 8 then 8 else 0))) &&
  decide (matchDsr (reencodeChars vk (if vk = 8 then 8 else 0) st) = .noMatch)

theorem back_check' : (specialKeys.all fun vk => forceList (entriesOf vk) fun entries => tableStates.all fun st =>
    (vk == 8 && st &&& 0x18 != 0) || backOk entries vk st) = true := by decide +kernel

theorem back_check : (specialKeys.all fun vk => tableStates.all fun st =>
    (vk == 8 && st &&& 0x18 != 0) || backOk (entriesOf vk) vk st) = true := by
  have h := back_check'
  simp only [forceList_eq] at h
  exact h

theorem back {u : List Nat} {k : Key} (h : (u, k) ∈ table) (hs : k.virtualKey ∈ specialKeys) :
    ∃ k', (reencodeChars k.virtualKey k.unicodeChar k.keyState, k') ∈ table ∧ k'.virtualKey = k.virtualKey ∧
      k'.unicodeChar = k.unicodeChar ∧ k'.keyState &&& 0xFF = k.keyState &&& 0xFF ∧
      k.keyState ∈ tableStates ∧ k'.keyState ∈ tableStates ∧
      ¬ IsReport (reencodeChars k.virtualKey k.unicodeChar k.keyState) ∧
      k.unicodeChar = (if k.virtualKey = 8 then 8 else 0) ∧ (k.virtualKey ≠ 8 ∨ k.keyState &&& 0x18 = 0) := by
  have hok : ∀ {u : List Nat} {k : Key}, (u, k) ∈ table → k.virtualKey ∈ specialKeys →
      k.unicodeChar = (if k.virtualKey = 8 then 8 else 0) ∧ k.keyState ∈ tableStates ∧
      (k.virtualKey ≠ 8 ∨ k.keyState &&& 0x18 = 0) := by
    intro u k h hs
    have := List.all_eq_true.1 table_special _ h
    simp only [specialOk, List.contains_iff_mem, Bool.or_eq_true, Bool.and_eq_true, Bool.not_eq_true',
      beq_iff_eq, bne_iff_ne] at this
    rcases this with h | h
    · rw [← Bool.not_eq_true, List.contains_iff_mem] at h; exact absurd hs h
    · exact ⟨h.1.1, h.1.2, h.2⟩
  obtain ⟨h1, h2, h3⟩ := hok h hs
  have := List.all_eq_true.1 (List.all_eq_true.1 back_check _ hs) _ h2
  simp only [Bool.or_eq_true, Bool.and_eq_true, beq_iff_eq, bne_iff_ne] at this
  rcases this with hx | hx
  · rcases h3 with h3 | h3
    · exact absurd hx.1 h3
    · exact absurd h3 hx.2
  · unfold backOk at hx
    rw [← h1, Bool.and_eq_true, decide_eq_true_eq, List.any_eq_true] at hx
    obtain ⟨⟨⟨v, k'⟩, hm, hx⟩, hd⟩ := hx
    simp only [Bool.and_eq_true] at hx
    obtain ⟨x4, x1, x3⟩ := hx
    unfold entriesOf at hm
    rw [List.mem_filter] at hm
    obtain ⟨hm, x2⟩ := hm
    have x2 := Nat.eq_of_beq_eq_true x2
    have x3 := Nat.eq_of_beq_eq_true x3
    have x4 := Nat.eq_of_beq_eq_true x4
    rw [seqEq_eq x1] at hm
    refine ⟨k', hm, x2, x3, x4, h2, (hok hm (by rw [x2]; exact hs)).2.1, ?_, h1, h3⟩
    intro hr
    have := parses_dsr.accept () _ [] hr trivial
    rw [List.append_nil, hd] at this
    cases this

end Winpty.ConsoleInput
