import Verif.Lemmas.DumpInputMap
import Verif.Lemmas.DefaultInputMap
import Verif.Props.InputMap

/-!
# C87: the dump of the key table
-/
namespace Winpty.Props
open Winpty.InputMap Winpty.Spec Winpty.Spec.DumpInputMap
open Winpty.ShowInput (keyToString)

/-- **C87.** After any registrations, the dump has one line for each sequence that stands for a key, none for others,
in the order of the bytes; the line shows the sequence and its key. -/
theorem C87_complete (regs : List (List Nat × Key)) (hv : ValidRegs regs) :
    ∃ root, ∃ keys : List (List Nat × Key), setAll newNode regs = some root ∧ (∀ seq k, (seq, k) ∈ keys ↔ Maps regs seq k) ∧
      keys.Pairwise (fun a b => a.1 < b.1) ∧
      dumpInputMap root = keys.map fun e => line e.1 (keyToString e.2.virtualKey e.2.unicodeChar e.2.keyState) := by
  obtain ⟨root, h1, h2⟩ := holds_setAll holds_new hv
  rw [List.nil_append] at h2
  refine ⟨root, entries root [], h1, ?_, entries_sorted root h2.1 [], ?_⟩
  · intro seq k
    rw [mem_entries root h2.1, ← keyAt_iff h2]
    simp
  · have := dumpHelper_eq root []
    unfold dumpInputMap
    have e : shown [] = [] := rfl
    rw [e] at this
    rw [this]
    rfl

/-- **C87.** A line can be read in one way only, if the sequence has no quote: the sequence, the character and the
modifiers, and the key up to the key codes 0 and 48 (see C76). -/
theorem C87_readable (s t : List Nat) (k l : Key) (hs : s ≠ [] ∧ 39 ∉ s) (ht : t ≠ [] ∧ 39 ∉ t)
    (hk : k.virtualKey < 2 ^ 32 ∧ k.unicodeChar < 2 ^ 32 ∧ k.keyState < 2 ^ 32)
    (hl : l.virtualKey < 2 ^ 32 ∧ l.unicodeChar < 2 ^ 32 ∧ l.keyState < 2 ^ 32)
    (h : line s (keyToString k.virtualKey k.unicodeChar k.keyState) =
      line t (keyToString l.virtualKey l.unicodeChar l.keyState)) :
    s = t ∧ k.unicodeChar = l.unicodeChar ∧ k.keyState = l.keyState ∧
      (k.virtualKey ≠ 0 → l.virtualKey ≠ 0 → k = l) := by
  obtain ⟨h1, h2⟩ := line_inj s t ⟨hs.1, fun b hb e => hs.2 (e ▸ hb)⟩ ⟨ht.1, fun b hb e => ht.2 (e ▸ hb)⟩ _ _ h
  obtain ⟨h3, h4, h5⟩ := Winpty.ShowInput.keyToString_inj hk.1 hk.2.1 hk.2.2 hl.1 hl.2.1 hl.2.2 h2
  refine ⟨h1, h4, h5, fun n1 n2 => ?_⟩
  obtain ⟨a, b, c⟩ := k
  obtain ⟨a', b', c'⟩ := l
  simp only at *
  obtain rfl : a = a' := by omega
  rw [h4, h5]

private def codes87 : List (Nat × Nat) := (table.map fun r => (r.2.virtualKey, r.2.unicodeChar)).eraseDups

private def states87 : List Nat := (table.map fun r => r.2.keyState).eraseDups

private theorem codes_short87 : codes87.all (fun c =>
    decide ((Winpty.ShowInput.keyName c.1 ++ Winpty.ShowInput.charText c.2).length < 100)) = true := by decide +kernel

private theorem states_short87 : states87.all (fun st =>
    decide ((Winpty.ShowInput.controlKeyStatePrefix st).length < 100)) = true := by decide +kernel

private theorem no_quote87 : table.all (fun r => r.1.all (· != 39)) = true := by decide +kernel

private theorem byteShown_length87 (b : Nat) : (byteShown b).length ≤ 3 := by
  unfold byteShown
  split
  · simp
  · split
    · simp
    · split <;> simp

private theorem shown_length87 (s : List Nat) : (shown s).length ≤ 4 * s.length := by
  induction s with
  | nil => simp [shown]
  | cons b r ih =>
    have hb := byteShown_length87 b
    cases r with
    | nil => simp [shown]; omega
    | cons c r =>
      simp only [shown, List.length_append, List.length_cons] at ih ⊢
      omega

private theorem line_length87 (r : List Nat × Key) (hr : r ∈ table) :
    (line r.1 (keyToString r.2.virtualKey r.2.unicodeChar r.2.keyState)).length < 1024 := by
  have h1 := List.all_eq_true.1 codes_short87 (r.2.virtualKey, r.2.unicodeChar)
    (by unfold codes87; rw [List.mem_eraseDups]; exact List.mem_map.2 ⟨r, hr, rfl⟩)
  have h2 := List.all_eq_true.1 states_short87 r.2.keyState
    (by unfold states87; rw [List.mem_eraseDups]; exact List.mem_map.2 ⟨r, hr, rfl⟩)
  have h3 := (entry_ok hr).2.1
  have h4 := shown_length87 r.1
  simp only [decide_eq_true_eq, List.length_append] at h1 h2
  simp only [line, keyToString, List.length_append, List.length_cons, List.length_nil]
  omega

/-- **C87.** The agent's own table: one line for each of its sequences, each short enough to be traced whole, and no
two lines are alike. -/
theorem C87_default_table : ∃ root, setAll newNode defaultRegs = some root ∧
    (dumpInputMap root).Nodup ∧ (∀ t ∈ dumpInputMap root, t.length < 1024) ∧
    ∀ t, t ∈ dumpInputMap root ↔ ∃ seq k, (seq, k) ∈ defaultRegs ∧
      t = line seq (keyToString k.virtualKey k.unicodeChar k.keyState) := by
  have hok : ∀ r ∈ table, r.1 ≠ [] ∧ ∀ c ∈ r.1, c < 256 := fun r hr =>
    ⟨(entry_ok hr).1, fun c hc => Nat.lt_trans ((entry_ok hr).2.2.1 c hc) (by decide)⟩
  have hshort : ∀ r ∈ table, 39 ∉ r.1 ∧
      (line r.1 (keyToString r.2.virtualKey r.2.unicodeChar r.2.keyState)).length < 1024 := by
    intro r hr
    have := List.all_eq_true.1 (List.all_eq_true.1 no_quote87 r hr)
    exact ⟨fun h => absurd (this 39 h) (by decide), line_length87 r hr⟩
  obtain ⟨root, keys, h1, h2, h3, h4⟩ := C87_complete table hok
  have hmem : ∀ seq k, (seq, k) ∈ keys ↔ (seq, k) ∈ table := by
    intro seq k
    rw [h2]
    constructor
    · intro hm; exact registered_mem hm.1
    · intro hm
      exact ⟨table_registered hm, .inl (entry_ok hm).2.2.2.2⟩
  rw [defaultRegs_eq]
  refine ⟨root, h1, ?_, ?_, ?_⟩
  · rw [h4]
    unfold List.Nodup
    rw [List.pairwise_map]
    refine List.Pairwise.imp_of_mem ?_ h3
    intro a b ha hb hlt he
    have ha' := (hmem a.1 a.2).1 ha
    have hb' := (hmem b.1 b.2).1 hb
    have := (line_inj a.1 b.1 ⟨(hok _ ha').1, fun x hx e => (hshort _ ha').1 (e ▸ hx)⟩
      ⟨(hok _ hb').1, fun x hx e => (hshort _ hb').1 (e ▸ hx)⟩ _ _ he).1
    rw [this] at hlt
    exact List.lt_irrefl _ hlt
  · intro t ht
    rw [h4] at ht
    obtain ⟨e, he, rfl⟩ := List.mem_map.1 ht
    exact (hshort _ ((hmem e.1 e.2).1 he)).2
  · intro t
    rw [h4, List.mem_map]
    constructor
    · rintro ⟨e, he, rfl⟩
      exact ⟨e.1, e.2, (hmem e.1 e.2).1 he, rfl⟩
    · rintro ⟨seq, k, hm, rfl⟩
      exact ⟨(seq, k), (hmem seq k).2 hm, rfl⟩

/-- Non-vacuity: a table with a prefix, a re-registered sequence and one that was taken back with the null key. -/
example : ValidRegs [([27, 91, 65], ⟨0x26, 0, 0⟩), ([27], ⟨0x1B, 27, 0⟩), ([27, 91, 65], ⟨0x28, 0, 0x10⟩),
    ([127], ⟨0x08, 8, 0⟩), ([127], ⟨0, 0, 0⟩)] := by unfold ValidRegs; decide

/-- The line of Alt and the up arrow. -/
example : line [27, 27, 91, 65] (keyToString 0x26 0 2) =
    ("^[ ^[ [ A -> LAlt-UP ch=0".toList.map Char.toNat) := by decide +kernel

/-- Why sequences with a quote are excluded: a space looks like two quotes.  The agent's table has none. -/
example : shown [32] = shown [39, 39] := by decide

end Winpty.Props
