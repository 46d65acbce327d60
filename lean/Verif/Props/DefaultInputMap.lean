import Verif.Lemmas.DefaultInputMap
import Verif.Spec.XtermKeys
import Verif.Spec.TerminalKeys
/-!
# C51: the default key table is an unambiguous code and decodes xterm's keys
-/
namespace Winpty.Props
open Winpty.InputMap Winpty.Spec
set_option maxRecDepth 100000

/-- Building the default table never fails, and in the result every registered sequence, whatever
follows it, is recognised at its full length as its own key, with no wait for further input. -/
theorem C51_every_sequence_decodes : ∃ root, setAll newNode defaultRegs = some root ∧
    ∀ seq k, (seq, k) ∈ defaultRegs → ∀ rest,
      lookupKey root (seq ++ rest) = ⟨seq.length, k, false⟩ := by
  rw [defaultRegs_eq]
  obtain ⟨root, h1, h2⟩ := table_holds
  exact ⟨root, h1, fun seq k hm rest => table_lookup h2 hm rest⟩

/-- No registered sequence is a prefix of, or registered twice as, another. -/
theorem C51_prefix_code (s t : List Nat) (k l : Key) (h1 : (s, k) ∈ defaultRegs)
    (h2 : (t, l) ∈ defaultRegs) (h : s <+: t) : s = t ∧ k = l := by
  rw [defaultRegs_eq] at h1 h2
  have := prefix_eq h1 h2 (entry_ok h1).1 h
  exact ⟨congrArg Prod.fst this, congrArg Prod.snd this⟩

/-- The assertions on the 32-byte buffer in which sequences are assembled hold. -/
theorem C51_buffer_suffices (s : List Nat) (k : Key) (h : (s, k) ∈ defaultRegs) :
    0 < s.length ∧ s.length ≤ 32 := by
  rw [defaultRegs_eq] at h
  have := entry_ok h
  exact ⟨List.length_pos_iff.2 this.1, Nat.le_trans this.2.1 (by decide)⟩

/-- All combinations of modifiers. -/
def allMods : List Mods :=
  [false, true].flatMap fun s => [false, true].flatMap fun a => [false, true].map fun c => ⟨s, a, c⟩

theorem mem_allMods (m : Mods) : m ∈ allMods := by
  obtain ⟨s, a, c⟩ := m
  cases s <;> cases a <;> cases c <;> decide

/-- Membership the kernel can evaluate quickly. -/
def seqEq : List Nat → List Nat → Bool
  | [], [] => true
  | a :: r, b :: t => Nat.beq a b && seqEq r t
  | _, _ => false

theorem seqEq_eq {a b : List Nat} (h : seqEq a b = true) : a = b := by
  induction a generalizing b with
  | nil => cases b <;> first | rfl | cases h
  | cons x a ih =>
    cases b with
    | nil => cases h
    | cons y b =>
      rw [seqEq, Bool.and_eq_true] at h
      rw [Nat.eq_of_beq_eq_true h.1, ih h.2]

theorem xterm_mem_check' : (xtermKeys.all fun kf => forceList (entriesOf kf.1) fun es => allMods.all fun m =>
    es.any fun r =>
    seqEq r.1 (xtermSeq m kf.2.2) && decide (r.2 = ⟨kf.1, 0, m.bits + (if kf.2.1 then 0x100 else 0)⟩)) =
    true := by decide +kernel

theorem xterm_mem_check : (xtermKeys.all fun kf => allMods.all fun m => (entriesOf kf.1).any fun r =>
    seqEq r.1 (xtermSeq m kf.2.2) && decide (r.2 = ⟨kf.1, 0, m.bits + (if kf.2.1 then 0x100 else 0)⟩)) =
    true := by
  have h := xterm_mem_check'
  simp only [forceList_eq] at h
  exact h

/-- Every special key xterm can send, with every combination of modifiers, is decoded as that key with
exactly those modifiers. -/
theorem C51_xterm_keys (root : Node) (hroot : setAll newNode defaultRegs = some root)
    (vk : Nat) (enhanced : Bool) (form : KeyForm) (hk : (vk, enhanced, form) ∈ xtermKeys) (m : Mods)
    (rest : List Nat) :
    lookupKey root (xtermSeq m form ++ rest) =
      ⟨(xtermSeq m form).length, ⟨vk, 0, m.bits + (if enhanced then 0x100 else 0)⟩, false⟩ := by
  have h := List.all_eq_true.1 (List.all_eq_true.1 xterm_mem_check _ hk) m (mem_allMods m)
  obtain ⟨r, hr, he⟩ := List.any_eq_true.1 h
  rw [Bool.and_eq_true, decide_eq_true_eq] at he
  have h1 := seqEq_eq he.1
  obtain ⟨root', e1, e2⟩ := C51_every_sequence_decodes
  rw [hroot] at e1
  cases e1
  rw [← he.2, ← h1]
  refine e2 r.1 r.2 ?_ rest
  rw [defaultRegs_eq]; exact (List.mem_filter.1 hr).1

/-- Non-vacuity: Ctrl-Shift-Left, followed by more input. -/
example : (0x25, true, KeyForm.csiLetter 'D') ∈ xtermKeys ∧
    xtermSeq ⟨true, false, true⟩ (.csiLetter 'D') = [27, 91, 49, 59, 54, 68] ∧
    (⟨true, false, true⟩ : Mods).bits = 0x18 := by decide
example : ([27, 91, 49, 59, 54, 68], Key.mk 0x25 0 0x118) ∈ defaultRegs ∧ defaultRegs.length = 2676 := by
  rw [defaultRegs_eq]
  have h : (table.any fun r => seqEq r.1 [27, 91, 49, 59, 54, 68] &&
    decide (r.2 = Key.mk 0x25 0 0x118)) = true := by decide +kernel
  obtain ⟨r, hr, he⟩ := List.any_eq_true.1 h
  rw [Bool.and_eq_true, decide_eq_true_eq] at he
  refine ⟨?_, by decide +kernel⟩
  rw [← seqEq_eq he.1, ← he.2]; exact hr

private def vks : List Nat := [0x08, 0x09, 0x0C, 0x0D, 0x21, 0x22, 0x23, 0x24, 0x25, 0x26, 0x27, 0x28, 0x2D,
  0x2E, 0x43, 0x6A, 0x6B, 0x6D, 0x6F, 0x70, 0x71, 0x72, 0x73, 0x74, 0x75, 0x76, 0x77, 0x78, 0x79, 0x7A, 0x7B]

theorem terminal_check' : (vks.all fun vk => forceList (entriesOf vk) fun es =>
    terminalKeys.all fun s => !(Nat.beq s.vk vk) || es.any fun r =>
    seqEq r.1 s.bytes && decide (r.2 = ⟨s.vk, s.char, s.mods.bits + (if Enhanced s.vk then 0x100 else 0)⟩)) =
    true := by decide +kernel

theorem terminal_vks : (terminalKeys.all fun s => vks.contains s.vk) = true := by decide +kernel

/-- The keys of PuTTY, the Linux console, rxvt, GNOME, Konsole, JediTerm and the keypad in application mode
are decoded as those keys with their modifiers and characters, whatever follows. -/
theorem C51_terminal_keys (root : Node) (hroot : setAll newNode defaultRegs = some root)
    (s : Sent) (hs : s ∈ terminalKeys) (rest : List Nat) :
    lookupKey root (s.bytes ++ rest) =
      ⟨s.bytes.length, ⟨s.vk, s.char, s.mods.bits + (if Enhanced s.vk then 0x100 else 0)⟩, false⟩ := by
  have hc := terminal_check'
  simp only [forceList_eq] at hc
  have hv : s.vk ∈ vks := List.contains_iff_mem.1 (List.all_eq_true.1 terminal_vks s hs)
  have h := List.all_eq_true.1 (List.all_eq_true.1 hc _ hv) s hs
  rw [Bool.or_eq_true] at h
  rcases h with h | h
  · simp at h
  · obtain ⟨r, hr, he⟩ := List.any_eq_true.1 h
    rw [Bool.and_eq_true, decide_eq_true_eq] at he
    have h1 := seqEq_eq he.1
    obtain ⟨root', e1, e2⟩ := C51_every_sequence_decodes
    rw [hroot] at e1
    cases e1
    rw [← he.2, ← h1]
    refine e2 r.1 r.2 ?_ rest
    rw [defaultRegs_eq]; exact (List.mem_filter.1 hr).1

/-- Non-vacuity: Alt with Shift-Up in rxvt, and Ctrl with `+` on the keypad of xterm. -/
example : (⟨[27, 27, 91, 97], 0x26, 0, ⟨true, true, false⟩⟩ : Sent) ∈ rxvtKeys := by
  unfold rxvtKeys withMeta
  simp [arrowKeys, metaFirst, escText, codes, shiftOnly, Char.toLower]
example : terminalKeys.length = 658 := by decide +kernel

end Winpty.Props
