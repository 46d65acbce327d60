import Verif.Lemmas.InputMap
/-!
# C06: the key-sequence table is a longest-prefix map
-/
namespace Winpty.Props
open Winpty.InputMap Winpty.Spec

/-- Registrations a caller may make: non-empty byte sequences. -/
def ValidRegs (regs : List (List Nat × Key)) : Prop :=
  ∀ r ∈ regs, r.1 ≠ [] ∧ ∀ c ∈ r.1, c < 256

/-- After any registrations, a lookup reports the key of the longest prefix of the input that stands
for a key, and that prefix's length (zero, with the zero key, if there is none); it reports
"incomplete" exactly when some registered sequence strictly extends the whole input. -/
theorem C06_longest_prefix (regs : List (List Nat × Key)) (hv : ValidRegs regs) :
    ∃ root, setAll newNode regs = some root ∧ ∀ input,
      (((lookupKey root input).len = 0 ∧ (lookupKey root input).key = {} ∧
          ∀ n, 0 < n → n ≤ input.length → ¬ ∃ k, Maps regs (input.take n) k) ∨
        (0 < (lookupKey root input).len ∧ (lookupKey root input).len ≤ input.length ∧
          Maps regs (input.take (lookupKey root input).len) (lookupKey root input).key ∧
          ∀ n, (lookupKey root input).len < n → n ≤ input.length →
            ¬ ∃ k, Maps regs (input.take n) k)) ∧
      ((lookupKey root input).incomplete = true ↔ ∃ r ∈ regs, input <+: r.1 ∧ input ≠ r.1) := by
  obtain ⟨root, h1, h2⟩ := holds_setAll holds_new hv
  refine ⟨root, h1, ?_⟩
  rw [List.nil_append] at h2
  intro input
  obtain ⟨⟨hb1, hb2, hb3⟩, hi⟩ := lookupKey_spec h2 input
  refine ⟨?_, hi⟩
  rcases hb3 with ⟨h0, hk⟩ | ⟨h0, hk⟩
  · left
    refine ⟨h0, hk, ?_⟩
    intro n hn0 hn hex
    have := hb2 n hn0 hn hex
    omega
  · right
    refine ⟨h0, hb1, hk, ?_⟩
    intro n hn0 hn hex
    have := hb2 n (by omega) hn hex
    omega

/-- Registering an empty sequence is the one thing refused. -/
theorem C06_empty_refused (root : Node) (k : Key) : set root [] k = none := rfl

/-- Non-vacuity: nine different second bytes (so that a node changes representation), a re-registered
sequence and one that is a prefix of another. -/
example : ValidRegs (([65, 66, 67, 68, 69, 70, 71, 72, 73].map fun c => ([27, c], Key.mk c 0 0)) ++
      [([27], ⟨1, 0, 0⟩), ([27, 65], ⟨99, 0, 2⟩)]) ∧
    (setAll newNode (([65, 66, 67, 68, 69, 70, 71, 72, 73].map fun c => ([27, c], Key.mk c 0 0)) ++
      [([27], ⟨1, 0, 0⟩), ([27, 65], ⟨99, 0, 2⟩)])).map (fun root =>
        (lookupKey root [27, 65, 3], lookupKey root [27, 1], lookupKey root [27])) =
      some (⟨2, ⟨99, 0, 2⟩, false⟩, ⟨1, ⟨1, 0, 0⟩, false⟩, ⟨1, ⟨1, 0, 0⟩, true⟩) := by
  refine ⟨?_, by decide +kernel⟩
  intro r hr
  simp at hr
  rcases hr with h | h | h | h | h | h | h | h | h | h | h <;> rw [h] <;> simp

end Winpty.Props
