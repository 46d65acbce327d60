import Verif.Model.InputMap
import Verif.Model.ShowInput
import Verif.Model.ShowKey

/-!
# Model of the dump of the key table, `InputMap::dumpInputMap` of `src/agent/InputMap.cc`

The agent traces it when it starts with the debug flag `dump_input_map` (src/agent/ConsoleInput.cc:203-205).
Texts are lists of character codes; the `std::string` that is passed by reference and put back after each child is
an argument and a result.  A call of `trace` is its text.
-/
namespace Winpty.InputMap

open Winpty.ShowInput (keyToString text)
open Winpty.ShowKey (decodeUnixCtrlChar)

theorem tinyFind_sizeOf {l : List (Nat × Node)} {ch : Nat} {c : Node} (h : tinyFind l ch = some c) :
    sizeOf c < sizeOf l := by
  induction l with
  | nil => cases h
  | cons p l ih =>
    obtain ⟨v, d⟩ := p
    rw [tinyFind] at h
    split at h
    · cases h
      simp
      omega
    · have := ih h
      simp
      omega

/-- A child is smaller than its parent, so that the recursion ends. -/
theorem getChild_sizeOf {n c : Node} {ch : Nat} (h : getChild n ch = some c) : sizeOf c < sizeOf n := by
  obtain ⟨k, m, u⟩ := n
  unfold getChild at h
  by_cases hm : (Node.mk k m u).childCount ≤ kTinyCount
  · rw [if_pos hm] at h
    cases u with
    | tiny l =>
      have := tinyFind_sizeOf h
      simp
      omega
    | branch b => cases h
  · rw [if_neg hm] at h
    cases u with
    | tiny l => cases h
    | branch b =>
      simp only [Node.u] at h
      have hm : some c ∈ b := by
        cases hb : b[ch]? with
        | none => simp [hb] at h
        | some o =>
          have h' : o = some c := by simpa [hb] using h
          rw [← h']
          exact List.mem_of_getElem? hb
      have := List.sizeOf_lt_of_mem hm
      simp at this ⊢
      omega

/-- What is appended for a byte, src/agent/InputMap.cc:233-241. -/
def byteText (i : Nat) : List Nat :=
  if decodeUnixCtrlChar i ≠ 0 then [94, decodeUnixCtrlChar i]
  else if i = 32 then text ['\'', ' ', '\'']
  else [i]

/-- The separator, src/agent/InputMap.cc:230-232, and the text of the byte. -/
def pushByte (encoding : List Nat) (i : Nat) : List Nat :=
  (if encoding.isEmpty then encoding else encoding ++ [32]) ++ byteText i

/-- `std::string::resize`, src/agent/InputMap.cc:243. -/
def resize (s : List Nat) (size : Nat) : List Nat := s.take size ++ List.replicate (size - s.length) 0

/-- The format of a line, src/agent/InputMap.cc:222-224. -/
def dumpLine (encoding : List Nat) (k : Key) : List Nat :=
  encoding ++ text [' ', '-', '>', ' '] ++ keyToString k.virtualKey k.unicodeChar k.keyState

/-- The values of the loop variable, src/agent/InputMap.cc:226. -/
@[irreducible] def loopBytes : List Nat := List.range 256

/-- `InputMap::dumpInputMapHelper`, src/agent/InputMap.cc:219-246: the lines, and `encoding` afterwards. -/
def dumpInputMapHelper (n : Node) (encoding : List Nat) : List (List Nat) × List Nat :=
  loopBytes.foldl (fun st i =>
    match _h : getChild n i with
    | none => st
    | some c => (st.1 ++ (dumpInputMapHelper c (pushByte st.2 i)).1,
        resize (dumpInputMapHelper c (pushByte st.2 i)).2 st.2.length))
    (if hasKey n.key then [dumpLine encoding n.key] else [], encoding)
termination_by sizeOf n
decreasing_by all_goals exact getChild_sizeOf _h

/-- `InputMap::dumpInputMap`, src/agent/InputMap.cc:214-217. -/
def dumpInputMap (root : Node) : List (List Nat) := (dumpInputMapHelper root []).1

end Winpty.InputMap
