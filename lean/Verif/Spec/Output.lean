import Verif.Model.ConsoleLine
import Verif.Spec.Utf
import Verif.Spec.Screen

/-!
# Specification: what may appear in the output stream

Shared with the model: only the type of a console cell.
-/
namespace Winpty.Spec.Output

open Winpty.ConsoleLine (Cell)
open Winpty.Spec Winpty.Spec.Screen

/-- One of the agent's own control sequences: `ESC [`, digits, semicolons and question marks, and
one of the letters A G H J K h l m. -/
def IsSeq (bs : List Nat) : Prop :=
  ∃ ps f, bs = 0x1b :: 0x5b :: (ps ++ [f]) ∧
    (∀ b ∈ ps, (0x30 ≤ b ∧ b ≤ 0x39) ∨ b = 0x3b ∨ b = 0x3f) ∧
    f ∈ [0x41, 0x47, 0x48, 0x4a, 0x4b, 0x68, 0x6c, 0x6d]

/-- The standard UTF-8 encoding of one character of this kind. -/
def IsText (chars : Nat → Prop) (bs : List Nat) : Prop := ∃ c, IsScalar c ∧ chars c ∧ bs = utf8 c

/-- A sequence that selects colours: `ESC [`, digits and semicolons, `m`. -/
def IsSgr (bs : List Nat) : Prop :=
  ∃ ps, bs = 0x1b :: 0x5b :: (ps ++ [0x6d]) ∧ ∀ b ∈ ps, (0x30 ≤ b ∧ b ≤ 0x39) ∨ b = 0x3b

/-- The control sequences allowed: in plain mode only the selection of colours, and that only if
asked for. -/
def Allowed (plain colour : Bool) (bs : List Nat) : Prop :=
  if plain then colour = true ∧ IsSgr bs else IsSeq bs

/-- A sequence of characters and of control sequences that are allowed. -/
def StreamOf (chars : Nat → Prop) (seqs : List Nat → Prop) (bs : List Nat) : Prop :=
  ∃ toks : List (List Nat), bs = toks.flatten ∧ ∀ t ∈ toks, IsText chars t ∨ seqs t

/-- Any character but ESC. -/
def NotEsc (c : Nat) : Prop := c ≠ 0x1b

/-- A sequence of characters other than ESC and of control sequences that are allowed. -/
abbrev Stream (seqs : List Nat → Prop) (bs : List Nat) : Prop := StreamOf NotEsc seqs bs

/-- The cells of one character on the console: one cell, or two if double-width. -/
def Half (part : List Cell) (unit : Nat) : Prop :=
  (∃ a, part = [a] ∧ unit = a.ch) ∨
  ∃ a b, part = [a, b] ∧ isLead a = true ∧ isTrail b = true ∧ b.ch = a.ch ∧ unit = a.ch

/-- The cells that make up one character to be shown: an ordinary character; a surrogate pair; or a
surrogate without its partner, shown as a question mark. -/
def Segment (part : List Cell) (code : Nat) : Prop :=
  (Half part code ∧ ¬ (0xD800 ≤ code ∧ code < 0xE000)) ∨
  (∃ p q hi lo, part = p ++ q ∧ Half p hi ∧ Half q lo ∧ 0xD800 ≤ hi ∧ hi < 0xDC00 ∧
    0xDC00 ≤ lo ∧ lo < 0xE000 ∧ code = 0x10000 + (hi - 0xD800) * 0x400 + (lo - 0xDC00)) ∨
  (∃ u, Half part u ∧ 0xD800 ≤ u ∧ u < 0xE000 ∧ code = 0x3f)

/-- Text for a line: for each segment, in order, control sequences and then its character. -/
inductive LineText (seqs : List Nat → Prop) : List (List Cell × Nat) → List Nat → Prop where
  | nil : LineText seqs [] []
  | cons (part code segs pre bytes) : LineText seqs segs bytes →
      (∃ ts : List (List Nat), pre = ts.flatten ∧ ∀ t ∈ ts, seqs t) →
      LineText seqs ((part, code) :: segs) (pre ++ utf8 (shownCode code) ++ bytes)

end Winpty.Spec.Output
