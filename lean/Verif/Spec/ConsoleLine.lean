import Verif.Model.ConsoleLine

/-!
# Specification of line change detection

A line on the screen is a list of cells.  What was recorded for a console line is decided by the
history of the operations on it alone; no part of the model's state is mentioned here (only the
type of a cell is shared).
-/
namespace Winpty.Spec.Line

open Winpty.ConsoleLine (Cell)

/-- What can happen to the record of a console line. -/
inductive Op where
  /-- forget everything -/
  | reset
  /-- record one blank cell of this attribute -/
  | blank (attr : Nat)
  /-- record a line unconditionally -/
  | set (line : List Cell)
  /-- record a line and report whether it has changed -/
  | detect (line : List Cell)

/-- The line recorded last, after a history (most recent operation last); empty if nothing has been
recorded since the last reset. -/
def recorded : List Op → List Cell → List Cell
  | [], cur => cur
  | .reset :: ops, _ => recorded ops []
  | .blank a :: ops, _ => recorded ops [⟨0x20, a⟩]
  | .set l :: ops, _ => recorded ops l
  | .detect l :: ops, _ => recorded ops l

/-- What a terminal that never forgets obscured cells has at a column: the cell of the most recent
line long enough to reach that column, if there is one since the last reset or blanking. -/
def obscured : List Op → Nat → Option Cell → Option Cell
  | [], _, cur => cur
  | .reset :: ops, col, _ => obscured ops col none
  | .blank a :: ops, col, _ => obscured ops col (if col = 0 then some ⟨0x20, a⟩ else none)
  | .set l :: ops, col, cur => obscured ops col (if col < l.length then l[col]? else cur)
  | .detect l :: ops, col, cur => obscured ops col (if col < l.length then l[col]? else cur)

/-- The cell at a column of a line, when the line is followed by blanks of attribute `a`. -/
def cellAt (a : Nat) (l : List Cell) (col : Nat) : Cell := l.getD col ⟨0x20, a⟩

/-- Two lines look the same when both are followed by blanks of attribute `a`. -/
def LooksSame (a : Nat) (l₁ l₂ : List Cell) : Prop := ∀ col, cellAt a l₁ col = cellAt a l₂ col

/-- The attribute of the last cell of a line. -/
def lastAttr (l : List Cell) : Nat :=
  match l.getLast? with
  | some c => c.attr
  | none => 0

/-- The blanks that fill up the shorter of two lines: they have the attribute of its last cell. -/
def fill (l₁ l₂ : List Cell) : Nat := if l₁.length ≤ l₂.length then lastAttr l₁ else lastAttr l₂

/-- Every operation records at least one cell (the widths of a console are positive). -/
def Valid (ops : List Op) : Prop :=
  ∀ op ∈ ops, ∀ l, op = .set l ∨ op = .detect l → l ≠ []

end Winpty.Spec.Line
