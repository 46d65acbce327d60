import Verif.Spec.Screen

/-!
# Specification: what the terminal should show after a history of requests

The requests are those the agent makes of its terminal writer.  `Want` is what a reader of the
request history expects; it does not depend on anything the writer does internally.
-/
namespace Winpty.Spec.Term

open Winpty.ConsoleLine (Cell)
open Winpty.Spec.Vt Winpty.Spec.Screen

inductive Op where
  /-- clear the screen; its top row is now this line number -/
  | clear (line : Int)
  /-- show a console line in the row of this line number; the console cursor, if in this line, is
  at `cursorColumn` (otherwise -1) -/
  | send (line : Int) (cells : List Cell) (cursorColumn : Int)
  /-- put the cursor there and make it visible -/
  | show (column line : Int)
  /-- hide the cursor -/
  | hide
  /-- request mouse reports or not -/
  | mouse (on : Bool)

structure Want where
  /-- the line number in the top row when the screen was last cleared -/
  base : Int
  /-- the highest line number used since then -/
  highest : Int
  /-- the line the cursor is in -/
  cur : Int
  /-- the column the cursor is in, if it is determined by the requests -/
  col : Option Int
  /-- what was last sent for each line number since the screen was cleared -/
  sent : Int → Option (List Cell)
  /-- the cursor must be visible -/
  shown : Bool
  /-- the cursor must be hidden -/
  hidden : Bool
  /-- the screen was cleared while the cursor was (perhaps) hidden, and since then the cursor was
  neither hidden nor moved to another row -/
  stale : Bool
  /-- mouse reports must be on -/
  mouse : Bool

/-- After `start`, nothing has been sent; the cursor is visible at the beginning of a row. -/
def Want.start (line : Int) : Want :=
  ⟨line, line, line, some 0, fun _ => none, true, false, false, false⟩

/-- The cursor goes to another row (in column 0, hidden while it moves) or stays where it is. -/
def Want.move (w : Want) (line : Int) : Want :=
  { w with
    highest := max w.highest line
    cur := line
    col := if line = w.cur then w.col else some 0
    shown := w.shown && decide (line = w.cur)
    hidden := w.hidden || decide (line ≠ w.cur)
    stale := w.stale && decide (line = w.cur) }

def Want.step (w : Want) : Op → Want
  | .clear line =>
    { w with base := line, highest := line, cur := line, col := some 0, sent := fun _ => none
             stale := w.stale || !w.shown }
  | .send line cells _ =>
    { w.move line with
      col := none
      shown := false
      sent := fun l => if l = line then some cells else w.sent l }
  | .show column line =>
    { w.move line with col := some column, shown := !(w.move line).stale, hidden := false }
  | .hide => { w with shown := false, hidden := true, stale := false }
  | .mouse on => { w with mouse := on }

def Want.run (w : Want) (ops : List Op) : Want := ops.foldl Want.step w

/-- A line number is one of a row on the screen: not above the top row when it was last cleared,
nor scrolled off since. -/
def InWindow (cfg : Cfg) (w : Want) (line : Int) : Prop :=
  w.base ≤ line ∧ w.highest < line + cfg.height

/-- The line consists of characters that the terminal can show as the console does, and fits. -/
def LineOk (cfg : Cfg) (cells : List Cell) : Prop :=
  cells ≠ [] ∧ cells.length ≤ cfg.width ∧ (∀ c ∈ cells, c.ch < 65536) ∧
  ∃ gs, glyphsOf cells = some gs ∧ ∀ g ∈ gs, Showable cfg g

/-- A request the agent may make in this situation. -/
def OpOk (cfg : Cfg) (w : Want) : Op → Prop
  | .clear _ => True
  | .send line cells _ => InWindow cfg w line ∧ LineOk cfg cells
  | .show column line => InWindow cfg w line ∧ 0 ≤ column ∧ column < cfg.width
  | .hide => True
  | .mouse _ => True

/-- A history of such requests. -/
def OpsOk (cfg : Cfg) : Want → List Op → Prop
  | _, [] => True
  | w, op :: ops => OpOk cfg w op ∧ OpsOk cfg (w.step op) ops

/-- A terminal: at least one column and one row, a blank takes one column. -/
def CfgOk (cfg : Cfg) : Prop :=
  1 ≤ cfg.width ∧ 1 ≤ cfg.height ∧ cfg.height < 2 ^ 32 ∧ cfg.cw 0x20 = 1

/-- The terminal before the agent writes anything: cursor visible at the beginning of some row,
no mouse reports; whatever it already displays and whatever colours are selected. -/
def FreshEmu (cfg : Cfg) (e : Emu) : Prop :=
  e.parse = .ground ∧ e.col = 0 ∧ e.top ≤ e.row ∧ e.row < e.top + cfg.height ∧
  e.cursorVisible = true ∧ ∀ n, e.modes n = false

end Winpty.Spec.Term
