import Verif.Model.Scraper
import Verif.Spec.Terminal

/-!
# Specification: what the scraper has to transfer

Shared with the model: the types of a console, of a terminal call and of a console cell.
-/
namespace Winpty.Spec.Scrape

open Winpty.Scraper (Con Info Sys SyncViews Result)
open Winpty.ConsoleLine (Cell)
open Winpty.Agent (TermCall)
open Winpty.Spec.Term (Op)

/-! ## Sync markers -/

/-- The characters `0`..`9`, `a`..`f`. -/
def hexChar (d : Nat) : Nat :=
  [0x30, 0x31, 0x32, 0x33, 0x34, 0x35, 0x36, 0x37, 0x38, 0x39,
   0x61, 0x62, 0x63, 0x64, 0x65, 0x66].getD d 0

/-- The text of the marker with a number: `S*Y*N*C*` and the number in eight hexadecimal digits. -/
def markerText (n : Nat) : List Nat :=
  [0x53, 0x2a, 0x59, 0x2a, 0x4e, 0x2a, 0x43, 0x2a] ++
    [7, 6, 5, 4, 3, 2, 1, 0].map fun i => hexChar (n / 16 ^ i % 16)

/-- The text of marker `n` stands in column 0, one character per row, from row `i` on. -/
def MarkerAt (c : Con) (i : Int) (n : Nat) : Prop :=
  ∀ (j : Nat) (ch : Nat), (markerText n)[j]? = some ch → (c.screen 0 (i + j)).ch = ch

/-! ## What programs do to the console -/

/-- The program ran: `k` lines have scrolled out of the buffer at its top; what was above the window
has not been changed otherwise; nothing that the program wrote imitates a marker (every marker that
can be read now stands in rows that were above the window); and the window has not moved upward in
the buffer. -/
structure Ran (k : Nat) (c c' : Con) : Prop where
  kept : ∀ (x r : Int), 0 ≤ r → r + k < c.info.window.top → c'.screen x r = c.screen x (r + k)
  genuine : ∀ (i : Int) (n : Nat), 0 ≤ i → n < 2 ^ 32 → MarkerAt c' i n →
    i + 15 + k < c.info.window.top
  down : c.info.window.top ≤ c'.info.window.top

/-- The program did anything at all to the lines (but did not make up markers).  The command
interpreter's `cls`, for example, erases everything and moves the window upward. -/
structure Anything (c c' : Con) : Prop where
  genuine : ∀ (i : Int) (n : Nat), 0 ≤ i → n < 2 ^ 32 → MarkerAt c' i n → ∃ i', 0 ≤ i' ∧ MarkerAt c i' n

/-- A console as the agent sets it up: 3000 lines, a window inside it, and a cursor. -/
def InfoOk (info : Info) : Prop :=
  info.size.y = 3000 ∧ 1 ≤ info.size.x ∧ info.size.x ≤ 32767 ∧
  0 ≤ info.window.left ∧ info.window.left ≤ info.window.right ∧ info.window.right < info.size.x ∧
  0 ≤ info.window.top ∧ info.window.top ≤ info.window.bottom ∧ info.window.bottom < 3000 ∧
  0 ≤ info.cursor.y ∧ info.cursor.y < 3000 ∧ 0 ≤ info.cursor.x ∧ info.cursor.x < info.size.x

/-- The buffer has 3000 lines. -/
def SizeOk (c : Con) : Prop := 1 ≤ c.info.size.x ∧ c.info.size.y = 3000

/-- Is the console frozen from the beginning of a poll on? -/
def frozenThroughout (sys : Sys) (frozen : Bool) : Bool := frozen || !sys.isNewW10

/-- What the program did since the last poll, after which the console was `c`, and during the poll.
`k` lines had scrolled out by the time the agent's first, unfrozen attempt at scraping was over, and
`k'` by the time the console was frozen if the first attempt had failed. -/
inductive RanUntil (sys : Sys) (frozen : Bool) (c : Con) (v : SyncViews) : (k k' : Nat) → Prop
  | still (k : Nat) : frozenThroughout sys frozen = true → SizeOk v.first → Ran k c v.first →
      RanUntil sys frozen c v k k
  | running (k₀ k₁ k₂ k₃ k₄ k₅ : Nat) : frozenThroughout sys frozen = false →
      SizeOk v.tentative.recheck → SizeOk v.frozen →
      Ran k₀ c v.first → Ran k₁ v.first v.tentative.marker →
      Ran k₂ v.tentative.marker v.tentative.content → Ran k₃ v.tentative.content v.tentative.check →
      Ran k₄ v.tentative.check v.tentative.recheck → Ran k₅ v.tentative.recheck v.frozen →
      RanUntil sys frozen c v (k₀ + k₁ + k₂ + k₃ + k₄) (k₀ + k₁ + k₂ + k₃ + k₄ + k₅)

/-- The same if the program did anything at all; if the agent tries without freezing the console
first, the window does not move up during the poll. -/
inductive AnythingUntil (sys : Sys) (frozen : Bool) (c : Con) (v : SyncViews) : Prop
  | still : frozenThroughout sys frozen = true → SizeOk v.first → Anything c v.first →
      AnythingUntil sys frozen c v
  | running : frozenThroughout sys frozen = false → SizeOk v.tentative.recheck → SizeOk v.frozen →
      Anything c v.tentative.recheck → Anything c v.frozen →
      v.first.info.window.top ≤ v.frozen.info.window.top → AnythingUntil sys frozen c v

/-- The console whose lines a poll transfers: as it is when it is frozen, or, if a scrape without
freezing it was successful, as it was then. -/
def contentOf (sys : Sys) (frozen : Bool) (v : SyncViews) (r : Result) : Con :=
  if frozenThroughout sys frozen then v.first
  else if r.frozen then v.frozen else v.tentative.content

/-- The console as programs left it when the poll ended. -/
def endOf (sys : Sys) (frozen : Bool) (v : SyncViews) (r : Result) : Con :=
  if frozenThroughout sys frozen then v.first
  else if r.frozen then v.frozen else v.tentative.recheck

/-! ## Lines -/

/-- A cell with the attribute bits that are in use. -/
def masked (mask : Nat) (c : Cell) : Cell :=
  { c with attr := if mask = 0xFFFF then c.attr else Nat.land c.attr mask }

/-- The cells of a row of the console (at most 2500 of them). -/
def rowCells (c : Con) (mask : Nat) (r : Int) : List Cell :=
  (List.range (min c.info.size.x 2500).toNat).map fun x : Nat => masked mask (c.screen x r)

/-- The second line is the first and then blanks, which look like its last cell. -/
def Extends (l₁ l₂ : List Cell) : Prop :=
  l₁ ≠ [] ∧ ∃ n, l₂ = l₁ ++ List.replicate n ⟨0x20, (l₁.getLast?.getD ⟨0, 0⟩).attr⟩

/-- The lines are the same up to such blanks at their ends. -/
def SameLine (l₁ l₂ : List Cell) : Prop := ∃ l, Extends l l₁ ∧ Extends l l₂

/-- Only blanks. -/
def AllBlank (l : List Cell) : Prop := ∀ c ∈ l, c.ch = 0x20

/-! ## What has to be transferred -/

/-- A line as the agent leaves it when it blanks it: blanks in the console's default colours. -/
def Blanked (l : List Cell) : Prop := l ≠ [] ∧ ∀ c ∈ l, c = ⟨0x20, 7⟩

instance (l : List Cell) : Decidable (Blanked l) := by unfold Blanked; infer_instance

/-- What a reader of the console expects to have been transferred.  Lines are numbered so that a line
keeps its number when it scrolls: row `r` of the buffer has the number `r + offset`. -/
structure Track where
  /-- how many lines have scrolled out of the buffer since the terminal was cleared -/
  offset : Int
  /-- the number of the top line of the window at the last scrape -/
  top : Int
  /-- the contents of each line, as far as it was transferred -/
  want : Int → Option (List Cell)
  /-- at the last scrape the window was far enough down (row 431) and had not moved up -/
  guarded : Bool
  /-- the number of the line in the top row of the terminal when it was last cleared -/
  base : Int
  /-- the row of the buffer in which the window began when the agent last saw it or moved it; -1 if
  it has not seen it yet -/
  windowTop : Int
  /-- what was transferred of a line that the agent has blanked in the console since then (when the
  console is resized, everything above the window is blanked) -/
  blanked : Int → Option (List Cell)
  /-- if `guarded`: so many lines can scroll out without the terminal having to be cleared -/
  safe : Int

/-- The terminal has just been cleared; its top row is the window's. -/
def Track.start (top : Int) : Track := ⟨0, top, fun _ => none, false, top, -1, fun _ => none, 0⟩

/-- A scrape, before which `k` more lines have scrolled out of the buffer: it transfers everything
from what was the top of the window at the last scrape to the bottom of the window. -/
def Track.scrape (t : Track) (k : Nat) (info : Info) (content : Con) (mask : Nat) : Track :=
  { offset := t.offset + k
    top := info.window.top + t.offset + k
    want := fun l =>
      if min t.top (info.window.top + t.offset + k) ≤ l ∧ l ≤ info.window.bottom + t.offset + k then
        some (rowCells { content with info := info } mask (l - t.offset - k))
      else t.want l
    guarded := decide (431 ≤ info.window.top ∧ t.windowTop ≤ info.window.top)
    base := t.base
    windowTop := info.window.top
    blanked := fun l =>
      if (min t.top (info.window.top + t.offset + k) ≤ l ∧ l ≤ info.window.bottom + t.offset + k) ∧
          ¬ Blanked (rowCells { content with info := info } mask (l - t.offset - k)) then none
      else t.blanked l
    safe := info.window.top - 431 }

/-- A resize to a height of `rows`: the agent blanks all rows above the window and asks for a window
that begins in row `windowTop`. -/
def Track.resize (t : Track) (rows windowTop : Int) : Track :=
  { t with
    windowTop := windowTop
    blanked := fun l =>
      if t.offset ≤ l ∧ l < t.top then
        match t.blanked l with
        | some old => some old
        | none => t.want l
      else t.blanked l
    safe := min t.safe (3000 - rows - 216) }

/-- What was sent to the terminal (`w`) is what had to be transferred. -/
structure Transferred (t : Track) (w : Term.Want) : Prop where
  /-- each line was sent, with its last contents, under its own number; only blank lines at the end
  of the window may have been left out, and a line that the agent has blanked, and that is still as
  the agent left it, may have been left as it was -/
  lines : ∀ l cells, t.want l = some cells →
    (∃ x, w.sent l = some x ∧ SameLine x cells) ∨ (w.sent l = none ∧ AllBlank cells ∧ t.top ≤ l) ∨
    (∃ old x, t.blanked l = some old ∧ Blanked cells ∧ w.sent l = some x ∧ SameLine x old)
  /-- nothing else was sent -/
  only : ∀ l, t.want l = none → w.sent l = none
  /-- no number was left out above the window -/
  noGap : ∀ l, w.base ≤ l → l < t.top → w.sent l ≠ none
  /-- the screen does not begin below the window -/
  base : w.base ≤ t.top

/-- The requests a terminal writer gets. -/
def opOf : TermCall → Op
  | .reset _ line => .clear line
  | .sendLine line cells cursorColumn => .send line cells cursorColumn
  | .showCursor column line => .show column line
  | .hideCursor => .hide

/-- The numbers of the lines sent, in the order in which they were sent. -/
def sentLines (calls : List TermCall) : List Int :=
  calls.filterMap fun call =>
    match call with
    | .sendLine line _ _ => some line
    | _ => none

/-- The terminal was cleared. -/
def Clears (calls : List TermCall) : Prop := ∃ b line, TermCall.reset b line ∈ calls

end Winpty.Spec.Scrape
