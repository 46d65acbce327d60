import Verif.Spec.Scraper

/-!
# Specification: histories of polls of a console

A history starts with a console without markers and goes on with polls; between polls, and, where the
agent does not freeze the console, during polls, programs run.  The console has 3000 lines (it is
scrolling) or a program has changed that (the agent then is in direct mode).
-/
namespace Winpty.Spec.Scrape

open Winpty.Scraper (Con Info S Sys SyncViews Result Request scrapeBuffer resizeWindow)
open Winpty.SmallRect (Coord)
open Winpty.ConsoleLine (Cell)
open Winpty.Agent (TermCall)

/-- A program may let lines scroll out of the buffer only if the agent has marked the buffer, which it
does when it finds the window far enough down (`Track.guarded`).  (What happens otherwise is the
subject of `C25_unmarked_scroll_defect`.) -/
def Noticeable (t : Track) (k : Nat) : Prop := 0 < k → t.guarded = true

/-- What can happen at and before a poll: programs write and let lines scroll out, or they do
anything at all and move the window upward. -/
structure Happens (sys : Sys) (H W : Int) (c : Con) (t : Track) (frozen : Bool)
    (v : SyncViews) : Prop where
  info : InfoOk v.first.info
  height : v.first.info.window.height ≤ H
  width : v.first.info.size.x ≤ W
  what : (∃ k k', RanUntil sys frozen c v k k' ∧ Noticeable t k') ∨
    (v.first.info.window.top < t.windowTop ∧ AnythingUntil sys frozen c v)

/-- What has to have been transferred after a poll or a resize with the outcome `r`. -/
inductive Polls (sys : Sys) (c : Con) (t : Track) (frozen : Bool) (v : SyncViews)
    (r : Result) : Track → Prop
  /-- programs wrote, and let lines scroll out; the terminal was not cleared -/
  | kept {k k' : Nat} : RanUntil sys frozen c v k k' → Noticeable t k' → ¬ Clears r.calls →
      Polls sys c t frozen v r
        (t.scrape (if r.frozen then k' else k) v.first.info (contentOf sys frozen v r) v.mask)
  /-- the same, but the terminal was cleared -/
  | cleared {k k' : Nat} : RanUntil sys frozen c v k k' → Noticeable t k' → Clears r.calls →
      Polls sys c t frozen v r
        ((Track.start v.first.info.window.top).scrape 0 v.first.info (contentOf sys frozen v r) v.mask)
  /-- programs did anything at all and moved the window upward -/
  | movedUp : v.first.info.window.top < t.windowTop → AnythingUntil sys frozen c v →
      Polls sys c t frozen v r
        { (Track.start v.first.info.window.top).scrape 0 v.first.info (contentOf sys frozen v r) v.mask with
          guarded := false }

/-- The top row of the window that the agent asked for last. -/
def askedTop (requests : List Request) : Option Int :=
  requests.getLast?.bind fun request =>
    match request with
    | .moveWindow rect => some rect.top
    | .resizeBuffer _ => none

/-- What becomes of the console while it is resized, `c` being the console after the agent has blanked
everything above the window: what is above the window stays, nothing else looks like a marker, and the
window is where the agent asked for it or further down. -/
structure Resized (c c' : Con) (windowTop : Int) : Prop where
  kept : ∀ (x r : Int), 0 ≤ x → x < c.info.size.x → x < c'.info.size.x → 0 ≤ r →
    r < c.info.window.top → c'.screen x r = c.screen x r
  genuine : ∀ (i : Int) (n : Nat), 0 ≤ i → n < 2 ^ 32 → MarkerAt c' i n → i + 15 < c.info.window.top
  width : 1 ≤ c'.info.size.x
  down : windowTop ≤ c'.info.window.top

/-- A resize to `size` in which the console does not move its window upward on its own, and in which
the agent does not have to move it above the line that was in the top row of the terminal when the
terminal was last cleared (to make room for a higher window at the end of the buffer; what happens
then is the subject of `C25_above_base_defect`). -/
structure ResizeOk (H : Int) (size : Coord) (v : SyncViews) (t : Track) : Prop where
  rows : 1 ≤ size.y ∧ size.y ≤ 3000 ∧ size.y ≤ H
  largest : 1 ≤ v.resize.largest.y ∧ v.resize.largest.y ≤ 32767
  info : InfoOk v.resize.beforeExpand.info
  still : min (3000 - size.y) v.first.info.window.top ≤ v.resize.beforeExpand.info.window.top
  base : t.base ≤ 3000 - size.y + t.offset

/-! ## Direct mode -/

/-- A console whose buffer a program has given another height: a window inside the buffer. -/
def DirectInfoOk (info : Info) : Prop :=
  info.size.y ≠ 3000 ∧ info.size.y ≤ 32767 ∧ info.size.x ≤ 32767 ∧
  0 ≤ info.window.left ∧ info.window.left ≤ info.window.right ∧ info.window.right < info.size.x ∧
  0 ≤ info.window.top ∧ info.window.top ≤ info.window.bottom ∧ info.window.bottom < info.size.y

/-- How many columns of the window a terminal of this size shows (2500 at most). -/
def shownCols (info : Info) (size : Coord) : Int :=
  min (min (info.window.right - info.window.left + 1) size.x) 2500

/-- How many rows of the window a terminal of this size shows (3000 at most). -/
def shownRows (info : Info) (size : Coord) : Int :=
  min (min (info.window.bottom - info.window.top + 1) size.y) 3000

/-- The part of a row of the window (counted from 0) that the terminal shows. -/
def windowRow (c : Con) (info : Info) (size : Coord) (mask : Nat) (row : Int) : List Cell :=
  (List.range (shownCols info size).toNat).map fun x : Nat =>
    masked mask (c.screen (info.window.left + x) (info.window.top + row))

/-- The rows of the terminal after a poll: those of the window; further down nothing has changed. -/
def directRows (rows : Int → Option (List Cell)) (c : Con) (info : Info) (size : Coord) (mask : Nat) :
    Int → Option (List Cell) := fun l =>
  if 0 ≤ l ∧ l < shownRows info size then some (windowRow c info size mask l) else rows l

/-- The console that a poll in direct mode reads (unless the console is frozen, it is another one than
the one first asked for its sizes). -/
def directContent (sys : Sys) (frozen : Bool) (v : SyncViews) : Con :=
  if frozenThroughout sys frozen then v.first else v.frozen

/-! ## Histories -/

/-- What has to have been transferred: of a scrolling console the lines, by their numbers; in direct
mode the rows of the terminal. -/
inductive Shown where
  | scrolling (t : Track)
  | direct (rows : Int → Option (List Cell))

/-- The rows of the terminal at the beginning of a poll in direct mode: the terminal is cleared when
direct mode is entered. -/
def Shown.rows : Shown → Int → Option (List Cell)
  | .scrolling _ => fun _ => none
  | .direct rows => rows

/-- After polls and resizes (`n` counts a resize of a scrolling console twice): the state of the
scraper, the console as the agent left it, what had to be transferred since the terminal was last
cleared, and all calls made to the terminal.  The window (or, in direct mode, what is shown of it) is
never higher than `H`, and the buffer (or what is shown of the window) never wider than `W`; `line` is
where the window began. -/
inductive History (sys : Sys) (H W line : Int) : Nat → S → Con → Shown → List TermCall → Prop
  | start (ptySize : Coord) (c : Con) : InfoOk c.info → c.info.window.height ≤ H →
      c.info.window.top = line → (∀ i n, 0 ≤ i → n < 2 ^ 32 → ¬ MarkerAt c i n) →
      History sys H W line 0 (Scraper.init ptySize line).1 c (.scrolling (Track.start line)) []
  | poll {n : Nat} {s : S} {c : Con} {t t' : Track} {calls : List TermCall} (frozen : Bool)
      (v : SyncViews) {r : Result} : History sys H W line n s c (.scrolling t) calls →
      InfoOk v.first.info → v.first.info.window.height ≤ H → v.first.info.size.x ≤ W →
      scrapeBuffer sys s frozen v = some r → Polls sys c t frozen v r t' →
      History sys H W line (n + 1) r.state r.con (.scrolling t') (calls ++ r.calls)
  /-- the terminal was resized; the console is first polled as if it were frozen -/
  | resize {n : Nat} {s : S} {c : Con} {t t' : Track} {calls : List TermCall} (frozen : Bool)
      (size : Coord) (v : SyncViews) {r : Result} {top : Int} (c' : Con) :
      History sys H W line n s c (.scrolling t) calls → InfoOk v.first.info →
      v.first.info.window.height ≤ H → v.first.info.size.x ≤ W →
      resizeWindow sys s frozen size v = some r → Polls sys c t true v r t' →
      ResizeOk H size v t' → askedTop r.requests = some top → Resized r.con c' top →
      History sys H W line (n + 2) r.state c' (.scrolling (t'.resize size.y top)) (calls ++ r.calls)
  /-- a poll finds that the buffer has not 3000 lines (perhaps for the first time) -/
  | directPoll {n : Nat} {s : S} {c : Con} {sh : Shown} {calls : List TermCall} (frozen : Bool)
      (v : SyncViews) {r : Result} : History sys H W line n s c sh calls → DirectInfoOk v.first.info →
      1 ≤ s.ptySize.x → 1 ≤ s.ptySize.y → shownRows v.first.info s.ptySize ≤ H →
      shownCols v.first.info s.ptySize ≤ W → scrapeBuffer sys s frozen v = some r →
      Anything c (directContent sys frozen v) →
      History sys H W line n r.state r.con
        (.direct (directRows sh.rows (directContent sys frozen v) v.first.info s.ptySize v.mask))
        (calls ++ r.calls)
  /-- the terminal is resized while the buffer has not 3000 lines; what the agent takes to be the
  window still lies in the buffer after the resize (see `C69_stale_window_defect`) -/
  | directResize {n : Nat} {s : S} {c : Con} {sh : Shown} {calls : List TermCall} (frozen : Bool)
      (size : Coord) (v : SyncViews) {r : Result} : History sys H W line n s c sh calls →
      DirectInfoOk v.first.info → 1 ≤ size.x → 1 ≤ size.y → shownRows v.first.info size ≤ H →
      shownCols v.first.info size ≤ W → resizeWindow sys s frozen size v = some r →
      v.first.info.window.left + shownCols v.first.info size ≤ v.resize.last.info.size.x →
      v.first.info.window.top + shownRows v.first.info size ≤ v.resize.last.info.size.y →
      Anything c v.resize.last →
      History sys H W line n r.state r.con
        (.direct (directRows sh.rows v.resize.last v.first.info size v.mask)) (calls ++ r.calls)
  /-- a poll in direct mode finds that the buffer has 3000 lines again: the terminal is cleared, the
  console polled and then resized -/
  | backPoll {n : Nat} {s : S} {c : Con} {rows : Int → Option (List Cell)} {t' : Track}
      {calls : List TermCall} (frozen : Bool) (v : SyncViews) {r : Result} {top : Int} (c' : Con) :
      History sys H W line n s c (.direct rows) calls → InfoOk v.first.info →
      v.first.info.window.height ≤ H → v.first.info.size.x ≤ W → scrapeBuffer sys s frozen v = some r →
      (directContent sys frozen v).info = v.first.info → Anything c (directContent sys frozen v) →
      t' = (Track.start v.first.info.window.top).scrape 0 v.first.info (directContent sys frozen v) v.mask →
      ResizeOk H s.ptySize v t' → askedTop r.requests = some top → Resized r.con c' top →
      History sys H W line (n + 2) r.state c' (.scrolling (t'.resize s.ptySize.y top)) (calls ++ r.calls)
  /-- the same when the terminal is resized -/
  | backResize {n : Nat} {s : S} {c : Con} {rows : Int → Option (List Cell)} {t' : Track}
      {calls : List TermCall} (frozen : Bool) (size : Coord) (v : SyncViews) {r : Result} {top : Int}
      (c' : Con) : History sys H W line n s c (.direct rows) calls → InfoOk v.first.info →
      v.first.info.window.height ≤ H → v.first.info.size.x ≤ W →
      resizeWindow sys s frozen size v = some r → Anything c v.first →
      t' = (Track.start v.first.info.window.top).scrape 0 v.first.info v.first v.mask →
      ResizeOk H size v t' → askedTop r.requests = some top → Resized r.con c' top →
      History sys H W line (n + 2) r.state c' (.scrolling (t'.resize size.y top)) (calls ++ r.calls)

/-- A history at the end of which the console is scrolling. -/
abbrev Session (sys : Sys) (H W line : Int) (n : Nat) (s : S) (c : Con) (t : Track)
    (calls : List TermCall) : Prop := History sys H W line n s c (.scrolling t) calls

end Winpty.Spec.Scrape
