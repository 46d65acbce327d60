import Verif.Model.AgentInput
import Verif.Spec.Agent
import Verif.Spec.Console

/-!
# Specification: what becomes of the bytes a client writes to the CONIN pipe

Stated on the record of what passed between the agent and the console's input side.
-/
namespace Winpty.Spec.Typing

open Winpty.AgentInput (Cfg State Turn Entry start loop)
open Winpty.ConsoleInput (Out Rect)
open Winpty.Agent (TermCall)
open Winpty.InputMap (Key)

/-- An agent whose console was in mode `mode` at the start has gone through the turns `ts`. -/
def Reaches (cfg : Cfg) (mode : Nat) (ts : List Turn) (s : State) : Prop :=
  ∃ (names : List (List Nat)) (connected : Bool × Bool × Bool) (cols rows : Int)
    (out err : List TermCall) (canSet : Bool) (s0 : State),
    start cfg names connected cols rows out err mode canSet = some s0 ∧ loop cfg s0 ts = some s

/-- The bytes taken from the pipe. -/
def bytesRead : List Entry → List Nat
  | [] => []
  | .read _ bytes :: hist => bytes ++ bytesRead hist
  | _ :: hist => bytesRead hist

/-- The events delivered to the console. -/
def eventsSeen : List Entry → List Out
  | [] => []
  | .event e :: hist => e :: eventsSeen hist
  | _ :: hist => eventsSeen hist

/-- The window-size events written to the console. -/
def sizesSent : List Entry → List (Int × Int)
  | [] => []
  | .size c r :: hist => (c, r) :: sizesSent hist
  | _ :: hist => sizesSent hist

/-- The console mode found last. -/
def lastMode (hist : List Entry) : Nat :=
  ((hist.filterMap fun e => match e with | .mode m => some m | _ => none).getLast?).getD 0

/-- The window found last. -/
def lastWindow (hist : List Entry) : Rect :=
  ((hist.filterMap fun e => match e with | .window r => some r | _ => none).getLast?).getD {}

/-- The clock when bytes were last read. -/
def lastRead (hist : List Entry) : Nat :=
  ((hist.filterMap fun e =>
    match e with
    | .read now (_ :: _) => some now
    | _ => none).getLast?).getD 0

/-- The console has asked for VT input (bit 9 of its mode). -/
def wantsVt (hist : List Entry) : Bool := (lastMode hist).testBit 9

/-- The console has asked for mouse input (bit 4), and not for its own selection by mouse (bit 6). -/
def wantsMouse (hist : List Entry) : Bool := (lastMode hist).testBit 4 && !(lastMode hist).testBit 6

/-- More than a second has passed (the clock counts milliseconds and has 32 bits). -/
def Late (since now : Nat) : Prop := 1000 < (now + 2 ^ 32 - since) % 2 ^ 32

/-- The beginning of a report, of a mouse report or of a key's sequence, or a character of which bytes
are missing (perhaps after an ESC). -/
def Beginning (keys : List (List Nat × Key)) (bs : List Nat) : Prop :=
  (∃ more, more ≠ [] ∧
    (IsReport (bs ++ more) ∨ (∃ r, MouseReport (bs ++ more) r) ∨ ∃ k, (bs ++ more, k) ∈ keys)) ∨
  ∃ part, (bs = part ∨ bs = 27 :: part) ∧ CutCharacter part

/-- The record of a session in which everything typed is understood, in the order typed, and the bytes
not understood yet.  Whenever bytes are read, the bytes waiting and the new ones are cut into items;
the events delivered are the meanings of the items; only the beginning of an item waits for more.
When it has waited for more than a second it is cut into items as it is, and what remains of a
character of which bytes are missing is dropped. -/
inductive Hears (keys : List (List Nat × Key)) : List Entry → List Nat → Prop
  | start : Hears keys [] []
  | mode (hist : List Entry) (waiting : List Nat) (m : Nat) (h : Hears keys hist waiting) :
      Hears keys (hist ++ [.mode m]) waiting
  | window (hist : List Entry) (waiting : List Nat) (r : Rect) (h : Hears keys hist waiting) :
      Hears keys (hist ++ [.window r]) waiting
  | size (hist : List Entry) (waiting : List Nat) (c r : Int) (h : Hears keys hist waiting) :
      Hears keys (hist ++ [.size c r]) waiting
  | read (hist : List Entry) (waiting bytes : List Nat) (now : Nat) (items : List (List Nat))
      (evs : List Out) (waiting' : List Nat) (h : Hears keys hist waiting)
      (cut : waiting ++ bytes = items.flatten ++ waiting')
      (means : Meanings keys (wantsVt hist) items evs)
      (waits : waiting' = [] ∨ Beginning keys waiting') :
      Hears keys (hist ++ .read now bytes :: evs.map .event) waiting'
  | early (hist : List Entry) (waiting : List Nat) (now : Nat) (h : Hears keys hist waiting)
      (soon : waiting = [] ∨ ¬ Late (lastRead hist) now) :
      Hears keys (hist ++ [.check now]) waiting
  | late (hist : List Entry) (waiting : List Nat) (now : Nat) (items : List (List Nat)) (evs : List Out)
      (dropped : List Nat) (h : Hears keys hist waiting) (due : Late (lastRead hist) now)
      (cut : waiting = items.flatten ++ dropped)
      (means : Meanings keys (wantsVt hist) items evs)
      (part : dropped = [] ∨ ∃ part, (dropped = part ∨ dropped = 27 :: part) ∧ CutCharacter part) :
      Hears keys (hist ++ .check now :: evs.map .event) []

end Winpty.Spec.Typing

namespace Winpty.Spec.Typing

/-- How many status queries the terminal was sent. -/
def queriesSent : List Winpty.Agent.Entry → Nat
  | [] => 0
  | .conout .dsr _ :: log => queriesSent log + 1
  | _ :: log => queriesSent log

/-- How many resizes were carried out. -/
def resizesMade : List Winpty.Agent.Entry → Nat
  | [] => 0
  | .resized _ _ :: log => resizesMade log + 1
  | _ :: log => resizesMade log

end Winpty.Spec.Typing

namespace Winpty.Spec.Typing

/-- The timeout has been checked at least once: the poll timer has fired. -/
def polled (hist : List Winpty.AgentInput.Entry) : Bool :=
  hist.any fun e => match e with | .check _ => true | _ => false

/-- The terminal's mouse should report, given the mouse mode the client asked for (1: automatic, 2:
always) and the console's mode: mouse input on (bit 4), quick edit off (bit 6), and these bits
meaningful (bit 7). -/
def terminalMouse (mouseMode mode : Nat) : Bool :=
  mouseMode = 2 || (mouseMode = 1 && mode.testBit 4 && !mode.testBit 6 && mode.testBit 7)

end Winpty.Spec.Typing
