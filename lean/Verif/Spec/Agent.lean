import Verif.Model.Agent

/-!
# Specification: what is observed of the agent

Everything here is read off the log of what the agent did (`Entry`).
-/
namespace Winpty.Spec.Agent

open Winpty.Agent (Entry Source)

/-- Everything written to the CONOUT pipe. -/
def outBytes : List Entry → List Nat
  | [] => []
  | .conout _ b :: es => b ++ outBytes es
  | _ :: es => outBytes es

/-- Everything written to the CONERR pipe. -/
def errBytes : List Entry → List Nat
  | [] => []
  | .conerr _ b :: es => b ++ errBytes es
  | _ :: es => errBytes es

/-- Everything written to the control pipe. -/
def controlBytes : List Entry → List Nat
  | [] => []
  | .control b :: es => b ++ controlBytes es
  | _ :: es => controlBytes es

/-- What the terminal writer wrote to the CONOUT pipe: everything but titles and status queries. -/
def termBytes : List Entry → List Nat
  | [] => []
  | .conout .scrape b :: es => b ++ termBytes es
  | .conout .resize b :: es => b ++ termBytes es
  | .conout .mouse b :: es => b ++ termBytes es
  | _ :: es => termBytes es

/-- The mouse-mode sequences written to the CONOUT pipe. -/
def mouseWrites : List Entry → List (List Nat)
  | [] => []
  | .conout .mouse b :: es => b :: mouseWrites es
  | _ :: es => mouseWrites es

/-- The entry is output of this kind, on either output pipe. -/
def IsOutput (src : Source) (e : Entry) : Prop := (∃ b, e = .conout src b) ∨ (∃ b, e = .conerr src b)

/-- The entry is the handling of a request, or its consequence. -/
def IsRequest : Entry → Prop
  | .packet _ | .createProcess _ | .resized _ _ | .control _ => True
  | _ => False

/-- A size passed to the scrapers is within the limits of the agent. -/
def SizeOk : Entry → Prop
  | .resized cols rows => 1 ≤ cols ∧ cols ≤ 2500 ∧ 1 ≤ rows ∧ rows ≤ 2000
  | _ => True

/-- The sequences that turn mouse reports on (1005 off, then 1000, 1002, 1003, 1015 and 1006 on) and
off again (1006, 1015, 1003, 1002 and 1000 off): `ESC [ ? n h` and `ESC [ ? n l`. -/
def mouseOn : List Nat :=
  [0x1b, 0x5b, 0x3f, 0x31, 0x30, 0x30, 0x35, 0x6c, 0x1b, 0x5b, 0x3f, 0x31, 0x30, 0x30, 0x30, 0x68,
   0x1b, 0x5b, 0x3f, 0x31, 0x30, 0x30, 0x32, 0x68, 0x1b, 0x5b, 0x3f, 0x31, 0x30, 0x30, 0x33, 0x68,
   0x1b, 0x5b, 0x3f, 0x31, 0x30, 0x31, 0x35, 0x68, 0x1b, 0x5b, 0x3f, 0x31, 0x30, 0x30, 0x36, 0x68]

@[inherit_doc mouseOn]
def mouseOff : List Nat :=
  [0x1b, 0x5b, 0x3f, 0x31, 0x30, 0x30, 0x36, 0x6c, 0x1b, 0x5b, 0x3f, 0x31, 0x30, 0x31, 0x35, 0x6c,
   0x1b, 0x5b, 0x3f, 0x31, 0x30, 0x30, 0x33, 0x6c, 0x1b, 0x5b, 0x3f, 0x31, 0x30, 0x30, 0x32, 0x6c,
   0x1b, 0x5b, 0x3f, 0x31, 0x30, 0x30, 0x30, 0x6c]

/-- `n` times on and off again. -/
def mousePairs : Nat → List (List Nat)
  | 0 => []
  | n + 1 => mouseOn :: mouseOff :: mousePairs n

/-- Not an action of the poll before closing has begun: no scraped output, no title, no scrape, no
second noticing of the exit. -/
def Quiet (e : Entry) : Prop :=
  ¬ IsOutput .scrape e ∧ ¬ IsOutput .title e ∧ e ≠ .scraped ∧ e ≠ .childExited

/-- The child's exit was noticed once; after that came at most a title, then one scrape with its
output, then only quiet entries. -/
def Settled (log : List Entry) : Prop :=
  ∃ before title final rest,
    log = before ++ .childExited :: (title ++ .scraped :: (final ++ rest)) ∧
    .childExited ∉ before ∧ (∀ e ∈ title, IsOutput .title e) ∧ (∀ e ∈ final, IsOutput .scrape e) ∧
    ∀ e ∈ rest, Quiet e

/-- Some entry `a`, and after it some entry `b`. -/
def Then (a b : Entry) (es : List Entry) : Prop := ∃ x y, es = x ++ a :: y ∧ b ∈ y

open Winpty.Agent (Cfg State TermCall Tick start loop) in
/-- The agent, started in some way, is in state `s` after these turns of its event loop. -/
def Reaches (cfg : Cfg) (ts : List Tick) (s : State) : Prop :=
  ∃ (names : List (List Nat)) (connected : Bool × Bool × Bool) (cols rows : Int)
    (out err : List TermCall) (s0 : State),
    start cfg names connected cols rows out err = some s0 ∧ loop cfg s0 ts = some s

/-- The terminal's reading of a title sequence, `ESC ] 0 ; title BEL`: the title and what is left of
the input. -/
def readTitle (bytes : List Nat) : Option (List Nat × List Nat) :=
  if bytes.take 4 = [0x1b, 0x5d, 0x30, 0x3b] ∧ 0x07 ∈ bytes.drop 4 then
    some ((bytes.drop 4).takeWhile (· ≠ 0x07), ((bytes.drop 4).dropWhile (· ≠ 0x07)).drop 1)
  else none

end Winpty.Spec.Agent
