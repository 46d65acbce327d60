import Verif.Spec.Agent
import Verif.Spec.Scraper

/-!
# Specification: what the agent has asked of the client's terminal

Read off the log of what the agent did, together with what its scraper answered.
-/
namespace Winpty.Spec.ClientView

open Winpty.Agent (Entry PacketEnv PollEnv TermCall)

/-- The calls the scraper of the CONOUT pipe has made since it was set up, in the order in which they
were made: when the terminal was resized because of a packet, those of the answer to that packet
(`n` packets have been handled before this log); when the console was scraped, those of the answer to
that poll (`polls` are the polls still to come).  The first size is set without a packet, and nothing
is scraped then. -/
def callsMade (env : Nat → PacketEnv) : Nat → List PollEnv → List Entry → List TermCall
  | _, _, [] => []
  | n, polls, .packet _ :: log => callsMade env (n + 1) polls log
  | n + 1, polls, .resized _ _ :: log => (env n).resizeOut ++ callsMade env (n + 1) polls log
  | n, poll :: polls, .scraped :: log => poll.scrapeOut ++ callsMade env n polls log
  | n, polls, _ :: log => callsMade env n polls log

/-- How often the console has been scraped. -/
def scrapes : List Entry → Nat
  | [] => 0
  | .scraped :: log => scrapes log + 1
  | _ :: log => scrapes log

/-- The polls at which the console was scraped. -/
def pollsMade (polls : List PollEnv) (log : List Entry) : List PollEnv := polls.take (scrapes log)

/-- The console's title at the last of these polls. -/
def lastTitle (polls : List PollEnv) : Option (List Nat) := (polls.map (·.title)).getLast?

/-- The mouse was wanted at the last of these polls. -/
def lastMouse (polls : List PollEnv) : Bool := ((polls.map (·.wantMouse)).getLast?).getD false

/-- Text without control characters. -/
def Clean (title : List Nat) : Prop := ∀ b ∈ title, 0x20 ≤ b ∧ b ≠ 0x7f

open Winpty.Agent (Cfg State Tick start loop)
open Winpty.Spec.Agent (outBytes)
open Winpty.Spec.Term (Want OpsOk CfgOk FreshEmu)
open Winpty.Spec.Scrape (opOf)

/-- An agent, started when the top row of the console's window was `line`, has gone through the turns
`ts` of its event loop; a terminal `vcfg`, in the state `e0` at the beginning, reads its output.  The
agent is not in plain mode, and the titles it sees have no control characters. -/
structure Watched (cfg : Cfg) (vcfg : Spec.Vt.Cfg) (e0 : Spec.Vt.Emu) (line : Int) (ts : List Tick)
    (s : State) : Prop where
  run : ∃ (names : List (List Nat)) (connected : Bool × Bool × Bool) (cols rows : Int)
    (err : List TermCall) (s0 : State),
    start cfg names connected cols rows [.reset false line] err = some s0 ∧ loop cfg s0 ts = some s
  plain : cfg.plainMode = false
  titles : ∀ t ∈ ts, ∀ e, t.poll = some e → Clean (cfg.utf8FromWide e.title)
  terminal : CfgOk vcfg
  fresh : FreshEmu vcfg e0

/-- The polls in these turns. -/
def pollsOf (ts : List Tick) : List PollEnv := ts.filterMap (·.poll)

/-- The client has received everything that was written. -/
def Received (s : State) : Prop := s.conout.os.wire = outBytes s.log

/-- The calls ask for lines in the window that the terminal can show, and clear the screen when they
reset it. -/
def InKeeping (vcfg : Spec.Vt.Cfg) (line : Int) (calls : List TermCall) : Prop :=
  OpsOk vcfg (Want.start line) (calls.map opOf) ∧ ∀ l, .reset false l ∉ calls

end Winpty.Spec.ClientView
