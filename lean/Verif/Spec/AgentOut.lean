import Verif.Spec.Agent
import Verif.Spec.Output

/-!
# Specification: what the agent may write to its output pipes
-/
namespace Winpty.Spec.Agent

open Winpty.Agent (Entry Source TermCall Tick Cfg State start loop)
open Winpty.Spec.Output (Stream Allowed)

/-- A call a scraper can make: characters are 16-bit units and columns are not negative. -/
def ValidCall : TermCall → Prop
  | .sendLine _ cells _ => ∀ c ∈ cells, c.ch < 65536
  | .showCursor column _ => 0 ≤ column
  | _ => True

/-- As `Reaches`, and all the calls the scrapers made are valid. -/
def ReachesValid (cfg : Cfg) (ts : List Tick) (s : State) : Prop :=
  (∀ n, ∀ c ∈ (cfg.env n).resizeOut ++ (cfg.env n).resizeErr, ValidCall c) ∧
  (∀ t ∈ ts, ∀ e, t.poll = some e → ∀ c ∈ e.scrapeOut ++ e.scrapeErr, ValidCall c) ∧
  ∃ (names : List (List Nat)) (connected : Bool × Bool × Bool) (cols rows : Int)
    (out err : List TermCall) (s0 : State),
    (∀ c ∈ out ++ err, ValidCall c) ∧
    start cfg names connected cols rows out err = some s0 ∧ loop cfg s0 ts = some s

/-- What a write to an output pipe consists of.  Titles, cursor-position queries and mouse-mode
sequences go only to CONOUT and only if the output is not plain; everything else is a sequence of
whole characters and of control sequences the mode allows. -/
def OutputOk (plain colour : Bool) : Entry → Prop
  | .conout .title b => plain = false ∧ b.take 4 = [0x1b, 0x5d, 0x30, 0x3b]
  | .conout .dsr b => plain = false ∧ b = [0x1b, 0x5b, 0x36, 0x6e]
  | .conout .mouse b => plain = false ∧ Stream (Allowed plain colour) b
  | .conout _ b => Stream (Allowed plain colour) b
  | .conerr src b => (src = .scrape ∨ src = .resize) ∧ Stream (Allowed plain colour) b
  | _ => True

end Winpty.Spec.Agent
