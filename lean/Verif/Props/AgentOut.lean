import Verif.Lemmas.AgentOut
import Verif.Props.Agent
import Verif.Props.Output

/-!
# C62: what is on the output pipes over a whole session

`ReachesValid cfg ts s` is `Reaches cfg ts s` with scrapers that pass 16-bit characters and
non-negative columns to their terminal.
-/
namespace Winpty.Props
open Winpty.Agent Winpty.Spec.Agent Winpty.Spec.Output

/-- C62.  Every write to an output pipe is of one of the kinds described by `OutputOk`. -/
theorem C62_writes (cfg : Cfg) (ts : List Tick) (s : State) (h : ReachesValid cfg ts s) :
    ∀ e ∈ s.log, OutputOk cfg.plainMode cfg.outputColor e :=
  (reaches_ok h).log

/-- C62.  With plain output, everything ever written to the CONOUT pipe and to the CONERR pipe is a
sequence of characters other than ESC and, if colours were asked for, of colour selections. -/
theorem C62_plain (cfg : Cfg) (ts : List Tick) (s : State) (h : ReachesValid cfg ts s)
    (hp : cfg.plainMode = true) :
    Stream (Allowed true cfg.outputColor) (outBytes s.log) ∧
    Stream (Allowed true cfg.outputColor) (errBytes s.log) := by
  have hl := (reaches_ok h).log
  rw [hp] at hl
  generalize s.log = l at hl
  induction l with
  | nil => exact ⟨StreamOf.nil _, StreamOf.nil _⟩
  | cons e l ih =>
    obtain ⟨i1, i2⟩ := ih (fun x hx => hl x (List.mem_cons_of_mem _ hx))
    have he := hl e (List.mem_cons_self ..)
    cases e with
    | conout src b =>
      refine ⟨?_, i2⟩
      simp only [outBytes]
      cases src
      · exact StreamOf.append he i1
      · exact StreamOf.append he i1
      · exact absurd he.1 (by simp)
      · exact absurd he.1 (by simp)
      · exact absurd he.1 (by simp)
    | conerr src b => exact ⟨i1, StreamOf.append he.2 i2⟩
    | _ => exact ⟨i1, i2⟩

/-- A stream in which no control sequence is allowed has no ESC. -/
theorem stream_no_esc {bs : List Nat} (h : Stream (Allowed true false) bs) : 0x1b ∉ bs := by
  obtain ⟨toks, h1, h2⟩ := h
  rw [h1]
  intro hm
  obtain ⟨tok, ht, he⟩ := List.mem_flatten.mp hm
  rcases h2 tok ht with ⟨c, _, hc, rfl⟩ | hf
  · exact utf8_no_esc c hc he
  · simp [Allowed] at hf

/-- C62.  With plain output and no colours, no ESC is ever written to either pipe. -/
theorem C62_plain_no_escape (cfg : Cfg) (ts : List Tick) (s : State) (h : ReachesValid cfg ts s)
    (hp : cfg.plainMode = true) (hc : cfg.outputColor = false) :
    0x1b ∉ outBytes s.log ∧ 0x1b ∉ errBytes s.log := by
  have := C62_plain cfg ts s h hp
  rw [hc] at this
  exact ⟨stream_no_esc this.1, stream_no_esc this.2⟩

/-- C62, the error pipe, in every mode: nothing but characters and control sequences the mode allows;
no titles, queries or mouse modes. -/
theorem C62_conerr (cfg : Cfg) (ts : List Tick) (s : State) (h : ReachesValid cfg ts s) :
    Stream (Allowed cfg.plainMode cfg.outputColor) (errBytes s.log) ∧
    ∀ src b, .conerr src b ∈ s.log → src = .scrape ∨ src = .resize := by
  have hl := (reaches_ok h).log
  refine ⟨?_, fun src b hb => (hl _ hb).1⟩
  generalize s.log = l at hl
  induction l with
  | nil => exact StreamOf.nil _
  | cons e l ih =>
    have i2 := ih (fun x hx => hl x (List.mem_cons_of_mem _ hx))
    have he := hl e (List.mem_cons_self ..)
    cases e with
    | conerr src b => exact StreamOf.append he.2 i2
    | _ => exact i2

/-! A plain session with colours: text, a changed title, a mouse request and a status query. -/

/-- Plain output with colours. -/
def plainCfg : Cfg := { sampleCfg with plainMode := true }

/-- The ticks of the session. -/
def plainTicks : List Tick :=
  [⟨⟨0, .connected, [.done 0 samplePacket], [.done 1000 []], 0⟩,
      ⟨0, .connected, [.done 0 [0x1b]], [], 0⟩, ⟨0, .connected, [], [], 0⟩,
      ⟨0, .connected, [], [], 0⟩, 1,
      some ⟨true, false, [72], [.sendLine 0 [⟨0x1b, 7⟩, ⟨66, 7⟩] 0], [.sendLine 0 [⟨69, 12⟩] 0]⟩⟩]

/-- The state after it. -/
def plainRun : Option State :=
  (start plainCfg [[1], [2]] (false, false, false) 80 25 [.reset false 0] []).bind
    (loop plainCfg · plainTicks)

example : (plainRun.map fun s => (outBytes s.log, errBytes s.log)) =
    some ([0x1b, 0x5b, 0x30, 0x6d, 0x3f, 66],
      [0x1b, 0x5b, 0x30, 0x3b, 0x33, 0x31, 0x3b, 0x39, 0x31, 0x6d, 69]) := by decide +kernel

/-- The same session without `plainMode` also has a title, a query and mouse modes. -/
example : (((start sampleCfg [[1], [2]] (false, false, false) 80 25 [.reset false 0] []).bind
      (loop sampleCfg · plainTicks)).map fun s =>
      s.log.filterMap fun e => match e with | .conout src _ => some src | _ => none) =
    some [.dsr, .title, .scrape, .mouse] := by decide +kernel

example (s : State) (h : plainRun = some s) : ReachesValid plainCfg plainTicks s := by
  obtain ⟨s0, h0, h1⟩ := Option.bind_eq_some_iff.1 h
  refine ⟨?_, ?_, _, _, _, _, _, _, s0, ?_, h0, h1⟩
  · intro n c hc
    simp [plainCfg, sampleCfg] at hc
    subst hc; trivial
  · intro t ht e he c hc
    simp only [plainTicks, List.mem_singleton] at ht
    subst ht
    cases he
    simp at hc
    rcases hc with rfl | rfl <;> simp [ValidCall]
  · intro c hc
    simp at hc
    subst hc; trivial

example : plainRun.isSome = true := by decide +kernel

end Winpty.Props
