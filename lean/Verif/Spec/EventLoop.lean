import Verif.Model.EventLoop

/-!
# Specification: a timed run of the agent's event loop, and what it must be waiting for
-/
namespace Winpty.Spec.EventLoop

open Winpty.Agent (Cfg State Tick PollEnv)
open Winpty.NamedPipe (WaitOn)
open Winpty.EventLoop

/-- When the next turn may begin: a turn, without the waiting at its end, takes at most `busy`
milliseconds, and the system ends a wait at most `late` milliseconds after its time is up.  (A wait may
end at any time before.) -/
def EndsBy (busy late now asked next : Nat) : Pause → Prop
  | .again => next ≤ now + busy
  | .sleep ms => asked ≤ now + busy ∧ (next : Int) ≤ asked + ms + late
  | .wait _ ms => asked ≤ now + busy ∧ (next : Int) ≤ asked + ms + late

/-- The agent's loop, entered with the agent `s0` at the time `start`: `Run … now s last since polls`
says that a turn can begin at the time `now` with the agent in the state `s` and the loop's variable
`lastTime` equal to `last`; the last poll ended (or the loop was entered) at the time `since`, and
`polls` are the polls so far: when the one before had ended, and when each began. -/
inductive Run (cfg : Cfg) (busy late : Nat) (s0 : State) (start : Nat) :
    Nat → State → Int → Nat → List (Nat × Nat) → Prop
  | start : Run cfg busy late s0 start start s0 (tickCount start) start []
  | turn {now since : Nat} {s : State} {last : Int} {polls : List (Nat × Nat)} {d : Done} (t : Tick)
      (e : PollEnv) (times : Times) (next : Nat) : Run cfg busy late s0 start now s last since polls →
      s.exiting = false →
      turn cfg agentInterval s last t e times = some d →
      now ≤ times.check → times.check ≤ times.polled → times.polled ≤ times.asked → times.asked ≤ next →
      EndsBy busy late now times.asked next d.pause →
      Run cfg busy late s0 start next d.agent d.last (if d.polled then times.polled else since)
        (if d.polled then polls ++ [(since, times.check)] else polls)

/-- Everything that can be in progress on the pipe is, and is among the events waited for: the
connection, a write if there is anything to write, a read if the pipe is one that is read from. -/
structure Awaited (p : NamedPipe.Pipe) (waitedFor : WaitOn → Prop) : Prop where
  connect : p.opened = true → p.connecting = true → waitedFor .connect
  write : p.opened = true → p.connecting = false → p.writing = true → p.outQueue ≠ [] →
    (∃ w, p.output = some w ∧ w.pending = true)
  read : p.opened = true → p.connecting = false → p.reading = true →
    (∃ w, p.input = some w ∧ w.pending = true)
  output : ∀ w, p.output = some w → w.pending = true → waitedFor .output
  input : ∀ w, p.input = some w → w.pending = true → waitedFor .input

/-- The agent's pipes, and what is waited for on each. -/
def AllAwaited (s : State) (handles : List (Which × WaitOn)) : Prop :=
  Awaited s.control.pipe (fun e => (.control, e) ∈ handles) ∧
  Awaited s.conin.pipe (fun e => (.conin, e) ∈ handles) ∧
  Awaited s.conout.pipe (fun e => (.conout, e) ∈ handles) ∧
  ∀ p t, s.err = some (p, t) → Awaited p.pipe (fun e => (.conerr, e) ∈ handles)

end Winpty.Spec.EventLoop
