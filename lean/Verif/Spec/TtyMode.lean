import Verif.Model.TtyMode

/-!
# Specification: terminal modes while the adapter runs

Shared with the model: the types of terminal modes and of the operating system's behaviour.
-/
namespace Winpty.Spec.TtyMode

open Winpty.TtyMode (Termios Env)

/-- Standard input is always used; standard output and standard error on request. -/
def used (setStdout setStderr : Bool) (i : Nat) : Prop :=
  i = 0 ∨ (i = 1 ∧ setStdout = true) ∨ (i = 2 ∧ setStderr = true)

/-- The adapter takes its input from this terminal. -/
def inputTty (env : Env) (t : Nat) : Prop := env.tty 0 = some t

/-- The adapter writes its output to this terminal. -/
def outputTty (env : Env) (setStdout setStderr : Bool) (t : Nat) : Prop :=
  (setStdout = true ∧ env.tty 1 = some t) ∨ (setStderr = true ∧ env.tty 2 = some t)

/-- Every key the user types reaches the adapter at once and unchanged, and none makes a signal: no
line editing, no echo, no special characters, no flow control, no translation, all eight bits. -/
structure KeysUnchanged (m : Termios) : Prop where
  noEcho : m.echo = false
  noLines : m.icanon = false
  noExtensions : m.iexten = false
  noSignals : m.isig = false
  noBreak : m.brkint = false
  noCrToNl : m.icrnl = false
  noParityCheck : m.inpck = false ∧ m.parenb = false
  allBits : m.istrip = false ∧ m.csize = 8
  noFlowControl : m.ixon = false
  atOnce : m.vmin = 1 ∧ m.vtime = 0

/-- The terminal gets every byte of the output unchanged. -/
structure OutputUnchanged (m : Termios) : Prop where
  noTranslation : m.opost = false
  allBits : m.csize = 8 ∧ m.parenb = false

/-- Two modes treat the user's keys in the same way, as far as this does not concern the form of a
character on the line. -/
structure SameKeys (m m' : Termios) : Prop where
  echo : m'.echo = m.echo
  icanon : m'.icanon = m.icanon
  iexten : m'.iexten = m.iexten
  isig : m'.isig = m.isig
  brkint : m'.brkint = m.brkint
  icrnl : m'.icrnl = m.icrnl
  inpck : m'.inpck = m.inpck
  istrip : m'.istrip = m.istrip
  ixon : m'.ixon = m.ixon
  vmin : m'.vmin = m.vmin
  vtime : m'.vtime = m.vtime

end Winpty.Spec.TtyMode
