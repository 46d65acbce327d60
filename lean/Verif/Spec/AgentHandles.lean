import Verif.Model.AgentHandles

/-
Specification for the agent's handles (C89).
-/

namespace Winpty.Spec.AgentHandles

open Winpty.AgentHandles (Env St Obj What Use Child Op EndAct)

/-- Windows never gives a handle a value that is in use, and the three standard handles are different. -/
def Sane (env : Env) : Prop :=
  (∀ inUse, env.alloc inUse ∉ inUse) ∧ env.stdin ≠ env.stdout ∧ env.stdin ≠ env.stderr ∧ env.stdout ≠ env.stderr

/-- The handles that there is a reason for: the console's three; that of the screen buffer for errors; that of the
child process; those of the open pipes; and those the client was told about and has not taken yet.  The first four
are the only ones that a child process can inherit. -/
def accounted (env : Env) (s : St) : List (Nat × Obj) :=
  [(env.stdin, ⟨.input, true⟩), (env.stdout, ⟨.screen 0, true⟩), (env.stderr, ⟨.screen 0, true⟩)] ++
  s.err.toList.map (fun h => (h, ⟨.screen 1, true⟩)) ++
  s.child.toList.map (fun h => (h, ⟨.process, false⟩)) ++
  s.pipes.map (fun h => (h, ⟨.pipe, false⟩)) ++
  s.given.map (fun g => (g.1, ⟨g.2, false⟩))

/-- The screen buffer that has to be used: with a separate one for errors, always the same two, whichever is active;
otherwise the active one. -/
def RightScreen (useConerr : Bool) (u : Use) : Prop :=
  if u.forErrors then useConerr = true ∧ u.what = some (.screen 1)
  else if useConerr then u.what = some (.screen 0)
  else u.what = some (.screen u.active)

/-- What a child process gets: nothing but the console's handles and the screen buffer for errors, and these only if
there is such a screen buffer; its output goes to the first screen buffer and its errors to that for errors. -/
def RightChild (useConerr : Bool) (c : Child) : Prop :=
  if useConerr then
    c.inherits.Perm [.input, .screen 0, .screen 0, .screen 1] ∧
    c.std = some (some .input, some (.screen 0), some (.screen 1))
  else c.inherits = [] ∧ c.std = none

/-- What goes on for as long as nothing is started or ends: polls, resizes, other screen buffers becoming active. -/
def Quiet : Op → Prop
  | .poll exited _ => exited = false
  | .resize _ => True
  | .activate _ => True
  | _ => False

/-- How long the agent waits while it ends. -/
def waits : List EndAct → Nat
  | [] => 0
  | .sleep ms :: rest => ms + waits rest
  | _ :: rest => waits rest

/-- Something that Windows refused, or a second child process: what the agent ends for. -/
def Refused (s : St) : Op → Prop
  | .poll _ ok => s.useConerr = false ∧ s.closing = false ∧ ok = false
  | .resize ok => s.useConerr = false ∧ ok = false
  | .spawn _ created wantProcess wantThread okProcess okThread =>
    s.child ≠ none ∨ s.closing = true ∨
    (created = true ∧ ((wantProcess = true ∧ okProcess = false) ∨ (wantThread = true ∧ okThread = false)))
  | _ => False

end Winpty.Spec.AgentHandles
