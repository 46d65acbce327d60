import Verif.Model.SpawnConfig
import Verif.Props.ClientReply
import Verif.Props.Startup

/-!
# C56: from the arguments of `winpty_spawn_config_new` to `CreateProcessW`
-/
namespace Winpty.Props
open Winpty.Client Winpty.Spec Winpty.Spec.Client Winpty.SpawnConfig
open Winpty.Buffer (Field)

/-- The memory at an optional string argument: the text, its NUL, and whatever comes after it. -/
def stringArg (text : Option (List Nat)) (after : List Nat) : Option (List Nat) := text.map (· ++ 0 :: after)

/-- The memory at an optional environment argument. -/
def envArg (vars : Option (List (List Nat))) (after : List Nat) : Option (List Nat) :=
  vars.map (fun vs => envBlock vs ++ after)

/-- The environment as it is kept: nothing for a null pointer, else all of the block with its two NULs. -/
def wholeBlock : Option (List (List Nat)) → List Nat
  | none => []
  | some [] => [0, 0]
  | some vs => envBlock vs

private theorem optionalString_arg (text : Option (List Nat)) (after : List Nat) (h : ∀ s, text = some s → 0 ∉ s) :
    optionalString (stringArg text after) = some (text.getD []) := by
  cases text with
  | none => rfl
  | some s =>
    simp only [stringArg, Option.map_some, optionalString, Option.getD_some]
    rw [wcslen_eq s after (h s rfl)]
    simp

/-- C56.  A configuration is made of exactly the arguments: strings up to their NUL (a null pointer counts as the empty
string), the environment block whole, the flags as they are. -/
theorem C56_config (flags : Nat) (hflags : flags < 4) (app cmd cwd : Option (List Nat)) (vars : Option (List (List Nat)))
    (t1 t2 t3 t4 : List Nat) (h1 : ∀ s, app = some s → 0 ∉ s) (h2 : ∀ s, cmd = some s → 0 ∉ s)
    (h3 : ∀ s, cwd = some s → 0 ∉ s) (h4 : ∀ vs, vars = some vs → ∀ v ∈ vs, v ≠ [] ∧ 0 ∉ v) :
    spawnConfigNew flags (stringArg app t1) (stringArg cmd t2) (stringArg cwd t3) (envArg vars t4) =
      .ok { winptyFlags := flags, appname := app.getD [], cmdline := cmd.getD [], cwd := cwd.getD [],
            env := wholeBlock vars } := by
  have hf : flags &&& 3 = flags := by
    rw [show (3 : Nat) = 2 ^ 2 - 1 from rfl, Nat.and_two_pow_sub_one_eq_mod]
    omega
  unfold spawnConfigNew
  rw [if_neg (by simp [hf]), optionalString_arg app t1 h1, optionalString_arg cmd t2 h2, optionalString_arg cwd t3 h3]
  cases vars with
  | none => rfl
  | some vs =>
    simp only [envArg, Option.map_some]
    rw [(C35_block_copied vs t4 (h4 vs rfl)).1]
    cases vs with
    | nil => rfl
    | cons v vs => rfl

/-- C56.  A flag the library does not know is refused. -/
theorem C56_config_flags (flags : Nat) (hflags : 4 ≤ flags) (app cmd cwd env : Option (List Nat)) :
    spawnConfigNew flags app cmd cwd env = .assertFail := by
  have hf : flags &&& 3 ≠ flags := by
    rw [show (3 : Nat) = 2 ^ 2 - 1 from rfl, Nat.and_two_pow_sub_one_eq_mod]
    omega
  unfold spawnConfigNew
  rw [if_pos hf]

/-- What `CreateProcessW` gets for a string argument of the configuration: a null pointer for a null pointer and for
the empty string, else the text and its NUL. -/
def childString : Option (List Nat) → Option (List Nat)
  | none => none
  | some [] => none
  | some s => some (s ++ [0])

/-- What `CreateProcessW` gets for the environment: a null pointer (the agent's environment) for a null pointer, an
empty block for an empty one, else the block. -/
def childEnv : Option (List (List Nat)) → Option (List Nat)
  | none => none
  | some [] => some [0, 0]
  | some vs => some (envBlock vs)

/-- C56.  The whole way of the arguments: a configuration made from them and spawned on a session makes the agent call
`CreateProcessW` once, with exactly these strings and this environment, and, if it creates a process, shut down as the
flags say. -/
theorem C56_from_arguments (acfg : Agent.Cfg) (a : Agent.State) (s : Session) (o : SpawnOut) (flags : Nat)
    (hflags : flags < 4) (app cmd cwd : Option (List Nat)) (vars : Option (List (List Nat)))
    (t1 t2 t3 t4 : List Nat) (h1 : ∀ s, app = some s → 0 ∉ s) (h2 : ∀ s, cmd = some s → 0 ∉ s)
    (h3 : ∀ s, cwd = some s → 0 ∉ s) (h4 : ∀ vs, vars = some vs → ∀ v ∈ vs, v ≠ [] ∧ 0 ∉ v)
    (hw : a.control.pipe.writing = true) (hchild : a.child = false) (hclosing : a.closing = false)
    (haa : ∀ n, acfg.buffer.canAlloc n = true)
    (hok : ∀ hp ht, (acfg.env a.served).create = .ok (hp, ht) →
      (-2 ^ 63 ≤ hp ∧ hp < 2 ^ 63) ∧ (-2 ^ 63 ≤ ht ∧ ht < 2 ^ 63))
    (herr : ∀ c, (acfg.env a.served).create = .error c → -2 ^ 31 ≤ c ∧ c < 2 ^ 31) :
    ∃ sc, spawnConfigNew flags (stringArg app t1) (stringArg cmd t2) (stringArg cwd t3) (envArg vars t4) = .ok sc ∧
      ((∀ f ∈ requestOf s (.spawn sc o), ValidField acfg.buffer.sizeMax f) →
        ∃ a' reply, Agent.handlePacket acfg a (message (requestOf s (.spawn sc o))) = some a' ∧
          a'.log = a.log ++ [.packet (message (requestOf s (.spawn sc o))),
             .createProcess { program := childString app, cmdline := childString cmd, env := childEnv vars,
                              cwd := childString cwd, desktop := childString (some s.spawnDesktopName),
                              ownStdHandles := acfg.useConerr },
             .control reply] ∧
          (∀ r, (acfg.env a.served).create = .ok r →
            (a'.autoShutdown = true ↔ flags = 1 ∨ flags = 3) ∧ (a'.exitAfterShutdown = true ↔ flags = 2 ∨ flags = 3))) := by
  have hcs : ∀ x : Option (List Nat), nulTerminated (x.getD []) = childString x := by
    intro x
    cases x with
    | none => rfl
    | some y => cases y <;> simp [nulTerminated, childString]
  have hds : nulTerminated s.spawnDesktopName = childString (some s.spawnDesktopName) := hcs (some _)
  refine ⟨_, C56_config flags hflags app cmd cwd vars t1 t2 t3 t4 h1 h2 h3 h4, ?_⟩
  intro hav
  obtain ⟨a', reply, r1, r2, r3⟩ := C56_agent_spawn acfg a flags
    (if o.process = none then 0 else 1) (if o.thread = none then 0 else 1) (app.getD []) (cmd.getD []) (cwd.getD [])
    (wholeBlock vars) s.spawnDesktopName hw hchild hclosing hav haa hok herr
  refine ⟨a', message reply, r1, ?_, ?_⟩
  · rw [hcs, hcs, hcs, hds] at r2
    have he : (if wholeBlock vars = [] then none else some (wholeBlock vars)) = childEnv vars := by
      cases vars with
      | none => rfl
      | some vs =>
        cases vs with
        | nil => rfl
        | cons v vs => simp [childEnv, wholeBlock, envBlock]
    rw [he] at r2
    exact r2
  · intro r hr
    rw [hr] at r3
    obtain ⟨_, _, r4, r5⟩ := r3
    rw [r4, r5]
    simp only [beq_iff_eq]
    omega

-- a program with arguments, the caller's directory, and one variable
example : spawnConfigNew 1 none (stringArg (some [99, 109, 100]) [7]) none (envArg (some [[65, 61, 49]]) [7, 0]) =
    .ok ⟨1, [], [99, 109, 100], [], [65, 61, 49, 0, 0]⟩ :=
  C56_config 1 (by decide) none (some [99, 109, 100]) none (some [[65, 61, 49]]) [] [7] [] [7, 0] (by simp) (by simp)
    (by simp) (by simp)

end Winpty.Props
