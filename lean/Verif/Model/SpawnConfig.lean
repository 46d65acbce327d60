import Verif.Model.Client
import Verif.Model.Startup

/-!
# Model of `winpty_spawn_config_new`
-/
namespace Winpty.SpawnConfig

open Winpty.Client (SpawnConfig)
open Winpty.Startup (wcslen wstringFromEnvBlock EnvRes)

/-- How `winpty_spawn_config_new` ends: with a configuration, by an `ASSERT`, or by reading past the memory of an
argument.  src/libwinpty/winpty.cc:800-817.  Simplification: memory does not run out. -/
inductive NewRes where
  | ok (c : SpawnConfig)
  | assertFail
  | overRead
deriving DecidableEq

/-- `if (s != nullptr) { field = s; }`, src/libwinpty/winpty.cc:811-813: `none` is a null pointer, otherwise the
memory at the pointer. -/
def optionalString : Option (List Nat) → Option (List Nat)
  | none => some []
  | some mem => (wcslen mem).map fun n => mem.take n

/-- `winpty_spawn_config_new`, src/libwinpty/winpty.cc:800-817. -/
def spawnConfigNew (flags : Nat) (appname cmdline cwd env : Option (List Nat)) : NewRes :=
  if flags &&& 3 ≠ flags then .assertFail
  else
    match optionalString appname, optionalString cmdline, optionalString cwd with
    | some a, some c, some d =>
      match wstringFromEnvBlock env with
      | .ok e => .ok ⟨flags, a, c, d, e⟩
      | .overRead => .overRead
      | .assertFail => .assertFail
    | _, _, _ => .overRead

end Winpty.SpawnConfig
