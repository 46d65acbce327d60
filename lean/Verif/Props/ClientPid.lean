import Verif.Model.ClientPid
import Verif.Props.Open
/-!
# C58: the check of the process at the other end is left out only where Windows has none
-/
namespace Winpty.Props
open Winpty.ClientPid

/-- **C58.**  If `kernel32.dll` has the function `GetNamedPipeClientProcessId`, the check succeeds only
if Windows says that the process at the other end is the agent that was started: not if it names another
process, and not if it cannot tell.  Only a Windows without that function is trusted without a check. -/
theorem C58_check (sys : Sys) (hl : sys.loaded = true) (env : Open.AgentEnv) (w : Open.W) (pipe : Int)
    (agentPid : Nat) :
    ∃ r, getNamedPipeClientProcessId sys = some r ∧
      ((∃ w', Open.verifyPipeClientPid { env with clientPid := answer r } w pipe agentPid = .ok () w') ↔
        (sys.exported = true → sys.succeeds = true ∧ sys.pid = agentPid)) := by
  obtain ⟨loaded, exported, succeeds, pid, lastError⟩ := sys
  cases hl
  cases exported <;> cases succeeds
  · exact ⟨_, rfl, by simp [Open.verifyPipeClientPid, answer]⟩
  · exact ⟨_, rfl, by simp [Open.verifyPipeClientPid, answer]⟩
  · exact ⟨_, rfl, by simp [Open.verifyPipeClientPid, answer]⟩
  · refine ⟨_, rfl, ?_⟩
    by_cases h : pid = agentPid
    · simp [Open.verifyPipeClientPid, answer, h]
    · simp [Open.verifyPipeClientPid, answer, h]

example : getNamedPipeClientProcessId ⟨true, true, true, 42, 0⟩ = some (.success, 42, 0) := rfl

/-- **C58.**  If Windows cannot tell, the code Windows gave is the one the caller's message is made
from. -/
theorem C58_check_error (sys : Sys) (hl : sys.loaded = true) (he : sys.exported = true)
    (hf : sys.succeeds = false) (env : Open.AgentEnv) (w : Open.W) (pipe : Int) (agentPid : Nat) :
    ∃ r w', getNamedPipeClientProcessId sys = some r ∧
      Open.verifyPipeClientPid { env with clientPid := answer r } w pipe agentPid =
        .throw (Client.windowsError "GetNamedPipeClientProcessId failed" sys.lastError) w' := by
  obtain ⟨loaded, exported, succeeds, pid, lastError⟩ := sys
  cases hl
  cases he
  cases hf
  exact ⟨_, _, rfl, rfl⟩

example : (⟨true, true, false, 0, 5⟩ : Sys).succeeds = false ∧
    getNamedPipeClientProcessId ⟨true, true, false, 0, 5⟩ = some (.failure, 0, 5) := ⟨rfl, rfl⟩

end Winpty.Props
