import Verif.Spec.AgentLocation

/-
C92: the agent's program is the one beside the library.
-/

namespace Winpty.Props

open Winpty.AgentLocation Winpty.Spec.AgentLocation
open Winpty.Startup (lit)

private theorem dirname_of {file dir : List Nat} (h : InDirectory file dir) : Open.dirname file = dir := by
  obtain ⟨sep, name, rfl, hs, h1, h2⟩ := h
  have hd : ∀ (l r : List Nat), 92 ∉ l → 47 ∉ l →
      (l ++ r).dropWhile (fun c => decide (c ≠ 92 ∧ c ≠ 47)) = r.dropWhile (fun c => decide (c ≠ 92 ∧ c ≠ 47)) := by
    intro l
    induction l with
    | nil => intro r _ _; rfl
    | cons a t ih =>
      intro r ha hb
      simp only [List.mem_cons, not_or] at ha hb
      have hp : decide (a ≠ 92 ∧ a ≠ 47) = true := by
        simp only [decide_eq_true_eq]
        exact ⟨fun e => ha.1 e.symm, fun e => hb.1 e.symm⟩
      rw [List.cons_append, List.dropWhile_cons, if_pos hp]
      exact ih r ha.2 hb.2
  unfold Open.dirname
  rw [List.reverse_append, List.reverse_append, List.reverse_singleton, hd name.reverse _ (by simpa using h1) (by simpa using h2)]
  have hsep : ([sep] ++ dir.reverse).dropWhile (fun c => decide (c ≠ 92 ∧ c ≠ 47)) = [sep] ++ dir.reverse := by
    rw [List.singleton_append, List.dropWhile_cons, if_neg]
    simp only [decide_eq_true_eq]
    rcases hs with e | e
    · exact fun x => x.1 e
    · exact fun x => x.2 e
  rw [hsep]
  simp

private theorem located_name {sys : Sys} {dir : List Nat} (h : Located sys dir) :
    getModuleFileName sys = some sys.fileName := by
  have hne : sys.fileName.length ≠ 0 := by
    obtain ⟨sep, name, e, _⟩ := h.dir
    rw [e]; simp
  unfold getModuleFileName moduleFileNameResult
  rw [if_pos h.short, if_pos ⟨hne, Nat.ne_of_lt h.short⟩]
  have : ∀ l : List Nat, 0 ∉ l → l.takeWhile (fun x => decide (x ≠ 0)) = l := by
    intro l
    induction l with
    | nil => intro _; rfl
    | cons a t ih =>
      intro hl
      simp only [List.mem_cons, not_or] at hl
      rw [List.takeWhile_cons, if_pos (by simpa using fun e => hl.1 e.symm), ih hl.2]
  rw [this _ h.noZero]

private theorem find_located {sys : Sys} {dir : List Nat} (h : Located sys dir) :
    findAgentProgram sys = if pathExists sys (agentIn dir) then .ok (agentIn dir) [agentIn dir]
      else .throw 4 (missing (agentIn dir)) [agentIn dir] := by
  have e1 : dir ++ lit "\\winpty-agent.exe" = agentIn dir := rfl
  have e2 : lit "agent executable does not exist: '" ++ agentIn dir ++ lit "'" = missing (agentIn dir) := rfl
  unfold findAgentProgram getCurrentModule
  rw [if_pos h.found, located_name h]
  simp only [dirname_of h.dir, e1, e2]

/-- The agent that is started is the one in the library's directory, whatever the current directory, the search path
or the directory of the program that uses the library; no other file is even looked for.  What is missing: file names of 4096 units or
more, `C92_long_path_defect`. -/
theorem C92_beside_partial {sys : Sys} {dir : List Nat} (h : Located sys dir) (he : IsFile sys (agentIn dir)) :
    findAgentProgram sys = .ok (agentIn dir) [agentIn dir] := by
  rw [find_located h, if_pos]
  simpa [pathExists, IsFile] using he

/-- If it is not there, the library says so, with the code for this and with the name of the file. -/
theorem C92_missing_partial {sys : Sys} {dir : List Nat} (h : Located sys dir) (he : ¬ IsFile sys (agentIn dir)) :
    findAgentProgram sys = .throw 4 (missing (agentIn dir)) [agentIn dir] := by
  rw [find_located h, if_neg]
  simpa [pathExists, IsFile] using he

/-- The directory is unique, so the claims above cannot contradict each other. -/
theorem C92_unique {file dir dir' : List Nat} (h : InDirectory file dir) (h' : InDirectory file dir') : dir = dir' :=
  (dirname_of h).symm.trans (dirname_of h')

/-- A library whose file has a name of 4096 units or more, which Windows allows, ends the program that uses it,
although its agent is there. -/
theorem C92_long_path_defect : ∃ (sys : Sys) (dir : List Nat), sys.found = true ∧ 0 ∉ sys.fileName ∧
    sys.fileName.length < 32767 ∧ InDirectory sys.fileName dir ∧ IsFile sys (agentIn dir) ∧
    findAgentProgram sys = .abort := by
  refine ⟨⟨true, List.replicate 4090 97 ++ [92] ++ Spec.codes ['w', '.', 'd', 'l', 'l'], fun _ => 0⟩,
    List.replicate 4090 97, rfl, ?_, ?_, ⟨92, Spec.codes ['w', '.', 'd', 'l', 'l'], rfl, .inl rfl, by decide, by decide⟩, ?_, ?_⟩
  · simp only [List.mem_append, List.mem_replicate, not_or]
    exact ⟨⟨by omega, by decide⟩, by decide⟩
  · simp only [List.length_append, List.length_replicate]; decide
  · unfold IsFile; simp
  · have hl : (List.replicate 4090 97 ++ [92] ++ Spec.codes ['w', '.', 'd', 'l', 'l']).length = 4096 := by
      simp only [List.length_append, List.length_replicate]; decide
    unfold findAgentProgram getCurrentModule getModuleFileName moduleFileNameResult
    simp only [hl]
    simp

/-- The result is that of the model of opening a session (C58 and others), for the library's file and for whether
there is a program. -/
theorem C92_opening {sys : Sys} {dir : List Nat} (h : Located sys dir) (env : Open.AgentEnv) (w : Open.W)
    (hm : env.modulePath = sys.fileName) (hx : env.exeExists = true ↔ IsFile sys (agentIn dir)) :
    (IsFile sys (agentIn dir) → Open.findAgentProgram env w = .ok (agentIn dir) w) ∧
    (¬ IsFile sys (agentIn dir) → ∃ m, Open.findAgentProgram env w = .throw (.lib 4 m) w) := by
  unfold Open.findAgentProgram
  rw [hm, dirname_of h.dir]
  constructor
  · intro he; rw [if_pos (hx.mpr he)]; rfl
  · intro he; rw [if_neg (fun x => he (hx.mp x))]; exact ⟨_, rfl⟩

/-- A library in a directory with both separators in its name. -/
private def locSys : Sys :=
  ⟨true, Spec.codes ['C', ':', '/', 'a', '\\', 'b', '/', 'w', '.', 'd', 'l', 'l'], fun p => if p.length = 23 then 32 else 2 ^ 32 - 1⟩

example : Located locSys (Spec.codes ['C', ':', '/', 'a', '\\', 'b']) ∧
    IsFile locSys (agentIn (Spec.codes ['C', ':', '/', 'a', '\\', 'b'])) := by
  refine ⟨⟨rfl, by decide, by decide, 47, Spec.codes ['w', '.', 'd', 'l', 'l'], by decide, .inr rfl, by decide, by decide⟩, ?_⟩
  simp [IsFile, locSys, agentIn, Spec.codes]

example : Located ⟨true, Spec.codes ['C', ':', '\\', 'w', '.', 'd', 'l', 'l'], fun _ => 32⟩ (Spec.codes ['C', ':']) :=
  ⟨rfl, by decide, by decide, 92, Spec.codes ['w', '.', 'd', 'l', 'l'], by decide, .inl rfl, by decide, by decide⟩

end Winpty.Props
