import Verif.Lemmas.SecurityMemory

/-!
# C85: the memory of security descriptors

`Env` says which calls of Windows and which allocations succeed; every theorem is for all of them.
-/
namespace Winpty.Props

open Winpty.SecurityMemory Winpty.Spec.SecurityMemory

private theorem owns_none85 {h h' : Heap} {l : List (Nat × Block)} (ho : Owns h h' l) {a : Nat} {b : Block}
    (hm : (a, b) ∈ l) : h.live a = none := ho.2.2.2.1 a (ho.2.2.1 _ hm)

private theorem owns_same85 {h h' : Heap} (ho : Owns h h' []) : Same h h' := by
  intro a
  cases e : h.live a with
  | some b => exact (ho.1 a b).mpr (.inr e)
  | none =>
    cases e' : h'.live a with
    | none => rfl
    | some b =>
      rcases (ho.1 a b).mp e' with hm | hm
      · cases hm
      · rw [e] at hm; cases hm

private theorem owns_only85 {h h' : Heap} {a : Nat} {b : Block} (ho : Owns h h' [(a, b)]) :
    OnlyNew h h' a ∧ h'.live a = some b := by
  have hl := ho.live (a := a) (b := b) (by simp)
  refine ⟨⟨owns_none85 ho (b := b) (by simp), ⟨b, hl⟩, fun x hx => ?_⟩, hl⟩
  cases e : h.live x with
  | some c => exact (ho.1 x c).mpr (.inr e)
  | none =>
    cases e' : h'.live x with
    | none => rfl
    | some c =>
      rcases (ho.1 x c).mp e' with hm | hm
      · simp [hx] at hm
      · rw [e] at hm; cases hm

private theorem usable85 {h h' : Heap} {d : Descriptor} {l l' : List (Nat × Block)} (ho : Owns h h' l') (hd : Done d l)
    (hs : ∀ x ∈ l, x ∈ l') : ∃ v, d.v = some v ∧ h.live v = none ∧ Usable h' v := by
  obtain ⟨i, v, acl, rfl, _, hv, ha⟩ := hd
  refine ⟨v, rfl, owns_none85 ho (hs _ hv), _, ho.live (hs _ hv), rfl, acl, rfl, ?_, _, ho.live (hs _ ha), rfl⟩
  rintro rfl
  have h1 := ho.live (hs _ hv)
  rw [ho.live (hs _ ha)] at h1
  cases h1

private theorem releases85 {h h' : Heap} {d : Descriptor} {l : List (Nat × Block)} (ho : Owns h h' l) (hd : Done d l)
    (env : Env) (later : Heap) (hs : StillThere h h' later) :
    ∃ after, destroyDescriptor d env later = .ok () after ∧ ReleasesThem h h' later after := by
  obtain ⟨after, e, hl, _⟩ := frees_done hd env later
    (fun x hx => hs x.1 x.2 (owns_none85 ho hx) (ho.live hx)) ho.2.1
  have key : ∀ a, a ∈ l.map Prod.fst ↔ (h.live a = none ∧ h'.live a ≠ none) := by
    intro a
    constructor
    · intro hm
      obtain ⟨⟨x, b⟩, hx, rfl⟩ := List.mem_map.mp hm
      exact ⟨owns_none85 ho hx, by rw [ho.live hx]; simp⟩
    · rintro ⟨h1, h2⟩
      cases e' : h'.live a with
      | none => exact absurd e' h2
      | some b =>
        rcases (ho.1 a b).mp e' with hm | hm
        · exact List.mem_map_of_mem (f := Prod.fst) hm
        · rw [h1] at hm; cases hm
  refine ⟨after, e, fun a => ⟨fun hc => ?_, fun hc => ?_⟩⟩
  · rw [hl, if_pos ((key a).mpr hc)]
  · rw [hl, if_neg fun hm => hc ((key a).mp hm)]

/-- **C85.** Whatever fails, no memory is used, and nothing is released, that is not there, and nothing is released
with the wrong function: not while a descriptor is made, and not by the three pipes that are created with one. -/
theorem C85_safe (env : Env) (h : Heap) (hf : Fresh h) (everyone agent : Bool) :
    createDescriptor everyone env h ≠ .wild ∧ controlPipe agent env h ≠ .wild ∧
    debugServerPipe everyone env h ≠ .wild := by
  refine ⟨fun e => ?_, fun e => ?_, fun e => ?_⟩
  · have h1 := does_createDescriptor (env := env) (A := env.ownerLarge = false) (h0 := h) everyone (fun e => e) h
        (Owns.start hf)
    simp only [e] at h1
  · have h1 := does_controlPipe (env := env) (A := env.ownerLarge = false ∨ agent = true) (h0 := h) agent (fun e => e) h
        (Owns.start hf)
    simp only [e] at h1
  · cases everyone with
    | true =>
      have h1 := does_debugServerPipe (env := env) (A := env.ownerLarge = false) (fun e => e) h hf
      simp only [e] at h1
    | false =>
      have h1 : Does env False h [] [] (debugServerPipe false) fun _ _ => True := by
        rw [debugServerPipe, if_neg Bool.false_ne_true]
        refine Does.bind does_api fun ok l' e => ?_
        subst e
        cases ok with
        | false => exact Does.throw
        | true =>
          rw [if_pos rfl]
          exact Does.bind (does_made .handle) fun p l' _ => Does.ret trivial
      have h2 := h1 h (Owns.start hf)
      simp only [e] at h2

/-- **C85.** The process ends by an assertion only if Windows gives an owner that is too small, or, in the agent,
if the pipe cannot be created. -/
theorem C85_assert (env : Env) (h : Heap) (hf : Fresh h) (everyone agent : Bool) :
    (createDescriptor everyone env h = .assertFail → env.ownerLarge = false) ∧
    (controlPipe agent env h = .assertFail → env.ownerLarge = false ∨ agent = true) := by
  refine ⟨fun e => ?_, fun e => ?_⟩
  · have h1 := does_createDescriptor (env := env) (A := env.ownerLarge = false) (h0 := h) everyone (fun e => e) h
        (Owns.start hf)
    simpa only [e] using h1
  · have h1 := does_controlPipe (env := env) (A := env.ownerLarge = false ∨ agent = true) (h0 := h) agent (fun e => e) h
        (Owns.start hf)
    simpa only [e] using h1

/-- **C85.** A descriptor that is returned is new, and it can be used: it is live, and so is the access control list
that it points to.  Nothing else was touched. -/
theorem C85_usable (env : Env) (h h' : Heap) (hf : Fresh h) (everyone : Bool) (d : Descriptor)
    (hr : createDescriptor everyone env h = .ok d h') :
    Kept h h' ∧ ∃ v, d.v = some v ∧ h.live v = none ∧ Usable h' v := by
  have h1 := does_createDescriptor (env := env) (A := env.ownerLarge = false) (h0 := h) everyone (fun e => e) h
        (Owns.start hf)
  simp only [hr] at h1
  obtain ⟨l, ho, hd⟩ := h1
  exact ⟨fun a b hb => (ho.1 a b).mpr (.inr hb), usable85 ho hd fun x hx => hx⟩

/-- **C85.** As long as nobody else releases what was allocated for a descriptor, its destructor releases all of it,
each block once and with its function, and nothing else: also later, when other memory has been allocated or
released. -/
theorem C85_released (env : Env) (h h' : Heap) (hf : Fresh h) (everyone : Bool) (d : Descriptor)
    (hr : createDescriptor everyone env h = .ok d h') (env' : Env) (later : Heap) (hs : StillThere h h' later) :
    ∃ after, destroyDescriptor d env' later = .ok () after ∧ ReleasesThem h h' later after := by
  have h1 := does_createDescriptor (env := env) (A := env.ownerLarge = false) (h0 := h) everyone (fun e => e) h
        (Owns.start hf)
  simp only [hr] at h1
  obtain ⟨l, ho, hd⟩ := h1
  exact releases85 ho hd env' later hs

/-- **C85.** When a call of Windows fails, the exception leaves nothing behind: no SID, no list, no descriptor, no
token, no object. -/
theorem C85_failed (env : Env) (h h' : Heap) (hf : Fresh h) (everyone : Bool)
    (hr : createDescriptor everyone env h = .throws false h') : Same h h' := by
  have h1 := does_createDescriptor (env := env) (A := env.ownerLarge = false) (h0 := h) everyone (fun e => e) h
        (Owns.start hf)
  simp only [hr] at h1
  obtain ⟨leak, ho, _, he⟩ := h1
  rw [he trivial] at ho
  exact owns_same85 ho

/-- **C85.**  When memory runs out, one block at most is lost.  (Missing for the whole property: that none is,
see `C85_out_of_memory_defect`.) -/
theorem C85_out_of_memory_partial (env : Env) (h h' : Heap) (hf : Fresh h) (everyone : Bool)
    (hr : createDescriptor everyone env h = .throws true h') : Same h h' ∨ ∃ a, OnlyNew h h' a := by
  have h1 := does_createDescriptor (env := env) (A := env.ownerLarge = false) (h0 := h) everyone (fun e => e) h
        (Owns.start hf)
  simp only [hr] at h1
  obtain ⟨leak, ho, hk, _⟩ := h1
  match leak, hk with
  | [], _ => exact .inl (owns_same85 ho)
  | [(a, b)], _ => exact .inr ⟨a, (owns_only85 ho).1⟩

/-- The memory at the start: nothing is live. -/
def empty85 : Heap := ⟨1, fun _ => none, 0, 0⟩

/-- Everything succeeds (the first `GetTokenInformation` is to fail). -/
def good85 : Env := ⟨fun k => k != 3, fun _ => true, true⟩

/-- The second allocation fails. -/
def short85 : Env := ⟨fun k => k != 3, fun k => k != 1, true⟩

/-- How a run ended, and what is live at the addresses up to 15. -/
def ending85 {α : Type} (r : Res α) : Option (Nat × List (Nat × Kind)) :=
  match r with
  | .ok _ h => some (0, (List.range 16).filterMap fun a => (h.live a).map fun b => (a, b.kind))
  | .throws false h => some (1, (List.range 16).filterMap fun a => (h.live a).map fun b => (a, b.kind))
  | .throws true h => some (2, (List.range 16).filterMap fun a => (h.live a).map fun b => (a, b.kind))
  | _ => none

/-- **C85, a defect.** If `new` fails in the object that is to own a SID, the SID is lost: `allocatedSid` takes a
bare pointer. -/
theorem C85_out_of_memory_defect :
    ∃ env h h' a, Fresh h ∧ createDescriptor false env h = .throws true h' ∧ OnlyNew h h' a ∧
      h'.live a = some ⟨.sid, []⟩ := by
  refine ⟨short85, empty85, ⟨3, fun x => if x = 1 then none else if x = 2 then some ⟨.sid, []⟩ else none, 1, 2⟩, 2,
    fun _ _ => rfl, ?_, ⟨rfl, ⟨_, rfl⟩, fun x hx => ?_⟩, rfl⟩
  · have hfun : ∀ f g : Nat → Option Block, f = g →
        (Res.throws true ⟨3, f, 1, 2⟩ : Res Descriptor) = .throws true ⟨3, g, 1, 2⟩ := by
      rintro f g rfl; rfl
    refine Eq.trans (b := .throws true ⟨3, fun x => if x = 1 then none else
      (if x = 2 then some ⟨.sid, []⟩ else (if x = 1 then some ⟨.object, []⟩ else none)), 1, 2⟩) rfl (hfun _ _ ?_)
    funext x
    by_cases h1 : x = 1 <;> by_cases h2 : x = 2 <;> simp [h1, h2]
  · simp [empty85, hx]

/-- **C85.** The control pipe (and a data pipe of the agent) is all that is left after it is created: the descriptor
and all that belongs to it is released.  If a call fails, nothing is left. -/
theorem C85_pipe (env : Env) (h h' : Heap) (hf : Fresh h) (agent : Bool) :
    (∀ p, controlPipe agent env h = .ok p h' → OnlyNew h h' p ∧ h'.live p = some ⟨.handle, []⟩) ∧
    (controlPipe agent env h = .throws false h' → Same h h') := by
  have h1 := does_controlPipe (env := env) (A := env.ownerLarge = false ∨ agent = true) (h0 := h) agent (fun e => e) h
        (Owns.start hf)
  refine ⟨fun p e => ?_, fun e => ?_⟩
  · simp only [e] at h1
    obtain ⟨l, ho, rfl⟩ := h1
    exact owns_only85 ho
  · simp only [e] at h1
    obtain ⟨leak, ho, _, he⟩ := h1
    rw [he trivial] at ho
    exact owns_same85 ho

/-- **C85.** The debug server started with `--everyone` has its pipe, and its descriptor can still be used. -/
theorem C85_debug_server (env : Env) (h h' : Heap) (hf : Fresh h) (r : Nat × Descriptor)
    (hr : debugServerPipe true env h = .ok r h') :
    h'.live r.1 = some ⟨.handle, []⟩ ∧ ∃ v, r.2.v = some v ∧ Usable h' v := by
  have h1 := does_debugServerPipe (env := env) (A := env.ownerLarge = false) (fun e => e) h hf
  simp only [hr] at h1
  obtain ⟨l, ho, hd⟩ := h1
  obtain ⟨v, e, _, hu⟩ := usable85 ho hd (fun x hx => List.mem_cons_of_mem _ hx)
  exact ⟨ho.live (by simp), v, e, hu⟩

-- A descriptor is made, with and without the entry for everyone; and pipes with it.
example : Fresh empty85 := fun _ _ => rfl
example : ending85 (createDescriptor false good85 empty85) = some (0, [(1, .object), (2, .sid), (3, .object), (4, .sid),
    (5, .object), (7, .object), (8, .object), (9, .localMem), (10, .object), (11, .localMem), (12, .object)]) := by
  decide +kernel
example : (ending85 (createDescriptor true good85 empty85)).map (·.1) = some 0 := by decide +kernel
example : ending85 (controlPipe false good85 empty85) = some (0, [(13, .handle)]) := by decide +kernel
example : ending85 (controlPipe true good85 empty85) = some (0, [(13, .handle)]) := by decide +kernel
example : (ending85 (debugServerPipe true good85 empty85)).map (·.1) = some 0 := by decide +kernel
-- The last call fails: nothing is left.  The agent's assertion fails if it is the pipe.
example : ending85 (createDescriptor false ⟨fun k => k != 3 && k != 9, fun _ => true, true⟩ empty85) = some (1, []) := by
  decide +kernel
example : ending85 (controlPipe false ⟨fun k => k != 3 && k != 10, fun _ => true, true⟩ empty85) = some (1, []) := by
  decide +kernel
example : ending85 (controlPipe true ⟨fun k => k != 3 && k != 10, fun _ => true, true⟩ empty85) = none := by
  decide +kernel

end Winpty.Props
