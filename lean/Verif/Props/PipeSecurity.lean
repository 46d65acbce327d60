import Verif.Spec.Access

/-!
# C70: who can use winpty's pipes
-/
namespace Winpty.Props

open Winpty.PipeSecurity
open Winpty.Spec.Access

/-- `SetEntriesInAcl` does what is documented. -/
def AclDocumented (env : Env) : Prop := ∀ entries acl, env.setEntries entries = .ok acl → ListOf entries acl

/-- Who the owner of the objects a thread makes is: the impersonated user's token tells, or, if the
thread impersonates nobody (error 1008), the process's. -/
def OwnerIs (env : Env) (owner : Sid) : Prop :=
  env.threadToken = .ok owner ∨ (env.threadToken = .error 1008 ∧ env.processToken = .ok owner)

/-- A pipe of a session: the control pipe, or one of the pipes of the agent. -/
def SessionPipe (env : Env) (args : PipeArgs) : Prop :=
  (∃ name, createControlPipe env name = .ok args) ∨
  ∃ name mode outSize inSize, openServerPipe env name mode outSize inSize = .ok args

theorem getOwnerSid_ok {env : Env} {owner : Sid} (h : getOwnerSid env = .ok owner) : OwnerIs env owner := by
  unfold getOwnerSid at h
  cases ht : openSecurityTokenForQuery env with
  | error f => rw [ht] at h; cases h
  | ok o =>
    rw [ht] at h
    simp only at h
    have ho : o = owner := by
      split at h
      · cases h
      · split at h
        · cases h
        · split at h
          · cases h
          · split at h
            · exact Except.ok.inj h
            · cases h
    subst ho
    unfold openSecurityTokenForQuery at ht
    cases h1 : env.threadToken with
    | ok o' => rw [h1] at ht; simp only [Except.ok.injEq] at ht; exact .inl (by rw [ht] at h1; exact h1)
    | error e =>
      rw [h1] at ht
      simp only at ht
      by_cases he : e = 1008
      · rw [if_neg (fun h => h he)] at ht
        subst he
        cases h2 : env.processToken with
        | ok o' =>
          rw [h2] at ht
          simp only [Except.ok.injEq] at ht
          exact .inr ⟨h1, by rw [h2, ht]⟩
        | error e => rw [h2] at ht; cases ht
      · rw [if_pos he] at ht; cases ht

theorem OwnerIs.unique {env : Env} {a b : Sid} (ha : OwnerIs env a) (hb : OwnerIs env b) : a = b := by
  rcases ha with h1 | ⟨h1, h1'⟩ <;> rcases hb with h2 | ⟨h2, h2'⟩
  · rw [h1] at h2; exact Except.ok.inj h2
  · rw [h1] at h2; cases h2
  · rw [h1] at h2; cases h2
  · rw [h1'] at h2'; exact Except.ok.inj h2'

theorem wellKnown_ok {env : Env} {a n x y : Nat} {sid : Sid} (h : wellKnownSid env a n x y = .ok sid) :
    sid = ⟨a, [x, y, 0, 0, 0, 0, 0, 0].take n⟩ := by
  unfold wellKnownSid at h
  split at h
  · cases h
  · exact (Except.ok.inj h).symm

theorem finish_ok {env : Env} {entries : List Entry} {sd : Descriptor}
    (h : finishSecurityDescriptor env entries = .ok sd) :
    ∃ acl, env.setEntries entries = .ok acl ∧ sd = ⟨some acl⟩ := by
  unfold finishSecurityDescriptor at h
  cases he : env.setEntries entries with
  | error e => rw [he] at h; cases h
  | ok acl =>
    rw [he] at h
    simp only at h
    refine ⟨acl, rfl, ?_⟩
    split at h
    · split at h
      · cases h
      · split at h
        · cases h
        · exact (Except.ok.inj h).symm
    · cases h

theorem owner_descriptor {env : Env} {sd : Descriptor} (h : createOwnerFullControl env = .ok sd) :
    ∃ owner acl, OwnerIs env owner ∧ sd = ⟨some acl⟩ ∧
      env.setEntries [fullControl localSystem, fullControl administrators, fullControl owner] = .ok acl := by
  unfold createOwnerFullControl at h
  cases h1 : localSystemSid env with
  | error f => rw [h1] at h; cases h
  | ok a =>
    rw [h1] at h; simp only at h
    cases h2 : builtinAdminsSid env with
    | error f => rw [h2] at h; cases h
    | ok b =>
      rw [h2] at h; simp only at h
      cases h3 : getOwnerSid env with
      | error f => rw [h3] at h; cases h
      | ok owner =>
        rw [h3] at h; simp only at h
        obtain ⟨acl, e1, e2⟩ := finish_ok h
        obtain rfl := wellKnown_ok h1
        obtain rfl := wellKnown_ok h2
        exact ⟨owner, acl, getOwnerSid_ok h3, e2, e1⟩

theorem everyone_descriptor {env : Env} {sd : Descriptor} (h : createEveryoneWrite env = .ok sd) :
    ∃ owner acl, OwnerIs env owner ∧ sd = ⟨some acl⟩ ∧
      env.setEntries [fullControl localSystem, fullControl administrators, fullControl owner,
        ⟨everyoneMask, 2, 0, everyone⟩] = .ok acl := by
  unfold createEveryoneWrite at h
  cases h1 : localSystemSid env with
  | error f => rw [h1] at h; cases h
  | ok a =>
    rw [h1] at h; simp only at h
    cases h2 : builtinAdminsSid env with
    | error f => rw [h2] at h; cases h
    | ok b =>
      rw [h2] at h; simp only at h
      cases h3 : getOwnerSid env with
      | error f => rw [h3] at h; cases h
      | ok owner =>
        rw [h3] at h; simp only at h
        cases h4 : everyoneSid env with
        | error f => rw [h4] at h; cases h
        | ok e =>
          rw [h4] at h; simp only at h
          obtain ⟨acl, e1, e2⟩ := finish_ok h
          obtain rfl := wellKnown_ok h1
          obtain rfl := wellKnown_ok h2
          obtain rfl := wellKnown_ok h4
          exact ⟨owner, acl, getOwnerSid_ok h3, e2, e1⟩

theorem allows_mem {token : Token} {r : Right} {acl : List Ace} (h : ListAllows token r acl) :
    ∃ ace ∈ acl, ace.sid ∈ token ∧ Covers ace.mask r ∧ ace.kind = .allow := by
  induction h with
  | here h1 h2 h3 => exact ⟨_, List.mem_cons_self .., h1, h2, h3⟩
  | later _ _ ih =>
    obtain ⟨ace, hm, h⟩ := ih
    exact ⟨ace, List.mem_cons_of_mem _ hm, h⟩

open Classical in
theorem allows_of_mem {token : Token} {r : Right} : ∀ {acl : List Ace},
    (∀ ace ∈ acl, ace.kind = .allow) → (∃ ace ∈ acl, ace.sid ∈ token ∧ Covers ace.mask r) →
    ListAllows token r acl := by
  intro acl
  induction acl with
  | nil => rintro _ ⟨_, h, _⟩; cases h
  | cons a rest ih =>
    intro hk h
    by_cases ha : a.sid ∈ token ∧ Covers a.mask r
    · exact .here ha.1 ha.2 (hk a (List.mem_cons_self ..))
    · refine .later ha (ih (fun b hb => hk b (List.mem_cons_of_mem _ hb)) ?_)
      obtain ⟨ace, hm, h⟩ := h
      rcases List.mem_cons.mp hm with rfl | hm
      · exact absurd h ha
      · exact ⟨ace, hm, h⟩

theorem session_descriptor {env : Env} {args : PipeArgs} (h : SessionPipe env args) :
    ∃ sd, args.descriptor = some sd ∧ createOwnerFullControl env = .ok sd := by
  rcases h with ⟨name, h⟩ | ⟨name, mode, o, i, h⟩
  · unfold createControlPipe at h
    cases hc : createOwnerFullControl env with
    | error f => rw [hc] at h; cases h
    | ok sd => rw [hc] at h; obtain rfl := Except.ok.inj h; exact ⟨sd, rfl, rfl⟩
  · unfold openServerPipe at h
    split at h
    · cases hc : createOwnerFullControl env with
      | error f => rw [hc] at h; cases h
      | ok sd => rw [hc] at h; obtain rfl := Except.ok.inj h; exact ⟨sd, rfl, rfl⟩
    · cases h

/-- C70.  Someone who is not the owner, nor an administrator, nor the system can do nothing with a pipe
of a session. -/
theorem C70_strangers_shut_out (env : Env) (henv : AclDocumented env) (args : PipeArgs)
    (h : SessionPipe env args) (owner : Sid) (ho : OwnerIs env owner) (token : Token)
    (h1 : owner ∉ token) (h2 : administrators ∉ token) (h3 : localSystem ∉ token) (r : Right) :
    ∃ sd, args.descriptor = some sd ∧ ¬ Allowed owner sd.dacl token r := by
  obtain ⟨sd, hsd, hc⟩ := session_descriptor h
  obtain ⟨o, acl, ho', rfl, he⟩ := owner_descriptor hc
  obtain rfl := ho'.unique ho
  refine ⟨_, hsd, ?_⟩
  rintro (⟨ht, _⟩ | hl)
  · exact h1 ht
  · obtain ⟨ace, hm, ht, _⟩ := allows_mem hl
    obtain ⟨e, hme, hs, _⟩ := (henv _ _ he).from_entry ace hm
    rw [hs] at ht
    simp only [List.mem_cons, List.not_mem_nil, or_false] at hme
    rcases hme with rfl | rfl | rfl
    · exact h3 ht
    · exact h2 ht
    · exact h1 ht

/-- C70.  The owner, administrators and the system can do everything. -/
theorem C70_friends_admitted (env : Env) (henv : AclDocumented env) (args : PipeArgs)
    (h : SessionPipe env args) (owner : Sid) (ho : OwnerIs env owner) (token : Token)
    (ht : owner ∈ token ∨ administrators ∈ token ∨ localSystem ∈ token) (r : Right) :
    ∃ sd, args.descriptor = some sd ∧ Allowed owner sd.dacl token r := by
  obtain ⟨sd, hsd, hc⟩ := session_descriptor h
  obtain ⟨o, acl, ho', rfl, he⟩ := owner_descriptor hc
  obtain rfl := ho'.unique ho
  have hl := henv _ _ he
  refine ⟨_, hsd, .inr (allows_of_mem ?_ ?_)⟩
  · intro ace hm
    obtain ⟨e, hme, _, _, hk⟩ := hl.from_entry ace hm
    simp only [List.mem_cons, List.not_mem_nil, or_false] at hme
    rcases hk with ⟨_, hk⟩ | ⟨hk, _⟩
    · exact hk
    · rcases hme with rfl | rfl | rfl <;> cases hk
  · have key : ∀ sid ∈ token, sid ∈ [localSystem, administrators, o] →
        ∃ ace ∈ acl, ace.sid ∈ token ∧ Covers ace.mask r := by
      intro sid hsid hs
      obtain ⟨ace, hm, hsa⟩ := hl.entered (fullControl sid)
        (by simp only [List.mem_cons, List.not_mem_nil, or_false] at hs ⊢
            rcases hs with rfl | rfl | rfl <;> simp)
        (by intro e' hm _
            simp only [List.mem_cons, List.not_mem_nil, or_false] at hm
            rcases hm with rfl | rfl | rfl <;> exact .inr rfl)
      refine ⟨ace, hm, by rw [hsa]; exact hsid, ?_⟩
      obtain ⟨e, hme, _, hmask, _⟩ := hl.from_entry ace hm
      rw [hmask]
      simp only [List.mem_cons, List.not_mem_nil, or_false] at hme
      rcases hme with rfl | rfl | rfl <;>
        exact .inr (.inl (show Nat.testBit 0x10000000 28 = true by decide))
    rcases ht with ht | ht | ht
    · exact key _ ht (by simp)
    · exact key _ ht (by simp)
    · exact key _ ht (by simp)

/-- C70.  There is never more than one instance of a pipe of a session, it is not created if somebody
else has already created a pipe of this name, and, from Windows Vista (6.0) on, no other machine can
connect. -/
theorem C70_single_local (env : Env) (args : PipeArgs) (h : SessionPipe env args) :
    args.maxInstances = 1 ∧ args.openMode.testBit firstInstanceBit = true ∧
    (6 ≤ env.version.1 → args.pipeMode.testBit rejectRemoteBit = true) := by
  have hv : 6 ≤ env.version.1 → (rejectRemoteClientsPipeFlag env).testBit rejectRemoteBit = true := by
    intro h
    have : isAtLeast env 6 0 = true := by
      unfold isAtLeast
      simp only [Bool.or_eq_true, Bool.and_eq_true, decide_eq_true_eq]
      omega
    unfold rejectRemoteClientsPipeFlag
    rw [this]
    decide
  rcases h with ⟨name, h⟩ | ⟨name, mode, o, i, h⟩
  · unfold createControlPipe at h
    split at h
    · cases h
    · obtain rfl := Except.ok.inj h
      exact ⟨rfl, show Nat.testBit (0x3 ||| 0x80000 ||| 0x40000000) firstInstanceBit = true by decide, hv⟩
  · unfold openServerPipe at h
    split at h
    · split at h
      · cases h
      · obtain rfl := Except.ok.inj h
        refine ⟨rfl, ?_, hv⟩
        simp only
        split <;> split <;> decide
    · cases h

/-- C70.  Which way data can flow: the agent's pipe for input is one the agent only reads, those for
output are ones it only writes (bit 0: inbound, bit 1: outbound). -/
theorem C70_direction (env : Env) (name : List Nat) (outSize inSize : Nat) (args : PipeArgs)
    (read write : Bool)
    (h : openServerPipe env name ((if read then 1 else 0) + (if write then 2 else 0)) outSize inSize =
      .ok args) :
    args.openMode.testBit 0 = read ∧ args.openMode.testBit 1 = write ∧ args.name = name := by
  unfold openServerPipe at h
  cases hc : createOwnerFullControl env with
  | error f => rw [hc] at h; cases read <;> cases write <;> simp at h
  | ok sd =>
    rw [hc] at h
    cases read <;> cases write <;> simp at h <;> subst h <;> dsimp only <;>
      exact ⟨by decide, by decide, rfl⟩

theorem everyoneMask_covers : ∀ r : Right, Covers everyoneMask r ↔
    r ∈ [Right.readData, .readEa, .readAttributes, .readControl, .synchronize, .writeData, .writeEa,
      .writeAttributes] := by
  have h28 : everyoneMask.testBit 28 = false := by decide
  have h29 : everyoneMask.testBit 29 = false := by decide
  have h30 : everyoneMask.testBit 30 = false := by decide
  have h31 : everyoneMask.testBit 31 = false := by decide
  intro r
  unfold Covers
  rw [h28, h29, h30, h31]
  cases r <;> decide

/-- C70.  The debug server's pipe, with `--everyone`: others than the owner, administrators and the
system can read and write, but create no instance of the pipe, and neither delete it nor change who may
use it. -/
theorem C70_debug_everyone (env : Env) (henv : AclDocumented env) (name : List Nat) (args : PipeArgs)
    (h : createDebugPipe env name true = .ok args) (owner : Sid) (ho : OwnerIs env owner) (token : Token)
    (h1 : owner ∉ token) (h2 : administrators ∉ token) (h3 : localSystem ∉ token)
    (h4 : everyone ∈ token) (r : Right) :
    ∃ sd, args.descriptor = some sd ∧ (Allowed owner sd.dacl token r ↔
      r ∈ [Right.readData, .readEa, .readAttributes, .readControl, .synchronize, .writeData, .writeEa,
        .writeAttributes]) := by
  unfold createDebugPipe at h
  rw [if_pos rfl] at h
  cases hc : createEveryoneWrite env with
  | error f => rw [hc] at h; cases h
  | ok sd =>
    rw [hc] at h
    obtain rfl := Except.ok.inj h
    obtain ⟨o, acl, ho', rfl, he⟩ := everyone_descriptor hc
    obtain rfl := ho'.unique ho
    have hl := henv _ _ he
    refine ⟨_, rfl, ?_⟩
    have hfrom : ∀ ace ∈ acl, ace.sid ∈ token → ace.mask = everyoneMask := by
      intro ace hm ht
      obtain ⟨e, hme, hs, hmask, _⟩ := hl.from_entry ace hm
      rw [hs] at ht
      simp only [List.mem_cons, List.not_mem_nil, or_false] at hme
      rcases hme with rfl | rfl | rfl | rfl
      · exact absurd ht h3
      · exact absurd ht h2
      · exact absurd ht h1
      · exact hmask
    rw [← everyoneMask_covers r]
    constructor
    · rintro (⟨ht, _⟩ | ha)
      · exact absurd ht h1
      · obtain ⟨ace, hm, ht, hcov, _⟩ := allows_mem ha
        rw [hfrom ace hm ht] at hcov
        exact hcov
    · intro hcov
      refine .inr (allows_of_mem ?_ ?_)
      · intro ace hm
        obtain ⟨e, hme, _, _, hk⟩ := hl.from_entry ace hm
        simp only [List.mem_cons, List.not_mem_nil, or_false] at hme
        rcases hk with ⟨_, hk⟩ | ⟨hk, _⟩
        · exact hk
        · rcases hme with rfl | rfl | rfl | rfl <;> cases hk
      · obtain ⟨ace, hm, hsa⟩ := hl.entered ⟨everyoneMask, 2, 0, everyone⟩ (by simp)
          (by intro e' hm _
              simp only [List.mem_cons, List.not_mem_nil, or_false] at hm
              rcases hm with rfl | rfl | rfl | rfl <;> exact .inr rfl)
        have ht : ace.sid ∈ token := by rw [hsa]; exact h4
        exact ⟨ace, hm, ht, by rw [hfrom ace hm ht]; exact hcov⟩

/-- C70.  The debug server's pipe, with or without `--everyone`: for both directions, one instance, in this process
first, without overlapped operation; a message is read as it was written, calls wait, and no other computer can
connect.  Without `--everyone` it has the default descriptor. -/
theorem C70_debug_pipe (env : Env) (name : List Nat) (forEveryone : Bool) (args : PipeArgs)
    (h : createDebugPipe env name forEveryone = .ok args) :
    args.name = name ∧ args.openMode.testBit 0 = true ∧ args.openMode.testBit 1 = true ∧
    args.openMode.testBit firstInstanceBit = true ∧ args.openMode.testBit 30 = false ∧ args.maxInstances = 1 ∧
    args.pipeMode.testBit 0 = false ∧ args.pipeMode.testBit 1 = true ∧ args.pipeMode.testBit 2 = true ∧
    (6 ≤ env.version.1 → args.pipeMode.testBit rejectRemoteBit = true) ∧
    (forEveryone = false → args.descriptor = none) := by
  have hv : 6 ≤ env.version.1 → isAtLeast env 6 0 = true := by
    intro h
    unfold isAtLeast
    simp only [Bool.or_eq_true, Bool.and_eq_true, decide_eq_true_eq]
    omega
  have key : ∀ d : Option Descriptor, (d.isSome = forEveryone) →
      args = ⟨name, 0x3 ||| 0x80000, 4 ||| 2 ||| rejectRemoteClientsPipeFlag env, 1, 4096, 4096, 10000, d⟩ →
      args.name = name ∧ args.openMode.testBit 0 = true ∧ args.openMode.testBit 1 = true ∧
      args.openMode.testBit firstInstanceBit = true ∧ args.openMode.testBit 30 = false ∧ args.maxInstances = 1 ∧
      args.pipeMode.testBit 0 = false ∧ args.pipeMode.testBit 1 = true ∧ args.pipeMode.testBit 2 = true ∧
      (6 ≤ env.version.1 → args.pipeMode.testBit rejectRemoteBit = true) ∧
      (forEveryone = false → args.descriptor = none) := by
    intro d hd e
    subst e
    dsimp only
    refine ⟨rfl, by decide, by decide, by decide, by decide, rfl, ?_, ?_, ?_, ?_, ?_⟩
    · unfold rejectRemoteClientsPipeFlag; cases isAtLeast env 6 0 <;> decide
    · unfold rejectRemoteClientsPipeFlag; cases isAtLeast env 6 0 <;> decide
    · unfold rejectRemoteClientsPipeFlag; cases isAtLeast env 6 0 <;> decide
    · intro h
      unfold rejectRemoteClientsPipeFlag
      rw [hv h]; decide
    · intro hf
      rw [hf] at hd
      cases d
      · rfl
      · cases hd
  unfold createDebugPipe at h
  cases forEveryone with
  | false =>
    rw [if_neg (by decide)] at h
    exact key none rfl (Except.ok.inj h).symm
  | true =>
    rw [if_pos rfl] at h
    cases hc : createEveryoneWrite env with
    | error f => rw [hc] at h; cases h
    | ok sd => rw [hc] at h; exact key (some sd) rfl (Except.ok.inj h).symm

/-- C70.  If anything fails on the way, no pipe is created (there is no pipe with a weaker
descriptor). -/
theorem C70_no_descriptor_no_pipe (env : Env) (name : List Nat) (mode outSize inSize : Nat)
    (hown : ∀ owner, ¬ OwnerIs env owner) :
    (∀ args, createControlPipe env name ≠ .ok args) ∧
    (∀ args, openServerPipe env name mode outSize inSize ≠ .ok args) ∧
    ∀ args, createDebugPipe env name true ≠ .ok args := by
  refine ⟨?_, ?_, ?_⟩
  · intro args h
    obtain ⟨sd, _, hc⟩ := session_descriptor (.inl ⟨name, h⟩)
    obtain ⟨o, _, ho, _⟩ := owner_descriptor hc
    exact hown o ho
  · intro args h
    obtain ⟨sd, _, hc⟩ := session_descriptor (.inr ⟨name, mode, outSize, inSize, h⟩)
    obtain ⟨o, _, ho, _⟩ := owner_descriptor hc
    exact hown o ho
  · intro args h
    unfold createDebugPipe at h
    rw [if_pos rfl] at h
    cases hc : createEveryoneWrite env with
    | error f => rw [hc] at h; cases h
    | ok sd =>
      obtain ⟨o, _, ho, _⟩ := everyone_descriptor hc
      exact hown o ho

/-! ## An example -/

/-- Somebody, S-1-5-21-1001, on Windows 10; the list has one element per entry. -/
def demoAccess : Env where
  threadToken := .error 1008
  processToken := .ok ⟨5, [21, 1001]⟩
  querySize := .error 122
  query := .ok 8
  tokenOwnerSize := 8
  allocateSid := fun _ => .ok ()
  setEntries := fun entries => if entries.all (fun e => e.mode == 2) then
    .ok (entries.map fun e => ⟨.allow, e.permissions, e.trustee⟩) else .error 87
  localAlloc := true
  initDescriptor := .ok ()
  setDacl := .ok ()
  version := (10, 0)

theorem demoAccess_documented : AclDocumented demoAccess := by
  intro entries acl h
  simp only [demoAccess] at h
  split at h
  · next hall =>
    obtain rfl := Except.ok.inj h
    refine ⟨?_, ?_⟩
    · intro ace hm
      obtain ⟨e, he, rfl⟩ := List.mem_map.mp hm
      have := List.all_eq_true.mp hall e he
      exact ⟨e, he, rfl, rfl, .inl ⟨.inr (by simpa using this), rfl⟩⟩
    · intro e he _
      exact ⟨_, List.mem_map.mpr ⟨e, he, rfl⟩, rfl⟩
  · cases h

example : AclDocumented demoAccess ∧ OwnerIs demoAccess ⟨5, [21, 1001]⟩ ∧
    (∃ args, createControlPipe demoAccess [1, 2] = .ok args ∧ SessionPipe demoAccess args) ∧
    (∃ args, openServerPipe demoAccess [1, 2] 2 8192 0 = .ok args) ∧
    (∃ args, createDebugPipe demoAccess [1, 2] true = .ok args) ∧
    (⟨5, [21, 1001]⟩ : Sid) ∉ [⟨5, [21, 1002]⟩, everyone] ∧
    administrators ∉ [⟨5, [21, 1002]⟩, everyone] ∧ localSystem ∉ [⟨5, [21, 1002]⟩, everyone] :=
  ⟨demoAccess_documented, .inr ⟨rfl, rfl⟩, ⟨_, rfl, .inl ⟨_, rfl⟩⟩, ⟨_, rfl⟩, ⟨_, rfl⟩, by decide, by decide,
    by decide⟩

/-- The hypothesis of `C70_no_descriptor_no_pipe`: no token can be opened. -/
example : ∀ owner, ¬ OwnerIs { demoAccess with processToken := .error 5 } owner := by
  rintro owner (h | ⟨_, h⟩) <;> cases h

end Winpty.Props
