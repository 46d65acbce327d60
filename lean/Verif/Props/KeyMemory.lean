import Verif.Lemmas.KeyMemory
import Verif.Props.InputMap
/-!
# C83: the memory of the key table
-/
namespace Winpty.Props
open Winpty.KeyMemory Winpty.Spec

/-- A user of a pool: `addrs` are the pointers it was given so far. -/
def usePool {α : Type} (size : Nat) (hasMemory : Nat → Bool) :
    List (PoolOp α) → Pool α → List Addr → Res (Pool α × List Addr)
  | [], pl, as => .ok (pl, as)
  | .new v :: ops, pl, as => (pl.alloc size hasMemory v).bind fun r => usePool size hasMemory ops r.1 (as ++ [r.2])
  | .assign i v :: ops, pl, as =>
    (must as[i]?).bind fun a => (pl.write a v).bind fun pl' => usePool size hasMemory ops pl' as

private theorem usePool_spec {α : Type} {size : Nat} (h0 : 0 < size) (hm : Nat → Bool) (ops : List (PoolOp α))
    (pl : Pool α) (hg : Full size pl) (vs : List α) (hlen : (addrs pl).length = vs.length)
    (hv : ∀ (i : Nat) (a : Addr), (addrs pl)[i]? = some a → pl.read a = vs[i]?) (hops : ValidOps ops vs.length) :
    (usePool size hm ops pl (addrs pl) = .abort ∧ ∃ i, hm i = false) ∨
    ∃ pl', usePool size hm ops pl (addrs pl) = .ok (pl', addrs pl') ∧ Full size pl' ∧
      (addrs pl').length = (values ops vs).length ∧
      ∀ (i : Nat) (a : Addr), (addrs pl')[i]? = some a → pl'.read a = (values ops vs)[i]? := by
  induction ops generalizing pl vs with
  | nil => exact .inr ⟨pl, rfl, hg, hlen, hv⟩
  | cons op ops ih =>
    cases op with
    | new v =>
      rw [usePool]
      rcases alloc_spec h0 hg hm v with ⟨h, hf⟩ | ⟨pl1, a, a1, a2, a3, a4, a5, a6⟩
      · left; rw [h]; exact ⟨rfl, _, hf⟩
      · rw [a1, bind_ok]
        simp only
        rw [← a6]
        refine ih pl1 a2 (vs ++ [v]) (by rw [a6]; simp [hlen]) ?_ (by rw [List.length_append]; exact hops)
        intro i x hx
        rw [a6] at hx
        by_cases hi : i < (addrs pl).length
        · rw [List.getElem?_append_left hi] at hx
          have hxa : x ≠ a := by
            rintro rfl
            have := hv i x hx
            rw [a3, List.getElem?_eq_getElem (by omega)] at this
            cases this
          rw [a5 x hxa, hv i x hx, List.getElem?_append_left (by omega)]
        · rw [List.getElem?_append_right (by omega)] at hx
          have hi0 : i = (addrs pl).length := by
            rcases Nat.eq_or_lt_of_le (Nat.le_of_not_lt hi) with h | h
            · exact h.symm
            · rw [List.getElem?_eq_none (by simp; omega)] at hx; cases hx
          subst hi0
          simp only [Nat.sub_self, List.getElem?_cons_zero, Option.some.injEq] at hx
          subst hx
          rw [a4, hlen]; simp
    | assign i v =>
      obtain ⟨hi, hops⟩ := hops
      have hi' : i < (addrs pl).length := by omega
      rw [usePool, List.getElem?_eq_getElem hi', must_some, bind_ok]
      have hrd := hv i _ (List.getElem?_eq_getElem hi')
      rw [List.getElem?_eq_getElem hi] at hrd
      obtain ⟨pl1, w1, w2, w3, _, _, w4, w5⟩ := write_spec hg (v := v) hrd
      rw [w1, bind_ok]
      have ha : addrs pl1 = addrs pl := by unfold addrs; rw [w3]
      rw [← ha]
      refine ih pl1 w2 (vs.set i v) (by rw [ha, hlen]; simp) ?_ (by rw [List.length_set]; exact hops)
      intro j x hx
      rw [ha] at hx
      by_cases hij : i = j
      · subst hij
        rw [List.getElem?_eq_getElem hi'] at hx
        cases hx
        rw [w4, List.getElem?_set_self hi]
      · have hne : x ≠ (addrs pl)[i] := by
          rintro rfl
          obtain ⟨hj, hjx⟩ := List.getElem?_eq_some_iff.1 hx
          have hp := List.pairwise_iff_getElem.1 hg.2.nodup
          rcases Nat.lt_or_gt_of_ne hij with h | h
          · exact hp i j hi' hj h hjx.symm
          · exact hp j i hj hi' h hjx
        rw [w5 x hne, hv j x hx, List.getElem?_set_ne hij]

/-- **C83.**  Whatever objects are made in a pool and assigned to, in any order and number: the pointers the
pool gave are all different, every object keeps its value until something is assigned to it (it is never
moved, also when the pool grows), nothing outside the pool's memory is touched, and when the pool is cleared
every object is destroyed once and every block is given back once.  The program ends early only if the system
is out of memory. -/
theorem C83_pool {α : Type} (size : Nat) (h0 : 0 < size) (hasMemory : Nat → Bool) (ops : List (PoolOp α))
    (hops : ValidOps ops 0) :
    (usePool size hasMemory ops {} [] = .abort ∧ ∃ i, hasMemory i = false) ∨
    ∃ pl as pl', usePool size hasMemory ops {} [] = .ok (pl, as) ∧ as.Nodup ∧
      as.map pl.read = (values ops []).map some ∧
      pl.clear = .ok pl' ∧ (∀ b ∈ pl'.blocks, b = none) ∧ made pl'.log = as ∧ CleanedUp pl'.log := by
  rcases usePool_spec h0 hasMemory ops {} (Full.empty size) [] rfl (by simp [addrs]) hops with h | ⟨pl, h1, h2, h3, h4⟩
  · exact .inl h
  · obtain ⟨pl', c1, c2, c3, c4⟩ := clear_full h2
    obtain ⟨pl'', e1, _, _, e4⟩ := clear_spec h2.1
    rw [c1] at e1
    cases e1
    refine .inr ⟨pl, addrs pl, pl', h1, h2.2.nodup, ?_, c1, c3, ?_, c4⟩
    · apply List.ext_getElem?
      intro i
      rw [List.getElem?_map, List.getElem?_map]
      by_cases hi : i < (addrs pl).length
      · rw [List.getElem?_eq_getElem hi, Option.map_some, h4 i _ (List.getElem?_eq_getElem hi),
          List.getElem?_eq_getElem (by omega), Option.map_some]
      · rw [List.getElem?_eq_none (by omega), List.getElem?_eq_none (by omega)]; rfl
    · rw [e4, ← h2.2.made]
      have := (clearEvs_made pl.chunks).1
      unfold made at this ⊢
      rw [List.filterMap_append, this, List.append_nil]

/-- Beside C83: a pool with blocks of two objects, used for five. -/
example : ValidOps [.new 1, .new 2, .new 3, .assign 0 9, .new 4, .assign 3 8, .new 5] 0 ∧
    (match usePool 2 (fun _ => true) [.new 1, .new 2, .new 3, .assign 0 9, .new 4, .assign 3 8, .new 5] {} [] with
      | .ok (pl, as) => (as.map pl.read, as.map (·.block))
      | _ => ([], [])) = ([some 9, some 2, some 3, some 8, some 5], [0, 0, 1, 1, 2]) := by
  refine ⟨by simp [ValidOps], by decide⟩
example : usePool 2 (fun i => decide (i < 1)) [.new 1, .new 2, .new 3] {} [] = .abort := by decide

/-- **C83.**  The key table as it is in memory, with its nodes, branches, pointers and unions: after any
registrations, lookups in it are exactly those of the longest-prefix map, and no lookup or registration
follows a pointer that leads nowhere, reads an array element that was never written or is outside, or the
member of the union that is not there.  The only other thing that can happen is that the system is out of
memory, in which case the agent is aborted. -/
theorem C83_table (mem : Memory) (regs : List (List Nat × InputMap.Key)) (hv : ValidRegs regs) :
    (KeyMemory.setAll mem {} regs = .abort ∧ ((∃ i, mem.nodes i = false) ∨ ∃ i, mem.branches i = false)) ∨
    ∃ m, KeyMemory.setAll mem {} regs = .ok m ∧ ∀ input : List Nat, (∀ c ∈ input, c < 256) →
      ∃ r, KeyMemory.lookupKey m input = .ok r ∧
        ((r.len = 0 ∧ r.key = {} ∧ ∀ n, 0 < n → n ≤ input.length → ¬ ∃ k, Maps regs (input.take n) k) ∨
          (0 < r.len ∧ r.len ≤ input.length ∧ Maps regs (input.take r.len) r.key ∧
            ∀ n, r.len < n → n ≤ input.length → ¬ ∃ k, Maps regs (input.take n) k)) ∧
        (r.incomplete = true ↔ ∃ x ∈ regs, input <+: x.1 ∧ input ≠ x.1) := by
  rcases sim_setAll mem regs sim_new hv with h | ⟨m, root, h1, h2, h3⟩
  · exact .inl h
  · right
    refine ⟨m, h1, ?_⟩
    intro input hb
    obtain ⟨root', g1, g2⟩ := C06_longest_prefix regs hv
    rw [h2] at g1
    cases g1
    exact ⟨_, lookupKey_sim h3 input hb, g2 input⟩

/-- **C83.**  The table in memory gives the answers of the table `Model/InputMap.lean` describes, so what is
proved about that (C06, C08, C51, C52 and so on) holds of the pointers. -/
theorem C83_same (mem : Memory) (hn : ∀ i, mem.nodes i = true) (hb : ∀ i, mem.branches i = true)
    (regs : List (List Nat × InputMap.Key)) (hv : ValidRegs regs) :
    ∃ m root, KeyMemory.setAll mem {} regs = .ok m ∧ InputMap.setAll InputMap.newNode regs = some root ∧
      ∀ input : List Nat, (∀ c ∈ input, c < 256) →
        KeyMemory.lookupKey m input = .ok (InputMap.lookupKey root input) := by
  rcases sim_setAll mem regs sim_new hv with ⟨_, ⟨i, hi⟩ | ⟨i, hi⟩⟩ | ⟨m, root, h1, h2, h3⟩
  · rw [hn] at hi; cases hi
  · rw [hb] at hi; cases hi
  · exact ⟨m, root, h1, h2, fun input h => lookupKey_sim h3 input h⟩

/-- **C83.**  When the table is destroyed, every node and branch is destroyed once and all memory is given
back once. -/
theorem C83_destroyed (mem : Memory) (regs : List (List Nat × InputMap.Key)) (hv : ValidRegs regs) (m : Map)
    (h : KeyMemory.setAll mem {} regs = .ok m) :
    ∃ m', KeyMemory.destroy m = .ok m' ∧ CleanedUp m'.nodes.log ∧ CleanedUp m'.branches.log ∧
      (∀ b ∈ m'.nodes.blocks, b = none) ∧ (∀ b ∈ m'.branches.blocks, b = none) := by
  rcases sim_setAll mem regs sim_new hv with ⟨h', _⟩ | ⟨m1, root, h1, h2, h3⟩
  · rw [h] at h'; cases h'
  · rw [h] at h1
    cases h1
    obtain ⟨brs, b1, _, b3, b4⟩ := clear_full h3.low.branches
    obtain ⟨nds, n1, _, n3, n4⟩ := clear_full h3.low.nodes
    exact ⟨{ m with nodes := nds, branches := brs }, by unfold KeyMemory.destroy; rw [b1, bind_ok, n1, bind_ok],
      n4, b4, n3, b3⟩

/-- Registering an empty sequence is refused. -/
theorem C83_empty_refused (mem : Memory) (m : Map) (k : InputMap.Key) : KeyMemory.set mem m [] k = .abort := rfl

/-- Beside C83: nine different second bytes, so that a node gets a branch. -/
def nineRegs : List (List Nat × InputMap.Key) :=
  [65, 66, 67, 73, 69, 70, 71, 72, 68].map fun c => ([27, c], InputMap.Key.mk c 0 0)
example : ValidRegs nineRegs := by
  intro r hr
  simp [nineRegs] at hr
  rcases hr with h | h | h | h | h | h | h | h | h <;> rw [h] <;> simp
set_option maxRecDepth 100000 in
example : (match KeyMemory.setAll ⟨fun _ => true, fun _ => true⟩ {} nineRegs with
    | .ok m => (KeyMemory.lookupKey m [27, 68, 3], KeyMemory.lookupKey m [27], KeyMemory.lookupKey m [27, 64],
        (obtained m.nodes.log, obtained m.branches.log, (made m.nodes.log).length))
    | _ => (.abort, .abort, .abort, ([], [], 0))) =
    (.ok ⟨2, ⟨68, 0, 0⟩, false⟩, .ok ⟨0, {}, true⟩, .ok ⟨0, {}, false⟩, ([0], [0], 10)) := by decide +kernel
set_option maxRecDepth 100000 in
example : (match KeyMemory.setAll ⟨fun _ => true, fun _ => false⟩ {} nineRegs with
    | .abort => true
    | _ => false) = true := by decide +kernel

end Winpty.Props
