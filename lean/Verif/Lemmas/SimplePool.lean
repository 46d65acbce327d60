import Verif.Spec.KeyMemory
/-!
# The pool's memory
-/
namespace Winpty.KeyMemory

variable {α : Type}

/-- Chunk `i` is block `i`, which is live and has objects in its first `count` places. -/
def Good (size : Nat) (pl : Pool α) : Prop :=
  pl.chunks.length = pl.blocks.length ∧
  ∀ (i : Nat) (c : Chunk), pl.chunks[i]? = some c → c.data = i ∧ c.count ≤ size ∧
    ∃ vs : List α, vs.length = c.count ∧
      pl.blocks[i]? = some (some (vs.map .obj ++ List.replicate (size - c.count) .raw))

theorem Good.empty (size : Nat) : Good size ({} : Pool α) := ⟨rfl, by simp⟩

/-- The addresses of the objects in a pool, oldest first. -/
def addrs (pl : Pool α) : List Addr :=
  pl.chunks.flatMap fun c => (List.range c.count).map (Addr.mk c.data)

theorem slots_get (vs : List α) (n i : Nat) :
    (vs.map Slot.obj ++ List.replicate n Slot.raw)[i]? =
      if i < vs.length then vs[i]?.map Slot.obj else if i < vs.length + n then some .raw else none := by
  rw [List.getElem?_append]
  simp only [List.length_map, List.getElem?_map, List.getElem?_replicate]
  by_cases h : i < vs.length
  · simp [h]
  · simp only [h, if_false]
    by_cases h2 : i < vs.length + n
    · rw [if_pos (by omega), if_pos h2]
    · rw [if_neg (by omega), if_neg h2]

theorem read_block {pl : Pool α} {a : Addr} {slots : List (Slot α)}
    (h : pl.blocks[a.block]? = some (some slots)) :
    pl.read a = slotVal slots[a.index]? := by
  unfold Pool.read; rw [h]

theorem store_read {pl pl' : Pool α} {a : Addr} {v : α} (h : pl.store a v = some pl') :
    pl'.chunks = pl.chunks ∧ pl'.log = pl.log ∧ pl'.blocks.length = pl.blocks.length ∧
    pl'.read a = some v ∧ ∀ b, b ≠ a → pl'.read b = pl.read b := by
  unfold Pool.store at h
  split at h
  · rename_i slots hb
    split at h
    · rename_i hi
      cases h
      refine ⟨rfl, rfl, by simp, ?_, ?_⟩
      · have hlt : a.block < pl.blocks.length := by
          rcases Nat.lt_or_ge a.block pl.blocks.length with h | h
          · exact h
          · rw [List.getElem?_eq_none h] at hb; cases hb
        unfold Pool.read
        simp only [List.getElem?_set_self hlt]
        rw [List.getElem?_set_self hi]; rfl
      · intro b hne
        have hlt : a.block < pl.blocks.length := by
          rcases Nat.lt_or_ge a.block pl.blocks.length with h | h
          · exact h
          · rw [List.getElem?_eq_none h] at hb; cases hb
        unfold Pool.read
        by_cases hbb : a.block = b.block
        · simp only [← hbb, List.getElem?_set_self hlt, hb]
          have hii : a.index ≠ b.index := by
            intro hi; apply hne; cases a; cases b; simp_all
          rw [List.getElem?_set_ne hii]
        · simp only [List.getElem?_set_ne hbb]
    · cases h
  · cases h

theorem write_spec0 {size : Nat} {pl : Pool α} (hg : Good size pl) {a : Addr} {w v : α}
    (hr : pl.read a = some w) :
    ∃ pl', pl.write a v = .ok pl' ∧ Good size pl' ∧ pl'.chunks = pl.chunks ∧ pl'.log = pl.log ∧
      pl'.blocks.length = pl.blocks.length ∧
      pl'.read a = some v ∧ ∀ b, b ≠ a → pl'.read b = pl.read b := by
  have hw : pl.write a v = must (pl.store a v) := by unfold Pool.write; rw [hr]
  obtain ⟨slots, hb⟩ : ∃ slots, pl.blocks[a.block]? = some (some slots) := by
    unfold Pool.read at hr
    split at hr
    · rename_i slots hb; exact ⟨slots, hb⟩
    · cases hr
  have hr' := hr
  rw [read_block hb] at hr'
  have hobj : slots[a.index]? = some (.obj w) := by
    unfold slotVal at hr'
    split at hr'
    · rename_i hs; cases hr'; exact hs
    · cases hr'
  have hi : a.index < slots.length := by
    rcases Nat.lt_or_ge a.index slots.length with h | h
    · exact h
    · rw [List.getElem?_eq_none h] at hobj; cases hobj
  have hlt : a.block < pl.blocks.length := by
    rcases Nat.lt_or_ge a.block pl.blocks.length with h | h
    · exact h
    · rw [List.getElem?_eq_none h] at hb; cases hb
  have hst : pl.store a v = some { pl with blocks := pl.blocks.set a.block (some (slots.set a.index (.obj v))) } := by
    unfold Pool.store; rw [hb]; simp [hi]
  obtain ⟨h1, h2, h3, h4, h5⟩ := store_read hst
  refine ⟨_, by rw [hw, hst]; rfl, ?_, h1, h2, h3, h4, h5⟩
  refine ⟨by simpa using hg.1, ?_⟩
  intro i c hc
  obtain ⟨g1, g2, vs, g3, g4⟩ := hg.2 i c hc
  refine ⟨g1, g2, ?_⟩
  by_cases hia : a.block = i
  · subst hia
    rw [hb] at g4
    have g4 : slots = vs.map .obj ++ List.replicate (size - c.count) .raw := by simpa using g4
    have hlt' : a.index < vs.length := by
      rw [g4, slots_get] at hobj
      apply Classical.byContradiction
      intro hh
      rw [if_neg hh] at hobj
      split at hobj <;> cases hobj
    refine ⟨vs.set a.index v, by simpa using g3, ?_⟩
    rw [List.getElem?_set_self hlt, g4, List.set_append_left _ _ (by simpa using hlt'), List.map_set]
  · refine ⟨vs, g3, ?_⟩
    simp only [List.getElem?_set_ne hia]
    exact g4

theorem getLast?_of {l : List Chunk} {c : Chunk} (h : l.getLast? = some c) :
    l = l.dropLast ++ [c] ∧ l[l.length - 1]? = some c ∧ 0 < l.length := by
  have hne : l ≠ [] := by rintro rfl; cases h
  have := List.dropLast_concat_getLast hne
  rw [List.getLast?_eq_some_getLast hne] at h
  cases h
  refine ⟨this.symm, ?_, List.length_pos_iff.2 hne⟩
  rw [← List.getLast?_eq_getElem?, List.getLast?_eq_some_getLast hne]

theorem place_spec {size : Nat} {pl : Pool α} (hg : Good size pl) (init : α) {c : Chunk}
    (hl : pl.chunks.getLast? = some c) (hc : c.count < size) :
    ∃ pl' a, pl.place init = .ok (pl', a) ∧ Good size pl' ∧ pl.read a = none ∧ pl'.read a = some init ∧
      (∀ b, b ≠ a → pl'.read b = pl.read b) ∧ addrs pl' = addrs pl ++ [a] ∧
      pl'.blocks.length = pl.blocks.length ∧ pl'.log = pl.log ++ [.constructed a] := by
  obtain ⟨hd, hlast, hpos⟩ := getLast?_of hl
  obtain ⟨g1, g2, vs, g3, g4⟩ := hg.2 _ c hlast
  have hlt : c.data < pl.blocks.length := by rw [g1, ← hg.1]; omega
  rw [← g1] at g4
  have hsl : (vs.map Slot.obj ++ List.replicate (size - c.count) Slot.raw).length = size := by simp; omega
  have hst : pl.store ⟨c.data, c.count⟩ init = some { pl with blocks := (pl.blocks.set c.data
      (some ((vs.map Slot.obj ++ List.replicate (size - c.count) Slot.raw).set c.count (.obj init)))) } := by
    unfold Pool.store
    simp only [g4, hsl]
    rw [if_pos hc]
  obtain ⟨s1, s2, s3, s4, s5⟩ := store_read hst
  have hp : pl.place init = .ok (⟨pl.chunks.dropLast ++ [{ c with count := c.count + 1 }], pl.blocks.set c.data
      (some ((vs.map Slot.obj ++ List.replicate (size - c.count) Slot.raw).set c.count (.obj init))),
      pl.log ++ [.constructed ⟨c.data, c.count⟩]⟩, ⟨c.data, c.count⟩) := by
    unfold Pool.place; rw [hl]; simp only [hst]
  refine ⟨_, ⟨c.data, c.count⟩, hp, ?_, ?_, s4, s5, ?_, s3, rfl⟩
  · refine ⟨?_, ?_⟩
    · have h1 := hg.1
      have h2 := congrArg List.length hd
      simp only [List.length_append, List.length_dropLast, List.length_cons, List.length_nil, List.length_set] at h2 ⊢
      omega
    · intro i c' hc'
      by_cases hi : i < pl.chunks.length - 1
      · have hc2 : pl.chunks[i]? = some c' := by
          rw [List.getElem?_append_left (by simp; omega)] at hc'
          rw [List.getElem?_dropLast, if_pos hi] at hc'
          exact hc'
        obtain ⟨e1, e2, ws, e3, e4⟩ := hg.2 i c' hc2
        refine ⟨e1, e2, ws, e3, ?_⟩
        rw [List.getElem?_set_ne (by omega)]
        exact e4
      · have hlen : (pl.chunks.dropLast).length = pl.chunks.length - 1 := by simp
        rw [List.getElem?_append_right (by omega), hlen] at hc'
        have hi0 : i = pl.chunks.length - 1 := by
          rcases Nat.eq_or_lt_of_le (Nat.le_of_not_lt hi) with h | h
          · exact h.symm
          · rw [List.getElem?_eq_none (by simp; omega)] at hc'; cases hc'
        subst hi0
        simp only [Nat.sub_self, List.getElem?_cons_zero, Option.some.injEq] at hc'
        subst hc'
        refine ⟨g1, by simp; omega, vs ++ [init], by simp [g3], ?_⟩
        simp only
        rw [← g1, List.getElem?_set_self hlt]
        congr 2
        rw [List.set_append_right _ _ (by simp [g3]), List.map_append, List.append_assoc]
        congr 1
        obtain ⟨d, hdd⟩ : ∃ d, size - c.count = d + 1 := ⟨size - c.count - 1, by omega⟩
        have hd2 : size - (c.count + 1) = d := by omega
        rw [hdd, hd2, List.replicate_succ]
        simp [g3]
  · rw [read_block (a := ⟨c.data, c.count⟩) g4]
    simp only [slots_get]
    rw [if_neg (by omega), if_pos (by omega)]
    rfl
  · unfold addrs
    conv => rhs; rw [hd]
    simp [List.range_succ]

theorem room_spec {size : Nat} (h0 : 0 < size) {pl : Pool α} (hg : Good size pl) (hm : Nat → Bool) :
    (pl.room size hm = .abort ∧ hm pl.blocks.length = false) ∨
    ∃ pl' c, pl.room size hm = .ok pl' ∧ Good size pl' ∧ pl'.chunks.getLast? = some c ∧ c.count < size ∧
      (∀ b, pl'.read b = pl.read b) ∧ addrs pl' = addrs pl ∧
      ((pl'.blocks.length = pl.blocks.length ∧ pl'.log = pl.log) ∨
       (pl'.blocks.length = pl.blocks.length + 1 ∧ pl'.log = pl.log ++ [.malloced pl.blocks.length])) := by
  unfold Pool.room
  by_cases hf : pl.full size = true
  · rw [if_pos hf]
    cases hh : hm pl.blocks.length with
    | false => left; exact ⟨rfl, rfl⟩
    | true =>
      right
      refine ⟨_, ⟨0, pl.blocks.length⟩, rfl, ?_, by simp, h0, ?_, ?_, .inr ⟨by simp, rfl⟩⟩
      · refine ⟨by simp [hg.1], ?_⟩
        intro i c hc
        by_cases hi : i < pl.chunks.length
        · simp only [List.getElem?_append_left hi] at hc
          obtain ⟨g1, g2, vs, g3, g4⟩ := hg.2 i c hc
          refine ⟨g1, g2, vs, g3, ?_⟩
          simp only
          rw [List.getElem?_append_left (by rw [← hg.1]; exact hi)]
          exact g4
        · simp only [List.getElem?_append_right (Nat.le_of_not_lt hi)] at hc
          have hi0 : i = pl.chunks.length := by
            rcases Nat.eq_or_lt_of_le (Nat.le_of_not_lt hi) with h | h
            · exact h.symm
            · rw [List.getElem?_eq_none (by simp; omega)] at hc; cases hc
          subst hi0
          simp at hc
          subst hc
          refine ⟨hg.1.symm, by simp, [], rfl, ?_⟩
          simp [hg.1]
      · intro b
        unfold Pool.read
        simp only
        by_cases hb : b.block < pl.blocks.length
        · rw [List.getElem?_append_left hb]
        · rw [List.getElem?_append_right (Nat.le_of_not_lt hb), List.getElem?_eq_none (Nat.le_of_not_lt hb)]
          cases hx : b.block - pl.blocks.length with
          | zero =>
            simp only [List.getElem?_cons_zero]
            rw [List.getElem?_replicate]
            split <;> rfl
          | succ n => simp
      · simp [addrs]
  · rw [if_neg hf]
    right
    unfold Pool.full at hf
    split at hf
    · simp at hf
    · rename_i c hl
      have hne : c.count ≠ size := by simpa using hf
      obtain ⟨_, hlast, _⟩ := getLast?_of hl
      have := (hg.2 _ c hlast).2.1
      exact ⟨pl, c, rfl, hg, hl, by omega, fun _ => rfl, rfl, .inl ⟨rfl, rfl⟩⟩

theorem alloc_spec0 {size : Nat} (h0 : 0 < size) {pl : Pool α} (hg : Good size pl) (hm : Nat → Bool) (init : α) :
    (pl.alloc size hm init = .abort ∧ hm pl.blocks.length = false) ∨
    ∃ pl' a, pl.alloc size hm init = .ok (pl', a) ∧ Good size pl' ∧ pl.read a = none ∧ pl'.read a = some init ∧
      (∀ b, b ≠ a → pl'.read b = pl.read b) ∧ addrs pl' = addrs pl ++ [a] ∧
      ((pl'.blocks.length = pl.blocks.length ∧ pl'.log = pl.log ++ [.constructed a]) ∨
       (pl'.blocks.length = pl.blocks.length + 1 ∧
        pl'.log = pl.log ++ [.malloced pl.blocks.length, .constructed a])) := by
  unfold Pool.alloc
  rcases room_spec h0 hg hm with ⟨h, hf⟩ | ⟨pl1, c, h1, h2, h3, h4, h5, h6, h7⟩
  · left; rw [h]; exact ⟨rfl, hf⟩
  · right
    obtain ⟨pl', a, p1, p2, p3, p4, p5, p6, p7, p8⟩ := place_spec h2 init h3 h4
    refine ⟨pl', a, by rw [h1]; exact p1, p2, by rw [← h5]; exact p3, p4,
      fun b hb => (p5 b hb).trans (h5 b), by rw [p6, h6], ?_⟩
    rcases h7 with ⟨e1, e2⟩ | ⟨e1, e2⟩
    · left; exact ⟨by rw [p7, e1], by rw [p8, e2]⟩
    · right; exact ⟨by rw [p7, e1], by rw [p8, e2]; simp⟩

/-! ## Clearing -/

theorem destroyLoop_spec (b : Nat) (vs : List α) (rest : List (Slot α)) (ti : Nat) :
    destroyLoop b vs.length ti (vs.map .obj ++ rest) =
      some ((List.range vs.length).map fun i => .destroyed ⟨b, ti + i⟩) := by
  induction vs generalizing ti with
  | nil => simp [destroyLoop]
  | cons v vs ih =>
    rw [List.length_cons, List.map_cons, List.cons_append, destroyLoop, ih, List.range_succ_eq_map]
    simp [List.map_map, Function.comp_def, Nat.add_assoc, Nat.add_comm 1]

/-- What `clear` does with one chunk. -/
def clearEvs (c : Chunk) : List Ev := (List.range c.count).map (fun i => .destroyed ⟨c.data, i⟩) ++ [.freed c.data]

theorem clearLoop_spec {size : Nat} (cs : List Chunk) (k : Nat) (pl : Pool α)
    (h : ∀ (i : Nat) (c : Chunk), cs[i]? = some c → c.data = k + i ∧ c.count ≤ size ∧ ∃ vs : List α, vs.length = c.count ∧
      pl.blocks[k + i]? = some (some (vs.map .obj ++ List.replicate (size - c.count) .raw)))
    (hlen : pl.blocks.length = k + cs.length) (hn : ∀ i, i < k → pl.blocks[i]? = some none) :
    ∃ pl', clearLoop cs pl = .ok pl' ∧ pl'.blocks = List.replicate (k + cs.length) none ∧
      pl'.log = pl.log ++ cs.flatMap clearEvs := by
  induction cs generalizing k pl with
  | nil =>
    refine ⟨pl, rfl, ?_, by simp⟩
    apply List.ext_getElem?
    intro i
    simp only [List.length_nil, Nat.add_zero] at hlen ⊢
    rw [List.getElem?_replicate]
    by_cases hi : i < k
    · rw [hn i hi, if_pos hi]
    · rw [if_neg hi, List.getElem?_eq_none (by omega)]
  | cons c cs ih =>
    obtain ⟨h1, h2, vs, h3, h4⟩ := h 0 c rfl
    simp only [Nat.add_zero] at h1 h4
    rw [clearLoop, h1, h4]
    simp only
    rw [← h3, destroyLoop_spec]
    simp only
    have hlt : k < pl.blocks.length := by rw [hlen]; simp
    obtain ⟨pl', e1, e2, e3⟩ := ih (k + 1) { pl with blocks := pl.blocks.set k none, log := pl.log ++
      ((List.range vs.length).map fun i => .destroyed ⟨k, 0 + i⟩) ++ [.freed k] } (by
        intro i c' hc'
        obtain ⟨g1, g2, ws, g3, g4⟩ := h (i + 1) c' (by simpa using hc')
        refine ⟨by omega, g2, ws, g3, ?_⟩
        simp only
        rw [List.getElem?_set_ne (by omega)]
        rw [show k + 1 + i = k + (i + 1) by omega]
        exact g4)
      (by simp only [List.length_set, hlen, List.length_cons]; omega)
      (by
        intro i hi
        simp only
        rcases Nat.eq_or_lt_of_le (Nat.le_of_lt_succ hi) with h | h
        · subst h; rw [List.getElem?_set_self hlt]
        · rw [List.getElem?_set_ne (by omega)]; exact hn i h)
    refine ⟨pl', e1, ?_, ?_⟩
    · rw [e2, List.length_cons]; congr 1; omega
    · rw [e3]; simp [clearEvs, h1, h3]

theorem clear_spec {size : Nat} {pl : Pool α} (hg : Good size pl) :
    ∃ pl', pl.clear = .ok pl' ∧ pl'.chunks = [] ∧ pl'.blocks = List.replicate pl.blocks.length none ∧
      pl'.log = pl.log ++ pl.chunks.flatMap clearEvs := by
  obtain ⟨pl', e1, e2, e3⟩ := clearLoop_spec pl.chunks 0 pl (fun i c hc => by simpa using hg.2 i c hc)
    (by rw [← hg.1]; omega) (by simp)
  refine ⟨{ pl' with chunks := [] }, by unfold Pool.clear; rw [e1]; rfl, rfl, ?_, e3⟩
  show pl'.blocks = _
  rw [e2, ← hg.1, Nat.zero_add]

theorem addrs_read {size : Nat} {pl : Pool α} (hg : Good size pl) (a : Addr) :
    a ∈ addrs pl ↔ ∃ v, pl.read a = some v := by
  unfold addrs
  simp only [List.mem_flatMap, List.mem_map, List.mem_range]
  constructor
  · rintro ⟨c, hc, i, hi, rfl⟩
    obtain ⟨j, hj, hjc⟩ := List.mem_iff_getElem.1 hc
    obtain ⟨g1, g2, vs, g3, g4⟩ := hg.2 j c (by rw [List.getElem?_eq_getElem hj, hjc])
    rw [← g1] at g4
    rw [read_block (a := ⟨c.data, i⟩) g4]
    simp only [slots_get]
    rw [if_pos (by omega), List.getElem?_eq_getElem (by omega)]
    exact ⟨_, rfl⟩
  · rintro ⟨v, hv⟩
    have hv' := hv
    unfold Pool.read at hv'
    split at hv'
    · rename_i slots hb
      have hlt : a.block < pl.chunks.length := by
        rw [hg.1]
        rcases Nat.lt_or_ge a.block pl.blocks.length with h | h
        · exact h
        · rw [List.getElem?_eq_none h] at hb; cases hb
      obtain ⟨g1, g2, vs, g3, g4⟩ := hg.2 a.block _ (List.getElem?_eq_getElem hlt)
      rw [read_block g4, slots_get] at hv
      have hi : a.index < vs.length := by
        apply Classical.byContradiction
        intro hh
        rw [if_neg hh] at hv
        split at hv <;> cases hv
      exact ⟨_, List.getElem_mem hlt, a.index, by omega, by rw [g1]⟩
    · cases hv'

/-! ## The record of what was done -/

open Winpty.Spec in
/-- The record tells the objects and blocks there are, and nothing was destroyed or given back. -/
structure Booked (pl : Pool α) : Prop where
  made : made pl.log = addrs pl
  unmade : unmade pl.log = []
  obtained : obtained pl.log = List.range pl.blocks.length
  back : givenBack pl.log = []
  nodup : (addrs pl).Nodup

/-- A pool in use. -/
def Full (size : Nat) (pl : Pool α) : Prop := Good size pl ∧ Booked pl

theorem Full.empty (size : Nat) : Full size ({} : Pool α) :=
  ⟨Good.empty size, rfl, rfl, rfl, rfl, List.nodup_nil⟩

theorem write_spec {size : Nat} {pl : Pool α} (hg : Full size pl) {a : Addr} {w v : α}
    (hr : pl.read a = some w) :
    ∃ pl', pl.write a v = .ok pl' ∧ Full size pl' ∧ pl'.chunks = pl.chunks ∧ pl'.log = pl.log ∧
      pl'.blocks.length = pl.blocks.length ∧
      pl'.read a = some v ∧ ∀ b, b ≠ a → pl'.read b = pl.read b := by
  obtain ⟨pl', h1, h2, h3, h4, h5, h6, h7⟩ := write_spec0 hg.1 (v := v) hr
  obtain ⟨b1, b2, b3, b4, b5⟩ := hg.2
  have ha : addrs pl' = addrs pl := by unfold addrs; rw [h3]
  exact ⟨pl', h1, ⟨h2, by rw [h4, ha]; exact b1, by rw [h4]; exact b2, by rw [h4, h5]; exact b3,
    by rw [h4]; exact b4, by rw [ha]; exact b5⟩, h3, h4, h5, h6, h7⟩

theorem alloc_spec {size : Nat} (h0 : 0 < size) {pl : Pool α} (hg : Full size pl) (hm : Nat → Bool) (init : α) :
    (pl.alloc size hm init = .abort ∧ hm pl.blocks.length = false) ∨
    ∃ pl' a, pl.alloc size hm init = .ok (pl', a) ∧ Full size pl' ∧ pl.read a = none ∧ pl'.read a = some init ∧
      (∀ b, b ≠ a → pl'.read b = pl.read b) ∧ addrs pl' = addrs pl ++ [a] := by
  rcases alloc_spec0 h0 hg.1 hm init with h | ⟨pl', a, h1, h2, h3, h4, h5, h6, h7⟩
  · exact .inl h
  · refine .inr ⟨pl', a, h1, ⟨h2, ?_⟩, h3, h4, h5, h6⟩
    obtain ⟨b1, b2, b3, b4, b5⟩ := hg.2
    have hnd : (addrs pl').Nodup := by
      rw [h6, List.nodup_append]
      refine ⟨b5, by simp, ?_⟩
      intro x hx y hy
      rw [List.mem_singleton.1 hy]
      rintro rfl
      obtain ⟨v, hv⟩ := (addrs_read hg.1 x).1 hx
      rw [h3] at hv; cases hv
    rcases h7 with ⟨e1, e2⟩ | ⟨e1, e2⟩
    · refine ⟨?_, ?_, ?_, ?_, hnd⟩
      · rw [e2, h6, ← b1]; simp [Spec.made]
      · rw [e2, ← b2]; simp [Spec.unmade]
      · rw [e2, e1, ← b3]; simp [Spec.obtained]
      · rw [e2, ← b4]; simp [Spec.givenBack]
    · refine ⟨?_, ?_, ?_, ?_, hnd⟩
      · rw [e2, h6, ← b1]; simp [Spec.made]
      · rw [e2, ← b2]; simp [Spec.unmade]
      · rw [e2, e1, List.range_succ, ← b3]; simp [Spec.obtained]
      · rw [e2, ← b4]; simp [Spec.givenBack]

theorem clearEvs_made (cs : List Chunk) : Spec.made (cs.flatMap clearEvs) = [] ∧
    Spec.obtained (cs.flatMap clearEvs) = [] ∧
    Spec.unmade (cs.flatMap clearEvs) = cs.flatMap (fun c => (List.range c.count).map (Addr.mk c.data)) ∧
    Spec.givenBack (cs.flatMap clearEvs) = cs.map (·.data) := by
  induction cs with
  | nil => exact ⟨rfl, rfl, rfl, rfl⟩
  | cons c cs ih =>
    obtain ⟨h1, h2, h3, h4⟩ := ih
    unfold Spec.made Spec.obtained Spec.unmade Spec.givenBack at *
    simp only [List.flatMap_cons, List.filterMap_append, h1, h2, h3, h4, clearEvs, List.map_cons]
    refine ⟨?_, ?_, ?_, ?_⟩
    · simp [List.filterMap_map, Function.comp_def]
    · simp [List.filterMap_map, Function.comp_def]
    · simp [List.filterMap_map, Function.comp_def]
    · simp [List.filterMap_map, Function.comp_def]

theorem chunks_data {size : Nat} {pl : Pool α} (hg : Good size pl) :
    pl.chunks.map (·.data) = List.range pl.blocks.length := by
  apply List.ext_getElem?
  intro i
  rw [List.getElem?_map]
  by_cases hi : i < pl.chunks.length
  · rw [List.getElem?_eq_getElem hi, Option.map_some, (hg.2 i _ (List.getElem?_eq_getElem hi)).1,
      List.getElem?_range (by rw [← hg.1]; exact hi)]
  · rw [List.getElem?_eq_none (by omega), List.getElem?_eq_none (by rw [List.length_range, ← hg.1]; omega)]
    rfl

theorem clear_full {size : Nat} {pl : Pool α} (hg : Full size pl) :
    ∃ pl', pl.clear = .ok pl' ∧ pl'.chunks = [] ∧ (∀ b ∈ pl'.blocks, b = none) ∧ Spec.CleanedUp pl'.log := by
  obtain ⟨pl', h1, h2, h3, h4⟩ := clear_spec hg.1
  obtain ⟨b1, b2, b3, b4, b5⟩ := hg.2
  obtain ⟨c1, c2, c3, c4⟩ := clearEvs_made pl.chunks
  have hm : Spec.made pl'.log = addrs pl := by
    rw [h4, ← b1]; unfold Spec.made at c1 ⊢; rw [List.filterMap_append, c1, List.append_nil]
  have hu : Spec.unmade pl'.log = addrs pl := by
    rw [h4]; unfold Spec.unmade at b2 c3 ⊢; rw [List.filterMap_append, c3, b2, List.nil_append]; rfl
  have ho : Spec.obtained pl'.log = List.range pl.blocks.length := by
    rw [h4, ← b3]; unfold Spec.obtained at c2 ⊢; rw [List.filterMap_append, c2, List.append_nil]
  have hb : Spec.givenBack pl'.log = List.range pl.blocks.length := by
    rw [h4]; unfold Spec.givenBack at b4 c4 ⊢
    rw [List.filterMap_append, c4, b4, List.nil_append, chunks_data hg.1]
  refine ⟨pl', h1, h2, ?_, by rw [hm]; exact b5, by rw [hu, hm], by rw [ho]; exact List.nodup_range, by rw [hb, ho]⟩
  intro b hb
  rw [h3] at hb
  exact List.eq_of_mem_replicate hb

end Winpty.KeyMemory
