import Verif.Lemmas.SimplePool
import Verif.Lemmas.InputMap
/-!
# The pointer structure of the key table
-/
namespace Winpty.KeyMemory
open Winpty.InputMap (Key Lookup hasKey)

@[simp] theorem bind_ok {α β : Type} (a : α) (f : α → Res β) : (Res.ok a).bind f = f a := rfl
@[simp] theorem bind_abort {α β : Type} (f : α → Res β) : (Res.abort : Res α).bind f = .abort := rfl
@[simp] theorem bind_undefined {α β : Type} (f : α → Res β) : (Res.undefined : Res α).bind f = .undefined := rfl
@[simp] theorem must_some {α : Type} (a : α) : must (some a) = .ok a := rfl
@[simp] theorem must_none {α : Type} : must (none : Option α) = .undefined := rfl

/-! ## The arrays -/

/-- The value array that holds the entries `l`. -/
def vals (l : List (Nat × Ptr)) : List (Option Nat) := l.map (fun e => some e.1) ++ List.replicate (8 - l.length) none
/-- The pointer array that holds the entries `l`. -/
def kids (l : List (Nat × Ptr)) : List (Option Ptr) := l.map (fun e => some e.2) ++ List.replicate (8 - l.length) none

/-- Looking up a byte in a list of entries. -/
def assoc : List (Nat × Ptr) → Nat → Option Ptr
  | [], _ => none
  | (v, q) :: l, ch => if v = ch then some q else assoc l ch

theorem vals_get {l1 l2 : List (Nat × Ptr)} {e : Nat × Ptr} {l : List (Nat × Ptr)} (h : l = l1 ++ e :: l2) :
    (vals l)[l1.length]? = some (some e.1) ∧ (kids l)[l1.length]? = some (some e.2) := by
  subst h
  unfold vals kids
  constructor <;> simp

theorem findLoop_spec {l : List (Nat × Ptr)} (ch : Nat) (l1 l2 : List (Nat × Ptr)) (h : l = l1 ++ l2) :
    findLoop (vals l) (kids l) ch l2.length l1.length = .ok (assoc l2 ch) := by
  induction l2 generalizing l1 with
  | nil => rfl
  | cons e l2 ih =>
    obtain ⟨hv, hk⟩ := vals_get h
    obtain ⟨v, q⟩ := e
    rw [List.length_cons, findLoop, hv, hk]
    simp only [assoc]
    split
    · rfl
    · have := ih (l1 ++ [(v, q)]) (by simp [h])
      simpa using this

theorem insertLoop_spec {l : List (Nat × Ptr)} (ch : Nat) (l1 l2 : List (Nat × Ptr)) (h : l = l1 ++ l2) :
    ∃ i, insertLoop (vals l) ch l.length l2.length l1.length = .ok i ∧ i ≤ l.length := by
  induction l2 generalizing l1 with
  | nil => exact ⟨_, rfl, Nat.le_refl _⟩
  | cons e l2 ih =>
    obtain ⟨hv, _⟩ := vals_get h
    rw [List.length_cons, insertLoop, hv]
    simp only
    split
    · exact ⟨_, rfl, by rw [h]; simp⟩
    · have := ih (l1 ++ [e]) (by simp [h])
      simpa using this

theorem shiftLoop_spec (B : List (Nat × Ptr)) (A : List (Option Nat)) (A2 : List (Option Ptr))
    (hA : A2.length = A.length) (x : Option Nat) (T : List (Option Nat)) (x2 : Option Ptr) (T2 : List (Option Ptr)) :
    ∃ y y2, shiftLoop A.length B.length (A ++ (B.map (fun e => some e.1) ++ x :: T))
        (A2 ++ (B.map (fun e => some e.2) ++ x2 :: T2)) =
      .ok (A ++ y :: (B.map (fun e => some e.1) ++ T), A2 ++ y2 :: (B.map (fun e => some e.2) ++ T2)) := by
  obtain ⟨n, hn⟩ : ∃ n, B.length = n := ⟨_, rfl⟩
  induction n generalizing B x T x2 T2 with
  | zero =>
    have : B = [] := List.length_eq_zero_iff.1 hn
    subst this
    exact ⟨x, x2, rfl⟩
  | succ n ih =>
    have hne : B ≠ [] := by rintro rfl; cases hn
    obtain ⟨B', e, rfl⟩ : ∃ B' e, B = B' ++ [e] := ⟨_, _, (List.dropLast_concat_getLast hne).symm⟩
    have hB : B'.length = n := by simpa using hn
    obtain ⟨y, y2, hy⟩ := ih B' (some e.1) (some e.1 :: T) (some e.2) (some e.2 :: T2) hB
    refine ⟨y, y2, ?_⟩
    rw [List.length_append, List.length_singleton, shiftLoop]
    have g1 : (A ++ ((B' ++ [e]).map (fun e => some e.1) ++ x :: T))[A.length + B'.length]? = some (some e.1) := by
      rw [List.getElem?_append_right (by omega)]; simp
    have g2 : (A2 ++ ((B' ++ [e]).map (fun e => some e.2) ++ x2 :: T2))[A.length + B'.length]? = some (some e.2) := by
      rw [← hA, List.getElem?_append_right (by omega)]; simp
    have s1 : (A ++ ((B' ++ [e]).map (fun e => some e.1) ++ x :: T)).set (A.length + B'.length + 1) (some e.1) =
        A ++ (B'.map (fun e => some e.1) ++ some e.1 :: some e.1 :: T) := by
      rw [List.set_append_right _ _ (by omega)]; simp [Nat.add_assoc]
    have s2 : (A2 ++ ((B' ++ [e]).map (fun e => some e.2) ++ x2 :: T2)).set (A.length + B'.length + 1) (some e.2) =
        A2 ++ (B'.map (fun e => some e.2) ++ some e.2 :: some e.2 :: T2) := by
      rw [← hA, List.set_append_right _ _ (by omega)]; simp [Nat.add_assoc]
    rw [g1, g2]
    simp only
    rw [if_pos (by simp; omega), s1, s2, hy]
    simp

theorem insertTiny_spec {l : List (Nat × Ptr)} (hl : l.length < 8) (ch : Nat) (q : Ptr) :
    ∃ l1 l2, l = l1 ++ l2 ∧ insertTiny (vals l) (kids l) l.length ch q =
      .ok (.tiny (vals (l1 ++ (ch, q) :: l2)) (kids (l1 ++ (ch, q) :: l2))) := by
  obtain ⟨i, hi, hle⟩ := insertLoop_spec (l := l) ch [] l rfl
  simp only [List.length_nil] at hi
  refine ⟨l.take i, l.drop i, (List.take_append_drop i l).symm, ?_⟩
  unfold insertTiny
  rw [hi, bind_ok]
  obtain ⟨d, hd⟩ : ∃ d, 8 - l.length = d + 1 := ⟨8 - l.length - 1, by omega⟩
  obtain ⟨y, y2, hs⟩ := shiftLoop_spec (l.drop i) ((l.take i).map fun e => some e.1)
    ((l.take i).map fun e => some e.2) (by simp) none (List.replicate d none) none (List.replicate d none)
  have hv : vals l = (l.take i).map (fun e => some e.1) ++ ((l.drop i).map (fun e => some e.1) ++
      none :: List.replicate d none) := by
    unfold vals
    rw [hd, List.replicate_succ, ← List.append_assoc, ← List.map_append, List.take_append_drop]
  have hk : kids l = (l.take i).map (fun e => some e.2) ++ ((l.drop i).map (fun e => some e.2) ++
      none :: List.replicate d none) := by
    unfold kids
    rw [hd, List.replicate_succ, ← List.append_assoc, ← List.map_append, List.take_append_drop]
  have hlen : ((l.take i).map fun e => some e.1).length = i := by simp; omega
  have hlen2 : ((l.take i).map fun e => some e.2).length = i := by simp; omega
  rw [hlen, List.length_drop, ← hv, ← hk] at hs
  rw [hs, bind_ok]
  unfold storeEntry
  simp only
  rw [if_pos (by simp; omega)]
  have hd2 : 8 - (l.take i ++ (ch, q) :: l.drop i).length = d := by simp; omega
  unfold vals kids
  rw [hd2, List.set_append_right _ _ (by omega), List.set_append_right _ _ (by omega), hlen, hlen2]
  simp

theorem assoc_none {l : List (Nat × Ptr)} {ch : Nat} : assoc l ch = none ↔ ch ∉ l.map Prod.fst := by
  induction l with
  | nil => simp [assoc]
  | cons e l ih =>
    obtain ⟨v, q⟩ := e
    simp only [assoc]
    split
    · rename_i h; simp [h]
    · rename_i h; rw [ih]; simp [Ne.symm h]

theorem assoc_mem {l : List (Nat × Ptr)} {ch : Nat} {q : Ptr} (h : assoc l ch = some q) : (ch, q) ∈ l := by
  induction l with
  | nil => cases h
  | cons e l ih =>
    obtain ⟨v, q⟩ := e
    simp only [assoc] at h
    split at h
    · rename_i hv; cases h; subst hv; exact List.mem_cons_self
    · exact List.mem_cons_of_mem _ (ih h)

theorem assoc_insert {l1 l2 : List (Nat × Ptr)} {ch : Nat} (q : Ptr) (h : ch ∉ (l1 ++ l2).map Prod.fst) (c : Nat) :
    assoc (l1 ++ (ch, q) :: l2) c = if c = ch then some q else assoc (l1 ++ l2) c := by
  induction l1 with
  | nil => simp only [List.nil_append, assoc]; split <;> rename_i hv <;> simp [hv, eq_comm]
  | cons e l1 ih =>
    obtain ⟨v, p⟩ := e
    simp only [List.cons_append, List.map_cons, List.mem_cons, not_or] at h
    simp only [List.cons_append, assoc]
    rw [ih h.2]
    by_cases hvc : v = c
    · rw [if_pos hvc, if_pos hvc, if_neg]
      rintro rfl; exact h.1 hvc.symm
    · rw [if_neg hvc, if_neg hvc]

/-- Filling a branch from a list of entries. -/
def fillP : List (Option Ptr) → List (Nat × Ptr) → List (Option Ptr)
  | arr, [] => arr
  | arr, (v, q) :: l => fillP (arr.set v (some q)) l

theorem fillLoop_spec {l : List (Nat × Ptr)} (l1 l2 : List (Nat × Ptr)) (h : l = l1 ++ l2) (arr : List (Option Ptr))
    (hb : ∀ e ∈ l2, e.1 < arr.length) :
    fillLoop (vals l) (kids l) l2.length l1.length arr = .ok (fillP arr l2) := by
  induction l2 generalizing l1 arr with
  | nil => rfl
  | cons e l2 ih =>
    obtain ⟨hv, hk⟩ := vals_get h
    rw [List.length_cons, fillLoop, hv, hk]
    simp only
    rw [if_pos (hb e (by simp))]
    have := ih (l1 ++ [e]) (by simp [h]) (arr.set e.1 (some e.2)) (by
      intro e' he'; rw [List.length_set]; exact hb e' (List.mem_cons_of_mem _ he'))
    simpa [fillP] using this

theorem fillP_length (arr : List (Option Ptr)) (l : List (Nat × Ptr)) : (fillP arr l).length = arr.length := by
  induction l generalizing arr with
  | nil => rfl
  | cons e l ih => rw [fillP, ih, List.length_set]

theorem fillP_get (arr : List (Option Ptr)) (l : List (Nat × Ptr)) (hn : (l.map Prod.fst).Nodup) (c : Nat)
    (hc : c < arr.length) :
    (fillP arr l)[c]? = match assoc l c with | some q => some (some q) | none => arr[c]? := by
  induction l generalizing arr with
  | nil => rfl
  | cons e l ih =>
    obtain ⟨v, q⟩ := e
    simp only [List.map_cons, List.nodup_cons] at hn
    rw [fillP, ih _ hn.2 (by simpa using hc)]
    simp only [assoc]
    by_cases hvc : v = c
    · subst hvc
      rw [assoc_none.2 hn.1, if_pos rfl]
      simp only
      rw [List.getElem?_set_self hc]
    · rw [if_neg hvc]
      split
      · rfl
      · rw [List.getElem?_set_ne hvc]

/-! ## The nodes -/

/-- A node is well-formed: its children are the entries of the arrays, or of a branch that exists. -/
def Shape (m : Map) (n : Nd) : Prop :=
  (∃ l : List (Nat × Ptr), l.length = n.childCount ∧ n.childCount ≤ 8 ∧ n.u = .tiny (vals l) (kids l) ∧
    (l.map Prod.fst).Nodup ∧ ∀ e ∈ l, e.1 < 256) ∨
  (∃ b arr, 8 < n.childCount ∧ n.u = .branch b ∧ m.branches.read b = some arr ∧ arr.length = 256 ∧
    ∃ (c : Nat) (q : Ptr), arr[c]? = some (some q))

/-- The child of a node for a byte. -/
def kidOf (m : Map) (n : Nd) (ch : Nat) : Option Ptr :=
  match childOf m n ch with
  | .ok x => x
  | _ => none

theorem childOf_tiny {m : Map} {n : Nd} {l : List (Nat × Ptr)} (h1 : l.length = n.childCount)
    (h2 : n.childCount ≤ 8) (h3 : n.u = .tiny (vals l) (kids l)) (ch : Nat) :
    childOf m n ch = .ok (assoc l ch) := by
  unfold childOf
  rw [if_pos (by unfold tinyCount; exact h2), h3]
  simp only
  rw [← h1]
  exact findLoop_spec (l := l) ch [] l rfl

theorem childOf_branch {m : Map} {n : Nd} {b : Addr} {arr : List (Option Ptr)} (h1 : 8 < n.childCount)
    (h2 : n.u = .branch b) (h3 : m.branches.read b = some arr) (ch : Nat) : childOf m n ch = must arr[ch]? := by
  unfold childOf
  rw [if_neg (by unfold tinyCount; omega), h2]
  simp only [h3]

theorem childOf_ok {m : Map} {n : Nd} (hs : Shape m n) {ch : Nat} (hc : ch < 256) :
    childOf m n ch = .ok (kidOf m n ch) := by
  unfold kidOf
  rcases hs with ⟨l, h1, h2, h3, _⟩ | ⟨b, arr, h1, h2, h3, h4, _⟩
  · rw [childOf_tiny h1 h2 h3]
  · rw [childOf_branch h1 h2 h3, List.getElem?_eq_getElem (by omega)]; rfl

/-- The low-level invariant: the pools are in order, every node is well-formed, and no two nodes share a
branch. -/
structure Low (m : Map) : Prop where
  nodes : Full 256 m.nodes
  branches : Full 8 m.branches
  shape : ∀ p n, readNode m p = .ok n → Shape m n
  own : ∀ p p' n n' b, readNode m p = .ok n → readNode m p' = .ok n' → n.u = .branch b → n'.u = .branch b → p = p'

theorem readNode_cases (m : Map) (p : Ptr) : (∃ n, readNode m p = .ok n) ∨ readNode m p = .undefined := by
  cases p with
  | root => exact .inl ⟨_, rfl⟩
  | pool a =>
    simp only [readNode]
    cases m.nodes.read a with
    | none => exact .inr rfl
    | some n => exact .inl ⟨n, rfl⟩

theorem writeNode_spec {m : Map} (hg : Full 256 m.nodes) {p : Ptr} {n n' : Nd} (hp : readNode m p = .ok n) :
    ∃ m', writeNode m p n' = .ok m' ∧ Full 256 m'.nodes ∧ m'.branches = m.branches ∧
      m'.nodes.chunks = m.nodes.chunks ∧ m'.nodes.log = m.nodes.log ∧ m'.nodes.blocks.length = m.nodes.blocks.length ∧
      readNode m' p = .ok n' ∧ ∀ r, r ≠ p → readNode m' r = readNode m r := by
  cases p with
  | root =>
    refine ⟨_, rfl, hg, rfl, rfl, rfl, rfl, rfl, ?_⟩
    intro r hr
    cases r with
    | root => exact absurd rfl hr
    | pool a => rfl
  | pool a =>
    have ha : m.nodes.read a = some n := by
      simp only [readNode] at hp
      cases h : m.nodes.read a with
      | none => rw [h] at hp; cases hp
      | some x => rw [h] at hp; cases hp; rfl
    obtain ⟨pl, w1, w2, w3, w4, w5, w6, w7⟩ := write_spec hg (v := n') ha
    refine ⟨{ m with nodes := pl }, by simp [writeNode, w1], w2, rfl, w3, w4, w5, by simp [readNode, w6], ?_⟩
    intro r hr
    cases r with
    | root => rfl
    | pool b =>
      simp only [readNode]
      rw [w7 b (by rintro rfl; exact hr rfl)]

theorem allocNode_spec (mem : Memory) {m : Map} (hg : Full 256 m.nodes) :
    (allocNode mem m = .abort ∧ ∃ i, mem.nodes i = false) ∨
    ∃ m' q, allocNode mem m = .ok (m', q) ∧ Full 256 m'.nodes ∧ m'.branches = m.branches ∧
      readNode m q = .undefined ∧ readNode m' q = .ok {} ∧ ∀ r, r ≠ q → readNode m' r = readNode m r := by
  unfold allocNode
  rcases alloc_spec (by omega) hg mem.nodes ({} : Nd) with ⟨h, hf⟩ | ⟨pl, a, h1, h2, h3, h4, h5, h6⟩
  · left; rw [h]; exact ⟨rfl, _, hf⟩
  · right
    rw [h1]
    refine ⟨_, _, rfl, h2, rfl, by simp [readNode, h3], by simp [readNode, h4], ?_⟩
    intro r hr
    cases r with
    | root => rfl
    | pool b => simp only [readNode]; rw [h5 b (by rintro rfl; exact hr rfl)]

/-- What changes when a child `q` for byte `ch` is added to the node at `p`. -/
structure Added (m m' : Map) (p : Ptr) (ch : Nat) (q : Ptr) (n n' : Nd) : Prop where
  old : readNode m p = .ok n
  fresh : readNode m q = .undefined
  atP : readNode m' p = .ok n'
  atQ : readNode m' q = .ok {}
  other : ∀ r, r ≠ p → r ≠ q → readNode m' r = readNode m r
  key : n'.key = n.key
  shape : Shape m' n'
  kid : ∀ c, c < 256 → childOf m' n' c = .ok (if c = ch then some q else kidOf m n c)
  frame : ∀ r nr b, r ≠ p → readNode m r = .ok nr → nr.u = .branch b → m'.branches.read b = m.branches.read b
  ownP : ∀ r nr b, r ≠ p → readNode m r = .ok nr → nr.u = .branch b → n'.u ≠ .branch b

theorem frame_child {m m' : Map} {n : Nd} (hs : Shape m n)
    (h : ∀ b, n.u = .branch b → m'.branches.read b = m.branches.read b) :
    Shape m' n ∧ ∀ c, childOf m' n c = childOf m n c := by
  rcases hs with ⟨l, h1, h2, h3, h4, h5⟩ | ⟨b, arr, h1, h2, h3, h4, h5⟩
  · refine ⟨.inl ⟨l, h1, h2, h3, h4, h5⟩, fun c => ?_⟩
    rw [childOf_tiny h1 h2 h3, childOf_tiny h1 h2 h3]
  · have := h b h2
    refine ⟨.inr ⟨b, arr, h1, h2, by rw [this, h3], h4, h5⟩, fun c => ?_⟩
    rw [childOf_branch h1 h2 (by rw [this, h3]), childOf_branch h1 h2 h3]

theorem shape_new (m : Map) : Shape m {} := .inl ⟨[], rfl, by simp, rfl, by simp, by simp⟩

theorem low_added {m m' : Map} (hl : Low m) {p : Ptr} {ch : Nat} {q : Ptr} {n n' : Nd} (ha : Added m m' p ch q n n')
    (g1 : Full 256 m'.nodes) (g2 : Full 8 m'.branches) : Low m' := by
  refine ⟨g1, g2, ?_, ?_⟩
  · intro r nr hr
    by_cases h1 : r = p
    · subst h1; rw [ha.atP] at hr; cases hr; exact ha.shape
    · by_cases h2 : r = q
      · subst h2; rw [ha.atQ] at hr; cases hr; exact shape_new _
      · rw [ha.other r h1 h2] at hr
        exact (frame_child (hl.shape r nr hr) fun b hb => ha.frame r nr b h1 hr hb).1
  · have key : ∀ r nr b, readNode m' r = .ok nr → nr.u = .branch b → r ≠ p → readNode m r = .ok nr := by
      intro r nr b hr hb hp
      by_cases h2 : r = q
      · subst h2; rw [ha.atQ] at hr; cases hr; cases hb
      · rw [← ha.other r hp h2]; exact hr
    intro r r' nr nr' b hr hr' hb hb'
    by_cases h1 : r = p
    · by_cases h2 : r' = p
      · rw [h1, h2]
      · exfalso
        subst h1
        rw [ha.atP] at hr; cases hr
        exact ha.ownP r' nr' b h2 (key r' nr' b hr' hb' h2) hb' hb
    · by_cases h2 : r' = p
      · exfalso
        subst h2
        rw [ha.atP] at hr'; cases hr'
        exact ha.ownP r nr b h1 (key r nr b hr hb h1) hb hb'
      · exact hl.own r r' nr nr' b (key r nr b hr hb h1) (key r' nr' b hr' hb' h2) hb hb'

/-- Some allocation fails. -/
def Short (mem : Memory) : Prop := (∃ i, mem.nodes i = false) ∨ ∃ i, mem.branches i = false

theorem addTiny_spec (mem : Memory) {m : Map} (hl : Low m) {p : Ptr} {n : Nd} (hp : readNode m p = .ok n)
    {ch : Nat} (hc : ch < 256) (hn : kidOf m n ch = none) (hs : n.childCount < 8) :
    (addTiny mem m p n ch = .abort ∧ Short mem) ∨
    ∃ m' q n', addTiny mem m p n ch = .ok (m', q) ∧ Low m' ∧ Added m m' p ch q n n' := by
  rcases hl.shape p n hp with ⟨l, h1, h2, h3, h4, h5⟩ | ⟨_, _, h1, _⟩
  · rw [kidOf, childOf_tiny h1 h2 h3] at hn
    simp only at hn
    unfold addTiny
    rw [h3]
    simp only
    rcases allocNode_spec mem hl.nodes with ⟨ha, hf⟩ | ⟨m1, q, a1, a2, a3, a4, a5, a6⟩
    · left; rw [ha]; exact ⟨rfl, .inl hf⟩
    · right
      rw [a1, bind_ok]
      obtain ⟨l1, l2, e1, e2⟩ := insertTiny_spec (l := l) (by omega) ch q
      simp only
      rw [← h1, e2, bind_ok]
      have hpq : p ≠ q := by rintro rfl; rw [a4] at hp; cases hp
      obtain ⟨m2, w1, w2, w3, _, _, _, w4, w5⟩ := writeNode_spec a2 (p := p) (n := n)
        (n' := { n with childCount := l.length + 1, u := .tiny (vals (l1 ++ (ch, q) :: l2)) (kids (l1 ++ (ch, q) :: l2)) })
        (by rw [a6 p hpq]; exact hp)
      rw [w1, bind_ok]
      have hlen : (l1 ++ (ch, q) :: l2).length = l.length + 1 := by rw [e1]; simp; omega
      have hmem : ch ∉ (l1 ++ l2).map Prod.fst := by rw [← e1]; exact assoc_none.1 hn
      have had : Added m m2 p ch q n
          { n with childCount := l.length + 1, u := .tiny (vals (l1 ++ (ch, q) :: l2)) (kids (l1 ++ (ch, q) :: l2)) } := by
        refine ⟨hp, a4, w4, by rw [w5 q (Ne.symm hpq)]; exact a5, ?_, rfl, ?_, ?_, ?_, ?_⟩
        · intro r h1 h2; rw [w5 r h1, a6 r h2]
        · refine .inl ⟨_, hlen, by show l.length + 1 ≤ 8; omega, rfl, ?_, ?_⟩
          · rw [e1] at h4
            rw [List.map_append] at h4 hmem ⊢
            rw [List.map_cons]
            have : List.Perm (l1.map Prod.fst ++ ch :: l2.map Prod.fst) (ch :: (l1.map Prod.fst ++ l2.map Prod.fst)) :=
              List.perm_middle
            rw [this.nodup_iff, List.nodup_cons]
            exact ⟨hmem, h4⟩
          · intro e he
            rcases List.mem_append.1 he with h | h
            · exact h5 e (by rw [e1]; exact List.mem_append_left _ h)
            · rcases List.mem_cons.1 h with h | h
              · rw [h]; exact hc
              · exact h5 e (by rw [e1]; exact List.mem_append_right _ h)
        · intro c _
          rw [childOf_tiny hlen (by show l.length + 1 ≤ 8; omega) rfl, assoc_insert q hmem]
          rw [kidOf, childOf_tiny h1 h2 h3, e1]
        · intro r nr b _ _ _; rw [w3, a3]
        · intro r nr b _ _ _ h; cases h
      exact ⟨m2, q, _, rfl, low_added hl had w2 (by rw [w3, a3]; exact hl.branches), had⟩
  · omega

/-- The node that `addBranch` works on: it has at least eight children, all in a branch. -/
structure Ready (m : Map) (p : Ptr) (n : Nd) (b : Addr) (arr : List (Option Ptr)) : Prop where
  nodes : Full 256 m.nodes
  branches : Full 8 m.branches
  at_ : readNode m p = .ok n
  count : 8 ≤ n.childCount
  u : n.u = .branch b
  len : arr.length = 256
  has : m.branches.read b = some arr

theorem addBranch_spec (mem : Memory) {m : Map} {p : Ptr} {n : Nd} {b : Addr} {arr : List (Option Ptr)}
    (hr : Ready m p n b arr) {ch : Nat} (hc : ch < 256) :
    (addBranch mem m p n ch = .abort ∧ Short mem) ∨
    ∃ m' q, addBranch mem m p n ch = .ok (m', q) ∧ Full 256 m'.nodes ∧ Full 8 m'.branches ∧
      readNode m q = .undefined ∧ readNode m' q = .ok {} ∧
      readNode m' p = .ok { n with childCount := n.childCount + 1 } ∧
      (∀ r, r ≠ p → r ≠ q → readNode m' r = readNode m r) ∧
      m'.branches.read b = some (arr.set ch (some q)) ∧
      ∀ b', b' ≠ b → m'.branches.read b' = m.branches.read b' := by
  unfold addBranch
  rw [hr.u]
  simp only
  rcases allocNode_spec mem hr.nodes with ⟨ha, hf⟩ | ⟨m1, q, a1, a2, a3, a4, a5, a6⟩
  · left; rw [ha]; exact ⟨rfl, .inl hf⟩
  · right
    have hpq : p ≠ q := by rintro rfl; have := hr.at_; rw [a4] at this; cases this
    rw [a1, bind_ok]
    simp only
    rw [a3, hr.has, must_some, bind_ok]
    obtain ⟨brs, b1, b2, _, _, _, b3, b4⟩ := write_spec hr.branches (v := arr.set ch (some q)) hr.has
    rw [if_pos (by rw [hr.len]; exact hc), b1, bind_ok]
    obtain ⟨m2, w1, w2, w3, _, _, _, w4, w5⟩ := writeNode_spec (m := { m1 with branches := brs }) a2 (p := p) (n := n)
      (n' := { n with childCount := n.childCount + 1, u := .branch b }) (by
        have : readNode { m1 with branches := brs } p = readNode m1 p := by cases p <;> rfl
        rw [this, a6 p hpq]; exact hr.at_)
    rw [w1, bind_ok]
    have hrd : ∀ r, readNode { m1 with branches := brs } r = readNode m1 r := by intro r; cases r <;> rfl
    refine ⟨m2, q, rfl, w2, by rw [w3]; exact b2, a4, by rw [w5 q (Ne.symm hpq), hrd]; exact a5, w4, ?_,
      by rw [w3]; exact b3, fun b' hb' => by rw [w3]; exact b4 b' hb'⟩
    intro r h1 h2
    rw [w5 r h1, hrd, a6 r h2]

theorem branch_get {arr : List (Option Ptr)} (h : arr.length = 256) {ch c : Nat} (hc : c < 256) (q : Ptr) :
    must (arr.set ch (some q))[c]? = .ok (if c = ch then some q else arr[c]?.join) := by
  rw [List.getElem?_set, h]
  by_cases hcc : ch = c
  · subst hcc; simp [hc]
  · rw [if_neg hcc, if_neg (Ne.symm hcc), List.getElem?_eq_getElem (by omega)]; rfl

/-- A node with eight children in its arrays. -/
theorem grow_add_spec (mem : Memory) {m : Map} (hl : Low m) {p : Ptr} {n : Nd} (hp : readNode m p = .ok n)
    {ch : Nat} (hc : ch < 256) (hs : n.childCount = 8) :
    ((grow mem m p n).bind (fun r => addBranch mem r.1 p r.2 ch) = .abort ∧ Short mem) ∨
    ∃ m' q n', (grow mem m p n).bind (fun r => addBranch mem r.1 p r.2 ch) = .ok (m', q) ∧ Low m' ∧
      Added m m' p ch q n n' := by
  rcases hl.shape p n hp with ⟨l, h1, h2, h3, h4, h5⟩ | ⟨_, _, h1, _⟩
  · unfold grow
    rw [if_pos (by exact hs), h3]
    simp only
    unfold allocBranch
    rcases alloc_spec (by omega) hl.branches mem.branches newBranch with ⟨h, hf⟩ | ⟨pl, b, b1, b2, b3, b4, b5, _⟩
    · left; rw [h]; exact ⟨rfl, .inr ⟨_, hf⟩⟩
    · rw [b1, bind_ok, bind_ok]
      simp only
      have hnb : newBranch.length = 256 := List.length_replicate
      have hfill := fillLoop_spec (l := l) [] l rfl newBranch (by rw [hnb]; exact h5)
      rw [List.length_nil, h1] at hfill
      rw [hfill, bind_ok]
      obtain ⟨brs, c1, c2, _, _, _, c3, c4⟩ := write_spec b2 (v := fillP newBranch l) b4
      rw [c1, bind_ok]
      have hrd : ∀ r, readNode { m with branches := brs } r = readNode m r := by intro r; cases r <;> rfl
      obtain ⟨m1, w1, w2, w3, _, _, _, w4, w5⟩ := writeNode_spec (m := { m with branches := brs }) hl.nodes (p := p) (n := n)
        (n' := { n with u := .branch b }) (by rw [hrd]; exact hp)
      rw [w1, bind_ok, bind_ok]
      simp only
      have hflen : (fillP newBranch l).length = 256 := by rw [fillP_length, hnb]
      have hready : Ready m1 p { n with u := .branch b } b (fillP newBranch l) :=
        ⟨w2, by rw [w3]; exact c2, w4, by simp [hs], rfl, hflen, by rw [w3]; exact c3⟩
      have hrest : ∀ r, r ≠ p → readNode m1 r = readNode m r := fun r hr => by rw [w5 r hr, hrd]
      have hbr : ∀ b', b' ≠ b → m1.branches.read b' = m.branches.read b' := fun b' hb' => by
        rw [w3]; exact (c4 b' hb').trans (b5 b' hb')
      rcases addBranch_spec mem hready hc with h | ⟨m', q, d1, d2, d3, d4, d5, d6, d7, d8, d9⟩
      · left; exact h
      · right
        have hpq : q ≠ p := by rintro rfl; rw [w4] at d4; cases d4
        have hfresh : ∀ r nr b', r ≠ p → readNode m r = .ok nr → nr.u = .branch b' → b' ≠ b := by
          rintro r nr b' hrp hr hb rfl
          rcases hl.shape r nr hr with ⟨_, _, _, g, _⟩ | ⟨_, _, _, g, g', _⟩
          · rw [g] at hb; cases hb
          · rw [g] at hb; cases hb; rw [b3] at g'; cases g'
        have had : Added m m' p ch q n { n with childCount := n.childCount + 1, u := .branch b } := by
          refine ⟨hp, by rw [← hrest q hpq]; exact d4, d6, d5, ?_, rfl, ?_, ?_, ?_, ?_⟩
          · intro r h1 h2; rw [d7 r h1 h2, hrest r h1]
          · refine .inr ⟨b, _, by show 8 < n.childCount + 1; omega, rfl, d8, by rw [List.length_set, hflen], ch, q, ?_⟩
            rw [List.getElem?_set_self (by omega)]
          · intro c hcc
            rw [childOf_branch (by show 8 < n.childCount + 1; omega) rfl d8, branch_get hflen hcc,
              fillP_get _ _ h4 _ (by rw [hnb]; exact hcc)]
            rw [kidOf, childOf_tiny h1 h2 h3]
            congr 1
            split
            · rfl
            · cases assoc l c with
              | some x => rfl
              | none =>
                show (newBranch[c]?).join = none
                unfold newBranch
                rw [List.getElem?_replicate, if_pos hcc]
                rfl
          · intro r nr b' hrp hr hb
            have hne := hfresh r nr b' hrp hr hb
            rw [d9 b' hne, hbr b' hne]
          · rintro r nr b' hrp hr hb h
            cases h
            exact hfresh r nr b hrp hr hb rfl
        exact ⟨m', q, _, d1, low_added hl had d2 d3, had⟩
  · omega

theorem branch_add_spec (mem : Memory) {m : Map} (hl : Low m) {p : Ptr} {n : Nd} (hp : readNode m p = .ok n)
    {ch : Nat} (hc : ch < 256) (hs : 8 < n.childCount) :
    ((grow mem m p n).bind (fun r => addBranch mem r.1 p r.2 ch) = .abort ∧ Short mem) ∨
    ∃ m' q n', (grow mem m p n).bind (fun r => addBranch mem r.1 p r.2 ch) = .ok (m', q) ∧ Low m' ∧
      Added m m' p ch q n n' := by
  rcases hl.shape p n hp with ⟨_, _, h2, _⟩ | ⟨b, arr, h1, h2, h3, h4, h5⟩
  · omega
  · unfold grow
    rw [if_neg (by unfold tinyCount; omega), bind_ok]
    simp only
    have hready : Ready m p n b arr := ⟨hl.nodes, hl.branches, hp, by omega, h2, h4, h3⟩
    rcases addBranch_spec mem hready hc with h | ⟨m', q, d1, d2, d3, d4, d5, d6, d7, d8, d9⟩
    · left; exact h
    · right
      have hfresh : ∀ r nr b', r ≠ p → readNode m r = .ok nr → nr.u = .branch b' → b' ≠ b := by
        rintro r nr b' hrp hr hb rfl
        exact hrp (hl.own r p nr n b' hr hp hb h2)
      have had : Added m m' p ch q n { n with childCount := n.childCount + 1 } := by
        refine ⟨hp, d4, d6, d5, d7, rfl, ?_, ?_, ?_, ?_⟩
        · refine .inr ⟨b, _, by show 8 < n.childCount + 1; omega, h2, d8, by rw [List.length_set, h4], ch, q, ?_⟩
          rw [List.getElem?_set_self (by omega)]
        · intro c hcc
          rw [childOf_branch (n := { n with childCount := n.childCount + 1 }) (by show 8 < n.childCount + 1; omega) h2 d8,
            branch_get h4 hcc]
          rw [kidOf, childOf_branch h1 h2 h3, List.getElem?_eq_getElem (by omega)]
          rfl
        · intro r nr b' hrp hr hb
          exact d9 b' (hfresh r nr b' hrp hr hb)
        · rintro r nr b' hrp hr hb h
          have h : n.u = .branch b' := h
          rw [h2] at h
          cases h
          exact hfresh r nr b hrp hr hb rfl
      exact ⟨m', q, _, d1, low_added hl had d2 d3, had⟩

theorem create_spec (mem : Memory) {m : Map} (hl : Low m) {p : Ptr} {n : Nd} (hp : readNode m p = .ok n)
    {ch : Nat} (hc : ch < 256) (hn : kidOf m n ch = none) :
    (create mem m p n ch = .abort ∧ Short mem) ∨
    ∃ m' q n', create mem m p n ch = .ok (m', q) ∧ Low m' ∧ Added m m' p ch q n n' := by
  unfold create
  rw [show tinyCount = 8 from rfl]
  by_cases h : n.childCount < 8
  · rw [if_pos h]; exact addTiny_spec mem hl hp hc hn h
  · rw [if_neg h]
    by_cases h8 : n.childCount = 8
    · exact grow_add_spec mem hl hp hc h8
    · exact branch_add_spec mem hl hp hc (by omega)

/-! ## The graph -/

/-- The child of the node at an address. -/
def kid (m : Map) (p : Ptr) (ch : Nat) : Option Ptr :=
  match readNode m p with
  | .ok n => kidOf m n ch
  | _ => none

/-- The key of the node at an address. -/
def keyOf (m : Map) (p : Ptr) : Option Key :=
  match readNode m p with
  | .ok n => some n.key
  | _ => none

theorem getChild_ok {m : Map} (hl : Low m) {p : Ptr} {k : Key} (hp : keyOf m p = some k) {ch : Nat} (hc : ch < 256) :
    getChild m p ch = .ok (kid m p ch) := by
  unfold getChild kid
  unfold keyOf at hp
  rcases readNode_cases m p with ⟨n, hn⟩ | hn
  · rw [hn]
    exact childOf_ok (hl.shape p n hn) hc
  · rw [hn] at hp; cases hp

/-- Every child is a node of the pool, and has one parent only. -/
structure Graph (m : Map) : Prop where
  valid : ∀ p c q, c < 256 → kid m p c = some q → q ≠ .root ∧ (keyOf m q).isSome
  uniq : ∀ p c p' c' q, c < 256 → c' < 256 → kid m p c = some q → kid m p' c' = some q → p = p' ∧ c = c'

/-- The node reached from the root along some bytes. -/
def walk (m : Map) (path : List Nat) : Option Ptr := path.foldl (fun p c => p.bind fun p => kid m p c) (some .root)

theorem walk_nil (m : Map) : walk m [] = some .root := rfl
theorem walk_snoc (m : Map) (path : List Nat) (c : Nat) : walk m (path ++ [c]) = (walk m path).bind fun p => kid m p c := by
  unfold walk; rw [List.foldl_append]; rfl

theorem snoc_ind {P : List Nat → Prop} (h0 : P []) (h1 : ∀ l c, P l → P (l ++ [c])) (l : List Nat) : P l := by
  obtain ⟨n, hn⟩ : ∃ n, l.length = n := ⟨_, rfl⟩
  induction n generalizing l with
  | zero => rw [List.length_eq_zero_iff.1 hn]; exact h0
  | succ n ih =>
    have hne : l ≠ [] := by rintro rfl; cases hn
    rw [← List.dropLast_concat_getLast hne]
    exact h1 _ _ (ih _ (by simp [hn]))

theorem walk_valid {m : Map} (hg : Graph m) (path : List Nat) (hb : ∀ c ∈ path, c < 256) {p : Ptr}
    (h : walk m path = some p) : (keyOf m p).isSome := by
  induction path using snoc_ind generalizing p with
  | h0 => cases h; rfl
  | h1 path c ih =>
    rw [walk_snoc] at h
    cases hw : walk m path with
    | none => rw [hw] at h; cases h
    | some r => rw [hw] at h; exact (hg.valid r c p (hb c (by simp)) h).2

theorem walk_inj {m : Map} (hg : Graph m) (a b : List Nat) (ha : ∀ c ∈ a, c < 256) (hb : ∀ c ∈ b, c < 256) {p : Ptr}
    (h1 : walk m a = some p) (h2 : walk m b = some p) : a = b := by
  induction a using snoc_ind generalizing b p with
  | h0 =>
    cases h1
    induction b using snoc_ind with
    | h0 => rfl
    | h1 b c _ =>
      rw [walk_snoc] at h2
      cases hw : walk m b with
      | none => rw [hw] at h2; cases h2
      | some r => rw [hw] at h2; exact absurd rfl (hg.valid r c _ (hb c (by simp)) h2).1
  | h1 a c ih =>
    rw [walk_snoc] at h1
    cases hwa : walk m a with
    | none => rw [hwa] at h1; cases h1
    | some r =>
      rw [hwa] at h1
      have h1 : kid m r c = some p := h1
      induction b using snoc_ind with
      | h0 => cases h2; exact absurd rfl (hg.valid r c _ (ha c (by simp)) h1).1
      | h1 b d _ =>
        rw [walk_snoc] at h2
        cases hwb : walk m b with
        | none => rw [hwb] at h2; cases h2
        | some r' =>
          rw [hwb] at h2
          have h2 : kid m r' d = some p := h2
          obtain ⟨e1, e2⟩ := hg.uniq r c r' d p (ha c (by simp)) (hb d (by simp)) h1 h2
          subst e1; subst e2
          rw [ih b (fun x hx => ha x (by simp [hx])) (fun x hx => hb x (by simp [hx])) hwa hwb]

theorem added_key {m m' : Map} {p : Ptr} {ch : Nat} {q : Ptr} {n n' : Nd} (ha : Added m m' p ch q n n') (r : Ptr) :
    keyOf m' r = if r = q then some {} else keyOf m r := by
  unfold keyOf
  have hpq : p ≠ q := by rintro rfl; have := ha.old; rw [ha.fresh] at this; cases this
  by_cases h1 : r = q
  · subst h1; rw [ha.atQ, if_pos rfl]
  · rw [if_neg h1]
    by_cases h2 : r = p
    · subst h2; rw [ha.atP, ha.old]; simp [ha.key]
    · rw [ha.other r h2 h1]

theorem added_kid {m m' : Map} (hl : Low m) {p : Ptr} {ch : Nat} {q : Ptr} {n n' : Nd} (ha : Added m m' p ch q n n')
    (r : Ptr) {c : Nat} (hc : c < 256) :
    kid m' r c = if r = p ∧ c = ch then some q else if r = q then none else kid m r c := by
  unfold kid
  have hpq : p ≠ q := by rintro rfl; have := ha.old; rw [ha.fresh] at this; cases this
  by_cases h2 : r = p
  · subst h2
    rw [ha.atP, ha.old, if_neg hpq]
    simp only [true_and]
    rw [kidOf, ha.kid c hc]
  · rw [if_neg (fun h => h2 h.1)]
    by_cases h1 : r = q
    · subst h1
      rw [ha.atQ, if_pos rfl]
      simp only
      rw [kidOf, childOf_tiny (l := []) rfl (by simp) rfl]; rfl
    · rw [if_neg h1, ha.other r h2 h1]
      rcases readNode_cases m r with ⟨nr, hn⟩ | hn
      · rw [hn]
        simp only
        rw [kidOf, kidOf, (frame_child (hl.shape r nr hn) fun b hb => ha.frame r nr b h2 hn hb).2]
      · rw [hn]

theorem key_none {m : Map} {q : Ptr} (h : readNode m q = .undefined) : keyOf m q = none := by
  unfold keyOf; rw [h]

theorem graph_added {m m' : Map} (hl : Low m) (hg : Graph m) {p : Ptr} {ch : Nat} {q : Ptr} {n n' : Nd}
    (ha : Added m m' p ch q n n') : Graph m' := by
  have hroot : q ≠ .root := by rintro rfl; have := ha.fresh; cases this
  have hold : ∀ r c, c < 256 → kid m r c ≠ some q := by
    intro r c hc h
    have := (hg.valid r c q hc h).2
    rw [key_none ha.fresh] at this
    cases this
  refine ⟨?_, ?_⟩
  · intro r c x hc hx
    rw [added_kid hl ha r hc] at hx
    rw [added_key ha]
    split at hx
    · cases hx; exact ⟨hroot, by simp⟩
    · split at hx
      · cases hx
      · obtain ⟨h1, h2⟩ := hg.valid r c x hc hx
        refine ⟨h1, ?_⟩
        split
        · rfl
        · exact h2
  · intro r c r' c' x hc hc' hx hx'
    rw [added_kid hl ha r hc] at hx
    rw [added_kid hl ha r' hc'] at hx'
    split at hx
    · rename_i h1
      cases hx
      split at hx'
      · rename_i h2; exact ⟨h1.1.trans h2.1.symm, h1.2.trans h2.2.symm⟩
      · split at hx'
        · cases hx'
        · exact absurd hx' (hold _ _ hc')
    · split at hx
      · cases hx
      · split at hx'
        · cases hx'; exact absurd hx (hold _ _ hc)
        · split at hx'
          · cases hx'
          · exact hg.uniq r c r' c' x hc hc' hx hx'

theorem added_walk {m m' : Map} (hl : Low m) (hg : Graph m) {p : Ptr} {ch : Nat} {q : Ptr} {n n' : Nd}
    (ha : Added m m' p ch q n n') {done : List Nat} (hd : walk m done = some p) (hdb : ∀ c ∈ done, c < 256)
    (hk : kid m p ch = none) (path : List Nat) (hb : ∀ c ∈ path, c < 256) :
    walk m' path = if path = done ++ [ch] then some q else walk m path := by
  induction path using snoc_ind with
  | h0 => rw [if_neg (by simp)]; rfl
  | h1 pre c ih =>
    have hpre : ∀ x ∈ pre, x < 256 := fun x hx => hb x (by simp [hx])
    have hc : c < 256 := hb c (by simp)
    rw [walk_snoc, walk_snoc, ih hpre]
    by_cases h1 : pre = done ++ [ch]
    · rw [if_pos h1]
      have hw : walk m pre = none := by rw [h1, walk_snoc, hd]; exact hk
      have hpq : q ≠ p := by rintro rfl; have := ha.old; rw [ha.fresh] at this; cases this
      rw [hw, if_neg (by rw [h1]; simp)]
      show kid m' q c = none
      rw [added_kid hl ha q hc, if_neg (fun h => hpq h.1), if_pos rfl]
    · rw [if_neg h1]
      cases hw : walk m pre with
      | none =>
        rw [if_neg]
        · rfl
        · intro he
          have := List.append_inj' he rfl
          rw [this.1, hd] at hw
          cases hw
      | some r =>
        show kid m' r c = if pre ++ [c] = done ++ [ch] then some q else kid m r c
        have hrq : r ≠ q := by
          rintro rfl
          have := walk_valid hg pre hpre hw
          rw [key_none ha.fresh] at this
          cases this
        rw [added_kid hl ha r hc, if_neg hrq]
        by_cases h2 : r = p ∧ c = ch
        · obtain ⟨rfl, rfl⟩ := h2
          rw [if_pos ⟨rfl, rfl⟩, if_pos (by rw [walk_inj hg pre done hpre hdb hw hd])]
        · rw [if_neg h2, if_neg]
          intro he
          have := List.append_inj' he rfl
          rw [this.1, hd] at hw
          cases hw
          exact h2 ⟨rfl, by simpa using this.2⟩

/-- The key stored for a path. -/
def kAt (m : Map) (path : List Nat) : Option Key := (walk m path).bind (keyOf m)

theorem walk_prefix {m : Map} (a b : List Nat) {p : Ptr} (h : walk m (a ++ b) = some p) : ∃ r, walk m a = some r := by
  induction b using snoc_ind generalizing p with
  | h0 => rw [List.append_nil] at h; exact ⟨p, h⟩
  | h1 b c ih =>
    rw [← List.append_assoc, walk_snoc] at h
    cases hw : walk m (a ++ b) with
    | none => rw [hw] at h; cases h
    | some r => exact ih hw

theorem setKey_spec {m : Map} (hl : Low m) (hg : Graph m) {p : Ptr} {n : Nd} (hp : readNode m p = .ok n) (k : Key) :
    ∃ m', writeNode m p { n with key := k } = .ok m' ∧ Low m' ∧ Graph m' ∧ (∀ path, walk m' path = walk m path) ∧
      ∀ r, keyOf m' r = if r = p then some k else keyOf m r := by
  obtain ⟨m', w1, w2, w3, _, _, _, w4, w5⟩ := writeNode_spec hl.nodes (n' := { n with key := k }) hp
  have hch : ∀ nd c, childOf m' nd c = childOf m nd c := by
    intro nd c; unfold childOf; rw [w3]
  have hchk : ∀ c, childOf m { n with key := k } c = childOf m n c := fun _ => rfl
  have hkid : ∀ r c, kid m' r c = kid m r c := by
    intro r c
    unfold kid
    by_cases h : r = p
    · subst h; rw [w4, hp]; simp only; rw [kidOf, kidOf, hch, hchk]
    · rw [w5 r h]
      rcases readNode_cases m r with ⟨nr, hn⟩ | hn
      · rw [hn]; simp only; rw [kidOf, kidOf, hch]
      · rw [hn]
  have hkey : ∀ r, keyOf m' r = if r = p then some k else keyOf m r := by
    intro r
    unfold keyOf
    by_cases h : r = p
    · subst h; rw [w4, if_pos rfl]
    · rw [w5 r h, if_neg h]
  have hsome : ∀ r, (keyOf m r).isSome → (keyOf m' r).isSome := by
    intro r hr; rw [hkey]; split
    · rfl
    · exact hr
  have hsh : ∀ nd, Shape m nd → Shape m' nd := by
    intro nd hs
    exact (frame_child hs fun b _ => by rw [w3]).1
  have hread : ∀ r nr, readNode m' r = .ok nr → ∃ nr0, readNode m r = .ok nr0 ∧ nr.u = nr0.u ∧ nr.childCount = nr0.childCount := by
    intro r nr hr
    by_cases h : r = p
    · subst h; rw [w4] at hr; cases hr; exact ⟨n, hp, rfl, rfl⟩
    · rw [w5 r h] at hr; exact ⟨nr, hr, rfl, rfl⟩
  refine ⟨m', w1, ⟨w2, by rw [w3]; exact hl.branches, ?_, ?_⟩, ⟨?_, ?_⟩, ?_, hkey⟩
  · intro r nr hr
    obtain ⟨nr0, h0, h1, h2⟩ := hread r nr hr
    have := hsh nr0 (hl.shape r nr0 h0)
    unfold Shape at this ⊢
    rw [h1, h2]
    exact this
  · intro r r' nr nr' b hr hr' hb hb'
    obtain ⟨nr0, h0, h1, _⟩ := hread r nr hr
    obtain ⟨nr0', h0', h1', _⟩ := hread r' nr' hr'
    exact hl.own r r' nr0 nr0' b h0 h0' (by rw [← h1]; exact hb) (by rw [← h1']; exact hb')
  · intro r c q hc hq
    rw [hkid] at hq
    obtain ⟨a, b⟩ := hg.valid r c q hc hq
    exact ⟨a, hsome q b⟩
  · intro r c r' c' q hc hc' hq hq'
    rw [hkid] at hq hq'
    exact hg.uniq r c r' c' q hc hc' hq hq'
  · intro path
    unfold walk
    simp only [hkid]

theorem setHelper_spec (mem : Memory) (k : Key) (e : List Nat) (m : Map) (hl : Low m) (hg : Graph m) (p : Ptr)
    (done : List Nat) (hd : walk m done = some p) (hdb : ∀ c ∈ done, c < 256) (heb : ∀ c ∈ e, c < 256) :
    (setHelper mem m p e k = .abort ∧ Short mem) ∨
    ∃ m', setHelper mem m p e k = .ok m' ∧ Low m' ∧ Graph m' ∧ ∀ path, (∀ c ∈ path, c < 256) →
      kAt m' path = if path = done ++ e then some k else if path <+: done ++ e then some ((kAt m path).getD {})
        else kAt m path := by
  induction e generalizing m p done with
  | nil =>
    right
    have hv := walk_valid hg done hdb hd
    rcases readNode_cases m p with ⟨n, hn⟩ | hn
    · obtain ⟨m', w1, w2, w3, w4, w5⟩ := setKey_spec hl hg hn k
      refine ⟨m', by rw [setHelper, hn]; exact w1, w2, w3, ?_⟩
      intro path hb
      rw [List.append_nil]
      unfold kAt
      rw [w4]
      by_cases h1 : path = done
      · rw [if_pos h1, h1, hd]
        show keyOf m' p = some k
        rw [w5, if_pos rfl]
      · rw [if_neg h1]
        have hsame : (walk m path).bind (keyOf m') = (walk m path).bind (keyOf m) := by
          cases hw : walk m path with
          | none => rfl
          | some r =>
            show keyOf m' r = keyOf m r
            rw [w5, if_neg]
            rintro rfl
            exact h1 (walk_inj hg path done hb hdb hw hd)
        rw [hsame]
        by_cases h2 : path <+: done
        · rw [if_pos h2]
          obtain ⟨t, ht⟩ := h2
          obtain ⟨r, hr⟩ := walk_prefix path t (p := p) (by rw [ht]; exact hd)
          rw [hr]
          have hrv := walk_valid hg path hb hr
          cases hkr : keyOf m r with
          | none => rw [hkr] at hrv; cases hrv
          | some x => simp [hkr]
        · rw [if_neg h2]
    · rw [key_none hn] at hv; cases hv
  | cons ch e ih =>
    have hc : ch < 256 := heb ch (by simp)
    have hv := walk_valid hg done hdb hd
    obtain ⟨kp, hkp⟩ := Option.isSome_iff_exists.1 hv
    rw [setHelper, getOrCreateChild, getChild_ok hl hkp hc, bind_ok]
    have hdb' : ∀ c ∈ done ++ [ch], c < 256 := by
      intro c hcm
      rcases List.mem_append.1 hcm with h | h
      · exact hdb c h
      · rw [List.mem_singleton.1 h]; exact hc
    have heb' : ∀ c ∈ e, c < 256 := fun c h => heb c (List.mem_cons_of_mem _ h)
    cases hk : kid m p ch with
    | some q =>
      rw [orCreate, bind_ok]
      have := ih m hl hg q (done ++ [ch]) (by rw [walk_snoc, hd]; exact hk) hdb' heb'
      simpa [List.append_assoc] using this
    | none =>
      rw [orCreate]
      rcases readNode_cases m p with ⟨n, hn⟩ | hn
      · rw [hn, bind_ok]
        have hkn : kidOf m n ch = none := by unfold kid at hk; rw [hn] at hk; exact hk
        rcases create_spec mem hl hn hc hkn with ⟨h, hs⟩ | ⟨m1, q, n', c1, c2, c3⟩
        · left; rw [h]; exact ⟨rfl, hs⟩
        · rw [c1, bind_ok]
          have hwalk := added_walk hl hg c3 hd hdb hk
          rcases ih m1 c2 (graph_added hl hg c3) q (done ++ [ch])
            (by rw [hwalk _ hdb', if_pos rfl]) hdb' heb' with h | ⟨m', d1, d2, d3, d4⟩
          · left; exact h
          · right
            refine ⟨m', d1, d2, d3, ?_⟩
            intro path hb
            have hfull : done ++ [ch] ++ e = done ++ ch :: e := by simp
            rw [d4 path hb, hfull]
            have hk1 : kAt m1 path = if path = done ++ [ch] then some {} else kAt m path := by
              unfold kAt
              rw [hwalk path hb]
              by_cases h1 : path = done ++ [ch]
              · rw [if_pos h1, if_pos h1]
                show keyOf m1 q = some {}
                rw [added_key c3, if_pos rfl]
              · rw [if_neg h1, if_neg h1]
                cases hw : walk m path with
                | none => rfl
                | some r =>
                  show keyOf m1 r = keyOf m r
                  rw [added_key c3, if_neg]
                  rintro rfl
                  have := walk_valid hg path hb hw
                  rw [key_none c3.fresh] at this
                  cases this
            by_cases h1 : path = done ++ [ch]
            · have hnone : kAt m path = none := by
                unfold kAt; rw [h1, walk_snoc, hd]
                show (kid m p ch).bind _ = none
                rw [hk]; rfl
              have hpre : path <+: done ++ ch :: e := ⟨e, by rw [h1]; simp⟩
              rw [if_pos hpre, if_pos hpre, hk1, if_pos h1, hnone]
              rfl
            · rw [hk1, if_neg h1]
      · rw [key_none hn] at hkp; cases hkp

/-- The pointer structure stores what the tree of `Model/InputMap.lean` does. -/
structure Sim (m : Map) (root : InputMap.Node) : Prop where
  low : Low m
  graph : Graph m
  wf : InputMap.WF root
  same : ∀ path, (∀ c ∈ path, c < 256) → kAt m path = InputMap.keyAt root path

theorem sim_new : Sim {} InputMap.newNode := by
  have hr : ∀ p n, readNode {} p = .ok n → p = .root ∧ n = {} := by
    intro p n h
    cases p with
    | root => cases h; exact ⟨rfl, rfl⟩
    | pool a => simp [readNode, Pool.read] at h
  have hk : ∀ p c, kid {} p c = none := by
    intro p c
    unfold kid
    rcases readNode_cases {} p with ⟨n, hn⟩ | hn
    · rw [hn, (hr p n hn).2]
      simp only
      rw [kidOf, childOf_tiny (l := []) rfl (by simp) rfl]; rfl
    · rw [hn]
  refine ⟨⟨Full.empty _, Full.empty _, ?_, ?_⟩, ⟨?_, ?_⟩, InputMap.WF.newNode, ?_⟩
  · intro p n h; rw [(hr p n h).2]; exact shape_new _
  · intro p p' n n' b h h' _ _; rw [(hr p n h).1, (hr p' n' h').1]
  · intro p c q _ h; rw [hk] at h; cases h
  · intro p c p' c' q _ _ h; rw [hk] at h; cases h
  · intro path _
    rw [InputMap.keyAt_newNode]
    induction path using snoc_ind with
    | h0 => rfl
    | h1 l c _ =>
      rw [if_neg (by simp), kAt, walk_snoc]
      cases walk {} l with
      | none => rfl
      | some r => show (kid {} r c).bind _ = none; rw [hk]; rfl

theorem sim_set (mem : Memory) {m : Map} {root : InputMap.Node} (hs : Sim m root) (e : List Nat) (k : Key)
    (hne : e ≠ []) (hb : ∀ c ∈ e, c < 256) :
    (set mem m e k = .abort ∧ Short mem) ∨
    ∃ m', set mem m e k = .ok m' ∧ Sim m' (InputMap.setHelper root e k) := by
  unfold set
  rw [if_pos (List.length_pos_iff.2 hne)]
  rcases setHelper_spec mem k e m hs.low hs.graph .root [] rfl (by simp) hb with h | ⟨m', h1, h2, h3, h4⟩
  · left; exact h
  · right
    obtain ⟨g1, g2⟩ := InputMap.setHelper_spec e k root hs.wf hb
    refine ⟨m', h1, h2, h3, g1, ?_⟩
    intro path hp
    rw [h4 path hp, g2, hs.same path hp]
    rfl

theorem sim_setAll (mem : Memory) (regs : List (List Nat × Key)) {m : Map} {root : InputMap.Node} (hs : Sim m root)
    (hv : ∀ r ∈ regs, r.1 ≠ [] ∧ ∀ c ∈ r.1, c < 256) :
    (setAll mem m regs = .abort ∧ Short mem) ∨
    ∃ m' root', setAll mem m regs = .ok m' ∧ InputMap.setAll root regs = some root' ∧ Sim m' root' := by
  induction regs generalizing m root with
  | nil => exact .inr ⟨m, root, rfl, rfl, hs⟩
  | cons r regs ih =>
    obtain ⟨e, k⟩ := r
    obtain ⟨h1, h2⟩ := hv (e, k) (by simp)
    rw [setAll]
    rcases sim_set mem hs e k h1 h2 with ⟨h, hf⟩ | ⟨m1, e1, e2⟩
    · left; rw [h]; exact ⟨rfl, hf⟩
    · rw [e1, bind_ok]
      rcases ih e2 (fun r hr => hv r (List.mem_cons_of_mem _ hr)) with h | ⟨m', root', f1, f2, f3⟩
      · left; exact h
      · right
        refine ⟨m', root', f1, ?_, f3⟩
        rw [InputMap.setAll, InputMap.set, if_pos (List.length_pos_iff.2 h1)]
        exact f2

/-! ## Lookup -/

theorem getChild_lt {n c : InputMap.Node} (hn : InputMap.WF n) {ch : Nat} (h : InputMap.getChild n ch = some c) : ch < 256 := by
  cases hn with
  | tiny k l hl hb _ _ =>
    simp only [InputMap.getChild, InputMap.Node.childCount, InputMap.kTinyCount, hl, ↓reduceIte, InputMap.Node.u] at h
    exact hb _ (InputMap.tinyFind_mem h)
  | branch k m b hm hlen _ _ =>
    have hm' : ¬ m ≤ 8 := by omega
    simp only [InputMap.getChild, InputMap.Node.childCount, InputMap.kTinyCount, hm', ↓reduceIte, InputMap.Node.u] at h
    rcases Nat.lt_or_ge ch 256 with h2 | h2
    · exact h2
    · rw [List.getElem?_eq_none (by omega)] at h; cases h

theorem count_pos {m : Map} {n : Nd} (hs : Shape m n) : n.childCount > 0 ↔ ∃ c, c < 256 ∧ (kidOf m n c).isSome := by
  rcases hs with ⟨l, h1, h2, h3, h4, h5⟩ | ⟨b, arr, h1, h2, h3, h4, c, q, h5⟩
  · have hk : ∀ c, kidOf m n c = assoc l c := fun c => by rw [kidOf, childOf_tiny h1 h2 h3]
    simp only [hk]
    rw [← h1]
    constructor
    · intro h
      cases l with
      | nil => cases h
      | cons e l => exact ⟨e.1, h5 e (by simp), by simp [assoc]⟩
    · rintro ⟨c, _, hc⟩
      obtain ⟨q, hq⟩ := Option.isSome_iff_exists.1 hc
      exact List.length_pos_of_mem (assoc_mem hq)
  · refine ⟨fun _ => ⟨c, ?_, ?_⟩, fun _ => by omega⟩
    · rcases Nat.lt_or_ge c 256 with h | h
      · exact h
      · rw [List.getElem?_eq_none (by omega)] at h5; cases h5
    · rw [kidOf, childOf_branch h1 h2 h3, h5]; rfl

theorem lookupLoop_sim {m : Map} {root : InputMap.Node} (hs : Sim m root) (r : List Nat) (hr : ∀ c ∈ r, c < 256)
    (done : List Nat) (hdb : ∀ c ∈ done, c < 256) (p : Ptr) (hp : walk m done = some p) (n : InputMap.Node)
    (hn : InputMap.walk root done = some n) (i bl : Nat) (bk : Key) :
    lookupLoop m p i bl bk r = .ok (InputMap.lookupLoop n i bl bk r) := by
  have hkid : ∀ {done : List Nat} {p : Ptr} {n : InputMap.Node}, (∀ c ∈ done, c < 256) → walk m done = some p →
      InputMap.walk root done = some n → ∀ c, c < 256 →
      ((kid m p c).bind (keyOf m) = (InputMap.getChild n c).map InputMap.Node.key ∧
       walk m (done ++ [c]) = kid m p c ∧ InputMap.walk root (done ++ [c]) = InputMap.getChild n c) := by
    intro done p n hdb hp hn c hc
    have hb' : ∀ x ∈ done ++ [c], x < 256 := by
      intro x hx
      rcases List.mem_append.1 hx with h | h
      · exact hdb x h
      · rw [List.mem_singleton.1 h]; exact hc
    have w1 : walk m (done ++ [c]) = kid m p c := by rw [walk_snoc, hp]; rfl
    have w2 : InputMap.walk root (done ++ [c]) = InputMap.getChild n c := by
      rw [InputMap.walk_append, hn]
      show InputMap.walk n [c] = _
      rw [InputMap.walk]
      cases InputMap.getChild n c <;> rfl
    have := hs.same (done ++ [c]) hb'
    rw [kAt, w1, InputMap.keyAt_eq_walk, w2] at this
    exact ⟨this, w1, w2⟩
  have hkeyv : ∀ {p : Ptr} {c : Nat} {q : Ptr}, c < 256 → kid m p c = some q → ∃ nd, readNode m q = .ok nd ∧ keyOf m q = some nd.key := by
    intro p c q hc hq
    have := (hs.graph.valid p c q hc hq).2
    unfold keyOf at this ⊢
    rcases readNode_cases m q with ⟨nd, hnd⟩ | hnd
    · exact ⟨nd, hnd, by rw [hnd]⟩
    · rw [hnd] at this; cases this
  induction r generalizing done p n i bl bk with
  | nil =>
    have hv := walk_valid hs.graph done hdb hp
    rcases readNode_cases m p with ⟨nd, hnd⟩ | hnd
    · rw [lookupLoop, hnd, bind_ok, InputMap.lookupLoop]
      congr 2
      rw [decide_eq_decide, count_pos (hs.low.shape p nd hnd), gt_iff_lt,
        InputMap.childCount_pos (InputMap.walk_wf hs.wf hn)]
      have hkk : ∀ c, kid m p c = kidOf m nd c := fun c => by unfold kid; rw [hnd]
      constructor
      · rintro ⟨c, hc, hks⟩
        obtain ⟨e1, _, _⟩ := hkid hdb hp hn c hc
        obtain ⟨q, hq⟩ := Option.isSome_iff_exists.1 hks
        rw [← hkk] at hq
        obtain ⟨_, _, hk2⟩ := hkeyv hc hq
        rw [hq] at e1
        simp only [Option.bind_some, hk2] at e1
        cases hg : InputMap.getChild n c with
        | none => rw [hg] at e1; cases e1
        | some x => exact ⟨c, x, hg⟩
      · rintro ⟨c, x, hx⟩
        have hc := getChild_lt (InputMap.walk_wf hs.wf hn) hx
        obtain ⟨e1, _, _⟩ := hkid hdb hp hn c hc
        rw [hx] at e1
        cases hkc : kid m p c with
        | none => rw [hkc] at e1; cases e1
        | some q => exact ⟨c, hc, by rw [← hkk, hkc]; rfl⟩
    · rw [key_none hnd] at hv; cases hv
  | cons ch r ih =>
    have hc : ch < 256 := hr ch (by simp)
    have hr' : ∀ c ∈ r, c < 256 := fun c h => hr c (List.mem_cons_of_mem _ h)
    have hv := walk_valid hs.graph done hdb hp
    obtain ⟨kp, hkp⟩ := Option.isSome_iff_exists.1 hv
    obtain ⟨e1, e2, e3⟩ := hkid hdb hp hn ch hc
    rw [lookupLoop, getChild_ok hs.low hkp hc, bind_ok, InputMap.lookupLoop]
    have hdb' : ∀ x ∈ done ++ [ch], x < 256 := by
      intro x hx
      rcases List.mem_append.1 hx with h | h
      · exact hdb x h
      · rw [List.mem_singleton.1 h]; exact hc
    cases hkc : kid m p ch with
    | none =>
      rw [hkc] at e1
      cases hg : InputMap.getChild n ch with
      | none => rfl
      | some x => rw [hg] at e1; cases e1
    | some q =>
      obtain ⟨nd, hnd, hk2⟩ := hkeyv hc hkc
      rw [hkc] at e1 e2
      simp only [Option.bind_some, hk2] at e1
      cases hg : InputMap.getChild n ch with
      | none => rw [hg] at e1; cases e1
      | some x =>
        rw [hg] at e1 e3
        have hkey : nd.key = x.key := by simpa using e1
        simp only
        rw [hnd, bind_ok, hkey]
        split
        · exact ih hr' (done ++ [ch]) hdb' q e2 x e3 _ _ _
        · exact ih hr' (done ++ [ch]) hdb' q e2 x e3 _ _ _

theorem lookupKey_sim {m : Map} {root : InputMap.Node} (hs : Sim m root) (input : List Nat) (hb : ∀ c ∈ input, c < 256) :
    lookupKey m input = .ok (InputMap.lookupKey root input) :=
  lookupLoop_sim hs input hb [] (by simp) .root rfl root rfl 0 0 {}

end Winpty.KeyMemory
