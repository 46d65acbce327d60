import Verif.Model.DefaultInputMap
import Verif.Lemmas.InputMap
import Verif.Lemmas.StringBuilder
/-!
# Facts about the default key table

The table has 2676 entries.  Facts about all of them are evaluated by the kernel over the whole table;
that no two sequences are equal, or one a prefix of another, is checked with a hash into a bit set, so
that one linear pass is enough.
-/
namespace Winpty.InputMap
open Winpty.Spec Winpty.StringBuilder
set_option maxRecDepth 100000

/-- Decimal text in a form the kernel can evaluate. -/
def idT (n : Nat) : List Nat := (Nat.toDigits 10 n).map Char.toNat

/-- The table with that text. -/
def table : List (List Nat × Key) := defaultRegsWith idT

theorem expandEncoding_congr (b : Bool) (f g : Nat → List Nat) (e : EscapeEncoding)
    (h : f e.id = g e.id) : expandEncoding b f e = expandEncoding b g e := by
  simp only [expandEncoding, h]

theorem ids_small : ∀ e ∈ escapeLetterEncodings ++ escapeNumericEncodings, e.id < 128 := by decide

theorem flatMap_congr' {α β : Type} {l : List α} {f g : α → List β} (h : ∀ x ∈ l, f x = g x) :
    l.flatMap f = l.flatMap g := by
  induction l with
  | nil => rfl
  | cons a l ih =>
    rw [List.flatMap_cons, List.flatMap_cons, h a (by simp), ih fun x hx => h x (by simp [hx])]

theorem idText_eq (n : Nat) (hn : n < 128) : decText 1 (n : Int) = idT n := by
  rw [decText_eq 1 n (by decide) (by unfold Fits; constructor <;> omega)]
  unfold decimal idT codes
  rw [if_neg (by omega)]
  simp

theorem defaultRegs_eq : defaultRegs = table := by
  unfold defaultRegs table defaultRegsWith
  rw [flatMap_congr' (l := escapeLetterEncodings) (g := expandEncoding false idT),
    flatMap_congr' (l := escapeNumericEncodings) (g := expandEncoding true idT)]
  · intro e he
    exact expandEncoding_congr _ _ _ _ (idText_eq _ (ids_small e (by simp [he])))
  · intro e he
    exact expandEncoding_congr _ _ _ _ (idText_eq _ (ids_small e (by simp [he])))

/-- A hash of byte strings. -/
def hash (s : List Nat) : Nat := s.foldl (fun h c => (h * 317 + c) % 262144) 0

/-- All hashes differ; returns the set of them. -/
def distinct : Nat → List (List Nat × Key) → Option Nat
  | m, [] => some m
  | m, x :: r => if m.testBit (hash x.1) then none else distinct (m ||| 1 <<< hash x.1) r

/-- No hash of a non-empty proper prefix of `s` (continuing from hash `h`) is in the set. -/
def prefixesOut (m : Nat) : Nat → List Nat → Bool
  | _, [] => true
  | _, [_] => true
  | h, c :: d :: r =>
    !m.testBit ((h * 317 + c) % 262144) && prefixesOut m ((h * 317 + c) % 262144) (d :: r)

/-- The whole check. -/
def prefixFree (l : List (List Nat × Key)) : Bool :=
  match distinct 0 l with
  | none => false
  | some m => l.all fun x => prefixesOut m 0 x.1

/-- Length, bytes, first byte, and that the key is a real one. -/
def entryOk (x : List Nat × Key) : Bool :=
  x.1 != [] && decide (x.1.length ≤ 8) && x.1.all (fun c => decide (c < 128)) &&
    (x.1.head? == some 27 || x.1 == [127] || x.1 == [3]) && x.2.virtualKey != 0

theorem table_prefixFree : prefixFree table = true := by decide +kernel
theorem table_ok : table.all entryOk = true := by decide +kernel

theorem testBit_insert (m a b : Nat) : (m ||| 1 <<< a).testBit b = (m.testBit b || decide (a = b)) := by
  rw [Nat.testBit_or, Nat.one_shiftLeft, Nat.testBit_two_pow]

theorem distinct_spec {l : List (List Nat × Key)} {m m' : Nat} (h : distinct m l = some m') :
    (∀ b, m.testBit b = true → m'.testBit b = true) ∧
    (∀ x ∈ l, m.testBit (hash x.1) = false ∧ m'.testBit (hash x.1) = true) ∧
    l.Pairwise (fun x y => x.1 ≠ y.1) := by
  induction l generalizing m with
  | nil => cases h; simp
  | cons x l ih =>
    rw [distinct] at h
    by_cases hb : m.testBit (hash x.1) = true
    · rw [if_pos hb] at h; cases h
    · rw [if_neg hb] at h
      obtain ⟨h1, h2, h3⟩ := ih h
      have hx : m.testBit (hash x.1) = false := by simpa using hb
      refine ⟨fun b hb' => h1 b (by rw [testBit_insert, hb']; rfl), ?_, ?_⟩
      · intro y hy
        rcases List.mem_cons.1 hy with e | hy
        · subst e
          exact ⟨hx, h1 _ (by rw [testBit_insert]; simp)⟩
        · have := h2 y hy
          rw [testBit_insert, Bool.or_eq_false_iff] at this
          exact ⟨this.1.1, this.2⟩
      · refine List.pairwise_cons.2 ⟨?_, h3⟩
        intro y hy e
        have := (h2 y hy).1
        rw [testBit_insert, e] at this
        simp at this

theorem prefixesOut_spec {m : Nat} {s : List Nat} {h : Nat} (hp : prefixesOut m h s = true)
    {p : List Nat} (hpre : p <+: s) (hne : p ≠ []) (hns : p ≠ s) :
    m.testBit (p.foldl (fun h c => (h * 317 + c) % 262144) h) = false := by
  induction s generalizing h p with
  | nil => exact absurd (List.prefix_nil.1 hpre) hne
  | cons c s ih =>
    cases p with
    | nil => exact absurd rfl hne
    | cons a p =>
      obtain ⟨ha, hps⟩ := List.cons_prefix_cons.1 hpre
      subst ha
      cases s with
      | nil => exact absurd (by rw [List.prefix_nil.1 hps]) hns
      | cons d s =>
        rw [prefixesOut, Bool.and_eq_true] at hp
        rw [List.foldl_cons]
        cases p with
        | nil => simpa using hp.1
        | cons b p => exact ih hp.2 hps (by simp) (fun e => hns (by rw [e]))

theorem prefix_eq {x y : List Nat × Key} (hx : x ∈ table) (hy : y ∈ table) (hne : x.1 ≠ [])
    (h : x.1 <+: y.1) : x = y := by
  have hc := table_prefixFree
  unfold prefixFree at hc
  cases hd : distinct 0 table with
  | none => rw [hd] at hc; cases hc
  | some m =>
    rw [hd] at hc
    obtain ⟨_, h2, h3⟩ := distinct_spec hd
    by_cases e : x.1 = y.1
    · apply Classical.byContradiction
      intro hxy
      have : ∀ {l : List (List Nat × Key)}, l.Pairwise (fun x y => x.1 ≠ y.1) → x ∈ l → y ∈ l → False := by
        intro l hl h1 h2
        induction hl with
        | nil => cases h1
        | cons ha _ ih =>
          rcases List.mem_cons.1 h1 with e1 | h1' <;> rcases List.mem_cons.1 h2 with e2 | h2'
          · exact hxy (e1.trans e2.symm)
          · subst e1; exact ha y h2' e
          · subst e2; exact ha x h1' e.symm
          · exact ih h1' h2'
      exact this h3 hx hy
    · have := prefixesOut_spec (List.all_eq_true.1 hc y hy) h hne e
      have h4 := (h2 x hx).2
      unfold hash at h4
      rw [h4] at this
      cases this

theorem entry_ok {x : List Nat × Key} (hx : x ∈ table) : x.1 ≠ [] ∧ x.1.length ≤ 8 ∧
    (∀ c ∈ x.1, c < 128) ∧ (x.1.head? = some 27 ∨ x.1 = [127] ∨ x.1 = [3]) ∧ x.2.virtualKey ≠ 0 := by
  have := List.all_eq_true.1 table_ok x hx
  simp only [entryOk, Bool.and_eq_true, Bool.or_eq_true, decide_eq_true_eq, List.all_eq_true,
    bne_iff_ne, beq_iff_eq] at this
  obtain ⟨⟨⟨⟨h1, h2⟩, h3⟩, h4⟩, h5⟩ := this
  refine ⟨h1, h2, h3, ?_, h5⟩
  rcases h4 with (h | h) | h
  · exact .inl h
  · exact .inr (.inl h)
  · exact .inr (.inr h)

theorem table_registered {x : List Nat × Key} (hx : x ∈ table) : registered table x.1 = some x.2 := by
  unfold registered
  cases h : (table.filterMap fun r => if r.1 = x.1 then some r.2 else none).getLast? with
  | none =>
    rw [List.getLast?_eq_none_iff, List.filterMap_eq_nil_iff] at h
    have := h x hx
    simp at this
  | some k =>
    have h' : registered table x.1 = some k := h
    have := prefix_eq hx (registered_mem h') (entry_ok hx).1 (List.prefix_refl _)
    rw [this]

theorem table_maps {x : List Nat × Key} (hx : x ∈ table) : Maps table x.1 x.2 :=
  ⟨table_registered hx, .inl (entry_ok hx).2.2.2.2⟩

theorem table_holds : ∃ root, setAll newNode table = some root ∧ Holds root table := by
  obtain ⟨root, h1, h2⟩ := holds_setAll (regs := table) holds_new fun r hr =>
    ⟨(entry_ok hr).1, fun c hc => Nat.lt_trans ((entry_ok hr).2.2.1 c hc) (by decide)⟩
  exact ⟨root, h1, by simpa using h2⟩

/-- The lookup of a table entry followed by anything. -/
theorem table_lookup {root : Node} (hr : Holds root table) {x : List Nat × Key} (hx : x ∈ table)
    (rest : List Nat) : lookupKey root (x.1 ++ rest) = ⟨x.1.length, x.2, false⟩ := by
  obtain ⟨⟨hb1, hb2, hb3⟩, hi⟩ := lookupKey_spec hr (x.1 ++ rest)
  have hpos : 0 < x.1.length := List.length_pos_iff.2 (entry_ok hx).1
  have hge := hb2 x.1.length hpos (by simp) ⟨x.2, by rw [List.take_left]; exact table_maps hx⟩
  have hinc : (lookupKey root (x.1 ++ rest)).incomplete = false := by
    cases h : (lookupKey root (x.1 ++ rest)).incomplete with
    | false => rfl
    | true =>
      obtain ⟨y, hy, hpre, hne⟩ := hi.1 h
      have := prefix_eq hx hy (entry_ok hx).1 ((List.prefix_append _ _).trans hpre)
      rw [← this] at hpre hne
      have hl := hpre.length_le
      rw [List.length_append] at hl
      have : rest = [] := List.length_eq_zero_iff.1 (by omega)
      rw [this] at hne
      exact absurd (by simp) hne
  rcases hb3 with ⟨h0, _⟩ | ⟨h0, hm⟩
  · omega
  · have hmem := registered_mem hm.1
    have hp : x.1 <+: (x.1 ++ rest).take (lookupKey root (x.1 ++ rest)).len := by
      rw [List.prefix_take_iff]
      exact ⟨List.prefix_append _ _, hge⟩
    have e := prefix_eq hx hmem (entry_ok hx).1 hp
    have hk : x.2 = (lookupKey root (x.1 ++ rest)).key := congrArg Prod.snd e
    have hl : x.1.length = (lookupKey root (x.1 ++ rest)).len := by
      have e1 := congrArg (fun z => z.1.length) e
      simp only [List.length_take] at e1
      rw [Nat.min_eq_left hb1] at e1
      exact e1
    cases hL : lookupKey root (x.1 ++ rest) with
    | mk l k i =>
      rw [hL] at hk hl hinc
      simp only at hk hl hinc
      rw [hk, hl, hinc]

/-- A lookup that finds something finds a table entry. -/
theorem table_lookup_mem {root : Node} (hr : Holds root table) {input : List Nat}
    (h : (lookupKey root input).len > 0) :
    (input.take (lookupKey root input).len, (lookupKey root input).key) ∈ table ∧
    (lookupKey root input).len ≤ input.length := by
  obtain ⟨⟨hb1, _, hb3⟩, _⟩ := lookupKey_spec hr input
  rcases hb3 with ⟨h0, _⟩ | ⟨_, hm⟩
  · omega
  · exact ⟨registered_mem hm.1, hb1⟩

/-- Bytes that start no entry. -/
theorem table_lookup_none {root : Node} (hr : Holds root table) {b : Nat} (rest : List Nat)
    (h1 : b ≠ 27) (h2 : b ≠ 127) (h3 : b ≠ 3) :
    (lookupKey root (b :: rest)).len = 0 ∧ (lookupKey root (b :: rest)).incomplete = false := by
  have start : ∀ x ∈ table, ∀ l, x.1 ≠ b :: l := by
    intro x hx l e
    rcases (entry_ok hx).2.2.2.1 with h | h | h <;> rw [e] at h <;> simp at h <;> omega
  constructor
  · apply Classical.byContradiction
    intro h
    obtain ⟨hm, _⟩ := table_lookup_mem (input := b :: rest) hr (by omega)
    obtain ⟨n, hn⟩ : ∃ n, (lookupKey root (b :: rest)).len = n + 1 := ⟨_, (Nat.succ_pred (by omega)).symm⟩
    exact start _ hm _ (by rw [hn]; rfl)
  · cases h : (lookupKey root (b :: rest)).incomplete with
    | false => rfl
    | true =>
      obtain ⟨y, hy, ⟨t, ht⟩, _⟩ := (lookupKey_spec hr (b :: rest)).2.1 h
      exact absurd ht.symm (start y hy _)

/-- Evaluate the spine of a list before using it (for evaluation in the kernel). -/
def forceList {α : Type} : List α → (List α → Bool) → Bool
  | [], k => k []
  | x :: xs, k => forceList xs fun r => k (x :: r)

theorem forceList_eq {α : Type} (l : List α) (k : List α → Bool) : forceList l k = k l := by
  induction l generalizing k with
  | nil => rfl
  | cons x xs ih => rw [forceList, ih]

/-- The entries for one key. -/
def entriesOf (vk : Nat) : List (List Nat × Key) := table.filter fun r => Nat.beq r.2.virtualKey vk

end Winpty.InputMap
