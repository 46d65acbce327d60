import Verif.Model.InputMap
import Verif.Spec.InputMap

namespace Winpty.InputMap
open Winpty.Spec

/-- The live union member matches `childCount`, and so on for the children. -/
inductive WF : Node → Prop
  | tiny (k : Key) (l : List (Nat × Node)) : l.length ≤ 8 → (∀ p ∈ l, p.1 < 256) →
      (l.map Prod.fst).Nodup → (∀ p ∈ l, WF p.2) → WF (.mk k l.length (.tiny l))
  | branch (k : Key) (n : Nat) (b : List (Option Node)) : 8 < n → b.length = 256 →
      (∃ (ch : Nat) (c : Node), b[ch]? = some (some c)) →
      (∀ (ch : Nat) (c : Node), b[ch]? = some (some c) → WF c) →
      WF (.mk k n (.branch b))

theorem WF.newNode : WF newNode := WF.tiny {} [] (by simp) (by simp) (by simp) (by simp)

theorem tinyFind_none {l : List (Nat × Node)} {ch : Nat} :
    tinyFind l ch = none ↔ ch ∉ l.map Prod.fst := by
  induction l with
  | nil => simp [tinyFind]
  | cons p l ih =>
    obtain ⟨v, c⟩ := p
    rw [tinyFind]
    split
    · rename_i h; simp [h]
    · rename_i h
      rw [ih]
      simp only [List.map_cons, List.mem_cons, not_or]
      exact ⟨fun hh => ⟨fun e => h e.symm, hh⟩, fun hh => hh.2⟩

theorem tinyFind_mem {l : List (Nat × Node)} {ch : Nat} {c : Node} (h : tinyFind l ch = some c) :
    (ch, c) ∈ l := by
  induction l with
  | nil => simp [tinyFind] at h
  | cons p l ih =>
    obtain ⟨v, d⟩ := p
    rw [tinyFind] at h
    split at h
    · rename_i hv; cases h; subst hv; simp
    · exact List.mem_cons_of_mem _ (ih h)

theorem tinyFind_update (l : List (Nat × Node)) (ch : Nat) (c : Node) (hc : ch ∈ l.map Prod.fst)
    (ch' : Nat) : tinyFind (tinyUpdate l ch c) ch' = if ch' = ch then some c else tinyFind l ch' := by
  induction l with
  | nil => simp at hc
  | cons p l ih =>
    obtain ⟨v, d⟩ := p
    rw [tinyUpdate]
    by_cases hv : v = ch
    · subst hv
      rw [if_pos rfl, tinyFind, tinyFind]
      by_cases h : ch' = v
      · rw [if_pos h, if_pos h.symm]
      · rw [if_neg h, if_neg (Ne.symm h), if_neg (Ne.symm h)]
    · rw [if_neg hv, tinyFind, tinyFind]
      have hc' : ch ∈ l.map Prod.fst := by
        simp only [List.map_cons, List.mem_cons] at hc
        rcases hc with h | h
        · exact absurd h.symm hv
        · exact h
      by_cases h : v = ch'
      · rw [if_pos h, if_pos h, if_neg (by rintro rfl; exact hv h)]
      · rw [if_neg h, if_neg h, ih hc']

theorem tinyUpdate_fst (l : List (Nat × Node)) (ch : Nat) (c : Node) :
    (tinyUpdate l ch c).map Prod.fst = l.map Prod.fst := by
  induction l with
  | nil => rfl
  | cons p l ih =>
    obtain ⟨v, d⟩ := p
    rw [tinyUpdate]
    split
    · rfl
    · simp [ih]

theorem tinyUpdate_mem {l : List (Nat × Node)} {ch : Nat} {c : Node} {p : Nat × Node}
    (h : p ∈ tinyUpdate l ch c) : p ∈ l ∨ p.2 = c := by
  induction l with
  | nil => simp [tinyUpdate] at h
  | cons q l ih =>
    obtain ⟨v, d⟩ := q
    rw [tinyUpdate] at h
    split at h
    · rcases List.mem_cons.1 h with h | h
      · right; rw [h]
      · left; exact List.mem_cons_of_mem _ h
    · rcases List.mem_cons.1 h with h | h
      · left; rw [h]; simp
      · rcases ih h with h | h
        · left; exact List.mem_cons_of_mem _ h
        · right; exact h

theorem tinyInsert_perm (l : List (Nat × Node)) (ch : Nat) (c : Node) :
    (tinyInsert l ch c).Perm ((ch, c) :: l) := by
  induction l with
  | nil => exact List.Perm.refl _
  | cons p l ih =>
    obtain ⟨v, d⟩ := p
    rw [tinyInsert]
    split
    · exact List.Perm.refl _
    · exact (List.Perm.cons _ ih).trans (List.Perm.swap _ _ _)

theorem tinyFind_insert (l : List (Nat × Node)) (ch : Nat) (c : Node) (hc : ch ∉ l.map Prod.fst)
    (ch' : Nat) : tinyFind (tinyInsert l ch c) ch' = if ch' = ch then some c else tinyFind l ch' := by
  induction l with
  | nil =>
    by_cases h : ch' = ch
    · simp [tinyInsert, tinyFind, h]
    · simp [tinyInsert, tinyFind, h, Ne.symm h]
  | cons p l ih =>
    obtain ⟨v, d⟩ := p
    simp only [List.map_cons, List.mem_cons, not_or] at hc
    rw [tinyInsert]
    split
    · rw [tinyFind]
      by_cases h : ch' = ch
      · rw [if_pos h, if_pos h.symm]
      · rw [if_neg h, if_neg (Ne.symm h)]
    · rw [tinyFind, ih hc.2, tinyFind]
      by_cases h : v = ch'
      · rw [if_pos h, if_pos h, if_neg (by rintro rfl; exact hc.1 h.symm)]
      · rw [if_neg h, if_neg h]

theorem fillBranch_length (b : List (Option Node)) (l : List (Nat × Node)) :
    (fillBranch b l).length = b.length := by
  induction l generalizing b with
  | nil => rfl
  | cons p l ih => obtain ⟨v, c⟩ := p; rw [fillBranch, ih]; simp

theorem fillBranch_get (b : List (Option Node)) (l : List (Nat × Node)) (hd : (l.map Prod.fst).Nodup)
    (hb : ∀ p ∈ l, p.1 < b.length) (ch : Nat) :
    (fillBranch b l)[ch]? = match tinyFind l ch with
      | some c => some (some c)
      | none => b[ch]? := by
  induction l generalizing b with
  | nil => rfl
  | cons p l ih =>
    obtain ⟨v, c⟩ := p
    simp only [List.map_cons, List.nodup_cons] at hd
    have hv : v < b.length := hb (v, c) (by simp)
    rw [fillBranch, ih _ hd.2 (fun p hp => by simpa using hb p (List.mem_cons_of_mem _ hp)), tinyFind]
    by_cases h : v = ch
    · subst h
      have : tinyFind l v = none := tinyFind_none.2 hd.1
      rw [this, if_pos rfl]
      simp [hv]
    · rw [if_neg h]
      cases tinyFind l ch with
      | some c => rfl
      | none => simp [List.getElem?_set, h]

theorem getChild_wf {n c : Node} {ch : Nat} (hn : WF n) (h : getChild n ch = some c) : WF c := by
  cases hn with
  | tiny k l hl _ _ hw =>
    unfold getChild at h
    simp only [Node.childCount, kTinyCount, hl, ↓reduceIte, Node.u] at h
    exact hw _ (tinyFind_mem h)
  | branch k m b hm _ _ hw =>
    unfold getChild at h
    have hm' : ¬ m ≤ 8 := by omega
    simp only [Node.childCount, kTinyCount, hm', ↓reduceIte, Node.u] at h
    apply hw ch c
    cases hb : b[ch]? with
    | none => simp [hb] at h
    | some o => cases o with
      | none => simp [hb] at h
      | some d => simp [hb] at h; rw [h]

theorem childCount_pos {n : Node} (hn : WF n) : 0 < n.childCount ↔ ∃ ch c, getChild n ch = some c := by
  cases hn with
  | tiny k l hl _ _ hw =>
    simp only [getChild, Node.childCount, kTinyCount, hl, ↓reduceIte, Node.u]
    constructor
    · intro h
      cases l with
      | nil => simp at h
      | cons p l => exact ⟨p.1, p.2, by simp [tinyFind]⟩
    · rintro ⟨ch, c, h⟩
      exact List.length_pos_of_mem (tinyFind_mem h)
  | branch k m b hm _ hex hw =>
    have hm' : ¬ m ≤ 8 := by omega
    simp only [getChild, Node.childCount, kTinyCount, hm', ↓reduceIte, Node.u]
    constructor
    · intro _
      obtain ⟨ch, c, h⟩ := hex
      exact ⟨ch, c, by simp [h]⟩
    · intro _; omega

theorem updateChild_spec {n c0 c : Node} {ch : Nat} (hn : WF n) (hc : WF c)
    (h : getChild n ch = some c0) :
    WF (updateChild n ch c) ∧ (updateChild n ch c).key = n.key ∧
    ∀ ch', getChild (updateChild n ch c) ch' = if ch' = ch then some c else getChild n ch' := by
  cases hn with
  | tiny k l hl hlt hnd hw =>
    simp only [getChild, Node.childCount, kTinyCount, hl, ↓reduceIte, Node.u] at h
    have hmem : ch ∈ l.map Prod.fst := by
      apply Classical.byContradiction
      intro hh
      rw [tinyFind_none.2 hh] at h; cases h
    have hlen : (tinyUpdate l ch c).length = l.length := by
      have := congrArg List.length (tinyUpdate_fst l ch c)
      simpa using this
    refine ⟨?_, rfl, ?_⟩
    · simp only [updateChild, Node.u, Node.key, Node.childCount]
      rw [← hlen]
      refine WF.tiny k _ (by omega) ?_ (by rw [tinyUpdate_fst]; exact hnd) ?_
      · intro p hp
        have : p.1 ∈ (tinyUpdate l ch c).map Prod.fst := List.mem_map_of_mem hp
        rw [tinyUpdate_fst] at this
        obtain ⟨q, hq, hqe⟩ := List.mem_map.1 this
        rw [← hqe]; exact hlt q hq
      · intro p hp
        rcases tinyUpdate_mem hp with h | h
        · exact hw p h
        · rw [h]; exact hc
    · intro ch'
      simp only [updateChild, getChild, Node.u, Node.key, Node.childCount, kTinyCount, hl, ↓reduceIte]
      exact tinyFind_update l ch c hmem ch'
  | branch k m b hm hb hex hw =>
    have hm' : ¬ m ≤ 8 := by omega
    simp only [getChild, Node.childCount, kTinyCount, hm', ↓reduceIte, Node.u] at h
    have hlt : ch < b.length := by
      apply Classical.byContradiction
      intro hh
      rw [List.getElem?_eq_none (by omega)] at h; cases h
    refine ⟨?_, rfl, ?_⟩
    · simp only [updateChild, Node.u, Node.key, Node.childCount]
      refine WF.branch k m _ hm (by simpa using hb) ⟨ch, c, by simp [hlt]⟩ ?_
      intro i d hi
      by_cases e : ch = i
      · subst e; simp [hlt] at hi; rw [← hi]; exact hc
      · simp [List.getElem?_set, e] at hi; exact hw i d hi
    · intro ch'
      simp only [updateChild, getChild, Node.u, Node.key, Node.childCount, kTinyCount, hm', ↓reduceIte]
      by_cases e : ch = ch'
      · subst e; simp [hlt]
      · rw [if_neg (Ne.symm e)]; simp [List.getElem?_set, e]

theorem addChild_spec {n c : Node} {ch : Nat} (hn : WF n) (hc : WF c) (hch : ch < 256)
    (h : getChild n ch = none) :
    WF (addChild n ch c) ∧ (addChild n ch c).key = n.key ∧
    ∀ ch', getChild (addChild n ch c) ch' = if ch' = ch then some c else getChild n ch' := by
  cases hn with
  | tiny k l hl hlt hnd hw =>
    simp only [getChild, Node.childCount, kTinyCount, hl, ↓reduceIte, Node.u] at h
    have hmem : ch ∉ l.map Prod.fst := tinyFind_none.1 h
    by_cases h8 : l.length < 8
    · have hlen : (tinyInsert l ch c).length = l.length + 1 := (tinyInsert_perm l ch c).length_eq
      have hle : l.length + 1 ≤ 8 := by omega
      simp only [addChild, Node.childCount, kTinyCount, h8, ↓reduceIte, Node.u, Node.key]
      refine ⟨?_, trivial, ?_⟩
      · rw [← hlen]
        have hmm : ∀ p, p ∈ tinyInsert l ch c → p = (ch, c) ∨ p ∈ l := by
          intro p hp
          exact List.mem_cons.1 ((tinyInsert_perm l ch c).mem_iff.1 hp)
        refine WF.tiny k _ (by omega) ?_ ?_ ?_
        · intro p hp
          rcases hmm p hp with rfl | h
          · exact hch
          · exact hlt p h
        · rw [((tinyInsert_perm l ch c).map Prod.fst).nodup_iff]
          exact List.nodup_cons.2 ⟨hmem, hnd⟩
        · intro p hp
          rcases hmm p hp with rfl | h
          · exact hc
          · exact hw p h
      · intro ch'
        simp only [getChild, Node.childCount, kTinyCount, hle, hl, ↓reduceIte, Node.u]
        exact tinyFind_insert l ch c hmem ch'
    · have h8' : l.length = 8 := by omega
      have hget := fillBranch_get (List.replicate 256 none) l hnd (by simpa [-List.reduceReplicate] using hlt)
      have hlenb : (toBranch l).length = 256 := by simp [toBranch, fillBranch_length, -List.reduceReplicate]
      have hl' : ¬ (8 + 1 ≤ 8) := by omega
      simp only [addChild, Node.childCount, kTinyCount, h8', Nat.lt_irrefl, ↓reduceIte, Node.u, Node.key]
      refine ⟨?_, trivial, ?_⟩
      · refine WF.branch k _ _ (by omega) (by simpa using hlenb) ⟨ch, c, by simp [hlenb, hch]⟩ ?_
        intro i d hi
        by_cases e : ch = i
        · subst e; simp [hlenb, hch] at hi; rw [← hi]; exact hc
        · simp only [List.getElem?_set, e, ↓reduceIte] at hi
          rw [toBranch, hget] at hi
          cases hf : tinyFind l i with
          | none =>
            rw [hf] at hi
            simp [List.getElem?_replicate, -List.reduceReplicate] at hi
          | some x =>
            rw [hf] at hi
            simp at hi
            subst hi
            exact hw _ (tinyFind_mem hf)
      · intro ch'
        simp only [getChild, Node.childCount, kTinyCount, hl', h8', Nat.le_refl, ↓reduceIte, Node.u]
        by_cases e : ch = ch'
        · subst e; simp [hlenb, hch]
        · rw [if_neg (Ne.symm e)]
          simp only [List.getElem?_set, e, ↓reduceIte]
          rw [toBranch, hget]
          cases hf : tinyFind l ch' with
          | none =>
            simp only [List.getElem?_replicate]; split <;> rfl
          | some x => simp
  | branch k m b hm hb hex hw =>
    have hm' : ¬ m ≤ 8 := by omega
    have hm1 : ¬ m < 8 := by omega
    have hm2 : ¬ m = 8 := by omega
    have hm3 : ¬ m + 1 ≤ 8 := by omega
    have hlt : ch < b.length := by omega
    simp only [addChild, Node.childCount, kTinyCount, hm1, hm2, ↓reduceIte, Node.u, Node.key]
    refine ⟨?_, trivial, ?_⟩
    · refine WF.branch k _ _ (by omega) (by simpa using hb) ⟨ch, c, by simp [hlt]⟩ ?_
      intro i d hi
      by_cases e : ch = i
      · subst e; simp [hlt] at hi; rw [← hi]; exact hc
      · simp [List.getElem?_set, e] at hi; exact hw i d hi
    · intro ch'
      simp only [getChild, Node.u, Node.childCount, kTinyCount, hm', hm3, ↓reduceIte]
      by_cases e : ch = ch'
      · subst e; simp [hlt]
      · rw [if_neg (Ne.symm e)]; simp [List.getElem?_set, e]

/-- The key stored at a path, if the path exists. -/
def keyAt (n : Node) : List Nat → Option Key
  | [] => some n.key
  | ch :: r =>
    match getChild n ch with
    | none => none
    | some c => keyAt c r

theorem keyAt_newNode (p : List Nat) : keyAt newNode p = if p = [] then some {} else none := by
  cases p with
  | nil => rfl
  | cons c p => simp [keyAt, newNode, getChild, Node.childCount, Node.u, tinyFind]

theorem setHelper_spec (e : List Nat) (k : Key) (n : Node) (hn : WF n) (he : ∀ c ∈ e, c < 256) :
    WF (setHelper n e k) ∧
    ∀ p, keyAt (setHelper n e k) p =
      if p = e then some k else if p <+: e then some ((keyAt n p).getD {}) else keyAt n p := by
  induction e generalizing n with
  | nil =>
    constructor
    · cases hn with
      | tiny k' l h1 h2 h3 h4 => exact WF.tiny k l h1 h2 h3 h4
      | branch k' m b h1 h2 h3 h4 => exact WF.branch k m b h1 h2 h3 h4
    · intro p
      cases p with
      | nil => simp [keyAt, setHelper, Node.key]
      | cons c p =>
        simp [keyAt, setHelper]
        obtain ⟨k0, m, u⟩ := n
        rfl
  | cons ch e ih =>
    have he' : ∀ c ∈ e, c < 256 := fun c hc => he c (List.mem_cons_of_mem _ hc)
    have main : ∀ n' c, WF c →
        ((WF (setHelper c e k) → WF n') ∧ (WF (setHelper c e k) → n'.key = n.key ∧ ∀ ch', getChild n' ch' =
          if ch' = ch then some (setHelper c e k) else getChild n ch')) →
        (getChild n ch = some c ∨ (getChild n ch = none ∧ c = newNode)) →
        WF n' ∧ ∀ p, keyAt n' p =
          if p = ch :: e then some k else if p <+: ch :: e then some ((keyAt n p).getD {}) else keyAt n p := by
      intro n' c hcw ⟨hw, hg⟩ hcase
      obtain ⟨ihw, ihk⟩ := ih c hcw he'
      obtain ⟨hkey, hg⟩ := hg ihw
      refine ⟨hw ihw, ?_⟩
      intro p
      cases p with
      | nil => simp [keyAt, hkey]
      | cons x p =>
        rw [keyAt, hg]
        by_cases hx : x = ch
        · subst hx
          simp only [↓reduceIte, ihk, List.cons.injEq, true_and, List.cons_prefix_cons]
          have hkk : (keyAt c p).getD {} = (keyAt n (x :: p)).getD {} := by
            rcases hcase with h | ⟨h, rfl⟩
            · simp [keyAt, h]
            · rw [keyAt, h, keyAt_newNode]; split <;> rfl
          by_cases h1 : p = e
          · simp [h1]
          · simp only [h1, ↓reduceIte]
            by_cases h2 : p <+: e
            · simp only [h2, ↓reduceIte, hkk]
            · simp only [h2, ↓reduceIte]
              rcases hcase with h | ⟨h, rfl⟩
              · simp [keyAt, h]
              · rw [keyAt, h, keyAt_newNode, if_neg]
                rintro rfl; exact h2 List.nil_prefix
        · simp [hx, keyAt, List.cons_prefix_cons]
    rw [setHelper]
    by_cases hg : getChild n ch = none
    · simp only [hg]
      apply main _ newNode WF.newNode _ (.inr ⟨hg, rfl⟩)
      constructor
      · intro hw; exact (addChild_spec hn hw (he ch (by simp)) hg).1
      · intro hw; exact (addChild_spec hn hw (he ch (by simp)) hg).2
    · obtain ⟨c, hg⟩ := Option.ne_none_iff_exists'.1 hg
      simp only [hg]
      have hcw := getChild_wf hn hg
      apply main _ c hcw _ (.inl hg)
      constructor
      · intro hw; exact (updateChild_spec hn hw hg).1
      · intro hw; exact (updateChild_spec hn hw hg).2

/-- What the tree stores after a sequence of registrations. -/
def Holds (root : Node) (regs : List (List Nat × Key)) : Prop :=
  WF root ∧ ∀ p, keyAt root p =
    if p = [] ∨ ∃ r ∈ regs, p <+: r.1 then some ((registered regs p).getD {}) else none

theorem registered_append (regs : List (List Nat × Key)) (e : List Nat) (k : Key) (p : List Nat) :
    registered (regs ++ [(e, k)]) p = if e = p then some k else registered regs p := by
  unfold registered
  rw [List.filterMap_append, List.getLast?_append]
  by_cases h : e = p <;> simp [h]

theorem registered_none {regs : List (List Nat × Key)} {p : List Nat}
    (h : ¬ ∃ r ∈ regs, p <+: r.1) : registered regs p = none := by
  unfold registered
  rw [List.getLast?_eq_none_iff, List.filterMap_eq_nil_iff]
  intro r hr
  rw [if_neg]
  rintro rfl
  exact h ⟨r, hr, List.prefix_refl _⟩

theorem holds_set {root : Node} {regs : List (List Nat × Key)} (h : Holds root regs) (e : List Nat)
    (k : Key) (hb : ∀ c ∈ e, c < 256) : Holds (setHelper root e k) (regs ++ [(e, k)]) := by
  obtain ⟨hw, hk⟩ := h
  obtain ⟨hw', hk'⟩ := setHelper_spec e k root hw hb
  refine ⟨hw', ?_⟩
  intro p
  rw [hk', registered_append, hk]
  by_cases h1 : p = e
  · subst h1
    simp
  · rw [if_neg h1, if_neg (Ne.symm h1)]
    by_cases h2 : p <+: e
    · rw [if_pos h2]
      have : p = [] ∨ ∃ r ∈ regs ++ [(e, k)], p <+: r.1 := .inr ⟨(e, k), by simp, h2⟩
      rw [if_pos this]
      by_cases h3 : p = [] ∨ ∃ r ∈ regs, p <+: r.1
      · rw [if_pos h3]; simp
      · rw [if_neg h3, registered_none (fun hh => h3 (.inr hh))]
    · rw [if_neg h2]
      have : (∃ r ∈ regs ++ [(e, k)], p <+: r.1) ↔ ∃ r ∈ regs, p <+: r.1 := by
        constructor
        · rintro ⟨r, hr, hp⟩
          rcases List.mem_append.1 hr with h | h
          · exact ⟨r, h, hp⟩
          · simp at h; subst h; exact absurd hp h2
        · rintro ⟨r, hr, hp⟩; exact ⟨r, List.mem_append_left _ hr, hp⟩
      simp only [this]

theorem holds_setAll {root : Node} {regs0 regs : List (List Nat × Key)} (h : Holds root regs0)
    (hr : ∀ r ∈ regs, r.1 ≠ [] ∧ ∀ c ∈ r.1, c < 256) :
    ∃ root', setAll root regs = some root' ∧ Holds root' (regs0 ++ regs) := by
  induction regs generalizing root regs0 with
  | nil => exact ⟨root, rfl, by simpa using h⟩
  | cons r regs ih =>
    obtain ⟨e, k⟩ := r
    obtain ⟨hne, hb⟩ := hr (e, k) (by simp)
    have hpos : e.length > 0 := List.length_pos_iff.2 hne
    obtain ⟨root', h1, h2⟩ := ih (holds_set h e k hb) fun r hr' => hr r (List.mem_cons_of_mem _ hr')
    refine ⟨root', ?_, by simpa using h2⟩
    rw [setAll, set, if_pos hpos]
    exact h1

theorem holds_new : Holds newNode [] := by
  refine ⟨WF.newNode, ?_⟩
  intro p
  rw [keyAt_newNode]
  by_cases h : p = []
  · simp [h, registered]
  · simp [h]

/-- Walking along a path that exists. -/
def walk (n : Node) : List Nat → Option Node
  | [] => some n
  | ch :: r =>
    match getChild n ch with
    | none => none
    | some c => walk c r

theorem walk_append (n : Node) (p q : List Nat) : walk n (p ++ q) = (walk n p).bind (walk · q) := by
  induction p generalizing n with
  | nil => rfl
  | cons c p ih =>
    rw [List.cons_append, walk, walk]
    cases getChild n c with
    | none => rfl
    | some d => exact ih d

theorem keyAt_eq_walk (n : Node) (p : List Nat) : keyAt n p = (walk n p).map Node.key := by
  induction p generalizing n with
  | nil => rfl
  | cons c p ih =>
    rw [keyAt, walk]
    cases getChild n c with
    | none => rfl
    | some d => exact ih d

theorem walk_wf {n m : Node} (hn : WF n) {p : List Nat} (h : walk n p = some m) : WF m := by
  induction p generalizing n with
  | nil => cases h; exact hn
  | cons c p ih =>
    rw [walk] at h
    cases hg : getChild n c with
    | none => rw [hg] at h; cases h
    | some d => rw [hg] at h; exact ih (getChild_wf hn hg) h

theorem registered_mem {regs : List (List Nat × Key)} {p : List Nat} {k : Key}
    (h : registered regs p = some k) : (p, k) ∈ regs := by
  unfold registered at h
  obtain ⟨r, hr, he⟩ := List.mem_filterMap.1 (List.mem_of_getLast? h)
  split at he
  · rename_i hp; cases he; subst hp; exact hr
  · cases he

theorem hasKey_iff (k : Key) : hasKey k = true ↔ realKey k := by
  simp [hasKey, realKey]

/-- The best match found after looking at all of `p`. -/
def Best (regs : List (List Nat × Key)) (p : List Nat) (bl : Nat) (bk : Key) : Prop :=
  bl ≤ p.length ∧ (∀ n, 0 < n → n ≤ p.length → (∃ k, Maps regs (p.take n) k) → n ≤ bl) ∧
  ((bl = 0 ∧ bk = {}) ∨ (0 < bl ∧ Maps regs (p.take bl) bk))

theorem keyAt_maps {root : Node} {regs : List (List Nat × Key)} (h : Holds root regs) {p : List Nat}
    {k : Key} (hm : Maps regs p k) : keyAt root p = some k := by
  rw [h.2 p, if_pos (.inr ⟨_, registered_mem hm.1, List.prefix_refl _⟩), hm.1]; rfl

theorem lookupLoop_spec {root : Node} {regs : List (List Nat × Key)} (h : Holds root regs)
    (r p : List Nat) (n : Node) (hn : walk root p = some n) (bl : Nat) (bk : Key)
    (hb : Best regs p bl bk) :
    Best regs (p ++ r) (lookupLoop n p.length bl bk r).len (lookupLoop n p.length bl bk r).key ∧
    ((lookupLoop n p.length bl bk r).incomplete = true ↔ ∃ x ∈ regs, p ++ r <+: x.1 ∧ p ++ r ≠ x.1) := by
  induction r generalizing p n bl bk with
  | nil =>
    rw [lookupLoop, List.append_nil]
    refine ⟨hb, ?_⟩
    rw [decide_eq_true_iff, gt_iff_lt, childCount_pos (walk_wf h.1 hn)]
    have hch : ∀ ch, (∃ c, getChild n ch = some c) ↔ ∃ x ∈ regs, p ++ [ch] <+: x.1 := by
      intro ch
      have hk := h.2 (p ++ [ch])
      rw [keyAt_eq_walk, walk_append, hn] at hk
      simp only [Option.bind_some, walk] at hk
      have hne : ¬ (p ++ [ch] = []) := by simp
      simp only [hne, false_or] at hk
      constructor
      · rintro ⟨c, hc⟩
        apply Classical.byContradiction
        intro hx
        rw [if_neg hx, hc] at hk
        simp at hk
      · intro hx
        rw [if_pos hx] at hk
        cases hg : getChild n ch with
        | none => rw [hg] at hk; simp at hk
        | some c => exact ⟨c, rfl⟩
    constructor
    · rintro ⟨ch, hc⟩
      obtain ⟨x, hx, ⟨t, ht⟩⟩ := (hch ch).1 hc
      refine ⟨x, hx, ⟨ch :: t, by rw [← ht]; simp⟩, ?_⟩
      intro he
      have := congrArg List.length ht
      rw [← he] at this
      simp at this
    · rintro ⟨x, hx, ⟨t, ht⟩, hne⟩
      cases t with
      | nil => simp at ht; exact absurd ht hne
      | cons ch t => exact ⟨ch, (hch ch).2 ⟨x, hx, ⟨t, by rw [← ht]; simp⟩⟩⟩
  | cons ch r ih =>
    rw [lookupLoop]
    by_cases hg : getChild n ch = none
    · simp only [hg]
      have hoff : ∀ q, keyAt root (p ++ ch :: q) = none := by
        intro q
        rw [keyAt_eq_walk, walk_append, hn]
        simp [walk, hg]
      refine ⟨⟨?_, ?_, ?_⟩, ?_⟩
      · have := hb.1; simp; omega
      · rintro m hm0 hm ⟨k, hk⟩
        by_cases hle : m ≤ p.length
        · rw [List.take_append_of_le_length hle] at hk
          exact hb.2.1 m hm0 hle ⟨k, hk⟩
        · have hsplit : (p ++ ch :: r).take m = p ++ ch :: r.take (m - p.length - 1) := by
            rw [List.take_append, List.take_of_length_le (by omega)]
            obtain ⟨d, hd⟩ : ∃ d, m - p.length = d + 1 := ⟨m - p.length - 1, by omega⟩
            rw [hd]; simp
          rw [hsplit] at hk
          have := keyAt_maps h hk
          rw [hoff] at this; cases this
      · rcases hb.2.2 with h0 | ⟨h0, h1⟩
        · exact .inl h0
        · right; refine ⟨h0, ?_⟩
          show Maps regs ((p ++ ch :: r).take bl) bk
          rw [List.take_append_of_le_length hb.1]; exact h1
      · simp only [Bool.false_eq_true, false_iff]
        rintro ⟨x, hx, hp, _⟩
        have := h.2 (p ++ ch :: r)
        rw [hoff, if_pos (.inr ⟨x, hx, hp⟩)] at this
        cases this
    · obtain ⟨c, hg⟩ := Option.ne_none_iff_exists'.1 hg
      simp only [hg]
      have hwc : walk root (p ++ [ch]) = some c := by
        rw [walk_append, hn]; simp [walk, hg]
      have hkc : keyAt root (p ++ [ch]) = some c.key := by
        rw [keyAt_eq_walk, hwc]; rfl
      have hlen : (p ++ [ch]).length = p.length + 1 := by simp
      have hap : p ++ ch :: r = (p ++ [ch]) ++ r := by simp
      rw [hap]
      by_cases hk : hasKey c.key = true
      · rw [if_pos hk]
        rw [← hlen]
        apply ih _ _ hwc
        refine ⟨Nat.le_refl _, fun _ _ hle _ => hle, .inr ⟨by simp, ?_⟩⟩
        rw [List.take_of_length_le (Nat.le_refl _)]
        refine ⟨?_, (hasKey_iff _).1 hk⟩
        have := h.2 (p ++ [ch])
        rw [hkc] at this
        split at this
        · cases hr : registered regs (p ++ [ch]) with
          | none => rw [hr] at this; simp at this; rw [this] at hk; simp [hasKey] at hk
          | some k => rw [hr] at this; simp at this; rw [this]
        · cases this
      · rw [if_neg hk]
        rw [← hlen]
        apply ih _ _ hwc
        refine ⟨by have := hb.1; omega, ?_, ?_⟩
        · rintro m hm0 hm ⟨k, hmk⟩
          by_cases hle : m ≤ p.length
          · rw [List.take_append_of_le_length hle] at hmk
            exact hb.2.1 m hm0 hle ⟨k, hmk⟩
          · rw [List.take_of_length_le (by omega)] at hmk
            have := keyAt_maps h hmk
            rw [hkc] at this
            cases this
            exact absurd ((hasKey_iff _).2 hmk.2) hk
        · rcases hb.2.2 with h0 | ⟨h0, h1⟩
          · exact .inl h0
          · right; refine ⟨h0, ?_⟩
            rw [List.take_append_of_le_length hb.1]; exact h1

theorem lookupKey_spec {root : Node} {regs : List (List Nat × Key)} (h : Holds root regs)
    (input : List Nat) :
    Best regs input (lookupKey root input).len (lookupKey root input).key ∧
    ((lookupKey root input).incomplete = true ↔ ∃ x ∈ regs, input <+: x.1 ∧ input ≠ x.1) := by
  have := lookupLoop_spec h input [] root rfl 0 {} ⟨by simp, fun n h0 h1 => by simp at h1; omega, .inl ⟨rfl, rfl⟩⟩
  exact this

end Winpty.InputMap
