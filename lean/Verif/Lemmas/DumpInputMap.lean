import Verif.Model.DumpInputMap
import Verif.Spec.DumpInputMap
import Verif.Lemmas.InputMap
import Verif.Lemmas.ShowInput

namespace Winpty.InputMap
open Winpty.Spec Winpty.Spec.DumpInputMap
open Winpty.ShowInput (keyToString text)
open Winpty.ShowKey (decodeUnixCtrlChar)

theorem mem_loopBytes {i : Nat} : i ∈ loopBytes ↔ i < 256 := by
  unfold loopBytes; exact List.mem_range

theorem loopBytes_sorted : loopBytes.Pairwise (· < ·) := by
  unfold loopBytes; exact List.pairwise_lt_range

theorem byteText_eq (i : Nat) : byteText i = byteShown i := by
  unfold byteText byteShown
  by_cases h : i < 32
  · have key : ∀ j < 32, decodeUnixCtrlChar j = j + 64 := by decide
    rw [key i h, if_pos (by omega), if_pos h]
  · rw [if_neg h]
    unfold decodeUnixCtrlChar
    rw [if_neg h]
    by_cases h2 : i = 127
    · subst h2; decide
    · rw [if_neg h2, if_neg h2]
      simp only [ne_eq, not_true_eq_false, if_false]
      rfl

theorem byteShown_ne (i : Nat) : byteShown i ≠ [] := by
  unfold byteShown
  split
  · simp
  · split
    · simp
    · split <;> simp

theorem shown_snoc (p : List Nat) (i : Nat) (hp : p ≠ []) : shown (p ++ [i]) = shown p ++ 32 :: byteShown i := by
  induction p with
  | nil => exact absurd rfl hp
  | cons a p ih =>
    cases p with
    | nil => rfl
    | cons b p =>
      have := ih (by simp)
      simp only [List.cons_append, shown] at this ⊢
      rw [this]; simp

theorem shown_ne (p : List Nat) (hp : p ≠ []) : shown p ≠ [] := by
  cases p with
  | nil => exact absurd rfl hp
  | cons a p =>
    cases p with
    | nil => exact byteShown_ne a
    | cons b p => simp [shown]

theorem pushByte_eq (p : List Nat) (i : Nat) : pushByte (shown p) i = shown (p ++ [i]) := by
  unfold pushByte
  rw [byteText_eq]
  by_cases hp : p = []
  · subst hp; rfl
  · rw [if_neg (by simpa using shown_ne p hp), shown_snoc p i hp]; simp

theorem resize_push (e : List Nat) (i : Nat) : resize (pushByte e i) e.length = e := by
  unfold resize pushByte
  by_cases he : e.isEmpty
  · have : e = [] := by simpa using he
    subst this
    simp
  · rw [if_neg he]
    simp [List.take_append]

/-- The entries of a subtree, in order; `p` leads to it. -/
def entries (n : Node) (p : List Nat) : List (List Nat × Key) :=
  (if hasKey n.key then [(p, n.key)] else []) ++ loopBytes.flatMap fun i =>
    match _h : getChild n i with
    | none => []
    | some c => entries c (p ++ [i])
termination_by sizeOf n
decreasing_by exact getChild_sizeOf _h

/-- The line of an entry. -/
def lineOf (e : List Nat × Key) : List Nat :=
  line e.1 (keyToString e.2.virtualKey e.2.unicodeChar e.2.keyState)

theorem foldl_children (n : Node) (p : List Nat) (L : List Nat) (acc : List (List Nat))
    (ih : ∀ i c, getChild n i = some c → dumpInputMapHelper c (shown (p ++ [i])) =
      ((entries c (p ++ [i])).map lineOf, shown (p ++ [i]))) :
    L.foldl (fun st i =>
      match _h : getChild n i with
      | none => st
      | some c => (st.1 ++ (dumpInputMapHelper c (pushByte st.2 i)).1,
          resize (dumpInputMapHelper c (pushByte st.2 i)).2 st.2.length)) (acc, shown p) =
    (acc ++ (L.flatMap fun i =>
      match _h : getChild n i with
      | none => []
      | some c => entries c (p ++ [i])).map lineOf, shown p) := by
  induction L generalizing acc with
  | nil => simp
  | cons i L ihL =>
    rw [List.foldl_cons, List.flatMap_cons]
    split
    · rw [ihL]; simp
    · rename_i c hc
      have h1 := ih i c hc
      have h2 := resize_push (shown p) i
      simp only [pushByte_eq] at h2 ⊢
      simp only [h1, h2, ihL]
      simp

theorem dumpLine_eq (p : List Nat) (k : Key) : dumpLine (shown p) k = lineOf (p, k) := by
  have e : text [' ', '-', '>', ' '] = [32, 45, 62, 32] := by decide
  unfold dumpLine lineOf line
  rw [e]

theorem unfold_dump (n : Node) (e : List Nat) : dumpInputMapHelper n e =
    loopBytes.foldl (fun st i =>
      match _h : getChild n i with
      | none => st
      | some c => (st.1 ++ (dumpInputMapHelper c (pushByte st.2 i)).1,
          resize (dumpInputMapHelper c (pushByte st.2 i)).2 st.2.length))
      (if hasKey n.key then [dumpLine e n.key] else [], e) := by
  rw [dumpInputMapHelper]
  congr 1

theorem dumpHelper_eq (n : Node) (p : List Nat) :
    dumpInputMapHelper n (shown p) = ((entries n p).map lineOf, shown p) := by
  have key : ∀ m (n : Node) (p : List Nat), sizeOf n < m →
      dumpInputMapHelper n (shown p) = ((entries n p).map lineOf, shown p) := by
    intro m
    induction m with
    | zero => intro n p h; omega
    | succ m ihm =>
      intro n p hm
      have hf := foldl_children n p loopBytes (if hasKey n.key then [dumpLine (shown p) n.key] else [])
        fun i c hc => ihm c _ (by have := getChild_sizeOf hc; omega)
      have hl := dumpLine_eq p n.key
      rw [hl] at hf
      rw [unfold_dump, entries]
      generalize loopBytes = L at hf ⊢
      rw [hl, hf, List.map_append]
      generalize L.flatMap _ = L'
      cases hasKey n.key
      · rw [if_neg (by decide), if_neg (by decide)]; rfl
      · rw [if_pos rfl, if_pos rfl]; rfl
  exact key _ n p (Nat.lt_succ_self _)

theorem getChild_lt {n c : Node} {ch : Nat} (hn : WF n) (h : getChild n ch = some c) : ch < 256 := by
  cases hn with
  | tiny k l h1 h2 h3 h4 =>
    simp only [getChild, Node.childCount, Node.u, kTinyCount, h1, if_true] at h
    exact h2 _ (tinyFind_mem h)
  | branch k m b h1 h2 h3 h4 =>
    have : ¬ m ≤ kTinyCount := by unfold kTinyCount; omega
    simp only [getChild, Node.childCount, Node.u, this, if_false] at h
    cases hb : b[ch]? with
    | none => simp [hb] at h
    | some o =>
      have := (List.getElem?_eq_some_iff.1 hb).1
      omega

theorem mem_entries (n : Node) (hn : WF n) (p s : List Nat) (k : Key) :
    (s, k) ∈ entries n p ↔ ∃ q, s = p ++ q ∧ keyAt n q = some k ∧ hasKey k = true := by
  have key : ∀ m (n : Node), WF n → ∀ (p : List Nat), sizeOf n < m →
      ((s, k) ∈ entries n p ↔ ∃ q, s = p ++ q ∧ keyAt n q = some k ∧ hasKey k = true) := by
    intro m
    induction m with
    | zero => intro n _ p h; omega
    | succ m ihm =>
      intro n hn p hm
      have hc : ∀ i, (s, k) ∈ (match _h : getChild n i with
          | none => []
          | some c => entries c (p ++ [i])) ↔
          ∃ c, getChild n i = some c ∧ ∃ q, s = p ++ [i] ++ q ∧ keyAt c q = some k ∧ hasKey k = true := by
        intro i
        split
        · rename_i h; simp [h]
        · rename_i c h
          rw [ihm c (getChild_wf hn h) _ (by have := getChild_sizeOf h; omega)]
          simp [h]
      rw [entries, List.mem_append, List.mem_flatMap]
      simp only [hc]
      constructor
      · rintro (h | ⟨i, _, c, h1, q, h2, h3, h4⟩)
        · split at h
          · rename_i hk
            simp only [List.mem_singleton, Prod.mk.injEq] at h
            obtain ⟨rfl, rfl⟩ := h
            exact ⟨[], by simp, rfl, hk⟩
          · cases h
        · exact ⟨i :: q, by simp [h2], by rw [keyAt, h1]; exact h3, h4⟩
      · rintro ⟨q, h1, h2, h3⟩
        cases q with
        | nil =>
          left
          rw [keyAt] at h2
          cases h2
          simp [h3, h1]
        | cons i q =>
          right
          rw [keyAt] at h2
          cases hg : getChild n i with
          | none => rw [hg] at h2; cases h2
          | some c =>
            rw [hg] at h2
            exact ⟨i, mem_loopBytes.2 (getChild_lt hn hg), c, hg, q, by simp [h1], h2, h3⟩
  exact key _ n hn p (Nat.lt_succ_self _)

theorem append_lt (p a b : List Nat) (h : a < b) : p ++ a < p ++ b := by
  induction p with
  | nil => exact h
  | cons c p ih => rw [List.cons_append, List.cons_append, List.cons_lt_cons_iff]; exact .inr ⟨rfl, ih⟩

theorem entries_sorted (n : Node) (hn : WF n) (p : List Nat) :
    (entries n p).Pairwise (fun a b => a.1 < b.1) := by
  have key : ∀ m (n : Node), WF n → ∀ (p : List Nat), sizeOf n < m →
      (entries n p).Pairwise (fun a b => a.1 < b.1) := by
    intro m
    induction m with
    | zero => intro n _ p h; omega
    | succ m ihm =>
      intro n hn p hm
      have hc : ∀ i s k, (s, k) ∈ (match _h : getChild n i with
          | none => []
          | some c => entries c (p ++ [i])) → ∃ q, s = p ++ i :: q := by
        intro i s k
        split
        · intro h; cases h
        · rename_i c h
          rw [mem_entries c (getChild_wf hn h)]
          rintro ⟨q, h, _⟩
          exact ⟨q, by simp [h]⟩
      rw [entries, List.pairwise_append]
      refine ⟨?_, ?_, ?_⟩
      · split <;> simp
      · rw [List.pairwise_flatMap]
        refine ⟨?_, ?_⟩
        · intro i _
          split
          · exact List.Pairwise.nil
          · rename_i c h
            exact ihm c (getChild_wf hn h) _ (by have := getChild_sizeOf h; omega)
        · refine List.Pairwise.imp ?_ loopBytes_sorted
          rintro i j hij ⟨s, k⟩ hs ⟨t, l⟩ ht
          obtain ⟨q, rfl⟩ := hc i s k hs
          obtain ⟨q', rfl⟩ := hc j t l ht
          exact append_lt p _ _ (List.cons_lt_cons_iff.2 (.inl hij))
      · intro a ha b hb
        obtain ⟨i, _, hb⟩ := List.mem_flatMap.1 hb
        obtain ⟨q, hq⟩ := hc i b.1 b.2 hb
        split at ha
        · simp only [List.mem_singleton] at ha
          subst ha
          rw [hq]
          have := append_lt p [] (i :: q) (List.nil_lt_cons i q)
          simpa using this
        · cases ha
  exact key _ n hn p (Nat.lt_succ_self _)

theorem keyAt_iff {root : Node} {regs : List (List Nat × Key)} (h : Holds root regs) (p : List Nat) (k : Key) :
    (keyAt root p = some k ∧ hasKey k = true) ↔ Maps regs p k := by
  constructor
  · rintro ⟨h1, h2⟩
    rw [h.2 p] at h1
    split at h1
    · cases hr : registered regs p with
      | none =>
        rw [hr] at h1
        cases h1
        exact absurd h2 (by decide)
      | some l =>
        rw [hr] at h1
        cases h1
        exact ⟨hr, (hasKey_iff _).1 h2⟩
    · cases h1
  · intro hm
    exact ⟨keyAt_maps h hm, (hasKey_iff _).2 hm.2⟩

/-! Reading a line -/

/-- Each byte with a space before it. -/
def body : List Nat → List Nat
  | [] => []
  | b :: r => 32 :: (byteShown b ++ body r)

theorem body_eq (s : List Nat) (hs : s ≠ []) : body s = 32 :: shown s := by
  induction s with
  | nil => exact absurd rfl hs
  | cons b r ih =>
    cases r with
    | nil => simp [body, shown]
    | cons c r =>
      rw [body, ih (by simp), shown]

theorem body_head (s x : List Nat) : ∃ y, body s ++ 32 :: x = 32 :: y := by
  cases s with
  | nil => exact ⟨x, rfl⟩
  | cons b r => exact ⟨_, rfl⟩

theorem byteShown_cases (b : Nat) :
    (∃ c, byteShown b = [94, c] ∧ c ≠ 32 ∧ ((b < 32 ∧ c = b + 64) ∨ (b = 127 ∧ c = 63))) ∨
    (byteShown b = [39, 32, 39] ∧ b = 32) ∨ byteShown b = [b] := by
  unfold byteShown
  by_cases h1 : b < 32
  · rw [if_pos h1]; exact .inl ⟨_, rfl, by omega, .inl ⟨h1, rfl⟩⟩
  · rw [if_neg h1]
    by_cases h2 : b = 127
    · rw [if_pos h2]; exact .inl ⟨_, rfl, by omega, .inr ⟨h2, rfl⟩⟩
    · rw [if_neg h2]
      by_cases h3 : b = 32
      · rw [if_pos h3]; exact .inr (.inl ⟨rfl, h3⟩)
      · rw [if_neg h3]; exact .inr (.inr rfl)

theorem byteShown_cancel {b c : Nat} (hb : b ≠ 39) (hc : c ≠ 39) {x y : List Nat}
    (h : byteShown b ++ 32 :: x = byteShown c ++ 32 :: y) : b = c ∧ x = y := by
  rcases byteShown_cases b with ⟨u, e1, hu, h1⟩ | ⟨e1, h1⟩ | e1 <;>
    rcases byteShown_cases c with ⟨v, e2, hv, h2⟩ | ⟨e2, h2⟩ | e2 <;>
    rw [e1, e2] at h <;> simp at h <;> (try omega)
  · obtain ⟨rfl, rfl⟩ := h
    exact ⟨by omega, rfl⟩
  · exact ⟨by omega, h⟩

theorem body_inj (s t : List Nat) (hs : ∀ b ∈ s, b ≠ 39) (ht : ∀ b ∈ t, b ≠ 39) (x y : List Nat)
    (h : body s ++ 32 :: 45 :: 62 :: x = body t ++ 32 :: 45 :: 62 :: y) : s = t ∧ x = y := by
  have no : ∀ (c : Nat) (t x y : List Nat), c ≠ 39 → 45 :: 62 :: x ≠ byteShown c ++ (body t ++ 32 :: y) := by
    intro c t x y hc h
    obtain ⟨z, hz⟩ := body_head t y
    rw [hz] at h
    rcases byteShown_cases c with ⟨v, e2, hv, h2⟩ | ⟨e2, h2⟩ | e2 <;> rw [e2] at h <;> simp at h
  induction s generalizing t with
  | nil =>
    cases t with
    | nil => simpa [body] using h
    | cons c t =>
      simp only [body, List.nil_append, List.cons_append, List.append_assoc, List.cons.injEq, true_and] at h
      exact absurd h (no c t x _ (ht c (by simp)))
  | cons b s ih =>
    cases t with
    | nil =>
      simp only [body, List.nil_append, List.cons_append, List.append_assoc, List.cons.injEq, true_and] at h
      exact absurd h.symm (no b s y _ (hs b (by simp)))
    | cons c t =>
      simp only [body, List.cons_append, List.append_assoc, List.cons.injEq, true_and] at h
      obtain ⟨z, hz⟩ := body_head s (45 :: 62 :: x)
      obtain ⟨z', hz'⟩ := body_head t (45 :: 62 :: y)
      have h' := h
      rw [hz, hz'] at h'
      obtain ⟨h1, h2⟩ := byteShown_cancel (hs b (by simp)) (ht c (by simp)) h'
      subst h1 h2
      obtain ⟨h3, h4⟩ := ih t (fun b hb => hs b (by simp [hb])) (fun b hb => ht b (by simp [hb])) (by rw [hz, hz'])
      exact ⟨by rw [h3], h4⟩

theorem line_inj (s t : List Nat) (hs : s ≠ [] ∧ ∀ b ∈ s, b ≠ 39) (ht : t ≠ [] ∧ ∀ b ∈ t, b ≠ 39) (x y : List Nat)
    (h : line s x = line t y) : s = t ∧ x = y := by
  unfold line at h
  have h' : body s ++ 32 :: 45 :: 62 :: (32 :: x) = body t ++ 32 :: 45 :: 62 :: (32 :: y) := by
    rw [body_eq s hs.1, body_eq t ht.1]
    simpa using h
  have := body_inj s t hs.2 ht.2 _ _ h'
  simpa using this

end Winpty.InputMap
