import Verif.Spec.SecurityMemory

/-! Lemmas about the memory of security descriptors. -/

namespace Winpty.SecurityMemory

open Winpty.Spec.SecurityMemory

/-- Since `h0`, exactly the blocks of `l` have been added. -/
def Owns (h0 h : Heap) (l : List (Nat × Block)) : Prop :=
  (∀ a b, h.live a = some b ↔ (a, b) ∈ l ∨ h0.live a = some b) ∧ (l.map Prod.fst).Nodup ∧
  (∀ x ∈ l, h0.next ≤ x.1) ∧ Fresh h0 ∧ Fresh h ∧ h0.next ≤ h.next

theorem Owns.start {h : Heap} (hf : Fresh h) : Owns h h [] :=
  ⟨by simp, by simp, by simp, hf, hf, Nat.le_refl _⟩

theorem Owns.perm {h0 h : Heap} {l l' : List (Nat × Block)} (ho : Owns h0 h l) (p : l.Perm l') : Owns h0 h l' := by
  obtain ⟨h1, h2, h3, h4, h5, h6⟩ := ho
  refine ⟨fun a b => ?_, (p.map _).nodup_iff.mp h2, fun x hx => h3 x (p.mem_iff.mpr hx), h4, h5, h6⟩
  rw [h1, p.mem_iff]

theorem Owns.congr {h0 h h' : Heap} {l : List (Nat × Block)} (ho : Owns h0 h l) (hl : h'.live = h.live)
    (hn : h'.next = h.next) : Owns h0 h' l := by
  obtain ⟨h1, h2, h3, h4, h5, h6⟩ := ho
  refine ⟨fun a b => by rw [hl, h1], h2, h3, h4, fun a ha => ?_, by rw [hn]; exact h6⟩
  rw [hl]; exact h5 a (by rw [← hn]; exact ha)

theorem Owns.live {h0 h : Heap} {l : List (Nat × Block)} (ho : Owns h0 h l) {a : Nat} {b : Block}
    (hm : (a, b) ∈ l) : h.live a = some b := (ho.1 a b).mpr (.inl hm)

theorem Owns.add {h0 h : Heap} {l : List (Nat × Block)} (ho : Owns h0 h l) (b : Block) (h' : Heap)
    (hl : h'.live = fun x => if x = h.next then some b else h.live x) (hn : h'.next = h.next + 1) :
    Owns h0 h' ((h.next, b) :: l) := by
  obtain ⟨h1, h2, h3, h4, h5, h6⟩ := ho
  have hnone : h.live h.next = none := h5 _ (Nat.le_refl _)
  have hnotin : ∀ c, (h.next, c) ∉ l := fun c hc => by
    have := (h1 h.next c).mpr (.inl hc); rw [hnone] at this; cases this
  refine ⟨fun a c => ?_, ?_, fun x hx => ?_, h4, fun a ha => ?_, by omega⟩
  · rw [hl]
    by_cases ha : a = h.next
    · subst ha
      simp only [if_true, List.mem_cons, Prod.mk.injEq, true_and, Option.some.injEq]
      constructor
      · intro e; exact .inl (.inl e.symm)
      · rintro ((e | hc) | hc)
        · exact e.symm
        · exact absurd hc (hnotin c)
        · rw [h4 _ h6] at hc; cases hc
    · simp only [List.mem_cons, Prod.mk.injEq, ha, false_and, false_or]
      exact h1 a c
  · simp only [List.map_cons, List.nodup_cons]
    refine ⟨fun hm => ?_, h2⟩
    obtain ⟨⟨a, c⟩, hx, he⟩ := List.mem_map.mp hm
    simp only at he; subst he
    exact hnotin c hx
  · rcases List.mem_cons.mp hx with rfl | hx
    · exact h6
    · exact h3 x hx
  · rw [hl]
    have : a ≠ h.next := by omega
    simp only [if_neg this]
    exact h5 a (by omega)

/-- The blocks of a list are live. -/
def Holds (h : Heap) (l : List (Nat × Block)) : Prop := ∀ x ∈ l, h.live x.1 = some x.2

/-- A step that releases exactly these blocks. -/
def Frees (l : List (Nat × Block)) (m : Run Unit) : Prop :=
  ∀ env h, Holds h l → (l.map Prod.fst).Nodup →
    ∃ h', m env h = .ok () h' ∧ (∀ a, h'.live a = if a ∈ l.map Prod.fst then none else h.live a) ∧ h'.next = h.next

theorem frees_nil : Frees [] (.ret ()) := fun _ h _ _ => ⟨h, rfl, by simp, rfl⟩

theorem frees_release (k : Kind) (a : Nat) (b : Block) (hk : b.kind = k) : Frees [(a, b)] (release k a) := by
  intro env h hh _
  have hl := hh (a, b) (by simp)
  simp only at hl
  refine ⟨h.set a none, ?_, fun x => ?_, rfl⟩
  · simp only [release, hl, hk, if_true]
  · simp only [Heap.set, List.map_cons, List.map_nil, List.mem_singleton]

theorem Frees.then {l1 l2 : List (Nat × Block)} {m1 m2 : Run Unit} (f1 : Frees l1 m1) (f2 : Frees l2 m2) :
    Frees (l1 ++ l2) (m1.bind fun _ => m2) := by
  intro env h hh hn
  rw [List.map_append] at hn
  obtain ⟨n1, n2, hd⟩ := List.nodup_append.mp hn
  obtain ⟨h1, e1, l1', x1⟩ := f1 env h (fun x hx => hh x (List.mem_append_left _ hx)) n1
  have hh1 : Holds h1 l2 := by
    intro x hx
    have : x.1 ∉ l1.map Prod.fst := fun hm => hd _ hm _ (List.mem_map_of_mem hx) rfl
    rw [l1', if_neg this]
    exact hh x (List.mem_append_right _ hx)
  obtain ⟨h2, e2, l2', x2⟩ := f2 env h1 hh1 n2
  refine ⟨h2, by simp only [Run.bind, e1, e2], fun a => ?_, by rw [x2, x1]⟩
  rw [l2', l1']
  simp only [List.map_append, List.mem_append]
  by_cases c1 : a ∈ l1.map Prod.fst <;> by_cases c2 : a ∈ l2.map Prod.fst <;> simp only [c1, c2, if_true, if_false,
    or_true, true_or, or_self]

theorem Frees.perm {l l' : List (Nat × Block)} {m : Run Unit} (f : Frees l m) (p : l.Perm l') : Frees l' m := by
  intro env h hh hn
  obtain ⟨h', e, hl, hx⟩ := f env h (fun x hx => hh x (p.mem_iff.mp hx)) ((p.map _).nodup_iff.mpr hn)
  exact ⟨h', e, fun a => by rw [hl]; simp only [(p.map Prod.fst).mem_iff], hx⟩

theorem Owns.frees {h0 h : Heap} {mine rest : List (Nat × Block)} {m : Run Unit} (ho : Owns h0 h (mine ++ rest))
    (hm : Frees mine m) (env : Env) : ∃ h', m env h = .ok () h' ∧ Owns h0 h' rest := by
  have hlive := fun a b => ho.1 a b
  obtain ⟨h1, h2, h3, h4, h5, h6⟩ := ho
  have hn := h2
  rw [List.map_append] at hn
  obtain ⟨n1, n2, hd⟩ := List.nodup_append.mp hn
  obtain ⟨h', e, hl, hx⟩ := hm env h (fun x hx => (h1 x.1 x.2).mpr (.inl (List.mem_append_left _ hx))) n1
  refine ⟨h', e, fun a b => ?_, n2, fun x hx' => h3 x (List.mem_append_right _ hx'), h4, fun a ha => ?_,
    by rw [hx]; exact h6⟩
  · rw [hl]
    by_cases c : a ∈ mine.map Prod.fst
    · simp only [if_pos c, reduceCtorEq, false_iff, not_or]
      refine ⟨fun hb => hd a c a (List.mem_map_of_mem (f := Prod.fst) hb) rfl, fun hb => ?_⟩
      obtain ⟨x, hxm, rfl⟩ := List.mem_map.mp c
      have := h3 x (List.mem_append_left _ hxm)
      rw [h4 _ this] at hb; cases hb
    · rw [if_neg c, h1 a b, List.mem_append]
      have : (a, b) ∉ mine := fun hb => c (List.mem_map_of_mem (f := Prod.fst) hb)
      simp [this]
  · rw [hl]
    split
    · rfl
    · exact h5 a (by rw [← hx]; exact ha)

/-- From a state that owns `l`: a value with more blocks, an exception that leaves `t` (with one more block at most,
if it is for lack of memory), or a failed `ASSERT` if `A`. -/
def Does (env : Env) (A : Prop) (h0 : Heap) (l t : List (Nat × Block)) {α : Type} (m : Run α)
    (Q : α → List (Nat × Block) → Prop) : Prop :=
  ∀ h, Owns h0 h l → match m env h with
    | .ok a h' => ∃ l', Owns h0 h' l' ∧ Q a l'
    | .throws oom h' => ∃ leak, Owns h0 h' (leak ++ t) ∧ leak.length ≤ 1 ∧ (oom = false → leak = [])
    | .wild => False
    | .assertFail => A

variable {env : Env} {A : Prop} {h0 : Heap}

theorem Does.ret {l t : List (Nat × Block)} {α : Type} {a : α} {Q : α → List (Nat × Block) → Prop}
    (hq : Q a l) : Does env A h0 l t (.ret a) Q := fun _ ho => ⟨l, ho, hq⟩

theorem Does.throw {l : List (Nat × Block)} {α : Type} {Q : α → List (Nat × Block) → Prop} :
    Does env A h0 l l (.throw : Run α) Q := fun _ ho => ⟨[], ho, by simp, fun _ => rfl⟩

theorem Does.bind {l t : List (Nat × Block)} {α β : Type} {m : Run α} {f : α → Run β}
    {Q : α → List (Nat × Block) → Prop} {R : β → List (Nat × Block) → Prop}
    (hm : Does env A h0 l t m Q) (hf : ∀ a l', Q a l' → Does env A h0 l' t (f a) R) :
    Does env A h0 l t (m.bind f) R := by
  intro h ho
  have h1 := hm h ho
  simp only [Run.bind]
  cases e : m env h with
  | ok a h' =>
    simp only [e] at h1
    obtain ⟨l', ho', hq⟩ := h1
    exact hf a l' hq h' ho'
  | throws oom h' => simpa only [e] using h1
  | wild => simp only [e] at h1
  | assertFail => simpa only [e] using h1

theorem Does.mono {l t : List (Nat × Block)} {α : Type} {m : Run α}
    {Q R : α → List (Nat × Block) → Prop}
    (hm : Does env A h0 l t m Q) (hf : ∀ a l', Q a l' → R a l') : Does env A h0 l t m R := by
  intro h ho
  have h1 := hm h ho
  cases e : m env h with
  | ok a h' =>
    simp only [e] at h1
    obtain ⟨l', ho', hq⟩ := h1
    exact ⟨l', ho', hf a l' hq⟩
  | throws oom h' => simpa only [e] using h1
  | wild => simp only [e] at h1
  | assertFail => simpa only [e] using h1

theorem Does.weaken {B : Prop} {l t : List (Nat × Block)} {α : Type} {m : Run α}
    {Q : α → List (Nat × Block) → Prop}
    (hm : Does env A h0 l t m Q) (hf : A → B) : Does env B h0 l t m Q := by
  intro h ho
  have h1 := hm h ho
  cases e : m env h with
  | ok a h' => simpa only [e] using h1
  | throws oom h' => simpa only [e] using h1
  | wild => simp only [e] at h1
  | assertFail => simp only [e] at h1 ⊢; exact hf h1

theorem Does.unwinding {l mine t : List (Nat × Block)} {α : Type} {m : Run α} {d : Run Unit}
    {Q : α → List (Nat × Block) → Prop}
    (hm : Does env A h0 l (mine ++ t) m Q) (hd : Frees mine d) : Does env A h0 l t (m.unwinding d) Q := by
  intro h ho
  have h1 := hm h ho
  simp only [Run.unwinding]
  cases e : m env h with
  | ok a h' => simpa only [e] using h1
  | throws oom h' =>
    simp only [e] at h1
    obtain ⟨leak, ho', h2, h3⟩ := h1
    have p : (leak ++ (mine ++ t)).Perm (mine ++ (leak ++ t)) := by
      rw [← List.append_assoc, ← List.append_assoc]
      exact List.Perm.append_right _ List.perm_append_comm
    obtain ⟨h'', e2, ho''⟩ := (ho'.perm p).frees hd env
    simp only [Run.bind, e2]
    exact ⟨leak, ho'', h2, h3⟩
  | wild => simp only [e] at h1
  | assertFail => simpa only [e] using h1

theorem Does.free {mine rest t : List (Nat × Block)} {d : Run Unit} (hd : Frees mine d) :
    Does env A h0 (mine ++ rest) t d fun _ l' => l' = rest := by
  intro h ho
  obtain ⟨h', e, ho'⟩ := ho.frees hd env
  simp only [e]
  exact ⟨rest, ho', rfl⟩

theorem Does.permStart {l l1 t : List (Nat × Block)} {α : Type} {m : Run α}
    {Q : α → List (Nat × Block) → Prop} (p : l.Perm l1)
    (hm : Does env A h0 l1 t m Q) : Does env A h0 l t m Q := fun h ho => hm h (ho.perm p)

theorem Does.permThrow {l t1 t : List (Nat × Block)} {α : Type} {m : Run α}
    {Q : α → List (Nat × Block) → Prop} (p : t1.Perm t)
    (hm : Does env A h0 l t1 m Q) : Does env A h0 l t m Q := by
  intro h ho
  have h1 := hm h ho
  cases e : m env h with
  | ok a h' => simpa only [e] using h1
  | throws oom h' =>
    simp only [e] at h1 ⊢
    obtain ⟨leak, ho', h2, h3⟩ := h1
    exact ⟨leak, ho'.perm (List.Perm.append_left _ p), h2, h3⟩
  | wild => simp only [e] at h1
  | assertFail => simpa only [e] using h1

/-- A block that is released at the end of a scope. -/
theorem Does.scope {l mine t : List (Nat × Block)} {α : Type} {m : Run α} {d : Run Unit}
    {Q : α → List (Nat × Block) → Prop}
    (hm : Does env A h0 l (mine ++ t) m fun a l' => ∃ r, l'.Perm (mine ++ r) ∧ Q a r) (hd : Frees mine d) :
    Does env A h0 l t (m.scope d) Q := by
  refine Does.bind (hm.unwinding hd) fun a l' hq => ?_
  obtain ⟨r, p, hq⟩ := hq
  refine Does.bind (Does.permStart p (Does.free hd)) fun _ l2 e => ?_
  subst e
  exact Does.ret hq

theorem does_api {l t : List (Nat × Block)} : Does env A h0 l t api fun _ l' => l' = l :=
  fun _ ho => ⟨l, ho.congr rfl rfl, rfl⟩

theorem does_made {l t : List (Nat × Block)} (k : Kind) :
    Does env A h0 l t (made k) fun a l' => l' = (a, ⟨k, []⟩) :: l :=
  fun _ ho => ⟨_, ho.add ⟨k, []⟩ _ rfl rfl, rfl⟩

/-- `new`, where the throw may lose one block. -/
theorem does_new {l : List (Nat × Block)} (leak t : List (Nat × Block)) (hl : l = leak ++ t)
    (hk : leak.length ≤ 1) : Does env A h0 l t new fun a l' => l' = (a, ⟨.object, []⟩) :: l := by
  intro h ho
  by_cases c : env.mem h.asked = true
  · simp only [new, if_pos c, made]
    exact ⟨_, ho.add ⟨.object, []⟩ _ rfl rfl, rfl⟩
  · simp only [new, c]
    refine ⟨leak, ?_, hk, by simp⟩
    rw [← hl]
    exact ho.congr rfl rfl

theorem does_reads {l t : List (Nat × Block)} {p : Option Nat} (hp : ∃ a b, p = some a ∧ (a, b) ∈ l) :
    Does env A h0 l t (reads p) fun _ l' => l' = l := by
  intro h ho
  obtain ⟨a, b, rfl, hm⟩ := hp
  simp only [reads, ho.live hm, Option.isSome_some, if_true]
  exact ⟨l, ho, rfl⟩

theorem does_readsAll {l t : List (Nat × Block)} :
    ∀ ps : List (Option Nat), (∀ p ∈ ps, ∃ a b, p = some a ∧ (a, b) ∈ l) →
      Does env A h0 l t (readsAll ps) fun _ l' => l' = l
  | [], _ => Does.ret rfl
  | p :: ps, hp => by
    refine Does.bind (does_reads (hp p (by simp))) fun _ l' e => ?_
    subst e
    exact does_readsAll ps fun q hq => hp q (by simp [hq])

theorem does_writes {l t : List (Nat × Block)} (a : Nat) (b : Block) (p : Option Nat) :
    Does env A h0 ((a, b) :: l) t (writesPointer a p) fun _ l' => l' = (a, { b with points := p.toList }) :: l := by
  intro h ho
  have hl := ho.live (a := a) (b := b) (by simp)
  simp only [writesPointer, hl]
  refine ⟨_, ?_, rfl⟩
  obtain ⟨h1, h2, h3, h4, h5, h6⟩ := ho
  have hn := h2
  simp only [List.map_cons, List.nodup_cons] at hn
  refine ⟨fun x c => ?_, by simpa using h2, fun x hx => ?_, h4, fun x hx => ?_, h6⟩
  · simp only [Heap.set]
    by_cases e : x = a
    · subst e
      simp only [if_true, List.mem_cons, Prod.mk.injEq, true_and, Option.some.injEq]
      constructor
      · intro e; exact .inl (.inl e.symm)
      · rintro ((e | hc) | hc)
        · exact e.symm
        · exact absurd (List.mem_map_of_mem (f := Prod.fst) hc) hn.1
        · have := h3 (x, b) (by simp)
          rw [h4 _ this] at hc; cases hc
    · simp only [List.mem_cons, Prod.mk.injEq, e, false_and, false_or, if_false]
      have := h1 x c
      simpa only [List.mem_cons, Prod.mk.injEq, e, false_and, false_or] using this
  · rcases List.mem_cons.mp hx with rfl | hx
    · exact h3 (a, b) (by simp)
    · exact h3 x (by simp [hx])
  · simp only [Heap.set]
    have : x ≠ a := by
      intro e; subst e
      have := h5 x hx; rw [hl] at this; cases this
    rw [if_neg this]
    exact h5 x hx

/-- The blocks of an object. -/
def ImplHas : Impl → List (Nat × Block) → Prop
  | .ofLocal s v, l => ∃ pts, l = [(s, ⟨.object, []⟩), (v, ⟨.localMem, pts⟩)]
  | .ofSid s v, l => l = [(s, ⟨.object, []⟩), (v, ⟨.sid, []⟩)]
  | .ofOwner s v, l => l = [(s, ⟨.object, []⟩), (v, ⟨.object, []⟩)]

theorem frees_impl {i : Impl} {l : List (Nat × Block)} (hi : ImplHas i l) : Frees l (deleteImpl i) := by
  cases i with
  | ofLocal s v =>
    obtain ⟨pts, rfl⟩ := hi
    exact ((frees_release .localMem v _ rfl).then (frees_release .object s _ rfl)).perm (List.Perm.swap _ _ _)
  | ofSid s v =>
    have : l = _ := hi
    subst this
    exact ((frees_release .sid v _ rfl).then (frees_release .object s _ rfl)).perm (List.Perm.swap _ _ _)
  | ofOwner s v =>
    have : l = _ := hi
    subst this
    exact ((frees_release .object v _ rfl).then (frees_release .object s _ rfl)).perm (List.Perm.swap _ _ _)

/-- The blocks of an item: none if it is null; else those of its object, and its pointer is one of them. -/
def ItemHas (i : Item) (l : List (Nat × Block)) : Prop :=
  match i.pimpl with
  | none => l = []
  | some impl => ImplHas impl l

theorem frees_item {i : Item} {l : List (Nat × Block)} (hi : ItemHas i l) : Frees l (destroyItem i) := by
  simp only [ItemHas] at hi
  simp only [destroyItem]
  cases e : i.pimpl with
  | none => simp only [e] at hi; subst hi; exact frees_nil
  | some impl => simp only [e] at hi; exact frees_impl hi

/-- An item whose pointer is to one of its blocks. -/
def Good (i : Item) (l : List (Nat × Block)) : Prop :=
  ItemHas i l ∧ ∃ a b, i.v = some a ∧ (a, b) ∈ l

theorem does_moveAssign {l t : List (Nat × Block)} (i : Item) :
    Does env A h0 l t (moveAssign .null i) fun j l' => j = i ∧ l' = l := by
  refine Does.bind (Q := fun _ l' => l' = l) (Does.ret rfl) fun _ l' e => ?_
  exact Does.ret ⟨rfl, e⟩

theorem does_wellKnownSid {l : List (Nat × Block)} :
    Does env A h0 l l (wellKnownSid.bind (moveAssign .null)) fun i l' => ∃ m, l' = m ++ l ∧ Good i m := by
  refine Does.bind (Q := fun i l' => ∃ m, l' = m ++ l ∧ Good i m) ?_ fun i l' hq =>
    (does_moveAssign i).mono fun j l2 e => by obtain ⟨rfl, rfl⟩ := e; exact hq
  refine Does.bind does_api fun ok l' e => ?_
  subst e
  cases ok with
  | false => exact Does.throw
  | true =>
    rw [if_pos rfl]
    refine Does.bind (does_made .sid) fun v l1 e => ?_
    subst e
    refine Does.bind (does_new [(v, ⟨.sid, []⟩)] _ rfl (by simp)) fun s l1 e => ?_
    subst e
    exact Does.ret ⟨[(s, ⟨.object, []⟩), (v, ⟨.sid, []⟩)], rfl, rfl, v, ⟨.sid, []⟩, rfl, by simp⟩

theorem does_openToken {l : List (Nat × Block)} :
    Does env A h0 l l openToken fun a l' => l' = (a, ⟨.handle, []⟩) :: l := by
  refine Does.bind does_api fun ok l' e => ?_
  subst e
  cases ok with
  | true => exact does_made .handle
  | false =>
    rw [if_neg Bool.false_ne_true]
    refine Does.bind does_api fun nt l' e => ?_
    subst e
    cases nt with
    | false => exact Does.throw
    | true =>
      rw [if_pos rfl]
      refine Does.bind does_api fun ok l' e => ?_
      subst e
      cases ok with
      | false => exact Does.throw
      | true => exact does_made .handle

theorem does_readOwner {l : List (Nat × Block)} (hA : env.ownerLarge = false → A) (token self buffer : Nat) (tb : Block)
    (ht : (token, tb) ∈ l) :
    Does env A h0 ((buffer, ⟨.object, []⟩) :: (self, ⟨.object, []⟩) :: l)
      ((self, ⟨.object, []⟩) :: (buffer, ⟨.object, []⟩) :: l) (readOwner token self buffer)
      fun i l' => l' = (buffer, ⟨.object, []⟩) :: (self, ⟨.object, []⟩) :: l ∧
        i = ⟨some buffer, some (.ofOwner self buffer)⟩ := by
  refine Does.bind (does_readsAll _ ?_) fun _ l' e => ?_
  · intro p hp
    rcases List.mem_cons.mp hp with rfl | hp
    · exact ⟨token, tb, rfl, by simp [ht]⟩
    · rw [List.mem_singleton] at hp
      exact ⟨buffer, ⟨.object, []⟩, hp, by simp⟩
  subst e
  refine Does.bind does_api fun ok l' e => ?_
  subst e
  cases ok with
  | false => exact Does.permThrow (List.Perm.swap _ _ _) Does.throw
  | true =>
    intro h ho
    simp only [ownerItem, if_true]
    cases c : env.ownerLarge with
    | false => exact hA c
    | true => exact ⟨_, ho, rfl, rfl⟩

theorem does_getOwnerSid {l : List (Nat × Block)} (hA : env.ownerLarge = false → A) :
    Does env A h0 l l (getOwnerSid.bind (moveAssign .null)) fun i l' => ∃ m, l' = m ++ l ∧ Good i m := by
  refine Does.bind (Q := fun i l' => ∃ m, l' = m ++ l ∧ Good i m) ?_ fun i l' hq =>
    (does_moveAssign i).mono fun j l2 e => by obtain ⟨rfl, rfl⟩ := e; exact hq
  refine Does.bind does_openToken fun token l' e => ?_
  subst e
  refine Does.scope (mine := [(token, ⟨.handle, []⟩)]) ?_ (frees_release .handle token _ rfl)
  refine Does.bind (does_reads ⟨token, _, rfl, List.mem_cons_self⟩) fun _ l' e => ?_
  subst e
  refine Does.bind does_api fun ok l' e => ?_
  subst e
  cases ok with
  | true => exact Does.throw
  | false =>
    rw [if_neg Bool.false_ne_true]
    refine Does.bind does_api fun ins l' e => ?_
    subst e
    cases ins with
    | false => exact Does.throw
    | true =>
      rw [if_pos rfl]
      refine Does.bind (does_new [] _ rfl (by simp)) fun self l' e => ?_
      subst e
      refine Does.bind (Does.unwinding (mine := [(self, ⟨.object, []⟩)]) (does_new [] _ rfl (by simp))
        (frees_release .object self _ rfl)) fun buffer l' e => ?_
      subst e
      refine (Does.unwinding (mine := [(self, ⟨.object, []⟩), (buffer, ⟨.object, []⟩)])
        (does_readOwner hA token self buffer ⟨.handle, []⟩ (by simp))
        (frees_impl (i := .ofOwner self buffer) rfl)).mono fun i l' hq => ?_
      obtain ⟨rfl, rfl⟩ := hq
      refine ⟨[(self, ⟨.object, []⟩), (buffer, ⟨.object, []⟩)] ++ l, ?_,
        [(self, ⟨.object, []⟩), (buffer, ⟨.object, []⟩)], rfl, rfl, buffer, ⟨.object, []⟩, rfl, by simp⟩
      refine (List.Perm.swap _ _ _).trans ?_
      exact (List.perm_middle (l₁ := [(self, (⟨.object, []⟩ : Block)), (buffer, ⟨.object, []⟩)])).trans (.refl _)

theorem does_finishAcl {l : List (Nat × Block)} (ts : List (Option Nat))
    (ht : ∀ p ∈ ts, ∃ a b, p = some a ∧ (a, b) ∈ l) :
    Does env A h0 l l (finishAcl ts .null) fun i l' =>
      ∃ m, l' = m ++ l ∧ ∃ s v, i = ⟨some v, some (.ofLocal s v)⟩ ∧
        m = [(s, ⟨.object, []⟩), (v, ⟨.localMem, []⟩)] := by
  refine Does.bind (does_readsAll ts ht) fun _ l' e => ?_
  subst e
  refine Does.bind does_api fun ok l' e => ?_
  subst e
  cases ok with
  | false => exact Does.throw
  | true =>
    rw [if_pos rfl]
    refine Does.bind (does_made .localMem) fun v l1 e => ?_
    subst e
    refine Does.bind (Q := fun i l1 => ∃ s, i = ⟨some v, some (.ofLocal s v)⟩ ∧
      l1 = (s, ⟨.object, []⟩) :: (v, ⟨.localMem, []⟩) :: l') ?_ fun i l1 hq => ?_
    · refine Does.bind (does_new [(v, ⟨.localMem, []⟩)] _ rfl (by simp)) fun s l1 e => ?_
      subst e
      exact Does.ret ⟨s, rfl, rfl⟩
    · obtain ⟨s, rfl, rfl⟩ := hq
      refine (does_moveAssign _).mono fun j l2 e => ?_
      obtain ⟨rfl, rfl⟩ := e
      exact ⟨_, rfl, s, v, rfl, rfl⟩

theorem does_initDescriptor {l : List (Nat × Block)} (s v acl : Nat) (b : Block) (hacl : (acl, b) ∈ l) :
    Does env A h0 ((s, ⟨.object, []⟩) :: (v, ⟨.localMem, []⟩) :: l)
      ((s, ⟨.object, []⟩) :: (v, ⟨.localMem, []⟩) :: l) (initDescriptor v (some acl))
      fun _ l' => l'.Perm ((s, ⟨.object, []⟩) :: (v, ⟨.localMem, [acl]⟩) :: l) := by
  refine Does.bind (does_reads ⟨v, ⟨.localMem, []⟩, rfl, by simp⟩) fun _ l' e => ?_
  subst e
  refine Does.bind does_api fun ok l' e => ?_
  subst e
  cases ok with
  | false => exact Does.throw
  | true =>
    rw [if_pos rfl]
    refine Does.bind (does_readsAll _ ?_) fun _ l' e => ?_
    · intro p hp
      rcases List.mem_cons.mp hp with rfl | hp
      · exact ⟨v, ⟨.localMem, []⟩, rfl, by simp⟩
      · rw [List.mem_singleton] at hp
        exact ⟨acl, b, hp, by simp [hacl]⟩
    subst e
    refine Does.bind does_api fun ok l' e => ?_
    subst e
    cases ok with
    | false => exact Does.throw
    | true =>
      rw [if_pos rfl]
      refine (Does.permStart (List.Perm.swap _ _ _) (does_writes v ⟨.localMem, []⟩ (some acl))).mono fun _ l' e => ?_
      subst e
      exact List.Perm.swap _ _ _

theorem does_finishSd {l : List (Nat × Block)} (acl : Nat) (b : Block) (hacl : (acl, b) ∈ l) :
    Does env A h0 l l ((finishSd (some acl)).bind (moveAssign .null)) fun i l' => ∃ s v,
      i = ⟨some v, some (.ofLocal s v)⟩ ∧
      l'.Perm ([(s, ⟨.object, []⟩), (v, ⟨.localMem, [acl]⟩)] ++ l) := by
  refine Does.bind (Q := fun i l' => ∃ s v,
      i = ⟨some v, some (.ofLocal s v)⟩ ∧
      l'.Perm ([(s, ⟨.object, []⟩), (v, ⟨.localMem, [acl]⟩)] ++ l)) ?_ fun i l' hq =>
    (does_moveAssign i).mono fun j l2 e => by obtain ⟨rfl, rfl⟩ := e; exact hq
  refine Does.bind does_api fun ok l' e => ?_
  subst e
  cases ok with
  | false => exact Does.throw
  | true =>
    rw [if_pos rfl]
    refine Does.bind (does_made .localMem) fun v l1 e => ?_
    subst e
    refine Does.bind (Q := fun i l1 => ∃ s, i = ⟨some v, some (.ofLocal s v)⟩ ∧
      l1 = (s, ⟨.object, []⟩) :: (v, ⟨.localMem, []⟩) :: l') ?_ fun i l1 hq => ?_
    · refine Does.bind (does_new [(v, ⟨.localMem, []⟩)] _ rfl (by simp)) fun s l1 e => ?_
      subst e
      exact Does.ret ⟨s, rfl, rfl⟩
    · obtain ⟨s, rfl, rfl⟩ := hq
      refine Does.bind (Does.unwinding (mine := [(s, ⟨.object, []⟩), (v, ⟨.localMem, []⟩)])
        (does_initDescriptor s v acl b hacl)
        (frees_item (i := ⟨some v, some (.ofLocal s v)⟩) (show ImplHas (.ofLocal s v) _ from ⟨[], rfl⟩))) fun _ l1 p => ?_
      exact Does.ret ⟨s, v, rfl, p⟩

/-- The blocks of the object behind a descriptor. -/
def SdHas (i : SdImpl) (l : List (Nat × Block)) : Prop :=
  ∃ lv ld le lo lb ll, ItemHas i.value lv ∧ ItemHas i.dacl ld ∧ ItemHas i.everyone le ∧ ItemHas i.owner lo ∧
    ItemHas i.builtinAdmins lb ∧ ItemHas i.localSystem ll ∧
    l = lv ++ (ld ++ (le ++ (lo ++ (lb ++ (ll ++ [(i.self, ⟨.object, []⟩)])))))

theorem frees_sd {i : SdImpl} {l : List (Nat × Block)} (hi : SdHas i l) : Frees l (deleteSdImpl i) := by
  obtain ⟨lv, ld, le, lo, lb, ll, h1, h2, h3, h4, h5, h6, rfl⟩ := hi
  exact (frees_item h1).then ((frees_item h2).then ((frees_item h3).then ((frees_item h4).then
    ((frees_item h5).then ((frees_item h6).then (frees_release .object i.self _ rfl))))))

theorem Does.step {l : List (Nat × Block)} {α : Type} {i : SdImpl} {m : Run α} {rest : α → Run Descriptor}
    {Q : α → List (Nat × Block) → Prop} {R : Descriptor → List (Nat × Block) → Prop}
    (hi : SdHas i l) (hm : Does env A h0 l l m Q) (hf : ∀ a l', Q a l' → Does env A h0 l' [] (rest a) R) :
    Does env A h0 l [] (step i m rest) R := by
  refine Does.bind (Does.unwinding (mine := l) ?_ (frees_sd hi)) hf
  rw [List.append_nil]; exact hm

/-- A finished descriptor: its object has all the blocks, and the descriptor among them points to a list among
them. -/
def Done (d : Descriptor) (l : List (Nat × Block)) : Prop :=
  ∃ i v acl, d = ⟨some v, some i⟩ ∧ (∃ l1, SdHas i l1 ∧ l.Perm l1) ∧
    (v, ⟨.localMem, [acl]⟩) ∈ l ∧ (acl, ⟨.localMem, []⟩) ∈ l

theorem does_finish {l : List (Nat × Block)} (everyone : Bool) (i : SdImpl) (hi : SdHas i l)
    (hd : i.dacl = .null) (hv : i.value = .null)
    (ht : ∀ p ∈ trustees everyone i, ∃ a b, p = some a ∧ (a, b) ∈ l) :
    Does env A h0 l [] (finish everyone i) Done := by
  simp only [finish, hd, hv]
  refine Does.step hi (does_finishAcl _ ht) fun dacl l1 hq => ?_
  obtain ⟨m, rfl, s, acl, rfl, rfl⟩ := hq
  obtain ⟨lv, ld, le, lo, lb, ll, h1, h2, h3, h4, h5, h6, rfl⟩ := hi
  rw [hv] at h1; rw [hd] at h2
  have e1 : lv = [] := h1
  have e2 : ld = [] := h2
  subst e1 e2
  simp only [List.nil_append]
  refine Does.step ⟨[], [(s, ⟨.object, []⟩), (acl, ⟨.localMem, []⟩)], le, lo, lb, ll, ?_, ⟨[], rfl⟩, h3, h4, h5, h6,
    rfl⟩ (does_finishSd acl ⟨.localMem, []⟩ (by simp)) fun value l1 hq => ?_
  · exact rfl
  obtain ⟨s', v, rfl, p⟩ := hq
  refine Does.ret ⟨_, v, acl, rfl, ⟨_, ⟨[(s', ⟨.object, []⟩), (v, ⟨.localMem, [acl]⟩)],
    [(s, ⟨.object, []⟩), (acl, ⟨.localMem, []⟩)], le, lo, lb, ll, ⟨_, rfl⟩, ⟨[], rfl⟩, h3, h4, h5, h6, rfl⟩, p⟩, ?_, ?_⟩
  · rw [p.mem_iff]; simp
  · rw [p.mem_iff]; simp

theorem good_mem {i : Item} {m : List (Nat × Block)} (g : Good i m) {l : List (Nat × Block)}
    (hs : ∀ x ∈ m, x ∈ l) : ∃ a b, i.v = some a ∧ (a, b) ∈ l := by
  obtain ⟨_, a, b, e, hm⟩ := g
  exact ⟨a, b, e, hs _ hm⟩

theorem does_createDescriptor (everyone : Bool) (hA : env.ownerLarge = false → A) :
    Does env A h0 [] [] (createDescriptor everyone) Done := by
  refine Does.bind (does_new [] _ rfl (by simp)) fun self l e => ?_
  subst e
  refine Does.step ⟨[], [], [], [], [], [], rfl, rfl, rfl, rfl, rfl, rfl, rfl⟩ does_wellKnownSid fun ls l1 hq => ?_
  obtain ⟨m1, rfl, g1⟩ := hq
  refine Does.step ⟨[], [], [], [], [], m1, rfl, rfl, rfl, rfl, rfl, g1.1, rfl⟩ does_wellKnownSid fun ba l1 hq => ?_
  obtain ⟨m2, rfl, g2⟩ := hq
  refine Does.step ⟨[], [], [], [], m2, m1, rfl, rfl, rfl, rfl, g2.1, g1.1, rfl⟩ (does_getOwnerSid hA)
    fun ow l1 hq => ?_
  obtain ⟨m3, rfl, g3⟩ := hq
  cases everyone with
  | false =>
    refine does_finish false _ ⟨[], [], [], m3, m2, m1, rfl, rfl, rfl, g3.1, g2.1, g1.1, rfl⟩ rfl rfl ?_
    intro p hp
    simp only [trustees, SdImpl.init, Bool.false_eq_true, if_false, List.append_nil, List.mem_cons,
      List.not_mem_nil, or_false] at hp
    rcases hp with rfl | rfl | rfl
    · exact good_mem g1 (by intro x hx; simp [hx])
    · exact good_mem g2 (by intro x hx; simp [hx])
    · exact good_mem g3 (by intro x hx; simp [hx])
  | true =>
    simp only [withEveryone, if_true]
    refine Does.step ⟨[], [], [], m3, m2, m1, rfl, rfl, rfl, g3.1, g2.1, g1.1, rfl⟩ does_wellKnownSid
      fun ev l1 hq => ?_
    obtain ⟨m4, rfl, g4⟩ := hq
    refine does_finish true _ ⟨[], [], m4, m3, m2, m1, rfl, rfl, g4.1, g3.1, g2.1, g1.1, rfl⟩ rfl rfl ?_
    intro p hp
    simp only [trustees, if_true, List.cons_append, List.nil_append, List.mem_cons,
      List.not_mem_nil, or_false] at hp
    rcases hp with rfl | rfl | rfl | rfl
    · exact good_mem g1 (by intro x hx; simp [hx])
    · exact good_mem g2 (by intro x hx; simp [hx])
    · exact good_mem g3 (by intro x hx; simp [hx])
    · exact good_mem g4 (by intro x hx; simp [hx])

theorem frees_done {d : Descriptor} {l : List (Nat × Block)} (hd : Done d l) : Frees l (destroyDescriptor d) := by
  obtain ⟨i, v, acl, rfl, ⟨l1, hs, p⟩, _, _⟩ := hd
  exact (frees_sd hs).perm p.symm

theorem does_readsDescriptor {l t : List (Nat × Block)} (v acl : Nat) (b : Block)
    (hv : (v, ⟨.localMem, [acl]⟩) ∈ l) (ha : (acl, b) ∈ l) :
    Does env A h0 l t (readsDescriptor v) fun _ l' => l' = l := by
  intro h ho
  simp only [readsDescriptor, ho.live hv]
  refine does_readsAll (A := A) (h0 := h0) (t := t) ([acl].map some) ?_ h ho
  intro p hp
  simp only [List.map_cons, List.map_nil, List.mem_singleton] at hp
  exact ⟨acl, b, hp, ha⟩

theorem does_createPipe {l : List (Nat × Block)} (agent : Bool) (v acl : Nat) (b : Block)
    (hA : agent = true → A) (hv : (v, ⟨.localMem, [acl]⟩) ∈ l) (ha : (acl, b) ∈ l) :
    Does env A h0 l l (createPipe agent (some v)) fun p l' => l' = (p, ⟨.handle, []⟩) :: l := by
  refine Does.bind (does_readsDescriptor v acl b hv ha) fun _ l' e => ?_
  subst e
  refine Does.bind does_api fun ok l' e => ?_
  subst e
  cases ok with
  | true => exact does_made .handle
  | false =>
    cases agent with
    | true => exact fun h ho => hA rfl
    | false => exact Does.throw

theorem does_controlPipe (agent : Bool) (hA : env.ownerLarge = false ∨ agent = true → A) :
    Does env A h0 [] [] (controlPipe agent) fun p l => l = [(p, ⟨.handle, []⟩)] := by
  refine Does.bind (does_createDescriptor false fun e => hA (.inl e)) fun sd l hd => ?_
  have hd' := hd
  obtain ⟨i, v, acl, rfl, ⟨l1, hs, p⟩, hv, ha⟩ := hd'
  refine Does.scope (mine := l) ?_ (frees_done hd)
  rw [List.append_nil]
  refine (does_createPipe agent v acl _ (fun e => hA (.inr e)) hv ha).mono fun q l' e => ?_
  subst e
  refine ⟨[(q, ⟨.handle, []⟩)], ?_, rfl⟩
  exact List.perm_append_comm (l₁ := [(q, (⟨.handle, []⟩ : Block))])

/-- What is left when the debug server ends because it has no pipe: the process ends with it. -/
theorem does_debugServerPipe (hA : env.ownerLarge = false → A) (h : Heap) (hf : Fresh h) :
    match debugServerPipe true env h with
    | .ok r h' => ∃ l, Owns h h' ((r.1, ⟨.handle, []⟩) :: l) ∧ Done r.2 l
    | .throws _ _ => True
    | .wild => False
    | .assertFail => A := by
  have h1 := does_createDescriptor (env := env) (A := A) (h0 := h) true hA h (Owns.start hf)
  simp only [debugServerPipe, if_true, Run.bind]
  cases e : createDescriptor true env h with
  | throws oom h' => simp
  | wild => simp only [e] at h1
  | assertFail => simpa only [e] using h1
  | ok d h' =>
    simp only [e] at h1
    obtain ⟨l, ho, hd⟩ := h1
    have hd' := hd
    obtain ⟨i, v, acl, rfl, ⟨l1, hs, p⟩, hv, ha⟩ := hd'
    simp only [moveDescriptor, destroyDescriptor, Run.ret]
    have h2 := does_createPipe (env := env) (A := A) (h0 := h) false v acl _ (fun e => by cases e) hv ha h' ho
    cases e2 : createPipe false (some v) env h' with
    | throws oom h' => simp
    | wild => simp only [e2] at h2
    | assertFail => simpa only [e2] using h2
    | ok q h2' =>
      simp only [e2] at h2
      obtain ⟨l', ho', rfl⟩ := h2
      exact ⟨l, ho', hd⟩

end Winpty.SecurityMemory
