import Verif.Lemmas.ConsoleKeys
/-!
# The languages the matchers recognise
-/
namespace Winpty.ConsoleInput
open Winpty.Unicode Winpty.InputMap Winpty.Spec

/-- `m` recognises the language `L` (of strings with their values) when what follows satisfies `F`, and
answers "incomplete" only on prefixes of it. -/
structure Parses {α : Type} (F : List Nat → Prop) (m : List Nat → MRes α) (L : α → List Nat → Prop) : Prop where
  ok : ∀ p a r, m p = .ok a r → ∃ u, p = u ++ r ∧ L a u
  inc : ∀ p, m p = .incomplete → ∃ ext a, L a (p ++ ext)
  accept : ∀ a u rest, L a u → F rest → m (u ++ rest) = .ok a rest
  inhab : ∃ a u, L a u

/-- Concatenation. -/
def LBind {α β : Type} (L : α → List Nat → Prop) (L' : α → β → List Nat → Prop) (b : β) (w : List Nat) : Prop :=
  ∃ a u v, w = u ++ v ∧ L a u ∧ L' a b v

theorem Parses.bind {α β : Type} {F F' : List Nat → Prop} {m : List Nat → MRes α} {f : α → List Nat → MRes β}
    {L : α → List Nat → Prop} {L' : α → β → List Nat → Prop} (hm : Parses F m L)
    (hf : ∀ a, Parses F' (f a) (L' a)) (hF : ∀ a b v rest, L' a b v → F (v ++ rest)) :
    Parses F' (fun p => (m p).bind f) (LBind L L') := by
  constructor
  · intro p b r h
    cases h' : m p with
    | ok a r' =>
      simp only [h', MRes.bind] at h
      obtain ⟨u, e1, h1⟩ := hm.ok p a r' h'
      obtain ⟨v, e2, h2⟩ := (hf a).ok r' b r h
      exact ⟨u ++ v, by rw [e1, e2, List.append_assoc], a, u, v, rfl, h1, h2⟩
    | _ => simp [h', MRes.bind] at h
  · intro p h
    cases h' : m p with
    | ok a r' =>
      simp only [h', MRes.bind] at h
      obtain ⟨u, e1, h1⟩ := hm.ok p a r' h'
      obtain ⟨ext, b, h2⟩ := (hf a).inc r' h
      exact ⟨ext, b, a, u, r' ++ ext, by rw [e1, List.append_assoc], h1, h2⟩
    | incomplete =>
      obtain ⟨ext, a, h1⟩ := hm.inc p h'
      obtain ⟨b, v, h2⟩ := (hf a).inhab
      exact ⟨ext ++ v, b, a, p ++ ext, v, by rw [List.append_assoc], h1, h2⟩
    | _ => simp [h', MRes.bind] at h
  · intro b w rest ⟨a, u, v, e, h1, h2⟩ hr
    subst e
    simp only [List.append_assoc]
    rw [hm.accept a u (v ++ rest) h1 (hF a b v rest h2)]
    exact (hf a).accept b v rest h2 hr
  · obtain ⟨a, u, h1⟩ := hm.inhab
    obtain ⟨b, v, h2⟩ := (hf a).inhab
    exact ⟨b, u ++ v, a, u, v, rfl, h1, h2⟩

theorem Parses.map {α β : Type} {F : List Nat → Prop} {m : List Nat → MRes α} {L : α → List Nat → Prop}
    (g : α → β) (hm : Parses F m L) :
    Parses F (fun p => (m p).bind fun a r => .ok (g a) r) (fun b u => ∃ a, L a u ∧ b = g a) := by
  constructor
  · intro p b r h
    cases h' : m p with
    | ok a r' =>
      simp only [h', MRes.bind, MRes.ok.injEq] at h
      obtain ⟨u, e1, h1⟩ := hm.ok p a r' h'
      exact ⟨u, by rw [e1, h.2], a, h1, h.1.symm⟩
    | _ => simp [h', MRes.bind] at h
  · intro p h
    cases h' : m p with
    | incomplete =>
      obtain ⟨ext, a, h1⟩ := hm.inc p h'
      exact ⟨ext, g a, a, h1, rfl⟩
    | _ => simp [h', MRes.bind] at h
  · intro b u rest ⟨a, h1, e⟩ hr
    subst e
    simp only [hm.accept a u rest h1 hr, MRes.bind]
  · obtain ⟨a, u, h1⟩ := hm.inhab
    exact ⟨g a, u, a, h1, rfl⟩

/-- Something follows. -/
def NonEmpty (rest : List Nat) : Prop := rest ≠ []
/-- Something that is not a digit follows. -/
def NonDigit (rest : List Nat) : Prop := ∃ b r, rest = b :: r ∧ isDigit b = false
/-- Anything may follow. -/
def Any (_ : List Nat) : Prop := True

theorem parses_expect (c : Nat) : Parses NonEmpty (expect c) fun _ u => u = [c] := by
  constructor
  · intro p a r h
    cases p with
    | nil => simp [expect] at h
    | cons b t =>
      simp only [expect] at h
      split at h
      · split at h
        · simp at h
        · rename_i e _
          simp only [MRes.ok.injEq, true_and] at h
          exact ⟨[c], by rw [e, h]; rfl, rfl⟩
      · simp at h
  · intro p h
    cases p with
    | nil => simp [expect] at h
    | cons b t =>
      simp only [expect] at h
      split at h
      · rename_i e
        split at h
        · rename_i e'; exact ⟨[], (), by simp [e, e']⟩
        · simp at h
      · simp at h
  · intro a u rest e hr
    subst e
    cases rest with
    | nil => exact absurd rfl hr
    | cons b t => simp [expect]
  · exact ⟨(), [c], rfl⟩

theorem parses_final (c : Nat) : Parses Any (final c) fun _ u => u = [c] := by
  constructor
  · intro p a r h
    cases p with
    | nil => simp [final] at h
    | cons b t =>
      simp only [final] at h
      split at h
      · rename_i e
        simp only [MRes.ok.injEq, true_and] at h
        exact ⟨[c], by rw [e, h]; rfl, rfl⟩
      · simp at h
  · intro p h
    cases p with
    | nil => simp [final] at h
    | cons b t => simp only [final] at h; split at h <;> simp at h
  · intro a u rest e _
    subst e
    simp [final]
  · exact ⟨(), [c], rfl⟩

theorem parses_byteAdvance : Parses NonEmpty byteAdvance fun b u => u = [b] := by
  constructor
  · intro p a r h
    cases p with
    | nil => simp [byteAdvance] at h
    | cons b t =>
      simp only [byteAdvance] at h
      split at h
      · simp at h
      · simp only [MRes.ok.injEq] at h
        exact ⟨[b], by rw [h.2]; rfl, by rw [h.1]⟩
  · intro p h
    cases p with
    | nil => simp [byteAdvance] at h
    | cons b t =>
      simp only [byteAdvance] at h
      split at h
      · rename_i e; exact ⟨[], b, by simp [e]⟩
      · simp at h
  · intro a u rest e hr
    subst e
    cases rest with
    | nil => exact absurd rfl hr
    | cons b t => simp [byteAdvance]
  · exact ⟨0, [0], rfl⟩

theorem parses_byteFinal : Parses Any byteFinal fun b u => u = [b] := by
  constructor
  · intro p a r h
    cases p with
    | nil => simp [byteFinal] at h
    | cons b t =>
      simp only [byteFinal, MRes.ok.injEq] at h
      exact ⟨[b], by rw [h.2]; rfl, by rw [h.1]⟩
  · intro p h
    cases p <;> simp [byteFinal] at h
  · intro a u rest e _
    subst e
    rfl
  · exact ⟨0, [0], rfl⟩

theorem parses_finalMm : Parses Any finalMm fun m u => u = [if m then 109 else 77] := by
  constructor
  · intro p a r h
    cases p with
    | nil => simp [finalMm] at h
    | cons b t =>
      simp only [finalMm] at h
      split at h
      · rename_i e
        simp only [MRes.ok.injEq] at h
        refine ⟨[b], by rw [h.2]; rfl, ?_⟩
        rw [← h.1]
        rcases e with rfl | rfl <;> rfl
      · simp at h
  · intro p h
    cases p with
    | nil => simp [finalMm] at h
    | cons b t => simp only [finalMm] at h; split at h <;> simp at h
  · intro a u rest e _
    subst e
    cases a <;> simp [finalMm]
  · exact ⟨true, [109], rfl⟩

theorem isDigit_iff (b : Nat) : isDigit b = true ↔ 48 ≤ b ∧ b ≤ 57 := by simp [isDigit]

theorem scanIntLoop_eq (maxLen k acc b : Nat) (r : List Nat) :
    scanIntLoop maxLen k acc (b :: r) =
      if k + 1 < maxLen then
        match r with
        | [] => .incomplete
        | b' :: r' =>
          if isDigit b' then scanIntLoop maxLen (k + 1) (acc * 10 + (b - 48)) (b' :: r')
          else .ok (acc * 10 + (b - 48)) (b' :: r')
      else .noMatch := by
  cases r <;> simp [scanIntLoop]

theorem scanIntLoop_ok (maxLen k acc : Nat) (p : List Nat) (a : Nat) (r : List Nat)
    (hd : ∀ b t, p = b :: t → isDigit b = true) (h : scanIntLoop maxLen k acc p = .ok a r) :
    ∃ ds, p = ds ++ r ∧ ds ≠ [] ∧ k + ds.length < maxLen ∧ (∀ d ∈ ds, isDigit d = true) ∧
      a = ds.foldl (fun n d => n * 10 + (d - 48)) acc := by
  induction p generalizing k acc with
  | nil => simp [scanIntLoop] at h
  | cons b t ih =>
    have hb := hd b t rfl
    rw [scanIntLoop_eq] at h
    split at h
    · rename_i hk
      cases t with
      | nil => simp at h
      | cons b' t' =>
        simp only at h
        split at h
        · rename_i hb'
          obtain ⟨ds, e1, e2, e3, e4, e5⟩ := ih (k + 1) (acc * 10 + (b - 48))
            (by intro x y e; cases e; exact hb') h
          refine ⟨b :: ds, by rw [e1]; rfl, by simp, by simp; omega, ?_, by rw [e5]; rfl⟩
          intro d hm
          rcases List.mem_cons.1 hm with rfl | hm
          · exact hb
          · exact e4 d hm
        · simp only [MRes.ok.injEq] at h
          refine ⟨[b], by rw [← h.2]; rfl, by simp, by simpa using hk, by simpa using hb, by rw [← h.1]; rfl⟩
    · simp at h

theorem scanIntLoop_inc (maxLen k acc : Nat) (p : List Nat)
    (hd : ∀ b t, p = b :: t → isDigit b = true) (h : scanIntLoop maxLen k acc p = .incomplete) :
    p ≠ [] ∧ k + p.length < maxLen ∧ ∀ d ∈ p, isDigit d = true := by
  induction p generalizing k acc with
  | nil => simp [scanIntLoop] at h
  | cons b t ih =>
    have hb := hd b t rfl
    rw [scanIntLoop_eq] at h
    split at h
    · rename_i hk
      cases t with
      | nil => exact ⟨by simp, by simpa using hk, by simpa using hb⟩
      | cons b' t' =>
        simp only at h
        split at h
        · rename_i hb'
          obtain ⟨_, e3, e4⟩ := ih (k + 1) (acc * 10 + (b - 48)) (by intro x y e; cases e; exact hb') h
          refine ⟨by simp, by simp at e3 ⊢; omega, ?_⟩
          intro d hm
          rcases List.mem_cons.1 hm with rfl | hm
          · exact hb
          · exact e4 d hm
        · simp at h
    · simp at h

theorem scanIntLoop_accept (maxLen k acc : Nat) (ds : List Nat) (h0 : ds ≠ []) (hl : k + ds.length < maxLen)
    (hd : ∀ d ∈ ds, isDigit d = true) (b : Nat) (r : List Nat) (hb : isDigit b = false) :
    scanIntLoop maxLen k acc (ds ++ b :: r) = .ok (ds.foldl (fun n d => n * 10 + (d - 48)) acc) (b :: r) := by
  induction ds generalizing k acc with
  | nil => exact absurd rfl h0
  | cons d ds ih =>
    have hk : k + 1 < maxLen := by simp at hl; omega
    cases ds with
    | nil => simp [scanIntLoop, hk, hb]
    | cons d' ds' =>
      have hd' := hd d' (by simp)
      have := ih (k + 1) (acc * 10 + (d - 48)) (by simp) (by simp at hl ⊢; omega)
        (fun x hx => hd x (List.mem_cons_of_mem _ hx))
      rw [List.cons_append, List.cons_append, scanIntLoop, if_pos hk]
      simp only [hd', ↓reduceIte]
      exact this

theorem isDigits_iff (ds : List Nat) : IsDigits ds ↔ ds ≠ [] ∧ ds.length < 8 ∧ ∀ d ∈ ds, isDigit d = true := by
  unfold IsDigits
  simp only [isDigit_iff]
  constructor
  · rintro ⟨h1, h2, h3⟩; exact ⟨h1, by omega, h3⟩
  · rintro ⟨h1, h2, h3⟩; exact ⟨h1, by omega, h3⟩

theorem parses_int : Parses NonDigit (scanInt 8) fun n u => IsDigits u ∧ n = digitsValue u := by
  have hd : ∀ {b : Nat} {t : List Nat}, isDigit b = true → ∀ x y, b :: t = x :: y → isDigit x = true := by
    intro b t h x y e; cases e; exact h
  constructor
  · intro p a r h
    cases p with
    | nil => simp [scanInt] at h
    | cons b t =>
      simp only [scanInt] at h
      split at h
      · rename_i hb
        obtain ⟨ds, e1, e2, e3, e4, e5⟩ := scanIntLoop_ok 8 0 0 _ a r (hd hb) h
        exact ⟨ds, e1, (isDigits_iff ds).2 ⟨e2, by omega, e4⟩, e5⟩
      · simp at h
  · intro p h
    cases p with
    | nil => simp [scanInt] at h
    | cons b t =>
      simp only [scanInt] at h
      split at h
      · rename_i hb
        obtain ⟨e2, e3, e4⟩ := scanIntLoop_inc 8 0 0 _ (hd hb) h
        exact ⟨[], _, by rw [List.append_nil]; exact ⟨(isDigits_iff _).2 ⟨e2, by omega, e4⟩, rfl⟩⟩
      · simp at h
  · intro a u rest ⟨h1, h2⟩ ⟨b, r, e, hb⟩
    obtain ⟨e1, e2, e3⟩ := (isDigits_iff u).1 h1
    subst e
    have := scanIntLoop_accept 8 0 0 u e1 (by omega) e3 b r hb
    cases u with
    | nil => exact absurd rfl e1
    | cons d u =>
      rw [List.cons_append, scanInt, if_pos (e3 d (by simp)), h2]
      exact this
  · exact ⟨_, [48], ⟨by simp, by simp, by simp⟩, rfl⟩

theorem digits_not_minus {ds : List Nat} (h : IsDigits ds) : ∃ d t, ds = d :: t ∧ d ≠ 45 := by
  cases ds with
  | nil => exact absurd rfl h.1
  | cons d t => exact ⟨d, t, rfl, by have := h.2.2 d (by simp); omega⟩

theorem signedValue_digits {ds : List Nat} (h : IsDigits ds) : signedValue ds = (digitsValue ds : Int) := by
  obtain ⟨d, t, rfl, hd⟩ := digits_not_minus h
  unfold signedValue
  split
  · rename_i e; simp at e; exact absurd e.1 hd
  · rfl

theorem parses_signed : Parses NonDigit (scanSignedInt 8) fun n u => IsSigned u ∧ n = signedValue u := by
  constructor
  · intro p a r h
    cases p with
    | nil => simp [scanSignedInt] at h
    | cons b t =>
      simp only [scanSignedInt] at h
      split at h
      · rename_i hb
        split at h
        · simp at h
        · cases hs : scanInt 8 t with
          | ok n r' =>
            simp only [hs, MRes.bind, MRes.ok.injEq] at h
            obtain ⟨u, e1, h1, h2⟩ := parses_int.ok _ _ _ hs
            exact ⟨45 :: u, by rw [hb, e1, h.2]; rfl, .inr ⟨u, rfl, h1⟩, by rw [← h.1, h2]; rfl⟩
          | _ => simp [hs, MRes.bind] at h
      · cases hs : scanInt 8 (b :: t) with
        | ok n r' =>
          simp only [hs, MRes.bind, MRes.ok.injEq] at h
          obtain ⟨u, e1, h1, h2⟩ := parses_int.ok _ _ _ hs
          exact ⟨u, by rw [e1, h.2], .inl h1, by rw [← h.1, h2, signedValue_digits h1]⟩
        | _ => simp [hs, MRes.bind] at h
  · intro p h
    cases p with
    | nil => simp [scanSignedInt] at h
    | cons b t =>
      simp only [scanSignedInt] at h
      split at h
      · rename_i hb
        split at h
        · rename_i ht
          exact ⟨[48], _, .inr ⟨[48], by rw [hb, ht]; rfl, by simp, by simp, by simp⟩, rfl⟩
        · cases hs : scanInt 8 t with
          | incomplete =>
            obtain ⟨ext, n, h1, h2⟩ := parses_int.inc _ hs
            exact ⟨ext, _, .inr ⟨t ++ ext, by rw [hb]; rfl, h1⟩, rfl⟩
          | _ => simp [hs, MRes.bind] at h
      · cases hs : scanInt 8 (b :: t) with
        | incomplete =>
          obtain ⟨ext, n, h1, h2⟩ := parses_int.inc _ hs
          exact ⟨ext, _, .inl h1, rfl⟩
        | _ => simp [hs, MRes.bind] at h
  · intro a u rest ⟨h1, h2⟩ hr
    rcases h1 with h1 | ⟨ds, e, h1⟩
    · obtain ⟨d, t, e, hd⟩ := digits_not_minus h1
      have := parses_int.accept _ u rest ⟨h1, rfl⟩ hr
      rw [signedValue_digits h1] at h2
      subst e
      rw [List.cons_append] at this ⊢
      rw [scanSignedInt, if_neg hd, this, h2]
      rfl
    · have := parses_int.accept _ ds rest ⟨h1, rfl⟩ hr
      subst e
      have hne : ds ++ rest ≠ [] := by
        intro h0; exact h1.1 (List.append_eq_nil_iff.1 h0).1
      rw [List.cons_append, scanSignedInt, if_pos rfl, if_neg hne, this, h2]
      rfl
  · exact ⟨_, [48], .inl ⟨by simp, by simp, by simp⟩, rfl⟩

theorem nonEmpty_cons (b : Nat) (r : List Nat) : NonEmpty (b :: r) := by simp [NonEmpty]
theorem nonDigit_cons (b : Nat) (r : List Nat) (h : isDigit b = false) : NonDigit (b :: r) := ⟨b, r, rfl, h⟩

theorem digits_nonEmpty {u : List Nat} (h : IsDigits u) (rest : List Nat) : NonEmpty (u ++ rest) := by
  intro h0; exact h.1 (List.append_eq_nil_iff.1 h0).1

theorem signed_nonEmpty {u : List Nat} (h : IsSigned u) (rest : List Nat) : NonEmpty (u ++ rest) := by
  rcases h with h | ⟨ds, rfl, _⟩
  · exact digits_nonEmpty h rest
  · exact nonEmpty_cons _ _

/-- `matchDsr` recognises exactly the cursor position reports. -/
theorem parses_dsr : Parses Any matchDsr fun _ u => IsReport u := by
  have h6 := parses_final 82
  have h5 := Parses.bind parses_int (fun _ => h6) (L' := fun _ _ u => u = [82])
    (fun _ _ v rest e => by subst e; exact nonDigit_cons _ _ (by decide))
  have h4 := Parses.bind (parses_expect 59) (fun _ => h5) (L' := fun _ => _)
    (fun _ _ v rest ⟨_, u, w, e, h, _⟩ => by subst e; rw [List.append_assoc]; exact digits_nonEmpty h.1 _)
  have h3 := Parses.bind parses_int (fun _ => h4) (L' := fun _ => _)
    (fun _ _ v rest ⟨_, u, w, e, h, _⟩ => by subst e; subst h; exact nonDigit_cons _ _ (by decide))
  have h2 := Parses.bind (parses_expect 91) (fun _ => h3) (L' := fun _ => _)
    (fun _ _ v rest ⟨_, u, w, e, h, _⟩ => by subst e; rw [List.append_assoc]; exact digits_nonEmpty h.1 _)
  have h1 := Parses.bind (parses_expect 0x1B) (fun _ => h2) (L' := fun _ => _)
    (fun _ _ v rest ⟨_, u, w, e, h, _⟩ => by subst e; subst h; exact nonEmpty_cons _ _)
  have e : (fun (_ : Unit) u => IsReport u) = LBind (fun (_ : Unit) u => u = [27]) (fun _ => LBind (fun (_ : Unit) u => u = [91])
      (fun _ => LBind (fun n u => IsDigits u ∧ n = digitsValue u) (fun _ => LBind (fun (_ : Unit) u => u = [59])
      (fun _ => LBind (fun n u => IsDigits u ∧ n = digitsValue u) (fun _ (_ : Unit) u => u = [82]))))) := by
    funext _ w
    apply propext
    constructor
    · rintro ⟨row, col, hr, hc, rfl⟩
      exact ⟨(), [27], _, by simp, rfl, (), [91], _, rfl, rfl, _, row, _, rfl, ⟨hr, rfl⟩, (), [59], _, rfl, rfl,
        _, col, [82], rfl, ⟨hc, rfl⟩, rfl⟩
    · rintro ⟨_, _, _, rfl, rfl, _, _, _, rfl, rfl, _, row, _, rfl, ⟨hr, _⟩, _, _, _, rfl, rfl, _, col, _, rfl, ⟨hc, _⟩, rfl⟩
      exact ⟨row, col, hr, hc, by simp⟩
  rw [e]
  exact h1


/-! ## Mouse reports -/

theorem toShort_eq (i : Int) : toShort i = short i := by
  unfold toShort short Winpty.Buffer.toSigned Winpty.Buffer.toUnsigned
  split <;> omega

abbrev LLit (c : Nat) (_ : Unit) (u : List Nat) : Prop := u = [c]
abbrev LInt (n : Nat) (u : List Nat) : Prop := IsDigits u ∧ n = digitsValue u
abbrev LSigned (n : Int) (u : List Nat) : Prop := IsSigned u ∧ n = signedValue u

theorem lit_nonDigit {α : Type} {c : Nat} (hc : isDigit c = false) {L : Unit → α → List Nat → Prop}
    (b : α) (v rest : List Nat) (h : LBind (LLit c) L b v) : NonDigit (v ++ rest) := by
  obtain ⟨_, u, w, e, h, _⟩ := h
  subst e; subst h
  exact nonDigit_cons _ _ hc

theorem lit_nonEmpty {α : Type} {c : Nat} {L : Unit → α → List Nat → Prop}
    (b : α) (v rest : List Nat) (h : LBind (LLit c) L b v) : NonEmpty (v ++ rest) := by
  obtain ⟨_, u, w, e, h, _⟩ := h
  subst e; subst h
  exact nonEmpty_cons _ _

theorem int_nonEmpty {α : Type} {L : Nat → α → List Nat → Prop}
    (b : α) (v rest : List Nat) (h : LBind LInt L b v) : NonEmpty (v ++ rest) := by
  obtain ⟨_, u, w, e, h, _⟩ := h
  subst e; rw [List.append_assoc]
  exact digits_nonEmpty h.1 _

theorem sgn_nonEmpty {α : Type} {L : Int → α → List Nat → Prop}
    (b : α) (v rest : List Nat) (h : LBind LSigned L b v) : NonEmpty (v ++ rest) := by
  obtain ⟨_, u, w, e, h, _⟩ := h
  subst e; rw [List.append_assoc]
  exact signed_nonEmpty h.1 _

theorem parses_1006 : Parses Any matchMouse1006
    (LBind (LLit 27) fun _ => LBind (LLit 91) fun _ => LBind (LLit 60) fun _ => LBind LInt fun f =>
      LBind (LLit 59) fun _ => LBind LSigned fun x => LBind (LLit 59) fun _ => LBind LSigned fun y =>
      fun r u => ∃ m : Bool, u = [if m then 109 else 77] ∧ r = ⟨m, (f : Int), toShort (x - 1), toShort (y - 1)⟩) := by
  refine (parses_expect 27).bind (fun _ => ?_) (fun _ => lit_nonEmpty)
  refine (parses_expect 91).bind (fun _ => ?_) (fun _ => lit_nonEmpty)
  refine (parses_expect 60).bind (fun _ => ?_) (fun _ => int_nonEmpty)
  refine parses_int.bind (fun f => ?_) (fun _ => lit_nonDigit (by decide))
  refine (parses_expect 59).bind (fun _ => ?_) (fun _ => sgn_nonEmpty)
  refine parses_signed.bind (fun x => ?_) (fun _ => lit_nonDigit (by decide))
  refine (parses_expect 59).bind (fun _ => ?_) (fun _ => sgn_nonEmpty)
  refine parses_signed.bind (fun y => ?_) ?_
  · exact parses_finalMm.map _
  · rintro _ _ v rest ⟨m, rfl, _⟩
    cases m <;> exact nonDigit_cons _ _ (by decide)

theorem parses_1015 : Parses Any matchMouse1015
    (LBind (LLit 27) fun _ => LBind (LLit 91) fun _ => LBind LInt fun f =>
      LBind (LLit 59) fun _ => LBind LSigned fun x => LBind (LLit 59) fun _ => LBind LSigned fun y =>
      fun r u => ∃ _ : Unit, u = [77] ∧ r = ⟨false, (f : Int) - 32, toShort (x - 1), toShort (y - 1)⟩) := by
  refine (parses_expect 27).bind (fun _ => ?_) (fun _ => lit_nonEmpty)
  refine (parses_expect 91).bind (fun _ => ?_) (fun _ => int_nonEmpty)
  refine parses_int.bind (fun f => ?_) (fun _ => lit_nonDigit (by decide))
  refine (parses_expect 59).bind (fun _ => ?_) (fun _ => sgn_nonEmpty)
  refine parses_signed.bind (fun x => ?_) (fun _ => lit_nonDigit (by decide))
  refine (parses_expect 59).bind (fun _ => ?_) (fun _ => sgn_nonEmpty)
  refine parses_signed.bind (fun y => ?_) ?_
  · exact (parses_final 77).map _
  · rintro _ _ v rest ⟨m, rfl, _⟩
    exact nonDigit_cons _ _ (by decide)

theorem parses_default : Parses Any matchMouseDefault
    (LBind (LLit 27) fun _ => LBind (LLit 91) fun _ => LBind (LLit 77) fun _ => LBind (fun b u => u = [b]) fun f =>
      LBind (fun b u => u = [b]) fun x => fun r u => ∃ y : Nat, u = [y] ∧
        r = ⟨false, ((f + 256 - 32) % 256 : Nat), ((x + 256 - 33) % 256 : Nat), ((y + 256 - 33) % 256 : Nat)⟩) := by
  refine (parses_expect 27).bind (fun _ => ?_) (fun _ => lit_nonEmpty)
  refine (parses_expect 91).bind (fun _ => ?_) (fun _ => lit_nonEmpty)
  refine (parses_expect 77).bind (fun _ => ?_) ?_
  · refine parses_byteAdvance.bind (fun f => ?_) ?_
    · refine parses_byteAdvance.bind (fun x => ?_) ?_
      · exact parses_byteFinal.map _
      · rintro _ _ v rest ⟨y, rfl, _⟩
        exact nonEmpty_cons _ _
    · rintro _ _ v rest ⟨_, _, _, rfl, rfl, _⟩
      exact nonEmpty_cons _ _
  · rintro _ _ v rest ⟨_, _, _, rfl, rfl, _⟩
    exact nonEmpty_cons _ _

theorem lang_1006 {r : MouseRecord} {u : List Nat} (h : (LBind (LLit 27) fun _ => LBind (LLit 91) fun _ => LBind (LLit 60) fun _ => LBind LInt fun f =>
      LBind (LLit 59) fun _ => LBind LSigned fun x => LBind (LLit 59) fun _ => LBind LSigned fun y =>
      fun r u => ∃ m : Bool, u = [if m then 109 else 77] ∧ r = ⟨m, (f : Int), toShort (x - 1), toShort (y - 1)⟩) r u) :
    MouseReport u r := by
  obtain ⟨_, _, _, rfl, rfl, _, _, _, rfl, rfl, _, _, _, rfl, rfl, _, f, _, rfl, ⟨hf, rfl⟩, _, _, _, rfl, rfl,
    _, x, _, rfl, ⟨hx, rfl⟩, _, _, _, rfl, rfl, _, y, _, rfl, ⟨hy, rfl⟩, m, rfl, rfl⟩ := h
  rw [toShort_eq, toShort_eq]
  have := MouseReport.sgr f x y m hf hx hy
  simpa using this

theorem lang_1015 {r : MouseRecord} {u : List Nat} (h : (LBind (LLit 27) fun _ => LBind (LLit 91) fun _ => LBind LInt fun f =>
      LBind (LLit 59) fun _ => LBind LSigned fun x => LBind (LLit 59) fun _ => LBind LSigned fun y =>
      fun r u => ∃ _ : Unit, u = [77] ∧ r = ⟨false, (f : Int) - 32, toShort (x - 1), toShort (y - 1)⟩) r u) :
    MouseReport u r := by
  obtain ⟨_, _, _, rfl, rfl, _, _, _, rfl, rfl, _, f, _, rfl, ⟨hf, rfl⟩, _, _, _, rfl, rfl,
    _, x, _, rfl, ⟨hx, rfl⟩, _, _, _, rfl, rfl, _, y, _, rfl, ⟨hy, rfl⟩, m, rfl, rfl⟩ := h
  rw [toShort_eq, toShort_eq]
  have := MouseReport.urxvt f x y hf hx hy
  simpa using this

theorem lang_default {r : MouseRecord} {u : List Nat} (h : (LBind (LLit 27) fun _ => LBind (LLit 91) fun _ => LBind (LLit 77) fun _ => LBind (fun b u => u = [b]) fun f =>
      LBind (fun b u => u = [b]) fun x => fun r u => ∃ y : Nat, u = [y] ∧
        r = ⟨false, ((f + 256 - 32) % 256 : Nat), ((x + 256 - 33) % 256 : Nat), ((y + 256 - 33) % 256 : Nat)⟩) r u) :
    MouseReport u r := by
  obtain ⟨_, _, _, rfl, rfl, _, _, _, rfl, rfl, _, _, _, rfl, rfl, f, _, _, rfl, rfl, x, _, _, rfl, rfl, y, rfl, rfl⟩ := h
  have := MouseReport.original f x y
  have e : ∀ n k : Nat, k ≤ 256 → (((n + 256 - k) % 256 : Nat) : Int) = ((n : Int) - k) % 256 := by intros; omega
  rw [e _ 32 (by omega), e _ 33 (by omega), e _ 33 (by omega)]
  exact this

theorem mouse_ok {p : List Nat} {r : MouseRecord} {rest : List Nat} (h : matchMouseRecord p = .ok r rest) :
    ∃ u, p = u ++ rest ∧ MouseReport u r := by
  unfold matchMouseRecord at h
  split at h
  · split at h
    · obtain ⟨u, e, hl⟩ := parses_default.ok _ _ _ h
      exact ⟨u, e, lang_default hl⟩
    · obtain ⟨u, e, hl⟩ := parses_1015.ok _ _ _ h
      exact ⟨u, e, lang_1015 hl⟩
  · obtain ⟨u, e, hl⟩ := parses_1006.ok _ _ _ h
    exact ⟨u, e, lang_1006 hl⟩

theorem mouse_inc {p : List Nat} (h : matchMouseRecord p = .incomplete) :
    ∃ ext r, MouseReport (p ++ ext) r := by
  unfold matchMouseRecord at h
  split at h
  · split at h
    · obtain ⟨ext, r, hl⟩ := parses_default.inc _ h
      exact ⟨ext, r, lang_default hl⟩
    · obtain ⟨ext, r, hl⟩ := parses_1015.inc _ h
      exact ⟨ext, r, lang_1015 hl⟩
  · obtain ⟨ext, r, hl⟩ := parses_1006.inc _ h
    exact ⟨ext, r, lang_1006 hl⟩

theorem no_1006 (b : Nat) (r : List Nat) (h : b ≠ 60) : matchMouse1006 (27 :: 91 :: b :: r) = .noMatch := by
  simp [matchMouse1006, expect, MRes.bind, h]

theorem no_1015 (b : Nat) (r : List Nat) (h : isDigit b = false) : matchMouse1015 (27 :: 91 :: b :: r) = .noMatch := by
  simp [matchMouse1015, expect, MRes.bind, scanInt, h]

theorem mouse_accept {u : List Nat} {r : MouseRecord} (h : MouseReport u r) (rest : List Nat) :
    matchMouseRecord (u ++ rest) = .ok r rest := by
  cases h with
  | sgr f x y m hf hx hy =>
    have hl := parses_1006.accept ⟨m, (digitsValue f : Int), toShort (signedValue x - 1), toShort (signedValue y - 1)⟩
      ([27] ++ ([91] ++ ([60] ++ (f ++ ([59] ++ (x ++ ([59] ++ (y ++ [if m then 109 else 77])))))))) rest
      ⟨(), [27], _, rfl, rfl, (), [91], _, rfl, rfl, (), [60], _, rfl, rfl, _, f, _, rfl, ⟨hf, rfl⟩, (), [59], _, rfl, rfl,
        _, x, _, rfl, ⟨hx, rfl⟩, (), [59], _, rfl, rfl, _, y, _, rfl, ⟨hy, rfl⟩, m, rfl, rfl⟩ trivial
    rw [toShort_eq, toShort_eq] at hl
    unfold matchMouseRecord
    simp only [List.append_assoc] at hl ⊢
    have e : ∀ t : List Nat, [27] ++ ([91] ++ ([60] ++ t)) = [27, 91, 60] ++ t := fun t => rfl
    rw [e] at hl
    rw [hl]
  | urxvt f x y hf hx hy =>
    have hl := parses_1015.accept ⟨false, (digitsValue f : Int) - 32, toShort (signedValue x - 1), toShort (signedValue y - 1)⟩
      ([27] ++ ([91] ++ (f ++ ([59] ++ (x ++ ([59] ++ (y ++ [77]))))))) rest
      ⟨(), [27], _, rfl, rfl, (), [91], _, rfl, rfl, _, f, _, rfl, ⟨hf, rfl⟩, (), [59], _, rfl, rfl,
        _, x, _, rfl, ⟨hx, rfl⟩, (), [59], _, rfl, rfl, _, y, _, rfl, ⟨hy, rfl⟩, (), rfl, rfl⟩ trivial
    rw [toShort_eq, toShort_eq] at hl
    unfold matchMouseRecord
    simp only [List.append_assoc] at hl ⊢
    have e : ∀ t : List Nat, [27] ++ ([91] ++ t) = [27, 91] ++ t := fun t => rfl
    rw [e] at hl
    have h0 : matchMouse1006 ([27, 91] ++ (f ++ ([59] ++ (x ++ ([59] ++ (y ++ ([77] ++ rest))))))) = .noMatch := by
      obtain ⟨d, t, rfl, _⟩ := digits_not_minus hf
      exact no_1006 _ _ (by have := hf.2.2 d (by simp); omega)
    rw [h0, hl]
  | original f x y =>
    have hl := parses_default.accept ⟨false, ((f + 256 - 32) % 256 : Nat), ((x + 256 - 33) % 256 : Nat), ((y + 256 - 33) % 256 : Nat)⟩
      ([27] ++ ([91] ++ ([77] ++ ([f] ++ ([x] ++ [y]))))) rest
      ⟨(), [27], _, rfl, rfl, (), [91], _, rfl, rfl, (), [77], _, rfl, rfl, f, [f], _, rfl, rfl, x, [x], _, rfl, rfl,
        y, rfl, rfl⟩ trivial
    have e : ∀ n k : Nat, k ≤ 256 → (((n + 256 - k) % 256 : Nat) : Int) = ((n : Int) - k) % 256 := by intros; omega
    rw [e _ 32 (by omega), e _ 33 (by omega), e _ 33 (by omega)] at hl
    unfold matchMouseRecord
    simp only [List.cons_append, List.nil_append] at hl ⊢
    rw [no_1006 _ _ (by omega), no_1015 _ _ (by decide)]
    exact hl

/-- A mouse report is not a cursor position report. -/
theorem mouse_no_dsr {u : List Nat} {r : MouseRecord} (h : MouseReport u r) (rest : List Nat) :
    matchDsr (u ++ rest) = .noMatch := by
  cases h with
  | sgr f x y m hf hx hy => simp [matchDsr, expect, MRes.bind, scanInt, isDigit]
  | original f x y => simp [matchDsr, expect, MRes.bind, scanInt, isDigit]
  | urxvt f x y hf hx hy =>
    have h1 := parses_int.accept _ f ([59] ++ (x ++ ([59] ++ (y ++ ([77] ++ rest))))) ⟨hf, rfl⟩ (nonDigit_cons _ _ (by decide))
    have hne : f ++ ([59] ++ (x ++ ([59] ++ (y ++ ([77] ++ rest))))) ≠ [] := digits_nonEmpty hf _
    have hne2 : x ++ ([59] ++ (y ++ ([77] ++ rest))) ≠ [] := signed_nonEmpty hx _
    simp only [List.append_assoc, matchDsr, List.cons_append, List.nil_append, expect, ↓reduceIte, MRes.bind,
      List.cons_ne_nil] at h1 hne hne2 ⊢
    rw [if_neg hne]
    simp only [h1, expect, ↓reduceIte, hne2]
    rcases hx with hx | ⟨ds, rfl, hds⟩
    · have h2 := parses_int.accept _ x ([59] ++ (y ++ ([77] ++ rest))) ⟨hx, rfl⟩ (nonDigit_cons _ _ (by decide))
      simp only [List.cons_append, List.nil_append] at h2
      simp [h2, final]
    · simp [scanInt, isDigit]

end Winpty.ConsoleInput
