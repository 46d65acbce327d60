import Verif.Model.TraceSend
import Verif.Spec.TraceSend

/-! Lemmas about sending trace messages (C88). -/

namespace Winpty.TraceSend

open Winpty.Spec.TraceSend

/-! ## The invariant -/

/-- The server and the pipe. -/
def Shape : Srv → Pipe → Prop
  | .stopped, .gone => True
  | .first, .listening => True
  | .first, .connected _ _ false _ => True
  | .again, .disconnected => True
  | .connecting, .listening => True
  | .connecting, .connected _ _ false _ => True
  | .reading, .connected _ _ false _ => True
  | .printing _, .connected _ none false _ => True
  | .replying, .connected _ none false _ => True
  | .disconnecting, .connected _ none _ _ => True
  | _, _ => False

/-- A call and what is printed for it. -/
def CallOk (c : Call) (p : List (List Nat)) : Prop :=
  match c.pc with
  | .opening => p = [] ∧ c.opened = 0 ∧ c.closed = 0
  | .waiting => p = [] ∧ c.opened = 0 ∧ c.closed = 0
  | .mode => p = [] ∧ c.opened = 1 ∧ c.closed = 0
  | .transact _ => p = [] ∧ c.opened = 1 ∧ c.closed = 0
  | .reply => (p = [] ∨ p = [line c.msg]) ∧ c.opened = 1 ∧ c.closed = 0
  | .close d => (p = [] ∨ p = [line c.msg]) ∧ (d = true → p = [line c.msg]) ∧ c.opened = 1 ∧ c.closed = 0
  | .returned d =>
    (p = [] ∨ p = [line c.msg]) ∧ (d = true → p = [line c.msg]) ∧ c.opened = c.closed ∧ c.closed ≤ 1

/-- The server has not read anything from the pipe's client. -/
def Early : Srv → Prop
  | .first => True
  | .connecting => True
  | .reading => True
  | _ => False

/-- What the server does while the client waits for the reply. -/
def ReplyOk (srv : Srv) (request : Option (List Nat)) (replied : Bool) (msg : List Nat) (p : List (List Nat)) : Prop :=
  match srv with
  | .printing b => b = msg ∧ p = []
  | .replying => p = [line msg]
  | .disconnecting => replied = true → p = [line msg]
  | .stopped => False
  | .again => False
  | _ => request = some msg ∧ p = []

/-- The call that the pipe is connected with. -/
def OwnerOk (srv : Srv) (request : Option (List Nat)) (replied isOpen : Bool) (c : Call) (p : List (List Nat)) :
    Prop :=
  match c.pc with
  | .opening => False
  | .waiting => False
  | .mode => isOpen = true ∧ request = none ∧ Early srv
  | .transact _ => isOpen = true ∧ request = none ∧ Early srv
  | .reply => isOpen = true ∧ ReplyOk srv request replied c.msg p
  | .close _ => isOpen = true ∧ request = none ∧ (Early srv ∨ srv = .disconnecting)
  | .returned _ => isOpen = false ∧ request = none ∧ (Early srv ∨ srv = .disconnecting)

structure Inv (s : St) : Prop where
  shape : Shape s.srv s.pipe
  call : ∀ (i : Nat) (c : Call), s.calls[i]? = some c → CallOk c (printedFor s i)
  owner : ∀ (i : Nat) r rep o, s.pipe = .connected i r rep o →
    ∃ c : Call, s.calls[i]? = some c ∧ OwnerOk s.srv r rep o c (printedFor s i)
  range : ∀ p ∈ s.printed, p.1 < s.calls.length

theorem inv_init : Inv St.init :=
  ⟨trivial, by intro i c h; simp [St.init] at h, by intro i r rep o h; simp [St.init] at h,
   by intro p h; simp [St.init] at h⟩

theorem get_lt {s : St} {i : Nat} {c : Call} (h : s.calls[i]? = some c) : i < s.calls.length := by
  rcases Nat.lt_or_ge i s.calls.length with h' | h'
  · exact h'
  · rw [List.getElem?_eq_none h'] at h; cases h

theorem put_get {s : St} {i : Nat} {c c' : Call} (h : s.calls[i]? = some c) (j : Nat) :
    (s.put i c').calls[j]? = if j = i then some c' else s.calls[j]? := by
  have hl := get_lt h
  by_cases hj : j = i
  · subst hj; simp [St.put, hl]
  · simp [St.put, hj, List.getElem?_set, Ne.symm hj]

theorem put_inv {s : St} (h : Inv s) {i : Nat} {c c' : Call} (hi : s.calls[i]? = some c) (p' : Pipe)
    (hs : Shape s.srv p') (hc : CallOk c' (printedFor s i))
    (ho : ∀ k r rep o, p' = .connected k r rep o →
      (k = i → OwnerOk s.srv r rep o c' (printedFor s i)) ∧ (k ≠ i → s.pipe = .connected k r rep o)) :
    Inv { s.put i c' with pipe := p' } := by
  refine ⟨hs, ?_, ?_, ?_⟩
  · intro j d hd
    have hd' : (s.put i c').calls[j]? = some d := hd
    rw [put_get hi] at hd'
    by_cases hj : j = i
    · subst hj; simp only [if_pos] at hd'; cases hd'; exact hc
    · rw [if_neg hj] at hd'; exact h.call j d hd'
  · intro k r rep o hp
    obtain ⟨h1, h2⟩ := ho k r rep o hp
    by_cases hk : k = i
    · subst hk
      exact ⟨c', by show (s.put k c').calls[k]? = _; rw [put_get hi]; simp, h1 rfl⟩
    · obtain ⟨d, hd, hok⟩ := h.owner k r rep o (h2 hk)
      exact ⟨d, by show (s.put i c').calls[k]? = _; rw [put_get hi, if_neg hk]; exact hd, hok⟩
  · intro p hp
    show p.1 < (s.calls.set i c').length
    rw [List.length_set]; exact h.range p hp

theorem put_inv' {s : St} (h : Inv s) {i : Nat} {c c' : Call} (hi : s.calls[i]? = some c)
    (hc : CallOk c' (printedFor s i))
    (ho : ∀ r rep o, s.pipe = .connected i r rep o → OwnerOk s.srv r rep o c (printedFor s i) →
      OwnerOk s.srv r rep o c' (printedFor s i)) : Inv (s.put i c') := by
  refine put_inv h hi s.pipe h.shape hc ?_
  intro k r rep o hp
  refine ⟨?_, fun _ => hp⟩
  intro hk
  subst hk
  obtain ⟨d, hd, hok⟩ := h.owner k r rep o hp
  rw [hi] at hd; cases hd
  exact ho r rep o hp hok

/-! ## The steps keep it -/

theorem inv_opening {s : St} (h : Inv s) {i : Nat} {c : Call} (hi : s.calls[i]? = some c) (hpc : c.pc = .opening)
    (ok : Bool) : Inv (stepOpening s i c ok) := by
  have hc := h.call i c hi
  simp only [CallOk, hpc] at hc
  obtain ⟨hp, ho, hcl⟩ := hc
  have hret : Inv (s.put i { c with pc := .returned false }) := by
    refine put_inv' h hi ?_ ?_
    · simp [CallOk, hp, ho, hcl]
    · intro r rep o _ hok; simp [OwnerOk, hpc] at hok
  have hwait : Inv (s.put i { c with pc := .waiting }) := by
    refine put_inv' h hi ?_ ?_
    · simp [CallOk, hp, ho, hcl]
    · intro r rep o _ hok; simp [OwnerOk, hpc] at hok
  unfold stepOpening
  split
  · exact hret
  · split
    · exact hret
    · exact hwait
    · exact hwait
    · next hl =>
      refine put_inv h hi _ ?_ ?_ ?_
      · have := h.shape
        rw [hl] at this
        cases hs : s.srv <;> simp [hs, Shape] at this ⊢
      · simp [CallOk, hp, ho, hcl]
      · intro k r rep o hk
        cases hk
        refine ⟨fun _ => ?_, fun hne => absurd rfl hne⟩
        have := h.shape
        rw [hl] at this
        cases hs : s.srv <;> simp [hs, Shape, OwnerOk, Early] at this ⊢

theorem inv_waiting {s s' : St} (h : Inv s) {i : Nat} {c : Call} (hi : s.calls[i]? = some c) (hpc : c.pc = .waiting)
    (hstep : stepWaiting s i c = some s') : Inv s' := by
  have hc := h.call i c hi
  simp only [CallOk, hpc] at hc
  obtain ⟨hp, ho, hcl⟩ := hc
  unfold stepWaiting at hstep
  split at hstep
  · cases hstep
    refine put_inv' h hi ?_ ?_
    · simp [CallOk, hp, ho, hcl]
    · intro r rep o _ hok; simp [OwnerOk, hpc] at hok
  · cases hstep
    refine put_inv' h hi ?_ ?_
    · simp [CallOk, hp, ho, hcl]
    · intro r rep o _ hok; simp [OwnerOk, hpc] at hok
  · cases hstep
  · cases hstep

theorem inv_mode {s : St} (h : Inv s) {i : Nat} {c : Call} (hi : s.calls[i]? = some c) (hpc : c.pc = .mode)
    (ok : Bool) : Inv (s.put i { c with pc := .transact ok }) := by
  have hc := h.call i c hi
  simp only [CallOk, hpc] at hc
  obtain ⟨hp, ho, hcl⟩ := hc
  refine put_inv' h hi ?_ ?_
  · simp [CallOk, hp, ho, hcl]
  · intro r rep o _ hok; simpa [OwnerOk, hpc] using hok

theorem inv_transact {s : St} (h : Inv s) {i : Nat} {c : Call} {messages : Bool} (hi : s.calls[i]? = some c)
    (hpc : c.pc = .transact messages) (ok : Bool) : Inv (stepTransact s i c messages ok) := by
  have hc := h.call i c hi
  simp only [CallOk, hpc] at hc
  obtain ⟨hp, ho, hcl⟩ := hc
  have hclose : Inv (s.put i { c with pc := .close false }) := by
    refine put_inv' h hi ?_ ?_
    · simp [CallOk, hp, ho, hcl]
    · intro r rep o _ hok
      simp only [OwnerOk, hpc] at hok
      exact ⟨hok.1, hok.2.1, .inl hok.2.2⟩
  unfold stepTransact
  split
  · split
    · next j replied isOpen heq =>
      split
      · next hj =>
        subst hj
        obtain ⟨d, hd, hok⟩ := h.owner _ _ _ _ heq
        rw [hi] at hd; cases hd
        simp only [OwnerOk, hpc] at hok
        refine put_inv h hi _ ?_ ?_ ?_
        · have := h.shape
          rw [heq] at this
          have he := hok.2.2
          cases hs : s.srv <;> cases replied <;> simp [hs, Shape, Early] at this he ⊢
        · simp [CallOk, hp, ho, hcl]
        · intro k r rep o hk
          cases hk
          refine ⟨fun _ => ?_, fun hne => absurd rfl hne⟩
          have he := hok.2.2
          refine ⟨hok.1, ?_⟩
          cases hs : s.srv <;> simp [hs, Early] at he <;> simp [ReplyOk, hp]
      · exact hclose
    · exact hclose
  · exact hclose

theorem inv_reply {s s' : St} (h : Inv s) {i : Nat} {c : Call} (hi : s.calls[i]? = some c) (hpc : c.pc = .reply)
    (hstep : stepReply s i c = some s') : Inv s' := by
  have hc := h.call i c hi
  simp only [CallOk, hpc] at hc
  obtain ⟨hp, ho, hcl⟩ := hc
  have hclose : (∀ r rep o, s.pipe ≠ .connected i r rep o) → Inv (s.put i { c with pc := .close false }) := by
    intro hn
    refine put_inv' h hi ?_ ?_
    · simp [CallOk, hp, ho, hcl]
    · intro r rep o hh; exact absurd hh (hn r rep o)
  unfold stepReply at hstep
  split at hstep
  · next j req replied isOpen heq =>
    split at hstep
    · next hj =>
      subst hj
      split at hstep
      · next hr =>
        cases hstep
        obtain ⟨d, hd, hok⟩ := h.owner _ _ _ _ heq
        rw [hi] at hd; cases hd
        simp only [OwnerOk, hpc] at hok
        have hsh := h.shape
        rw [heq, hr] at hsh
        have hs : s.srv = .disconnecting := by cases hs : s.srv <;> simp [hs, Shape] at hsh ⊢
        have hreq : req = none := by
          rw [hs] at hsh
          cases req with
          | none => rfl
          | some m => simp [Shape] at hsh
        have hpr : printedFor s j = [line c.msg] := by
          have := hok.2
          rw [hs] at this
          exact this hr
        refine put_inv' h hi ?_ ?_
        · simp [CallOk, hpr, ho, hcl]
        · intro r rep o hh _
          rw [heq] at hh; cases hh
          exact ⟨hok.1, hreq, .inr hs⟩
      · cases hstep
    · next hj =>
      cases hstep
      refine hclose ?_
      intro r rep o hh
      rw [heq] at hh
      cases hh
      exact hj rfl
  · next hn =>
    cases hstep
    exact hclose (fun r rep o hh => hn _ _ _ _ hh)

theorem inv_close {s : St} (h : Inv s) {i : Nat} {c : Call} {d : Bool} (hi : s.calls[i]? = some c)
    (hpc : c.pc = .close d) : Inv (stepClose s i c d) := by
  have hc := h.call i c hi
  simp only [CallOk, hpc] at hc
  obtain ⟨hp, hd, ho, hcl⟩ := hc
  have hcall : CallOk { c with pc := .returned d, closed := c.closed + 1 } (printedFor s i) := by
    simp only [CallOk]
    exact ⟨hp, hd, by omega, by omega⟩
  unfold stepClose
  split
  · next j request r isOpen heq =>
    refine put_inv h hi _ ?_ hcall ?_
    · have := h.shape
      rw [heq] at this
      cases hs : s.srv <;> cases request <;> cases r <;> simp [hs, Shape] at this ⊢
    · intro k r' rep o hk
      cases hk
      constructor
      · intro hj
        subst hj
        obtain ⟨d', hd', hok⟩ := h.owner _ _ _ _ heq
        rw [hi] at hd'; cases hd'
        simp only [OwnerOk, hpc] at hok
        exact ⟨by simp, hok.2.1, hok.2.2⟩
      · intro hj
        rw [heq]
        simp [hj]
  · next hn =>
    refine put_inv' h hi hcall ?_
    intro r rep o hh
    exact absurd hh (hn _ _ _ _)

theorem inv_client {s s' : St} (h : Inv s) {i : Nat} {ok : Bool} (hstep : clientStep s i ok = some s') : Inv s' := by
  unfold clientStep at hstep
  split at hstep
  · cases hstep
  · next c hi =>
    split at hstep
    · next hpc => cases hstep; exact inv_opening h hi hpc ok
    · next hpc => exact inv_waiting h hi hpc hstep
    · next hpc => cases hstep; exact inv_mode h hi hpc ok
    · next hpc => cases hstep; exact inv_transact h hi hpc ok
    · next hpc => exact inv_reply h hi hpc hstep
    · next hpc => cases hstep; exact inv_close h hi hpc
    · cases hstep

/-- The server's steps that print nothing. -/
theorem srv_inv {s : St} (h : Inv s) (srv' : Srv) (p' : Pipe) (hs : Shape srv' p')
    (ho : ∀ i r rep o, p' = .connected i r rep o → ∃ r0 rep0 o0, s.pipe = .connected i r0 rep0 o0 ∧
      ∀ c : Call, s.calls[i]? = some c → OwnerOk s.srv r0 rep0 o0 c (printedFor s i) →
        OwnerOk srv' r rep o c (printedFor s i)) :
    Inv { s with srv := srv', pipe := p' } := by
  refine ⟨hs, h.call, ?_, h.range⟩
  intro i r rep o hp
  obtain ⟨r0, rep0, o0, he, hh⟩ := ho i r rep o hp
  obtain ⟨c, hc, hok⟩ := h.owner i r0 rep0 o0 he
  exact ⟨c, hc, hh c hc hok⟩

theorem inv_read {s s' : St} (h : Inv s) (hs : s.srv = .reading) (hstep : stepRead s = some s') : Inv s' := by
  have hsh := h.shape
  rw [hs] at hsh
  unfold stepRead at hstep
  split at hstep
  · next i m replied isOpen heq =>
    rw [heq] at hsh
    have hr : replied = false := by cases replied <;> simp [Shape] at hsh ⊢
    subst hr
    split at hstep
    · cases hstep
      refine srv_inv h _ _ (by simp [Shape]) ?_
      intro j r rep o hj
      cases hj
      refine ⟨_, _, _, heq, ?_⟩
      intro c hc hok
      rw [hs] at hok
      cases hpc : c.pc <;> simp [OwnerOk, hpc, ReplyOk, Early] at hok ⊢
      exact ⟨hok.1, hok.2.1, hok.2.2⟩
    · cases hstep
      refine srv_inv h _ _ (by simp [Shape]) ?_
      intro j r rep o hj
      cases hj
      refine ⟨_, _, _, heq, ?_⟩
      intro c hc hok
      rw [hs] at hok
      cases hpc : c.pc <;> simp [OwnerOk, hpc, ReplyOk, Early] at hok ⊢
      exact hok.1
  · cases hstep
  · next h1 h2 =>
    cases hstep
    cases hp : s.pipe with
    | gone => rw [hp] at hsh; simp [Shape] at hsh
    | disconnected => rw [hp] at hsh; simp [Shape] at hsh
    | listening => rw [hp] at hsh; simp [Shape] at hsh
    | connected i r rep o =>
      cases r with
      | some m => exact absurd hp (h1 _ _ _ _)
      | none =>
        cases o with
        | true => exact absurd hp (h2 _ _)
        | false =>
          refine srv_inv h _ _ (by simp [Shape]) ?_
          intro j r' rep' o' hj
          cases hj
          refine ⟨_, _, _, hp, ?_⟩
          intro c hc hok
          rw [hs] at hok
          cases hpc : c.pc <;> simp [OwnerOk, hpc, ReplyOk, Early] at hok ⊢

theorem printedFor_append (s : St) (srv : Srv) (k : Nat) (t : List Nat) (i : Nat) :
    printedFor { s with srv := srv, printed := s.printed ++ [(k, t)] } i =
      if k = i then printedFor s i ++ [t] else printedFor s i := by
  by_cases hk : k = i <;> simp [printedFor, List.filter_append, hk]

theorem inv_print {s : St} (h : Inv s) {b : List Nat} (hs : s.srv = .printing b) :
    Inv { s with srv := .replying, printed := s.printed ++ [(s.pipe.owner, b ++ [10])] } := by
  have hsh := h.shape
  rw [hs] at hsh
  obtain ⟨i, r, rep, o, hp⟩ : ∃ i r rep o, s.pipe = .connected i r rep o := by
    cases hp : s.pipe with
    | gone => rw [hp] at hsh; simp [Shape] at hsh
    | disconnected => rw [hp] at hsh; simp [Shape] at hsh
    | listening => rw [hp] at hsh; simp [Shape] at hsh
    | connected i r rep o => exact ⟨i, r, rep, o, rfl⟩
  obtain ⟨c, hc, hok⟩ := h.owner _ _ _ _ hp
  rw [hp] at hsh
  rw [hs] at hok
  have hpc : c.pc = .reply := by cases hpc : c.pc <;> simp [OwnerOk, hpc, Early] at hok ⊢
  simp only [OwnerOk, hpc, ReplyOk] at hok
  have hcall := h.call i c hc
  simp only [CallOk, hpc] at hcall
  refine ⟨?_, ?_, ?_, ?_⟩
  · show Shape .replying s.pipe
    rw [hp]
    cases r <;> cases rep <;> simp [Shape] at hsh ⊢
  · intro j d hd
    rw [printedFor_append]
    split
    · next hj =>
      have hj' : j = i := by rw [hp] at hj; exact hj.symm
      subst hj'
      have hd' : s.calls[j]? = some d := hd
      rw [hc] at hd'; cases hd'
      rw [hok.2.2, hok.2.1]
      simp only [CallOk, hpc]
      exact ⟨.inr rfl, hcall.2⟩
    · exact h.call j d hd
  · intro j r' rep' o' hj
    have hj' : s.pipe = .connected j r' rep' o' := hj
    rw [hp] at hj'
    cases hj'
    refine ⟨c, hc, ?_⟩
    rw [printedFor_append, hp]
    simp only [Pipe.owner, if_pos, OwnerOk, hpc, ReplyOk]
    exact ⟨hok.1, by rw [hok.2.2, hok.2.1]; rfl⟩
  · intro p hpm
    rcases List.mem_append.1 hpm with h1 | h1
    · exact h.range p h1
    · rw [List.mem_singleton] at h1
      subst h1
      show s.pipe.owner < s.calls.length
      rw [hp]; exact get_lt hc

theorem inv_server {s s' : St} (h : Inv s) (hstep : serverStep s = some s') : Inv s' := by
  have hsh := h.shape
  unfold serverStep at hstep
  split at hstep
  · cases hstep
  · next hs =>
    split at hstep
    · next hp =>
      cases hstep
      rw [show ({ s with srv := .connecting } : St) =
        { s with srv := .connecting, pipe := .listening } by rw [← hp]]
      exact srv_inv h _ _ (by simp [Shape]) (by intro i r rep o hh; cases hh)
    · cases hstep
      exact srv_inv h _ _ (by simp [Shape]) (by intro i r rep o hh; cases hh)
  · cases hstep
    exact srv_inv h _ _ (by simp [Shape]) (by intro i r rep o hh; cases hh)
  · next hs =>
    split at hstep
    · next i r rep o hp =>
      cases hstep
      rw [show ({ s with srv := .reading } : St) =
        { s with srv := .reading, pipe := .connected i r rep o } by rw [← hp]]
      refine srv_inv h _ _ ?_ ?_
      · rw [hs, hp] at hsh
        cases rep <;> simp [Shape] at hsh ⊢
      · intro j r' rep' o' hj
        cases hj
        refine ⟨_, _, _, hp, ?_⟩
        intro c hc hok
        rw [hs] at hok
        cases hpc : c.pc <;> simpa [OwnerOk, hpc, ReplyOk, Early] using hok
    · cases hstep
  · next hs => exact inv_read h hs hstep
  · next b hs => cases hstep; exact inv_print h hs
  · next hs =>
    cases hstep
    rw [hs] at hsh
    cases hp : s.pipe with
    | gone => rw [hp] at hsh; simp [Shape] at hsh
    | disconnected => rw [hp] at hsh; simp [Shape] at hsh
    | listening => rw [hp] at hsh; simp [Shape] at hsh
    | connected i r rep o =>
      rw [hp] at hsh
      have hr : r = none := by cases r <;> simp [Shape] at hsh ⊢
      subst hr
      simp only [replyPipe]
      refine srv_inv h _ _ (by simp [Shape]) ?_
      intro j r' rep' o' hj
      cases hj
      refine ⟨_, _, _, hp, ?_⟩
      intro c hc hok
      rw [hs] at hok
      cases hpc : c.pc <;> simp [OwnerOk, hpc, ReplyOk, Early] at hok ⊢
      exact ⟨hok.1, fun _ => hok.2⟩
  · cases hstep
    exact srv_inv h _ _ (by simp [Shape]) (by intro i r rep o hh; cases hh)

theorem printedFor_fresh {s : St} (h : Inv s) : printedFor s s.calls.length = [] := by
  simp only [printedFor, List.map_eq_nil_iff, List.filter_eq_nil_iff]
  intro p hp heq
  have := h.range p hp
  have : p.1 = s.calls.length := by simpa using heq
  omega

theorem inv_act {s s' : St} (h : Inv s) {a : Act} (hstep : act s a = some s') : Inv s' := by
  cases a with
  | client i ok => exact inv_client h hstep
  | server => exact inv_server h hstep
  | call msg =>
    cases hstep
    refine ⟨h.shape, ?_, ?_, ?_⟩
    · intro i c hc
      have hc' : (s.calls ++ [⟨msg, .opening, 0, 0⟩])[i]? = some c := hc
      rcases Nat.lt_trichotomy i s.calls.length with hl | hl | hl
      · rw [List.getElem?_append_left hl] at hc'
        exact h.call i c hc'
      · subst hl
        simp at hc'
        subst hc'
        exact ⟨printedFor_fresh h, rfl, rfl⟩
      · rw [List.getElem?_eq_none (by simp; omega)] at hc'; cases hc'
    · intro i r rep o hp
      obtain ⟨c, hc, hok⟩ := h.owner i r rep o hp
      exact ⟨c, by show (s.calls ++ _)[i]? = _; rw [List.getElem?_append_left (get_lt hc)]; exact hc, hok⟩
    · intro p hp
      have := h.range p hp
      show p.1 < (s.calls ++ _).length
      simp; omega
  | start =>
    simp only [act] at hstep
    split at hstep
    · cases hstep
      exact srv_inv h _ _ (by simp [Shape]) (by intro i r rep o hh; cases hh)
    · cases hstep
  | kill =>
    cases hstep
    exact srv_inv h _ _ (by simp [Shape]) (by intro i r rep o hh; cases hh)

theorem run_cons {s s' : St} {a : Act} {acts : List Act} :
    run s (a :: acts) = some s' ↔ ∃ s1, act s a = some s1 ∧ run s1 acts = some s' := by
  simp [run, Option.bind_eq_some_iff]

theorem inv_run {s s' : St} (h : Inv s) : ∀ {acts : List Act}, run s acts = some s' → Inv s' := by
  intro acts
  induction acts generalizing s with
  | nil => intro hr; cases hr; exact h
  | cons a acts ih =>
    intro hr
    obtain ⟨s1, h1, h2⟩ := run_cons.1 hr
    exact ih (inv_act h h1) h2

theorem inv_reachable {s : St} (h : Reachable s) : Inv s := by
  obtain ⟨acts, hr⟩ := h
  exact inv_run inv_init hr

/-! ## What a step leaves as it is -/

/-- The state with other contents of the pipe and another call `i`. -/
def Frame (s s' : St) (i : Nat) (c : Call) : Prop :=
  s'.printed = s.printed ∧ s'.srv = s.srv ∧ ∃ c', s'.calls = s.calls.set i c' ∧ c'.msg = c.msg

theorem frame_put (s : St) (i : Nat) (c c' : Call) (h : c'.msg = c.msg) : Frame s (s.put i c') i c :=
  ⟨rfl, rfl, c', rfl, h⟩

theorem frame_put_pipe (s : St) (i : Nat) (c c' : Call) (p : Pipe) (h : c'.msg = c.msg) :
    Frame s { s.put i c' with pipe := p } i c :=
  ⟨rfl, rfl, c', rfl, h⟩

theorem client_frame {s s' : St} {i : Nat} {ok : Bool} (h : clientStep s i ok = some s') :
    ∃ c, s.calls[i]? = some c ∧ (∀ d, c.pc ≠ .returned d) ∧ Frame s s' i c := by
  unfold clientStep at h
  split at h
  · cases h
  · next c hi =>
    refine ⟨c, hi, ?_⟩
    split at h
    · next hpc =>
      cases h
      refine ⟨by simp [hpc], ?_⟩
      unfold stepOpening
      split
      · exact frame_put _ _ _ _ rfl
      · split
        · exact frame_put _ _ _ _ rfl
        · exact frame_put _ _ _ _ rfl
        · exact frame_put _ _ _ _ rfl
        · exact frame_put_pipe _ _ _ _ _ rfl
    · next hpc =>
      refine ⟨by simp [hpc], ?_⟩
      unfold stepWaiting at h
      split at h <;> cases h <;> exact frame_put _ _ _ _ rfl
    · next hpc => cases h; exact ⟨by simp [hpc], frame_put _ _ _ _ rfl⟩
    · next hpc =>
      cases h
      refine ⟨by simp [hpc], ?_⟩
      unfold stepTransact
      split
      · split
        · split
          · exact frame_put_pipe _ _ _ _ _ rfl
          · exact frame_put _ _ _ _ rfl
        · exact frame_put _ _ _ _ rfl
      · exact frame_put _ _ _ _ rfl
    · next hpc =>
      refine ⟨by simp [hpc], ?_⟩
      unfold stepReply at h
      split at h
      · split at h
        · split at h
          · cases h; exact frame_put _ _ _ _ rfl
          · cases h
        · cases h; exact frame_put _ _ _ _ rfl
      · cases h; exact frame_put _ _ _ _ rfl
    · next hpc =>
      cases h
      refine ⟨by simp [hpc], ?_⟩
      unfold stepClose
      split
      · exact frame_put_pipe _ _ _ _ _ rfl
      · exact frame_put _ _ _ _ rfl
    · cases h

theorem server_frame {s s' : St} (h : serverStep s = some s') :
    s'.calls = s.calls ∧
    (s'.printed = s.printed ∨ ∃ b, s.srv = .printing b ∧ s'.srv = .replying ∧ s'.pipe = s.pipe ∧
      s'.printed = s.printed ++ [(s.pipe.owner, b ++ [10])]) := by
  unfold serverStep at h
  split at h
  · cases h
  · split at h <;> cases h <;> exact ⟨rfl, .inl rfl⟩
  · cases h; exact ⟨rfl, .inl rfl⟩
  · split at h <;> cases h <;> exact ⟨rfl, .inl rfl⟩
  · unfold stepRead at h
    split at h
    · split at h <;> cases h <;> exact ⟨rfl, .inl rfl⟩
    · cases h
    · cases h; exact ⟨rfl, .inl rfl⟩
  · next b hs => cases h; exact ⟨rfl, .inr ⟨b, hs, rfl, rfl, rfl⟩⟩
  · cases h; exact ⟨rfl, .inl rfl⟩
  · cases h; exact ⟨rfl, .inl rfl⟩

theorem printed_prefix {s s' : St} {a : Act} (h : act s a = some s') : s.printed <+: s'.printed := by
  cases a with
  | client i ok =>
    obtain ⟨c, _, _, hf⟩ := client_frame h
    rw [hf.1]; exact List.prefix_refl _
  | server =>
    rcases (server_frame h).2 with h' | ⟨b, _, _, _, h'⟩
    · rw [h']; exact List.prefix_refl _
    · rw [h']; exact List.prefix_append _ _
  | call msg => cases h; exact List.prefix_refl _
  | start =>
    simp only [act] at h
    split at h <;> cases h
    exact List.prefix_refl _
  | kill => cases h; exact List.prefix_refl _

/-- The message of a call never changes, and no call disappears. -/
theorem call_stays {s s' : St} {a : Act} (h : act s a = some s') {i : Nat} {c : Call} (hc : s.calls[i]? = some c) :
    ∃ c' : Call, s'.calls[i]? = some c' ∧ c'.msg = c.msg := by
  cases a with
  | client j ok =>
    obtain ⟨d, hd, _, _, _, d', hcalls, hm⟩ := client_frame h
    rw [hcalls]
    by_cases hij : j = i
    · subst hij
      rw [hc] at hd; cases hd
      exact ⟨d', by simp [get_lt hc], hm⟩
    · exact ⟨c, by simp [List.getElem?_set, hij, hc], rfl⟩
  | server => rw [(server_frame h).1]; exact ⟨c, hc, rfl⟩
  | call msg =>
    cases h
    exact ⟨c, by show (s.calls ++ _)[i]? = _; rw [List.getElem?_append_left (get_lt hc)]; exact hc, rfl⟩
  | start =>
    simp only [act] at h
    split at h <;> cases h
    exact ⟨c, hc, rfl⟩
  | kill => cases h; exact ⟨c, hc, rfl⟩

/-- A call that has returned stays so, and nothing more is printed for it. -/
theorem returned_stays {s s' : St} (hinv : Inv s) {a : Act} (h : act s a = some s') {i : Nat} {d : Bool}
    (hr : Returned s i d) : Returned s' i d ∧ printedFor s' i = printedFor s i := by
  obtain ⟨c, hc, hpc⟩ := hr
  cases a with
  | client j ok =>
    obtain ⟨e, he, hne, hp, _, e', hcalls, _⟩ := client_frame h
    have hij : j ≠ i := by
      intro hij; subst hij
      rw [hc] at he; cases he
      exact hne d hpc
    refine ⟨⟨c, ?_, hpc⟩, by simp only [printedFor, hp]⟩
    rw [hcalls]
    simp [List.getElem?_set, hij, hc]
  | server =>
    obtain ⟨hcalls, hpr⟩ := server_frame h
    refine ⟨⟨c, by rw [hcalls]; exact hc, hpc⟩, ?_⟩
    rcases hpr with hpr | ⟨b, hs, _, _, hpr⟩
    · simp only [printedFor, hpr]
    · have hsh := hinv.shape
      rw [hs] at hsh
      obtain ⟨k, r, rep, o, hp⟩ : ∃ i r rep o, s.pipe = .connected i r rep o := by
        cases hp : s.pipe with
        | gone => rw [hp] at hsh; simp [Shape] at hsh
        | disconnected => rw [hp] at hsh; simp [Shape] at hsh
        | listening => rw [hp] at hsh; simp [Shape] at hsh
        | connected i r rep o => exact ⟨i, r, rep, o, rfl⟩
      obtain ⟨e, he, hok⟩ := hinv.owner _ _ _ _ hp
      rw [hs] at hok
      have hki : k ≠ i := by
        intro hki; subst hki
        rw [hc] at he; cases he
        simp [OwnerOk, hpc, Early] at hok
      simp [printedFor, hpr, List.filter_append, hp, Pipe.owner, hki]
  | call msg =>
    cases h
    exact ⟨⟨c, by show (s.calls ++ _)[i]? = _; rw [List.getElem?_append_left (get_lt hc)]; exact hc, hpc⟩, rfl⟩
  | start =>
    simp only [act] at h
    split at h <;> cases h
    exact ⟨⟨c, hc, hpc⟩, rfl⟩
  | kill => cases h; exact ⟨⟨c, hc, hpc⟩, rfl⟩

theorem run_returned {s s' : St} (hinv : Inv s) {acts : List Act} (h : run s acts = some s') {i : Nat} {d : Bool}
    (hr : Returned s i d) :
    Returned s' i d ∧ printedFor s' i = printedFor s i := by
  induction acts generalizing s with
  | nil => cases h; exact ⟨hr, rfl⟩
  | cons a acts ih =>
    obtain ⟨s1, h1, h2⟩ := run_cons.1 h
    obtain ⟨h3, h4⟩ := returned_stays hinv h1 hr
    obtain ⟨h5, h6⟩ := ih (inv_act hinv h1) h2 h3
    exact ⟨h5, h6.trans h4⟩

theorem run_prefix {s s' : St} {acts : List Act} (h : run s acts = some s') : s.printed <+: s'.printed := by
  induction acts generalizing s with
  | nil => cases h; exact List.prefix_refl _
  | cons a acts ih =>
    obtain ⟨s1, h1, h2⟩ := run_cons.1 h
    exact (printed_prefix h1).trans (ih h2)

/-! ## Nobody waits for ever -/

theorem stuck_all {s : St} (hinv : Inv s) (h : Stuck s) : AllReturned s := by
  have hsrv : serverStep s = none := h .server rfl
  have hcl : ∀ i ok, clientStep s i ok = none := fun i ok => h (.client i ok) rfl
  have hsh := hinv.shape
  -- the pipe is not connected to a call that waits for the reply, and not busy
  have hpipe : s.pipe = .gone ∨ s.pipe = .listening := by
    cases hp : s.pipe with
    | gone => exact .inl rfl
    | listening => exact .inr rfl
    | disconnected =>
      rw [hp] at hsh
      cases hs : s.srv <;> simp [hs, Shape] at hsh
      simp [serverStep, hs] at hsrv
    | connected k r rep o =>
      exfalso
      obtain ⟨c, hc, hok⟩ := hinv.owner _ _ _ _ hp
      have h1 := hcl k true
      have hpc : (∃ d, c.pc = .returned d) ∨ c.pc = .reply := by
        cases hpc : c.pc <;> simp [clientStep, hc, hpc, OwnerOk] at h1 hok ⊢
      rw [hp] at hsh
      cases hs : s.srv <;> simp [serverStep, hs, hp, Shape, stepRead] at hsrv hsh
      -- only reading is left
      rcases hpc with ⟨d, hpc⟩ | hpc
      · simp only [OwnerOk, hpc] at hok
        rw [hok.1, hok.2.1] at hsrv
        simp at hsrv
      · simp only [OwnerOk, hpc, hs, ReplyOk] at hok
        rw [hok.2.1] at hsrv
        simp only at hsrv
        split at hsrv <;> cases hsrv
  intro i c hc
  have h1 := hcl i true
  cases hpc : c.pc with
  | returned d => exact ⟨d, rfl⟩
  | waiting =>
    rcases hpipe with hp | hp <;> simp [clientStep, hc, hpc, stepWaiting, hp] at h1
  | reply =>
    rcases hpipe with hp | hp <;> simp [clientStep, hc, hpc, stepReply, hp] at h1
  | opening => simp [clientStep, hc, hpc] at h1
  | mode => simp [clientStep, hc, hpc] at h1
  | transact m => simp [clientStep, hc, hpc] at h1
  | close d => simp [clientStep, hc, hpc] at h1

/-! ## The number of steps -/

def isListening : Pipe → Bool
  | .listening => true
  | _ => false

/-- What a call can still do, with the weight `k` of one that is not yet connected. -/
def weight (k : Nat) (listening : Bool) : Pc → Nat
  | .opening => if listening then k else k + 3
  | .waiting => if listening then k + 1 else k + 2
  | .mode => 4
  | .transact _ => 3
  | .reply => 2
  | .close _ => 1
  | .returned _ => 0

def srvWeight (listening : Bool) : Srv → Nat
  | .stopped => 0
  | .first => 8
  | .again => 2
  | .connecting => if listening then 1 else 7
  | .reading => 6
  | .printing _ => 5
  | .replying => 4
  | .disconnecting => 3

def total (f : Pc → Nat) (l : List Call) : Nat := (l.map fun c => f c.pc).sum

def measureOf (s : St) : Nat :=
  total (weight (3 * s.calls.length + 12) (isListening s.pipe)) s.calls + srvWeight (isListening s.pipe) s.srv

theorem total_set (f : Pc → Nat) (l : List Call) (i : Nat) (c c' : Call) (h : l[i]? = some c) :
    total f (l.set i c') + f c.pc = total f l + f c'.pc := by
  induction l generalizing i with
  | nil => simp at h
  | cons a l ih =>
    cases i with
    | zero => simp at h; subst h; simp [total]; omega
    | succ i =>
      have := ih i (by simpa using h)
      simp [total] at this ⊢
      omega

theorem total_le {f g : Pc → Nat} {m : Nat} (h : ∀ pc, f pc ≤ g pc + m) (l : List Call) :
    total f l ≤ total g l + m * l.length := by
  induction l with
  | nil => simp [total]
  | cons a l ih =>
    have := h a.pc
    simp only [total, List.map_cons, List.sum_cons, List.length_cons, Nat.mul_succ] at ih ⊢
    omega

theorem weight_up (k : Nat) (pc : Pc) : weight k false pc ≤ weight k true pc + 3 := by
  cases pc <;> simp [weight]

theorem weight_down (k : Nat) (pc : Pc) : weight k true pc ≤ weight k false pc + 0 := by
  cases pc <;> simp [weight]

theorem weight_bound (k : Nat) (hk : 1 ≤ k) (b : Bool) (pc : Pc) : weight k b pc ≤ 0 + (k + 3) := by
  cases pc <;> cases b <;> simp [weight] <;> omega

theorem put_smaller {s : St} {i : Nat} {c c' : Call} (hi : s.calls[i]? = some c)
    (h : weight (3 * s.calls.length + 12) (isListening s.pipe) c'.pc <
      weight (3 * s.calls.length + 12) (isListening s.pipe) c.pc) : measureOf (s.put i c') < measureOf s := by
  have := total_set (weight (3 * s.calls.length + 12) (isListening s.pipe)) s.calls i c c' hi
  simp only [measureOf, St.put, List.length_set]
  omega

theorem put_smaller' {s : St} {i : Nat} {c c' : Call} {p : Pipe} (hi : s.calls[i]? = some c)
    (hp : isListening p = isListening s.pipe)
    (h : weight (3 * s.calls.length + 12) (isListening s.pipe) c'.pc <
      weight (3 * s.calls.length + 12) (isListening s.pipe) c.pc) :
    measureOf { s.put i c' with pipe := p } < measureOf s := by
  have := total_set (weight (3 * s.calls.length + 12) (isListening s.pipe)) s.calls i c c' hi
  simp only [measureOf, St.put, List.length_set, hp]
  omega

theorem client_smaller {s s' : St} {i : Nat} {ok : Bool} (h : clientStep s i ok = some s') :
    measureOf s' < measureOf s := by
  unfold clientStep at h
  split at h
  · cases h
  · next c hi =>
    split at h
    · next hpc =>
      cases h
      have hret : measureOf (s.put i { c with pc := .returned false }) < measureOf s := by
        apply put_smaller hi
        rw [hpc]
        simp only [weight]
        split <;> omega
      unfold stepOpening
      split
      · exact hret
      · split
        · exact hret
        · next hp => apply put_smaller hi; rw [hpc, hp]; simp [weight, isListening]
        · next hp => apply put_smaller hi; rw [hpc, hp]; simp [weight, isListening]
        · next hp =>
          have h1 := total_set (weight (3 * s.calls.length + 12) false) s.calls i c
            { c with pc := .mode, opened := c.opened + 1 } hi
          have h2 := total_le (weight_up (3 * s.calls.length + 12)) s.calls
          have h3 : srvWeight false s.srv ≤ srvWeight true s.srv + 6 := by cases s.srv <;> simp [srvWeight]
          rw [hpc] at h1
          simp [weight] at h1
          simp only [measureOf, St.put, List.length_set, hp, isListening]
          omega
    · next hpc =>
      unfold stepWaiting at h
      split at h
      · next hp => cases h; apply put_smaller hi; rw [hpc, hp]; simp [weight, isListening]
      · next hp => cases h; apply put_smaller hi; rw [hpc, hp]; simp [weight, isListening]
      · cases h
      · cases h
    · next hpc => cases h; apply put_smaller hi; rw [hpc]; simp [weight]
    · next hpc =>
      cases h
      unfold stepTransact
      split
      · split
        · next hp =>
          split
          · apply put_smaller' hi
            · rw [hp]; rfl
            · rw [hpc]; simp [weight]
          · apply put_smaller hi; rw [hpc]; simp [weight]
        · apply put_smaller hi; rw [hpc]; simp [weight]
      · apply put_smaller hi; rw [hpc]; simp [weight]
    · next hpc =>
      unfold stepReply at h
      split at h
      · split at h
        · split at h
          · cases h; apply put_smaller hi; rw [hpc]; simp [weight]
          · cases h
        · cases h; apply put_smaller hi; rw [hpc]; simp [weight]
      · cases h; apply put_smaller hi; rw [hpc]; simp [weight]
    · next hpc =>
      cases h
      unfold stepClose
      split
      · next hp =>
        apply put_smaller' hi
        · rw [hp]; rfl
        · rw [hpc]; simp [weight]
      · apply put_smaller hi; rw [hpc]; simp [weight]
    · cases h

theorem srv_smaller {s : St} (srv' : Srv) (p' : Pipe) (hp : isListening p' = isListening s.pipe)
    (h : srvWeight (isListening s.pipe) srv' < srvWeight (isListening s.pipe) s.srv) :
    measureOf { s with srv := srv', pipe := p' } < measureOf s := by
  simp only [measureOf, hp]
  omega

theorem server_smaller {s s' : St} (hsh : Shape s.srv s.pipe) (h : serverStep s = some s') :
    measureOf s' < measureOf s := by
  unfold serverStep at h
  split at h
  · cases h
  · next hs =>
    split at h
    · next hp =>
      cases h
      exact srv_smaller (s := s) .connecting s.pipe rfl (by rw [hs, hp]; simp [srvWeight, isListening])
    · next hn =>
      cases h
      have hl : isListening s.pipe = false := by cases hp : s.pipe <;> simp_all [isListening]
      exact srv_smaller (s := s) .stopped .gone (by rw [hl]; rfl) (by rw [hs]; simp [srvWeight])
  · next hs =>
    cases h
    have hp : s.pipe = .disconnected := by rw [hs] at hsh; cases hp : s.pipe <;> simp [hp, Shape] at hsh ⊢
    have h1 := total_le (weight_down (3 * s.calls.length + 12)) s.calls
    simp only [measureOf, hs, hp, isListening, srvWeight]
    simp at h1 ⊢
    omega
  · next hs =>
    split at h
    · next hp =>
      cases h
      exact srv_smaller (s := s) .reading s.pipe rfl (by rw [hs, hp]; simp [srvWeight, isListening])
    · cases h
  · next hs =>
    unfold stepRead at h
    split at h
    · next hp =>
      split at h
      · cases h
        exact srv_smaller (s := s) _ _ (by rw [hp]; rfl) (by rw [hs]; simp [srvWeight])
      · cases h
        exact srv_smaller (s := s) _ _ (by rw [hp]; rfl) (by rw [hs]; simp [srvWeight])
    · cases h
    · cases h
      exact srv_smaller (s := s) .disconnecting s.pipe rfl (by rw [hs]; simp [srvWeight])
  · next hs =>
    cases h
    exact srv_smaller (s := s) .replying s.pipe rfl (by rw [hs]; simp [srvWeight])
  · next hs =>
    cases h
    refine srv_smaller (s := s) .disconnecting (replyPipe s.pipe) ?_ (by rw [hs]; simp [srvWeight])
    cases s.pipe <;> rfl
  · next hs =>
    cases h
    have hl : isListening s.pipe = false := by
      rw [hs] at hsh; cases hp : s.pipe <;> simp [hp, Shape, isListening] at hsh ⊢
    exact srv_smaller (s := s) .again .disconnected (by rw [hl]; rfl) (by rw [hs]; simp [srvWeight])

theorem own_smaller {s s' : St} (hinv : Inv s) {a : Act} (ha : own a = true) (h : act s a = some s') :
    measureOf s' < measureOf s := by
  cases a with
  | client i ok => exact client_smaller h
  | server => exact server_smaller hinv.shape h
  | call msg => cases ha
  | start => cases ha
  | kill => cases ha

theorem own_steps {s s' : St} (hinv : Inv s) {acts : List Act} (ha : ∀ a ∈ acts, own a = true)
    (h : run s acts = some s') : acts.length + measureOf s' ≤ measureOf s := by
  induction acts generalizing s with
  | nil => cases h; simp
  | cons a acts ih =>
    obtain ⟨s1, h1, h2⟩ := run_cons.1 h
    have h3 := own_smaller hinv (ha a (by simp)) h1
    have h4 := ih (inv_act hinv h1) (fun b hb => ha b (by simp [hb])) h2
    simp only [List.length_cons]
    omega

theorem total_zero (l : List Call) : total (fun _ => 0) l = 0 := by
  induction l with
  | nil => rfl
  | cons a l ih => simp only [total, List.map_cons, List.sum_cons] at ih ⊢; omega

theorem measure_bound (s : St) :
    measureOf s ≤ 3 * s.calls.length * s.calls.length + 15 * s.calls.length + 8 := by
  have h1 := total_le (f := weight (3 * s.calls.length + 12) (isListening s.pipe)) (g := fun _ => 0)
    (weight_bound (3 * s.calls.length + 12) (by omega) (isListening s.pipe)) s.calls
  have h2 : total (fun _ => 0) s.calls = 0 := total_zero _
  have h3 : srvWeight (isListening s.pipe) s.srv ≤ 8 := by
    cases s.srv <;> cases isListening s.pipe <;> simp [srvWeight]
  have h4 : (3 * s.calls.length + 12 + 3) * s.calls.length =
      3 * s.calls.length * s.calls.length + 15 * s.calls.length := by
    rw [Nat.add_assoc, Nat.add_mul]
  simp only [measureOf]
  omega

/-! ## No message is lost -/

/-- The server has begun its work. -/
def Running : Srv → Prop
  | .stopped => False
  | .first => False
  | _ => True

/-- A call made after the server began its work. -/
def NewOk (s : St) (i : Nat) (c : Call) : Prop :=
  match c.pc with
  | .opening => True
  | .waiting => True
  | .mode => ∃ rep o, s.pipe = .connected i none rep o
  | .transact m => m = true ∧ ∃ rep o, s.pipe = .connected i none rep o
  | .reply => (∃ r rep o, s.pipe = .connected i r rep o ∧ s.srv ≠ .disconnecting) ∨ printedFor s i = [line c.msg]
  | .close _ => printedFor s i = [line c.msg]
  | .returned _ => printedFor s i = [line c.msg]

structure Inv2 (n : Nat) (s : St) : Prop where
  inv : Inv s
  running : Running s.srv
  small : ∀ (i : Nat) (c : Call), n ≤ i → s.calls[i]? = some c → c.msg.length ≤ 4096
  new : ∀ (i : Nat) (c : Call), n ≤ i → s.calls[i]? = some c → NewOk s i c

/-- The other calls, when call `j` makes a step. -/
theorem new_other {s s' : St} {i j : Nat} {c : Call} (hij : i ≠ j) (hp : s'.printed = s.printed) (hs : s'.srv = s.srv)
    (hpipe : ∀ r rep o, s.pipe = .connected i r rep o → ∃ o', s'.pipe = .connected i r rep o') (h : NewOk s i c) :
    NewOk s' i c := by
  have hpr : printedFor s' i = printedFor s i := by simp only [printedFor, hp]
  unfold NewOk at h ⊢
  split <;> simp only [*] at h ⊢
  · obtain ⟨rep, o, h⟩ := h
    obtain ⟨o', h'⟩ := hpipe _ _ _ h
    exact ⟨rep, o', h'⟩
  · obtain ⟨hm, rep, o, h⟩ := h
    obtain ⟨o', h'⟩ := hpipe _ _ _ h
    exact ⟨by simpa using hm, rep, o', h'⟩
  · rcases h with ⟨r, rep, o, h, h2⟩ | h
    · obtain ⟨o', h'⟩ := hpipe _ _ _ h
      exact .inl ⟨r, rep, o', h', h2⟩
    · exact .inr h
  · exact h
  · exact h

theorem new_put {n : Nat} {s : St} (h : Inv2 n s) {j : Nat} {c c' : Call} {p' : Pipe} (hj : s.calls[j]? = some c)
    (hm : c'.msg = c.msg) (hinv : Inv { s.put j c' with pipe := p' })
    (hpipe : ∀ i r rep o, i ≠ j → s.pipe = .connected i r rep o → ∃ o', p' = .connected i r rep o')
    (hc : n ≤ j → NewOk { s.put j c' with pipe := p' } j c') : Inv2 n { s.put j c' with pipe := p' } := by
  have hget : ∀ (i : Nat) (d : Call), ({ s.put j c' with pipe := p' } : St).calls[i]? = some d →
      (i = j ∧ d = c') ∨ (i ≠ j ∧ s.calls[i]? = some d) := by
    intro i d hd
    have hd' : (s.put j c').calls[i]? = some d := hd
    rw [put_get hj] at hd'
    by_cases hij : i = j
    · subst hij; simp at hd'; exact .inl ⟨rfl, hd'.symm⟩
    · rw [if_neg hij] at hd'; exact .inr ⟨hij, hd'⟩
  refine ⟨hinv, h.running, ?_, ?_⟩
  · intro i d hn hd
    rcases hget i d hd with ⟨rfl, rfl⟩ | ⟨_, hd⟩
    · rw [hm]; exact h.small _ c hn hj
    · exact h.small i d hn hd
  · intro i d hn hd
    rcases hget i d hd with ⟨rfl, rfl⟩ | ⟨hij, hd⟩
    · exact hc hn
    · exact new_other (s := s) hij rfl rfl (fun r rep o => hpipe i r rep o hij) (h.new i d hn hd)

theorem new_put' {n : Nat} {s : St} (h : Inv2 n s) {j : Nat} {c c' : Call} (hj : s.calls[j]? = some c)
    (hm : c'.msg = c.msg) (hinv : Inv (s.put j c')) (hc : n ≤ j → NewOk (s.put j c') j c') :
    Inv2 n (s.put j c') :=
  new_put (p' := s.pipe) h hj hm hinv (fun _ _ _ o _ hp => ⟨o, hp⟩) hc

theorem not_gone {s : St} (hsh : Shape s.srv s.pipe) (hr : Running s.srv) : s.pipe ≠ .gone := by
  intro hp
  rw [hp] at hsh
  cases hs : s.srv <;> simp [hs, Shape, Running] at hsh hr

theorem inv2_client {n : Nat} {s s' : St} (h : Inv2 n s) {j : Nat} (hstep : clientStep s j true = some s') :
    Inv2 n s' := by
  have hinv := inv_client h.inv hstep
  unfold clientStep at hstep
  split at hstep
  · cases hstep
  · next c hj =>
    have hold := fun hn => h.new j c hn hj
    have hng := not_gone h.inv.shape h.running
    split at hstep
    · next hpc =>
      cases hstep
      cases hp : s.pipe with
      | gone => exact absurd hp hng
      | disconnected =>
        have e : stepOpening s j c true = s.put j { c with pc := .waiting } := by simp [stepOpening, hp]
        rw [e] at hinv ⊢
        exact new_put' h hj rfl hinv (fun _ => trivial)
      | connected k r rep o =>
        have e : stepOpening s j c true = s.put j { c with pc := .waiting } := by simp [stepOpening, hp]
        rw [e] at hinv ⊢
        exact new_put' h hj rfl hinv (fun _ => trivial)
      | listening =>
        have e : stepOpening s j c true =
            { s.put j { c with pc := .mode, opened := c.opened + 1 } with pipe := .connected j none false true } := by
          simp [stepOpening, hp]
        rw [e] at hinv ⊢
        refine new_put h hj rfl hinv ?_ (fun _ => ⟨_, _, rfl⟩)
        intro i r rep o _ hh
        rw [hp] at hh; cases hh
    · next hpc =>
      unfold stepWaiting at hstep
      split at hstep
      · next hp => exact absurd hp hng
      · cases hstep; exact new_put' h hj rfl hinv (fun _ => trivial)
      · cases hstep
      · cases hstep
    · next hpc =>
      cases hstep
      refine new_put' h hj rfl hinv ?_
      intro hn
      have := hold hn
      simp only [NewOk, hpc] at this
      exact ⟨rfl, this⟩
    · next m hpc =>
      cases hstep
      unfold stepTransact at hinv ⊢
      split
      · next hm =>
        rw [if_pos hm] at hinv
        split
        · next k replied isOpen hp =>
          simp only [hp] at hinv
          split
          · next hk =>
            rw [if_pos hk] at hinv
            refine new_put h hj rfl hinv ?_ ?_
            · intro i r rep o hi hh
              rw [hp] at hh; cases hh
              exact absurd hk hi
            · intro hn
              refine .inl ⟨_, _, _, by rw [hk], ?_⟩
              obtain ⟨d, hd, hok⟩ := h.inv.owner _ _ _ _ hp
              rw [hk, hj] at hd; cases hd
              simp only [OwnerOk, hpc] at hok
              intro hs
              have hs' : s.srv = .disconnecting := hs
              rw [hs'] at hok
              exact hok.2.2
          · next hk =>
            rw [if_neg hk] at hinv
            refine new_put' h hj rfl hinv ?_
            intro hn
            have := hold hn
            simp only [NewOk, hpc] at this
            obtain ⟨_, rep, o, hh⟩ := this
            rw [hp] at hh; cases hh
            exact absurd rfl hk
        · next hnp =>
          have hinv' : Inv (s.put j { c with pc := .close false }) := by
            split at hinv
            · next hp => exact absurd hp (hnp _ _ _)
            · exact hinv
          refine new_put' h hj rfl hinv' ?_
          intro hn
          have := hold hn
          simp only [NewOk, hpc] at this
          obtain ⟨_, rep, o, hh⟩ := this
          exact absurd hh (hnp _ _ _)
      · next hm =>
        rw [if_neg hm] at hinv
        refine new_put' h hj rfl hinv ?_
        intro hn
        have := hold hn
        simp only [NewOk, hpc] at this
        rw [this.1] at hm
        exact absurd rfl hm
    · next hpc =>
      have hcall := h.inv.call j c hj
      simp only [CallOk, hpc] at hcall
      unfold stepReply at hstep
      split at hstep
      · next k req replied isOpen hp =>
        split at hstep
        · next hk =>
          subst hk
          split at hstep
          · next hr =>
            cases hstep
            refine new_put' h hj rfl hinv ?_
            intro hn
            obtain ⟨d, hd, hok⟩ := h.inv.owner _ _ _ _ hp
            rw [hj] at hd; cases hd
            simp only [OwnerOk, hpc] at hok
            have hsh := h.inv.shape
            rw [hp, hr] at hsh
            have hs : s.srv = .disconnecting := by cases hs : s.srv <;> simp [hs, Shape] at hsh ⊢
            have h2 := hok.2
            rw [hs] at h2
            exact h2 hr
          · cases hstep
        · next hk =>
          cases hstep
          refine new_put' h hj rfl hinv ?_
          intro hn
          have := hold hn
          simp only [NewOk, hpc] at this
          rcases this with ⟨r, rep, o, hh, _⟩ | hpr
          · rw [hp] at hh; cases hh; exact absurd rfl hk
          · exact hpr
      · next hnp =>
        cases hstep
        refine new_put' h hj rfl hinv ?_
        intro hn
        have := hold hn
        simp only [NewOk, hpc] at this
        rcases this with ⟨r, rep, o, hh, _⟩ | hpr
        · exact absurd hh (hnp _ _ _ _)
        · exact hpr
    · next d hpc =>
      cases hstep
      unfold stepClose at hinv ⊢
      split
      · next k req r isOpen hp =>
        simp only [hp] at hinv
        refine new_put h hj rfl hinv ?_ ?_
        · intro i r' rep o hi hh
          rw [hp] at hh; cases hh
          exact ⟨_, rfl⟩
        · intro hn
          have := hold hn
          simp only [NewOk, hpc] at this
          exact this
      · next hnp =>
        have hinv' : Inv (s.put j { c with pc := .returned d, closed := c.closed + 1 }) := by
          split at hinv
          · next hp => exact absurd hp (hnp _ _ _ _)
          · exact hinv
        refine new_put' h hj rfl hinv' ?_
        intro hn
        have := hold hn
        simp only [NewOk, hpc] at this
        exact this
    · cases hstep

/-- The calls when the server makes a step without printing. -/
theorem new_srv {n : Nat} {s : St} (h : Inv2 n s) (srv' : Srv) (p' : Pipe) (hinv : Inv { s with srv := srv', pipe := p' })
    (hrun : Running srv')
    (ha : ∀ (i : Nat) (c : Call), n ≤ i → s.calls[i]? = some c → NewOk s i c →
      (c.pc = .mode ∨ ∃ m, c.pc = .transact m) → ∃ rep o, p' = .connected i none rep o)
    (hb : ∀ (i : Nat) (c : Call), n ≤ i → s.calls[i]? = some c → NewOk s i c → c.pc = .reply →
      (∃ r rep o, p' = .connected i r rep o ∧ srv' ≠ .disconnecting) ∨ printedFor s i = [line c.msg]) :
    Inv2 n { s with srv := srv', pipe := p' } := by
  refine ⟨hinv, hrun, h.small, ?_⟩
  intro i c hn hc
  have hold := h.new i c hn hc
  cases hpc : c.pc with
  | opening => simp [NewOk, hpc]
  | waiting => simp [NewOk, hpc]
  | mode => simp only [NewOk, hpc]; exact ha i c hn hc hold (.inl hpc)
  | transact m =>
    have := ha i c hn hc hold (.inr ⟨m, hpc⟩)
    simp only [NewOk, hpc] at hold ⊢
    exact ⟨hold.1, this⟩
  | reply => simp only [NewOk, hpc]; exact hb i c hn hc hold hpc
  | close d => simp only [NewOk, hpc] at hold ⊢; exact hold
  | returned d => simp only [NewOk, hpc] at hold ⊢; exact hold

/-- While a call is before its transaction, the server has not got beyond reading. -/
theorem early {n : Nat} {s : St} (h : Inv2 n s) {i : Nat} {c : Call} (hn : n ≤ i) (hc : s.calls[i]? = some c)
    (hpc : c.pc = .mode ∨ ∃ m, c.pc = .transact m) :
    (∃ rep, s.pipe = .connected i none rep true) ∧ Early s.srv := by
  have hold := h.new i c hn hc
  obtain ⟨rep, o, hp⟩ : ∃ rep o, s.pipe = .connected i none rep o := by
    rcases hpc with hpc | ⟨m, hpc⟩ <;> simp only [NewOk, hpc] at hold
    · exact hold
    · exact hold.2
  obtain ⟨d, hd, hok⟩ := h.inv.owner _ _ _ _ hp
  rw [hc] at hd; cases hd
  rcases hpc with hpc | ⟨m, hpc⟩ <;> simp only [OwnerOk, hpc] at hok <;>
    exact ⟨⟨rep, by rw [hp, hok.1]⟩, hok.2.2⟩

theorem inv2_server {n : Nat} {s s' : St} (h : Inv2 n s) (hstep : serverStep s = some s') : Inv2 n s' := by
  have hinv := inv_server h.inv hstep
  have hsh := h.inv.shape
  have hrun := h.running
  unfold serverStep at hstep
  split at hstep
  · cases hstep
  · next hs => rw [hs] at hrun; cases hrun
  · next hs =>
    cases hstep
    have hp : s.pipe = .disconnected := by rw [hs] at hsh; cases hp : s.pipe <;> simp [hp, Shape] at hsh ⊢
    refine new_srv h _ _ hinv trivial ?_ ?_
    · intro i c hn hc _ hpc
      have := (early h hn hc hpc).2
      rw [hs] at this; cases this
    · intro i c hn hc hold hpc
      simp only [NewOk, hpc] at hold
      rcases hold with ⟨r, rep, o, hh, _⟩ | hh
      · rw [hp] at hh; cases hh
      · exact .inr hh
  · next hs =>
    split at hstep
    · next k r rep o hp =>
      cases hstep
      refine new_srv h .reading s.pipe hinv trivial ?_ ?_
      · intro i c hn hc _ hpc
        obtain ⟨rep, hh⟩ := (early h hn hc hpc).1
        exact ⟨rep, true, hh⟩
      · intro i c hn hc hold hpc
        simp only [NewOk, hpc] at hold
        rcases hold with ⟨r, rep, o, hh, _⟩ | hh
        · exact .inl ⟨r, rep, o, hh, by simp⟩
        · exact .inr hh
    · cases hstep
  · next hs =>
    unfold stepRead at hstep
    split at hstep
    · next k m rep o hp =>
      have hnm : ∀ (i : Nat) (c : Call), n ≤ i → s.calls[i]? = some c → NewOk s i c →
          (c.pc = .mode ∨ ∃ m, c.pc = .transact m) → False := by
        intro i c hn hc _ hpc
        obtain ⟨rep, hh⟩ := (early h hn hc hpc).1
        rw [hp] at hh; cases hh
      split at hstep
      · cases hstep
        refine new_srv h _ _ hinv trivial (fun i c hn hc hold hpc => (hnm i c hn hc hold hpc).elim) ?_
        intro i c hn hc hold hpc
        simp only [NewOk, hpc] at hold
        rcases hold with ⟨r, rep, o, hh, _⟩ | hh
        · rw [hp] at hh; cases hh
          exact .inl ⟨_, _, _, rfl, by simp⟩
        · exact .inr hh
      · next hlong =>
        cases hstep
        refine new_srv h _ _ hinv trivial (fun i c hn hc hold hpc => (hnm i c hn hc hold hpc).elim) ?_
        intro i c hn hc hold hpc
        simp only [NewOk, hpc] at hold
        rcases hold with ⟨r, rep, o, hh, _⟩ | hh
        · exfalso
          obtain ⟨d, hd, hok⟩ := h.inv.owner _ _ _ _ hh
          rw [hc] at hd; cases hd
          simp only [OwnerOk, hpc, hs, ReplyOk] at hok
          rw [hp] at hh; cases hh
          have := h.small _ c hn hc
          have hm := hok.2.1
          cases hm
          exact hlong this
        · exact .inr hh
    · cases hstep
    · next h1 h2 =>
      cases hstep
      refine new_srv h .disconnecting s.pipe hinv trivial ?_ ?_
      · intro i c hn hc _ hpc
        obtain ⟨rep, hh⟩ := (early h hn hc hpc).1
        exact absurd hh (h2 _ _)
      · intro i c hn hc hold hpc
        simp only [NewOk, hpc] at hold
        rcases hold with ⟨r, rep, o, hh, _⟩ | hh
        · exfalso
          obtain ⟨d, hd, hok⟩ := h.inv.owner _ _ _ _ hh
          rw [hc] at hd; cases hd
          simp only [OwnerOk, hpc, hs, ReplyOk] at hok
          rw [hok.2.1] at hh
          exact h1 _ _ _ _ hh
        · exact .inr hh
  · next b hs =>
    cases hstep
    obtain ⟨k, r, rep, o, hp⟩ : ∃ i r rep o, s.pipe = .connected i r rep o := by
      rw [hs] at hsh
      cases hp : s.pipe with
      | gone => rw [hp] at hsh; simp [Shape] at hsh
      | disconnected => rw [hp] at hsh; simp [Shape] at hsh
      | listening => rw [hp] at hsh; simp [Shape] at hsh
      | connected i r rep o => exact ⟨i, r, rep, o, rfl⟩
    obtain ⟨e, he, hok⟩ := h.inv.owner _ _ _ _ hp
    rw [hs] at hok
    have hepc : e.pc = .reply := by cases hpc : e.pc <;> simp [OwnerOk, hpc, Early] at hok ⊢
    refine ⟨hinv, trivial, h.small, ?_⟩
    intro i c hn hc
    have hold := h.new i c hn hc
    have hcc : s.calls[i]? = some c := hc
    by_cases hi : i = k
    · subst hi
      rw [he] at hcc; cases hcc
      simp only [NewOk, hepc]
      exact .inl ⟨r, rep, o, hp, by simp⟩
    · have hki : ¬ k = i := fun e => hi e.symm
      have hpr' : printedFor { s with srv := .replying, printed := s.printed ++ [(s.pipe.owner, b ++ [10])] } i =
          printedFor s i := by simp [printedFor, List.filter_append, hp, Pipe.owner, hki]
      cases hpc : c.pc with
      | opening => simp [NewOk, hpc]
      | waiting => simp [NewOk, hpc]
      | mode => simp only [NewOk, hpc] at hold ⊢; exact hold
      | transact m => simp only [NewOk, hpc] at hold ⊢; exact hold
      | reply =>
        simp only [NewOk, hpc, hpr'] at hold ⊢
        rcases hold with ⟨r, rep, o, hh, _⟩ | hh
        · rw [hp] at hh; cases hh; exact absurd rfl hi
        · exact .inr hh
      | close d => simp only [NewOk, hpc, hpr'] at hold ⊢; exact hold
      | returned d => simp only [NewOk, hpc, hpr'] at hold ⊢; exact hold
  · next hs =>
    cases hstep
    refine new_srv h _ _ hinv trivial ?_ ?_
    · intro i c hn hc _ hpc
      have := (early h hn hc hpc).2
      rw [hs] at this; cases this
    · intro i c hn hc hold hpc
      simp only [NewOk, hpc] at hold
      rcases hold with ⟨r, rep, o, hh, _⟩ | hh
      · obtain ⟨d, hd, hok⟩ := h.inv.owner _ _ _ _ hh
        rw [hc] at hd; cases hd
        simp only [OwnerOk, hpc, hs, ReplyOk] at hok
        exact .inr hok.2
      · exact .inr hh
  · next hs =>
    cases hstep
    refine new_srv h _ _ hinv trivial ?_ ?_
    · intro i c hn hc _ hpc
      have := (early h hn hc hpc).2
      rw [hs] at this; cases this
    · intro i c hn hc hold hpc
      simp only [NewOk, hpc] at hold
      rcases hold with ⟨r, rep, o, _, hne⟩ | hh
      · exact absurd hs hne
      · exact .inr hh

theorem inv2_act {n : Nat} {s s' : St} (h : Inv2 n s) {a : Act} (ha : fine a = true) (hstep : act s a = some s') :
    Inv2 n s' := by
  cases a with
  | client i ok =>
    have hok : ok = true := ha
    subst hok
    exact inv2_client h hstep
  | server => exact inv2_server h hstep
  | call msg =>
    have hinv := inv_act h.inv hstep
    cases hstep
    have hm : msg.length ≤ 4096 := by simpa [fine] using ha
    have hget : ∀ (i : Nat) (c : Call), (s.calls ++ [⟨msg, .opening, 0, 0⟩])[i]? = some c →
        s.calls[i]? = some c ∨ c = ⟨msg, .opening, 0, 0⟩ := by
      intro i c hc
      rcases Nat.lt_or_ge i s.calls.length with hl | hl
      · rw [List.getElem?_append_left hl] at hc; exact .inl hc
      · have hmem := List.mem_of_getElem? hc
        rw [List.getElem?_append_right hl] at hc
        have := List.mem_of_getElem? hc
        simp at this
        exact .inr this
    refine ⟨hinv, h.running, ?_, ?_⟩
    · intro i c hn hc
      rcases hget i c hc with hc' | rfl
      · exact h.small i c hn hc'
      · exact hm
    · intro i c hn hc
      rcases hget i c hc with hc' | rfl
      · exact h.new i c hn hc'
      · trivial
  | start =>
    have hrun := h.running
    simp only [act] at hstep
    split at hstep
    · next hs => rw [hs] at hrun; cases hrun
    · cases hstep
  | kill => cases ha

theorem inv2_run {n : Nat} {s s' : St} (h : Inv2 n s) {acts : List Act} (ha : ∀ a ∈ acts, fine a = true)
    (hr : run s acts = some s') : Inv2 n s' := by
  induction acts generalizing s with
  | nil => cases hr; exact h
  | cons a acts ih =>
    obtain ⟨s1, h1, h2⟩ := run_cons.1 hr
    exact ih (inv2_act h (ha a (by simp)) h1) (fun b hb => ha b (by simp [hb])) h2

theorem inv2_begin {s : St} (h : Inv s) (hr : Running s.srv) : Inv2 s.calls.length s := by
  refine ⟨h, hr, ?_, ?_⟩ <;>
  · intro i c hn hc
    have := get_lt hc
    omega

end Winpty.TraceSend
