import Verif.Spec.Adapter

/-! # Invariants of the Unix adapter's threads -/
namespace Winpty.Adapter

open Winpty.Spec.Relay

/-! ## Steps as relations -/

/-- The steps of the input thread. -/
inductive InRel (cap : Nat) : In → Nat → InAns → In → Nat → Prop
  | drained (t n) : t.pc = .reset → t.wakeup = 0 →
      InRel cap t n (.reset .empty) { t with pc := .check } n
  | drain (t n k) : t.pc = .reset → 1 ≤ k → k ≤ t.wakeup →
      InRel cap t n (.reset (.took k)) { t with wakeup := t.wakeup - k } n
  | stop (t n) : t.pc = .check → t.shouldShutdown = true →
      InRel cap t n .go { t with pc := .complete } n
  | wait (t n) : t.pc = .check → t.shouldShutdown = false →
      InRel cap t n .go { t with pc := .select } n
  | selectIntr (t n) : t.pc = .select → InRel cap t n .intr { t with pc := .reset } n
  | readable (t n) : t.pc = .select → InRel cap t n (.ready true) { t with pc := .read } n
  | woken (t n) : t.pc = .select → t.wakeup ≠ 0 →
      InRel cap t n (.ready false) { t with pc := .reset } n
  | readIntr (t n) : t.pc = .read → InRel cap t n .intr { t with pc := .reset } n
  | readFail (t n) : t.pc = .read → InRel cap t n .fail { t with pc := .complete } n
  | data (t n d) : t.pc = .read → 1 ≤ d.length → d.length ≤ 4096 →
      InRel cap t n (.data d) { t with pc := .write d, taken := t.taken ++ d } n
  | wrote (t n d) : t.pc = .write d →
      InRel cap t n (.wrote d.length true) { t with pc := .reset, given := t.given ++ d } n
  | writeFail (t n d k ok) : t.pc = .write d → k ≤ d.length → (ok = true → k ≠ d.length) →
      InRel cap t n (.wrote k ok)
        { t with pc := .complete, given := t.given ++ d.take k, failed := true } n
  | complete (t n) : t.pc = .complete →
      InRel cap t n .go { t with pc := .wake, completed := true } n
  | wakeIntr (t n) : t.pc = .wake → InRel cap t n .intr t n
  | wake (t n) : t.pc = .wake → InRel cap t n .go { t with pc := .ended } (pipeSet cap n)

theorem inRel_of {cap : Nat} {t t' : In} {n n' : Nat} {a : InAns}
    (hs : inStep cap t n a = .ok (t', n')) : InRel cap t n a t' n' := by
  unfold inStep at hs
  split at hs
  · rename_i r hp
    cases r with
    | took k =>
      simp only [pipeReset] at hs
      by_cases hc : 1 ≤ k ∧ k ≤ t.wakeup ∧ k ≤ 256
      · rw [if_pos hc] at hs; simp at hs; obtain ⟨rfl, rfl⟩ := hs
        exact .drain t n k hp hc.1 hc.2.1
      · rw [if_neg hc] at hs; cases hs
    | empty =>
      simp only [pipeReset] at hs
      by_cases hc : t.wakeup = 0
      · rw [if_pos hc] at hs; simp at hs; obtain ⟨rfl, rfl⟩ := hs
        exact .drained t n hp hc
      · rw [if_neg hc] at hs; cases hs
    | fail => simp [pipeReset] at hs
  · rename_i hp
    simp at hs; obtain ⟨rfl, rfl⟩ := hs
    cases hq : t.shouldShutdown
    · simpa [hq] using InRel.wait t n hp hq
    · simpa [hq] using InRel.stop t n hp hq
  · rename_i hp
    simp at hs; obtain ⟨rfl, rfl⟩ := hs; exact .selectIntr t n hp
  · cases hs
  · rename_i tty hp
    cases tty with
    | true => simp at hs; obtain ⟨rfl, rfl⟩ := hs; exact .readable t n hp
    | false =>
      by_cases hc : t.wakeup = 0
      · simp [hc] at hs
      · simp [hc] at hs; obtain ⟨rfl, rfl⟩ := hs; exact .woken t n hp hc
  · rename_i hp
    simp at hs; obtain ⟨rfl, rfl⟩ := hs; exact .readIntr t n hp
  · rename_i hp
    simp at hs; obtain ⟨rfl, rfl⟩ := hs; exact .readFail t n hp
  · rename_i d hp
    by_cases hc : 1 ≤ d.length ∧ d.length ≤ 4096
    · rw [if_pos hc] at hs; simp at hs; obtain ⟨rfl, rfl⟩ := hs
      exact .data t n d hp hc.1 hc.2
    · rw [if_neg hc] at hs; cases hs
  · rename_i d k ok hp
    by_cases hn : d.length < k
    · rw [if_pos hn] at hs; cases hs
    · rw [if_neg hn] at hs; simp only [Step.ok.injEq, Prod.mk.injEq] at hs; obtain ⟨rfl, rfl⟩ := hs
      by_cases hc : (!ok || decide (k ≠ d.length)) = true
      · simp only [hc, if_true, Bool.or_assoc, Bool.or_true]
        refine .writeFail t n d k ok hp (by omega) fun h => ?_
        simp [h] at hc; exact hc
      · simp at hc
        obtain ⟨rfl, rfl⟩ := hc
        simpa using InRel.wrote t n d hp
  · rename_i hp
    simp at hs; obtain ⟨rfl, rfl⟩ := hs; exact .complete t n hp
  · rename_i hp
    simp at hs; obtain ⟨rfl, rfl⟩ := hs; exact .wakeIntr t n hp
  · rename_i hp
    simp at hs; obtain ⟨rfl, rfl⟩ := hs; exact .wake t n hp
  · cases hs

/-- The steps of an output thread. -/
inductive OutRel (cap : Nat) : Out → Nat → OutAns → Out → Nat → Prop
  | readFail (t n) : t.pc = .read → OutRel cap t n .fail { t with pc := .complete } n
  | data (t n d) : t.pc = .read → 1 ≤ d.length → d.length ≤ 4096 →
      OutRel cap t n (.data d) { t with pc := .write d 0, taken := t.taken ++ d } n
  | writeIntr (t n d k) : t.pc = .write d k → OutRel cap t n .intr t n
  | writeFail (t n d k) : t.pc = .write d k →
      OutRel cap t n .fail { t with pc := .complete, failed := true } n
  | short (t n d k m) : t.pc = .write d k → 1 ≤ m → k + m < d.length →
      OutRel cap t n (.wrote m)
        { t with pc := .write d (k + m), given := t.given ++ (d.drop k).take m } n
  | wrote (t n d k) : t.pc = .write d k → k < d.length →
      OutRel cap t n (.wrote (d.length - k)) { t with pc := .read, given := t.given ++ d.drop k } n
  | complete (t n) : t.pc = .complete →
      OutRel cap t n .go { t with pc := .wake, completed := true } n
  | wakeIntr (t n) : t.pc = .wake → OutRel cap t n .intr t n
  | wake (t n) : t.pc = .wake → OutRel cap t n .go { t with pc := .ended } (pipeSet cap n)

theorem outRel_of {cap : Nat} {t t' : Out} {n n' : Nat} {a : OutAns}
    (hs : outStep cap t n a = .ok (t', n')) : OutRel cap t n a t' n' := by
  unfold outStep at hs
  split at hs
  · rename_i hp
    simp at hs; obtain ⟨rfl, rfl⟩ := hs; exact .readFail t n hp
  · rename_i d hp
    by_cases hc : 1 ≤ d.length ∧ d.length ≤ 4096
    · rw [if_pos hc] at hs; simp at hs; obtain ⟨rfl, rfl⟩ := hs
      exact .data t n d hp hc.1 hc.2
    · rw [if_neg hc] at hs; cases hs
  · rename_i d k hp
    simp at hs; obtain ⟨rfl, rfl⟩ := hs; exact .writeIntr t n d k hp
  · rename_i d k hp
    simp at hs; obtain ⟨rfl, rfl⟩ := hs; exact .writeFail t n d k hp
  · rename_i d k m hp
    by_cases h0 : m = 0
    · rw [if_pos h0] at hs; cases hs
    · rw [if_neg h0] at hs
      by_cases hc : ¬ m ≤ d.length - k
      · rw [if_pos hc] at hs; cases hs
      · rw [if_neg hc] at hs
        simp only [Step.ok.injEq, Prod.mk.injEq] at hs; obtain ⟨rfl, rfl⟩ := hs
        by_cases hl : k + m < d.length
        · simp only [hl, if_true]
          exact .short t n d k m hp (by omega) hl
        · simp only [hl, if_false]
          have e : m = d.length - k := by omega
          subst e
          rw [List.take_of_length_le (by simp)]
          exact .wrote t n d k hp (by omega)
  · rename_i hp
    simp at hs; obtain ⟨rfl, rfl⟩ := hs; exact .complete t n hp
  · rename_i hp
    simp at hs; obtain ⟨rfl, rfl⟩ := hs; exact .wakeIntr t n hp
  · rename_i hp
    simp at hs; obtain ⟨rfl, rfl⟩ := hs; exact .wake t n hp
  · cases hs

/-- The steps of the main thread. -/
inductive MainRel (cfg : Cfg) : A → MainAns → A → Prop
  | start (s) : s.main = .start → MainRel cfg s .go { s with main := .opening, sz := s.tty }
  | startFail (s) : s.main = .start →
      MainRel cfg s .fail { s with main := .opening, sz := ⟨80, 25, 0, 0⟩ }
  | opened (s) : s.main = .opening →
      MainRel cfg s .go { s with main := .register, session := some (s.sz.cols, s.sz.rows) }
  | openFail (s) : s.main = .opening → MainRel cfg s .fail { s with main := .done 1 }
  | register (s) : s.main = .register → MainRel cfg s .go { s with main := .raw, registered := true }
  | raw (s) : s.main = .raw → MainRel cfg s .go { s with main := .startIn }
  | rawFail (s) : s.main = .raw → MainRel cfg s .fail { s with main := .done 1 }
  | startIn (s) : s.main = .startIn →
      MainRel cfg s .go { s with main := .startOut, inp := { s.inp with pc := .reset } }
  | startOut (s) : s.main = .startOut →
      MainRel cfg s .go { s with main := .startErr, out := { s.out with pc := .read } }
  | startErr (s) : s.main = .startErr → cfg.conerr = true →
      MainRel cfg s .go { s with main := .select, err := { s.err with pc := .read } }
  | noErr (s) : s.main = .startErr → cfg.conerr = false →
      MainRel cfg s .go { s with main := .select }
  | woken (s) : s.main = .select → s.mainPipe ≠ 0 → MainRel cfg s .go { s with main := .reset }
  | intr (s) : s.main = .select → MainRel cfg s .intr { s with main := .reset }
  | drained (s) : s.main = .reset → s.mainPipe = 0 →
      MainRel cfg s (.reset .empty) { s with main := .size }
  | drain (s k) : s.main = .reset → 1 ≤ k → k ≤ s.mainPipe →
      MainRel cfg s (.reset (.took k)) { s with mainPipe := s.mainPipe - k }
  | size (s) : s.main = .size → s.sz ≠ s.tty →
      MainRel cfg s .go
        { s with sz := s.tty, session := some (s.tty.cols, s.tty.rows), main := .checkIn }
  | sameSize (s) : s.main = .size → s.sz = s.tty → MainRel cfg s .go { s with main := .checkIn }
  | badSize (s z) : s.main = .size → s.sz ≠ z →
      MainRel cfg s (.noSize z)
        { s with sz := z, session := some (z.cols, z.rows), main := .checkIn }
  | badSame (s z) : s.main = .size → s.sz = z → MainRel cfg s (.noSize z) { s with main := .checkIn }
  | inDone (s) : s.main = .checkIn → s.inp.completed = true → MainRel cfg s .go { s with main := .free }
  | inOn (s) : s.main = .checkIn → s.inp.completed = false →
      MainRel cfg s .go { s with main := .checkOut }
  | outDone (s) : s.main = .checkOut → s.out.completed = true →
      MainRel cfg s .go { s with main := .free }
  | outOn (s) : s.main = .checkOut → s.out.completed = false →
      MainRel cfg s .go { s with main := .checkErr }
  | errDone (s) : s.main = .checkErr → cfg.conerr = true → s.err.completed = true →
      MainRel cfg s .go { s with main := .free }
  | errOn (s) : s.main = .checkErr → ¬ (cfg.conerr = true ∧ s.err.completed = true) →
      MainRel cfg s .go { s with main := .select }
  | free (s) : s.main = .free → MainRel cfg s .go { s with main := .stopIn, freed := true }
  | stopIn (s) : s.main = .stopIn →
      MainRel cfg s .go { s with main := .wakeIn, inp := { s.inp with shouldShutdown := true } }
  | wakeIntr (s) : s.main = .wakeIn → MainRel cfg s .intr s
  | wakeIn (s) : s.main = .wakeIn →
      MainRel cfg s .go
        { s with main := .joinIn, inp := { s.inp with wakeup := pipeSet cfg.cap s.inp.wakeup } }
  | joinIn (s) : s.main = .joinIn → s.inp.pc = .ended → MainRel cfg s .go { s with main := .joinOut }
  | joinOut (s) : s.main = .joinOut → s.out.pc = .ended → MainRel cfg s .go { s with main := .joinErr }
  | joinErr (s) : s.main = .joinErr → (cfg.conerr = false ∨ s.err.pc = .ended) →
      MainRel cfg s .go { s with main := .restore }
  | restore (s) : s.main = .restore → MainRel cfg s .go { s with main := .exitCode }
  | restoreFail (s) : s.main = .restore → MainRel cfg s .fail { s with main := .done 1 }
  | code (s c) : s.main = .exitCode → MainRel cfg s (.code c) { s with main := .done (c.getD 1) }

theorem mainRel_of {cfg : Cfg} {s s' : A} {a : MainAns} (hs : mainStep cfg s a = .ok s') :
    MainRel cfg s a s' := by
  unfold mainStep at hs
  split at hs
  case h_1 hp => simp at hs; subst hs; exact .start s hp
  case h_2 hp => simp at hs; subst hs; exact .startFail s hp
  case h_3 hp => simp at hs; subst hs; exact .opened s hp
  case h_4 hp => simp at hs; subst hs; exact .openFail s hp
  case h_5 hp => simp at hs; subst hs; exact .register s hp
  case h_6 hp => simp at hs; subst hs; exact .raw s hp
  case h_7 hp => simp at hs; subst hs; exact .rawFail s hp
  case h_8 hp => simp at hs; subst hs; exact .startIn s hp
  case h_9 hp => simp at hs; subst hs; exact .startOut s hp
  case h_10 hp =>
    simp only [Step.ok.injEq] at hs; subst hs
    cases hc : cfg.conerr
    · exact .noErr s hp hc
    · exact .startErr s hp hc
  case h_11 hp =>
    split at hs
    · cases hs
    · rename_i hc; simp at hs; subst hs; exact .woken s hp hc
  case h_12 hp => simp at hs; subst hs; exact .intr s hp
  case h_13 hp => cases hs
  case h_14 r hp =>
    cases r with
    | took k =>
      simp only [pipeReset] at hs
      by_cases hc : 1 ≤ k ∧ k ≤ s.mainPipe ∧ k ≤ 256
      · rw [if_pos hc] at hs; simp at hs; subst hs
        exact .drain s k hp hc.1 hc.2.1
      · rw [if_neg hc] at hs; cases hs
    | empty =>
      simp only [pipeReset] at hs
      by_cases hc : s.mainPipe = 0
      · rw [if_pos hc] at hs; simp at hs; subst hs
        exact .drained s hp hc
      · rw [if_neg hc] at hs; cases hs
    | fail => simp [pipeReset] at hs
  case h_15 hp =>
    simp only [Step.ok.injEq] at hs; subst hs
    unfold checkSize; split
    · rename_i h; exact .size s hp h
    · rename_i h; exact .sameSize s hp (by simpa using h)
  case h_16 z hp =>
    simp only [Step.ok.injEq] at hs; subst hs
    unfold checkSize; split
    · rename_i h; exact .badSize s z hp h
    · rename_i h; exact .badSame s z hp (by simpa using h)
  case h_17 hp =>
    simp only [Step.ok.injEq] at hs; subst hs
    cases hc : s.inp.completed
    · exact .inOn s hp hc
    · exact .inDone s hp hc
  case h_18 hp =>
    simp only [Step.ok.injEq] at hs; subst hs
    cases hc : s.out.completed
    · exact .outOn s hp hc
    · exact .outDone s hp hc
  case h_19 hp =>
    simp only [Step.ok.injEq] at hs; subst hs
    cases hc : cfg.conerr <;> cases hd : s.err.completed
    · exact .errOn s hp (by simp [hc])
    · exact .errOn s hp (by simp [hc])
    · exact .errOn s hp (by simp [hd])
    · exact .errDone s hp hc hd
  case h_20 hp => simp at hs; subst hs; exact .free s hp
  case h_21 hp => simp at hs; subst hs; exact .stopIn s hp
  case h_22 hp => simp at hs; subst hs; exact .wakeIntr s hp
  case h_23 hp => simp at hs; subst hs; exact .wakeIn s hp
  case h_24 hp =>
    split at hs
    · rename_i hc; simp at hs; subst hs; exact .joinIn s hp hc
    · cases hs
  case h_25 hp =>
    split at hs
    · rename_i hc; simp at hs; subst hs; exact .joinOut s hp hc
    · cases hs
  case h_26 hp =>
    split at hs
    · rename_i hc; simp at hs; subst hs; exact .joinErr s hp hc
    · cases hs
  case h_27 hp => simp at hs; subst hs; exact .restore s hp
  case h_28 hp => simp at hs; subst hs; exact .restoreFail s hp
  case h_29 c hp => simp at hs; subst hs; exact .code s c hp
  case h_30 => cases hs

theorem inStep_abort {cap : Nat} {t : In} {n : Nat} {a : InAns} (h : inStep cap t n a = .abort) :
    (t.pc = .select ∧ a = .fail) ∨ (t.pc = .reset ∧ a = .reset .fail) := by
  unfold inStep at h
  split at h <;> (try cases h)
  · rename_i r hp
    cases r with
    | fail => exact .inr ⟨hp, rfl⟩
    | took k => simp only [pipeReset] at h; split at h <;> (try cases h); rename_i hq; split at hq <;> cases hq
    | empty => simp only [pipeReset] at h; split at h <;> (try cases h); rename_i hq; split at hq <;> cases hq
  · rename_i hp; exact .inl ⟨hp, rfl⟩
  all_goals (repeat' split at h) <;> cases h

theorem outStep_abort {cap : Nat} {t : Out} {n : Nat} {a : OutAns} (h : outStep cap t n a = .abort) :
    ∃ d k m, t.pc = .write d k ∧ a = .wrote m ∧ d.length < k + m := by
  unfold outStep at h
  split at h <;> (try cases h)
  · split at h <;> cases h
  · rename_i d k m hp
    split at h
    · cases h
    · split at h
      · exact ⟨d, k, m, hp, rfl, by omega⟩
      · cases h

theorem mainStep_abort {cfg : Cfg} {s : A} {a : MainAns} (h : mainStep cfg s a = .abort) :
    (s.main = .select ∧ a = .fail) ∨ (s.main = .reset ∧ a = .reset .fail) := by
  unfold mainStep at h
  split at h <;> (try cases h)
  case h_14 r hp =>
    cases r with
    | fail => exact .inr ⟨hp, rfl⟩
    | took k => simp only [pipeReset] at h; split at h <;> (try cases h); rename_i hq; split at hq <;> cases hq
    | empty => simp only [pipeReset] at h; split at h <;> (try cases h); rename_i hq; split at hq <;> cases hq
  case h_13 hp => exact .inl ⟨hp, rfl⟩
  all_goals (repeat' split at h) <;> cases h

/-- The steps of the adapter. -/
inductive Rel (cfg : Cfg) : A → Label → A → Prop
  | abort (s l) : Aborts s l → Rel cfg s l { s with aborted := true }
  | main (s a s') : MainRel cfg s a s' → Rel cfg s (.main a) s'
  | inp (s a t n) : InRel cfg.cap s.inp s.mainPipe a t n → Rel cfg s (.inp a) { s with inp := t, mainPipe := n }
  | out (s a t n) : OutRel cfg.cap s.out s.mainPipe a t n → Rel cfg s (.out a) { s with out := t, mainPipe := n }
  | err (s a t n) : OutRel cfg.cap s.err s.mainPipe a t n → Rel cfg s (.err a) { s with err := t, mainPipe := n }
  | resize (s z) : Rel cfg s (.resize z) { s with tty := z, owed := true }
  | deliver (s) : s.owed = true → s.registered = true →
      Rel cfg s .deliver { s with owed := false, mainPipe := pipeSet cfg.cap s.mainPipe }
  | ignored (s) : s.owed = true → s.registered = false → Rel cfg s .deliver { s with owed := false }

theorem rel_of {cfg : Cfg} {s s' : A} {l : Label} (hs : step cfg s l = some s') :
    Rel cfg s l s' ∧ over s = false := by
  unfold step at hs
  split at hs
  · cases hs
  · rename_i hov
    refine ⟨?_, by simpa using hov⟩
    split at hs
    · split at hs
      · cases hs
      · rename_i h; simp at hs; subst hs
        rcases mainStep_abort h with ⟨h', rfl⟩ | ⟨h', rfl⟩
        · exact .abort s _ (.mainSelect h')
        · exact .abort s _ (.mainReset h')
      · rename_i h; simp at hs; subst hs; exact .main s _ _ (mainRel_of h)
    · split at hs
      · cases hs
      · rename_i h; simp at hs; subst hs
        rcases inStep_abort h with ⟨h', rfl⟩ | ⟨h', rfl⟩
        · exact .abort s _ (.inSelect h')
        · exact .abort s _ (.inReset h')
      · rename_i h; simp at hs; subst hs; exact .inp s _ _ _ (inRel_of h)
    · split at hs
      · cases hs
      · rename_i h; simp at hs; subst hs
        obtain ⟨d, k, m, h1, rfl, h2⟩ := outStep_abort h
        exact .abort s _ (.outWrote d k m h1 h2)
      · rename_i h; simp at hs; subst hs; exact .out s _ _ _ (outRel_of h)
    · split at hs
      · cases hs
      · rename_i h; simp at hs; subst hs
        obtain ⟨d, k, m, h1, rfl, h2⟩ := outStep_abort h
        exact .abort s _ (.errWrote d k m h1 h2)
      · rename_i h; simp at hs; subst hs; exact .err s _ _ _ (outRel_of h)
    · simp at hs; subst hs; exact .resize s _
    · split at hs
      · rename_i ho
        cases hr : s.registered
        · simp [hr] at hs; subst hs; simpa [hr] using Rel.ignored (cfg := cfg) s ho hr
        · simp [hr] at hs; subst hs; simpa [hr] using Rel.deliver (cfg := cfg) s ho hr
      · cases hs

/-- What holds at first and is kept by every step holds after every history. -/
theorem run_inv {cfg : Cfg} (P : A → Prop) (hP : ∀ s l s', P s → Rel cfg s l s' → P s')
    {s s' : A} {ls : List Label} (h : P s) (hr : run cfg s ls = some s') : P s' := by
  induction ls generalizing s with
  | nil => simp [run] at hr; subst hr; exact h
  | cons l ls ih =>
    simp only [run] at hr
    split at hr
    · cases hr
    · rename_i s1 h1
      exact ih (hP _ _ _ h (rel_of h1).1) hr

/-! ## The relayed data -/

/-- Where an input thread's data is. -/
def InData (t : In) : Prop :=
  match t.pc with
  | .write d => t.taken = t.given ++ d ∧ d.length ≤ 4096 ∧ t.failed = false
  | .notStarted | .reset | .check | .select | .read => t.taken = t.given ∧ t.failed = false
  | .complete | .wake | .ended =>
    ∃ rest, t.taken = t.given ++ rest ∧ rest.length ≤ 4096 ∧ (t.failed = false → rest = [])

theorem inRel_data {cap : Nat} {t t' : In} {n n' : Nat} {a : InAns} (h : InData t)
    (hs : InRel cap t n a t' n') : InData t' := by
  cases hs with
  | drained hp | stop hp | wait hp | selectIntr hp | readable hp | woken hp | readIntr hp | readFail hp =>
    simp_all [InData]
  | drain k hp | data d hp | complete hp | wake hp => simp_all [InData]
  | wakeIntr hp => exact h
  | wrote d hp => simp_all [InData]
  | writeFail d k ok hp hk _ =>
    simp only [InData, hp] at h
    refine ⟨d.drop k, ?_, by simp; omega, by simp⟩
    show t.taken = t.given ++ d.take k ++ d.drop k
    rw [h.1, List.append_assoc, List.take_append_drop]

/-- Where an output thread's data is. -/
def OutData (t : Out) : Prop :=
  match t.pc with
  | .write d k => t.taken = t.given ++ d.drop k ∧ d.length ≤ 4096 ∧ k < d.length ∧ t.failed = false
  | .notStarted | .read => t.taken = t.given ∧ t.failed = false
  | .complete | .wake | .ended =>
    ∃ rest, t.taken = t.given ++ rest ∧ rest.length ≤ 4096 ∧ (t.failed = false → rest = [])

theorem outRel_data {cap : Nat} {t t' : Out} {n n' : Nat} {a : OutAns} (h : OutData t)
    (hs : OutRel cap t n a t' n') : OutData t' := by
  cases hs with
  | readFail hp => simp_all [OutData]
  | data d hp h1 h2 => simp only [OutData, hp] at h; simp [OutData, h, h2]; omega
  | writeIntr d k hp => exact h
  | writeFail d k hp =>
    simp only [OutData, hp] at h
    exact ⟨d.drop k, h.1, by simp; omega, by simp⟩
  | short d k m hp hm hl =>
    simp only [OutData, hp] at h
    refine ⟨?_, h.2.1, hl, h.2.2.2⟩
    show t.taken = t.given ++ (d.drop k).take m ++ d.drop (k + m)
    rw [h.1, List.append_assoc, ← List.drop_drop, List.take_append_drop]
  | wrote d k hp hl => simp_all [OutData]
  | complete hp | wake hp => simp_all [OutData]
  | wakeIntr hp => exact h

/-- All the data. -/
structure Data (s : A) : Prop where
  inp : InData s.inp
  out : OutData s.out
  err : OutData s.err
  inNot : s.main = .start ∨ s.main = .opening ∨ s.main = .register ∨ s.main = .raw ∨ s.main = .startIn →
    s.inp.pc = .notStarted
  outNot : s.main = .start ∨ s.main = .opening ∨ s.main = .register ∨ s.main = .raw ∨
    s.main = .startIn ∨ s.main = .startOut → s.out.pc = .notStarted
  errNot : s.main = .start ∨ s.main = .opening ∨ s.main = .register ∨ s.main = .raw ∨
    s.main = .startIn ∨ s.main = .startOut ∨ s.main = .startErr → s.err.pc = .notStarted

theorem inRel_started {cap : Nat} {t t' : In} {n n' : Nat} {a : InAns} (hs : InRel cap t n a t' n') :
    t.pc ≠ .notStarted ∧ t'.pc ≠ .notStarted := by
  cases hs <;> simp_all

theorem outRel_started {cap : Nat} {t t' : Out} {n n' : Nat} {a : OutAns}
    (hs : OutRel cap t n a t' n') : t.pc ≠ .notStarted ∧ t'.pc ≠ .notStarted := by
  cases hs <;> simp_all

theorem data_step {cfg : Cfg} (s : A) (l : Label) (s' : A) (h : Data s) (hr : Rel cfg s l s') :
    Data s' := by
  obtain ⟨h1, h2, h3, h4, h5, h6⟩ := h
  cases hr with
  | abort => exact ⟨h1, h2, h3, h4, h5, h6⟩
  | resize => exact ⟨h1, h2, h3, h4, h5, h6⟩
  | deliver => exact ⟨h1, h2, h3, h4, h5, h6⟩
  | ignored => exact ⟨h1, h2, h3, h4, h5, h6⟩
  | inp a t n hr => exact ⟨inRel_data h1 hr, h2, h3, fun h => absurd (h4 h) (inRel_started hr).1, h5, h6⟩
  | out a t n hr => exact ⟨h1, outRel_data h2 hr, h3, h4, fun h => absurd (h5 h) (outRel_started hr).1, h6⟩
  | err a t n hr => exact ⟨h1, h2, outRel_data h3 hr, h4, h5, fun h => absurd (h6 h) (outRel_started hr).1⟩
  | main a s' hm =>
    cases hm with
    | startIn hp =>
      have := h4 (by simp [hp])
      refine ⟨?_, h2, h3, by simp, fun _ => h5 (by simp [hp]), fun _ => h6 (by simp [hp])⟩
      simp only [InData, this] at h1; exact h1
    | startOut hp =>
      have := h5 (by simp [hp])
      refine ⟨h1, ?_, h3, by simp, by simp, fun _ => h6 (by simp [hp])⟩
      simp only [OutData, this] at h2; exact h2
    | startErr hp hc =>
      have := h6 (by simp [hp])
      refine ⟨h1, h2, ?_, by simp, by simp, by simp⟩
      simp only [OutData, this] at h3; exact h3
    | wakeIntr hp => exact ⟨h1, h2, h3, h4, h5, h6⟩
    | drain k hp => exact ⟨h1, h2, h3, h4, h5, h6⟩
    | stopIn hp => exact ⟨h1, h2, h3, by simp, by simp, by simp⟩
    | wakeIn hp => exact ⟨h1, h2, h3, by simp, by simp, by simp⟩
    | _ hp => exact ⟨h1, h2, h3, by simp_all, by simp_all, by simp_all⟩

theorem data_init (z : WinSize) : Data (init z) :=
  ⟨⟨rfl, rfl⟩, ⟨rfl, rfl⟩, ⟨rfl, rfl⟩, fun _ => rfl, fun _ => rfl, fun _ => rfl⟩

/-! ## Wake-ups -/

theorem pipeSet_pos {cap : Nat} (hc : 1 ≤ cap) (n : Nat) : 1 ≤ pipeSet cap n := by
  unfold pipeSet; split <;> omega

theorem pipeSet_ge (cap n : Nat) : n ≤ pipeSet cap n ∧ pipeSet cap n ≤ n + 1 := by
  unfold pipeSet; split <;> omega

/-- The flags, and the bytes that have to be in the wake-up pipes. -/
structure Wake (cfg : Cfg) (s : A) : Prop where
  inFlag : s.inp.completed = true ↔ s.inp.pc = .wake ∨ s.inp.pc = .ended
  outFlag : s.out.completed = true ↔ s.out.pc = .wake ∨ s.out.pc = .ended
  errFlag : s.err.completed = true ↔ s.err.pc = .wake ∨ s.err.pc = .ended
  /-- the shutdown flag is set once it has been asked for -/
  asked : Asked s ∨ s.main = .wakeIn → s.inp.shouldShutdown = true ∨ ∃ c, s.main = .done c
  /-- the input thread will be woken -/
  wakeup : s.main = .joinIn → s.inp.pc = .select ∨ s.inp.pc = .read ∨ (∃ d, s.inp.pc = .write d) →
    1 ≤ s.inp.wakeup
  /-- the main thread will be woken -/
  inWake : s.main = .startOut ∨ s.main = .startErr ∨ s.main = .select ∨ s.main = .checkOut ∨
    s.main = .checkErr → s.inp.pc = .ended → 1 ≤ s.mainPipe
  outWake : s.main = .startErr ∨ s.main = .select ∨ s.main = .checkErr → s.out.pc = .ended →
    1 ≤ s.mainPipe
  errWake : cfg.conerr = true → s.main = .select → s.err.pc = .ended → 1 ≤ s.mainPipe
  errNone : cfg.conerr = false → s.err.pc = .notStarted
  data : Data s

/-- What a step of the input thread does to flags and pipes. -/
theorem inRel_flag {cap : Nat} {t t' : In} {n n' : Nat} {a : InAns} (hs : InRel cap t n a t' n')
    (h : t.completed = true ↔ t.pc = .wake ∨ t.pc = .ended) :
    (t'.completed = true ↔ t'.pc = .wake ∨ t'.pc = .ended) ∧ n ≤ n' ∧
      t'.shouldShutdown = t.shouldShutdown ∧ t.pc ≠ .ended ∧ (t.completed = true → t'.completed = true) ∧
      (t'.pc = .ended → t.completed = true ∧ n' = pipeSet cap n) ∧
      (t.shouldShutdown = true → t'.pc = .select ∨ t'.pc = .read ∨ (∃ d, t'.pc = .write d) →
        (t.pc = .select ∨ t.pc = .read ∨ (∃ d, t.pc = .write d)) ∧ t'.wakeup = t.wakeup) := by
  cases hs <;> simp_all [(pipeSet_ge cap n).1]

theorem outRel_flag {cap : Nat} {t t' : Out} {n n' : Nat} {a : OutAns} (hs : OutRel cap t n a t' n')
    (h : t.completed = true ↔ t.pc = .wake ∨ t.pc = .ended) :
    (t'.completed = true ↔ t'.pc = .wake ∨ t'.pc = .ended) ∧ n ≤ n' ∧ t.pc ≠ .ended ∧
      (t.completed = true → t'.completed = true) ∧
      (t'.pc = .ended → t.completed = true ∧ n' = pipeSet cap n) := by
  cases hs <;> simp_all [(pipeSet_ge cap n).1]

theorem wake_step {cfg : Cfg} (hc : 1 ≤ cfg.cap) (s : A) (l : Label) (s' : A) (h : Wake cfg s)
    (hr : Rel cfg s l s') : Wake cfg s' := by
  have hd := data_step s l s' h.data hr
  obtain ⟨h1, h2, h3, h4, h5, h6, h7, h8, h9, h10⟩ := h
  cases hr with
  | abort => exact ⟨h1, h2, h3, h4, h5, h6, h7, h8, h9, hd⟩
  | resize => exact ⟨h1, h2, h3, h4, h5, h6, h7, h8, h9, hd⟩
  | ignored => exact ⟨h1, h2, h3, h4, h5, h6, h7, h8, h9, hd⟩
  | deliver =>
    exact ⟨h1, h2, h3, h4, h5, fun _ _ => pipeSet_pos hc _, fun _ _ => pipeSet_pos hc _,
      fun _ _ _ => pipeSet_pos hc _, h9, hd⟩
  | inp a t n hr =>
    obtain ⟨g1, g2, g3, g4, g5, g6, g7⟩ := inRel_flag hr h1
    refine ⟨g1, h2, h3, fun h => ?_, fun hm hp => ?_, fun hm he => ?_, fun hm he => ?_, fun hc hm he => ?_,
      h9, hd⟩
    · rcases h4 h with h | h
      · exact .inl (g3.trans h)
      · exact .inr h
    · have hs : s.inp.shouldShutdown = true := by
        rcases h4 (.inl (.inl hm)) with h | ⟨c, h⟩
        · exact h
        · have : s.main = .joinIn := hm
          rw [this] at h; cases h
      obtain ⟨e1, e2⟩ := g7 hs hp
      have := h5 hm e1
      show 1 ≤ t.wakeup
      omega
    · show 1 ≤ n
      rw [(g6 he).2]; exact pipeSet_pos hc _
    · have := h7 hm he
      show 1 ≤ n
      omega
    · have := h8 hc hm he
      show 1 ≤ n
      omega
  | out a t n hr =>
    obtain ⟨g1, g2, g3, g4, g5⟩ := outRel_flag hr h2
    refine ⟨h1, g1, h3, h4, h5, fun hm he => ?_, fun hm he => ?_, fun hc hm he => ?_, h9, hd⟩
    · have := h6 hm he
      show 1 ≤ n
      omega
    · show 1 ≤ n
      rw [(g5 he).2]; exact pipeSet_pos hc _
    · have := h8 hc hm he
      show 1 ≤ n
      omega
  | err a t n hr =>
    obtain ⟨g1, g2, g3, g4, g5⟩ := outRel_flag hr h3
    refine ⟨h1, h2, g1, h4, h5, fun hm he => ?_, fun hm he => ?_, fun hc hm he => ?_, fun hn => ?_, hd⟩
    · have := h6 hm he
      show 1 ≤ n
      omega
    · have := h7 hm he
      show 1 ≤ n
      omega
    · show 1 ≤ n
      rw [(g5 he).2]; exact pipeSet_pos ‹_› _
    · exact absurd (h9 hn) (outRel_started hr).1
  | main a s' hm =>
    cases hm with
    | start hp | startFail hp | opened hp | openFail hp | register hp | raw hp | rawFail hp =>
      exact ⟨h1, h2, h3, by simp [Asked], by simp, by simp, by simp, by simp, h9, hd⟩
    | wakeIntr hp => exact ⟨h1, h2, h3, h4, h5, h6, h7, h8, h9, hd⟩
    | drain k hp => exact ⟨h1, h2, h3, h4, h5, by simp [hp], by simp [hp], by simp [hp], h9, hd⟩
    | startIn hp =>
      have := h10.inNot (by simp [hp])
      exact ⟨by simp_all, h2, h3, by simp [Asked], by simp, by simp, by simp, by simp, h9, hd⟩
    | startOut hp =>
      have := h10.outNot (by simp [hp])
      exact ⟨h1, by simp_all, h3, by simp [Asked], by simp, by simp_all, by simp, by simp, h9, hd⟩
    | startErr hp hc =>
      have := h10.errNot (by simp [hp])
      exact ⟨h1, h2, by simp_all, by simp [Asked], by simp, by simp_all, by simp_all, by simp_all, by simp_all, hd⟩
    | noErr hp hc =>
      exact ⟨h1, h2, h3, by simp [Asked], by simp, by simp_all, by simp_all, by simp_all, h9, hd⟩
    | woken hp | intr hp | drained hp | size hp | sameSize hp | badSize z hp | badSame z hp | inDone hp
    | outDone hp | errDone hp | free hp =>
      exact ⟨h1, h2, h3, by simp [Asked], by simp, by simp, by simp, by simp, h9, hd⟩
    | inOn hp hq =>
      exact ⟨h1, h2, h3, by simp [Asked], by simp, by simp_all, by simp, by simp, h9, hd⟩
    | outOn hp hq =>
      exact ⟨h1, h2, h3, by simp [Asked], by simp, by simp_all, by simp_all, by simp, h9, hd⟩
    | errOn hp hq =>
      exact ⟨h1, h2, h3, by simp [Asked], by simp, by simp_all, by simp_all, by simp_all, h9, hd⟩
    | stopIn hp =>
      exact ⟨h1, h2, h3, by simp [Asked], by simp, by simp, by simp, by simp, h9, hd⟩
    | wakeIn hp =>
      refine ⟨h1, h2, h3, fun _ => ?_, fun _ _ => pipeSet_pos hc _, by simp, by simp, by simp, h9, hd⟩
      rcases h4 (.inr hp) with h | ⟨c, h⟩
      · exact .inl h
      · rw [hp] at h; cases h
    | joinIn hp | joinOut hp | joinErr hp | restore hp =>
      refine ⟨h1, h2, h3, fun _ => ?_, by simp, by simp, by simp, by simp, h9, hd⟩
      rcases h4 (.inl (by simp [Asked, hp])) with h | ⟨c, h⟩
      · exact .inl h
      · rw [hp] at h; cases h
    | restoreFail hp | code c hp =>
      exact ⟨h1, h2, h3, fun _ => .inr ⟨_, rfl⟩, by simp, by simp, by simp, by simp, h9, hd⟩

theorem wake_init (cfg : Cfg) (z : WinSize) : Wake cfg (init z) :=
  ⟨by simp [init], by simp [init], by simp [init], by simp [init, Asked], by simp [init], by simp [init],
    by simp [init], by simp [init], fun _ => rfl, data_init z⟩

/-- How many steps the input thread can still make. -/
def inRank (t : In) : Nat :=
  match t.pc with
  | .notStarted => 8 + t.wakeup
  | .select => 7 + t.wakeup
  | .read => 6 + t.wakeup
  | .write _ => 5 + t.wakeup
  | .reset => 4 + t.wakeup
  | .check => 3
  | .complete => 2
  | .wake => 1
  | .ended => 0

theorem inRank_step {cap : Nat} {t t' : In} {n n' : Nat} {a : InAns} (hs : InRel cap t n a t' n')
    (h : t.shouldShutdown = true) :
    inRank t' + inputCalls [.inp a] ≤ inRank t ∧ t'.shouldShutdown = true := by
  cases hs <;> simp_all [inRank, inputCalls] <;> omega

/-- How many steps the main thread can still make when a handler has finished. -/
def mainRank (cfg : Cfg) (s : A) : Nat :=
  match s.main with
  | .done _ => 0
  | .exitCode => 1
  | .restore => 2
  | .joinErr => 3
  | .joinOut => 4
  | .joinIn => 5
  | .wakeIn => 6
  | .stopIn => 7
  | .free => 8
  | .checkErr => if cfg.conerr && s.err.completed then 9 else 15 + s.mainPipe
  | .checkOut => if s.out.completed || (cfg.conerr && s.err.completed) then 10 else 16 + s.mainPipe
  | .checkIn => 11
  | .size => 12
  | .reset => 13 + s.mainPipe
  | .select => 14 + s.mainPipe
  | .startErr => 17 + s.mainPipe
  | .startOut => 18 + s.mainPipe
  | .startIn => 19 + s.mainPipe
  | .raw => 20 + s.mainPipe
  | .register => 21 + s.mainPipe
  | .opening => 22 + s.mainPipe
  | .start => 23 + s.mainPipe

/-- The threads that can still wake the main thread. -/
def running (s : A) : Nat :=
  (if s.inp.pc = .ended then 0 else 1) + (if s.out.pc = .ended then 0 else 1) +
    (if s.err.pc = .ended then 0 else 1)

theorem mainRank_pipe (cfg : Cfg) (s : A) (n : Nat) (h1 : s.mainPipe ≤ n) (h2 : n ≤ s.mainPipe + 1) :
    mainRank cfg { s with mainPipe := n } ≤ mainRank cfg s + (n - s.mainPipe) := by
  unfold mainRank
  cases s.main <;> simp only <;> (repeat' split) <;> omega

theorem mainRank_in (cfg : Cfg) (s : A) (t : In) : mainRank cfg { s with inp := t } = mainRank cfg s := rfl

theorem mainRank_out (cfg : Cfg) (s : A) (t : Out) (h : s.out.completed = true → t.completed = true) :
    mainRank cfg { s with out := t } ≤ mainRank cfg s := by
  unfold mainRank
  cases s.main <;> simp only <;> (try omega)
  split
  · split <;> omega
  · rename_i h1; split
    · rename_i h2
      simp only [Bool.or_eq_true] at h1 h2
      rcases h2 with h2 | h2
      · exact absurd (.inl (h h2)) h1
      · exact absurd (.inr h2) h1
    · omega

theorem mainRank_err (cfg : Cfg) (s : A) (t : Out) (h : s.err.completed = true → t.completed = true) :
    mainRank cfg { s with err := t } ≤ mainRank cfg s := by
  unfold mainRank
  cases s.main <;> simp only <;> (try omega)
  · split
    · split <;> omega
    · rename_i h1; split
      · rename_i h2
        simp only [Bool.or_eq_true, Bool.and_eq_true] at h1 h2
        rcases h2 with h2 | h2
        · exact absurd (.inl h2) h1
        · exact absurd (.inr ⟨h2.1, h h2.2⟩) h1
      · omega
  · split
    · split <;> omega
    · rename_i h1; split
      · rename_i h2
        simp only [Bool.and_eq_true] at h1 h2
        exact absurd ⟨h2.1, h h2.2⟩ h1
      · omega

theorem inRel_pipe {cap : Nat} {t t' : In} {n n' : Nat} {a : InAns} (hs : InRel cap t n a t' n') :
    n ≤ n' ∧ n' + (if t'.pc = .ended then 0 else 1) ≤ n + (if t.pc = .ended then 0 else 1) := by
  have := pipeSet_ge cap n
  cases hs <;> simp_all

theorem outRel_pipe {cap : Nat} {t t' : Out} {n n' : Nat} {a : OutAns} (hs : OutRel cap t n a t' n') :
    n ≤ n' ∧ n' + (if t'.pc = .ended then 0 else 1) ≤ n + (if t.pc = .ended then 0 else 1) := by
  have := pipeSet_ge cap n
  cases hs <;> simp_all

theorem mainRank_main {cfg : Cfg} {s s' : A} {a : MainAns} (h : SomeFinished cfg s)
    (hm : MainRel cfg s a s') : mainRank cfg s' + mainCalls [.main a] ≤ mainRank cfg s := by
  cases hm <;> simp_all [mainRank, mainCalls]
  case inOn hp hq =>
    rcases h with h | h | h
    · simp [hq] at h
    · simp [h]
    · simp [h]
  case outOn hp hq =>
    split <;> omega
  case errOn hp hq => rw [if_neg (by rintro ⟨h1, h2⟩; simp [hq h1] at h2)]; omega
  all_goals omega

/-- What keeps the main thread busy: its own steps, and bytes still to come from other threads. -/
theorem busy_step {cfg : Cfg} {s s' : A} {l : Label} (h : SomeFinished cfg s) (hw : Wake cfg s)
    (hr : Rel cfg s l s') :
    SomeFinished cfg s' ∧
      mainRank cfg s' + running s' + mainCalls [l] ≤ mainRank cfg s + running s + signals [l] ∨
      s'.aborted = true := by
  cases hr with
  | abort => exact .inr rfl
  | resize z => exact .inl ⟨h, by simp [mainCalls, signals]; exact Nat.le_refl _⟩
  | ignored => exact .inl ⟨h, by simp [mainCalls, signals]; exact Nat.le_succ _⟩
  | deliver =>
    refine .inl ⟨h, ?_⟩
    have := pipeSet_ge cfg.cap s.mainPipe
    have := mainRank_pipe cfg s (pipeSet cfg.cap s.mainPipe) (by omega) (by omega)
    show mainRank cfg { s with mainPipe := pipeSet cfg.cap s.mainPipe } + running s + 0 ≤ _
    simp only [signals]
    omega
  | inp a t n hr =>
    obtain ⟨g1, g2, g3, g4, g5, g6, g7⟩ := inRel_flag hr hw.inFlag
    refine .inl ⟨?_, ?_⟩
    · rcases h with h | h
      · exact .inl (g5 h)
      · exact .inr h
    · have p := inRel_pipe hr
      have q := mainRank_pipe cfg s n (by omega) (by have := p.2; (repeat' split at this) <;> omega)
      show mainRank cfg { s with mainPipe := n } + _ + _ ≤ _
      have e : mainCalls [.inp a] = 0 := rfl
      have e' : signals [.inp a] = 0 := rfl
      simp only [running, e, e']
      omega
  | out a t n hr =>
    obtain ⟨g1, g2, g3, g4, g5⟩ := outRel_flag hr hw.outFlag
    refine .inl ⟨?_, ?_⟩
    · rcases h with h | h | h
      · exact .inl h
      · exact .inr (.inl (g4 h))
      · exact .inr (.inr h)
    · have p := outRel_pipe hr
      have q := mainRank_pipe cfg s n (by omega) (by have := p.2; (repeat' split at this) <;> omega)
      have q' := mainRank_out cfg { s with mainPipe := n } t g4
      have e : mainCalls [.out a] = 0 := rfl
      have e' : signals [.out a] = 0 := rfl
      simp only [running, e, e']
      simp only at q'
      omega
  | err a t n hr =>
    obtain ⟨g1, g2, g3, g4, g5⟩ := outRel_flag hr hw.errFlag
    refine .inl ⟨?_, ?_⟩
    · rcases h with h | h | h
      · exact .inl h
      · exact .inr (.inl h)
      · exact .inr (.inr ⟨h.1, g4 h.2⟩)
    · have p := outRel_pipe hr
      have q := mainRank_pipe cfg s n (by omega) (by have := p.2; (repeat' split at this) <;> omega)
      have q' := mainRank_err cfg { s with mainPipe := n } t g4
      have e : mainCalls [.err a] = 0 := rfl
      have e' : signals [.err a] = 0 := rfl
      simp only [running, e, e']
      simp only at q'
      omega
  | main a s' hm =>
    refine .inl ⟨?_, ?_⟩
    · cases hm <;> exact h
    · have := mainRank_main h hm
      have e : signals [.main a] = 0 := rfl
      have : running s' ≤ running s := by
        have d := hw.data
        cases hm with
        | startIn hp => have := d.inNot (by simp [hp]); simp [running, this]
        | startOut hp => have := d.outNot (by simp [hp]); simp [running, this]
        | startErr hp => have := d.errNot (by simp [hp]); simp [running, this]
        | _ => exact Nat.le_refl _
      omega

theorem run_wake {cfg : Cfg} (hc : 1 ≤ cfg.cap) {z : WinSize} {ls : List Label} {s : A}
    (hr : run cfg (init z) ls = some s) : Wake cfg s :=
  run_inv (Wake cfg) (wake_step hc) (wake_init cfg z) hr

theorem mainCalls_cons (l : Label) (ls : List Label) : mainCalls (l :: ls) = mainCalls [l] + mainCalls ls := by
  rcases l with a | a | a | a | z | _ <;> (try (cases a <;> simp [mainCalls] <;> omega)) <;> simp [mainCalls]

theorem inputCalls_cons (l : Label) (ls : List Label) :
    inputCalls (l :: ls) = inputCalls [l] + inputCalls ls := by
  rcases l with a | a | a | a | z | _ <;> (try (cases a <;> simp [inputCalls] <;> omega)) <;>
    simp [inputCalls]

theorem signals_cons (l : Label) (ls : List Label) : signals (l :: ls) = signals [l] + signals ls := by
  rcases l with a | a | a | a | z | _ <;> simp [signals]; omega

theorem fromSession_append (a b : List Label) : fromSession (a ++ b) = fromSession a ++ fromSession b := by
  induction a with
  | nil => rfl
  | cons l ls ih =>
    rcases l with a | a | a | a | z | _ <;> (try (cases a <;> simp [fromSession, ih])) <;>
      simp [fromSession, ih]

theorem fromSessionErr_append (a b : List Label) :
    fromSessionErr (a ++ b) = fromSessionErr a ++ fromSessionErr b := by
  induction a with
  | nil => rfl
  | cons l ls ih =>
    rcases l with a | a | a | a | z | _ <;> (try (cases a <;> simp [fromSessionErr, ih])) <;>
      simp [fromSessionErr, ih]

theorem fromTerminal_append (a b : List Label) :
    fromTerminal (a ++ b) = fromTerminal a ++ fromTerminal b := by
  induction a with
  | nil => rfl
  | cons l ls ih =>
    rcases l with a | a | a | a | z | _ <;> (try (cases a <;> simp [fromTerminal, ih])) <;>
      simp [fromTerminal, ih]

/-- Induction over a history, from its beginning, with the history. -/
theorem run_hist {cfg : Cfg} (P : List Label → A → Prop)
    (hP : ∀ ls s l s', P ls s → Rel cfg s l s' → P (ls ++ [l]) s')
    {s s' : A} {ls : List Label} (h : P [] s) (hr : run cfg s ls = some s') : P ls s' := by
  have : ∀ (ls pre : List Label) (s s' : A), P pre s → run cfg s ls = some s' → P (pre ++ ls) s' := by
    intro ls
    induction ls with
    | nil => intro pre s s' h hr; simp [run] at hr; subst hr; simpa using h
    | cons l ls ih =>
      intro pre s s' h hr
      simp only [run] at hr
      split at hr
      · cases hr
      · rename_i s1 h1
        simpa using ih _ _ _ (hP _ _ _ _ h (rel_of h1).1) hr
  exact this ls [] s s' h hr

end Winpty.Adapter
