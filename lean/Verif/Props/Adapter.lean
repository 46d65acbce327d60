import Verif.Lemmas.Adapter

/-!
# Properties of the Unix adapter: C43, C44, C63, C64

Each holds for every interleaving of the threads and every sequence of answers of the operating
system (`List Label`).  `1 ≤ cfg.cap`: a pipe holds at least one byte.
-/
namespace Winpty.Props

open Winpty.Adapter Winpty.Spec.Relay

/-! ## C43: the relay -/

theorem out_taken {cfg : Cfg} {z : WinSize} {ls : List Label} {s : A}
    (hr : run cfg (init z) ls = some s) : s.out.taken = fromSession ls := by
  refine run_hist (cfg := cfg) (fun ls s => s.out.taken = fromSession ls) ?_ (by rfl) hr
  intro ls s l s' h hr
  rw [fromSession_append, ← h]
  cases hr with
  | abort l h => cases h <;> simp [fromSession]
  | main a s' hm => cases hm <;> simp [fromSession]
  | out a t n hr => cases hr <;> simp [fromSession]
  | _ => simp [fromSession]

theorem err_taken {cfg : Cfg} {z : WinSize} {ls : List Label} {s : A}
    (hr : run cfg (init z) ls = some s) : s.err.taken = fromSessionErr ls := by
  refine run_hist (cfg := cfg) (fun ls s => s.err.taken = fromSessionErr ls) ?_ (by rfl) hr
  intro ls s l s' h hr
  rw [fromSessionErr_append, ← h]
  cases hr with
  | abort l h => cases h <;> simp [fromSessionErr]
  | main a s' hm => cases hm <;> simp [fromSessionErr]
  | err a t n hr => cases hr <;> simp [fromSessionErr]
  | _ => simp [fromSessionErr]

theorem inp_taken {cfg : Cfg} {z : WinSize} {ls : List Label} {s : A}
    (hr : run cfg (init z) ls = some s) : s.inp.taken = fromTerminal ls := by
  refine run_hist (cfg := cfg) (fun ls s => s.inp.taken = fromTerminal ls) ?_ (by rfl) hr
  intro ls s l s' h hr
  rw [fromTerminal_append, ← h]
  cases hr with
  | abort l h => cases h <;> simp [fromTerminal]
  | main a s' hm => cases hm <;> simp [fromTerminal]
  | inp a t n hr => cases hr <;> simp [fromTerminal]
  | _ => simp [fromTerminal]

theorem outData_rest {t : Out} (h : OutData t)
    (hf : t.completed = true ↔ t.pc = .wake ∨ t.pc = .ended) :
    ∃ rest, t.taken = t.given ++ rest ∧ rest.length ≤ 4096 ∧ (t.pc = .read → rest = []) ∧
      (t.completed = true → t.failed = false → rest = []) := by
  rw [hf]
  unfold OutData at h
  split at h
  · rename_i d k hp
    exact ⟨_, h.1, by simp; omega, by simp [hp], by simp [hp]⟩
  · rename_i hp; exact ⟨[], by simp [h.1], by simp, by simp, by simp⟩
  · rename_i hp; exact ⟨[], by simp [h.1], by simp, by simp, by simp⟩
  all_goals
    rename_i hp
    obtain ⟨rest, h1, h2, h3⟩ := h
    exact ⟨rest, h1, h2, by simp [hp], fun _ => h3⟩

/-- C43.  From the session to the terminal: the terminal has got the bytes the session has delivered,
unchanged and in order, up to at most 4096 that are being written, however often writing was
interrupted or was short.  Whenever the thread waits for more output everything has been written, and
so it has when the thread reports that it is finished, unless the terminal refused it. -/
theorem C43_output (cfg : Cfg) (hc : 1 ≤ cfg.cap) (z : WinSize) (ls : List Label) (s : A)
    (hr : run cfg (init z) ls = some s) :
    ∃ rest, fromSession ls = s.out.given ++ rest ∧ rest.length ≤ 4096 ∧
      (s.out.pc = .read → rest = []) ∧
      (s.out.completed = true → s.out.failed = false → rest = []) := by
  have hw := run_wake hc hr
  rw [← out_taken hr]
  exact outData_rest hw.data.out hw.outFlag

/-- C43.  The same for `CONERR` and standard error. -/
theorem C43_error_output (cfg : Cfg) (hc : 1 ≤ cfg.cap) (z : WinSize) (ls : List Label) (s : A)
    (hr : run cfg (init z) ls = some s) :
    ∃ rest, fromSessionErr ls = s.err.given ++ rest ∧ rest.length ≤ 4096 ∧
      (s.err.pc = .read → rest = []) ∧
      (s.err.completed = true → s.err.failed = false → rest = []) := by
  have hw := run_wake hc hr
  rw [← err_taken hr]
  exact outData_rest hw.data.err hw.errFlag

/-- C43.  From the terminal to the session. -/
theorem C43_input (cfg : Cfg) (hc : 1 ≤ cfg.cap) (z : WinSize) (ls : List Label) (s : A)
    (hr : run cfg (init z) ls = some s) :
    ∃ rest, fromTerminal ls = s.inp.given ++ rest ∧ rest.length ≤ 4096 ∧
      (s.inp.pc = .select → rest = []) ∧
      (s.inp.completed = true → s.inp.failed = false → rest = []) := by
  have hw := run_wake hc hr
  rw [← inp_taken hr, hw.inFlag]
  have h := hw.data.inp
  unfold InData at h
  split at h
  · rename_i d hp
    exact ⟨_, h.1, h.2.1, by simp [hp], by simp [hp]⟩
  all_goals first
    | exact ⟨[], by rw [h.1]; simp, by simp, by simp, by simp⟩
    | (rename_i hp
       obtain ⟨rest, h1, h2, h3⟩ := h
       exact ⟨rest, h1, h2, by simp [hp], fun _ => h3⟩)

theorem outRel_fail {cap : Nat} {t t' : Out} {n n' : Nat} {a : OutAns} (hs : OutRel cap t n a t' n')
    (h : (t'.completed = true ∨ t'.failed = true ∨ t'.pc = .complete ∨ t'.pc = .wake)) :
    a = .fail ∨ (t.completed = true ∨ t.failed = true ∨ t.pc = .complete ∨ t.pc = .wake) := by
  cases hs <;> simp_all

/-- C43.  The relay of output ends only if the session's pipe is at its end or fails, or the terminal
refuses: an interruption or a short write does not end it. -/
theorem C43_output_goes_on (cfg : Cfg) (z : WinSize) (ls : List Label) (s : A)
    (hr : run cfg (init z) ls = some s) (h : s.out.completed = true) : Label.out .fail ∈ ls := by
  refine run_hist (cfg := cfg) (fun ls s => s.out.completed = true ∨ s.out.failed = true ∨
      s.out.pc = .complete ∨ s.out.pc = .wake → Label.out .fail ∈ ls) ?_ (by simp [init]) hr (.inl h)
  intro ls s l s' ih hr h
  rw [List.mem_append]
  cases hr with
  | main a s' hm =>
    refine .inl (ih ?_)
    cases hm <;> first
      | exact h
      | (rcases h with h | h | h | h
         · exact .inl h
         · exact .inr (.inl h)
         · simp at h
         · simp at h)
  | out a t n hr =>
    rcases outRel_fail hr h with h | h
    · exact .inr (by simp [h])
    · exact .inl (ih h)
  | _ => exact .inl (ih h)

/-- C43.  The relay of input ends only if the terminal's input is at its end or fails, if the session
does not take all of it, or if the main thread asks for it. -/
theorem C43_input_goes_on (cfg : Cfg) (z : WinSize) (ls : List Label) (s : A)
    (hr : run cfg (init z) ls = some s) (h : s.inp.completed = true) :
    Label.inp .fail ∈ ls ∨ s.inp.failed = true ∨ s.inp.shouldShutdown = true := by
  refine run_hist (cfg := cfg) (fun ls s => s.inp.completed = true ∨ s.inp.pc = .complete ∨
      s.inp.pc = .wake → Label.inp .fail ∈ ls ∨ s.inp.failed = true ∨ s.inp.shouldShutdown = true) ?_
    (by simp [init]) hr (.inl h)
  intro ls s l s' ih hr h
  rw [List.mem_append]
  cases hr with
  | main a s' hm =>
    have : Label.inp .fail ∈ ls ∨ s.inp.failed = true ∨ s'.inp.shouldShutdown = true := by
      cases hm <;> first | exact ih h | simp_all
    rcases this with h1 | h1 | h1
    · exact .inl (.inl h1)
    · refine .inr (.inl ?_)
      cases hm <;> exact h1
    · exact .inr (.inr h1)
  | inp a t n hr =>
    have : (s.inp.completed = true ∨ s.inp.pc = .complete ∨ s.inp.pc = .wake) ∨ a = .fail ∨
        t.failed = true ∨ t.shouldShutdown = true := by
      cases hr <;> simp_all
    rcases this with h1 | h1 | h1
    · rcases ih h1 with h2 | h2 | h2
      · exact .inl (.inl h2)
      · exact .inr (.inl (by cases hr <;> simp_all))
      · exact .inr (.inr (by cases hr <;> simp_all))
    · exact .inl (.inr (by simp [h1]))
    · exact .inr h1
  | _ => 
    rcases ih h with h1 | h1
    · exact .inl (.inl h1)
    · exact .inr h1

/-! ## C44: wake-ups -/

theorem in_started {cfg : Cfg} {z : WinSize} {ls : List Label} {s : A}
    (hr : run cfg (init z) ls = some s)
    (hm : ¬ (s.main = .start ∨ s.main = .opening ∨ s.main = .register ∨ s.main = .raw ∨
      s.main = .startIn ∨ ∃ c, s.main = .done c)) : s.inp.pc ≠ .notStarted := by
  have : s.inp.pc ≠ .notStarted ∨ (s.main = .start ∨ s.main = .opening ∨ s.main = .register ∨
      s.main = .raw ∨ s.main = .startIn ∨ ∃ c, s.main = .done c) := by
    refine run_inv (cfg := cfg) (fun s => s.inp.pc ≠ .notStarted ∨ (s.main = .start ∨
      s.main = .opening ∨ s.main = .register ∨ s.main = .raw ∨ s.main = .startIn ∨
      ∃ c, s.main = .done c)) ?_ (by simp [init]) hr
    intro s l s' ih hr
    cases hr with
    | main a s' hm => cases hm <;> simp_all
    | inp a t n hr => exact .inl (inRel_started hr).2
    | _ => exact ih
  rcases this with h | h
  · exact h
  · exact absurd h hm

theorem in_can {cfg : Cfg} {s : A} {a : InAns} {t : In} {n : Nat} (hl : over s = false)
    (h : inStep cfg.cap s.inp s.mainPipe a = .ok (t, n)) :
    ∃ s', step cfg s (.inp a) = some s' ∧ s'.aborted = false := by
  have hab : s.aborted = false := by
    simp only [over, Bool.or_eq_false_iff] at hl; exact hl.1
  exact ⟨{ s with inp := t, mainPipe := n }, by simp [step, hl, h], hab⟩

/-- C44.  When the main thread has asked the input thread to shut down and waits for it, the input
thread has ended, or it can go on at once, without any input and without an interruption, unless it
is in a call of the operating system reading input that `select` has promised, or writing to the
session. -/
theorem C44_never_stuck (cfg : Cfg) (hc : 1 ≤ cfg.cap) (z : WinSize) (ls : List Label) (s : A)
    (hr : run cfg (init z) ls = some s) (hl : over s = false) (hm : s.main = .joinIn) :
    s.inp.pc = .ended ∨ s.inp.pc = .read ∨ (∃ d, s.inp.pc = .write d) ∨
      ∃ a s', (a = .go ∨ a = .ready false ∨ ∃ k, a = .reset k) ∧ step cfg s (.inp a) = some s' ∧
        s'.aborted = false := by
  have hw := run_wake hc hr
  have hab : s.aborted = false := by
    simp only [over, Bool.or_eq_false_iff] at hl; exact hl.1
  have hst := in_started hr (by simp [hm])
  cases hp : s.inp.pc with
  | notStarted => exact absurd hp hst
  | ended => exact .inl rfl
  | read => exact .inr (.inl rfl)
  | write d => exact .inr (.inr (.inl ⟨d, rfl⟩))
  | reset =>
    refine .inr (.inr (.inr ?_))
    by_cases h0 : s.inp.wakeup = 0
    · obtain ⟨s', h1, h2⟩ := in_can (cfg := cfg) (a := .reset .empty) hl
        (by simp only [inStep, hp, pipeReset, h0, if_true]; rfl)
      exact ⟨_, s', .inr (.inr ⟨_, rfl⟩), h1, h2⟩
    · obtain ⟨s', h1, h2⟩ := in_can (cfg := cfg) (a := .reset (.took 1)) hl
        (by simp only [inStep, hp, pipeReset]; rw [if_pos (by omega)])
      exact ⟨_, s', .inr (.inr ⟨_, rfl⟩), h1, h2⟩
  | check =>
    obtain ⟨s', h1, h2⟩ := in_can (cfg := cfg) (a := .go) hl (by simp only [inStep, hp]; rfl)
    exact .inr (.inr (.inr ⟨_, s', .inl rfl, h1, h2⟩))
  | select =>
    have := hw.wakeup hm (.inl hp)
    obtain ⟨s', h1, h2⟩ := in_can (cfg := cfg) (a := .ready false) hl
      (by simp only [inStep, hp]; rw [if_neg (by simp), if_neg (by omega)])
    exact .inr (.inr (.inr ⟨_, s', .inr (.inl rfl), h1, h2⟩))
  | complete =>
    obtain ⟨s', h1, h2⟩ := in_can (cfg := cfg) (a := .go) hl (by simp only [inStep, hp]; rfl)
    exact .inr (.inr (.inr ⟨_, s', .inl rfl, h1, h2⟩))
  | wake =>
    obtain ⟨s', h1, h2⟩ := in_can (cfg := cfg) (a := .go) hl (by simp only [inStep, hp]; rfl)
    exact .inr (.inr (.inr ⟨_, s', .inl rfl, h1, h2⟩))

/-- C44.  The input thread reads from the terminal only when `select` has just said that there is
input. -/
theorem C44_read_promised (cfg : Cfg) (z : WinSize) (ls : List Label) (s : A)
    (hr : run cfg (init z) ls = some s) (hp : s.inp.pc = .read) : lastInput ls = some (.ready true) := by
  refine run_hist (cfg := cfg) (fun ls s => s.inp.pc = .read →
    lastInput ls = some (.ready true)) ?_ (by simp [init]) hr hp
  intro ls s l s' ih hr hp
  have keep : (∀ a, l ≠ .inp a) → lastInput (ls ++ [l]) = lastInput ls := by
    intro hl
    cases l <;> first | exact absurd rfl (hl _) | simp [lastInput]
  cases hr with
  | inp a t n hr =>
    have : a = .ready true := by cases hr <;> simp_all
    simp [lastInput, this]
  | abort l h =>
    replace hp : s.inp.pc = .read := hp
    have e := ih hp
    cases h with
    | inSelect h | inReset h => rw [h] at hp; cases hp
    | _ => rw [keep (by simp), e]
  | main a s' hm =>
    rw [keep (by simp)]
    refine ih ?_
    cases hm <;> simp_all
  | _ => rw [keep (by simp)]; exact ih hp

/-- C64.  When the session's output, or the terminal's input, is at its end or fails, the thread that
relays it is on its way to its end. -/
theorem C64_end_noticed (cfg : Cfg) (z : WinSize) (ls : List Label) (s : A)
    (hr : run cfg (init z) ls = some s) (ha : s.aborted = false) :
    (Label.out .fail ∈ ls → s.out.pc = .complete ∨ s.out.pc = .wake ∨ s.out.pc = .ended) ∧
    (Label.err .fail ∈ ls → s.err.pc = .complete ∨ s.err.pc = .wake ∨ s.err.pc = .ended) ∧
    (Label.inp .fail ∈ ls → s.inp.pc = .complete ∨ s.inp.pc = .wake ∨ s.inp.pc = .ended) := by
  have key := run_hist (cfg := cfg) (fun ls s => s.aborted = false →
    ((Label.out .fail ∈ ls → s.out.pc = .complete ∨ s.out.pc = .wake ∨ s.out.pc = .ended) ∧
    (Label.err .fail ∈ ls → s.err.pc = .complete ∨ s.err.pc = .wake ∨ s.err.pc = .ended) ∧
    (Label.inp .fail ∈ ls → s.inp.pc = .complete ∨ s.inp.pc = .wake ∨ s.inp.pc = .ended)) ∧
    ((s.main = .start ∨ s.main = .opening ∨ s.main = .register ∨ s.main = .raw ∨ s.main = .startIn →
      s.inp.pc = .notStarted) ∧
    (s.main = .start ∨ s.main = .opening ∨ s.main = .register ∨ s.main = .raw ∨ s.main = .startIn ∨
      s.main = .startOut → s.out.pc = .notStarted) ∧
    (s.main = .start ∨ s.main = .opening ∨ s.main = .register ∨ s.main = .raw ∨ s.main = .startIn ∨
      s.main = .startOut ∨ s.main = .startErr → s.err.pc = .notStarted))) ?_
    (by simp [init]) hr ha
  · exact key.1
  intro ls s l s' ih hr hab
  simp only [List.mem_append, List.mem_singleton]
  cases hr with
  | abort l h => simp at hab
  | main a s' hm =>
    have hab' : s.aborted = false := by cases hm <;> exact hab
    obtain ⟨⟨i1, i2, i3⟩, i4, i5, i6⟩ := ih hab'
    simp only [reduceCtorEq, or_false]
    cases hm <;> simp_all
  | out a t n hr =>
    obtain ⟨⟨i1, i2, i3⟩, i4, i5, i6⟩ := ih hab
    refine ⟨⟨fun h => ?_, by simpa using i2, by simpa using i3⟩, i4, fun h => ?_, i6⟩
    · cases hr <;> simp_all
    · have := i5 h
      cases hr <;> simp_all
  | err a t n hr =>
    obtain ⟨⟨i1, i2, i3⟩, i4, i5, i6⟩ := ih hab
    refine ⟨⟨by simpa using i1, fun h => ?_, by simpa using i3⟩, i4, i5, fun h => ?_⟩
    · cases hr <;> simp_all
    · have := i6 h
      cases hr <;> simp_all
  | inp a t n hr =>
    obtain ⟨⟨i1, i2, i3⟩, i4, i5, i6⟩ := ih hab
    refine ⟨⟨by simpa using i1, by simpa using i2, fun h => ?_⟩, fun h => ?_, i5, i6⟩
    · cases hr <;> simp_all
    · have := i4 h
      cases hr <;> simp_all
  | _ => simpa using ih hab

theorem aborted_run {cfg : Cfg} {s s' : A} {ls : List Label} (h : s.aborted = true)
    (hr : run cfg s ls = some s') : ls = [] := by
  cases ls with
  | nil => rfl
  | cons l ls => simp [run, step, over, h] at hr

/-- C44.  From the request on the input thread makes a bounded number of further calls, whatever
input there is and whatever the other threads do: it reads at most once more and ends. -/
theorem C44_ends (cfg : Cfg) (hc : 1 ≤ cfg.cap) (z : WinSize) (ls : List Label) (s : A)
    (hr : run cfg (init z) ls = some s) (hm : s.main = .joinIn) (ls' : List Label) (s' : A)
    (hr' : run cfg s ls' = some s') : inputCalls ls' ≤ 7 + s.inp.wakeup := by
  have hw := run_wake hc hr
  have key : ∀ (ls' : List Label) (s : A), run cfg s ls' = some s' → Wake cfg s → Asked s →
      inputCalls ls' ≤ inRank s.inp := by
    intro ls'
    induction ls' with
    | nil => intro s _ _ _; simp [inputCalls]
    | cons l ls' ih =>
      intro s hr' hw ha
      simp only [run] at hr'
      split at hr'
      · cases hr'
      · rename_i s1 h1
        obtain ⟨hrel, hov⟩ := rel_of h1
        have hw1 := wake_step hc _ _ _ hw hrel
        rw [inputCalls_cons]
        have hs : s.inp.shouldShutdown = true := by
          rcases hw.asked (.inl ha) with h | ⟨c, h⟩
          · exact h
          · simp [over, h] at hov
        by_cases hab : s1.aborted = true
        · have hl := aborted_run hab hr'
          subst hl
          have : inputCalls [l] ≤ inRank s.inp := by
            cases hrel with
            | abort l h => cases h <;> simp_all [inputCalls, inRank] <;> omega
            | inp a t n hr => have := (inRank_step hr hs).1; omega
            | _ => simp [inputCalls]
          simp only [inputCalls] at this ⊢
          omega
        · have : Asked s1 ∧ inRank s1.inp + inputCalls [l] ≤ inRank s.inp := by
            cases hrel with
            | abort l h => exact absurd rfl hab
            | main a s1 hm =>
              refine ⟨?_, ?_⟩
              · cases hm <;> simp_all [Asked]
              · have : s1.inp = s.inp := by cases hm <;> first | rfl | simp_all [Asked]
                rw [this]; simp [inputCalls]
            | inp a t n hr => exact ⟨ha, (inRank_step hr hs).1⟩
            | _ => exact ⟨ha, by simp [inputCalls]⟩
          have := ih s1 hr' hw1 this.1
          omega
  have h1 := key ls' s hr' hw (.inl hm)
  have h2 : inRank s.inp ≤ 7 + s.inp.wakeup ∨ s.inp.pc = .notStarted := by
    unfold inRank
    split <;> first | exact .inl (by omega) | (rename_i h; exact .inr h)
  rcases h2 with h2 | h2
  · omega
  · exact absurd h2 (in_started hr (by simp [hm]))

/-- C44.  No completion is lost: if a handler's thread has ended while the main thread waits for
something to happen, the main thread can go on. -/
theorem C44_completion_wakes (cfg : Cfg) (hc : 1 ≤ cfg.cap) (z : WinSize) (ls : List Label) (s : A)
    (hr : run cfg (init z) ls = some s) (hl : over s = false) (hm : s.main = .select)
    (he : s.inp.pc = .ended ∨ s.out.pc = .ended ∨ s.err.pc = .ended) :
    ∃ s', step cfg s (.main .go) = some s' ∧ s'.main = .reset := by
  have hw := run_wake hc hr
  have hp : 1 ≤ s.mainPipe := by
    rcases he with he | he | he
    · exact hw.inWake (by simp [hm]) he
    · exact hw.outWake (by simp [hm]) he
    · cases hcf : cfg.conerr with
      | true => exact hw.errWake hcf hm he
      | false => rw [hw.errNone hcf] at he; cases he
  exact ⟨{ s with main := .reset }, by simp [step, hl, mainStep, hm, show s.mainPipe ≠ 0 by omega], rfl⟩

/-- C44.  Once a handler has reported that it is finished, the main thread makes only a bounded number
of further calls, plus one for each signal: it does not go back to waiting more than once. -/
theorem C44_main_ends (cfg : Cfg) (hc : 1 ≤ cfg.cap) (z : WinSize) (ls : List Label) (s : A)
    (hr : run cfg (init z) ls = some s) (hf : SomeFinished cfg s) (ls' : List Label) (s' : A)
    (hr' : run cfg s ls' = some s') : mainCalls ls' ≤ 26 + s.mainPipe + signals ls' := by
  have hw := run_wake hc hr
  have key : ∀ (ls' : List Label) (s : A), run cfg s ls' = some s' → Wake cfg s → SomeFinished cfg s →
      mainCalls ls' ≤ mainRank cfg s + running s + signals ls' := by
    intro ls'
    induction ls' with
    | nil => intro s _ _ _; simp [mainCalls]
    | cons l ls' ih =>
      intro s hr' hw hf
      simp only [run] at hr'
      split at hr'
      · cases hr'
      · rename_i s1 h1
        obtain ⟨hrel, hov⟩ := rel_of h1
        have hw1 := wake_step hc _ _ _ hw hrel
        rw [mainCalls_cons, signals_cons]
        rcases busy_step hf hw hrel with ⟨h2, h3⟩ | h2
        · have := ih s1 hr' hw1 h2
          omega
        · have hl := aborted_run h2 hr'
          subst hl
          have : mainCalls [l] ≤ mainRank cfg s := by
            cases hrel with
            | abort l h => cases h <;> simp_all [mainCalls, mainRank] <;> omega
            | main a s1 hm => have := mainRank_main hf hm; omega
            | _ => simp [mainCalls]
          simp only [mainCalls, signals] at this ⊢
          omega
  have h1 := key ls' s hr' hw hf
  have h2 : mainRank cfg s ≤ 23 + s.mainPipe := by
    unfold mainRank
    split <;> (repeat' split) <;> omega
  have h3 : running s ≤ 3 := by
    unfold running
    (repeat' split) <;> omega
  omega

/-- C44.  The adapter aborts only because of such an answer (see `Aborts`). -/
theorem C44_aborts_only (cfg : Cfg) (z : WinSize) (ls : List Label) (s : A)
    (hr : run cfg (init z) ls = some s) (ha : s.aborted = true) :
    ∃ ls₀ l s₀, ls = ls₀ ++ [l] ∧ run cfg (init z) ls₀ = some s₀ ∧ Aborts s₀ l := by
  have key : ∀ (ls : List Label) (s₁ : A), s₁.aborted = false → run cfg s₁ ls = some s →
      ∃ ls₀ l s₀, ls = ls₀ ++ [l] ∧ run cfg s₁ ls₀ = some s₀ ∧ Aborts s₀ l := by
    intro ls
    induction ls with
    | nil => intro s₁ h1 hr; simp [run] at hr; subst hr; simp [h1] at ha
    | cons l ls ih =>
      intro s₁ h1 hr
      simp only [run] at hr
      split at hr
      · cases hr
      · rename_i s2 h2
        by_cases hab : s2.aborted = true
        · have hl := aborted_run hab hr
          subst hl
          refine ⟨[], l, s₁, rfl, rfl, ?_⟩
          cases (rel_of h2).1 with
          | abort l h => exact h
          | main a s' hm =>
            have : s2.aborted = s₁.aborted := by cases hm <;> rfl
            rw [this, h1] at hab; cases hab
          | _ => simp [h1] at hab
        · obtain ⟨ls₀, l', s₀, e1, e2, e3⟩ := ih s2 (by simpa using hab) hr
          exact ⟨l :: ls₀, l', s₀, by simp [e1], by simp [run, h2, e2], e3⟩
  exact key ls (init z) rfl hr

/-! ## C63: resizes -/

/-- The session has been told the size, and a change of size will be noticed. -/
structure Sized (s : A) : Prop where
  told : s.main = .start ∨ s.main = .opening ∨ (∃ c, s.main = .done c) ∨
    s.session = some (s.sz.cols, s.sz.rows)
  reg : s.registered = true
  begun : s.main ≠ .start ∧ s.main ≠ .opening ∧ s.main ≠ .register
  noticed : s.owed = true ∨ 1 ≤ s.mainPipe ∨ s.main = .reset ∨ s.main = .size ∨ s.sz = s.tty

theorem told_step {cfg : Cfg} (s : A) (l : Label) (s' : A)
    (h : s.main = .start ∨ s.main = .opening ∨ (∃ c, s.main = .done c) ∨
      s.session = some (s.sz.cols, s.sz.rows)) (hr : Rel cfg s l s') :
    s'.main = .start ∨ s'.main = .opening ∨ (∃ c, s'.main = .done c) ∨
      s'.session = some (s'.sz.cols, s'.sz.rows) := by
  cases hr with
  | main a s' hm => cases hm <;> simp_all
  | _ => exact h

theorem sized_step {cfg : Cfg} (hc : 1 ≤ cfg.cap) (s : A) (l : Label) (s' : A)
    (hl : ∀ z, l ≠ .main (.noSize z)) (h : Sized s) (hr : Rel cfg s l s') : Sized s' := by
  have hb := h.begun
  refine ⟨told_step s l s' h.told hr, ?_, ?_, ?_⟩
  · have := h.reg
    cases hr with
    | main a s' hm => cases hm <;> first | exact this | rfl
    | _ => exact this
  · cases hr with
    | main a s' hm => cases hm <;> simp_all
    | _ => exact hb
  · have hn := h.noticed
    cases hr with
    | main a s' hm => cases hm <;> simp_all
    | inp a t n hr =>
      have := (inRel_pipe hr).1
      rcases hn with h | h | h
      · exact .inl h
      · exact .inr (.inl (by show 1 ≤ n; omega))
      · exact .inr (.inr h)
    | out a t n hr =>
      have := (outRel_pipe hr).1
      rcases hn with h | h | h
      · exact .inl h
      · exact .inr (.inl (by show 1 ≤ n; omega))
      · exact .inr (.inr h)
    | err a t n hr =>
      have := (outRel_pipe hr).1
      rcases hn with h | h | h
      · exact .inl h
      · exact .inr (.inl (by show 1 ≤ n; omega))
      · exact .inr (.inr h)
    | abort => exact hn
    | resize => exact .inl rfl
    | deliver => exact .inr (.inl (pipeSet_pos hc _))
    | ignored ho hf => rw [h.reg] at hf; cases hf

theorem reg_begun {cfg : Cfg} {z : WinSize} {ls : List Label} {s : A}
    (hr : run cfg (init z) ls = some s) (hg : s.registered = true) :
    s.main ≠ .start ∧ s.main ≠ .opening ∧ s.main ≠ .register := by
  refine run_inv (cfg := cfg) (fun s => s.registered = true → s.main ≠ .start ∧ s.main ≠ .opening ∧
    s.main ≠ .register) ?_ (by simp [init]) hr hg
  intro s l s' ih hr
  cases hr with
  | main a s' hm => cases hm <;> simp_all
  | _ => exact ih

theorem sized_run {cfg : Cfg} (hc : 1 ≤ cfg.cap) {ls : List Label} {s s' : A} (hz : AlwaysSized ls)
    (h : Sized s) (hr : run cfg s ls = some s') : Sized s' := by
  induction ls generalizing s with
  | nil => simp [run] at hr; subst hr; exact h
  | cons l ls ih =>
    simp only [run] at hr
    split at hr
    · cases hr
    · rename_i s2 h2
      refine ih (fun x hx => hz x (List.mem_cons_of_mem _ hx)) ?_ hr
      exact sized_step hc _ _ _ (fun x hx => hz x (by simp [hx])) h (rel_of h2).1

/-- C63.  When the terminal's size changes after the adapter has registered its handler for the
signal, then, whatever else happens, as soon as the adapter waits for something to happen (its main
thread in `select`, no wake-up and no signal pending) the session has been told the size the terminal
has now.  Partial: a change during the adapter's start may not be noticed (`C63_startup_defect`), and
the terminal is assumed to tell its size (`C63_no_size_defect`). -/
theorem C63_resize_noticed_partial (cfg : Cfg) (hc : 1 ≤ cfg.cap) (z : WinSize) (pre : List Label) (s₀ : A)
    (h0 : run cfg (init z) pre = some s₀) (hg : s₀.registered = true) (z' : WinSize) (ls : List Label)
    (hz : AlwaysSized ls) (s : A) (hr : run cfg s₀ (.resize z' :: ls) = some s)
    (hm : s.main = .select) (hp : s.mainPipe = 0) (ho : s.owed = false) :
    s.session = some (s.tty.cols, s.tty.rows) := by
  have ht : s₀.main = .start ∨ s₀.main = .opening ∨ (∃ c, s₀.main = .done c) ∨
      s₀.session = some (s₀.sz.cols, s₀.sz.rows) :=
    run_inv (cfg := cfg) _ told_step (by simp [init]) h0
  simp only [run] at hr
  split at hr
  · cases hr
  · rename_i s1 h1
    have hb := reg_begun h0 hg
    have hs1 : Sized s1 := by
      cases (rel_of h1).1 with
      | resize => exact ⟨ht, hg, hb, .inl rfl⟩
      | abort l h => cases h
    have hs := sized_run hc hz hs1 hr
    have e : s.sz = s.tty := by
      have := hs.noticed
      simpa [hm, hp, ho] using this
    have := hs.told
    rw [← e]
    simpa [hm] using this

/-- C63.  If the terminal's size has not changed before the handler for the signal is registered, the
session is always told the terminal's size: whenever the adapter waits, it knows the size the terminal
has now. -/
theorem C63_always_right_partial (cfg : Cfg) (hc : 1 ≤ cfg.cap) (z : WinSize) (pre ls : List Label) (s₀ s : A)
    (h0 : run cfg (init z) pre = some s₀) (hm0 : s₀.main = .register) (he : s₀.sz = s₀.tty)
    (hz : AlwaysSized ls) (hr : run cfg s₀ (.main .go :: ls) = some s)
    (hm : s.main = .select) (hp : s.mainPipe = 0) (ho : s.owed = false) :
    s.session = some (s.tty.cols, s.tty.rows) := by
  have ht : s₀.main = .start ∨ s₀.main = .opening ∨ (∃ c, s₀.main = .done c) ∨
      s₀.session = some (s₀.sz.cols, s₀.sz.rows) :=
    run_inv (cfg := cfg) _ told_step (by simp [init]) h0
  simp only [run] at hr
  split at hr
  · cases hr
  · rename_i s1 h1
    have hs1 : Sized s1 := by
      have h2 := told_step _ _ _ ht (rel_of h1).1
      cases (rel_of h1).1 with
      | abort => rename_i ha; cases ha
      | main a s' hm => cases hm <;> first | exact ⟨h2, rfl, by simp, by simp [he]⟩ | simp_all
    have hs := sized_run hc hz hs1 hr
    have e : s.sz = s.tty := by
      have := hs.noticed
      simpa [hm, hp, ho] using this
    have := hs.told
    rw [← e]
    simpa [hm] using this

/-- C63.  The session is only ever told a size the terminal has had, or the default of 80×25 if it
could not be asked at the start. -/
theorem C63_known_size (cfg : Cfg) (z : WinSize) (ls : List Label) (hz : AlwaysSized ls) (s : A)
    (hr : run cfg (init z) ls = some s) (c r : Nat) (h : s.session = some (c, r)) :
    (c, r) = (80, 25) ∨ ∃ z' ∈ sizes z ls, z'.cols = c ∧ z'.rows = r := by
  have key : ∀ (P : WinSize → Prop), P ⟨80, 25, 0, 0⟩ → P z → (∀ z', .resize z' ∈ ls → P z') →
      P s.tty ∧ (s.main = .start ∨ P s.sz) ∧ (∀ c r, s.session = some (c, r) → ∃ z', P z' ∧ z'.cols = c ∧ z'.rows = r) := by
    intro P p1 p2 p3
    have : (∀ l ∈ ls, ∀ z', l = .resize z' → P z') := fun l hl z' e => p3 z' (e ▸ hl)
    clear p3
    have key : ∀ (ls : List Label) (s₁ : A), AlwaysSized ls → (∀ l ∈ ls, ∀ z', l = .resize z' → P z') →
        run cfg s₁ ls = some s →
        (P s₁.tty ∧ (s₁.main = .start ∨ P s₁.sz) ∧ (∀ c r, s₁.session = some (c, r) → ∃ z', P z' ∧ z'.cols = c ∧ z'.rows = r)) →
        (P s.tty ∧ (s.main = .start ∨ P s.sz) ∧ (∀ c r, s.session = some (c, r) → ∃ z', P z' ∧ z'.cols = c ∧ z'.rows = r)) := by
      intro ls
      induction ls with
      | nil => intro s1 _ _ hr q; simp [run] at hr; exact hr ▸ q
      | cons l ls ih =>
        intro s1 hz hP hr h
        simp only [run] at hr
        split at hr
        · cases hr
        · rename_i s2 h2
          refine ih s2 (fun x hx => hz x (List.mem_cons_of_mem _ hx))
            (fun l hl => hP l (List.mem_cons_of_mem _ hl)) hr ?_
          have hz1 : ∀ x, l ≠ .main (.noSize x) := fun x hx => hz x (by simp [hx])
          obtain ⟨q1, q2, q3⟩ := h
          cases (rel_of h2).1 with
          | resize z' => exact ⟨hP _ (by simp) _ rfl, q2, q3⟩
          | main a s' hm =>
            cases hm with
            | start hp => exact ⟨q1, .inr q1, q3⟩
            | startFail hp => exact ⟨q1, .inr p1, q3⟩
            | opened hp =>
              rw [hp] at q2
              refine ⟨q1, .inr (by simpa using q2), fun c r h => ?_⟩
              simp at h
              exact ⟨s1.sz, by simpa using q2, h.1, h.2⟩
            | size hp hne =>
              refine ⟨q1, .inr q1, fun c r h => ?_⟩
              simp at h
              exact ⟨s1.tty, q1, h.1, h.2⟩
            | badSize z hp => exact absurd rfl (hz1 z)
            | badSame z hp => exact absurd rfl (hz1 z)
            | wakeIntr hp => exact ⟨q1, q2, q3⟩
            | drain k hp => exact ⟨q1, q2, q3⟩
            | _ => exact ⟨q1, .inr (by simp_all), q3⟩
          | _ => exact ⟨q1, q2, q3⟩
    exact key ls (init z) hz this hr ⟨p2, .inl rfl, by simp [init]⟩
  obtain ⟨_, _, h3⟩ := key (fun z' => (z'.cols, z'.rows) = (80, 25) ∨ z' ∈ sizes z ls) (.inl rfl)
    (.inr (by simp [sizes])) (fun z' h => .inr (by
      simp only [sizes, List.mem_cons, List.mem_filterMap]
      exact .inr ⟨_, h, rfl⟩))
  obtain ⟨z', h4, h5, h6⟩ := h3 c r h
  rcases h4 with h4 | h4
  · left; rw [← h4, h5, h6]
  · exact .inr ⟨z', h4, h5, h6⟩

/-- C63, a defect of the code.  The terminal's size is read before the session is opened and the
program is started, and the handler for the signal is registered only after that.  A change of size in
between is not noticed: the session keeps the old size for as long as nothing else happens. -/
theorem C63_startup_defect :
    ∃ s, run ⟨65536, false⟩ (init ⟨80, 24, 0, 0⟩)
        [.main .go, .resize ⟨132, 50, 0, 0⟩, .deliver, .main .go, .main .go, .main .go, .main .go,
          .main .go, .main .go] = some s ∧
      s.main = .select ∧ s.mainPipe = 0 ∧ s.owed = false ∧ s.tty = ⟨132, 50, 0, 0⟩ ∧
      s.session = some (80, 24) ∧ step ⟨65536, false⟩ s (.main .go) = none :=
  ⟨_, rfl, rfl, rfl, rfl, rfl, rfl, rfl⟩

/-- C63, a defect of the code.  If standard input is no terminal (`-Xallow-non-tty`) the size the
session is told at a wake-up is whatever is in uninitialized memory. -/
theorem C63_no_size_defect (z z' : WinSize) (h : z' ≠ ⟨80, 25, 0, 0⟩) :
    ∃ ls s, run ⟨65536, false⟩ (init z) ls = some s ∧ (∀ x, Label.resize x ∉ ls) ∧
      s.session = some (z'.cols, z'.rows) := by
  refine ⟨[.main .fail, .main .go, .main .go, .main .go, .main .go, .main .go, .main .go, .main .intr,
    .main (.reset .empty), .main (.noSize z')], _, rfl, by simp, ?_⟩
  simp [checkSize, h.symm]

/-! ## C64: the end of the adapter -/

/-- C64.  When the adapter restores the terminal and exits, the session has been closed, no thread is
running any more, and everything the session has delivered is on the terminal unless the terminal
refused it. -/
theorem C64_all_relayed (cfg : Cfg) (hc : 1 ≤ cfg.cap) (z : WinSize) (ls : List Label) (s : A)
    (hr : run cfg (init z) ls = some s) (hm : s.main = .restore ∨ s.main = .exitCode) :
    s.freed = true ∧ s.inp.pc = .ended ∧ s.out.pc = .ended ∧ (cfg.conerr = true → s.err.pc = .ended) ∧
      (s.out.failed = false → s.out.given = fromSession ls) ∧
      (cfg.conerr = true → s.err.failed = false → s.err.given = fromSessionErr ls) ∧
      (s.inp.failed = false → s.inp.given = fromTerminal ls) := by
  have hj : (s.main = .stopIn ∨ s.main = .wakeIn ∨ s.main = .joinIn ∨ s.main = .joinOut ∨
        s.main = .joinErr ∨ s.main = .restore ∨ s.main = .exitCode → s.freed = true) ∧
      (s.main = .joinOut ∨ s.main = .joinErr ∨ s.main = .restore ∨ s.main = .exitCode →
        s.inp.pc = .ended) ∧
      (s.main = .joinErr ∨ s.main = .restore ∨ s.main = .exitCode → s.out.pc = .ended) ∧
      (s.main = .restore ∨ s.main = .exitCode → cfg.conerr = true → s.err.pc = .ended) := by
    refine run_inv (cfg := cfg) (fun s => (s.main = .stopIn ∨ s.main = .wakeIn ∨ s.main = .joinIn ∨ s.main = .joinOut ∨
        s.main = .joinErr ∨ s.main = .restore ∨ s.main = .exitCode → s.freed = true) ∧
      (s.main = .joinOut ∨ s.main = .joinErr ∨ s.main = .restore ∨ s.main = .exitCode →
        s.inp.pc = .ended) ∧
      (s.main = .joinErr ∨ s.main = .restore ∨ s.main = .exitCode → s.out.pc = .ended) ∧
      (s.main = .restore ∨ s.main = .exitCode → cfg.conerr = true → s.err.pc = .ended)) ?_
      (by simp [init]) hr
    intro s l s' ih hr
    obtain ⟨i1, i2, i3, i4⟩ := ih
    cases hr with
    | main a s' hm =>
      cases hm <;> simp_all
      rename_i h1 h2
      exact fun hc => by simpa [hc] using h2
    | inp a t n hr =>
      refine ⟨i1, fun h => ?_, i3, i4⟩
      have := i2 h
      cases hr <;> simp_all
    | out a t n hr =>
      refine ⟨i1, i2, fun h => ?_, i4⟩
      have := i3 h
      cases hr <;> simp_all
    | err a t n hr =>
      refine ⟨i1, i2, i3, fun h hc => ?_⟩
      have := i4 h hc
      cases hr <;> simp_all
    | _ => exact ⟨i1, i2, i3, i4⟩
  obtain ⟨j1, j2, j3, j4⟩ := hj
  have hw := run_wake hc hr
  have e1 := j2 (by rcases hm with h | h <;> simp [h])
  have e2 := j3 (by rcases hm with h | h <;> simp [h])
  have e3 := j4 hm
  refine ⟨j1 (by rcases hm with h | h <;> simp [h]), e1, e2, e3, fun hf => ?_, fun hcf hf => ?_, fun hf => ?_⟩
  · obtain ⟨rest, h1, _, _, h2⟩ := C43_output cfg hc z ls s hr
    rw [h1, h2 (hw.outFlag.2 (.inr e2)) hf, List.append_nil]
  · obtain ⟨rest, h1, _, _, h2⟩ := C43_error_output cfg hc z ls s hr
    rw [h1, h2 (hw.errFlag.2 (.inr (e3 hcf))) hf, List.append_nil]
  · obtain ⟨rest, h1, _, _, h2⟩ := C43_input cfg hc z ls s hr
    rw [h1, h2 (hw.inFlag.2 (.inr e1)) hf, List.append_nil]

/-- C64.  The adapter's exit code is the child's, or 1 if something failed. -/
theorem C64_exit_code (cfg : Cfg) (z : WinSize) (ls : List Label) (s : A) (c : Nat)
    (hr : run cfg (init z) ls = some s) (hm : s.main = .done c) :
    c = 1 ∨ Label.main (.code (some c)) ∈ ls := by
  refine run_hist (cfg := cfg) (fun ls s => s.main = .done c → c = 1 ∨
    Label.main (.code (some c)) ∈ ls) ?_ (by simp [init]) hr hm
  intro ls s l s' ih hr h
  rw [List.mem_append]
  have up : (c = 1 ∨ Label.main (.code (some c)) ∈ ls) →
      (c = 1 ∨ Label.main (.code (some c)) ∈ ls ∨ Label.main (.code (some c)) ∈ [l]) := by
    rintro (h | h)
    · exact .inl h
    · exact .inr (.inl h)
  cases hr with
  | main a s' hm =>
    cases hm with
    | code x hp =>
      simp at h
      cases x with
      | none => exact .inl (by simpa using h.symm)
      | some x => simp at h; subst h; exact .inr (.inr (by simp))
    | openFail hp | rawFail hp | restoreFail hp => simp at h; exact .inl h.symm
    | wakeIntr hp => rw [hp] at h; cases h
    | drain k hp => rw [show s.main = .reset from hp] at h; cases h
    | _ => cases h
  | _ => exact up (ih h)

/-! ## Examples -/

/-- A whole session: the adapter starts, the user types two bytes, the program prints three, which the
terminal takes in two writes with an interruption between them, the terminal is resized, the program
ends, and the adapter returns its exit code. -/
def wholeSession : List Label :=
  [.main .go, .main .go, .main .go, .main .go, .main .go, .main .go, .main .go,
   .inp (.reset .empty), .inp .go, .inp (.ready true), .inp (.data [108, 115]), .inp (.wrote 2 true),
   .out (.data [97, 98, 99]), .out (.wrote 1), .out .intr, .out (.wrote 2),
   .resize ⟨100, 40, 0, 0⟩, .deliver, .main .go, .main (.reset (.took 1)), .main (.reset .empty),
   .main .go, .main .go, .main .go, .main .go,
   .inp (.reset .empty), .inp .go,
   .out .fail, .out .go, .out .go,
   .main .go, .main (.reset (.took 1)), .main (.reset .empty), .main .go, .main .go, .main .go,
   .main .go, .main .go, .main .go,
   .inp (.ready false), .inp (.reset (.took 1)), .inp (.reset .empty), .inp .go, .inp .go, .inp .go,
   .main .go, .main .go, .main .go]

/-- The hypotheses of the theorems above are met by `wholeSession`, up to the point where the terminal
is restored; the whole session ends with exit code 3. -/
example : ∃ s, run ⟨65536, false⟩ (init ⟨80, 24, 0, 0⟩) wholeSession = some s ∧ s.main = .restore ∧
    s.out.given = [97, 98, 99] ∧ s.inp.given = [108, 115] ∧ s.session = some (100, 40) ∧
    fromSession wholeSession = [97, 98, 99] ∧ fromTerminal wholeSession = [108, 115] :=
  ⟨_, rfl, rfl, rfl, rfl, rfl, rfl, rfl⟩

example : ∃ s, run ⟨65536, false⟩ (init ⟨80, 24, 0, 0⟩)
    (wholeSession ++ [.main .go, .main (.code (some 3))]) = some s ∧ s.main = .done 3 := ⟨_, rfl, rfl⟩

/-- Input was read because `select` said so, and the output has failed: `C44_read_promised` and
`C64_end_noticed`. -/
example : (∃ s, run ⟨65536, false⟩ (init ⟨80, 24, 0, 0⟩) (wholeSession.take 10) = some s ∧
      s.inp.pc = .read) ∧
    (∃ s, run ⟨65536, false⟩ (init ⟨80, 24, 0, 0⟩) (wholeSession.take 28) = some s ∧
      s.aborted = false ∧ Label.out .fail ∈ wholeSession.take 28) :=
  ⟨⟨_, rfl, rfl⟩, ⟨_, rfl, rfl, by simp [wholeSession]⟩⟩

/-- The main thread waits for the input thread, which waits for input: the situation of
`C44_never_stuck` and `C44_ends`. -/
example : ∃ s, run ⟨65536, false⟩ (init ⟨80, 24, 0, 0⟩) (wholeSession.take 39) = some s ∧
    s.main = .joinIn ∧ s.inp.pc = .select ∧ s.inp.wakeup = 1 ∧ over s = false := ⟨_, rfl, rfl, rfl, rfl, rfl⟩

/-- The output thread has ended and the main thread waits: the situation of `C44_completion_wakes` and
`C44_main_ends`; and of `C63_resize_noticed_partial` after the resize before. -/
example : ∃ s, run ⟨65536, false⟩ (init ⟨80, 24, 0, 0⟩) (wholeSession.take 30) = some s ∧
    s.main = .select ∧ s.out.pc = .ended ∧ SomeFinished ⟨65536, false⟩ s ∧ over s = false :=
  ⟨_, rfl, rfl, rfl, .inr (.inl rfl), rfl⟩

example : ∃ s₀ s, run ⟨65536, false⟩ (init ⟨80, 24, 0, 0⟩) (wholeSession.take 16) = some s₀ ∧
    s₀.registered = true ∧ run ⟨65536, false⟩ s₀ ((wholeSession.drop 16).take 9) = some s ∧
    s.main = .select ∧ s.mainPipe = 0 ∧ s.owed = false := ⟨_, _, rfl, rfl, rfl, rfl, rfl, rfl⟩

end Winpty.Props
