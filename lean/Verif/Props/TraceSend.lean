import Verif.Lemmas.TraceSend

/-! # C88: Trace messages of many processes -/

namespace Winpty.Props

open Winpty.TraceSend Winpty.Spec.TraceSend

/-- Two calls and a server, for the examples: the first call sends its message, while the second waits for the pipe;
then the second sends its own. -/
private def twoCalls : List Act :=
  [.start, .server, .call [97, 98], .call [99], .client 0 true, .client 1 true, .client 0 true, .server, .client 0 true,
   .server, .server, .server, .client 0 true, .server, .server, .client 1 true, .client 0 true, .client 1 true, .server,
   .client 1 true, .client 1 true, .server, .server, .server, .client 1 true, .client 1 true]

private theorem twoCalls_run : ∃ s : St, run St.init twoCalls = some s ∧
    s.printed = [(0, [97, 98, 10]), (1, [99, 10])] ∧
    s.calls = [⟨[97, 98], .returned true, 1, 1⟩, ⟨[99], .returned true, 1, 1⟩] ∧
    s.srv = .disconnecting := by
  refine ⟨_, rfl, ?_⟩
  decide +kernel

/-- C88.  Whatever the order of the steps of all processes: each line that the server prints is the whole message of
one call, and for each call it prints at most one line.  When the server has answered, it has printed the line. -/
theorem C88_whole_messages (s : St) (h : Reachable s) :
    (∀ p ∈ s.printed, ∃ c : Call, s.calls[p.1]? = some c ∧ p.2 = c.msg ++ [10]) ∧
    (∀ (i : Nat) (c : Call), s.calls[i]? = some c → printedFor s i = [] ∨ printedFor s i = [c.msg ++ [10]]) ∧
    ∀ (i : Nat) (c : Call), s.calls[i]? = some c → Returned s i true → printedFor s i = [c.msg ++ [10]] := by
  have hinv := inv_reachable h
  have hcall : ∀ (i : Nat) (c : Call), s.calls[i]? = some c →
      printedFor s i = [] ∨ printedFor s i = [c.msg ++ [10]] := by
    intro i c hc
    have := hinv.call i c hc
    cases hpc : c.pc <;> simp only [CallOk, hpc, line] at this
    · exact .inl this.1
    · exact .inl this.1
    · exact .inl this.1
    · exact .inl this.1
    · exact this.1
    · exact this.1
    · exact this.1
  refine ⟨?_, hcall, ?_⟩
  · intro p hp
    have hl := hinv.range p hp
    refine ⟨s.calls[p.1], by simp [hl], ?_⟩
    have hm : p.2 ∈ printedFor s p.1 := by
      simp only [printedFor, List.mem_map, List.mem_filter]
      exact ⟨p, ⟨hp, by simp⟩, rfl⟩
    rcases hcall p.1 s.calls[p.1] (by simp [hl]) with h0 | h0 <;> rw [h0] at hm
    · cases hm
    · simpa using hm
  · intro i c hc hr
    obtain ⟨c', hc', hpc⟩ := hr
    rw [hc] at hc'; cases hc'
    have := hinv.call i c hc
    simp only [CallOk, hpc, line] at this
    exact this.2.1 trivial

example : ∃ s : St, Reachable s ∧ s.printed = [(0, [97, 98, 10]), (1, [99, 10])] ∧ Returned s 0 true ∧
    Returned s 1 true := by
  obtain ⟨s, h1, h2, h3, _⟩ := twoCalls_run
  exact ⟨s, ⟨_, h1⟩, h2, ⟨_, by rw [h3]; rfl, rfl⟩, ⟨_, by rw [h3]; rfl, rfl⟩⟩

/-- C88.  A message is printed before the call returns or never: once a call has returned, nothing more is printed
for it, whatever happens later.  What is printed stays. -/
theorem C88_before_return (s s' : St) (h : Reachable s) (ha : After s s') :
    s.printed <+: s'.printed ∧
    ∀ (i : Nat) (replied : Bool), Returned s i replied →
      Returned s' i replied ∧ printedFor s' i = printedFor s i := by
  obtain ⟨acts, hr⟩ := ha
  exact ⟨run_prefix hr, fun i d hd => run_returned (inv_reachable h) hr hd⟩

example : ∃ s s' : St, Reachable s ∧ After s s' ∧ Returned s 0 true ∧ s.printed ≠ s'.printed := by
  refine ⟨_, _, ⟨twoCalls.take 17, rfl⟩, ⟨twoCalls.drop 17, rfl⟩, ⟨_, rfl, rfl⟩, ?_⟩
  decide +kernel

/-- C88.  When the server runs, and has begun to wait for clients, and nothing fails, no message is lost: for each
call made after that which has returned, its line is printed. -/
theorem C88_delivered (s s' : St) (h : Reachable s) (h1 : s.srv ≠ .stopped) (h2 : s.srv ≠ .first) (acts : List Act)
    (hf : ∀ a ∈ acts, fine a = true) (hr : run s acts = some s') (i : Nat) (c : Call) (hi : s.calls.length ≤ i)
    (hc : s'.calls[i]? = some c) (replied : Bool) (hret : Returned s' i replied) :
    printedFor s' i = [c.msg ++ [10]] := by
  have hrun : Running s.srv := by
    cases hs : s.srv <;> simp_all [Running]
  have h3 := (inv2_run (inv2_begin (inv_reachable h) hrun) hf hr).new i c hi hc
  obtain ⟨c', hc', hpc⟩ := hret
  rw [hc] at hc'; cases hc'
  simpa only [NewOk, hpc, line] using h3

example : ∃ (s s' : St) (acts : List Act), Reachable s ∧ s.srv ≠ .stopped ∧ s.srv ≠ .first ∧
    (∀ a ∈ acts, fine a = true) ∧ run s acts = some s' ∧ s.calls.length ≤ 1 ∧ Returned s' 1 true ∧
    printedFor s' 1 = [[99, 10]] := by
  refine ⟨_, _, twoCalls.drop 2, ⟨twoCalls.take 2, rfl⟩, ?_, ?_, ?_, rfl, ?_, ⟨_, rfl, rfl⟩, ?_⟩ <;> decide +kernel

/-- C88.  No handle is lost or closed twice: a call opens at most one handle, and when it has returned it has closed
as many as it opened. -/
theorem C88_handles (s : St) (h : Reachable s) (i : Nat) (c : Call) (hc : s.calls[i]? = some c) :
    c.opened ≤ 1 ∧ c.closed ≤ c.opened ∧ ((∃ replied, c.pc = .returned replied) → c.opened = c.closed) := by
  have := (inv_reachable h).call i c hc
  cases hpc : c.pc <;> simp only [CallOk, hpc] at this
  · exact ⟨by omega, by omega, by rintro ⟨_, h⟩; cases h⟩
  · exact ⟨by omega, by omega, by rintro ⟨_, h⟩; cases h⟩
  · exact ⟨by omega, by omega, by rintro ⟨_, h⟩; cases h⟩
  · exact ⟨by omega, by omega, by rintro ⟨_, h⟩; cases h⟩
  · exact ⟨by omega, by omega, by rintro ⟨_, h⟩; cases h⟩
  · exact ⟨by omega, by omega, by rintro ⟨_, h⟩; cases h⟩
  · exact ⟨by omega, by omega, fun _ => this.2.2.1⟩

example : ∃ s : St, Reachable s ∧ s.calls[1]? = some ⟨[99], .returned true, 1, 1⟩ := by
  obtain ⟨s, h1, _, h3, _⟩ := twoCalls_run
  exact ⟨s, ⟨_, h1⟩, by rw [h3]; rfl⟩

/-- C88, part: every call returns as long as all processes go on.  From any state on, with any order of the steps,
there are at most so many steps of the calls in progress and the server, and when none of them can make a step, all
calls have returned.  What is missing is a process that does not go on: see `C88_suspended_defect`. -/
theorem C88_returns_partial (s : St) (h : Reachable s) :
    (∀ acts s', (∀ a ∈ acts, own a = true) → run s acts = some s' →
      acts.length ≤ 3 * s.calls.length * s.calls.length + 15 * s.calls.length + 8) ∧
    (Stuck s → AllReturned s) := by
  have hinv := inv_reachable h
  refine ⟨?_, stuck_all hinv⟩
  intro acts s' ha hr
  have h1 := own_steps hinv ha hr
  have h2 := measure_bound s
  omega

example : ∃ (s s' : St), Reachable s ∧ (∀ a ∈ twoCalls.drop 4, own a = true) ∧ run s (twoCalls.drop 4) = some s' ∧
    s.calls.length = 2 := by
  refine ⟨_, _, ⟨twoCalls.take 4, rfl⟩, ?_, rfl, ?_⟩ <;> decide +kernel

/-- What a call can still do when there is no server. -/
private def alone : Pc → Nat
  | .opening => 1
  | .waiting => 1
  | .mode => 3
  | .transact _ => 2
  | .reply => 2
  | .close _ => 1
  | .returned _ => 0

private theorem alone_step {s : St} {i : Nat} {c : Call} (hp : s.pipe = .gone) (hc : s.calls[i]? = some c) (ok : Bool)
    (hn : alone c.pc ≠ 0) : ∃ (s' : St) (c' : Call), clientStep s i ok = some s' ∧ s'.pipe = .gone ∧
      s'.calls[i]? = some c' ∧ alone c'.pc < alone c.pc := by
  have hl := get_lt hc
  have key : ∀ c' : Call, alone c'.pc < alone c.pc → clientStep s i ok = some (s.put i c') →
      ∃ (s' : St) (c' : Call), clientStep s i ok = some s' ∧ s'.pipe = .gone ∧ s'.calls[i]? = some c' ∧
        alone c'.pc < alone c.pc := by
    intro c' hlt he
    exact ⟨_, c', he, hp, by rw [put_get hc]; simp, hlt⟩
  cases hpc : c.pc with
  | opening =>
    rw [← hpc]
    refine key { c with pc := .returned false } (by rw [hpc]; simp [alone]) ?_
    cases ok <;> simp [clientStep, hc, hpc, stepOpening, hp]
  | waiting =>
    rw [← hpc]
    exact key { c with pc := .returned false } (by rw [hpc]; simp [alone])
      (by simp [clientStep, hc, hpc, stepWaiting, hp])
  | mode =>
    rw [← hpc]
    exact key { c with pc := .transact ok } (by rw [hpc]; simp [alone]) (by simp [clientStep, hc, hpc])
  | transact m =>
    rw [← hpc]
    refine key { c with pc := .close false } (by rw [hpc]; simp [alone]) ?_
    cases m <;> cases ok <;> simp [clientStep, hc, hpc, stepTransact, hp]
  | reply =>
    rw [← hpc]
    exact key { c with pc := .close false } (by rw [hpc]; simp [alone])
      (by simp [clientStep, hc, hpc, stepReply, hp])
  | close d =>
    rw [← hpc]
    exact key { c with pc := .returned d, closed := c.closed + 1 } (by rw [hpc]; simp [alone])
      (by simp [clientStep, hc, hpc, stepClose, hp])
  | returned d => rw [hpc] at hn; exact absurd rfl hn

private theorem alone_run (n : Nat) : ∀ {s : St} {i : Nat} {c : Call}, s.pipe = .gone → s.calls[i]? = some c →
    alone c.pc ≤ n → ∀ oks : List Bool, n ≤ oks.length →
    ∃ k, k ≤ n ∧ ∃ (s' : St) (d : Bool), run s ((oks.take k).map fun ok => .client i ok) = some s' ∧
      Returned s' i d := by
  induction n with
  | zero =>
    intro s i c hp hc ha oks _
    refine ⟨0, Nat.le_refl _, s, ?_⟩
    cases hpc : c.pc <;> simp [hpc, alone] at ha
    next d => exact ⟨d, by simp [run], c, hc, hpc⟩
  | succ n ih =>
    intro s i c hp hc ha oks hl
    by_cases h0 : alone c.pc = 0
    · cases hpc : c.pc <;> simp [hpc, alone] at h0
      next d => exact ⟨0, by omega, s, d, by simp [run], c, hc, hpc⟩
    · cases oks with
      | nil => simp at hl
      | cons ok oks =>
        obtain ⟨s1, c1, h1, h2, h3, h4⟩ := alone_step hp hc ok h0
        obtain ⟨k, hk, s', d, hr, hd⟩ := ih h2 h3 (by omega) oks (by simpa using hl)
        refine ⟨k + 1, by omega, s', d, ?_, hd⟩
        simp only [List.take_succ_cons, List.map_cons, run, act, h1, Option.bind_some]
        exact hr

/-- C88.  Without a server no call waits: a call returns after at most three steps of its own, whatever the
functions of Windows answer, and whatever the other processes are doing. -/
theorem C88_no_server (s : St) (h : Reachable s) (hs : s.srv = .stopped) (i : Nat) (hi : i < s.calls.length)
    (oks : List Bool) (hl : oks.length = 3) :
    ∃ k, k ≤ 3 ∧ ∃ (s' : St) (replied : Bool),
      run s ((oks.take k).map fun ok => .client i ok) = some s' ∧ Returned s' i replied := by
  have hp : s.pipe = .gone := by
    have := (inv_reachable h).shape
    rw [hs] at this
    cases hp : s.pipe <;> simp [hp, Shape] at this ⊢
  exact alone_run 3 (c := s.calls[i]) hp (by simp [hi]) (by cases s.calls[i].pc <;> simp [alone]) oks (by omega)

example : ∃ s : St, Reachable s ∧ s.srv = .stopped ∧ 0 < s.calls.length ∧ ∃ c, s.calls[0]? = some c ∧ c.pc = .mode := by
  refine ⟨_, ⟨[.start, .server, .call [97], .client 0 true, .kill], rfl⟩, ?_, ?_, _, rfl, ?_⟩ <;> decide +kernel

/-- C88.  A process that traces can wait for ever: when one process is suspended after it opened the pipe, a call in
another process does not return as long as the first one does not go on, whatever everybody else does. -/
theorem C88_suspended_defect : ∃ s : St, Reachable s ∧ s.calls.length = 2 ∧
    ∀ acts s', (∀ a ∈ acts, without 0 a = true) → run s acts = some s' → ∀ replied, ¬ Returned s' 1 replied := by
  refine ⟨⟨[⟨[97], .mode, 1, 0⟩, ⟨[98], .waiting, 0, 0⟩], .reading, .connected 0 none false true, []⟩,
    ⟨[.start, .server, .call [97], .client 0 true, .server, .call [98], .client 1 true], rfl⟩, rfl, ?_⟩
  intro acts s' ha hr
  have key : ∀ (acts : List Act) (s s' : St), s.srv = .reading → s.pipe = .connected 0 none false true →
      (∃ c : Call, s.calls[1]? = some c ∧ c.pc = .waiting) → (∀ a ∈ acts, without 0 a = true) → run s acts = some s' →
      ∃ c : Call, s'.calls[1]? = some c ∧ c.pc = .waiting := by
    intro acts
    induction acts with
    | nil => intro s s' _ _ hc _ hr; cases hr; exact hc
    | cons a acts ih =>
      intro s s' hs hp hc ha hr
      obtain ⟨s1, h1, h2⟩ := run_cons.1 hr
      have haw := ha a (by simp)
      have ha' : ∀ b ∈ acts, without 0 b = true := fun b hb => ha b (by simp [hb])
      obtain ⟨c, hc, hpc⟩ := hc
      cases a with
      | kill => cases haw
      | server => simp [act, serverStep, hs, stepRead, hp] at h1
      | start => simp [act, hs] at h1
      | call msg =>
        cases h1
        refine ih { s with calls := s.calls ++ [⟨msg, .opening, 0, 0⟩] } s' hs hp ⟨c, ?_, hpc⟩ ha' h2
        show (s.calls ++ _)[1]? = _
        rw [List.getElem?_append_left (get_lt hc)]; exact hc
      | client j ok =>
        have hj0 : j ≠ 0 := by simpa [without] using haw
        have h1' : clientStep s j ok = some s1 := h1
        obtain ⟨d, hd, hnr, hpr, hsrv, d', hcalls, _⟩ := client_frame h1'
        have hj1 : j ≠ 1 := by
          intro hj; subst hj
          simp [clientStep, hc, hpc, stepWaiting, hp] at h1'
        have hp1 : s1.pipe = .connected 0 none false true := by
          simp only [clientStep, hd] at h1'
          have h0j : ¬ 0 = j := fun e => hj0 e.symm
          cases hpcd : d.pc <;> simp [hpcd, stepOpening, stepWaiting, stepTransact, stepReply, stepClose, hp, h0j] at h1'
          · subst h1'; split <;> exact hp
          · subst h1'; exact hp
          · subst h1'; exact hp
          · subst h1'; exact hp
          · subst h1'
            show Pipe.connected 0 none false (0 != j) = _
            simp [Ne.symm hj0]
        refine ih s1 s' (hsrv.trans hs) hp1 ⟨c, ?_, hpc⟩ ha' h2
        rw [hcalls]
        simp [List.getElem?_set, hj1, hc]
  obtain ⟨c, hc, hpc⟩ := key acts _ s' rfl rfl ⟨_, rfl, rfl⟩ ha hr
  rintro d ⟨c', hc', hpc'⟩
  rw [hc] at hc'; cases hc'
  rw [hpc] at hpc'; cases hpc'

/-- C88.  The client opens the pipe that the server creates, an existing one, for reading and writing, and lets the
server only identify it, not act in its place. -/
theorem C88_identification :
    openArgs.name = serverPipeName ∧ serverPipeName = [92, 92, 46, 92, 112, 105, 112, 101, 92, 68, 101, 98, 117, 103,
      83, 101, 114, 118, 101, 114] ∧ impersonationLevel openArgs.flags ≤ 1 ∧ openArgs.disposition = 3 ∧
    openArgs.access / 2 ^ 30 = 3 := by
  decide +kernel

/-- C88.  The time of a message, for any system time from 1970 on: the seconds modulo 100000 and the milliseconds. -/
theorem C88_time (high low : Nat) (hl : low < 2 ^ 32) (h1 : 116444736000000000 ≤ high * 2 ^ 32 + low) :
    timeFields high low =
      (((milliseconds (high * 2 ^ 32 + low) / 1000 % 100000 : Nat) : Int),
        ((milliseconds (high * 2 ^ 32 + low) % 1000 : Nat) : Int)) := by
  have e : unixTimeMillis high low = ((milliseconds (high * 2 ^ 32 + low) : Nat) : Int) := by
    unfold unixTimeMillis milliseconds
    rw [show ((high : Int) * 2 ^ 32 + (low : Int)) = ((high * 2 ^ 32 + low : Nat) : Int) by norm_cast]
    generalize high * 2 ^ 32 + low = t at h1 ⊢
    rw [Int.tdiv_eq_ediv_of_nonneg (by omega)]
    omega
  generalize milliseconds (high * 2 ^ 32 + low) = m at e ⊢
  have e2 : currentTime high low = ((m % 100000000 : Nat) : Int) := by
    unfold currentTime
    rw [e, Int.tmod_eq_emod_of_nonneg (by omega)]
    rw [show (100000 * 1000 : Int) = 100000000 by rfl]
    rw [Int.bmod_def]
    omega
  unfold timeFields
  rw [e2, Int.tdiv_eq_ediv_of_nonneg (by omega), Int.tmod_eq_emod_of_nonneg (by omega)]
  refine Prod.ext ?_ ?_
  · show ((m % 100000000 : Nat) : Int) / 1000 = ((m / 1000 % 100000 : Nat) : Int)
    omega
  · show ((m % 100000000 : Nat) : Int) % 1000 = ((m % 1000 : Nat) : Int)
    omega

example : (116444736000000000 ≤ 30000000 * 2 ^ 32 + 1234567890) ∧
    timeFields 30000000 1234567890 = (28411, 456) := by decide +kernel

end Winpty.Props
