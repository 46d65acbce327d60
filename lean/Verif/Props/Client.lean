import Verif.Lemmas.ClientLog
import Verif.Props.AgentRpc

/-!
# C32, C33, C34, C42, C56, C57: the library's RPC calls

`call cfg wantErr s w c` is one API call `c` on the session `s`; `w.ios` are the answers of the system
to the reads and writes of the control pipe and `w.dups` those to `DuplicateHandle`, chosen
arbitrarily.  `requests`, `received`, `Tidy`, `codeOf` are read off the log and the answers in
`Verif/Spec/Client.lean`.  `ValidCall` says that the arguments are values the C types can hold,
`SaneWorld` that the bytes delivered are bytes and that `SIZE_MAX` has at most 64 bits.
-/
namespace Winpty.Props
open Winpty.Client Winpty.Spec Winpty.Spec.Client
open Winpty.Buffer (Field)

/-! ## C32: a failed call closes the connection for good -/

/-- A call on a connected session that succeeds, or that the agent answers with a refusal (code 2),
leaves the session as it was and the pipe open.  A call that fails in any other way disconnects the
session and closes the pipe, as the last thing it does. -/
theorem C32_failure_closes (cfg : Cfg) (s s' : Session) (w w' : World) (c : Call) (r : Ret)
    (hv : ValidCall cfg s c) (hw : SaneWorld cfg w) (hs : s.connected = true)
    (h : call cfg true s w c = .returned r s' w') :
    ∃ es, w'.log = w.log ++ es ∧
      (errorCode r.err = 0 ∨ errorCode r.err = 2 → s' = s ∧ Event.closePipe ∉ es) ∧
      (errorCode r.err ≠ 0 → errorCode r.err ≠ 2 → s' = { s with connected := false } ∧
        ∃ es', es = es' ++ [.closePipe] ∧ Event.closePipe ∉ es') := by
  have hl := call_log cfg true s w c
  rw [h] at hl
  simp only at hl
  have hne : s ≠ { s with connected := false } := by
    intro he; rw [he] at hs; cases hs
  rcases call_facts hv hw hs h with ⟨u, es, k1, _, _, _, _, k5⟩ | ⟨e, u, es, k1, _, _, k4, _, k6⟩
  · rcases hl with ⟨_, es', m1, m2, _⟩ | ⟨_, m1, _⟩
    · refine ⟨es', m1, fun _ => ⟨k1, m2⟩, ?_⟩
      intro h1 h2
      rcases k5 with ⟨k5, _⟩ | ⟨_, _, k5⟩
      · rw [k5] at h1; exact absurd rfl h1
      · rw [k5] at h2; exact absurd rfl h2
    · rw [k1] at m1; exact absurd m1 hne
  · rcases hl with ⟨m1, _⟩ | ⟨_, _, es', m1, m2⟩
    · rw [k1] at m1; exact absurd m1.symm hne
    · have hc := cause_code k4
      have hcode : errorCode r.err = (translateException e).code := by rw [k6]; rfl
      refine ⟨es' ++ [.closePipe], by rw [m1, List.append_assoc], ?_, fun _ _ => ⟨k1, es', rfl, m2⟩⟩
      intro h1
      rw [hcode] at h1
      rcases h1 with h1 | h1 <;> rw [h1] at hc <;> simp at hc

/-- Every later call fails at once with code 5, sends nothing, and changes nothing. -/
theorem C32_latched (cfg : Cfg) (we : Bool) (s : Session) (w : World) (c : Call)
    (hs : s.connected = false) (hc : ∀ cols rows, c = .setSize cols rows → 0 < cols ∧ 0 < rows) :
    ∃ r, call cfg we s w c = .returned r s w ∧ r.value = 0 ∧
      r.err = if we then some ⟨5, "Agent shutdown due to RPC failure"⟩ else none := by
  cases c with
  | setSize cols rows =>
    have := hc cols rows rfl
    simp only [call, setSize, if_pos this, rpcOperation, hs, Bool.false_eq_true, if_false]
    exact ⟨_, rfl, rfl, rfl⟩
  | processList mem n =>
    simp only [call, getConsoleProcessList, rpcOperation, hs, Bool.false_eq_true, if_false]
    exact ⟨_, rfl, rfl, rfl⟩
  | spawn sc o =>
    simp only [call, spawn, rpcOperation, hs, Bool.false_eq_true, if_false]
    exact ⟨_, rfl, rfl, rfl⟩

/-- In every history of calls on a session, nothing at all is done after the control pipe was closed:
no write, no read, no second close. -/
theorem C32_silent_after_close (cfg : Cfg) (we : Bool) (s : Session) (w : World) (cs : List Call) :
    ∃ es, (calls cfg we s w cs).2.2.log = w.log ++ es ∧
      (s.connected = false → es = []) ∧ ∀ a b, es = a ++ .closePipe :: b → b = [] := by
  induction cs generalizing s w with
  | nil => exact ⟨[], by simp [calls], fun _ => rfl, by simp⟩
  | cons c cs ih =>
    have hl := call_log cfg we s w c
    simp only [calls]
    cases hc : call cfg we s w c with
    | returned r s' w' =>
      rw [hc] at hl
      obtain ⟨es2, k1, k2, k3⟩ := ih s' w'
      rcases hl with ⟨rfl, es, m1, m2, m3⟩ | ⟨hs, rfl, es, m1, m2⟩
      · refine ⟨es ++ es2, by simp only; rw [k1, m1, List.append_assoc],
          fun h => by rw [m3 h, k2 h]; rfl, ?_⟩
        intro a b hab
        rw [List.append_eq_append_iff] at hab
        rcases hab with ⟨x, h1, h2⟩ | ⟨x, h1, h2⟩
        · exact k3 x b h2
        · cases x with
          | nil => exact k3 [] b (by simpa using h2.symm)
          | cons y ys =>
            simp only [List.cons_append, List.cons.injEq] at h2
            obtain ⟨rfl, _⟩ := h2
            exact absurd (by rw [h1]; simp) m2
      · refine ⟨es ++ [.closePipe], ?_, by simp [hs], ?_⟩
        · simp only
          rw [k1, k2 rfl, List.append_nil, m1, List.append_assoc]
        · intro a b hab
          rw [List.append_eq_append_iff] at hab
          rcases hab with ⟨x, h1, h2⟩ | ⟨x, h1, h2⟩
          · cases x with
            | nil => simpa using h2.symm
            | cons y ys => simp at h2
          · cases x with
            | nil => simpa using h2.symm
            | cons y ys =>
              simp only [List.cons_append, List.cons.injEq] at h2
              obtain ⟨rfl, _⟩ := h2
              exact absurd (by rw [h1]; simp) m2
    | aborted o w' =>
      rw [hc] at hl
      rcases hl with ⟨_, es, m1, m2, m3⟩ | ⟨hs, h', _⟩
      · exact ⟨es, m1, m3, fun a b hab => absurd (by rw [hab]; simp) m2⟩
      · rw [h'] at hs; cases hs
    | waiting w' =>
      rw [hc] at hl
      rcases hl with ⟨_, es, m1, m2, m3⟩ | ⟨hs, h', _⟩
      · exact ⟨es, m1, m3, fun a b hab => absurd (by rw [hab]; simp) m2⟩
      · rw [h'] at hs; cases hs

/-- Requests and replies stay paired: in a history whose calls have all come back and that has not
lost the connection, the i-th call has sent exactly its own request, whole, and then received exactly
one whole packet, before the next call sends anything. -/
theorem C32_pairing (cfg : Cfg) (we : Bool) (s s' : Session) (w w' : World) (cs : List Call)
    (rs : List Ret) (hv : ∀ c ∈ cs, ValidCall cfg s c) (hw : SaneWorld cfg w)
    (h : calls cfg we s w cs = (rs, s', w')) (hback : rs.length = cs.length) (hs' : s'.connected = true) :
    s' = s ∧ ∃ parts : List (List Event), w'.log = w.log ++ parts.flatten ∧ parts.length = cs.length ∧
      ∀ (i : Nat) (c : Call) (part : List Event), cs[i]? = some c → parts[i]? = some part →
        requests part = [message (requestOf s c)] ∧
        accepted part = [(message (requestOf s c)).length] ∧
        IsPacket cfg.buffer.sizeMax (received part) := by
  have hdis : ∀ (cs : List Call) (s : Session) (w : World), s.connected = false →
      (calls cfg we s w cs).2.1.connected = false := by
    intro cs
    induction cs with
    | nil => intro s w hs; exact hs
    | cons c cs ih =>
      intro s w hs
      have hl := call_log cfg we s w c
      simp only [calls]
      cases hc : call cfg we s w c with
      | returned r s1 w1 =>
        rw [hc] at hl
        rcases hl with ⟨rfl, _⟩ | ⟨hs1, _⟩
        · exact ih _ _ hs
        · rw [hs] at hs1; cases hs1
      | aborted o w1 => exact hs
      | waiting w1 => exact hs
  induction cs generalizing s w rs with
  | nil =>
    simp only [calls, Prod.mk.injEq] at h
    obtain ⟨_, rfl, rfl⟩ := h
    exact ⟨rfl, [], by simp, rfl, by simp⟩
  | cons c cs ih =>
    have hs : s.connected = true := by
      cases hcon : s.connected with
      | true => rfl
      | false =>
        have := hdis (c :: cs) s w hcon
        rw [h] at this
        rw [hs'] at this; cases this
    simp only [calls] at h
    cases hc : call cfg we s w c with
    | returned r s1 w1 =>
      rw [hc] at h
      simp only [Prod.mk.injEq] at h
      obtain ⟨rfl, h2⟩ := h
      rcases call_facts (hv c (by simp)) hw hs hc with ⟨u, es, rfl, k2, _, _, k5, _⟩ | ⟨e, u, es, rfl, _⟩
      · obtain ⟨rfl, parts, m1, m2, m3⟩ := ih s1 w1 (calls cfg we s1 w1 cs).1 (fun c hc => hv c (by simp [hc]))
          (hw.after k2) (by rw [← h2]) (by simpa using hback)
        refine ⟨rfl, es :: parts, by rw [m1, k2.log]; simp, by simp [m2], ?_⟩
        intro i c' part hi hp
        cases i with
        | zero =>
          simp only [List.getElem?_cons_zero, Option.some.injEq] at hi hp
          subst hi; subst hp
          exact k5
        | succ i => exact m3 i c' part (by simpa using hi) (by simpa using hp)
      · have := hdis cs { s with connected := false } w1 rfl
        rw [h2, hs'] at this
        cases this
    | aborted o w1 =>
      rw [hc] at h
      cases h
      simp at hback
    | waiting w1 =>
      rw [hc] at h
      cases h
      simp at hback

/-! ## C33: errors are reported consistently -/

/-- The error out-parameter is set exactly if the call fails.  For a spawn or a resize the result is 1
or 0 accordingly; a failed process-list call returns 0.  The codes are documented ones, and only a
spawn gives code 2. -/
theorem C33_error_iff_failed (cfg : Cfg) (s s' : Session) (w w' : World) (c : Call) (r : Ret)
    (hv : ValidCall cfg s c) (hw : SaneWorld cfg w) (h : call cfg true s w c = .returned r s' w') :
    (r.err ≠ none → r.value = 0) ∧
    ((∀ m n, c ≠ .processList m n) → (r.err = none ↔ r.value = 1)) ∧
    errorCode r.err ∈ [0, 1, 2, 3, 5, 6, 7] ∧
    (r.err = none ↔ errorCode r.err = 0) ∧
    (errorCode r.err = 2 → ∃ sc o, c = .spawn sc o) := by
  cases hs : s.connected with
  | false =>
    have hc : ∀ cols rows, c = .setSize cols rows → 0 < cols ∧ 0 < rows := by
      rintro cols rows rfl
      simp only [call, setSize] at h
      by_cases hp : cols > 0 ∧ rows > 0
      · exact hp
      · rw [if_neg hp] at h; cases h
    obtain ⟨r', h1, h2, h3⟩ := C32_latched cfg true s w c hs hc
    rw [h] at h1
    cases h1
    rw [h3]
    refine ⟨fun _ => h2, ?_, by simp [errorCode], by simp [errorCode], by simp [errorCode]⟩
    intro _
    rw [h2]
    simp
  | true =>
    rcases call_facts hv hw hs h with ⟨u, es, _, _, _, _, _, ⟨k1, k2⟩ | ⟨k1, k2, k3⟩⟩ |
        ⟨e, u, es, _, _, _, k4, k5, k6⟩
    · rw [k1]
      exact ⟨by simp, fun hn => by simp [k2 hn], by simp [errorCode], by simp [errorCode], by simp [errorCode]⟩
    · rw [k3]
      exact ⟨fun _ => k2, fun _ => by rw [k2]; simp, by simp [errorCode], by simp [errorCode], fun _ => k1⟩
    · have hc := cause_code k4
      rw [k6]
      have hcode : errorCode (if true then some (translateException e) else none) = (translateException e).code := rfl
      refine ⟨fun _ => k5, fun _ => by rw [k5]; simp, ?_, ?_, ?_⟩
      · rw [hcode]
        simp only [List.mem_cons, List.not_mem_nil, or_false] at hc ⊢
        omega
      · rw [hcode]
        simp only [List.mem_cons, List.not_mem_nil, or_false] at hc
        constructor
        · intro hh; cases hh
        · omega
      · rw [hcode]
        simp only [List.mem_cons, List.not_mem_nil, or_false] at hc
        omega

/-- The code tells what happened: if a transfer failed, it was the last one made, and the code is the
one for that failure; otherwise all transfers succeeded and the code says that the agent refused
(2), that its reply was bad or a handle could not be taken over (5), or that memory ran out (1).  If
there is no error, all transfers succeeded. -/
theorem C33_codes (cfg : Cfg) (s s' : Session) (w w' : World) (c : Call) (r : Ret)
    (hv : ValidCall cfg s c) (hw : SaneWorld cfg w) (hs : s.connected = true)
    (h : call cfg true s w c = .returned r s' w') :
    ∃ used, w.ios = used ++ w'.ios ∧
      (((∀ i ∈ used, codeOf i = none) ∧ errorCode r.err ∈ [0, 1, 2, 5]) ∨
       ∃ pre bad, used = pre ++ [bad] ∧ (∀ i ∈ pre, codeOf i = none) ∧
        codeOf bad = some (errorCode r.err)) := by
  rcases call_facts hv hw hs h with ⟨u, es, _, k2, k3, _, _, ⟨k5, _⟩ | ⟨_, _, k5⟩⟩ |
      ⟨e, u, es, _, k2, _, k4, _, k6⟩
  · exact ⟨u, k2.ios, .inl ⟨k3, by rw [k5]; simp [errorCode]⟩⟩
  · exact ⟨u, k2.ios, .inl ⟨k3, by rw [k5]; simp [errorCode]⟩⟩
  · refine ⟨u, k2.ios, ?_⟩
    rw [k6]
    rcases k4 with ⟨a1, a2⟩ | ⟨pre, bad, a1, a2, a3⟩
    · refine .inl ⟨a1, ?_⟩
      show (translateException e).code ∈ _
      rcases a2 with a2 | a2 <;> rw [a2] <;> simp
    · exact .inr ⟨pre, bad, a1, a2, a3⟩

/-- A failed spawn leaves no stale results: both handle outputs are null, and the
`CreateProcess` error is 0 unless the agent refused.  Outputs that were not asked for are not touched. -/
theorem C33_spawn_outputs (cfg : Cfg) (s s' : Session) (w w' : World) (sc : SpawnConfig) (o : SpawnOut)
    (r : Ret) (h : call cfg true s w (.spawn sc o) = .returned r s' w') :
    (r.out.process = none ↔ o.process = none) ∧ (r.out.thread = none ↔ o.thread = none) ∧
    (r.out.createError = none ↔ o.createError = none) ∧
    (r.err ≠ none → (∀ v, r.out.process = some v → v = 0) ∧ (∀ v, r.out.thread = some v → v = 0)) ∧
    (∀ v, r.out.createError = some v → errorCode r.err ≠ 2 → v = 0) := by
  have hreset : ∀ e : Option Error,
      ((resetOut o).process = none ↔ o.process = none) ∧ ((resetOut o).thread = none ↔ o.thread = none) ∧
      ((resetOut o).createError = none ↔ o.createError = none) ∧
      (e ≠ none → (∀ v, (resetOut o).process = some v → v = 0) ∧ (∀ v, (resetOut o).thread = some v → v = 0)) ∧
      (∀ v, (resetOut o).createError = some v → errorCode e ≠ 2 → v = 0) := by
    intro e
    simp only [resetOut]
    cases o.process <;> cases o.thread <;> cases o.createError <;> simp <;> omega
  cases hs : s.connected with
  | false =>
    simp only [call, spawn, rpcOperation, hs, Bool.false_eq_true, if_false, Done1.returned.injEq] at h
    obtain ⟨rfl, _, _⟩ := h
    exact hreset _
  | true =>
    rcases spawn_returned hs h with ⟨o', h1, rfl, _⟩ | ⟨code, h1, rfl, _⟩ | ⟨e, w1, h1, _, rfl, _⟩
    · have ho : ∃ hp ht, o' = ⟨o.process.map fun _ => hp, o.thread.map fun _ => ht, o.createError.map fun _ => 0⟩ := by
        unfold spawnBody at h1
        obtain ⟨_, w2, _, h2⟩ := R.bind_eq_ok h1
        obtain ⟨reply, w3, _, h3⟩ := R.bind_eq_ok h2
        unfold spawnReply at h3
        obtain ⟨x, w4, _, h4⟩ := R.bind_eq_ok h3
        split at h4
        · obtain ⟨_, _, _, h5⟩ := R.bind_eq_ok h4
          obtain ⟨_, _, _, h6⟩ := R.bind_eq_ok h5
          cases h6
        · split at h4
          · obtain ⟨_, _, _, h5⟩ := R.bind_eq_ok h4
            obtain ⟨_, _, _, h6⟩ := R.bind_eq_ok h5
            obtain ⟨_, _, _, h7⟩ := R.bind_eq_ok h6
            obtain ⟨_, w8, h8, h9⟩ := R.bind_eq_ok h7
            cases h9
            unfold takeHandles at h8
            obtain ⟨hp, w9, _, h9⟩ := R.bind_eq_ok h8
            split at h9 <;> cases h9
            rename_i ht _ _
            refine ⟨hp, ht, ?_⟩
            simp only [resetOut]
            cases o.process <;> cases o.thread <;> cases o.createError <;> rfl
          · cases h4
      obtain ⟨hp, ht, rfl⟩ := ho
      cases o.process <;> cases o.thread <;> cases o.createError <;> simp <;> omega
    · simp only [if_true, errorCode]
      cases o.process <;> cases o.thread <;> cases o.createError <;> simp <;> omega
    · exact hreset _

/-- The error out-parameter is optional: leaving it out changes nothing else. -/
theorem C33_error_optional (cfg : Cfg) (s : Session) (w : World) (c : Call) :
    call cfg false s w c =
      match call cfg true s w c with
      | .returned r s' w' => .returned { r with err := none } s' w'
      | .aborted b w' => .aborted b w'
      | .waiting w' => .waiting w' := by
  have hcatch : ∀ (α : Type) (f : α) (x : Except Exn α),
      (apiCatch f false x).1 = (apiCatch f true x).1 ∧ (apiCatch f false x).2 = none := by
    intro α f x
    cases x <;> simp [apiCatch]
  cases c with
  | setSize cols rows =>
    simp only [call]
    cases setSize cfg s w cols rows with
    | returned r s' w' => simp only [(hcatch _ _ _).1, (hcatch _ _ _).2]
    | aborted w' => rfl
    | waiting w' => rfl
  | processList mem n =>
    simp only [call]
    rcases getConsoleProcessList cfg s w mem n with ⟨m, x⟩
    cases m with
    | none => rfl
    | some m =>
      cases x with
      | returned r s' w' => simp only [(hcatch _ _ _).1, (hcatch _ _ _).2]
      | aborted w' => rfl
      | waiting w' => rfl
  | spawn sc o =>
    simp only [call]
    rcases spawn cfg s w sc o with ⟨m, x⟩
    cases x with
    | returned r s' w' => simp only [(hcatch _ _ _).1, (hcatch _ _ _).2]
    | aborted w' => rfl
    | waiting w' => rfl

/-- A size that is not positive is never sent: the process stops at the assertion, with nothing done. -/
theorem C33_set_size_args (cfg : Cfg) (we : Bool) (s : Session) (w : World) (cols rows : Int)
    (h : cols ≤ 0 ∨ rows ≤ 0) : call cfg we s w (.setSize cols rows) = .aborted false w := by
  simp only [call, setSize]
  rw [if_neg (by omega)]

end Winpty.Props
