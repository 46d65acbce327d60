import Verif.Props.Client
import Verif.Lemmas.ClientWait

/-!
# C34, C42, C56, C57: transfers, replies and handles of the library's RPC calls

Notation as in `Verif/Props/Client.lean`; `Delivers` (`Verif/Spec/Client.lean`) says that the system
takes a request and delivers a reply, in chunks of any sizes.
-/
namespace Winpty.Props
open Winpty.Client Winpty.Spec Winpty.Spec.Client
open Winpty.Buffer (Field)

/-! ## C42: transfers end, and none is left pending -/

/-- Whatever the order of completion, death of the agent and timeout: a call that comes back has left
no transfer pending, and none was pending when the next was started or the pipe was closed. -/
theorem C42_nothing_left_pending (cfg : Cfg) (we : Bool) (s s' : Session) (w w' : World) (c : Call)
    (r : Ret) (hv : ValidCall cfg s c) (hw : SaneWorld cfg w)
    (h : call cfg we s w c = .returned r s' w') :
    ∃ es, w'.log = w.log ++ es ∧ Tidy es := by
  cases hs : s.connected with
  | false =>
    have hl := call_log cfg we s w c
    rw [h] at hl
    rcases hl with ⟨_, es, h1, _, h3⟩ | ⟨h1, _⟩
    · exact ⟨es, h1, by rw [h3 hs]; rfl⟩
    · rw [hs] at h1; cases h1
  | true =>
    rcases call_facts hv hw hs h with ⟨u, es, _, k2, _, k4, _⟩ | ⟨e, u, es, _, k2, k4, _⟩
    · exact ⟨es, k2.log, k4⟩
    · exact ⟨_, k2.log, k4⟩

/-- A call succeeds only on whole transfers: the system has reported that it took exactly the whole
request, and the reply received is a whole packet. -/
theorem C42_success_is_whole (cfg : Cfg) (s s' : Session) (w w' : World) (c : Call)
    (r : Ret) (hv : ValidCall cfg s c) (hw : SaneWorld cfg w)
    (h : call cfg true s w c = .returned r s' w') (hok : errorCode r.err = 0 ∨ errorCode r.err = 2) :
    ∃ es, w'.log = w.log ++ es ∧ requests es = [message (requestOf s c)] ∧
      accepted es = [(message (requestOf s c)).length] ∧ IsPacket cfg.buffer.sizeMax (received es) := by
  cases hs : s.connected with
  | false =>
    have hc : ∀ cols rows, c = .setSize cols rows → 0 < cols ∧ 0 < rows := by
      rintro cols rows rfl
      by_cases hp : 0 < cols ∧ 0 < rows
      · exact hp
      · rw [C33_set_size_args cfg true s w cols rows (by omega)] at h; cases h
    obtain ⟨r', h1, _, h3⟩ := C32_latched cfg true s w c hs hc
    rw [h] at h1
    cases h1
    rw [h3] at hok
    simp [errorCode] at hok
  | true =>
    rcases call_facts hv hw hs h with ⟨u, es, _, k2, _, _, k5, _⟩ | ⟨e, u, es, _, _, _, k4, _, k6⟩
    · exact ⟨es, k2.log, k5⟩
    · have hcode : errorCode r.err = (translateException e).code := by rw [k6]; rfl
      have := cause_code k4
      rw [hcode] at hok
      rcases hok with h | h <;> rw [h] at this <;> simp at this

/-- A call that has not come back is waiting for the system: it has used all the answers there were,
and every one of them was a successful transfer (so neither death nor timeout was overlooked). -/
theorem C42_waiting (cfg : Cfg) (we : Bool) (s : Session) (w w' : World) (c : Call)
    (hv : ValidCall cfg s c) (hw : SaneWorld cfg w) (h : call cfg we s w c = .waiting w') :
    w'.ios = [] ∧ ∀ i ∈ w.ios, codeOf i = none := (call_waiting hv hw h).2

/-- A call needs no more than `SIZE_MAX` + 1 answers, provided that every successful read brings at
least one byte. -/
theorem C42_terminates (cfg : Cfg) (we : Bool) (s : Session) (w : World) (c : Call)
    (h8 : 8 ≤ cfg.buffer.sizeMax) (hreads : ∀ i ∈ w.ios.tail, codeOf i = none → dataOf i ≠ [])
    (hlen : cfg.buffer.sizeMax < w.ios.length) : ∀ w', call cfg we s w c ≠ .waiting w' := by
  intro w' h
  have rpc : ∀ {α : Type} {body : World → R (Except Exn α)}, rpcOperation s w body = .waiting w' →
      body w = .wait w' := by
    intro α body hr
    unfold rpcOperation at hr
    split at hr
    · cases hb : body w <;> rw [hb] at hr <;> cases hr
      rfl
    · cases hr
  have key : ∀ fs : List Field, (writePacket w fs).bind (fun _ w => readPacket cfg w) ≠ .wait w' := by
    intro fs he
    have := exchange_wait hreads h8 he
    omega
  cases c with
  | setSize cols rows =>
    simp only [call, setSize] at h
    by_cases hc : cols > 0 ∧ rows > 0
    · rw [if_pos hc] at h
      split at h <;> cases h
      rename_i hr
      have := rpc hr
      unfold setSizeBody at this
      rw [← bind_assoc (f := fun _ w => readPacket cfg w)] at this
      exact key _ (R.bind_wait (fun _ _ => bind_nowait decoded_nowait fun _ _ => ok_nowait) this)
    · rw [if_neg hc] at h
      cases h
  | processList mem n =>
    simp only [call, getConsoleProcessList] at h
    split at h <;> cases h
    rename_i hr
    simp only [Prod.mk.injEq] at hr
    have := rpc hr.2
    unfold processListBody at this
    have hk := key [.int32 2]
    generalize (writePacket w [.int32 2]).bind (fun _ w => readPacket cfg w) = x at *
    cases x with
    | ok reply w1 =>
      simp only at this
      split at this
      · cases this
      · exact bind_nowait decoded_nowait (fun _ _ => ok_nowait) this
    | throw e w1 => cases this
    | abort w1 => cases this
    | wait w1 => simp only [R.wait.injEq] at this; exact hk (by rw [this])
  | spawn sc o =>
    simp only [call, spawn] at h
    split at h <;> cases h
    rename_i hr
    simp only [Prod.mk.injEq] at hr
    have h1 := rpc hr.2
    have h2 := R.bind_wait (fun _ _ => ok_nowait) h1
    unfold spawnBody at h2
    rw [← bind_assoc (f := fun _ w => readPacket cfg w)] at h2
    exact key _ (R.bind_wait (fun _ _ => spawnReply_nowait) h2)

/-! ## C57: every handle taken over is given to the caller or closed, once -/

/-- In every call: the handles taken over from the agent are, one for one, those closed again and
those given to the caller. -/
theorem C57_handles_balanced (cfg : Cfg) (s s' : Session) (w w' : World) (sc : SpawnConfig)
    (o : SpawnOut) (r : Ret) (hd : ∀ h, Except.ok h ∈ w.dups → h ≠ 0)
    (h : call cfg true s w (.spawn sc o) = .returned r s' w') :
    ∃ es, w'.log = w.log ++ es ∧ (stolen es).Perm (closed es ++ kept r.out) := by
  have hz : ∀ o : SpawnOut, kept ⟨o.process.map fun _ => 0, o.thread.map fun _ => 0, o.createError⟩ = [] := by
    intro o
    unfold kept
    cases o.process <;> cases o.thread <;> simp
  have hreset : kept (resetOut o) = [] := hz { o with createError := o.createError.map fun _ => 0 }
  cases hs : s.connected with
  | false =>
    simp only [call, spawn, rpcOperation, hs, Bool.false_eq_true, if_false, Done1.returned.injEq] at h
    obtain ⟨rfl, _, rfl⟩ := h
    exact ⟨[], by simp, by rw [hreset]; exact .nil⟩
  | true =>
    have hbody := spawnBody_eq cfg s sc (resetOut o) w
    generalize spawnFields s sc (resetOut o) = fs at hbody
    have hq := exchange_quiet cfg w fs
    -- what the reply does to the handles
    have hreply : ∀ (w1 : World) (reply : List Nat), (∀ h, Except.ok h ∈ w1.dups → h ≠ 0) →
        match spawnReply cfg w1 (resetOut o) reply with
        | .ok (.ok o') w2 => Balanced w1 w2 (kept o')
        | .ok (.error _) w2 => Balanced w1 w2 []
        | .throw _ w2 => Balanced w1 w2 []
        | _ => True := by
      intro w1 reply hd1
      have bz : Balanced w1 w1 [] := ⟨[], by simp, .nil⟩
      have hdec : ∀ {α : Type} (x : Buffer.Res α) (f : α × Nat → World → R (Except Nat SpawnOut)),
          (∀ a, match f a w1 with
            | .ok (.ok o') w2 => Balanced w1 w2 (kept o')
            | .ok (.error _) w2 => Balanced w1 w2 []
            | .throw _ w2 => Balanced w1 w2 []
            | _ => True) →
          match (decoded cfg w1 x).bind f with
            | .ok (.ok o') w2 => Balanced w1 w2 (kept o')
            | .ok (.error _) w2 => Balanced w1 w2 []
            | .throw _ w2 => Balanced w1 w2 []
            | _ => True := by
        intro α x f hf
        cases x with
        | ok a n => exact hf (a, n)
        | decodeError => exact bz
        | allocError => exact bz
        | assertFail => trivial
      unfold spawnReply
      refine hdec _ _ fun r1 => ?_
      split
      · rename_i hr0
        split at hr0
        · -- refused: never gives handles
          obtain ⟨_, _, a1, a2⟩ := R.bind_eq_ok hr0
          obtain ⟨_, _, b1, b2⟩ := R.bind_eq_ok a2
          cases b2
        · split at hr0
          · obtain ⟨p, _, a1, a2⟩ := R.bind_eq_ok hr0
            obtain ⟨_, rfl⟩ := decoded_ok a1
            obtain ⟨t, _, b1, b2⟩ := R.bind_eq_ok a2
            obtain ⟨_, rfl⟩ := decoded_ok b1
            obtain ⟨_, _, c1, c2⟩ := R.bind_eq_ok b2
            obtain ⟨_, rfl⟩ := decoded_ok c1
            obtain ⟨o2, _, d1, d2⟩ := R.bind_eq_ok c2
            cases d2
            have := takeHandles_balanced (cfg := cfg) (o := resetOut o) (p := p.1) (t := t.1) hd1
            rw [d1] at this
            exact this
          · cases hr0
      · rename_i hr0
        split at hr0
        · obtain ⟨_, _, a1, a2⟩ := R.bind_eq_ok hr0
          obtain ⟨_, rfl⟩ := decoded_ok a1
          obtain ⟨_, _, b1, b2⟩ := R.bind_eq_ok a2
          obtain ⟨_, rfl⟩ := decoded_ok b1
          cases b2
          exact bz
        · split at hr0
          · obtain ⟨_, _, _, a2⟩ := R.bind_eq_ok hr0
            obtain ⟨_, _, _, b2⟩ := R.bind_eq_ok a2
            obtain ⟨_, _, _, c2⟩ := R.bind_eq_ok b2
            obtain ⟨_, _, _, d2⟩ := R.bind_eq_ok c2
            cases d2
          · cases hr0
      · rename_i w2 hr0
        have hthrow : ∀ {α : Type} {x : Buffer.Res α} {f : α × Nat → World → R (Except Nat SpawnOut)} {e : Exn},
            (decoded cfg w1 x).bind f = .throw e w2 → w2 = w1 ∨ ∃ a, f a w1 = .throw e w2 := by
          intro α x f e hx
          cases x with
          | ok a n => exact .inr ⟨(a, n), hx⟩
          | decodeError => cases hx; exact .inl rfl
          | allocError => cases hx; exact .inl rfl
          | assertFail => cases hx
        split at hr0
        · rcases hthrow hr0 with rfl | ⟨_, a1⟩
          · exact bz
          · rcases hthrow a1 with rfl | ⟨_, a2⟩
            · exact bz
            · cases a2
        · split at hr0
          · rcases hthrow hr0 with rfl | ⟨p, a1⟩
            · exact bz
            · rcases hthrow a1 with rfl | ⟨t, a2⟩
              · exact bz
              · rcases hthrow a2 with rfl | ⟨_, a3⟩
                · exact bz
                · have := takeHandles_balanced (cfg := cfg) (o := resetOut o) (p := p.1) (t := t.1) hd1
                  cases ht : takeHandles cfg w1 (resetOut o) p.1 t.1 with
                  | ok o2 w3 => rw [ht] at a3; cases a3
                  | throw e w3 =>
                    rw [ht] at a3 this
                    cases a3
                    exact this
                  | abort w3 => rw [ht] at a3; cases a3
                  | wait w3 => rw [ht] at a3; cases a3
          · cases hr0
            exact bz
      · trivial
    rcases spawn_returned hs h with ⟨o', h1, rfl, _⟩ | ⟨code, h1, rfl, _⟩ | ⟨e, w1, h1, rfl, rfl, _⟩
    · rw [hbody] at h1
      obtain ⟨reply, w1, e1, e2⟩ := R.bind_eq_ok h1
      rw [e1] at hq
      obtain ⟨es, q1, q2, q3, q4⟩ := hq
      have := hreply w1 reply (by rw [q4]; exact hd)
      rw [e2] at this
      obtain ⟨es2, m1, m2⟩ := this
      exact ⟨es ++ es2, by rw [m1, q1, List.append_assoc], by
        rw [stolen_append, closed_append, q2, q3]; simpa using m2⟩
    · rw [hbody] at h1
      obtain ⟨reply, w1, e1, e2⟩ := R.bind_eq_ok h1
      rw [e1] at hq
      obtain ⟨es, q1, q2, q3, q4⟩ := hq
      have := hreply w1 reply (by rw [q4]; exact hd)
      rw [e2] at this
      obtain ⟨es2, m1, m2⟩ := this
      refine ⟨es ++ es2, by rw [m1, q1, List.append_assoc], ?_⟩
      rw [stolen_append, closed_append, q2, q3]
      simp only
      rw [hz { o with createError := o.createError.map fun _ => code }]
      simpa using m2
    · rw [hbody] at h1
      simp only
      rw [hreset]
      cases hx : (writePacket w fs).bind fun _ w => readPacket cfg w with
      | ok reply w2 =>
        rw [hx] at hq h1
        obtain ⟨es, q1, q2, q3, q4⟩ := hq
        have := hreply w2 reply (by rw [q4]; exact hd)
        simp only [R.bind] at h1
        rw [h1] at this
        obtain ⟨es2, m1, m2⟩ := this
        refine ⟨es ++ es2 ++ [.closePipe], by simp [World.add, m1, q1], ?_⟩
        simp only [stolen_append, closed_append, q2, q3]
        simpa [stolen, closed] using m2
      | throw e w2 =>
        rw [hx] at hq h1
        cases h1
        obtain ⟨es, q1, q2, q3, q4⟩ := hq
        refine ⟨es ++ [.closePipe], by simp [World.add, q1], ?_⟩
        simp [stolen_append, closed_append, q2, q3, stolen, closed]
      | abort w2 => rw [hx] at h1; cases h1
      | wait w2 => rw [hx] at h1; cases h1

end Winpty.Props

namespace Winpty.Client
open Winpty.Spec Winpty.Spec.Client
open Winpty.Buffer (Field)

/-- `exchange_feed` in terms of `Delivers`. -/
theorem exchange_delivers {cfg : Cfg} {w : World} {req fs : List Field} {rest : List Io}
    (hv : ∀ f ∈ req, ValidField cfg.buffer.sizeMax f)
    (hd : Delivers w.ios (message req) (message fs) rest)
    (hmax : (message fs).length ≤ cfg.buffer.sizeMax) (h64 : cfg.buffer.sizeMax < 2 ^ 64)
    (ha : cfg.buffer.canAlloc (wire fs).length = true) :
    ∃ lg, (writePacket w req).bind (fun _ w => readPacket cfg w) = .ok (wire fs) ⟨rest, w.dups, lg⟩ := by
  obtain ⟨a, hs, bs, h1, h2, h3, h4, h5⟩ := hd
  exact exchange_feed cfg a hs bs rest w req fs hv h2 h3 h1 h4 h5 hmax h64 ha

end Winpty.Client

namespace Winpty.Props
open Winpty.Client Winpty.Spec Winpty.Spec.Client
open Winpty.Buffer (Field)

/-! ## C34: the process list -/

/-- The reply of the agent to a process-list request, as fields. -/
def listReply (pids : List Int) : List Field := .int32 pids.length :: pids.map Field.int32

theorem listReply_count (pids : List Int) (hlen : pids.length < 2 ^ 31) :
    Buffer.getInt32 (wire (listReply pids)) 0 =
      .ok (pids.length : Int) (wireField (.int32 pids.length)).length := by
  have hb : wire (listReply pids) = wireField (.int32 pids.length) ++ wire (pids.map Field.int32) := by
    simp [listReply, wire]
  have hg := Buffer.getField_wire ⟨0, fun _ => true⟩ (wire (listReply pids)) 0 (.int32 pids.length)
    (by simp [ValidField]; omega) (by simp) (by
      refine ⟨by simp, ?_⟩
      rw [hb, List.drop_zero, List.take_left' rfl])
  simp only [Buffer.getField, Field.ty] at hg
  obtain ⟨i, o, g1, g2⟩ := Buffer.bind_ok hg
  cases g2
  rw [g1]
  simp

/-- If the array is large enough, the call returns the number of processes, and the array starts with
exactly the processes, in the agent's order; the session stays usable. -/
theorem C34_fits_partial (cfg : Cfg) (s : Session) (w : World) (mem pids : List Int) (n : Int)
    (rest : List Io) (hs : s.connected = true) (h64 : cfg.buffer.sizeMax < 2 ^ 64)
    (hd : Delivers w.ios (message [.int32 2]) (message (listReply pids)) rest)
    (hmax : (message (listReply pids)).length ≤ cfg.buffer.sizeMax)
    (ha : cfg.buffer.canAlloc (wire (listReply pids)).length = true)
    (hp : ∀ p ∈ pids, -2 ^ 31 ≤ p ∧ p < 2 ^ 31) (hlen : pids.length < 2 ^ 31)
    (hfit : (pids.length : Int) ≤ n) (hmem : n ≤ mem.length) :
    ∃ w', call cfg true s w (.processList mem n) =
        .returned ⟨pids.length, none, pids ++ mem.drop pids.length, noOut⟩ s w' ∧ w'.ios = rest := by
  obtain ⟨lg, he⟩ := exchange_delivers (by simp [ValidField]) hd hmax h64 ha
  have hb : wire (listReply pids) = wireField (.int32 pids.length) ++ wire (pids.map Field.int32) := by
    simp [listReply, wire]
  have h1 := listReply_count pids hlen
  have h2 : processListReply (wire (listReply pids)) mem n =
      some (pids ++ mem.drop pids.length, .ok (pids.length : Int) (wire (listReply pids)).length) := by
    unfold processListReply
    rw [h1]
    simp only
    rw [if_pos hfit, Int.toNat_natCast]
    have := fillList_wire pids hp (wireField (.int32 pids.length)) 0 mem (by omega)
    rw [← hb] at this
    rw [this]
    simp [Buffer.Res.bind, Buffer.assertEof]
  refine ⟨⟨rest, w.dups, lg⟩, ?_, rfl⟩
  simp only [call, getConsoleProcessList, rpcOperation, hs, if_true, processListBody]
  rw [he]
  simp only [h2, decoded, R.bind, apiCatch]

/-- If the array is too small, the call does not tell the number of processes: it returns 0 with
code 5, and the session is lost.  (The processes that follow the count are left unread, so the check
for the end of the reply fails.) -/
theorem C34_too_small_defect (cfg : Cfg) (s : Session) (w : World) (mem pids : List Int) (n : Int)
    (rest : List Io) (hs : s.connected = true) (h64 : cfg.buffer.sizeMax < 2 ^ 64)
    (hd : Delivers w.ios (message [.int32 2]) (message (listReply pids)) rest)
    (hmax : (message (listReply pids)).length ≤ cfg.buffer.sizeMax)
    (ha : cfg.buffer.canAlloc (wire (listReply pids)).length = true)
    (hlen : pids.length < 2 ^ 31) (hne : pids ≠ []) (hsmall : n < pids.length) :
    ∃ w', call cfg true s w (.processList mem n) =
      .returned ⟨0, some ⟨5, "Bad RPC packet"⟩, mem, noOut⟩ { s with connected := false } w' := by
  obtain ⟨lg, he⟩ := exchange_delivers (by simp [ValidField]) hd hmax h64 ha
  have hb : wire (listReply pids) = wireField (.int32 pids.length) ++ wire (pids.map Field.int32) := by
    simp [listReply, wire]
  have h1 := listReply_count pids hlen
  have hlt : (wireField (.int32 pids.length)).length ≠ (wire (listReply pids)).length := by
    rw [hb, List.length_append]
    cases pids with
    | nil => exact absurd rfl hne
    | cons p ps =>
      simp only [List.map_cons, wire, List.flatMap_cons, List.length_append]
      have : 0 < (wireField (.int32 p)).length := by simp [wireField]
      omega
  have h2 : processListReply (wire (listReply pids)) mem n = some (mem, .decodeError) := by
    unfold processListReply
    rw [h1]
    simp only
    rw [if_neg (by omega)]
    simp only [Buffer.assertEof, if_neg hlt, Buffer.Res.bind]
  refine ⟨(⟨rest, w.dups, lg⟩ : World).add [.closePipe], ?_⟩
  simp only [call, getConsoleProcessList, rpcOperation, hs, if_true, processListBody]
  rw [he]
  simp only [h2, decoded, R.bind, apiCatch, if_true, translateException]

private theorem fillList_short (pids : List Int) (hv : ∀ p ∈ pids, -2 ^ 31 ≤ p ∧ p < 2 ^ 31) :
    ∀ (pre : List Nat) (i : Nat) (mem : List Int), i ≤ mem.length → mem.length < i + pids.length →
    fillList (pre ++ wire (pids.map Field.int32)) pids.length pre.length i mem = none := by
  induction pids with
  | nil => intro pre i mem h1 h2; simp at h2; omega
  | cons p ps ih =>
    intro pre i mem h1 h2
    simp only [List.length_cons] at h2
    have hb : pre ++ wire ((p :: ps).map Field.int32) =
        (pre ++ wireField (.int32 p)) ++ wire (ps.map Field.int32) := by
      simp [wire]
    have hg : Buffer.getInt32 (pre ++ wire ((p :: ps).map Field.int32)) pre.length =
        .ok p (pre ++ wireField (.int32 p)).length := by
      have := Buffer.getField_wire ⟨0, fun _ => true⟩ (pre ++ wire ((p :: ps).map Field.int32)) pre.length
        (.int32 p) (hv p (by simp)) (by simp) (by
          refine ⟨by simp, ?_⟩
          rw [List.drop_left' rfl]
          simp [wire])
      obtain ⟨i, o, h1, h2⟩ := Buffer.bind_ok this
      cases h2
      rw [h1, List.length_append]
    simp only [List.length_cons, fillList]
    rw [hg]
    simp only
    by_cases hi : i < mem.length
    · rw [if_pos hi, hb]
      exact ih (fun q hq => hv q (by simp [hq])) _ (i + 1) (mem.set i p) (by simp; omega) (by simp; omega)
    · rw [if_neg hi]

/-- The promise matters: if the caller's array is shorter than the number passed, a list that fits the number but
not the array is written behind its end. -/
theorem C34_broken_promise (cfg : Cfg) (we : Bool) (s : Session) (w : World) (mem pids : List Int) (n : Int)
    (rest : List Io) (hs : s.connected = true) (h64 : cfg.buffer.sizeMax < 2 ^ 64)
    (hd : Delivers w.ios (message [.int32 2]) (message (listReply pids)) rest)
    (hmax : (message (listReply pids)).length ≤ cfg.buffer.sizeMax)
    (ha : cfg.buffer.canAlloc (wire (listReply pids)).length = true)
    (hp : ∀ p ∈ pids, -2 ^ 31 ≤ p ∧ p < 2 ^ 31) (hlen : pids.length < 2 ^ 31)
    (hfit : (pids.length : Int) ≤ n) (hmem : mem.length < pids.length) :
    ∃ w', call cfg we s w (.processList mem n) = .aborted true w' := by
  obtain ⟨lg, he⟩ := exchange_delivers (by simp [ValidField]) hd hmax h64 ha
  have hb : wire (listReply pids) = wireField (.int32 pids.length) ++ wire (pids.map Field.int32) := by
    simp [listReply, wire]
  have h1 := listReply_count pids hlen
  have h2 : processListReply (wire (listReply pids)) mem n = none := by
    unfold processListReply
    rw [h1]
    simp only
    rw [if_pos hfit, Int.toNat_natCast]
    have := fillList_short pids hp (wireField (.int32 pids.length)) 0 mem (by omega) (by omega)
    rw [← hb] at this
    rw [this]
  refine ⟨w, ?_⟩
  simp only [call, getConsoleProcessList, rpcOperation, hs, if_true, processListBody]
  rw [he]
  simp only [h2]

/-- Whatever the agent sends, the call writes only to the elements the caller has promised. -/
theorem C34_no_overrun (cfg : Cfg) (we : Bool) (s : Session) (w : World) (mem : List Int) (n : Int)
    (hmem : n ≤ mem.length) : ∀ w', call cfg we s w (.processList mem n) ≠ .aborted true w' := by
  intro w' h
  have hfill : ∀ (reply : List Nat) (k off i : Nat) (mem : List Int), i + k ≤ mem.length →
      fillList reply k off i mem ≠ none := by
    intro reply k
    induction k with
    | zero => intro off i mem _ h; cases h
    | succ k ih =>
      intro off i mem hi h
      unfold fillList at h
      split at h
      · rw [if_pos (by omega)] at h
        exact ih _ _ _ (by simp; omega) h
      · cases h
      · cases h
      · cases h
  have hrep : ∀ reply, processListReply reply mem n ≠ none := by
    intro reply h
    unfold processListReply at h
    split at h
    · split at h
      · rename_i count off _ hle
        split at h
        · rename_i hf
          exact hfill reply _ _ 0 mem (by omega) hf
        · cases h
      · cases h
    · cases h
    · cases h
    · cases h
  simp only [call, getConsoleProcessList] at h
  have hbody : (if s.connected = true then (processListBody cfg mem n w).1 else some mem) ≠ none := by
    split
    · unfold processListBody
      split
      · split
        · rename_i hr; exact absurd hr (hrep _)
        · simp
      · simp
      · simp
      · simp
    · simp
  split at h
  · rename_i heq
    simp only [Prod.mk.injEq] at heq
    exact absurd heq.1 hbody
  · cases h
  · cases h
  · cases h

/-! ## C56: a spawn, end to end -/

/-- The answer "created" gives the caller the local handles for the remote ones, each taken over once. -/
theorem C56_client_created (cfg : Cfg) (s : Session) (w : World) (sc : SpawnConfig) (o : SpawnOut)
    (p t lp lt : Int) (rest : List Io) (hs : s.connected = true) (h64 : cfg.buffer.sizeMax < 2 ^ 64)
    (hv : ValidCall cfg s (.spawn sc o)) (hbits : cfg.ptrBits = 32 ∨ cfg.ptrBits = 64)
    (hd : Delivers w.ios (message (requestOf s (.spawn sc o))) (message [.int32 1, .int64 p, .int64 t]) rest)
    (hmax : (message [.int32 1, .int64 p, .int64 t]).length ≤ cfg.buffer.sizeMax)
    (ha : ∀ k, cfg.buffer.canAlloc k = true)
    (hp : -2 ^ 31 ≤ p ∧ p < 2 ^ 31) (ht : -2 ^ 31 ≤ t ∧ t < 2 ^ 31)
    (hp0 : p ≠ 0 ↔ o.process ≠ none) (ht0 : t ≠ 0 ↔ o.thread ≠ none)
    (hdups : ∃ more, w.dups = (if p = 0 then [] else [.ok lp]) ++ (if t = 0 then [] else [.ok lt]) ++ more) :
    ∃ w', call cfg true s w (.spawn sc o) =
        .returned ⟨1, none, [], ⟨o.process.map fun _ => lp, o.thread.map fun _ => lt,
          o.createError.map fun _ => 0⟩⟩ s w' ∧ w'.ios = rest ∧
      (p ≠ 0 → Event.steal p lp ∈ w'.log) ∧ (t ≠ 0 → Event.steal t lt ∈ w'.log) := by
  have hf := spawnFields_eq s sc o (hv.2 sc o rfl)
  have hbody := spawnBody_eq cfg s sc (resetOut o) w
  rw [hf] at hbody
  have hv1 := hv.1
  generalize requestOf s (.spawn sc o) = fs at *
  obtain ⟨lg, he⟩ := exchange_delivers hv1 hd hmax h64 (ha _)
  rw [he] at hbody
  simp only [R.bind] at hbody
  rw [spawnReply_created cfg _ _ p t (by omega) (by omega)] at hbody
  obtain ⟨more, hdups⟩ := hdups
  have htake : ∃ w', takeHandles cfg ⟨rest, w.dups, lg⟩ (resetOut o) p t =
      .ok ⟨o.process.map fun _ => lp, o.thread.map fun _ => lt, o.createError.map fun _ => 0⟩ w' ∧ w'.ios = rest ∧
      (p ≠ 0 → Event.steal p lp ∈ w'.log) ∧ (t ≠ 0 → Event.steal t lt ∈ w'.log) := by
    unfold takeHandles
    rw [handleFromInt64_id cfg p hbits hp, handleFromInt64_id cfg t hbits ht]
    by_cases z1 : p = 0 <;> by_cases z2 : t = 0 <;>
      simp only [z1, z2, if_true, if_false, List.nil_append, List.cons_append] at hdups
    all_goals
      cases hop : o.process <;> cases hot : o.thread <;> simp_all [stealHandle, R.bind, resetOut, dropHandle, World.add]
  obtain ⟨w', h1, h2, h3, h4⟩ := htake
  refine ⟨w', ?_, h2, h3, h4⟩
  rw [h1] at hbody
  simp only [R.bind] at hbody
  simp only [call, spawn, rpcOperation, hs, if_true, hbody, R.bind, spawnResult]
  rfl

/-- The answer "refused" gives the caller the error code of `CreateProcess`, and the session stays usable. -/
theorem C56_client_refused (cfg : Cfg) (s : Session) (w : World) (sc : SpawnConfig) (o : SpawnOut)
    (code : Int) (rest : List Io) (hs : s.connected = true) (h64 : cfg.buffer.sizeMax < 2 ^ 64)
    (hv : ValidCall cfg s (.spawn sc o))
    (hd : Delivers w.ios (message (requestOf s (.spawn sc o))) (message [.int32 0, .int32 code]) rest)
    (hmax : (message [.int32 0, .int32 code]).length ≤ cfg.buffer.sizeMax)
    (ha : ∀ k, cfg.buffer.canAlloc k = true) (hc : -2 ^ 31 ≤ code ∧ code < 2 ^ 31) :
    ∃ w', call cfg true s w (.spawn sc o) =
        .returned ⟨0, some ⟨2, "CreateProcess failed"⟩, [], ⟨o.process.map fun _ => 0, o.thread.map fun _ => 0,
          o.createError.map fun _ => (if code < 0 then code + 2 ^ 32 else code).toNat⟩⟩ s w' ∧
      w'.ios = rest := by
  have hf := spawnFields_eq s sc o (hv.2 sc o rfl)
  have hbody := spawnBody_eq cfg s sc (resetOut o) w
  rw [hf] at hbody
  have hv1 := hv.1
  generalize requestOf s (.spawn sc o) = fs at *
  obtain ⟨lg, he⟩ := exchange_delivers hv1 hd hmax h64 (ha _)
  rw [he] at hbody
  simp only [R.bind] at hbody
  rw [spawnReply_refused cfg _ _ code hc] at hbody
  refine ⟨⟨rest, w.dups, lg⟩, ?_, rfl⟩
  have hu : Buffer.toUnsigned 32 code = (if code < 0 then code + 2 ^ 32 else code).toNat := by
    rw [Buffer.toUnsigned_32 code hc]
    split <;> rfl
  simp only [call, spawn, rpcOperation, hs, if_true, hbody, R.bind, spawnResult, hu]
  rfl

/-- The whole way: the request that `winpty_spawn` sends makes an agent without a child call
`CreateProcessW` once, with exactly the strings of the configuration; and if the agent's reply is
delivered, in whatever chunks, `winpty_spawn` reports exactly what `CreateProcessW` did: success and
local copies of its handles, or its error code.  `acfg`, `a` are the agent's side, `lp`, `lt` are the
handles `DuplicateHandle` gives. -/
theorem C56_end_to_end (acfg : Agent.Cfg) (a : Agent.State) (cfg : Cfg) (s : Session) (sc : SpawnConfig)
    (o : SpawnOut) (lp lt : Int)
    -- the agent's side
    (hw : a.control.pipe.writing = true) (hchild : a.child = false) (hclosing : a.closing = false)
    (hav : ∀ f ∈ requestOf s (.spawn sc o), ValidField acfg.buffer.sizeMax f)
    (haa : ∀ n, acfg.buffer.canAlloc n = true)
    (hok : ∀ hp ht, (acfg.env a.served).create = .ok (hp, ht) →
      (-2 ^ 31 ≤ hp ∧ hp < 2 ^ 31 ∧ hp ≠ 0) ∧ (-2 ^ 31 ≤ ht ∧ ht < 2 ^ 31 ∧ ht ≠ 0))
    (herr : ∀ c, (acfg.env a.served).create = .error c → -2 ^ 31 ≤ c ∧ c < 2 ^ 31)
    -- the library's side
    (hs : s.connected = true) (h64 : cfg.buffer.sizeMax < 2 ^ 64) (h31 : 2 ^ 31 ≤ cfg.buffer.sizeMax)
    (hv : ValidCall cfg s (.spawn sc o)) (hbits : cfg.ptrBits = 32 ∨ cfg.ptrBits = 64)
    (ha : ∀ k, cfg.buffer.canAlloc k = true) :
    ∃ a' reply, Agent.handlePacket acfg a (message (requestOf s (.spawn sc o))) = some a' ∧
      a'.log = a.log ++ [.packet (message (requestOf s (.spawn sc o))),
         .createProcess { program := nulTerminated sc.appname, cmdline := nulTerminated sc.cmdline,
                          env := if sc.env = [] then none else some sc.env, cwd := nulTerminated sc.cwd,
                          desktop := nulTerminated s.spawnDesktopName, ownStdHandles := acfg.useConerr },
         .control reply] ∧
      ∀ (w : World) (rest : List Io) (more : List (Except Nat Int)),
        Delivers w.ios (message (requestOf s (.spawn sc o))) reply rest →
        w.dups = (if o.process = none then [] else [.ok lp]) ++ (if o.thread = none then [] else [.ok lt]) ++ more →
        ∃ w', w'.ios = rest ∧
          match (acfg.env a.served).create with
          | .ok (hp, ht) =>
            call cfg true s w (.spawn sc o) = .returned ⟨1, none, [], ⟨o.process.map fun _ => lp,
              o.thread.map fun _ => lt, o.createError.map fun _ => 0⟩⟩ s w' ∧
            (o.process ≠ none → Event.steal hp lp ∈ w'.log) ∧ (o.thread ≠ none → Event.steal ht lt ∈ w'.log)
          | .error c =>
            call cfg true s w (.spawn sc o) = .returned ⟨0, some ⟨2, "CreateProcess failed"⟩, [],
              ⟨o.process.map fun _ => 0, o.thread.map fun _ => 0,
               o.createError.map fun _ => (if c < 0 then c + 2 ^ 32 else c).toNat⟩⟩ s w' := by
  have hlen : ∀ x y : Int, (message [.int32 1, .int64 x, .int64 y]).length = 31 ∧
      (message [.int32 0, .int32 x]).length = 18 := by
    intro x y
    constructor <;> simp [message, wire, wireField, Buffer.digits256_length]
  obtain ⟨a', reply, h1, h2, h3⟩ := C56_agent_spawn acfg a sc.winptyFlags
    (if o.process = none then 0 else 1) (if o.thread = none then 0 else 1) sc.appname sc.cmdline sc.cwd sc.env
    s.spawnDesktopName hw hchild hclosing hav haa
    (by intro hp ht hc; have := hok hp ht hc; omega) herr
  refine ⟨a', message reply, h1, h2, ?_⟩
  intro w rest more hd hdups
  cases hc : (acfg.env a.served).create with
  | ok r =>
    obtain ⟨hp, ht⟩ := r
    rw [hc] at h3
    obtain ⟨rfl, _⟩ := h3
    obtain ⟨b1, b2⟩ := hok hp ht hc
    have e1 : (if (if o.process = none then (0 : Int) else 1) ≠ 0 then hp else 0) = if o.process = none then 0 else hp := by
      split <;> simp_all
    have e2 : (if (if o.thread = none then (0 : Int) else 1) ≠ 0 then ht else 0) = if o.thread = none then 0 else ht := by
      split <;> simp_all
    rw [e1, e2] at hd
    obtain ⟨w', k1, k2, k3, k4⟩ := C56_client_created cfg s w sc o (if o.process = none then 0 else hp)
      (if o.thread = none then 0 else ht) lp lt rest hs h64 hv hbits hd
      (by rw [(hlen _ _).1]; omega) ha (by split <;> omega) (by split <;> omega)
      (by split <;> simp_all) (by split <;> simp_all)
      ⟨more, by rw [hdups]; by_cases p0 : o.process = none <;> by_cases t0 : o.thread = none <;> simp [p0, t0, b1, b2]⟩
    refine ⟨w', k2, k1, ?_, ?_⟩
    · intro hne
      simp only [if_neg hne] at k3
      exact k3 b1.2.2
    · intro hne
      simp only [if_neg hne] at k4
      exact k4 b2.2.2
  | error c =>
    rw [hc] at h3
    obtain ⟨rfl, _⟩ := h3
    obtain ⟨w', k1, k2⟩ := C56_client_refused cfg s w sc o c rest hs h64 hv hd
      (by rw [(hlen c 0).2]; omega) ha (herr c hc)
    exact ⟨w', k2, k1⟩

end Winpty.Props

/-! ## Concrete cases -/
namespace Winpty.Props.ClientExample
open Winpty.Client Winpty.Spec Winpty.Spec.Client
open Winpty.Buffer (Field)

def cfg : Cfg := ⟨⟨2 ^ 64 - 1, fun _ => true⟩, false, 64⟩
def s : Session := ⟨true, [87]⟩

/-- What can be compared of the result of a call: what it gave back, whether the session is still
connected, and the log. -/
def view : Done1 → Option (Ret × Bool × List Event)
  | .returned r s w => some (r, s.connected, w.log)
  | _ => none

/-- A resize whose empty reply comes in two pieces. -/
def resize : World := ⟨[.now (.ok 23 []), .pending (.io (.ok 0 [8, 0, 0])), .now (.ok 0 [0, 0, 0, 0, 0]), .now (.fail 5)], [], []⟩

example : view (call cfg true s resize (.setSize 80 25)) =
    some (⟨1, none, [], noOut⟩, true,
      [.write [23, 0, 0, 0, 0, 0, 0, 0, 0, 1, 0, 0, 0, 0, 80, 0, 0, 0, 0, 25, 0, 0, 0], .wrote 23,
       .read 8, .pending, .reaped, .got [8, 0, 0], .read 5, .got [0, 0, 0, 0, 0]]) := by decide +kernel

/-- The answers are a delivery in the sense of `Delivers`. -/
example : Delivers resize.ios (message (requestOf s (.setSize 80 25))) (message []) [.now (.fail 5)] :=
  ⟨.now (.ok 23 []), [.pending (.io (.ok 0 [8, 0, 0])), .now (.ok 0 [0, 0, 0, 0, 0])], [], rfl,
    .inl (by decide +kernel), by
      intro i hi
      simp only [List.append_nil, List.mem_cons, List.not_mem_nil, or_false] at hi
      rcases hi with rfl | rfl <;> exact ⟨rfl, by decide⟩, rfl, by decide +kernel⟩

/-- The hypotheses of the theorems hold for it. -/
example : ValidCall cfg s (.setSize 80 25) ∧ SaneWorld cfg resize := by
  refine ⟨⟨by simp [requestOf, ValidField], by simp⟩, ?_, by decide⟩
  intro i hi b hb
  simp only [resize, List.mem_cons, List.not_mem_nil, or_false] at hi
  rcases hi with rfl | rfl | rfl | rfl <;> simp [dataOf] at hb <;> omega

/-- The agent does not answer in time: the read is cancelled, its end is waited for, the pipe is
closed, and the next call fails without touching anything. -/
def silent : World := ⟨[.now (.ok 23 []), .pending .timeout], [], []⟩

example : view (call cfg true s silent (.setSize 80 25)) =
    some (⟨0, some ⟨7, "agent timed out"⟩, [], noOut⟩, false,
      [.write [23, 0, 0, 0, 0, 0, 0, 0, 0, 1, 0, 0, 0, 0, 80, 0, 0, 0, 0, 25, 0, 0, 0], .wrote 23,
       .read 8, .pending, .cancel, .reaped, .closePipe]) := by decide +kernel

example : (calls cfg true s silent [.setSize 80 25, .processList [7, 7] 2]).1.map (fun r => (r.value, r.err.map (·.code)))
    = [(0, some 7), (0, some 5)] := by decide +kernel

/-- A spawn that succeeds: the process handle is wanted, the thread handle is not. -/
def created : World :=
  ⟨[.pending (.io (.ok 81 [])), .now (.ok 0 [31, 0, 0, 0, 0, 0, 0, 0]),
    .now (.ok 0 [0, 1, 0, 0, 0, 1, 44, 1]), .now (.ok 0 [0, 0, 0, 0, 0, 0, 1, 0, 0, 0, 0, 0, 0, 0, 0])],
   [.ok 64], []⟩

def config : SpawnConfig := ⟨1, [67], [], [], []⟩

example : (message (requestOf s (.spawn config ⟨some 9, none, some 9⟩))).length = 81 := by decide +kernel

example : (view (call cfg true s created
      (.spawn config ⟨some 9, none, some 9⟩))).map (fun x => (x.1, x.2.1, x.2.2.getLast?)) =
    some (⟨1, none, [], ⟨some 64, none, some 0⟩⟩, true, some (.steal 300 64)) := by decide +kernel

/-- The same with a failing `DuplicateHandle`: no handle, code 5, and the session is closed. -/
example : (view (call cfg true s { created with dups := [.error 5] }
      (.spawn config ⟨some 9, none, some 9⟩))).map (fun x => (x.1, x.2.1, x.2.2.getLast?)) =
    some (⟨0, some ⟨5, "DuplicateHandle of process handle: Windows error 5"⟩, [], ⟨some 0, none, some 0⟩⟩,
      false, some .closePipe) := by decide +kernel

/-- Three processes: an array of four is filled, an array of two loses the session. -/
def three : World :=
  ⟨[.now (.ok 13 []), .now (.ok 0 [28, 0, 0, 0, 0, 0, 0, 0]),
    .now (.ok 0 [0, 3, 0, 0, 0, 0, 10, 0, 0, 0, 0, 11, 0, 0, 0, 0, 12, 0, 0, 0])], [], []⟩

example : (view (call cfg true s three (.processList [7, 7, 7, 7] 4))).map (fun x => (x.1, x.2.1)) =
    some (⟨3, none, [10, 11, 12, 7], noOut⟩, true) := by decide +kernel

example : (view (call cfg true s three (.processList [7, 7] 2))).map (fun x => (x.1, x.2.1)) =
    some (⟨0, some ⟨5, "Bad RPC packet"⟩, [7, 7], noOut⟩, false) := by decide +kernel

end Winpty.Props.ClientExample
