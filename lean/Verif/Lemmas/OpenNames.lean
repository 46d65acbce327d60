import Verif.Lemmas.OpenLog

/-! Lemmas about `winpty_open`: the bytes read from the control pipe. -/
namespace Winpty.Open

open Winpty.Spec.Open
open Winpty.Spec (message wire)
open Winpty.Spec.Client (Bytes received Good dataOf)
open Winpty.Startup (Config lit params controlPipeName)
open Winpty.Buffer (Field getFields getField assertEof Res)
open Winpty.Client (Io)

theorem R.bind_eq_ok {α β : Type} {r : R α} {f : α → W → R β} {b : β} {w' : W}
    (h : r.bind f = .ok b w') : ∃ a w1, r = .ok a w1 ∧ f a w1 = .ok b w' := by
  cases r with
  | ok a w1 => exact ⟨a, w1, rfl, h⟩
  | throw e w1 => cases h
  | abort w1 => cases h
  | wait w1 => cases h

theorem R.onThrow_eq_ok {α : Type} {r : R α} {c : W → W} {a : α} {w' : W}
    (h : r.onThrow c = .ok a w') : r = .ok a w' := by
  cases r <;> first | exact h | cases h

theorem Sat.ok {α : Type} {r : R α} {P : α → W → Prop} {Q O : W → Prop} {a : α} {w : W}
    (h : Sat r P Q O) (he : r = .ok a w) : P a w := by rw [he] at h; exact h

theorem decoded_eq_ok {α : Type} {c : Client.Cfg} {w w' : W} {r : Res α} {a : α × Nat}
    (h : decoded c w r = .ok a w') : r = .ok a.1 a.2 ∧ w' = w := by
  cases r <;> cases h
  exact ⟨rfl, rfl⟩

/-! ## The bytes stay bytes -/

theorem connect_bytes (ios : List Io) (hb : Bytes ios) (u : Unit) (v : Client.World)
    (h : connectControlPipe ⟨ios, [], []⟩ = .ok u v) : Bytes v.ios := by
  unfold connectControlPipe Client.overlapped at h
  have htl : ∀ i rest, ios = i :: rest → Bytes rest := by
    intro i rest he j hj
    exact hb j (by rw [he]; exact List.mem_cons_of_mem _ hj)
  cases ios with
  | nil => cases h
  | cons i rest =>
    have hr := htl i rest rfl
    have hv : v.ios = rest := by
      cases i with
      | now d =>
        cases d with
        | ok n d => cases h; rfl
        | fail c => simp only [Client.R.bind] at h; split at h <;> cases h; rfl
      | pending x =>
        cases x with
        | io d =>
          cases d with
          | ok n d => cases h; rfl
          | fail c =>
            simp only [Client.R.bind, Client.handlePendingIo] at h; split at h <;> cases h; rfl
        | agentDied => cases h
        | timeout => cases h
        | failed c => cases h
        | other => cases h
    rw [hv]; exact hr

theorem session_bytes {cfg : Config} {env : AgentEnv} {hide : Bool} {w w' : W} {desktop params : List Nat}
    {flags : Nat} {s : Session} (hb : Bytes w.ios)
    (h : createAgentSession cfg env hide w desktop params flags = .ok s w') : Bytes w'.ios := by
  unfold createAgentSession at h
  obtain ⟨ev, w1, h1, h⟩ := R.bind_eq_ok h
  obtain ⟨p, w2, h2, h⟩ := R.bind_eq_ok h
  obtain ⟨a, w3, h3, h⟩ := R.bind_eq_ok h
  obtain ⟨_, w4, h4, h⟩ := R.bind_eq_ok h
  obtain ⟨_, w5, h5, h⟩ := R.bind_eq_ok h
  have e1 : w1.ios = w.ios := by
    unfold createEvent at h1
    obtain ⟨x, w', hx, h1⟩ := R.bind_eq_ok h1
    cases h1
    unfold ask at hx
    split at hx <;> cases hx
    rfl
  have e2 : w2.ios = w1.ios := by
    have h2 := R.onThrow_eq_ok h2
    unfold createControlPipe at h2
    split at h2
    · cases h2
    · cases h2
    · obtain ⟨x, w', hx, h2⟩ := R.bind_eq_ok h2
      cases h2
      unfold ask at hx
      split at hx <;> cases hx
      rfl
  have e3 : w3.ios = w2.ios := by
    have h3 := R.onThrow_eq_ok h3
    unfold startAgentProcess findAgentProgram at h3
    split at h3
    · simp only [R.bind] at h3
      split at h3 <;> cases h3
      rfl
    · cases h3
  have e4 : Bytes w4.ios := by
    have h4 := R.onThrow_eq_ok h4
    unfold onPipe at h4
    split at h4 <;> cases h4
    rename_i hc
    exact connect_bytes _ (by rw [e3, e2, e1]; exact hb) _ _ hc
  have e5 : w5.ios = w4.ios := by
    have h5 := R.onThrow_eq_ok h5
    unfold verifyPipeClientPid at h5
    split at h5
    · split at h5 <;> cases h5
      rfl
    · cases h5; rfl
    · cases h5
  cases h
  rw [e5]; exact e4

/-- A packet read from the control pipe. -/
theorem packet_read {c : Client.Cfg} {w w' : W} {p : Int} {d : List Nat} (hb : Bytes w.ios)
    (h64 : c.buffer.sizeMax < 2 ^ 64) (h : onPipe w p (Client.readPacket c) = .ok d w') :
    ∃ es, w'.log = w.log ++ es.map (.io p) ∧ (received es).drop 8 = d ∧
      Spec.IsPacket c.buffer.sizeMax (received es) ∧ (∀ b ∈ d, b < 256) ∧ Bytes w'.ios := by
  unfold onPipe at h
  have ht := Client.readPacket_traced c ⟨w.ios, [], []⟩ hb h64
  split at h <;> cases h
  rename_i v hv
  rw [hv] at ht
  obtain ⟨u, es, h1, _, _, _, _, h4, h5, h6⟩ := id ht
  refine ⟨es, ?_, h5, h4, h6, Client.traced_suffix ht hb⟩
  rw [h1.log]; simp

theorem readNames_ok {c : Client.Cfg} {b : Bool} {w w' : W} {s s' : Session} (hb : Bytes w.ios)
    (h64 : c.buffer.sizeMax < 2 ^ 64) (h : readNames c b w s = .ok s' w') :
    ∃ es, w'.log = w.log ++ es.map (.io s.pipe) ∧
      received es = message ([.wstring s'.conin, .wstring s'.conout] ++
        if b then [.wstring s'.conerr] else []) ∧ (b = false → s'.conerr = []) ∧
      s' = { s with conin := s'.conin, conout := s'.conout, conerr := s'.conerr } := by
  unfold readNames at h
  obtain ⟨pk, w1, h1, g1⟩ := R.bind_eq_ok h
  clear h
  obtain ⟨es, k1, k2, k3, k4, _⟩ := packet_read hb h64 h1
  obtain ⟨a, w2, h2, g2⟩ := R.bind_eq_ok g1
  clear g1
  obtain ⟨d2, rfl⟩ := decoded_eq_ok h2
  obtain ⟨o, w3, h3, g3⟩ := R.bind_eq_ok g2
  clear g2
  obtain ⟨d3, rfl⟩ := decoded_eq_ok h3
  obtain ⟨e, w4, h4, g4⟩ := R.bind_eq_ok g3
  clear g3
  obtain ⟨u, w5, h5, g5⟩ := R.bind_eq_ok g4
  clear g4
  obtain ⟨d5, rfl⟩ := decoded_eq_ok h5
  cases g5
  have he : assertEof pk e.2 = .ok () e.2 := by
    unfold assertEof at d5 ⊢; split at d5 <;> simp_all
  cases b with
  | true =>
    simp only [if_true] at h4
    obtain ⟨d4, rfl⟩ := decoded_eq_ok h4
    have hg : getFields c.buffer pk 0 [.wstring, .wstring, .wstring] =
        .ok [.wstring a.1, .wstring o.1, .wstring e.1] e.2 := by
      simp [getFields, getField, Res.bind, d2, d3, d4]
    obtain ⟨q1, _⟩ := Client.reply_eq k4 hg he
    exact ⟨es, k1, Client.packet_message k3 (by rw [k2, q1]; simp), by simp, rfl⟩
  | false =>
    simp only [Bool.false_eq_true, if_false] at h4
    cases h4
    have hg : getFields c.buffer pk 0 [.wstring, .wstring] =
        .ok [.wstring a.1, .wstring o.1] o.2 := by
      simp [getFields, getField, Res.bind, d2, d3]
    obtain ⟨q1, _⟩ := Client.reply_eq k4 hg he
    exact ⟨es, k1, Client.packet_message k3 (by rw [k2, q1]; simp), by simp, rfl⟩

/-! ## The name of the pipe -/

theorem session_named {cfg : Config} {env : AgentEnv} {hide : Bool} {w w' : W} {desktop params : List Nat}
    {flags : Nat} {s : Session}
    (h : createAgentSession cfg env hide w desktop params flags = .ok s w') :
    .pipeNamed s.pipe (controlPipeName env.unique) ∈ w'.log := by
  unfold createAgentSession at h
  obtain ⟨ev, w1, h1, h⟩ := R.bind_eq_ok h
  obtain ⟨p, w2, h2, h⟩ := R.bind_eq_ok h
  obtain ⟨a, w3, h3, h⟩ := R.bind_eq_ok h
  obtain ⟨_, w4, h4, h⟩ := R.bind_eq_ok h
  obtain ⟨_, w5, h5, h⟩ := R.bind_eq_ok h
  cases h
  have e2 : .pipeNamed p (controlPipeName env.unique) ∈ w2.log := by
    have h2 := R.onThrow_eq_ok h2
    unfold createControlPipe at h2
    split at h2
    · cases h2
    · cases h2
    · obtain ⟨x, w', hx, h2⟩ := R.bind_eq_ok h2
      cases h2
      simp [W.add]
  have e3 : .pipeNamed p (controlPipeName env.unique) ∈ w3.log := by
    have h3 := R.onThrow_eq_ok h3
    unfold startAgentProcess findAgentProgram at h3
    split at h3
    · simp only [R.bind] at h3
      split at h3 <;> cases h3
      simp [W.add, e2]
    · cases h3
  have e4 : .pipeNamed p (controlPipeName env.unique) ∈ w4.log := by
    have h4 := R.onThrow_eq_ok h4
    unfold onPipe at h4
    split at h4 <;> cases h4
    simp [e3]
  have h5 := R.onThrow_eq_ok h5
  unfold verifyPipeClientPid at h5
  split at h5
  · split at h5 <;> cases h5
    simp [W.add, e4]
  · cases h5; simp [W.add, e4]
  · cases h5

end Winpty.Open
