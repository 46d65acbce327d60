import Verif.Lemmas.Client

/-!
# C32, C33, C34, C42, C57: the library's RPC calls

`call cfg wantErr s w c` is one API call on a session; `w.ios` are the answers of the system, chosen
arbitrarily.  `requests`, `received`, `Tidy`, `codeOf` are read off the log and the answers in
`Verif/Spec/Client.lean`.
-/
namespace Winpty.Client
open Winpty.Spec Winpty.Spec.Client
open Winpty.Buffer (Field Res leNat)

/-- One exchange: the request was handed over whole, and one whole packet was received. -/
def Exchange (cfg : Cfg) (fs : List Field) (es : List Event) : Prop :=
  requests es = [message fs] ∧ accepted es = [(message fs).length] ∧ IsPacket cfg.buffer.sizeMax (received es)

theorem exchange_traced (cfg : Cfg) (w : World) (fs : List Field) (hb : Bytes w.ios)
    (h64 : cfg.buffer.sizeMax < 2 ^ 64) (hv : ∀ f ∈ fs, ValidField cfg.buffer.sizeMax f) :
    Traced w (fun d es => Exchange cfg fs es ∧ (received es).drop 8 = d ∧ ∀ b ∈ d, b < 256)
      ((writePacket w fs).bind fun _ w => readPacket cfg w) := by
  have h1 := writePacket_traced w cfg.buffer.sizeMax fs hv
  refine traced_bind h1 ?_
  intro _ w1 es1 hr hq _
  rw [hr] at h1
  refine traced_mono (readPacket_traced cfg w1 (traced_suffix h1 hb) h64) ?_
  intro d w2 es2 _ hq2
  obtain ⟨p1, p2, p3, p4, p5⟩ := hq2
  obtain ⟨q1, q2, q3⟩ := hq
  refine ⟨⟨by simp [requests_append, q1, p1], by simp [accepted_append, q3, p2], ?_⟩, ?_, p5⟩
  · rw [received_append, q2, List.nil_append]; exact p3
  · rw [received_append, q2, List.nil_append]; exact p4

theorem Exchange.off {cfg : Cfg} {fs : List Field} {es es' : List Event} (h : Exchange cfg fs es)
    (ho : Off es') : Exchange cfg fs (es ++ es') := by
  obtain ⟨h1, h2, h3⟩ := h
  obtain ⟨o1, o2, o3⟩ := ho
  exact ⟨by simp [requests_append, h1, o1], by simp [accepted_append, h2, o3],
    by simpa [received_append, o2] using h3⟩

theorem bind_assoc {α β γ : Type} (r : R α) (f : α → World → R β) (g : β → World → R γ) :
    (r.bind f).bind g = r.bind fun a w => (f a w).bind g := by
  cases r <;> rfl

theorem setSizeBody_traced (cfg : Cfg) (cols rows : Int) (w : World) (hb : Bytes w.ios)
    (h64 : cfg.buffer.sizeMax < 2 ^ 64)
    (hv : ∀ f ∈ [Field.int32 1, .int32 cols, .int32 rows], ValidField cfg.buffer.sizeMax f) :
    Traced w (fun (r : Except Exn Unit) es => r = .ok () ∧ Exchange cfg [.int32 1, .int32 cols, .int32 rows] es)
      (setSizeBody cfg cols rows w) := by
  unfold setSizeBody
  rw [← bind_assoc (f := fun _ w => readPacket cfg w)]
  refine traced_bind (exchange_traced cfg w _ hb h64 hv) ?_
  intro d w1 es1 _ hq _
  refine traced_bind (Q2 := fun (r : Except Exn Unit) es => r = .ok () ∧
    Exchange cfg [.int32 1, .int32 cols, .int32 rows] (es1 ++ es)) (decoded_traced cfg w1 _) ?_
  rintro a w2 es2 _ ⟨rfl, _⟩ _
  exact traced_pure ⟨rfl, by simpa using hq.1⟩

theorem spawnFields_eq (s : Session) (c : SpawnConfig) (o : SpawnOut) (hf : c.winptyFlags < 2 ^ 63) :
    spawnFields s c (resetOut o) = requestOf s (.spawn c o) := by
  have h : Buffer.toSigned 64 c.winptyFlags = (c.winptyFlags : Int) := by
    unfold Buffer.toSigned; rw [if_pos (by omega)]
  unfold spawnFields requestOf spawnRequest resetOut
  rw [h]
  cases hp : o.process <;> cases ht : o.thread <;> simp [hp, ht]

theorem spawnBody_traced (cfg : Cfg) (s : Session) (c : SpawnConfig) (o : SpawnOut) (w : World) (hb : Bytes w.ios)
    (h64 : cfg.buffer.sizeMax < 2 ^ 64) (hf : c.winptyFlags < 2 ^ 63)
    (hv : ∀ f ∈ requestOf s (.spawn c o), ValidField cfg.buffer.sizeMax f) :
    Traced w (fun _ es => Exchange cfg (requestOf s (.spawn c o)) es) (spawnBody cfg s c (resetOut o) w) := by
  unfold spawnBody
  rw [spawnFields_eq s c o hf, ← bind_assoc (f := fun _ w => readPacket cfg w)]
  generalize requestOf s (.spawn c o) = fs at *
  refine traced_bind (exchange_traced cfg w _ hb h64 hv) ?_
  intro d w1 es1 _ hq _
  refine traced_mono (spawnReply_traced cfg w1 _ d) ?_
  intro _ _ es2 _ ho
  exact hq.1.off ho

attribute [local irreducible] spawnBody in
theorem spawnOuter_traced (cfg : Cfg) (s : Session) (c : SpawnConfig) (o : SpawnOut) (w : World) (hb : Bytes w.ios)
    (h64 : cfg.buffer.sizeMax < 2 ^ 64) (hf : c.winptyFlags < 2 ^ 63)
    (hv : ∀ f ∈ requestOf s (.spawn c o), ValidField cfg.buffer.sizeMax f) :
    Traced w (fun (r : Except Exn Unit) es => Exchange cfg (requestOf s (.spawn c o)) es ∧
        (r = .ok () ∨ r = .error refused))
      ((spawnBody cfg s c (resetOut o) w).bind fun r w => .ok (spawnResult r) w) := by
  refine traced_bind (spawnBody_traced cfg s c o w hb h64 hf hv) ?_
  generalize requestOf s (.spawn c o) = fs
  intro a w2 es _ hq _
  refine traced_pure ⟨by rw [List.append_nil]; exact hq, ?_⟩
  cases a with
  | ok _ => exact .inl rfl
  | error _ => exact .inr rfl

theorem processListBody_traced (cfg : Cfg) (mem : List Int) (n : Int) (w : World) (hb : Bytes w.ios)
    (h64 : cfg.buffer.sizeMax < 2 ^ 64) :
    Traced w (fun (r : Except Exn Int) es => (∃ c, r = .ok c) ∧ Exchange cfg [.int32 2] es) (processListBody cfg mem n w).2 := by
  have hx := exchange_traced cfg w [.int32 2] hb h64 (by simp [ValidField])
  unfold processListBody
  generalize (writePacket w [.int32 2]).bind (fun _ w => readPacket cfg w) = r at *
  cases r with
  | ok reply w' =>
    simp only
    split
    · trivial
    · rename_i mem' r _
      have : Traced w (fun (r : Except Exn Int) es => (∃ c, r = .ok c) ∧ Exchange cfg [.int32 2] es)
          ((R.ok reply w').bind fun _ w => (decoded cfg w r).bind fun c w => .ok (.ok c.1) w) := by
        refine traced_bind hx ?_
        intro d w1 es1 he hq _
        refine traced_bind (Q2 := fun (r : Except Exn Int) es => (∃ c, r = .ok c) ∧
          Exchange cfg [.int32 2] (es1 ++ es)) (decoded_traced cfg w1 _) ?_
        rintro a w2 es2 _ ⟨rfl, _⟩ _
        exact traced_pure ⟨⟨_, rfl⟩, by simpa using hq.1⟩
      exact this
  | throw e w' => exact hx
  | abort w' => trivial
  | wait w' => exact hx

/-- What an operation on a connected session does. -/
theorem rpc_facts {α : Type} {s s' : Session} {w w' : World} {body : World → R (Except Exn α)}
    {Q : Except Exn α → List Event → Prop} {r : Except Exn α} (ht : Traced w Q (body w))
    (hs : s.connected = true) (h : rpcOperation s w body = .returned r s' w') :
    (∃ used es, s' = s ∧ Used w w' used es ∧ (∀ i ∈ used, Good i) ∧ Tidy es ∧ Q r es ∧ body w = .ok r w') ∨
    (∃ e used es w1, s' = { s with connected := false } ∧ r = .error e ∧
      Used w w' used (es ++ [.closePipe]) ∧ Tidy (es ++ [.closePipe]) ∧ Cause used e ∧ body w = .throw e w1) := by
  unfold rpcOperation at h
  rw [if_pos hs] at h
  cases hb : body w with
  | ok a w1 =>
    rw [hb] at h ht
    cases h
    obtain ⟨u, es, h1, h2, h3, h4⟩ := ht
    exact .inl ⟨u, es, rfl, h1, h2, h3, h4, rfl⟩
  | throw e w1 =>
    rw [hb] at h ht
    cases h
    obtain ⟨u, es, h1, h2, h3⟩ := ht
    exact .inr ⟨e, u, es, w1, rfl, rfl, ⟨h1.ios, by simp [World.add, h1.log]⟩,
      tidy_append h2 (show Tidy [.closePipe] from rfl), h3, rfl⟩
  | abort w1 => rw [hb] at h; cases h
  | wait w1 => rw [hb] at h; cases h

/-- The arguments are values the C types can hold. -/
def ValidCall (cfg : Cfg) (s : Session) (c : Call) : Prop :=
  (∀ f ∈ requestOf s c, ValidField cfg.buffer.sizeMax f) ∧
  ∀ sc o, c = .spawn sc o → sc.winptyFlags < 2 ^ 63

/-- The system is one that can exist: bytes are bytes and sizes have at most 64 bits. -/
def SaneWorld (cfg : Cfg) (w : World) : Prop := Bytes w.ios ∧ cfg.buffer.sizeMax < 2 ^ 64

theorem SaneWorld.after {cfg : Cfg} {w w' : World} {u : List Io} {es : List Event} (h : SaneWorld cfg w)
    (hu : Used w w' u es) : SaneWorld cfg w' :=
  ⟨fun i hi => h.1 i (by rw [hu.ios]; exact List.mem_append_right _ hi), h.2⟩

theorem cause_code {used : List Io} {e : Exn} (h : Cause used e) :
    (translateException e).code ∈ [1, 3, 5, 6, 7] := by
  rcases h with ⟨_, h | h⟩ | ⟨_, bad, _, _, h⟩
  · simp [h]
  · simp [h]
  · have : ∀ i c, codeOf i = some c → c ∈ [1, 3, 5, 6, 7] := by
      intro i c hc
      unfold codeOf at hc
      split at hc <;> cases hc <;> simp
    exact this _ _ h

attribute [local irreducible] spawnBody in
/-- What a call on a connected session does: it ends well, or it is refused by the agent, or it fails. -/
theorem call_facts {cfg : Cfg} {we : Bool} {s s' : Session} {w w' : World} {c : Call} {r : Ret}
    (hv : ValidCall cfg s c) (hw : SaneWorld cfg w) (hs : s.connected = true)
    (h : call cfg we s w c = .returned r s' w') :
    (∃ used es, s' = s ∧ Used w w' used es ∧ (∀ i ∈ used, Good i) ∧ Tidy es ∧
      Exchange cfg (requestOf s c) es ∧
      ((r.err = none ∧ ((∀ m n, c ≠ .processList m n) → r.value = 1)) ∨
        (∃ sc o, c = .spawn sc o) ∧ r.value = 0 ∧ r.err = (if we then some ⟨2, "CreateProcess failed"⟩ else none))) ∨
    (∃ e used es, s' = { s with connected := false } ∧ Used w w' used (es ++ [.closePipe]) ∧
      Tidy (es ++ [.closePipe]) ∧ Cause used e ∧ r.value = 0 ∧
      r.err = if we then some (translateException e) else none) := by
  cases c with
  | setSize cols rows =>
    simp only [call] at h
    unfold setSize at h
    split at h <;> rename_i h1
    case h_2 => cases h
    case h_3 => cases h
    case h_1 x s1 w1 =>
      cases h
      split at h1
      · rcases rpc_facts (setSizeBody_traced cfg cols rows w hw.1 hw.2 hv.1) hs h1 with
          ⟨u, es, k1, k2, k3, k4, k5, _⟩ | ⟨e, u, es, _, k1, k2, k3, k4, k5, _⟩
        · refine .inl ⟨u, es, k1, k2, k3, k4, k5.2, .inl ?_⟩
          rw [k5.1]
          exact ⟨rfl, fun _ => rfl⟩
        · refine .inr ⟨e, u, es, k1, k3, k4, k5, ?_⟩
          rw [k2]
          exact ⟨rfl, rfl⟩
      · cases h1
  | processList mem n =>
    simp only [call] at h
    unfold getConsoleProcessList at h
    split at h
    · cases h
    · rename_i mem' x s1 w1 heq
      cases h
      simp only [Prod.mk.injEq] at heq
      rcases rpc_facts (processListBody_traced cfg mem n w hw.1 hw.2) hs heq.2 with
        ⟨u, es, k1, k2, k3, k4, k5, _⟩ | ⟨e, u, es, _, k1, k2, k3, k4, k5, _⟩
      · obtain ⟨⟨c, rfl⟩, k6⟩ := k5
        exact .inl ⟨u, es, k1, k2, k3, k4, k6, .inl ⟨rfl, fun hne => absurd rfl (hne mem n)⟩⟩
      · refine .inr ⟨e, u, es, k1, k3, k4, k5, ?_⟩
        rw [k2]
        exact ⟨rfl, rfl⟩
    · cases h
    · cases h
  | spawn sc o =>
    simp only [call] at h
    unfold spawn at h
    split at h
    · rename_i o' x s1 w1 heq
      cases h
      simp only [Prod.mk.injEq] at heq
      rcases rpc_facts (body := fun w => (spawnBody cfg s sc (resetOut o) w).bind fun r w => .ok (spawnResult r) w)
          (spawnOuter_traced cfg s sc o w hw.1 hw.2 (hv.2 sc o rfl) hv.1) hs heq.2 with
        ⟨u, es, k1, k2, k3, k4, k5, _⟩ | ⟨e, u, es, _, k1, k2, k3, k4, k5, _⟩
      · refine .inl ⟨u, es, k1, k2, k3, k4, k5.1, ?_⟩
        rcases k5.2 with k6 | k6
        · rw [k6]; exact .inl ⟨rfl, fun _ => rfl⟩
        · rw [k6]; exact .inr ⟨⟨sc, o, rfl⟩, rfl, rfl⟩
      · refine .inr ⟨e, u, es, k1, k3, k4, k5, ?_⟩
        rw [k2]
        exact ⟨rfl, rfl⟩
    · cases h
    · cases h

end Winpty.Client
