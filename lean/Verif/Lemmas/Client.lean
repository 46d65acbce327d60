import Verif.Spec.Client
import Verif.Lemmas.Buffer
import Verif.Props.Buffer

/-! Lemmas about the library's RPC calls: what a computation does to the log and to the answers. -/
namespace Winpty.Client
open Winpty.Spec Winpty.Spec.Client
open Winpty.Buffer (Field Res leNat)

theorem requests_append (a b : List Event) : requests (a ++ b) = requests a ++ requests b := by
  induction a with
  | nil => rfl
  | cons e es ih => cases e <;> simp [requests, ih]

theorem received_append (a b : List Event) : received (a ++ b) = received a ++ received b := by
  induction a with
  | nil => rfl
  | cons e es ih => cases e <;> simp [received, ih]

theorem accepted_append (a b : List Event) : accepted (a ++ b) = accepted a ++ accepted b := by
  induction a with
  | nil => rfl
  | cons e es ih => cases e <;> simp [accepted, ih]

theorem pendingAfter_append (p : Bool) (a b : List Event) :
    pendingAfter p (a ++ b) = (pendingAfter p a).bind fun q => pendingAfter q b := by
  induction a generalizing p with
  | nil => rfl
  | cons e es ih => cases e <;> cases p <;> simp [pendingAfter, ih]

theorem tidy_append {a b : List Event} (ha : Tidy a) (hb : Tidy b) : Tidy (a ++ b) := by
  unfold Tidy at *
  rw [pendingAfter_append, ha]
  exact hb

/-- The computation from `w` used the answers `used` and logged `es`. -/
structure Used (w w' : World) (used : List Io) (es : List Event) : Prop where
  ios : w.ios = used ++ w'.ios
  log : w'.log = w.log ++ es

theorem Used.trans {w w' w'' : World} {u u' : List Io} {es es' : List Event} (h : Used w w' u es)
    (h' : Used w' w'' u' es') : Used w w'' (u ++ u') (es ++ es') :=
  ⟨by rw [h.ios, h'.ios, List.append_assoc], by rw [h'.log, h.log, List.append_assoc]⟩

/-- How the exception of a computation comes from the answers used. -/
def Cause (used : List Io) (e : Exn) : Prop :=
  ((∀ i ∈ used, Good i) ∧ ((translateException e).code = 5 ∨ (translateException e).code = 1)) ∨
  ∃ pre bad, used = pre ++ [bad] ∧ (∀ i ∈ pre, Good i) ∧ codeOf bad = some (translateException e).code

theorem Cause.after {u u' : List Io} {e : Exn} (hu : ∀ i ∈ u, Good i) (h : Cause u' e) :
    Cause (u ++ u') e := by
  rcases h with ⟨h1, h2⟩ | ⟨pre, bad, rfl, h1, h2⟩
  · exact .inl ⟨fun i hi => (List.mem_append.1 hi).elim (hu i) (h1 i), h2⟩
  · exact .inr ⟨u ++ pre, bad, by simp, fun i hi => (List.mem_append.1 hi).elim (hu i) (h1 i), h2⟩

/-- What is known of a computation from `w`. -/
def Traced {α : Type} (w : World) (Q : α → List Event → Prop) : R α → Prop
  | .ok a w' => ∃ used es, Used w w' used es ∧ (∀ i ∈ used, Good i) ∧ Tidy es ∧ Q a es
  | .throw e w' => ∃ used es, Used w w' used es ∧ Tidy es ∧ Cause used e
  | .abort _ => True
  | .wait w' => w'.ios = [] ∧ ∀ i ∈ w.ios, Good i

theorem traced_bind {α β : Type} {w : World} {Q : α → List Event → Prop} {Q2 : β → List Event → Prop}
    {r : R α} {f : α → World → R β} (h : Traced w Q r)
    (hf : ∀ a w' es, r = .ok a w' → Q a es → w'.log = w.log ++ es →
      Traced w' (fun b es' => Q2 b (es ++ es')) (f a w')) : Traced w Q2 (r.bind f) := by
  cases r with
  | ok a w' =>
    obtain ⟨u, es, h1, h2, h3, h4⟩ := h
    have := hf a w' es rfl h4 h1.log
    simp only [R.bind]
    generalize f a w' = r' at *
    cases r' with
    | ok b w'' =>
      obtain ⟨u', es', k1, k2, k3, k4⟩ := this
      exact ⟨_, _, h1.trans k1, fun i hi => (List.mem_append.1 hi).elim (h2 i) (k2 i), tidy_append h3 k3, k4⟩
    | throw e w'' =>
      obtain ⟨u', es', k1, k2, k3⟩ := this
      exact ⟨_, _, h1.trans k1, tidy_append h3 k2, k3.after h2⟩
    | abort w'' => trivial
    | wait w'' =>
      refine ⟨this.1, fun i hi => ?_⟩
      rw [h1.ios] at hi
      exact (List.mem_append.1 hi).elim (h2 i) (this.2 i)
  | throw e w' => exact h
  | abort w' => trivial
  | wait w' => exact h

theorem traced_mono {α : Type} {w : World} {Q Q' : α → List Event → Prop} {r : R α} (h : Traced w Q r)
    (hq : ∀ a w' es, r = .ok a w' → Q a es → Q' a es) : Traced w Q' r := by
  cases r with
  | ok a w' =>
    obtain ⟨u, es, h1, h2, h3, h4⟩ := h
    exact ⟨u, es, h1, h2, h3, hq a w' es rfl h4⟩
  | throw e w' => exact h
  | abort w' => trivial
  | wait w' => exact h

theorem traced_pure {α : Type} {w : World} {Q : α → List Event → Prop} {a : α} (h : Q a []) :
    Traced w Q (.ok a w) :=
  ⟨[], [], ⟨rfl, by simp⟩, by simp, rfl, h⟩

theorem traced_throw {α : Type} {w : World} {Q : α → List Event → Prop} {e : Exn}
    (h : (translateException e).code = 5 ∨ (translateException e).code = 1) :
    Traced w Q (.throw e w : R α) :=
  ⟨[], [], ⟨rfl, by simp⟩, rfl, .inl ⟨by simp, h⟩⟩

theorem allocExn_code (cfg : Cfg) :
    (translateException (allocExn cfg)).code = 5 ∨ (translateException (allocExn cfg)).code = 1 := by
  unfold allocExn; split
  · exact .inl rfl
  · exact .inr rfl

theorem readWriteError_code (pfx : String) (code : Nat) :
    (translateException (readWriteError pfx code)).code =
      if code = 109 ∨ code = 232 ∨ code = 233 then 3 else 5 := by
  unfold readWriteError; split <;> rfl

theorem codeOf_fail (c : Nat) :
    codeOf (.now (.fail c)) = some (if c = 109 ∨ c = 232 ∨ c = 233 then 3 else 5) ∧
    codeOf (.pending (.io (.fail c))) = some (if c = 109 ∨ c = 232 ∨ c = 233 then 3 else 5) := by
  constructor
  · unfold codeOf
    split <;> simp_all
  · unfold codeOf
    split <;> simp_all

/-- An overlapped call: a successful one used one good answer; a failing one is reported by its
caller with the code `readWriteError` gives. -/
theorem overlapped_ok {w w' : World} {ev : Event} {d : Done} (hev : ∀ p es, pendingAfter p (ev :: es) =
      if p then none else pendingAfter false es)
    (h : overlapped w ev = .ok d w') :
    ∃ i es, Used w w' [i] (ev :: es) ∧ Tidy (ev :: es) ∧ requests es = [] ∧ received es = [] ∧ accepted es = [] ∧
      ((∃ n b, d = .ok n b ∧ Good i ∧ dataOf i = b) ∨
       (∃ c, d = .fail c ∧ codeOf i = some (if c = 109 ∨ c = 232 ∨ c = 233 then 3 else 5))) := by
  unfold overlapped at h
  split at h
  · cases h
  · rename_i d' rest hios
    cases h
    refine ⟨_, [], ⟨by rw [hios]; rfl, rfl⟩, by simp [Tidy, hev, pendingAfter], rfl, rfl, rfl, ?_⟩
    cases d with
    | ok n b => exact .inl ⟨n, b, rfl, rfl, rfl⟩
    | fail c => exact .inr ⟨c, rfl, (codeOf_fail c).1⟩
  · rename_i x rest hios
    unfold handlePendingIo at h
    split at h <;> cases h
    refine ⟨_, [.pending, .reaped], ⟨by rw [hios]; rfl, by simp [World.add]⟩,
      by simp [Tidy, hev, pendingAfter], rfl, rfl, rfl, ?_⟩
    cases d with
    | ok n b => exact .inl ⟨n, b, rfl, rfl, rfl⟩
    | fail c => exact .inr ⟨c, rfl, (codeOf_fail c).2⟩

theorem overlapped_throw {w w' : World} {ev : Event} {e : Exn} (hev : ∀ p es, pendingAfter p (ev :: es) =
      if p then none else pendingAfter false es)
    (h : overlapped w ev = .throw e w') :
    ∃ i es, Used w w' [i] es ∧ Tidy es ∧ codeOf i = some (translateException e).code := by
  unfold overlapped at h
  split at h
  · cases h
  · cases h
  · rename_i x rest hios
    unfold handlePendingIo at h
    split at h <;> cases h
    all_goals
      refine ⟨_, [ev, .pending, .cancel, .reaped], ⟨by rw [hios]; rfl, by simp [World.add]⟩,
        by simp [Tidy, hev, pendingAfter], rfl⟩

theorem overlapped_wait {w w' : World} {ev : Event} (h : overlapped w ev = .wait w') :
    w.ios = [] ∧ w'.ios = [] := by
  unfold overlapped at h
  split at h
  · rename_i hios
    cases h
    exact ⟨hios, hios⟩
  · cases h
  · unfold handlePendingIo at h
    split at h <;> cases h

theorem writeData_traced (w : World) (bytes : List Nat) :
    Traced w (fun _ es => requests es = [bytes] ∧ received es = [] ∧ accepted es = [bytes.length])
      (writeData w bytes) := by
  have hev : ∀ p es, pendingAfter p (Event.write bytes :: es) = if p then none else pendingAfter false es := by
    intro p es; cases p <;> simp [pendingAfter]
  unfold writeData
  cases h : overlapped w (.write bytes) with
  | ok d w' =>
    obtain ⟨i, es, h1, h2, h3, h4, h8, h5⟩ := overlapped_ok hev h
    rcases h5 with ⟨n, b, rfl, h6, _⟩ | ⟨c, rfl, h6⟩
    · simp only [R.bind]
      split
      · rename_i hn
        refine ⟨[i], .write bytes :: es ++ [.wrote n], ⟨h1.ios, by simp [World.add, h1.log]⟩, by simpa using h6,
          tidy_append h2 (show Tidy [.wrote n] from rfl), ?_, ?_, ?_⟩
        · rw [requests_append]; simp [requests, h3]
        · rw [received_append]; simp [received, h4]
        · rw [accepted_append]; simp [accepted, h8, hn]
      · trivial
    · refine ⟨[i], _, h1, h2, .inr ⟨[], i, rfl, by simp, ?_⟩⟩
      rw [h6, readWriteError_code]
  | throw e w' =>
    obtain ⟨i, es, h1, h2, h3⟩ := overlapped_throw hev h
    exact ⟨[i], es, h1, h2, .inr ⟨[], i, rfl, by simp, h3⟩⟩
  | abort w' => trivial
  | wait w' =>
    obtain ⟨h1, h2⟩ := overlapped_wait h
    exact ⟨h2, by simp [h1]⟩

theorem writePacket_traced (w : World) (sizeMax : Nat) (fs : List Field) (hv : ∀ f ∈ fs, ValidField sizeMax f) :
    Traced w (fun _ es => requests es = [message fs] ∧ received es = [] ∧ accepted es = [(message fs).length])
      (writePacket w fs) := by
  have h := Props.C01_writer sizeMax fs hv
  unfold Props.writtenPacket at h
  unfold writePacket
  rw [h]
  exact writeData_traced w _

theorem readData_traced (w : World) (amount : Nat) :
    Traced w (fun d es => d.length ≤ amount ∧ requests es = [] ∧ accepted es = [] ∧ received es = d ∧ (Bytes w.ios → ∀ b ∈ d, b < 256))
      (readData w amount) := by
  have hev : ∀ p es, pendingAfter p (Event.read amount :: es) = if p then none else pendingAfter false es := by
    intro p es; cases p <;> simp [pendingAfter]
  unfold readData
  cases h : overlapped w (.read amount) with
  | ok d w' =>
    obtain ⟨i, es, h1, h2, h3, h4, h8, h5⟩ := overlapped_ok hev h
    rcases h5 with ⟨n, b, rfl, h6, h7⟩ | ⟨c, rfl, h6⟩
    · simp only [R.bind]
      split
      · rename_i hle
        refine ⟨[i], .read amount :: es ++ [.got b], ⟨h1.ios, by simp [World.add, h1.log]⟩, by simpa using h6,
          tidy_append h2 (show Tidy [.got b] from rfl), hle, ?_, ?_, ?_, ?_⟩
        · rw [requests_append]; simp [requests, h3]
        · rw [accepted_append]; simp [accepted, h8]
        · rw [received_append]; simp [received, h4]
        · intro hb x hx
          exact hb i (by rw [h1.ios]; simp) x (by rw [h7]; exact hx)
      · trivial
    · refine ⟨[i], _, h1, h2, .inr ⟨[], i, rfl, by simp, ?_⟩⟩
      rw [h6, readWriteError_code]
  | throw e w' =>
    obtain ⟨i, es, h1, h2, h3⟩ := overlapped_throw hev h
    exact ⟨[i], es, h1, h2, .inr ⟨[], i, rfl, by simp, h3⟩⟩
  | abort w' => trivial
  | wait w' =>
    obtain ⟨h1, h2⟩ := overlapped_wait h
    exact ⟨h2, by simp [h1]⟩

/-- A completed read used exactly one answer. -/
theorem readData_uses {w w' : World} {amount : Nat} {d : List Nat} (h : readData w amount = .ok d w') :
    w.ios.length = w'.ios.length + 1 ∧ ∃ i, w.ios = i :: w'.ios := by
  unfold readData overlapped at h
  split at h
  · cases h
  · rename_i x rest hios
    simp only [R.bind] at h
    split at h
    · cases h
    · split at h <;> cases h
      simp [World.add, hios]
  · rename_i x rest hios
    unfold handlePendingIo at h
    split at h <;> simp only [R.bind] at h <;> try cases h
    split at h
    · cases h
    · split at h <;> cases h
      simp [World.add, hios]

theorem bytes_tail {w w' : World} {i : Io} (h : w.ios = i :: w'.ios) (hb : Bytes w.ios) : Bytes w'.ios := by
  intro j hj
  exact hb j (by rw [h]; exact List.mem_cons_of_mem _ hj)

theorem readLoop_traced (fuel : Nat) : ∀ (w : World) (amount : Nat), w.ios.length < fuel →
    Traced w (fun d es => d.length = amount ∧ requests es = [] ∧ accepted es = [] ∧ received es = d ∧
      (Bytes w.ios → ∀ b ∈ d, b < 256)) (readLoop fuel w amount) := by
  induction fuel with
  | zero => intro w amount h; omega
  | succ fuel ih =>
    intro w amount hlt
    unfold readLoop
    split
    · refine traced_bind (readData_traced w amount) ?_
      intro chunk w1 es1 hr hq _
      obtain ⟨q1, q2, q5, q3, q4⟩ := hq
      obtain ⟨hu, i, hi⟩ := readData_uses hr
      refine traced_bind (ih w1 _ (by omega)) ?_
      intro rest w2 es2 _ hq2 _
      obtain ⟨p1, p2, p5, p3, p4⟩ := hq2
      refine traced_pure ⟨by simp; omega, ?_, ?_, ?_, ?_⟩
      · simp [requests_append, q2, p2]
      · simp [accepted_append, q5, p5]
      · simp [received_append, q3, p3]
      · intro hb b hm
        rcases List.mem_append.1 hm with h | h
        · exact q4 hb b h
        · exact p4 (bytes_tail hi hb) b h
    · exact traced_pure ⟨by simp; omega, rfl, rfl, rfl, by simp⟩

theorem readAll_traced (w : World) (amount : Nat) :
    Traced w (fun d es => d.length = amount ∧ requests es = [] ∧ accepted es = [] ∧ received es = d ∧
      (Bytes w.ios → ∀ b ∈ d, b < 256)) (readAll w amount) :=
  readLoop_traced _ w amount (by omega)

/-- The answers left after a computation are a final part of those before. -/
theorem traced_suffix {α : Type} {w w' : World} {Q : α → List Event → Prop} {a : α}
    (h : Traced w Q (.ok a w')) (hb : Bytes w.ios) : Bytes w'.ios := by
  obtain ⟨u, _, h1, _⟩ := h
  intro i hi
  exact hb i (by rw [h1.ios]; exact List.mem_append_right _ hi)

theorem readPacket_traced (cfg : Cfg) (w : World) (hb : Bytes w.ios) (h64 : cfg.buffer.sizeMax < 2 ^ 64) :
    Traced w (fun d es => requests es = [] ∧ accepted es = [] ∧ IsPacket cfg.buffer.sizeMax (received es) ∧
      (received es).drop 8 = d ∧ ∀ b ∈ d, b < 256) (readPacket cfg w) := by
  unfold readPacket
  have hA := readAll_traced w 8
  refine traced_bind hA ?_
  intro sz w1 es1 hr hq _
  obtain ⟨q1, q2, q5, q3, q4⟩ := hq
  rw [hr] at hA
  have hb1 := traced_suffix hA hb
  split
  · exact traced_throw (.inl rfl)
  · rename_i hsz
    split
    · refine traced_mono (readAll_traced w1 _) ?_
      intro d w2 es2 _ hq2
      obtain ⟨p1, p2, p5, p3, p4⟩ := hq2
      have hlen : (received (es1 ++ es2)).length = leNat sz := by
        rw [received_append, q3, p3, List.length_append, q1, p1]; omega
      refine ⟨by simp [requests_append, q2, p2], by simp [accepted_append, q5, p5], ⟨by omega, by omega, by omega, ?_⟩, ?_, p4 hb1⟩
      · rw [hlen, received_append, q3, List.take_left' q1, ← Buffer.leBytes_digits, ← q1,
          Buffer.leBytes_leNat sz (q4 hb)]
      · rw [received_append, q3, p3, List.drop_left' q1]
    · exact traced_throw (allocExn_code cfg)

theorem decoded_traced {α : Type} (cfg : Cfg) (w : World) (r : Res α) :
    Traced w (fun a es => es = [] ∧ r = .ok a.1 a.2) (decoded cfg w r) := by
  cases r with
  | ok a off => exact traced_pure ⟨rfl, rfl⟩
  | decodeError => exact traced_throw (.inl rfl)
  | allocError => exact traced_throw (allocExn_code cfg)
  | assertFail => trivial

/-- No reads or writes of the control pipe. -/
def Off (es : List Event) : Prop := requests es = [] ∧ received es = [] ∧ accepted es = []

theorem stealHandle_traced (w : World) (remote : Int) :
    Traced w (fun _ es => Off es) (stealHandle w remote) := by
  unfold stealHandle
  split
  · exact traced_pure ⟨rfl, rfl, rfl⟩
  · split
    · exact traced_throw (.inl rfl)
    · exact ⟨[], _, ⟨rfl, rfl⟩, by simp, rfl, rfl, rfl, rfl⟩
    · exact ⟨[], [], ⟨rfl, by simp⟩, rfl, .inl ⟨by simp, .inl rfl⟩⟩

theorem dropHandle_used (w : World) (h : Int) :
    ∃ es, Used w (dropHandle w h) [] es ∧ Off es ∧ Tidy es := by
  unfold dropHandle
  split
  · exact ⟨[], ⟨rfl, by simp⟩, ⟨rfl, rfl, rfl⟩, rfl⟩
  · exact ⟨[.closeHandle h], ⟨rfl, rfl⟩, ⟨rfl, rfl, rfl⟩, rfl⟩

theorem Off.append {a b : List Event} (ha : Off a) (hb : Off b) : Off (a ++ b) :=
  ⟨by simp [requests_append, ha.1, hb.1], by simp [received_append, ha.2.1, hb.2.1],
    by simp [accepted_append, ha.2.2, hb.2.2]⟩

theorem takeHandles_traced (cfg : Cfg) (w : World) (o : SpawnOut) (p t : Int) :
    Traced w (fun _ es => Off es) (takeHandles cfg w o p t) := by
  unfold takeHandles
  refine traced_bind (stealHandle_traced w _) ?_
  intro hp w1 es1 _ hq _
  have h2 := stealHandle_traced w1 (handleFromInt64 cfg t)
  generalize stealHandle w1 (handleFromInt64 cfg t) = r at *
  cases r with
  | ok ht w2 =>
    obtain ⟨u, es2, k1, k2, k3, k4⟩ := h2
    have h3 : ∃ es, Used w2 (if o.thread.isSome then w2 else dropHandle w2 ht) [] es ∧ Off es ∧ Tidy es := by
      split
      · exact ⟨[], ⟨rfl, by simp⟩, ⟨rfl, rfl, rfl⟩, rfl⟩
      · exact dropHandle_used w2 ht
    obtain ⟨es3, m1, m2, m3⟩ := h3
    obtain ⟨es4, n1, n2, n3⟩ := dropHandle_used (if o.thread.isSome then w2 else dropHandle w2 ht)
      (if o.process.isSome then 0 else hp)
    refine ⟨_, _, (k1.trans m1).trans n1, by simpa using k2, tidy_append (tidy_append k3 m3) n3, ?_⟩
    exact hq.append ((k4.append m2).append n2)
  | throw e w2 =>
    obtain ⟨u, es2, k1, k2, k3⟩ := h2
    obtain ⟨es4, n1, n2, n3⟩ := dropHandle_used w2 hp
    exact ⟨_, _, k1.trans n1, tidy_append k2 n3, by simpa using k3⟩
  | abort w2 => trivial
  | wait w2 => exact h2

theorem spawnReply_traced (cfg : Cfg) (w : World) (o : SpawnOut) (reply : List Nat) :
    Traced w (fun _ es => Off es) (spawnReply cfg w o reply) := by
  have hd : ∀ {α : Type} (w : World) (r : Res α), Traced w (fun (_ : α × Nat) es => Off es) (decoded cfg w r) :=
    fun w r => traced_mono (decoded_traced cfg w r) (by rintro a w' es _ ⟨rfl, _⟩; exact ⟨rfl, rfl, rfl⟩)
  have hpure : ∀ {α : Type} {w : World} {a : α} {es : List Event}, Off es →
      Traced w (fun _ es' => Off (es ++ es')) (.ok a w) :=
    fun h => traced_pure (by simpa using h)
  unfold spawnReply
  refine traced_bind (hd w _) ?_
  intro r w1 es1 _ q1 _
  split
  · refine traced_bind (Q2 := fun _ es => Off (es1 ++ es)) (hd w1 _) ?_
    intro e w2 es2 _ q2 _
    refine traced_bind (Q2 := fun _ es => Off (es1 ++ (es2 ++ es))) (hd w2 _) ?_
    intro _ w3 es3 _ q3 _
    exact traced_pure (by simpa using q1.append (q2.append q3))
  · split
    · refine traced_bind (Q2 := fun _ es => Off (es1 ++ es)) (hd w1 _) ?_
      intro p w2 es2 _ q2 _
      refine traced_bind (Q2 := fun _ es => Off (es1 ++ (es2 ++ es))) (hd w2 _) ?_
      intro t w3 es3 _ q3 _
      refine traced_bind (Q2 := fun _ es => Off (es1 ++ (es2 ++ (es3 ++ es)))) (hd w3 _) ?_
      intro _ w4 es4 _ q4 _
      refine traced_bind (Q2 := fun _ es => Off (es1 ++ (es2 ++ (es3 ++ (es4 ++ es))))) (takeHandles_traced cfg w4 o _ _) ?_
      intro _ w5 es5 _ q5 _
      exact traced_pure (by simpa using q1.append (q2.append (q3.append (q4.append q5))))
    · exact traced_throw (.inl rfl)

end Winpty.Client
