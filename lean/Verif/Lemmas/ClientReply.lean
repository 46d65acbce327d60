import Verif.Lemmas.ClientCalls

/-! Lemmas about the library's RPC calls: replies, fed back chunk by chunk, and their decoding. -/
namespace Winpty.Client
open Winpty.Spec Winpty.Spec.Client
open Winpty.Buffer (Field FieldTy Res leNat getInt32 getInt64 getFields getField assertEof)

theorem R.bind_eq_ok {α β : Type} {r : R α} {f : α → World → R β} {b : β} {w' : World}
    (h : r.bind f = .ok b w') : ∃ a w1, r = .ok a w1 ∧ f a w1 = .ok b w' := by
  cases r with
  | ok a w1 => exact ⟨a, w1, rfl, h⟩
  | throw e w1 => cases h
  | abort w1 => cases h
  | wait w1 => cases h

theorem decoded_ok {α : Type} {cfg : Cfg} {w w' : World} {r : Res α} {a : α × Nat}
    (h : decoded cfg w r = .ok a w') : r = .ok a.1 a.2 ∧ w' = w := by
  unfold decoded at h
  split at h <;> cases h
  exact ⟨rfl, rfl⟩

/-- A reply that is read to its end consists of the fields read. -/
theorem reply_eq {cfg : Buffer.Cfg} {buf : List Nat} {ts : List FieldTy} {fs : List Field} {off : Nat}
    (hb : ∀ b ∈ buf, b < 256) (h : getFields cfg buf 0 ts = .ok fs off)
    (he : assertEof buf off = .ok () off) : buf = wire fs ∧ ∀ f ∈ fs, ValidField cfg.sizeMax f := by
  obtain ⟨_, h2, h3, h4, _⟩ := Buffer.getFields_ok cfg buf hb 0 ts fs off (Nat.zero_le _) h
  have hl : off = buf.length := by
    unfold assertEof at he
    split at he
    · assumption
    · cases he
  obtain ⟨_, h5⟩ := h3
  rw [List.drop_zero, ← Nat.zero_add (wire fs).length, ← h4, hl, List.take_length] at h5
  exact ⟨h5, h2⟩

/-- A packet with a known body. -/
theorem packet_message {sizeMax : Nat} {p : List Nat} {fs : List Field} (h : IsPacket sizeMax p)
    (hd : p.drop 8 = wire fs) : p = message fs := by
  obtain ⟨h1, _, _, h4⟩ := h
  have hl : p.length = 8 + (wire fs).length := by rw [← hd, List.length_drop]; omega
  unfold message
  rw [← hl, ← h4, ← hd, List.take_append_drop]

theorem message_packet {sizeMax : Nat} {fs : List Field} (h : (message fs).length ≤ sizeMax)
    (h64 : sizeMax < 2 ^ 64) : IsPacket sizeMax (message fs) := by
  have hl : (message fs).length = 8 + (wire fs).length := by
    simp [message, Buffer.digits256_length]
  refine ⟨by omega, h, by omega, ?_⟩
  rw [hl]
  unfold message
  rw [List.take_left' (Buffer.digits256_length _ _)]

/-! ## Feeding a reply -/

/-- The answer `i` to a read is a successful one that brings at least one byte. -/
def Chunk (i : Io) : Prop := Good i ∧ dataOf i ≠ []

theorem good_cases {i : Io} (h : Good i) :
    ∃ n d, i = .now (.ok n d) ∨ i = .pending (.io (.ok n d)) := by
  unfold Good codeOf at h
  split at h <;> first | cases h | skip
  · exact ⟨_, _, .inl rfl⟩
  · exact ⟨_, _, .inr rfl⟩

theorem readData_feed (i : Io) (rest : List Io) (w : World) (amount : Nat) (hi : Good i)
    (hw : w.ios = i :: rest) (hl : (dataOf i).length ≤ amount) :
    ∃ lg, readData w amount = .ok (dataOf i) ⟨rest, w.dups, lg⟩ := by
  obtain ⟨n, d, rfl | rfl⟩ := good_cases hi <;> simp only [dataOf] at hl
  · exact ⟨_, by simp only [readData, overlapped, hw, R.bind, hl, if_true, World.add]; rfl⟩
  · exact ⟨_, by simp only [readData, overlapped, hw, handlePendingIo, R.bind, hl, if_true, World.add]; rfl⟩

theorem readLoop_feed (hs : List Io) : ∀ (fuel : Nat) (w : World) (rest : List Io) (amount : Nat),
    (∀ i ∈ hs, Chunk i) → w.ios = hs ++ rest → (hs.flatMap dataOf).length = amount → hs.length < fuel →
    ∃ lg, readLoop fuel w amount = .ok (hs.flatMap dataOf) ⟨rest, w.dups, lg⟩ := by
  induction hs with
  | nil =>
    intro fuel w rest amount _ hw ha hf
    cases fuel with
    | zero => simp at hf
    | succ fuel =>
      simp only [List.flatMap_nil, List.length_nil] at ha
      subst ha
      refine ⟨w.log, ?_⟩
      simp only [readLoop, Nat.lt_irrefl, if_false, List.flatMap_nil, gt_iff_lt]
      congr 1
      cases w
      simp_all
  | cons i hs ih =>
    intro fuel w rest amount hc hw ha hf
    cases fuel with
    | zero => simp at hf
    | succ fuel =>
      have hci := hc i (by simp)
      have hpos : 0 < (dataOf i).length := List.length_pos_iff.2 hci.2
      simp only [List.flatMap_cons, List.length_append] at ha
      obtain ⟨lg, h1⟩ := readData_feed i (hs ++ rest) w amount hci.1 hw (by omega)
      obtain ⟨lg2, h2⟩ := ih fuel ⟨hs ++ rest, w.dups, lg⟩ rest (amount - (dataOf i).length)
        (fun j hj => hc j (by simp [hj])) rfl (by omega) (by simpa using hf)
      refine ⟨lg2, ?_⟩
      rw [readLoop, if_pos (by omega), h1]
      simp only [R.bind]
      rw [h2]
      simp [R.bind]

theorem readAll_feed (hs rest : List Io) (w : World) (amount : Nat) (hc : ∀ i ∈ hs, Chunk i)
    (hw : w.ios = hs ++ rest) (ha : (hs.flatMap dataOf).length = amount) :
    ∃ lg, readAll w amount = .ok (hs.flatMap dataOf) ⟨rest, w.dups, lg⟩ := by
  unfold readAll
  exact readLoop_feed hs _ w rest amount hc hw ha (by rw [hw, List.length_append]; omega)

theorem readPacket_feed (cfg : Cfg) (hs bs rest : List Io) (w : World) (fs : List Field)
    (hc : ∀ i ∈ hs ++ bs, Chunk i) (hw : w.ios = hs ++ bs ++ rest)
    (h8 : (hs.flatMap dataOf).length = 8) (hm : (hs ++ bs).flatMap dataOf = message fs)
    (hmax : (message fs).length ≤ cfg.buffer.sizeMax) (h64 : cfg.buffer.sizeMax < 2 ^ 64)
    (ha : cfg.buffer.canAlloc (wire fs).length = true) :
    ∃ lg, readPacket cfg w = .ok (wire fs) ⟨rest, w.dups, lg⟩ := by
  have hl : (message fs).length = 8 + (wire fs).length := by
    simp [message, Buffer.digits256_length]
  rw [List.flatMap_append] at hm
  unfold message at hm
  obtain ⟨e1, e2⟩ := List.append_inj hm (by rw [h8, Buffer.digits256_length])
  obtain ⟨lg, r1⟩ := readAll_feed hs (bs ++ rest) w 8 (fun i hi => hc i (by simp [hi]))
    (by rw [hw, List.append_assoc]) h8
  obtain ⟨lg2, r2⟩ := readAll_feed bs rest ⟨bs ++ rest, w.dups, lg⟩ (wire fs).length
    (fun i hi => hc i (by simp [hi])) rfl (by rw [e2])
  refine ⟨lg2, ?_⟩
  have hsz : leNat (digits256 8 (8 + (wire fs).length)) = 8 + (wire fs).length := by
    rw [← Buffer.leBytes_digits, Buffer.leNat_leBytes, Nat.mod_eq_of_lt]
    have : (256 : Nat) ^ 8 = 2 ^ 64 := by decide
    omega
  unfold readPacket
  rw [r1]
  simp only [R.bind, e1, hsz]
  rw [if_neg (by omega), show 8 + (wire fs).length - 8 = (wire fs).length by omega, if_pos ha, r2, e2]

/-- The system takes the request and delivers the reply `fs` in some chunks; then `rest` is left. -/
theorem exchange_feed (cfg : Cfg) (a : Io) (hs bs rest : List Io) (w : World) (req fs : List Field)
    (hv : ∀ f ∈ req, ValidField cfg.buffer.sizeMax f)
    (hga : a = .now (.ok (message req).length []) ∨ a = .pending (.io (.ok (message req).length [])))
    (hc : ∀ i ∈ hs ++ bs, Chunk i) (hw : w.ios = a :: (hs ++ bs ++ rest))
    (h8 : (hs.flatMap dataOf).length = 8) (hm : (hs ++ bs).flatMap dataOf = message fs)
    (hmax : (message fs).length ≤ cfg.buffer.sizeMax) (h64 : cfg.buffer.sizeMax < 2 ^ 64)
    (ha : cfg.buffer.canAlloc (wire fs).length = true) :
    ∃ lg, (writePacket w req).bind (fun _ w => readPacket cfg w) = .ok (wire fs) ⟨rest, w.dups, lg⟩ := by
  have h := Props.C01_writer cfg.buffer.sizeMax req hv
  unfold Props.writtenPacket at h
  unfold writePacket
  rw [h]
  change ∃ lg, (writeData w (message req)).bind (fun _ w => readPacket cfg w) = .ok (wire fs) ⟨rest, w.dups, lg⟩
  have hwr : ∃ lg, writeData w (message req) = .ok () ⟨hs ++ bs ++ rest, w.dups, lg⟩ := by
    rcases hga with rfl | rfl
    · exact ⟨_, by simp only [writeData, overlapped, hw, R.bind, if_true, World.add]; rfl⟩
    · exact ⟨_, by simp only [writeData, overlapped, hw, handlePendingIo, R.bind, if_true, World.add]; rfl⟩
  obtain ⟨lg, hwr⟩ := hwr
  rw [hwr]
  simp only [R.bind]
  exact readPacket_feed cfg hs bs rest ⟨hs ++ bs ++ rest, w.dups, lg⟩ fs hc rfl h8 hm hmax h64 ha

/-! ## Decoding the reply to a spawn request -/

theorem spawnReply_ok {cfg : Cfg} {w w' : World} {o : SpawnOut} {reply : List Nat}
    {x : Except Nat SpawnOut} (hb : ∀ b ∈ reply, b < 256) (h : spawnReply cfg w o reply = .ok x w') :
    (∃ code, reply = wire [.int32 0, .int32 code] ∧ (-2 ^ 31 ≤ code ∧ code < 2 ^ 31) ∧
      x = .error (Buffer.toUnsigned 32 code) ∧ w' = w) ∨
    (∃ p t o', reply = wire [.int32 1, .int64 p, .int64 t] ∧ (-2 ^ 63 ≤ p ∧ p < 2 ^ 63) ∧
      (-2 ^ 63 ≤ t ∧ t < 2 ^ 63) ∧ takeHandles cfg w o p t = .ok o' w' ∧ x = .ok o') := by
  unfold spawnReply at h
  obtain ⟨r, w1, h1, hh⟩ := R.bind_eq_ok h; clear h; have h := hh; clear hh
  obtain ⟨d1, rfl⟩ := decoded_ok h1
  split at h
  · rename_i hr
    obtain ⟨e, w2, h2, hh⟩ := R.bind_eq_ok h; clear h; have h := hh; clear hh
    obtain ⟨d2, rfl⟩ := decoded_ok h2
    obtain ⟨u, w3, h3, hh⟩ := R.bind_eq_ok h; clear h; have h := hh; clear hh
    obtain ⟨d3, rfl⟩ := decoded_ok h3
    cases h
    have he : assertEof reply e.2 = .ok () e.2 := by
      unfold assertEof at d3 ⊢; split at d3 <;> simp_all
    have hg : getFields cfg.buffer reply 0 [.int32, .int32] = .ok [.int32 0, .int32 e.1] e.2 := by
      simp [getFields, getField, Res.bind, d1, d2, hr]
    obtain ⟨k1, k2⟩ := reply_eq hb hg he
    exact .inl ⟨e.1, k1, k2 (.int32 e.1) (by simp), rfl, rfl⟩
  · split at h
    · rename_i hr
      obtain ⟨p, w2, h2, hh⟩ := R.bind_eq_ok h; clear h; have h := hh; clear hh
      obtain ⟨d2, rfl⟩ := decoded_ok h2
      obtain ⟨t, w3, h3, hh⟩ := R.bind_eq_ok h; clear h; have h := hh; clear hh
      obtain ⟨d3, rfl⟩ := decoded_ok h3
      obtain ⟨u, w4, h4, hh⟩ := R.bind_eq_ok h; clear h; have h := hh; clear hh
      obtain ⟨d4, rfl⟩ := decoded_ok h4
      obtain ⟨o', w5, h5, hh⟩ := R.bind_eq_ok h; clear h; have h := hh; clear hh
      cases h
      have he : assertEof reply t.2 = .ok () t.2 := by
        unfold assertEof at d4 ⊢; split at d4 <;> simp_all
      have hg : getFields cfg.buffer reply 0 [.int32, .int64, .int64] =
          .ok [.int32 1, .int64 p.1, .int64 t.1] t.2 := by
        simp [getFields, getField, Res.bind, d1, d2, d3, hr]
      obtain ⟨k1, k2⟩ := reply_eq hb hg he
      exact .inr ⟨p.1, t.1, o', k1, k2 (.int64 p.1) (by simp), k2 (.int64 t.1) (by simp), h5, rfl⟩
    · cases h

theorem whole_at (x : List Nat) : Buffer.At x 0 x := ⟨Nat.zero_le _, by simp⟩

theorem read_two (cfg : Buffer.Cfg) (code : Int) (hv : -2 ^ 31 ≤ code ∧ code < 2 ^ 31) :
    ∃ o1 o2, getInt32 (wire [.int32 0, .int32 code]) 0 = .ok 0 o1 ∧
      getInt32 (wire [.int32 0, .int32 code]) o1 = .ok code o2 ∧
      assertEof (wire [.int32 0, .int32 code]) o2 = .ok () o2 := by
  have h := Buffer.getFields_wire cfg (wire [.int32 0, .int32 code]) 0 [.int32 0, .int32 code]
    (by simpa [ValidField] using hv) (by simp) (whole_at _)
  simp only [getFields, getField, List.map_cons, List.map_nil, Field.ty] at h
  obtain ⟨a, o1, h1, h⟩ := Buffer.bind_ok h
  obtain ⟨a', o1', h1', h1⟩ := Buffer.bind_ok h1
  cases h1
  obtain ⟨b, o2, h2, h⟩ := Buffer.bind_ok h
  obtain ⟨c, o3, h3, h2⟩ := Buffer.bind_ok h2
  obtain ⟨c', o3', h3', h3⟩ := Buffer.bind_ok h3
  cases h3
  cases h2
  cases h
  exact ⟨_, _, h1', h3', by simp [assertEof]⟩

theorem read_three (cfg : Buffer.Cfg) (p t : Int) (hp : -2 ^ 63 ≤ p ∧ p < 2 ^ 63)
    (ht : -2 ^ 63 ≤ t ∧ t < 2 ^ 63) :
    ∃ o1 o2 o3, getInt32 (wire [.int32 1, .int64 p, .int64 t]) 0 = .ok 1 o1 ∧
      getInt64 (wire [.int32 1, .int64 p, .int64 t]) o1 = .ok p o2 ∧
      getInt64 (wire [.int32 1, .int64 p, .int64 t]) o2 = .ok t o3 ∧
      assertEof (wire [.int32 1, .int64 p, .int64 t]) o3 = .ok () o3 := by
  have h := Buffer.getFields_wire cfg (wire [.int32 1, .int64 p, .int64 t]) 0
    [.int32 1, .int64 p, .int64 t] (by simp [ValidField]; omega) (by simp) (whole_at _)
  simp only [getFields, getField, List.map_cons, List.map_nil, Field.ty] at h
  obtain ⟨a, o1, h1, h⟩ := Buffer.bind_ok h
  obtain ⟨a', o1', h1', h1⟩ := Buffer.bind_ok h1
  cases h1
  obtain ⟨b, o2, h2, h⟩ := Buffer.bind_ok h
  obtain ⟨c, o3, h3, h2⟩ := Buffer.bind_ok h2
  obtain ⟨c', o3', h3', h3⟩ := Buffer.bind_ok h3
  cases h3
  obtain ⟨d, o4, h4, h2⟩ := Buffer.bind_ok h2
  obtain ⟨e, o5, h5, h4⟩ := Buffer.bind_ok h4
  obtain ⟨e', o5', h5', h5⟩ := Buffer.bind_ok h5
  cases h5
  cases h4
  cases h2
  cases h
  exact ⟨_, _, _, h1', h3', h5', by simp [assertEof]⟩

theorem spawnReply_refused (cfg : Cfg) (w : World) (o : SpawnOut) (code : Int)
    (hv : -2 ^ 31 ≤ code ∧ code < 2 ^ 31) :
    spawnReply cfg w o (wire [.int32 0, .int32 code]) = .ok (.error (Buffer.toUnsigned 32 code)) w := by
  obtain ⟨o1, o2, h1, h2, h3⟩ := read_two cfg.buffer code hv
  simp [spawnReply, h1, h2, h3, decoded, R.bind]

theorem spawnReply_created (cfg : Cfg) (w : World) (o : SpawnOut) (p t : Int)
    (hp : -2 ^ 63 ≤ p ∧ p < 2 ^ 63) (ht : -2 ^ 63 ≤ t ∧ t < 2 ^ 63) :
    spawnReply cfg w o (wire [.int32 1, .int64 p, .int64 t]) =
      (takeHandles cfg w o p t).bind fun o' w => .ok (.ok o') w := by
  obtain ⟨o1, o2, o3, h1, h2, h3, h4⟩ := read_three cfg.buffer p t hp ht
  simp [spawnReply, h1, h2, h3, h4, decoded, R.bind]

/-- Pointers have 32 or 64 bits and handles fit in 32: the conversion changes nothing. -/
theorem handleFromInt64_id (cfg : Cfg) (h : Int) (hb : cfg.ptrBits = 32 ∨ cfg.ptrBits = 64)
    (hv : -2 ^ 31 ≤ h ∧ h < 2 ^ 31) : handleFromInt64 cfg h = h := by
  unfold handleFromInt64
  rcases hb with hb | hb <;> rw [hb]
  · exact Buffer.toSigned_toUnsigned_32 h hv
  · exact Buffer.toSigned_toUnsigned_64 h (by omega)

end Winpty.Client
