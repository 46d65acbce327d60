import Verif.Lemmas.Buffer

/-!
# C01, C02: RPC messages

`Spec.wire` is the documented wire format, `ValidField` the values the C types can hold.  A packet
is eight bytes of total size followed by the fields.
-/
namespace Winpty.Props
open Winpty.Buffer Winpty.Spec

/-- The packet a side writes: reserve the size, put the fields, seal it.  (src/libwinpty/winpty.cc
and src/agent/Agent.cc build every packet in this way.) -/
def writtenPacket (fs : List Field) : Option (List Nat) := sealPacket (putFields newPacket fs)

/-- What the writer produces is the size followed by the wire format, and sealing never hits its
`ASSERT`. -/
theorem C01_writer (sizeMax : Nat) (fs : List Field) (hv : ∀ f ∈ fs, ValidField sizeMax f) :
    writtenPacket fs = some (digits256 8 (8 + (wire fs).length) ++ wire fs) := by
  unfold writtenPacket sealPacket replaceRawData newPacket putRawData
  rw [putFields_eq _ fs sizeMax hv]
  simp only [List.nil_append, List.length_append, leBytes_digits, digits256_length]
  rw [if_pos (by omega)]
  simp [digits256_length]

/-- Round trip: after skipping the size, reading fields of the same types returns exactly the values
written, and the reader is then at the end of the packet.  Holds for every sequence of field values,
for strings with any 16-bit units (NUL and lone surrogates included). -/
theorem C01_roundtrip (cfg : Cfg) (fs : List Field) (hv : ∀ f ∈ fs, ValidField cfg.sizeMax f)
    (ha : ∀ s, Field.wstring s ∈ fs → s ≠ [] → cfg.canAlloc s.length = true)
    (hsize : 8 + (wire fs).length < 2 ^ 64) :
    ∃ bytes, writtenPacket fs = some bytes ∧
      getRawU64 bytes 0 = .ok bytes.length 8 ∧
      getFields cfg bytes 8 (fs.map Field.ty) = .ok fs bytes.length ∧
      assertEof bytes bytes.length = .ok () bytes.length := by
  refine ⟨_, C01_writer cfg.sizeMax fs hv, ?_, ?_, ?_⟩
  · have := getRawData_append [] (digits256 8 (8 + (wire fs).length)) (wire fs)
    simp only [List.nil_append, List.length_nil, digits256_length, Nat.zero_add] at this
    simp only [getRawU64, this, Res.bind, List.length_append, digits256_length]
    rw [← leBytes_digits, leNat_leBytes, Nat.mod_eq_of_lt (by omega)]
  · have hat : At (digits256 8 (8 + (wire fs).length) ++ wire fs) 8 (wire fs) := by
      refine ⟨by simp [digits256_length], ?_⟩
      rw [List.drop_left' (digits256_length _ _), List.take_length]
    have := getFields_wire cfg _ 8 fs hv ha hat
    rw [this]; simp [digits256_length]
  · simp [assertEof]

/-- Exactness of the reader: on any byte string, a sequence of typed reads succeeds exactly when the
bytes at the offset are the wire form of valid values of those types, and then it returns those
values and stops right after them (never past the end). -/
theorem C02_reads_only_what_was_written (cfg : Cfg) (hal : ∀ n, cfg.canAlloc n = true)
    (buf : List Nat) (hb : ∀ b ∈ buf, b < 256) (off : Nat) (ho : off ≤ buf.length)
    (ts : List FieldTy) (fs : List Field) (off' : Nat) :
    getFields cfg buf off ts = .ok fs off' ↔
      fs.map Field.ty = ts ∧ (∀ f ∈ fs, ValidField cfg.sizeMax f) ∧
        off' = off + (wire fs).length ∧ off' ≤ buf.length ∧
        (buf.drop off).take (wire fs).length = wire fs := by
  constructor
  · intro h
    obtain ⟨a, b, c, d, e⟩ := getFields_ok cfg buf hb off ts fs off' ho h
    exact ⟨a, b, d, e, c.2⟩
  · rintro ⟨rfl, b, rfl, d, e⟩
    exact getFields_wire cfg buf off fs b (fun s _ _ => hal s.length) ⟨ho, e⟩

/-- Any other outcome is a `DecodeError` (or, only when the platform refuses an allocation, that
allocation failure): no typed read ever fails an assertion, i.e. leaves the packet. -/
theorem C02_rejects_otherwise_partial (cfg : Cfg) (buf : List Nat) (hb : ∀ b ∈ buf, b < 256) (off : Nat)
    (ho : off ≤ buf.length) (ts : List FieldTy) :
    (∃ fs off', getFields cfg buf off ts = .ok fs off' ∧ off' ≤ buf.length) ∨
      getFields cfg buf off ts = .decodeError ∨
      (getFields cfg buf off ts = .allocError ∧ ∃ n, cfg.canAlloc n = false) := by
  generalize hr : getFields cfg buf off ts = r
  cases r with
  | ok fs off' =>
    exact .inl ⟨fs, off', rfl, (getFields_ok cfg buf hb off ts fs off' ho hr).2.2.2.2⟩
  | decodeError => exact .inr (.inl rfl)
  | allocError =>
    refine .inr (.inr ⟨rfl, ?_⟩)
    apply Classical.byContradiction
    intro hno
    have hal : ∀ n, cfg.canAlloc n = true := by
      intro n
      cases h : cfg.canAlloc n with
      | true => rfl
      | false => exact absurd ⟨n, h⟩ hno
    exact getFields_noalloc cfg buf hal ts off hr
  | assertFail => exact absurd hr (getFields_noassert cfg buf hb off ts ho)

/-- A whole packet is accepted (fields read, then end-of-packet check) exactly when it is the wire
form of valid values of the expected types: left-over bytes are refused. -/
theorem C02_whole_packet (cfg : Cfg) (hal : ∀ n, cfg.canAlloc n = true)
    (buf : List Nat) (hb : ∀ b ∈ buf, b < 256) (off : Nat) (ho : off ≤ buf.length)
    (ts : List FieldTy) (fs : List Field) :
    (∃ off', getFields cfg buf off ts = .ok fs off' ∧ assertEof buf off' = .ok () off') ↔
      fs.map Field.ty = ts ∧ (∀ f ∈ fs, ValidField cfg.sizeMax f) ∧ buf.drop off = wire fs := by
  constructor
  · rintro ⟨off', h1, h2⟩
    obtain ⟨a, b, c, d, e⟩ := (C02_reads_only_what_was_written cfg hal buf hb off ho ts fs off').1 h1
    have : off' = buf.length := by
      unfold assertEof at h2; split at h2
      · assumption
      · cases h2
    refine ⟨a, b, ?_⟩
    rw [← e, List.take_of_length_le]
    rw [List.length_drop]; omega
  · rintro ⟨a, b, c⟩
    have hl : (wire fs).length = buf.length - off := by rw [← c, List.length_drop]
    refine ⟨off + (wire fs).length,
      (C02_reads_only_what_was_written cfg hal buf hb off ho ts fs _).2 ⟨a, b, rfl, by omega, ?_⟩, ?_⟩
    · rw [c, List.take_length]
    · unfold assertEof; rw [if_pos (by omega)]

/-- The claim "truncated input is a decode error" fails for a string whose announced length cannot
be allocated: the allocation is attempted before the length is compared with the packet
(src/shared/Buffer.cc:95-96). -/
theorem C02_huge_length_is_not_a_decode_error :
    ∃ (cfg : Cfg) (buf : List Nat), (∀ b ∈ buf, b < 256) ∧ buf.length = 9 ∧
      getField cfg buf 0 .wstring = .allocError := by
  refine ⟨⟨2 ^ 64 - 1, fun n => n < 2 ^ 30⟩, [2, 0, 0, 0, 0, 0, 1, 0, 0], by decide, rfl, by decide⟩

/-- Non-vacuity: a message with every kind of field, extreme values and odd strings. -/
example : let cfg : Cfg := ⟨2 ^ 64 - 1, fun _ => true⟩
    let fs := [Field.int32 (-2 ^ 31), .int64 (2 ^ 63 - 1), .wstring [0x41, 0, 0xD800], .wstring []]
    (∀ f ∈ fs, ValidField cfg.sizeMax f) ∧ 8 + (wire fs).length < 2 ^ 64 ∧
    (writtenPacket fs).map List.length = some 46 := by
  refine ⟨?_, by decide, by decide⟩
  intro f hf
  simp only [List.mem_cons, List.not_mem_nil, or_false] at hf
  rcases hf with rfl | rfl | rfl | rfl <;> simp [ValidField]

end Winpty.Props
