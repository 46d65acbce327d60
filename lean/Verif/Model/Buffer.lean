/-!
# Model of `src/shared/Buffer.h` and `src/shared/Buffer.cc`

A buffer is the list of its bytes (`Nat`s below 256); integers are stored little-endian, as on every
Windows target.  `wchar_t` is a 16-bit unit, `size_t` is bounded by the parameter `sizeMax`.
-/
namespace Winpty.Buffer

/-- Platform parameters: `SIZE_MAX`, and which `std::wstring::resize` sizes can be allocated.
`resize` throws `std::bad_alloc`/`std::length_error` for the others.
Used at src/shared/Buffer.cc:89, 95. -/
structure Cfg where
  sizeMax : Nat
  canAlloc : Nat → Bool

/-- The `n` low bytes of `v`, least significant first (the object representation of an unsigned
integer of `n` bytes).
Stands for the bytes `putRawValue` copies, src/shared/Buffer.h:41-43. -/
def leBytes : Nat → Nat → List Nat
  | 0, _ => []
  | n + 1, v => v % 256 :: leBytes n (v / 256)

/-- The unsigned value of a little-endian object representation.
Stands for the value `getRawValue` copies out, src/shared/Buffer.h:80-84. -/
def leNat : List Nat → Nat
  | [] => 0
  | b :: bs => b + 256 * leNat bs

/-- Two's complement: the unsigned representation of a signed value of `bits` bits.
The conversion implicit at src/shared/Buffer.cc:51-59. -/
def toUnsigned (bits : Nat) (i : Int) : Nat := (i % (2 ^ bits : Int)).toNat

/-- Two's complement: the signed value of an unsigned representation of `bits` bits.
The conversion implicit at src/shared/Buffer.cc:76-84. -/
def toSigned (bits : Nat) (u : Nat) : Int :=
  if u < 2 ^ (bits - 1) then (u : Int) else (u : Int) - 2 ^ bits

/-- `enum class Piece : uint8_t`, src/shared/Buffer.cc:38. -/
def tagInt32 : Nat := 0
/-- `Piece::Int64`, src/shared/Buffer.cc:38. -/
def tagInt64 : Nat := 1
/-- `Piece::WString`, src/shared/Buffer.cc:38. -/
def tagWString : Nat := 2

/-- `WriteBuffer::putRawData`, src/shared/Buffer.cc:40-43; the argument is the object
representation. -/
def putRawData (buf : List Nat) (bytes : List Nat) : List Nat := buf ++ bytes

/-- `WriteBuffer::putInt32`, src/shared/Buffer.cc:51-54. -/
def putInt32 (buf : List Nat) (i : Int) : List Nat :=
  putRawData (putRawData buf [tagInt32]) (leBytes 4 (toUnsigned 32 i))

/-- `WriteBuffer::putInt64`, src/shared/Buffer.cc:56-59. -/
def putInt64 (buf : List Nat) (i : Int) : List Nat :=
  putRawData (putRawData buf [tagInt64]) (leBytes 8 (toUnsigned 64 i))

/-- The object representation of an array of 16-bit units.
Stands for the bytes copied at src/shared/Buffer.cc:65. -/
def unitBytes (s : List Nat) : List Nat := s.flatMap (leBytes 2)

/-- `WriteBuffer::putWString`, src/shared/Buffer.cc:62-66. -/
def putWString (buf : List Nat) (s : List Nat) : List Nat :=
  putRawData (putRawData (putRawData buf [tagWString]) (leBytes 8 s.length)) (unitBytes s)

/-- `WriteBuffer::replaceRawData`, src/shared/Buffer.cc:45-49; `none` is the failed `ASSERT`. -/
def replaceRawData (buf : List Nat) (pos : Nat) (bytes : List Nat) : Option (List Nat) :=
  if pos ≤ buf.length ∧ bytes.length ≤ buf.length - pos then
    some (buf.take pos ++ bytes ++ buf.drop (pos + bytes.length))
  else
    none

/-- `newPacket`, src/libwinpty/winpty.cc:317-321 and src/agent/Agent.cc:119-123 (same function): reserve
eight bytes for the packet size. -/
def newPacket : List Nat := putRawData [] (leBytes 8 0)

/-- The part of `writePacket` before the transfer, src/agent/Agent.cc:344-349 and
src/libwinpty/winpty.cc:323-327: store the total size in the first eight bytes. -/
def sealPacket (buf : List Nat) : Option (List Nat) :=
  replaceRawData buf 0 (leBytes 8 buf.length)

/-- Outcome of reading from a `ReadBuffer`: the value and the new offset, a thrown `DecodeError`, an
exception thrown by a memory allocation, or a failed `ASSERT`.
The exits of src/shared/Buffer.cc:30-36 and src/shared/Buffer.cc:68-103. -/
inductive Res (α : Type) where
  | ok (a : α) (off : Nat)
  | decodeError
  | allocError
  | assertFail
deriving DecidableEq, Repr

/-- Sequencing of reads (an exception ends the sequence).
As in src/shared/Buffer.cc:76-99. -/
def Res.bind {α β : Type} (r : Res α) (f : α → Nat → Res β) : Res β :=
  match r with
  | .ok a off => f a off
  | .decodeError => .decodeError
  | .allocError => .allocError
  | .assertFail => .assertFail

/-- `ReadBuffer::getRawData`, src/shared/Buffer.cc:68-74. -/
def getRawData (buf : List Nat) (off len : Nat) : Res (List Nat) :=
  if ¬ off ≤ buf.length then .assertFail
  else if ¬ len ≤ buf.length - off then .decodeError
  else .ok ((buf.drop off).take len) (off + len)

/-- `ReadBuffer::getInt32`, src/shared/Buffer.cc:76-79. -/
def getInt32 (buf : List Nat) (off : Nat) : Res Int :=
  (getRawData buf off 1).bind fun tag off =>
    if leNat tag = tagInt32 then
      (getRawData buf off 4).bind fun v off => .ok (toSigned 32 (leNat v)) off
    else .decodeError

/-- `ReadBuffer::getInt64`, src/shared/Buffer.cc:81-84. -/
def getInt64 (buf : List Nat) (off : Nat) : Res Int :=
  (getRawData buf off 1).bind fun tag off =>
    if leNat tag = tagInt64 then
      (getRawData buf off 8).bind fun v off => .ok (toSigned 64 (leNat v)) off
    else .decodeError

/-- Read an array of 16-bit units back from its object representation.
Stands for the units copied at src/shared/Buffer.cc:96. -/
def unitsOf : List Nat → List Nat
  | b0 :: b1 :: rest => (b0 + 256 * b1) :: unitsOf rest
  | _ => []

/-- `ReadBuffer::getWString`, src/shared/Buffer.cc:86-99; `leNat v` is
`charLen`. -/
def getWString (cfg : Cfg) (buf : List Nat) (off : Nat) : Res (List Nat) :=
  (getRawData buf off 1).bind fun tag off =>
    if leNat tag = tagWString then
      (getRawData buf off 8).bind fun v off =>
        if ¬ leNat v ≤ cfg.sizeMax / 2 then .decodeError
        else if leNat v > 0 then
          if cfg.canAlloc (leNat v) then
            (getRawData buf off (leNat v * 2)).bind fun bs off => .ok (unitsOf bs) off
          else .allocError
        else .ok [] off
    else .decodeError

/-- `ReadBuffer::getRawValue<uint64_t>`, src/shared/Buffer.h:80-84. -/
def getRawU64 (buf : List Nat) (off : Nat) : Res Nat :=
  (getRawData buf off 8).bind fun v off => .ok (leNat v) off

/-- `ReadBuffer::assertEof`, src/shared/Buffer.cc:101-103. -/
def assertEof (buf : List Nat) (off : Nat) : Res Unit :=
  if off = buf.length then .ok () off else .decodeError

/-! ## Whole messages -/

/-- One typed value of an RPC message.
One call of src/shared/Buffer.h:50-54. -/
inductive Field where
  | int32 (i : Int)
  | int64 (i : Int)
  | wstring (s : List Nat)
deriving DecidableEq, Repr

/-- The type of a field: which `put`/`get` is called.
src/shared/Buffer.cc:38. -/
inductive FieldTy where
  | int32 | int64 | wstring
deriving DecidableEq, Repr

/-- The type of a field value.
src/shared/Buffer.cc:38. -/
def Field.ty : Field → FieldTy
  | .int32 _ => .int32
  | .int64 _ => .int64
  | .wstring _ => .wstring

/-- Dispatch to the `put` of the field's type (src/shared/Buffer.h:50-54). -/
def putField (buf : List Nat) : Field → List Nat
  | .int32 i => putInt32 buf i
  | .int64 i => putInt64 buf i
  | .wstring s => putWString buf s

/-- A sequence of `put` calls, as in src/libwinpty/winpty.cc:862-871. -/
def putFields (buf : List Nat) (fs : List Field) : List Nat := fs.foldl putField buf

/-- Dispatch to the `get` of a type (src/shared/Buffer.h:87-89). -/
def getField (cfg : Cfg) (buf : List Nat) (off : Nat) : FieldTy → Res Field
  | .int32 => (getInt32 buf off).bind fun i off => .ok (.int32 i) off
  | .int64 => (getInt64 buf off).bind fun i off => .ok (.int64 i) off
  | .wstring => (getWString cfg buf off).bind fun s off => .ok (.wstring s) off

/-- A sequence of `get` calls, as in src/agent/Agent.cc:356-363. -/
def getFields (cfg : Cfg) (buf : List Nat) : Nat → List FieldTy → Res (List Field)
  | off, [] => .ok [] off
  | off, t :: ts =>
    (getField cfg buf off t).bind fun f off =>
      (getFields cfg buf off ts).bind fun fs off => .ok (f :: fs) off

end Winpty.Buffer
