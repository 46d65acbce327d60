/-!
# Model of `src/agent/UnicodeEncoding.h`

Bytes and UTF-16 units are `Nat`s; a `char` holding a byte is represented by its unsigned value
(the C++ code only inspects it through `& mask`, except `return in[0]` which is reached only for
values below 0x80, so the signedness of `char` does not matter).
-/
namespace Winpty.Unicode

/-- Outcome of `decodeUtf8`: `oob` is a read past the bytes supplied (undefined behaviour in the
C++ code, whose caller must supply enough bytes), `invalid` is the `kInvalid` return value.
src/agent/UnicodeEncoding.h:98-151. -/
inductive Dec where
  | oob
  | invalid
  | ok (code : Nat)
deriving DecidableEq, Repr

/-- `encodeUtf8`, src/agent/UnicodeEncoding.h:28-56.  The bytes stored in `out`; the empty list is
the error return value 0. -/
def encodeUtf8 (code : Nat) : List Nat :=
  if code < 0x80 then
    [code]
  else if code < 0x800 then
    [((code >>> 6) &&& 0x1F) ||| 0xC0,
     ((code >>> 0) &&& 0x3F) ||| 0x80]
  else if code < 0x10000 then
    if code ≥ 0xD800 ∧ code ≤ 0xDFFF then
      []
    else
      [((code >>> 12) &&& 0x0F) ||| 0xE0,
       ((code >>> 6) &&& 0x3F) ||| 0x80,
       ((code >>> 0) &&& 0x3F) ||| 0x80]
  else if code < 0x110000 then
    [((code >>> 18) &&& 0x07) ||| 0xF0,
     ((code >>> 12) &&& 0x3F) ||| 0x80,
     ((code >>> 6) &&& 0x3F) ||| 0x80,
     ((code >>> 0) &&& 0x3F) ||| 0x80]
  else
    []

/-- `encodeUtf16`, src/agent/UnicodeEncoding.h:60-78.  The units stored in `out`; the empty list is
the error return value 0. -/
def encodeUtf16 (code : Nat) : List Nat :=
  if code < 0x10000 then
    if code ≥ 0xD800 ∧ code ≤ 0xDFFF then
      []
    else
      [code]
  else if code < 0x110000 then
    let code := code - 0x10000
    [0xD800 ||| (code >>> 10), 0xDC00 ||| (code &&& 0x3FF)]
  else
    []

/-- `utf8CharLength`, src/agent/UnicodeEncoding.h:82-96. -/
def utf8CharLength (firstByte : Nat) : Nat :=
  if firstByte &&& 0x80 = 0 then 1
  else if firstByte &&& 0xE0 = 0xC0 then 2
  else if firstByte &&& 0xF0 = 0xE0 then 3
  else if firstByte &&& 0xF8 = 0xF0 then 4
  else 0

/-- `decodeUtf8`, src/agent/UnicodeEncoding.h:100-151.  The C++ `||` chains read the bytes left to
right and stop at the first bad one; here a missing byte is reported as `oob` even if an earlier
byte was already bad, which only enlarges the set of inputs called undefined. -/
def decodeUtf8 : List Nat → Dec
  | [] => .oob
  | b0 :: rest =>
    match utf8CharLength b0 with
    | 1 => .ok b0
    | 2 =>
      match rest with
      | b1 :: _ =>
        if b1 &&& 0xC0 ≠ 0x80 then .invalid
        else
          let tmp := ((b0 &&& 0x1F) <<< 6) ||| (b1 &&& 0x3F)
          if tmp ≤ 0x7F then .invalid else .ok tmp
      | _ => .oob
    | 3 =>
      match rest with
      | b1 :: b2 :: _ =>
        if b1 &&& 0xC0 ≠ 0x80 ∨ b2 &&& 0xC0 ≠ 0x80 then .invalid
        else
          let tmp := ((b0 &&& 0x0F) <<< 12) ||| ((b1 &&& 0x3F) <<< 6) ||| (b2 &&& 0x3F)
          if tmp ≤ 0x07FF ∨ (tmp ≥ 0xD800 ∧ tmp ≤ 0xDFFF) then .invalid else .ok tmp
      | _ => .oob
    | 4 =>
      match rest with
      | b1 :: b2 :: b3 :: _ =>
        if b1 &&& 0xC0 ≠ 0x80 ∨ b2 &&& 0xC0 ≠ 0x80 ∨ b3 &&& 0xC0 ≠ 0x80 then .invalid
        else
          let tmp := ((b0 &&& 0x07) <<< 18) ||| ((b1 &&& 0x3F) <<< 12) |||
                     ((b2 &&& 0x3F) <<< 6) ||| (b3 &&& 0x3F)
          if tmp ≤ 0xFFFF ∨ tmp > 0x10FFFF then .invalid else .ok tmp
      | _ => .oob
    | _ => .invalid

/-- `decodeSurrogatePair`, src/agent/UnicodeEncoding.h:153-155.  C++ computes in `int` and converts
to `uint32_t`; for units outside the surrogate ranges the subtraction would be negative, so the
model works in `Int` (the final conversion to `uint32_t` is `mod 2^32`). -/
def decodeSurrogatePair (ch1 ch2 : Nat) : Nat :=
  ((((ch1 : Int) - 0xD800) * 1024 + ((ch2 : Int) - 0xDC00) + 0x10000) % (2 ^ 32 : Int)).toNat

end Winpty.Unicode
