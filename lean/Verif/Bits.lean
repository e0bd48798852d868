import Verif.Basic
/-!
# Bit-packed primitives (/repo/src/bit_packed_decoder.rs)
-/
namespace S2

/-- A nom bit cursor `(&[u8], usize)`: the remaining slice and the bit offset inside its
first byte. [/repo/src/bit_packed_decoder.rs:16-139] -/
structure Cur where
  bytes : List UInt8
  off : Nat
  deriving DecidableEq, Repr

/-- The byte loop of `nom::bits::complete::take` (nom 8.0, external crate, modelled from
its documented source): `val` is `(byte << offset) >> offset` on `u8`.  The accumulator is
a `Nat`; every call in this crate asks for at most 8 bits, for which the result is below
`2^count` (`nomTake_lt`), so the crate's `u8` accumulator does not overflow. [called at /repo/src/bit_packed_decoder.rs:16-33] -/
def nomTakeLoop : List UInt8 → Nat → Nat → Nat → Nat → Nat × Nat
  | [], _, _, acc, endOff => (acc, endOff)
  | b :: bs, offset, remaining, acc, endOff =>
    if remaining = 0 then (acc, endOff)
    else
      let val := (b.toNat * 2 ^ offset % 256) / 2 ^ offset
      if remaining < 8 - offset then
        (acc + val / 2 ^ (8 - offset - remaining), remaining + offset)
      else
        nomTakeLoop bs 0 (remaining - (8 - offset))
          (acc + val * 2 ^ (remaining - (8 - offset))) endOff

/-- `nom::bits::complete::take(count)` (external crate nom 8.0). [called at /repo/src/bit_packed_decoder.rs:16-33] -/
def nomTake (count : Nat) (c : Cur) : Res (Cur × Nat) :=
  if count = 0 then .ok (c, 0)
  else
    let cnt := (count + c.off) / 8
    if c.bytes.length * 8 < count + c.off then .err .eof
    else
      let r := nomTakeLoop (c.bytes.take (cnt + 1)) c.off count 0 0
      .ok (⟨c.bytes.drop cnt, r.2⟩, r.1)

/-- `rtake_n_bits` (/repo/src/bit_packed_decoder.rs:16-35).  Only the returned bits are
modelled: every caller discards the returned cursor.  `<<` on `u8` drops high bits. -/
def rtake (c : Cur) (count : Nat) : Res Nat := do
  if c.off + count > 8 then
    let (_, res0) ← nomTake (8 - c.off) ⟨c.bytes, 0⟩
    let (tail, _) ← nomTake 8 ⟨c.bytes, 0⟩
    let leftOver := count - (8 - c.off)
    let (_, res1) ← nomTake leftOver ⟨tail.bytes, 8 - leftOver⟩
    pure ((res0 * 2 ^ leftOver) % 256 + res1)
  else
    let (_, res) ← nomTake count ⟨c.bytes, 8 - c.off - count⟩
    pure res

/-- The `loop` of `take_n_bits_into_i64` (/repo/src/bit_packed_decoder.rs:51-69).  `res` is
the 64-bit pattern of the `i64` accumulator.  Rust's `loop` becomes recursion on `fuel`;
running out of fuel is unreachable (`takeI64_eq`), and is `panic` here. -/
def takeI64Loop : Nat → Cur → Nat → Nat → Res (Cur × Nat)
  | 0, _, _, _ => .panic
  | fuel + 1, tail, remaining, res => do
    let count :=
      if remaining > 8 then (if tail.off ≠ 0 then 8 - tail.off else 8) else remaining
    let bits ← rtake tail count
    let (newTail, _) ← nomTake count tail
    let res' := res ||| (bits <<< (remaining - count))
    if remaining - count = 0 then pure (newTail, res')
    else takeI64Loop fuel newTail (remaining - count) res'

/-- `take_n_bits_into_i64` (/repo/src/bit_packed_decoder.rs:41-71). -/
def takeI64 (c : Cur) (totalBits : Nat) : Res (Cur × Int) := do
  if totalBits > 64 then .err (.more64 totalBits)
  else
    let (tail, r) ← takeI64Loop (totalBits + 1) c totalBits 0
    pure (tail, toI64 r)

/-- The `loop` of `take_bit_array` (/repo/src/bit_packed_decoder.rs:76-102). -/
def takeBitArrayLoop : Nat → Cur → Nat → List UInt8 → Res (Cur × List UInt8)
  | 0, _, _, _ => .panic
  | fuel + 1, tail, remaining, res => do
    let count := if remaining > 8 then 8 else remaining
    let bits ← rtake tail count
    let (newTail, _) ← nomTake count tail
    let res' := res ++ [UInt8.ofNat bits]
    if remaining - count = 0 then pure (newTail, res')
    else takeBitArrayLoop fuel newTail (remaining - count) res'

/-- `take_bit_array` (/repo/src/bit_packed_decoder.rs:76-102). -/
def takeBitArray (c : Cur) (totalBits : Nat) : Res (Cur × List UInt8) :=
  takeBitArrayLoop (totalBits + 1) c totalBits []

/-- `byte_align` (/repo/src/bit_packed_decoder.rs:106-116). -/
def byteAlign (c : Cur) : Res (Cur × Unit) := do
  if c.off ≠ 0 then
    let (tail, _) ← nomTake (8 - c.off) c
    pure (tail, ())
  else pure (c, ())

/-- `take_unaligned_byte` (/repo/src/bit_packed_decoder.rs:120-124); `res[0]` panics on an
empty vector. -/
def takeUnalignedByte (c : Cur) : Res (Cur × UInt8) := do
  let (tail, res) ← takeBitArray c 8
  match res with
  | b :: _ => pure (tail, b)
  | [] => .panic

/-- `take_fourcc` (/repo/src/bit_packed_decoder.rs:128-132). -/
def takeFourcc (c : Cur) : Res (Cur × List UInt8) := takeBitArray c (4 * 8)

/-- `take_null` (/repo/src/bit_packed_decoder.rs:136-139). -/
def takeNull (c : Cur) : Res (Cur × Unit) := pure (c, ())

/-- `i64` addition: panics on overflow in debug, wraps in release. [/repo/src/bit_packed_decoder.rs:144-153] -/
def addI64 (bld : Build) (a b : Int) : Res Int :=
  if inI64 (a + b) then .ok (a + b)
  else match bld with
    | .debug => .panic
    | .release => .ok (wrapI64 (a + b))

/-- `parse_packed_int` (/repo/src/bit_packed_decoder.rs:144-153). -/
def parsePackedInt (bld : Build) (c : Cur) (offset : Int) (numBits : Nat) :
    Res (Cur × Int) := do
  let (tail, num) ← takeI64 c numBits
  let res ← addI64 bld offset num
  pure (tail, res)

/-- `parse_bool` (/repo/src/bit_packed_decoder.rs:157-162). -/
def parseBool (c : Cur) : Res (Cur × Bool) := do
  let val ← rtake c 1
  let (tail, _) ← nomTake 1 c
  pure (tail, val != 0)

end S2
