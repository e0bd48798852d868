import Verif.Basic
/-!
# Variable-length integers and tagged primitives
(/repo/src/lib.rs:150-169, /repo/src/versioned_decoder.rs)
-/
namespace S2

/-- `x << s` on `i64` (result as 64-bit pattern).  Rust checks only the shift amount:
`s ≥ 64` panics in debug builds, is masked to `s & 63` in release builds. [/repo/src/lib.rs:152-168] -/
def shlI64 (bld : Build) (x s : Nat) : Res Nat :=
  if s < 64 then .ok ((x <<< s) % 2 ^ 64)
  else match bld with
    | .debug => .panic
    | .release => .ok ((x <<< (s % 64)) % 2 ^ 64)

/-- Unary minus on `i64`: `-i64::MIN` panics in debug, wraps in release. [/repo/src/lib.rs:152-168] -/
def negI64 (bld : Build) (x : Int) : Res Int :=
  if x = i64Min then
    match bld with
    | .debug => .panic
    | .release => .ok i64Min
  else .ok (-x)

/-- The `while` loop of `parse_vlq_int` (/repo/src/lib.rs:157-163).  `result` is the 64-bit
pattern of the `i64` accumulator. -/
def vlqLoop (bld : Build) : List UInt8 → UInt8 → Nat → Nat → Res (List UInt8 × Nat)
  | tail, v, result, bits =>
    if v.toNat &&& 0x80 = 0 then .ok (tail, result)
    else match tail with
      | [] => .err .eof
      | nv :: newTail => do
        let sh ← shlI64 bld (nv.toNat &&& 0x7f) bits
        vlqLoop bld newTail nv (result ||| sh) (bits + 7)

/-- `parse_vlq_int` (/repo/src/lib.rs:152-168). -/
def parseVlq (bld : Build) (input : List UInt8) : Res (List UInt8 × Int) :=
  match input with
  | [] => .err .eof
  | b :: tail => do
    let isNegative := b.toNat &&& 1 != 0
    let (tail, result) ← vlqLoop bld tail b ((b.toNat >>> 1) &&& 0x3f) 6
    if isNegative then
      let r ← negI64 bld (toI64 result)
      pure (tail, r)
    else pure (tail, toI64 result)

/-- `nom::bytes::complete::tag` for a one-byte tag. [/repo/src/versioned_decoder.rs:30-81] -/
def tagByte (t : UInt8) (input : List UInt8) : Res (List UInt8 × Unit) :=
  match input with
  | b :: bs => if b = t then .ok (bs, ()) else .err .tag
  | [] => .err .tag

/-- `nom::bytes::complete::take`. [/repo/src/versioned_decoder.rs:84-101] -/
def takeBytes (n : Nat) (input : List UInt8) : Res (List UInt8 × List UInt8) :=
  if input.length < n then .err .eof else .ok (input.drop n, input.take n)

/-- `nom::number::complete::u8`. [/repo/src/lib.rs:152-168] -/
def takeU8 (input : List UInt8) : Res (List UInt8 × UInt8) :=
  match input with
  | b :: bs => .ok (bs, b)
  | [] => .err .eof

/-- Tag constants (/repo/src/versioned_decoder.rs:10-26). -/
def ARRAY_TAG : UInt8 := 0
/-- [/repo/src/versioned_decoder.rs:12] -/
def BIT_ARRAY_TAG : UInt8 := 1
/-- [/repo/src/versioned_decoder.rs:14] -/
def BLOB_TAG : UInt8 := 2
/-- [/repo/src/versioned_decoder.rs:16] -/
def CHOICE_TAG : UInt8 := 3
/-- [/repo/src/versioned_decoder.rs:18] -/
def OPT_TAG : UInt8 := 4
/-- [/repo/src/versioned_decoder.rs:20] -/
def STRUCT_TAG : UInt8 := 5
/-- [/repo/src/versioned_decoder.rs:22] -/
def BOOL_TAG : UInt8 := 6
/-- [/repo/src/versioned_decoder.rs:24] -/
def FOURCC_TAG : UInt8 := 7
/-- [/repo/src/versioned_decoder.rs:26] -/
def INT_TAG : UInt8 := 9

/-- `tagged_bitarray` (/repo/src/versioned_decoder.rs:84-91). -/
def taggedBitarray (bld : Build) (input : List UInt8) : Res (List UInt8 × List UInt8) := do
  let (tail, _) ← tagByte BIT_ARRAY_TAG input
  let (tail, len) ← parseVlq bld tail
  takeBytes ((asUsize len + 7) / 8) tail

/-- `tagged_blob` (/repo/src/versioned_decoder.rs:95-101). -/
def taggedBlob (bld : Build) (input : List UInt8) : Res (List UInt8 × List UInt8) := do
  let (tail, _) ← tagByte BLOB_TAG input
  let (tail, len) ← parseVlq bld tail
  takeBytes (asUsize len) tail

/-- `tagged_vlq_int` (/repo/src/versioned_decoder.rs:105-108). -/
def taggedVlq (bld : Build) (input : List UInt8) : Res (List UInt8 × Int) := do
  let (tail, _) ← tagByte INT_TAG input
  parseVlq bld tail

/-- `tagged_bool` (/repo/src/versioned_decoder.rs:112-116). -/
def taggedBool (input : List UInt8) : Res (List UInt8 × Bool) := do
  let (tail, _) ← tagByte BOOL_TAG input
  let (tail, v) ← takeU8 tail
  pure (tail, v != 0)

/-- Big-endian number of a byte list. [/repo/src/versioned_decoder.rs:120-125] -/
def beNat (bs : List UInt8) : Nat := bs.foldl (fun a b => a * 256 + b.toNat) 0

/-- `tagged_fourcc` (/repo/src/versioned_decoder.rs:120-125): `u32` big endian. -/
def taggedFourcc (input : List UInt8) : Res (List UInt8 × Nat) := do
  let (tail, _) ← tagByte FOURCC_TAG input
  let (tail, bs) ← takeBytes 4 tail
  pure (tail, beNat bs)

end S2
