import Verif.Bits
import Verif.Schema.ByteAligned
/-!
# Bit-packed generated parsers

The module `bit_packed` of /repo/src/versions/protocol87702/mod.rs:5056-18235 (and the own types
of /repo/src/versions/protocol75689/mod.rs) is generated code; every parser is an instance of one
of the templates below (checked by `tools/extract.py`, which aborts on anything else).  Newtype
wrappers (`struct X { value: T }`) are identified with their content.
-/
namespace S2

mutual
/-- Templates of bit-packed types. [the shapes of the parsers in /repo/src/versions/protocol87702/mod.rs:1-18235] -/
inductive BTy
  /-- `parse_packed_int(input, offset, num_bits)` -/
  | int (offset : Int) (numBits : Nat)
  | bool
  | null
  | fourcc
  /-- `parse_packed_int(0, n)`, `byte_align`, `take_bit_array(size * 8)` -/
  | blob (sizeBits : Nat)
  /-- `byte_align`, `take_bit_array(k * 8)` -/
  | aligned (k : Nat)
  /-- bit array kept as `i64` -/
  | bitsI64 (lenBits : Nat)
  /-- bit array kept as bytes -/
  | bitsVec (lenBits : Nat)
  /-- `take_n_bits_into_i64(n)` then that many `take_unaligned_byte` -/
  | byteArr (lenBits : Nat)
  /-- `n`-bit length then that many `T::parse` -/
  | arr (lenBits : Nat) (t : BTy)
  /-- `parse_bool(input)` then `T::parse(tail)` -/
  | opt (t : BTy)
  /-- `parse_bool(input)` then `T::parse(input)`: the value is read again from before the
  presence bit (/repo/src/versions/protocol87702/mod.rs:6205-6226 and 12476-12489) -/
  | optRewind (t : BTy)
  | struct (fs : BFields)
  /-- `parse_packed_int(0, n)` then `match variant_tag` -/
  | choice (tagBits : Nat) (alts : BAlts)
/-- Struct fields in wire order. [struct parsers of /repo/src/versions/protocol87702/mod.rs] -/
inductive BFields
  | nil
  | cons (name : String) (t : BTy) (rest : BFields)
/-- Variants: wire tag and payload. [choice and enum parsers of /repo/src/versions/protocol87702/mod.rs] -/
inductive BAlts
  | nil
  | cons (tag : Int) (t : BTy) (rest : BAlts)
end

mutual
/-- `T::parse(input)` for the bit-packed template `t`
(/repo/src/versions/protocol87702/mod.rs:5056-18235).  `size * 8` is computed in `Nat`: every
extracted size field has at most 32 bits, so the `usize` product cannot overflow. -/
def bparse (bld : Build) : BTy → Cur → Res (Cur × Val)
  | .int offset n, c => do
    let (tail, x) ← parsePackedInt bld c offset n
    pure (tail, .int x)
  | .bool, c => do
    let (tail, b) ← parseBool c
    pure (tail, .bool b)
  | .null, c => do
    let (tail, _) ← takeNull c
    pure (tail, .unit)
  | .fourcc, c => do
    let (tail, b) ← takeFourcc c
    pure (tail, .bytes b)
  | .blob n, c => do
    let (tail, size) ← parsePackedInt bld c 0 n
    let (tail, _) ← byteAlign tail
    let (tail, b) ← takeBitArray tail (asUsize size * 8)
    pure (tail, .bytes b)
  | .aligned k, c => do
    let (tail, _) ← byteAlign c
    let (tail, b) ← takeBitArray tail (k * 8)
    pure (tail, .bytes b)
  | .bitsI64 n, c => do
    let (tail, len) ← takeI64 c n
    let (tail, x) ← takeI64 tail (asUsize len)
    pure (tail, .int x)
  | .bitsVec n, c => do
    let (tail, len) ← takeI64 c n
    let (tail, b) ← takeBitArray tail (asUsize len)
    pure (tail, .bytes b)
  | .byteArr n, c => do
    let (tail, len) ← takeI64 c n
    let (tail, bs) ← repeatN takeUnalignedByte (asUsize len) tail
    pure (tail, .bytes bs)
  | .arr n t, c => do
    let (tail, len) ← takeI64 c n
    let (tail, vs) ← repeatN (fun c => bparse bld t c) (asUsize len) tail
    pure (tail, .list vs)
  | .opt t, c => do
    let (tail, p) ← parseBool c
    if p then
      let (tail, v) ← bparse bld t tail
      pure (tail, .some v)
    else pure (tail, .none)
  | .optRewind t, c => do
    let (tail, p) ← parseBool c
    if p then
      let (tail, v) ← bparse bld t c
      pure (tail, .some v)
    else pure (tail, .none)
  | .struct fs, c => do
    let (tail, vs) ← bfields bld fs c
    pure (tail, .struct vs)
  | .choice n alts, c => do
    let (tail, tag) ← parsePackedInt bld c 0 n
    let (tail, v) ← balt bld alts tag tail
    pure (tail, .choice tag v)
/-- Struct body: `if f.is_none() { let (new_tail, p) = Self::parse_f(tail)?; … }` for each field
in order (the guard is always true: each accumulator is still at its initial value). [e.g. /repo/src/versions/protocol87702/mod.rs:5210-5222] -/
def bfields (bld : Build) : BFields → Cur → Res (Cur × List Val)
  | .nil, c => .ok (c, [])
  | .cons _ t rest, c => do
    let (tail, v) ← bparse bld t c
    let (tail, vs) ← bfields bld rest tail
    pure (tail, v :: vs)
/-- `match variant_tag { … }`; `_ => UnknownTag`. [e.g. the choice parsers of /repo/src/versions/protocol87702/mod.rs] -/
def balt (bld : Build) : BAlts → Int → Cur → Res (Cur × Val)
  | .nil, tag, _ => .err (.unknownTag tag)
  | .cons t ty rest, tag, c => if tag = t then bparse bld ty c else balt bld rest tag c
end

mutual
/-- Does every wire form have at least one bit? [proof device, no counterpart in /repo] -/
def BTy.pos : BTy → Bool
  | .int _ n => decide (0 < n)
  | .bool => true
  | .null => false
  | .fourcc => true
  | .blob n => decide (0 < n)
  | .aligned k => decide (0 < k)
  | .bitsI64 n => decide (0 < n)
  | .bitsVec n => decide (0 < n)
  | .byteArr n => decide (0 < n)
  | .arr n _ => decide (0 < n)
  | .opt _ => true
  | .optRewind t => t.pos
  | .struct fs => fs.pos
  | .choice n _ => decide (0 < n)
/-- [proof device, no counterpart in /repo] -/
def BFields.pos : BFields → Bool
  | .nil => false
  | .cons _ t rest => t.pos || rest.pos
end

mutual
/-- Schema sanity used by the theorems: re-reading options only around types with at least one
bit, size fields of blobs at most 32 bits wide.  Decided for every extracted type. [proof device, no counterpart in /repo] -/
def BTy.wf : BTy → Bool
  | .blob n => decide (n ≤ 32)
  | .arr _ t => t.wf
  | .opt t => t.wf
  | .optRewind t => t.wf && t.pos
  | .struct fs => fs.wf
  | .choice _ alts => alts.wf
  | _ => true
/-- [proof device, no counterpart in /repo] -/
def BFields.wf : BFields → Bool
  | .nil => true
  | .cons _ t rest => t.wf && rest.wf
/-- [proof device, no counterpart in /repo] -/
def BAlts.wf : BAlts → Bool
  | .nil => true
  | .cons _ t rest => t.wf && rest.wf
end

mutual
/-- Does the type contain a field that re-reads its presence bit? [proof device, no counterpart in /repo] -/
def BTy.rewinds : BTy → Bool
  | .arr _ t => t.rewinds
  | .opt t => t.rewinds
  | .optRewind _ => true
  | .struct fs => fs.rewinds
  | .choice _ alts => alts.rewinds
  | _ => false
/-- [proof device, no counterpart in /repo] -/
def BFields.rewinds : BFields → Bool
  | .nil => false
  | .cons _ t rest => t.rewinds || rest.rewinds
/-- [proof device, no counterpart in /repo] -/
def BAlts.rewinds : BAlts → Bool
  | .nil => false
  | .cons _ t rest => t.rewinds || rest.rewinds
end

end S2
