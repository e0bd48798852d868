import Verif.Schema.BitPacked
/-!
# Bit widths chosen by the protocol generator

`s2protocol generate` turns a protocol description (JSON) into Rust parsers; the only arithmetic in
it is the number of bits a bit-packed parser reads.  The rest of the generator concatenates text.

Simplification: the code computes `(x.log2() + 1.).floor() as usize` in `f64` (integers) or `f32`
(arrays, strings, tags).  The model uses the exact integer logarithm, which is what the code computes
while `x` is below `2^40` (`f64`) or `2^16` (`f32`): in these ranges `log2 (2^k - 1)` is farther from
`k` than the rounding error.  Non-positive `x` have `log2` `-inf` or NaN, which the cast turns to 0.
-/
namespace S2.Generator
open S2

/-- `bounds` of the description: `min.evalue`, `min.inclusive`, `max.evalue`, `max.inclusive`, and
`max.value.rhs.value` if `max.value` is a `PowExpr`
(/repo/src/generator/decoder_type.rs:1209-1251). -/
structure Bounds where
  min : Int
  minIncl : Bool
  max : Int
  maxIncl : Bool
  pow : Option Nat
deriving DecidableEq, Repr

/-- `(x.log2() + 1.).floor() as usize` (/repo/src/generator/decoder_type.rs:1228). -/
def log2p1 (x : Int) : Nat := if x ≤ 0 then 0 else x.toNat.log2 + 1

/-- `bounds_max_value_to_bit_size` (/repo/src/generator/decoder_type.rs:1209-1229). -/
def maxBits (b : Bounds) : Nat :=
  let res := b.max
  let res := if b.minIncl then res else res - 1
  let res := if b.maxIncl then res else res - 1
  log2p1 res

/-- `num_bits` of `open_bit_packed_int_main_parse_fn` (/repo/src/generator/decoder_type.rs:1232-1256). -/
def intBits (b : Bounds) : Nat :=
  let n := match b.pow with
    | some k => k
    | none => maxBits b
  if b.min < 0 then n + 1 else n

/-- Parser generated for an `IntType` (/repo/src/generator/decoder_type.rs:1257-1266). -/
def intType (b : Bounds) : BTy := .int b.min (intBits b)

/-- `array_length_num_bits` (/repo/src/generator/decoder_type.rs:1511-1519). -/
def arrayBits (b : Bounds) : Nat := log2p1 (if b.maxIncl then b.max + 1 else b.max)

/-- Parser generated for an `ArrayType` (/repo/src/generator/decoder_type.rs:1505-1530). -/
def arrayType (b : Bounds) (elem : BTy) : BTy := .arr (arrayBits b) elem

/-- Parser generated for a `StringType` (/repo/src/generator/decoder_type.rs:1442-1474). -/
def stringType (b : Bounds) : BTy := .blob (arrayBits b + 2)

/-- Parser generated for a `BitArrayType` (/repo/src/generator/decoder_type.rs:1357-1375). -/
def bitArrayType (b : Bounds) : BTy := .bitsVec (maxBits b)

/-- Parser generated for a `BlobType`: `byte_align`, then `take_bit_array(tail, num_bits)` with the
number of *bits of the size* (/repo/src/generator/decoder_type.rs:1403-1421). -/
def blobParse (b : Bounds) (c : Cur) : Res (Cur × List UInt8) := do
  let (tail, _) ← byteAlign c
  takeBitArray tail (maxBits b)

/-- `(num_fields as f32).log2().ceil() as usize`
(/repo/src/generator/decoder_type.rs:341 and 1599). -/
def tagBits (n : Nat) : Nat := if n ≤ 1 then 0 else (n - 1).log2 + 1

/-- Number of `fields` of the description of a choice or enum
(/repo/src/generator/proto_morphist.rs:432-457). -/
def altCount : BAlts → Nat
  | .nil => 0
  | .cons _ _ rest => altCount rest + 1

/-- Parser generated for a `ChoiceType` or `EnumType` with these variants
(/repo/src/generator/decoder_type.rs:336-357, 1594-1609). -/
def choiceType (alts : BAlts) : BTy := .choice (tagBits (altCount alts)) alts

end S2.Generator
