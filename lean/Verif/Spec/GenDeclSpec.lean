import Verif.Misc.GenDecls
import Verif.Spec.GeneratorSpec
/-!
# What a declaration of the protocol description means

The values of a declared type and their wire form, written from the description alone (the rules of Blizzard's
reference decoder): an integer between bounds is its distance from the lower bound in the fewest bits that hold the
range; a length likewise; a string is length, padding to the next byte, bytes (up to four for each character); an optional value is
a bit and then, if the bit is set, the value; a struct is its members in order, constants taking no room; a choice is its tag in the
fewest bits for the number of variants, and the payload.  Nothing here refers to the generator.
-/
namespace S2.Generator
open S2

/-- The least integer a constraint admits. -/
def Bounds.lo (b : Bounds) : Int := if b.minIncl then b.min else b.min + 1

/-- The greatest integer a constraint admits. -/
def Bounds.hi (b : Bounds) : Int := if b.maxIncl then b.max else b.max - 1

/-- The fewest bits that can hold `0 … n`. -/
def width : Nat → Nat
  | 0 => 0
  | n + 1 => (n + 1).log2 + 1

/-- An integer between the bounds. -/
def wireInt (b : Bounds) (off : Nat) (x : Int) : List Bool := encBits off (width (b.hi - b.lo).toNat) (x - b.lo).toNat

/-- Bytes with their length, from the next byte boundary on. -/
def wireBytes (lo hi : Int) (off : Nat) (bs : List UInt8) : List Bool :=
  encBits off (width (hi - lo).toNat) (bs.length - lo).toNat ++
    (List.replicate (padLen ((off + width (hi - lo).toNat) % 8)) false ++ bytesBits bs)

mutual
/-- The values of a type.  `e`: are empty strings and empty bit arrays counted? -/
def Desc.Has (e : Bool) : Desc → Val → Prop
  | .ref d, v => d.Has e v
  | .bool, v => ∃ b, v = .bool b
  | .null, v => v = .unit
  | .fourcc, v => ∃ bs, v = .bytes bs ∧ bs.length = 4
  | .int b, v => ∃ x, v = .int x ∧ b.lo ≤ x ∧ x ≤ b.hi
  | .blob b, v => ∃ bs, v = .bytes bs ∧ (e = true ∨ bs ≠ []) ∧ b.lo ≤ bs.length ∧ bs.length ≤ b.hi
  | .ascii b, v => ∃ bs, v = .bytes bs ∧ (e = true ∨ bs ≠ []) ∧ b.lo ≤ bs.length ∧ bs.length ≤ b.hi
  | .string b, v => ∃ bs, v = .bytes bs ∧ (e = true ∨ bs ≠ []) ∧ bs.length ≤ 4 * b.hi
  | .bitArray b, v => ∃ bs, v = .bytes bs ∧ (e = true ∨ bs ≠ []) ∧ b.lo ≤ 8 * bs.length ∧ 8 * bs.length ≤ b.hi
  | .array b t, v => ∃ vs, v = .list vs ∧ b.lo ≤ vs.length ∧ vs.length ≤ b.hi ∧ ∀ w ∈ vs, t.Has e w
  | .dynArray b t, v => ∃ vs, v = .list vs ∧ b.lo ≤ vs.length ∧ vs.length ≤ b.hi ∧ ∀ w ∈ vs, t.Has e w
  | .optional t, v => v = .none ∨ ∃ w, v = .some w ∧ t.Has e w
  | .choice vs, v => ∃ tag w, v = .choice tag w ∧ vs.Has e tag w
  | .other, _ => False
def Decl.Has (e : Bool) : Decl → Val → Prop
  | .struct fs, v => ∃ vs, v = .struct vs ∧ fs.Has e vs
  | .choice vs, v => ∃ tag w, v = .choice tag w ∧ vs.Has e tag w
  | .enum vs, v => ∃ tag w, v = .choice tag w ∧ vs.Has e tag w
  | .int b, v => ∃ x, v = .int x ∧ b.lo ≤ x ∧ x ≤ b.hi
  | .bitArray b, v => ∃ bs, v = .bytes bs ∧ (e = true ∨ bs ≠ []) ∧ b.lo ≤ 8 * bs.length ∧ 8 * bs.length ≤ b.hi
  | .user d, v => d.Has e v
  | .blob b, v => ∃ bs, v = .bytes bs ∧ (e = true ∨ bs ≠ []) ∧ b.lo ≤ bs.length ∧ bs.length ≤ b.hi
  | .string b, v => ∃ bs, v = .bytes bs ∧ (e = true ∨ bs ≠ []) ∧ bs.length ≤ 4 * b.hi
  | .array b t, v => ∃ vs, v = .list vs ∧ b.lo ≤ vs.length ∧ vs.length ≤ b.hi ∧ ∀ w ∈ vs, t.Has e w
def Members.Has (e : Bool) : Members → List Val → Prop
  | .nil, vs => vs = []
  | .const rest, vs => rest.Has e vs
  | .member _ t rest, vs => ∃ v vs', vs = v :: vs' ∧ t.Has e v ∧ rest.Has e vs'
def Variants.Has (e : Bool) : Variants → Int → Val → Prop
  | .nil, _, _ => False
  | .cons t ty rest, tag, v => if tag = t then ty.Has e v else rest.Has e tag v
def Values.Has (e : Bool) : Values → Int → Val → Prop
  | .nil, _, _ => False
  | .plain t rest, tag, v => if tag = t then v = .unit else rest.Has e tag v
  | .event t d rest, tag, v => if tag = t then d.Has e v else rest.Has e tag v
end

/-- The tags of the variants, in the order of the description. -/
def Variants.tags : Variants → List Int
  | .nil => []
  | .cons t _ rest => t :: rest.tags

/-- The values of an enumeration, in the order of the description. -/
def Values.tags : Values → List Int
  | .nil => []
  | .plain t rest => t :: rest.tags
  | .event t _ rest => t :: rest.tags

mutual
/-- The wire form of a value that starts at bit `off` of a byte. -/
def Desc.wire : Desc → Nat → Val → List Bool
  | .ref d, off, v => d.wire off v
  | .bool, _, .bool b => [b]
  | .fourcc, off, .bytes bs => unalignedBits off bs
  | .int b, off, .int x => wireInt b off x
  | .blob b, off, .bytes bs => wireBytes b.lo b.hi off bs
  | .ascii b, off, .bytes bs => wireBytes b.lo b.hi off bs
  | .string b, off, .bytes bs => wireBytes 0 (4 * b.hi) off bs
  | .bitArray b, off, .bytes bs =>
    wireInt b off (8 * bs.length) ++ unalignedBits ((off + width (b.hi - b.lo).toNat) % 8) bs
  | .array b t, off, .list vs =>
    wireInt b off vs.length ++ encSeq (fun o v => t.wire o v) ((off + width (b.hi - b.lo).toNat) % 8) vs
  | .dynArray b t, off, .list vs =>
    wireInt b off vs.length ++ encSeq (fun o v => t.wire o v) ((off + width (b.hi - b.lo).toNat) % 8) vs
  | .optional t, off, .some w => true :: t.wire ((off + 1) % 8) w
  | .optional _, _, .none => [false]
  | .choice vs, off, .choice tag w =>
    encBits off (width (vs.tags.length - 1)) tag.toNat ++ vs.wire tag ((off + width (vs.tags.length - 1)) % 8) w
  | _, _, _ => []
def Decl.wire : Decl → Nat → Val → List Bool
  | .struct fs, off, .struct vs => fs.wire off vs
  | .choice vs, off, .choice tag w =>
    encBits off (width (vs.tags.length - 1)) tag.toNat ++ vs.wire tag ((off + width (vs.tags.length - 1)) % 8) w
  | .enum vs, off, .choice tag w =>
    encBits off (width (vs.tags.length - 1)) tag.toNat ++ vs.wire tag ((off + width (vs.tags.length - 1)) % 8) w
  | .int b, off, .int x => wireInt b off x
  | .bitArray b, off, .bytes bs =>
    wireInt b off (8 * bs.length) ++ unalignedBits ((off + width (b.hi - b.lo).toNat) % 8) bs
  | .user d, off, v => d.wire off v
  | .blob b, off, .bytes bs => wireBytes b.lo b.hi off bs
  | .string b, off, .bytes bs => wireBytes 0 (4 * b.hi) off bs
  | .array b t, off, .list vs =>
    wireInt b off vs.length ++ encSeq (fun o v => t.wire o v) ((off + width (b.hi - b.lo).toNat) % 8) vs
  | _, _, _ => []
def Members.wire : Members → Nat → List Val → List Bool
  | .const rest, off, vs => rest.wire off vs
  | .member _ t rest, off, v :: vs => t.wire off v ++ rest.wire ((off + (t.wire off v).length) % 8) vs
  | _, _, _ => []
def Variants.wire : Variants → Int → Nat → Val → List Bool
  | .nil, _, _, _ => []
  | .cons t ty rest, tag, off, v => if tag = t then ty.wire off v else rest.wire tag off v
def Values.wire : Values → Int → Nat → Val → List Bool
  | .nil, _, _, _ => []
  | .plain t rest, tag, off, v => if tag = t then [] else rest.wire tag off v
  | .event t d rest, tag, off, v => if tag = t then d.wire off v else rest.wire tag off v
end

/-! ## The descriptions for which the generator is right -/

/-- Bounds of a declared integer: from 0, written as a number or as an exclusive power of two; or a signed
number of `k + 1` bits. -/
def Bounds.goodInt (b : Bounds) : Prop :=
  b.minIncl = true ∧
  ((b.min = 0 ∧ 0 ≤ b.hi ∧ ((b.pow = none ∧ b.max < 2 ^ 40) ∨ ∃ k, k ≤ 62 ∧ b.pow = some k ∧ b.max = 2 ^ k ∧ b.maxIncl = false)) ∨
   ∃ k, k ≤ 39 ∧ b.min = -2 ^ k ∧ ((b.pow = none ∧ b.hi = 2 ^ k - 1) ∨ (b.pow = some k ∧ b.max = 2 ^ k ∧ b.maxIncl = false)))

/-- Bounds from 0 to a number below `2^16`. -/
def Bounds.fromZero (b : Bounds) : Prop := b.min = 0 ∧ b.minIncl = true ∧ 0 ≤ b.hi ∧ b.hi < 2 ^ 16

/-- The number of admitted values is not a power of two. -/
def Bounds.notPow (b : Bounds) : Prop := ∀ k : Nat, b.hi + 1 ≠ 2 ^ k

/-- All tags are within the bits for the number of variants. -/
def Variants.tagsBelow (n : Nat) : Variants → Prop
  | .nil => True
  | .cons t _ rest => 0 ≤ t ∧ t < n ∧ rest.tagsBelow n

def Values.tagsBelow (n : Nat) : Values → Prop
  | .nil => True
  | .plain t rest => 0 ≤ t ∧ t < n ∧ rest.tagsBelow n
  | .event t _ rest => 0 ≤ t ∧ t < n ∧ rest.tagsBelow n

mutual
/-- Members: references, the fixed-size types, unsigned integers, arrays of references with an inclusive bound
(or with a number of admitted lengths that is not a power of two), optional references, bools and fourccs, and the choice
`m_eventData`. -/
def Desc.Good (name : String) : Desc → Prop
  | .ref d => d.Good
  | .bool => True
  | .null => True
  | .fourcc => True
  | .int b => b.min = 0 ∧ b.minIncl = true ∧ 0 ≤ b.hi ∧ b.max < 2 ^ 40
  | .array b (.ref d) => b.fromZero ∧ (b.maxIncl = true ∨ b.notPow) ∧ d.Good
  | .dynArray b (.ref d) => b.fromZero ∧ (b.maxIncl = true ∨ b.notPow) ∧ d.Good
  | .optional (.ref d) => d.Good
  | .optional .bool => True
  | .optional .fourcc => True
  | .choice vs => name = "m_eventData" ∧ vs.Good ∧ vs.tagsBelow vs.tags.length ∧ vs.tags.length ≤ 2 ^ 16
  | _ => False
/-- Payloads of a choice. -/
def Desc.GoodPayload : Desc → Prop
  | .ref d => d.Good
  | .bool => True
  | .null => True
  | .fourcc => True
  | .optional (.ref d) => d.Good
  | _ => False
def Decl.Good : Decl → Prop
  | .struct fs => fs.Good
  | .choice vs => vs.Good ∧ vs.tagsBelow vs.tags.length ∧ vs.tags.length ≤ 2 ^ 16
  | .enum vs => vs.Good ∧ vs.tagsBelow vs.tags.length ∧ vs.tags.length ≤ 2 ^ 16
  | .int b => b.goodInt
  | .bitArray b => b.fromZero
  | .user d => d.Good
  | .blob _ => False
  | .string b => b.fromZero ∧ b.notPow ∧ 0 < b.hi
  | .array b (.ref d) => b.fromZero ∧ b.notPow ∧ d.Good
  | .array _ _ => False
def Members.Good : Members → Prop
  | .nil => True
  | .const rest => rest.Good
  | .member name t rest => t.Good name ∧ rest.Good
def Variants.Good : Variants → Prop
  | .nil => True
  | .cons _ t rest => t.GoodPayload ∧ rest.Good
def Values.Good : Values → Prop
  | .nil => True
  | .plain _ rest => rest.Good
  | .event _ d rest => d.Good ∧ rest.Good
end

end S2.Generator
