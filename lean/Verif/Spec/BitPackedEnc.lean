import Verif.Spec.BitPackedSpec
/-!
# A reference encoder for bit-packed values

`BHas bld t v` says that `v` is a value of type `t` that the format can carry; `benc t off v` is a
wire form of it starting at bit offset `off`.  Written from the format, not from the parser.
Excluded, because the code does not read them back (see `DESIGN.md`): empty blobs and empty bit
arrays, `some` values of the two re-reading option fields, and (debug builds only) excess-K values
`2^63` or more above `K`.
-/
namespace S2

/-- Encodings of a list of values, one after the other. -/
def encSeq (f : Nat → Val → List Bool) : Nat → List Val → List Bool
  | _, [] => []
  | off, v :: vs => f off v ++ encSeq f ((off + (f off v).length) % 8) vs

mutual
/-- Values of type `t`. -/
def BHas (bld : Build) : BTy → Val → Prop
  | .int k n, v => ∃ x, v = .int x ∧ n ≤ 64 ∧ inI64 x ∧ k ≤ x ∧ x - k < 2 ^ n ∧
      (x - k < 2 ^ 63 ∨ (bld = .release ∧ inI64 k ∧ x - k < 2 ^ 64))
  | .bool, v => ∃ b, v = .bool b
  | .null, v => v = .unit
  | .fourcc, v => ∃ bs, v = .bytes bs ∧ bs.length = 4
  | .blob n, v => ∃ bs, v = .bytes bs ∧ bs ≠ [] ∧ n ≤ 64 ∧ bs.length < 2 ^ n
  | .aligned k, v => ∃ bs, v = .bytes bs ∧ bs ≠ [] ∧ bs.length = k
  | .bitsI64 n, v => ∃ x, v = .int x ∧ n ≤ 64 ∧ 0 ≤ x ∧ x < 2 ^ (min 63 (2 ^ n - 1))
  | .bitsVec n, v => ∃ bs, v = .bytes bs ∧ bs ≠ [] ∧ n ≤ 64 ∧ 8 * bs.length < 2 ^ n
  | .byteArr n, v => ∃ bs, v = .bytes bs ∧ n ≤ 64 ∧ bs.length < 2 ^ n
  | .arr n t, v => ∃ vs, v = .list vs ∧ n ≤ 64 ∧ vs.length < 2 ^ n ∧ ∀ w ∈ vs, BHas bld t w
  | .opt t, v => v = .none ∨ ∃ w, v = .some w ∧ BHas bld t w
  | .optRewind _, v => v = .none
  | .struct fs, v => ∃ vs, v = .struct vs ∧ BFieldsHas bld fs vs
  | .choice n alts, v => ∃ tag w, v = .choice tag w ∧ n ≤ 64 ∧ 0 ≤ tag ∧ tag < 2 ^ n ∧
      tag < 2 ^ 63 ∧ BAltHas bld alts tag w
/-- Field lists. -/
def BFieldsHas (bld : Build) : BFields → List Val → Prop
  | .nil, vs => vs = []
  | .cons _ t rest, vs => ∃ v vs', vs = v :: vs' ∧ BHas bld t v ∧ BFieldsHas bld rest vs'
/-- Payloads of the variant `tag`. -/
def BAltHas (bld : Build) : BAlts → Int → Val → Prop
  | .nil, _, _ => False
  | .cons t ty rest, tag, v => if tag = t then BHas bld ty v else BAltHas bld rest tag v
end

mutual
/-- Reference encoder. -/
def benc : BTy → Nat → Val → List Bool
  | .int k n, off, .int x => encBits off n (x - k).toNat
  | .bool, _, .bool b => [b]
  | .fourcc, off, .bytes bs => unalignedBits off bs
  | .blob n, off, .bytes bs =>
    encBits off n bs.length ++ (List.replicate (padLen ((off + n) % 8)) false ++ bytesBits bs)
  | .aligned _, off, .bytes bs => List.replicate (padLen off) false ++ bytesBits bs
  | .bitsI64 n, off, .int x =>
    encBits off n (min 63 (2 ^ n - 1)) ++ encBits ((off + n) % 8) (min 63 (2 ^ n - 1)) x.toNat
  | .bitsVec n, off, .bytes bs =>
    encBits off n (8 * bs.length) ++ unalignedBits ((off + n) % 8) bs
  | .byteArr n, off, .bytes bs => encBits off n bs.length ++ unalignedBits ((off + n) % 8) bs
  | .arr n t, off, .list vs =>
    encBits off n vs.length ++ encSeq (fun o v => benc t o v) ((off + n) % 8) vs
  | .opt t, off, .some w => true :: benc t ((off + 1) % 8) w
  | .opt _, _, .none => [false]
  | .optRewind _, _, .none => [false]
  | .struct fs, off, .struct vs => bencFields fs off vs
  | .choice n alts, off, .choice tag w =>
    encBits off n tag.toNat ++ bencAlt alts tag ((off + n) % 8) w
  | _, _, _ => []
/-- Fields in order. -/
def bencFields : BFields → Nat → List Val → List Bool
  | .cons _ t rest, off, v :: vs =>
    benc t off v ++ bencFields rest ((off + (benc t off v).length) % 8) vs
  | _, _, _ => []
/-- Payload of the variant `tag`. -/
def bencAlt : BAlts → Int → Nat → Val → List Bool
  | .nil, _, _, _ => []
  | .cons t ty rest, tag, off, v => if tag = t then benc ty off v else bencAlt rest tag off v
end

end S2
