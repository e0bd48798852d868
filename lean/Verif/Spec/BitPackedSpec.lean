import Verif.Schema.BitPacked
import Verif.Spec.BitSpec
/-!
# Wire grammar of bit-packed values

`BEnc bld t off v u`: the bit string `u`, starting at bit offset `off` of a byte, is a wire form
of the value `v` at type `t`.  Nothing here mentions the parser.  Two clauses describe what the
code does rather than what the format intends; both are marked.
-/
namespace S2

/-- Number of padding bits from bit offset `off` to the next byte boundary. -/
def padLen (off : Nat) : Nat := (8 - off) % 8

/-- Excess-K value in `i64` arithmetic: exact, or wrapped in a release build. -/
def PackedVal (bld : Build) (k w x : Int) : Prop :=
  (inI64 (k + w) ∧ x = k + w) ∨ (bld = .release ∧ ¬ inI64 (k + w) ∧ x = wrapI64 (k + w))

/-- (Code behaviour) an empty bit array is decoded as one zero byte. -/
def zeroFix (bs : List UInt8) : List UInt8 := if bs = [] then [0] else bs

/-- Unaligned bytes at bit offset `off`: eight bits each. -/
def unalignedBits (off : Nat) (bs : List UInt8) : List Bool :=
  bs.flatMap (fun b => encBits off 8 b.toNat)

/-- Groups of eight bits (the last may be shorter), each read as a number. -/
def bitArrF : Nat → Nat → List Bool → List UInt8
  | 0, _, _ => []
  | f + 1, off, bits =>
    if bits.length ≤ 8 then [UInt8.ofNat (bitsVal off bits)]
    else UInt8.ofNat (bitsVal off (bits.take 8)) :: bitArrF f off (bits.drop 8)

/-- Bytes of a non-empty bit array read in groups of eight bits at offset `off`. -/
def bitArr (off : Nat) (bits : List Bool) : List UInt8 := bitArrF bits.length off bits

/-- A sequence of encodings, each starting where the previous one ended. -/
def SeqEnc {α : Type} (R : Nat → α → List Bool → Prop) : Nat → List α → List Bool → Prop
  | _, [], u => u = []
  | off, v :: vs, u => ∃ u1 u2, u = u1 ++ u2 ∧ R off v u1 ∧ SeqEnc R ((off + u1.length) % 8) vs u2

mutual
/-- Wire forms of a value of type `t` at bit offset `off`. -/
def BEnc (bld : Build) : BTy → Nat → Val → List Bool → Prop
  | .int k n, off, v, u => n ≤ 64 ∧ u.length = n ∧
      ∃ x, v = .int x ∧ PackedVal bld k (toI64 (bitsVal off u)) x
  | .bool, _, v, u => ∃ b, v = .bool b ∧ u = [b]
  | .null, _, v, u => v = .unit ∧ u = []
  | .fourcc, off, v, u => ∃ bs, bs.length = 4 ∧ v = .bytes bs ∧ u = unalignedBits off bs
  | .blob n, off, v, u => ∃ l pad bs, u = l ++ (pad ++ bytesBits bs) ∧ l.length = n ∧ n ≤ 64 ∧
      pad.length = padLen ((off + n) % 8) ∧ bitsVal off l = bs.length ∧ v = .bytes (zeroFix bs)
  | .aligned k, off, v, u => ∃ pad bs, u = pad ++ bytesBits bs ∧ pad.length = padLen off ∧
      bs.length = k ∧ v = .bytes (zeroFix bs)
  | .bitsI64 n, off, v, u => ∃ l d, u = l ++ d ∧ l.length = n ∧ n ≤ 64 ∧ d.length = bitsVal off l ∧
      d.length ≤ 64 ∧ v = .int (toI64 (bitsVal ((off + n) % 8) d))
  | .bitsVec n, off, v, u => ∃ l d, u = l ++ d ∧ l.length = n ∧ n ≤ 64 ∧ d.length = bitsVal off l ∧
      v = .bytes (if d = [] then [0] else bitArr ((off + n) % 8) d)
  | .byteArr n, off, v, u => ∃ l bs, u = l ++ unalignedBits ((off + n) % 8) bs ∧ l.length = n ∧
      n ≤ 64 ∧ bitsVal off l = bs.length ∧ v = .bytes bs
  | .arr n t, off, v, u => ∃ l d vs, u = l ++ d ∧ l.length = n ∧ n ≤ 64 ∧ bitsVal off l = vs.length ∧
      v = .list vs ∧ SeqEnc (fun o w d => BEnc bld t o w d) ((off + n) % 8) vs d
  | .opt t, off, v, u => (v = .none ∧ u = [false]) ∨
      ∃ w d, v = .some w ∧ u = true :: d ∧ BEnc bld t ((off + 1) % 8) w d
  -- (Code behaviour) the value overlaps its own presence bit.
  | .optRewind t, off, v, u => (v = .none ∧ u = [false]) ∨
      ∃ w d, v = .some w ∧ u = true :: d ∧ BEnc bld t off w u
  | .struct fs, off, v, u => ∃ vs, v = .struct vs ∧ BFieldsEnc bld fs off vs u
  | .choice n alts, off, v, u => ∃ l d w, u = l ++ d ∧ l.length = n ∧ n ≤ 64 ∧
      v = .choice (toI64 (bitsVal off l)) w ∧
      BAltEnc bld alts (toI64 (bitsVal off l)) ((off + n) % 8) w d
/-- Struct fields one after the other. -/
def BFieldsEnc (bld : Build) : BFields → Nat → List Val → List Bool → Prop
  | .nil, _, vs, u => vs = [] ∧ u = []
  | .cons _ t rest, off, vs, u => ∃ v vs' u1 u2, vs = v :: vs' ∧ u = u1 ++ u2 ∧
      BEnc bld t off v u1 ∧ BFieldsEnc bld rest ((off + u1.length) % 8) vs' u2
/-- Payload of the variant with the given tag. -/
def BAltEnc (bld : Build) : BAlts → Int → Nat → Val → List Bool → Prop
  | .nil, _, _, _, _ => False
  | .cons t ty rest, tag, off, v, u =>
    if tag = t then BEnc bld ty off v u else BAltEnc bld rest tag off v u
end

end S2
