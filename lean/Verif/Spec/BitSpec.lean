import Verif.Bits
/-!
# Specification of bit-packed reads

Independent of the decoder: the byte string is a stream of bits, each byte contributing its
low-order bit first.  Blizzard's `BitPackedBuffer.read_bits` (big endian) takes from each
byte the next unread low-order bits, and places the earlier chunk above the later ones.
-/
namespace S2

/-- Bits of a byte, low-order first. -/
def byteBits (b : UInt8) : List Bool :=
  [b.toNat.testBit 0, b.toNat.testBit 1, b.toNat.testBit 2, b.toNat.testBit 3,
   b.toNat.testBit 4, b.toNat.testBit 5, b.toNat.testBit 6, b.toNat.testBit 7]

/-- Bit stream of a byte string. -/
def bytesBits (bs : List UInt8) : List Bool := bs.flatMap byteBits

/-- Unread bits of a cursor. -/
def Cur.bits (c : Cur) : List Bool := (bytesBits c.bytes).drop c.off

/-- A cursor nom can produce: offset below 8, and 0 when the slice is empty. -/
def Cur.WF (c : Cur) : Prop := c.off < 8 ∧ (c.bytes = [] → c.off = 0)

instance (c : Cur) : Decidable c.WF := by unfold Cur.WF; infer_instance

/-- The cursor `n` bits further. -/
def Cur.advance (c : Cur) (n : Nat) : Cur := ⟨c.bytes.drop ((c.off + n) / 8), (c.off + n) % 8⟩

/-- Number with the given bits, low-order first. -/
def lsbVal : List Bool → Nat
  | [] => 0
  | b :: bs => b.toNat + 2 * lsbVal bs

/-- Blizzard's `read_bits(n)` at bit offset `off` on the byte string: the unread part of the
first byte is the most significant chunk. -/
def readBits : List UInt8 → Nat → Nat → Nat
  | [], _, _ => 0
  | b :: bs, off, n =>
    if n ≤ 8 - off then (b.toNat / 2 ^ off) % 2 ^ n
    else (b.toNat / 2 ^ off) * 2 ^ (n - (8 - off)) + readBits bs 0 (n - (8 - off))

/-- The same rule on a list of bits starting at bit offset `off` (all of them are read).
First argument: recursion bound, any number `≥ bits.length` will do. -/
def bitsValF : Nat → Nat → List Bool → Nat
  | 0, _, _ => 0
  | f + 1, off, bits =>
    if bits.length ≤ 8 - off then lsbVal bits
    else lsbVal (bits.take (8 - off)) * 2 ^ (bits.length - (8 - off))
      + bitsValF f 0 (bits.drop (8 - off))

/-- Value of a bit string read at bit offset `off`. -/
def bitsVal (off : Nat) (bits : List Bool) : Nat := bitsValF bits.length off bits

/-- `n` low-order bits of `v`, low-order first. -/
def lsbBits : Nat → Nat → List Bool
  | 0, _ => []
  | n + 1, v => (v % 2 == 1) :: lsbBits n (v / 2)

/-- Encoder for `n`-bit numbers at bit offset `off` (first argument: recursion bound). -/
def encBitsF : Nat → Nat → Nat → Nat → List Bool
  | 0, _, _, _ => []
  | f + 1, off, n, v =>
    if n ≤ 8 - off then lsbBits n v
    else lsbBits (8 - off) (v / 2 ^ (n - (8 - off)))
      ++ encBitsF f 0 (n - (8 - off)) (v % 2 ^ (n - (8 - off)))

/-- The `n`-bit encoding of `v` at bit offset `off`. -/
def encBits (off n v : Nat) : List Bool := encBitsF n off n v

end S2
