import Verif.Vlq
/-! # Specification of the variable-length integer format -/
namespace S2

/-- A complete VLQ byte sequence: every byte but the last has the continuation bit. -/
def IsVlq : List UInt8 → Prop
  | [] => False
  | [b] => b.toNat < 128
  | b :: bs => 128 ≤ b.toNat ∧ IsVlq bs

instance IsVlq.dec : (l : List UInt8) → Decidable (IsVlq l)
  | [] => isFalse (by simp [IsVlq])
  | [b] => by unfold IsVlq; infer_instance
  | b :: c :: bs => by
    have := IsVlq.dec (c :: bs)
    unfold IsVlq; infer_instance

/-- Little-endian base-128 number of the payload bits of continuation bytes. -/
def vlqGroups : List UInt8 → Nat
  | [] => 0
  | b :: bs => b.toNat % 128 + 128 * vlqGroups bs

/-- Magnitude: bits 1..6 of the first byte, then 7 bits from each following byte. -/
def vlqMag : List UInt8 → Nat
  | [] => 0
  | b :: bs => b.toNat / 2 % 64 + 64 * vlqGroups bs

/-- Sign bit: bit 0 of the first byte. -/
def vlqNeg : List UInt8 → Bool
  | [] => false
  | b :: _ => b.toNat % 2 == 1

/-- The number a VLQ byte sequence denotes when its magnitude, cut to 64 bits, is read as
`i64`. -/
def vlqVal (e : List UInt8) : Int := if vlqNeg e then -(toI64 (vlqMag e)) else toI64 (vlqMag e)

/-- (Release-build behaviour for over-long input) 7-bit groups OR-ed together, group `k` shifted by
`(6 + 7k) mod 64` because a release build masks shift amounts. -/
def vlqMasked : List UInt8 → Nat → Nat → Nat
  | [], _, acc => acc
  | b :: bs, k, acc => vlqMasked bs (k + 1) (acc ||| ((b.toNat % 128) <<< ((6 + 7 * k) % 64)) % 2 ^ 64)

/-- The value a release build gives to a VLQ of more than ten bytes. -/
def vlqOverlong : List UInt8 → Int
  | [] => 0
  | b :: bs =>
    let m := vlqMasked bs 0 (b.toNat / 2 % 64)
    if b.toNat % 2 == 1 then wrapI64 (-(toI64 m)) else toI64 m

/-- Wire relation: the byte sequence `e` is decoded as `x` by build `bld`. -/
def VlqEnc (bld : Build) (x : Int) (e : List UInt8) : Prop :=
  IsVlq e ∧ match bld with
    | .debug => e.length ≤ 10 ∧ inI64 (vlqVal e) ∧ x = vlqVal e
    | .release => (e.length ≤ 10 → x = wrapI64 (vlqVal e)) ∧ (10 < e.length → x = vlqOverlong e)

/-- Base-128 little-endian encoder (first argument: recursion bound). -/
def encGroups : Nat → Nat → List UInt8
  | 0, _ => []
  | f + 1, m => if m < 128 then [UInt8.ofNat m]
    else UInt8.ofNat (m % 128 + 128) :: encGroups f (m / 128)

/-- Encoder of a number: sign and magnitude. -/
def encVlq (x : Int) : List UInt8 :=
  let m := x.natAbs
  let s := if x < 0 then 1 else 0
  if m < 64 then [UInt8.ofNat (m * 2 + s)]
  else UInt8.ofNat (128 + (m % 64) * 2 + s) :: encGroups (m + 1) (m / 64)

end S2
