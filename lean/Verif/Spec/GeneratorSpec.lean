import Verif.Misc.Generator
import Verif.Spec.BitPackedEnc
/-!
# What a protocol description means

Stated without the generator: which values a constraint admits, and how many bits the largest of
`n + 1` possibilities needs.
-/
namespace S2.Generator
open S2

/-- The integers a constraint admits. -/
def Bounds.Admits (b : Bounds) (v : Int) : Prop :=
  (if b.minIncl then b.min ≤ v else b.min < v) ∧ (if b.maxIncl then v ≤ b.max else v < b.max)

/-- If `max` is written as a power of two, `pow` is its exponent. -/
def Bounds.Coherent (b : Bounds) : Prop := ∀ k, b.pow = some k → b.max = 2 ^ k

/-- `w` bits are enough for every admitted value, counted from `min`, and `w - 1` bits are not. -/
def Bounds.FewestBits (b : Bounds) (w : Nat) : Prop :=
  (∀ v, b.Admits v → v - b.min < 2 ^ w) ∧ (0 < w → ∃ v, b.Admits v ∧ 2 ^ (w - 1) ≤ v - b.min)

/-- The tags of the variants, in order. -/
def tags : BAlts → List Int
  | .nil => []
  | .cons t _ rest => t :: tags rest

/-- The payload type of a variant. -/
def payload : BAlts → Int → Option BTy
  | .nil, _ => none
  | .cons t ty rest, tag => if tag = t then some ty else payload rest tag

/-- `t` reads `v` back from its reference encoding, wherever it starts and whatever follows. -/
def ReadsBack (t : BTy) (v : Val) : Prop :=
  ∀ (c : Cur), c.WF → ∀ rest, c.bits = benc t c.off v ++ rest →
    bparse .release t c = .ok (c.advance (benc t c.off v).length, v)

end S2.Generator
