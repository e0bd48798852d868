import Verif.Basic
/-!
# `f32` as the code uses it

Only three uses of `f32` matter to the modelled code: integers cast to `f32`, division by a power of
two, and doubling/halving of a radius.  A finite `f32` is a rational, so values are `Rat`s; the cast from
integers rounds to 24 significant bits.  Not modelled: NaN, infinities, signed zero, overflow of a doubled
radius, subnormal results of a halved radius.
-/
namespace S2

/-- Round a natural number to 24 significant bits, ties to even (IEEE 754 binary32, the mode of Rust's
`as f32`; `n < 2^127`). [std; the `as f32` of /repo/src/common.rs:50-58 and /repo/src/tracker_events/state.rs] -/
def roundNat (n : Nat) : Nat :=
  if n < 2 ^ 24 then n
  else
    let e := n.log2 - 23
    let q := n / 2 ^ e
    let r := n % 2 ^ e
    if 2 * r > 2 ^ e ∨ (2 * r = 2 ^ e ∧ q % 2 = 1) then (q + 1) * 2 ^ e else q * 2 ^ e

/-- `x as f32` for an integer, as the integer it denotes. [/repo/src/common.rs:50-58] -/
def f32OfInt (x : Int) : Int := if x < 0 then -(roundNat x.natAbs : Int) else (roundNat x.natAbs : Int)

/-- `f as i64` for a float denoting the integer `x`: saturating. [/repo/src/state/mod.rs:697] -/
def f32ToI64 (x : Int) : Int := if x > i64Max then i64Max else if x < i64Min then i64Min else x

/-- `Vec3D` (/repo/src/common.rs:28). -/
structure Vec3 where
  x : Rat
  y : Rat
  z : Rat
  deriving DecidableEq, Repr

end S2
