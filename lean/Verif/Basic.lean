/-!
# Common vocabulary of the model

`Result<T, S2ProtocolError>` of the Rust code becomes `Res`; a panic path is an
explicit value of `Res`.
-/
namespace S2

/-- Build profile.  Rust integer overflow panics in `debug`, wraps (masks shift
amounts) in `release`.  `/repo/Cargo.toml` sets no profile, so both are reachable. -/
inductive Build
  | debug
  | release
  deriving DecidableEq, Repr

/-- Models the part of `S2ProtocolError` that the decoders return
(/repo/src/error.rs:9-85).  `eof` and `tag` are the two `nom::error::ErrorKind`s the
nom combinators used here produce.  Payload strings are kept where a property speaks
about them. -/
inductive Err
  | eof
  | tag
  | more64 (n : Nat)
  | tryFromInt
  | duplicateTag (name : String) (tag : Int)
  | missingField (name : String)
  | unknownTag (tag : Int)
  | unsupportedEvent
  | utf8
  | other (code : Nat)
  deriving DecidableEq, Repr

/-- Outcome of a Rust call: `Ok`, `Err`, or a panic. [std `Result` with panics; every fallible function of /repo, e.g. /repo/src/error.rs:8-85] -/
inductive Res (α : Type) where
  | ok (a : α)
  | err (e : Err)
  | panic
  deriving Repr, DecidableEq

namespace Res

/-- The `?` operator. [e.g. /repo/src/lib.rs:86-90] -/
@[inline] def bind {α β : Type} : Res α → (α → Res β) → Res β
  | .ok a, f => f a
  | .err e, _ => .err e
  | .panic, _ => .panic

instance : Monad Res where
  pure := .ok
  bind := Res.bind

@[simp] theorem pure_eq {α : Type} (a : α) : (pure a : Res α) = .ok a := rfl
@[simp] theorem bind_ok {α β : Type} (a : α) (f : α → Res β) : ((Res.ok a) >>= f) = f a := rfl
@[simp] theorem bind_err {α β : Type} (e : Err) (f : α → Res β) :
    ((Res.err e : Res α) >>= f) = .err e := rfl
@[simp] theorem bind_panic {α β : Type} (f : α → Res β) :
    ((Res.panic : Res α) >>= f) = .panic := rfl

/-- `Result::is_ok` [std] -/
def isOk {α : Type} : Res α → Bool
  | .ok _ => true
  | _ => false

theorem bind_eq_ok {α β : Type} {x : Res α} {f : α → Res β} {b : β} :
    (x >>= f) = .ok b ↔ ∃ a, x = .ok a ∧ f a = .ok b := by
  cases x <;> simp

theorem bind_eq_panic {α β : Type} {x : Res α} {f : α → Res β} :
    (x >>= f) = .panic ↔ x = .panic ∨ ∃ a, x = .ok a ∧ f a = .panic := by
  cases x <;> simp

theorem bind_eq_err {α β : Type} {x : Res α} {f : α → Res β} {e : Err} :
    (x >>= f) = .err e ↔ x = .err e ∨ ∃ a, x = .ok a ∧ f a = .err e := by
  cases x <;> simp

end Res

/-- Smallest / largest `i64`. [std] -/
def i64Min : Int := -(2 ^ 63)
/-- [std] -/
def i64Max : Int := 2 ^ 63 - 1

/-- Is `x` representable as `i64`? [std; the values of every `i64` of /repo/src/lib.rs:152-168] -/
def inI64 (x : Int) : Prop := i64Min ≤ x ∧ x ≤ i64Max

instance (x : Int) : Decidable (inI64 x) := by unfold inI64; infer_instance

/-- Reinterpretation of a 64-bit pattern (a natural number, reduced mod 2^64) as `i64`
(two's complement); Rust `as i64`. [e.g. /repo/src/lib.rs:154] -/
def toI64 (n : Nat) : Int :=
  let m : Nat := n % 2 ^ 64
  if m < 2 ^ 63 then (m : Int) else (m : Int) - 2 ^ 64

/-- Two's complement wrap of an arbitrary integer to `i64`. [release arithmetic, e.g. /repo/src/bit_packed_decoder.rs:144-153] -/
def wrapI64 (x : Int) : Int := toI64 (x % 2 ^ 64).toNat

/-- Rust `x as usize` for an `i64` on a 64-bit target. [e.g. /repo/src/versioned_decoder.rs:86-88] -/
def asUsize (x : Int) : Nat := (x % 2 ^ 64).toNat

end S2
