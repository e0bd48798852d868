import Verif.State.F32
/-!
# Time conversions of /repo/src/lib.rs
-/
namespace S2.Time

open S2

/-- An `i64` operation whose exact result is `x`. [/repo/src/lib.rs:171-181] -/
def i64Op (bld : Build) (x : Int) : Res Int :=
  if inI64 x then .ok x else
    match bld with
    | .debug => .panic
    | .release => .ok (wrapI64 x)

/-- The `(secs, nsecs)` pair that `transform_to_naivetime` passes to
`DateTime::<Utc>::from_timestamp`, /repo/src/lib.rs:172-181.  `/` on `i64` truncates towards zero;
`nsecs` is computed in `u32`. -/
def timestampParts (bld : Build) (utc off : Int) : Res (Int × Nat) := do
  let a ← i64Op bld (utc.tdiv 10 - 11644473600000000)
  let micros ← i64Op bld (a - off.tdiv 10)
  let secs := micros / 1000000
  let n := (micros % 1000000).toNat * 1000
  if n < 2 ^ 32 then pure (secs, n)
  else match bld with
    | .debug => .panic
    | .release => pure (secs, n % 2 ^ 32)

/-- `transform_to_naivetime`, /repo/src/lib.rs:171-181.  `chrono` stands for
`DateTime::<Utc>::from_timestamp(secs, nsecs).map(naive_utc)` (a dependency): whatever it is, it is
applied to the computed pair. -/
def transformToNaivetime {D : Type} (chrono : Int → Nat → Option D) (bld : Build) (utc off : Int) : Res (Option D) := do
  let (secs, nsecs) ← timestampParts bld utc off
  pure (chrono secs nsecs)

/-- `68.58391f32 * 2^17`: the `f32` nearest to 68.58391 is 8989430 / 2^17. [/repo/src/lib.rs:189-197] -/
def loopConst : Nat := 8989430

/-- `convert_game_loop_to_seconds`, /repo/src/lib.rs:194-198.
`loop as f32`, times 68.58391 (result in units of 2^-17), divided by 1000.0 (the exact quotient, with a
sticky bit, in units of 2^-82), each step rounded to 24 bits, then `as u32`: truncated, saturating,
negative numbers to 0. -/
def gameLoopToSeconds (loop : Int) : Nat :=
  let f := f32OfInt loop
  let prod := roundNat (f.toNat * loopConst)
  let num := prod * 2 ^ 64
  let quot := roundNat (2 * (num / 1000) + (if num % 1000 = 0 then 0 else 1))
  min (quot / 2 ^ 82) (2 ^ 32 - 1)

/-- `convert_tracker_loop_to_seconds`, /repo/src/lib.rs:189-191; `TRACKER_SPEED_RATIO` is 1.0
(/repo/src/state/mod.rs:33), so the product is the cast itself. -/
def trackerLoopToSeconds (loop : Int) : Nat := gameLoopToSeconds (f32ToI64 (f32OfInt loop))

end S2.Time
