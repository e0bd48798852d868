import Verif.Misc.Time
import Verif.Misc.F32Lemmas
import Verif.ResLemmas
/-! # Time conversions (C51, C89) -/
namespace S2.Time

open S2

/-- The exact number of microseconds since 1970 that the pair of fields denotes: both are counts
of 100 ns, the first since 1601; each is truncated to microseconds. -/
def unixMicros (utc off : Int) : Int := utc.tdiv 10 - 11644473600 * 1000000 - off.tdiv 10

theorem tdiv10 (x : Int) : (0 ≤ x ∧ x.tdiv 10 = x / 10) ∨ (x < 0 ∧ x.tdiv 10 = -((-x) / 10)) := by
  by_cases h : 0 ≤ x
  · left; exact ⟨h, Int.tdiv_eq_ediv_of_nonneg h⟩
  · right
    refine ⟨by omega, ?_⟩
    have := Int.neg_tdiv (-x) 10
    rw [Int.neg_neg, Int.tdiv_eq_ediv_of_nonneg (by omega : 0 ≤ -x)] at this
    exact this

/-- For every pair of `i64`s, in both builds, nothing overflows and the timestamp handed to chrono
is the unique (seconds, nanoseconds) pair with `0 ≤ nanos < 10^9` for exactly that many
microseconds, also before 1970. -/
theorem C51_exact (bld : Build) (utc off : Int) (hu : inI64 utc) (ho : inI64 off) :
    ∃ secs nsecs, timestampParts bld utc off = .ok (secs, nsecs) ∧ nsecs < 1000000000 ∧
      secs * 1000000000 + nsecs = unixMicros utc off * 1000 ∧ inI64 secs := by
  unfold inI64 i64Min i64Max at hu ho
  unfold timestampParts unixMicros
  have tu := tdiv10 utc
  have to := tdiv10 off
  generalize utc.tdiv 10 = U at *
  generalize off.tdiv 10 = O at *
  have h1 : i64Op bld (U - 11644473600000000) = .ok (U - 11644473600000000) := by
    unfold i64Op; rw [if_pos (by unfold inI64 i64Min i64Max; omega)]
  have h2 : i64Op bld (U - 11644473600000000 - O) = .ok (U - 11644473600000000 - O) := by
    unfold i64Op; rw [if_pos (by unfold inI64 i64Min i64Max; omega)]
  rw [h1, Res.bind_ok, h2, Res.bind_ok]
  dsimp only
  rw [if_pos (by omega)]
  refine ⟨_, _, rfl, by omega, by omega, ?_⟩
  unfold inI64 i64Min i64Max; omega

/-- So whatever calendar the result is read in, it is the calendar's reading of that instant. -/
theorem C51_transform {D : Type} (chrono : Int → Nat → Option D) (bld : Build) (utc off : Int)
    (hu : inI64 utc) (ho : inI64 off) :
    ∃ secs nsecs, transformToNaivetime chrono bld utc off = .ok (chrono secs nsecs) ∧ nsecs < 1000000000 ∧
      secs * 1000000000 + nsecs = unixMicros utc off * 1000 := by
  obtain ⟨s, n, h1, h2, h3, -⟩ := C51_exact bld utc off hu ho
  exact ⟨s, n, by simp [transformToNaivetime, h1], h2, h3⟩

/-- Later (not earlier) recordings get later (not earlier) timestamps. -/
theorem C51_monotone (utc utc' off : Int) (h : utc ≤ utc') : unixMicros utc off ≤ unixMicros utc' off := by
  have := tdiv10 utc
  have := tdiv10 utc'
  unfold unixMicros; omega

/-- For times after 1601 and offsets in whole microseconds the truncation is the floor of the exact
difference. -/
theorem C51_floor (utc off : Int) (hu : 0 ≤ utc) (ho : off % 10 = 0) :
    unixMicros utc off = (utc - off) / 10 - 11644473600 * 1000000 := by
  have := tdiv10 utc
  have := tdiv10 off
  unfold unixMicros; omega

/-- 2022-10-14T20:14:45.123456Z with offset 2h; and an instant before 1970 with a fraction. -/
example : timestampParts .debug 133102520851234567 72000000000 = .ok (1665771285, 123456000) := by decide +kernel
example : timestampParts .debug 116444735995000000 0 = .ok (-1, 500000000) := by decide +kernel

/-! ## C89 -/

theorem f32OfInt_mono {a b : Int} (h : a ≤ b) : f32OfInt a ≤ f32OfInt b := by
  unfold f32OfInt
  by_cases ha : a < 0
  · rw [if_pos ha]
    by_cases hb : b < 0
    · rw [if_pos hb]
      have := roundNat_mono (show b.natAbs ≤ a.natAbs by omega)
      omega
    · rw [if_neg hb]; omega
  · rw [if_neg ha, if_neg (by omega)]
    have := roundNat_mono (show a.natAbs ≤ b.natAbs by omega)
    omega

theorem quot_mono {a b : Nat} (h : a ≤ b) :
    2 * (a / 1000) + (if a % 1000 = 0 then 0 else 1) ≤ 2 * (b / 1000) + (if b % 1000 = 0 then 0 else 1) := by
  split <;> split <;> omega

/-- A later game loop is never at an earlier second. -/
theorem C89_monotone (a b : Int) (h : a ≤ b) : gameLoopToSeconds a ≤ gameLoopToSeconds b := by
  unfold gameLoopToSeconds
  dsimp only
  have h1 : (f32OfInt a).toNat ≤ (f32OfInt b).toNat := by have := f32OfInt_mono h; omega
  have h2 := roundNat_mono (Nat.mul_le_mul_right loopConst h1)
  have h3 := roundNat_mono (quot_mono (Nat.mul_le_mul_right (2 ^ 64) h2))
  have h4 := Nat.div_le_div_right (c := 2 ^ 82) h3
  exact Nat.le_min.2 ⟨Nat.le_trans (Nat.min_le_left _ _) h4, Nat.min_le_right _ _⟩

/-- Negative loops are second 0. -/
theorem C89_negative (a : Int) (h : a ≤ 0) : gameLoopToSeconds a = 0 := by
  have h0 : gameLoopToSeconds 0 = 0 := by decide +kernel
  have := C89_monotone a 0 h
  omega

/-- Up to 2^24 loops (about 13 days of play) the answer is less than 1.5 s away from
loop × 68.58391 ms: the truncated second, or off by one when within rounding error of a whole second. -/
theorem C89_accurate (a : Int) (h0 : 0 ≤ a) (h1 : a < 2 ^ 24) :
    (gameLoopToSeconds a : Int) * 100000000 ≤ a * 6858391 + 50000000 ∧
    a * 6858391 < (gameLoopToSeconds a : Int) * 100000000 + 150000000 := by
  unfold gameLoopToSeconds
  have hf : f32OfInt a = a := by
    unfold f32OfInt; rw [if_neg (by omega), roundNat_small (by omega)]; omega
  rw [hf]
  dsimp only
  obtain ⟨n, rfl⟩ : ∃ n : Nat, a = n := ⟨a.toNat, by omega⟩
  have hn : n < 2 ^ 24 := by omega
  have hc : loopConst = 8989430 := rfl
  rw [show ((n : Int)).toNat = n by omega, hc]
  have e1 := roundNat_error (n * 8989430)
  generalize roundNat (n * 8989430) = p at *
  have e2 := roundNat_error (2 * (p * 2 ^ 64 / 1000) + (if p * 2 ^ 64 % 1000 = 0 then 0 else 1))
  have hs : (if p * 2 ^ 64 % 1000 = 0 then 0 else 1) ≤ 1 := by split <;> omega
  generalize (if p * 2 ^ 64 % 1000 = 0 then 0 else 1) = s at *
  generalize roundNat (2 * (p * 2 ^ 64 / 1000) + s) = q at *
  omega

theorem f32OfInt_idem (x : Int) (hx : inI64 x) : f32OfInt (f32ToI64 (f32OfInt x)) = f32OfInt x := by
  unfold inI64 i64Min i64Max at hx
  have hr : roundNat (2 ^ 63) = 2 ^ 63 := roundNat_exact (m := 1) (e := 63) (by decide)
  have hbound : roundNat x.natAbs ≤ 2 ^ 63 := by
    rw [← hr]; exact roundNat_mono (by omega)
  have hi := roundNat_idem x.natAbs
  generalize hR : roundNat x.natAbs = R at *
  have hmax : roundNat (2 ^ 63 - 1) = 2 ^ 63 := by decide +kernel
  have hv : f32OfInt x = if x < 0 then -(R : Int) else R := by unfold f32OfInt; rw [hR]
  by_cases hneg : x < 0
  · rw [hv, if_pos hneg]
    have : f32ToI64 (-(R : Int)) = -(R : Int) := by
      unfold f32ToI64 i64Max i64Min; rw [if_neg (by omega), if_neg (by omega)]
    rw [this]
    unfold f32OfInt
    by_cases h0 : R = 0
    · subst h0; decide
    · rw [if_pos (by omega)]
      rw [show (-(R : Int)).natAbs = R by omega, hi]
  · rw [hv, if_neg hneg]
    by_cases hbig : R = 2 ^ 63
    · subst hbig
      have : f32ToI64 ((2 ^ 63 : Nat) : Int) = 2 ^ 63 - 1 := by decide
      rw [this]
      unfold f32OfInt
      rw [if_neg (by decide), show (2 ^ 63 - 1 : Int).natAbs = 2 ^ 63 - 1 by decide, hmax]
    · have : f32ToI64 (R : Int) = (R : Int) := by
        unfold f32ToI64 i64Max i64Min; rw [if_neg (by omega), if_neg (by omega)]
      rw [this]
      unfold f32OfInt
      rw [if_neg (by omega), show ((R : Int)).natAbs = R by omega, hi]

/-- Tracker and game events at the same loop get the same second, for every `i64` loop. -/
theorem C89_tracker_agrees (a : Int) (ha : inI64 a) : trackerLoopToSeconds a = gameLoopToSeconds a := by
  unfold trackerLoopToSeconds gameLoopToSeconds
  rw [f32OfInt_idem a ha]

/-- The documented observation: loop 13735 is 15:42 = 942 s. -/
example : gameLoopToSeconds 13735 = 942 ∧ gameLoopToSeconds 1000 = 68 ∧ gameLoopToSeconds 16777217 = 1150647 ∧
    gameLoopToSeconds (2 ^ 62) = 2 ^ 32 - 1 := by decide +kernel

end S2.Time
