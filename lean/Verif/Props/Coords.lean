import Verif.Spec.CoordSpec
import Verif.Misc.F32Lemmas
import Verif.Props.Cache
/-!
# C126 – C128: map coordinates
-/
namespace S2.Coords
open S2 S2.Cache

theorem f32OfInt_mul_pow (m : Int) (e : Nat) (h1 : -(2 ^ 24) ≤ m) (h2 : m ≤ 2 ^ 24) :
    f32OfInt (m * 2 ^ e) = m * 2 ^ e := by
  have hp : (0 : Int) < 2 ^ e := Int.pow_pos (by omega)
  have ha : (m * 2 ^ e).natAbs = m.natAbs * 2 ^ e := by
    rw [Int.natAbs_mul, Int.natAbs_pow]; rfl
  have hr : roundNat (m * 2 ^ e).natAbs = (m * 2 ^ e).natAbs := by
    rw [ha]; exact roundNat_exact (by omega)
  unfold f32OfInt
  rw [hr]
  split <;> omega

theorem unit_eq : unit = 2 * half := by unfold unit half; decide +kernel
theorem half_pos : 0 < half := by unfold half; decide +kernel

theorem ofI32_exact (i : Int) (h1 : -(2 ^ 24) ≤ i) (h2 : i ≤ 2 ^ 24) : ofI32 i = line i := by
  unfold ofI32 line unit
  have := f32OfInt_mul_pow i 0 h1 h2
  simp only [Int.pow_zero, Int.mul_one] at this
  rw [this]

theorem cellToMap_centre (c : Int) (h1 : -(2 ^ 23) ≤ c) (h2 : c < 2 ^ 23) : cellToMap c = centre c := by
  unfold cellToMap fadd
  rw [ofI32_exact c (by omega) (by omega)]
  have e : line c + half = (2 * c + 1) * 2 ^ 148 := by
    unfold line half
    have : (2 : Int) ^ 149 = 2 * 2 ^ 148 := by decide +kernel
    rw [this, Int.add_mul, Int.one_mul, Int.mul_assoc, ← Int.mul_assoc c 2, Int.mul_comm c 2, Int.mul_assoc]
  rw [e, f32OfInt_mul_pow _ _ (by omega) (by omega), ← e]
  rfl

theorem toI32_floor (n : Int) (h0 : 0 ≤ n) (h1 : n < 2 ^ 31 * unit) :
    toI32 n * unit ≤ n ∧ n < (toI32 n + 1) * unit := by
  have hu : 0 < unit := by have := half_pos; have := unit_eq; omega
  have e : n.tdiv unit = n / unit := Int.tdiv_eq_ediv_of_nonneg h0
  have h2 : n / unit < 2 ^ 31 := Int.ediv_lt_of_lt_mul hu h1
  have h3 : 0 ≤ n / unit := Int.ediv_nonneg h0 (by omega)
  have e2 : toI32 n = n / unit := by
    unfold toI32
    simp only [e]
    rw [if_neg (by omega), if_neg (by omega)]
  rw [e2]
  exact ⟨Int.ediv_mul_le n (by omega), Int.lt_mul_of_ediv_lt hu (by omega)⟩

theorem toI32_unique (n t : Int) (ht : 0 ≤ t) (ht2 : t < 2 ^ 31) (h0 : t * unit ≤ n) (h1 : n < (t + 1) * unit) :
    toI32 n = t := by
  have hu : 0 < unit := by have := half_pos; have := unit_eq; omega
  have hn : 0 ≤ n := Int.le_trans (Int.mul_nonneg ht (by omega)) h0
  have e : n / unit = t := by
    apply Int.le_antisymm
    · have := Int.ediv_lt_of_lt_mul hu h1
      omega
    · exact Int.le_ediv_of_mul_le hu h0
  unfold toI32
  rw [Int.tdiv_eq_ediv_of_nonneg hn, e]
  simp only
  rw [if_neg (by omega), if_neg (by omega)]

theorem toI32_neg (n t : Int) (ht : t ≤ 0) (ht2 : -(2 ^ 31) ≤ t) (h0 : n ≤ t * unit) (h1 : (t - 1) * unit < n) :
    toI32 n = t := by
  have hu : 0 < unit := by have := half_pos; have := unit_eq; omega
  have h := toI32_unique (-n) (-t)
  have e : n.tdiv unit = -((-n).tdiv unit) := by rw [Int.neg_tdiv, Int.neg_neg]
  have hn : 0 ≤ -n := by
    have : t * unit ≤ 0 := Int.mul_nonpos_of_nonpos_of_nonneg ht (by omega)
    omega
  have e2 : (-n) / unit = -t := by
    apply Int.le_antisymm
    · have : -n < (-t + 1) * unit := by
        have : (-t + 1) * unit = -((t - 1) * unit) := by rw [← Int.neg_mul]; congr 1; omega
        omega
      have := Int.ediv_lt_of_lt_mul hu this
      omega
    · apply Int.le_ediv_of_mul_le hu
      rw [Int.neg_mul]; omega
  unfold toI32
  rw [e, Int.tdiv_eq_ediv_of_nonneg hn, e2]
  simp only
  rw [if_neg (by omega), if_neg (by omega)]
  omega

/-! ## Cells -/

/-- **C126 (map to cell)** every map coordinate from 0 on is put into the cell it lies in. -/
theorem C126_map_to_cell (n : Int) (h0 : 0 ≤ n) (h1 : n < 2 ^ 31 * 2 ^ 149) : InCell n (mapToCell n) :=
  toI32_floor n h0 h1

/-- **C126 (cell to map)** a cell is mapped to its centre, exactly. -/
theorem C126_cell_centre (c : Int) (h1 : -(2 ^ 23) ≤ c) (h2 : c < 2 ^ 23) : cellToMap c = centre c :=
  cellToMap_centre c h1 h2

theorem mul_split (t : Int) : t * unit = 2 * (t * half) := by
  rw [unit_eq, ← Int.mul_assoc, Int.mul_comm t 2, Int.mul_assoc]

/-- **C126 (partial)** a cell from 0 on survives the way to map coordinates and back. -/
theorem C126_partial (c : Int) (h1 : 0 ≤ c) (h2 : c < 2 ^ 23) : mapToCell (cellToMap c) = c := by
  rw [cellToMap_centre c (by omega) h2]
  have hh := half_pos
  have hu := unit_eq
  apply toI32_unique _ _ h1 (by omega)
  · show c * unit ≤ c * unit + half; omega
  · show c * unit + half < (c + 1) * unit
    rw [Int.add_mul, Int.one_mul]; omega

/-- **C126 (negative cells)** a negative cell comes back as its right neighbour. -/
theorem C126_negative_refuted (c : Int) (h1 : -(2 ^ 23) ≤ c) (h2 : c < 0) : mapToCell (cellToMap c) = c + 1 := by
  rw [cellToMap_centre c h1 (by omega)]
  have hh := half_pos
  have hu := unit_eq
  apply toI32_neg _ _ (by omega) (by omega)
  · show c * unit + half ≤ (c + 1) * unit
    rw [Int.add_mul, Int.one_mul]; omega
  · show (c + 1 - 1) * unit < c * unit + half
    rw [Int.add_sub_cancel]; omega

example : mapToCell (cellToMap 167) = 167 := C126_partial 167 (by decide) (by decide)
example : mapToCell (cellToMap (-1)) = 0 := C126_negative_refuted (-1) (by decide) (by decide)

/-! ## Terrain -/

/-- **C127 (partial)** a terrain point from 0 on survives the way to map coordinates and back. -/
theorem C127_partial (t : Int) (h1 : 0 ≤ t) (h2 : t < 2 ^ 23) :
    terrainToMap t = line t ∧ mapToTerrain (terrainToMap t) = t := by
  have hh := half_pos
  have hu := unit_eq
  have e : terrainToMap t = line t := ofI32_exact t (by omega) (by omega)
  refine ⟨e, ?_⟩
  have e2 : fadd (line t) half = centre t := by
    have := cellToMap_centre t (by omega) h2
    unfold cellToMap at this
    rwa [ofI32_exact t (by omega) (by omega)] at this
  unfold mapToTerrain
  rw [e, e2]
  apply toI32_unique _ _ h1 (by omega)
  · show t * unit ≤ t * unit + half; omega
  · show t * unit + half < (t + 1) * unit
    rw [Int.add_mul, Int.one_mul]; omega

/-- **C127 (negative points)** a negative terrain point comes back as its right neighbour. -/
theorem C127_negative_refuted (t : Int) (h1 : -(2 ^ 23) ≤ t) (h2 : t < 0) :
    mapToTerrain (terrainToMap t) = t + 1 := by
  have hh := half_pos
  have hu := unit_eq
  have e : terrainToMap t = line t := ofI32_exact t (by omega) (by omega)
  have e2 : fadd (line t) half = centre t := by
    have := cellToMap_centre t (by omega) (by omega)
    unfold cellToMap at this
    rwa [ofI32_exact t (by omega) (by omega)] at this
  unfold mapToTerrain
  rw [e, e2]
  apply toI32_neg _ _ (by omega) (by omega)
  · show t * unit + half ≤ (t + 1) * unit
    rw [Int.add_mul, Int.one_mul]; omega
  · show (t + 1 - 1) * unit < t * unit + half
    rw [Int.add_sub_cancel]; omega

/-- `0.49999997`, the largest float below one half. -/
def belowHalf : Int := 2 ^ 148 - 2 ^ 124

/-- **C127 (nearest, refuted)** the float just below one half is nearer to line 0, but half a cell is
added first and the sum rounds to 1. -/
theorem C127_nearest_refuted : ¬ ∀ n : Int, IsF32 n → 0 ≤ n → n < 2 ^ 22 * 2 ^ 149 → Nearest n (mapToTerrain n) := by
  intro h
  have := h belowHalf ⟨2 ^ 24 - 1, 124, by decide, by decide +kernel⟩ (by decide +kernel) (by decide +kernel)
  have e : mapToTerrain belowHalf = 1 := by decide +kernel
  rw [e] at this
  revert this
  unfold Nearest
  decide +kernel

theorem f32OfInt_mono_nonneg {a b : Int} (h0 : 0 ≤ a) (h : a ≤ b) : f32OfInt a ≤ f32OfInt b := by
  unfold f32OfInt
  rw [if_neg (by omega), if_neg (by omega)]
  have := roundNat_mono (a := a.natAbs) (b := b.natAbs) (by omega)
  omega

theorem natPow_cast (k : Nat) : ((2 ^ k : Nat) : Int) = 2 ^ k := by rw [Int.natCast_pow]; rfl

/-- The lowest bit of a float is at most 23 places below its highest. -/
theorem isF32_dvd (n : Int) (h : IsF32 n) (h0 : 0 ≤ n) (k : Nat) (hk : (2 : Int) ^ (k + 23) ≤ n) :
    ∃ q : Int, n = q * 2 ^ k := by
  obtain ⟨m, e, hm, hn⟩ := h
  have hn2 : n = ((m * 2 ^ e : Nat) : Int) := by omega
  have h1 : (2 ^ (k + 23) : Nat) ≤ m * 2 ^ e := by
    have : ((2 ^ (k + 23) : Nat) : Int) ≤ ((m * 2 ^ e : Nat) : Int) := by rw [natPow_cast, ← hn2]; exact hk
    exact Int.ofNat_le.1 this
  have h2 : m * 2 ^ e < 2 ^ 24 * 2 ^ e := Nat.mul_lt_mul_of_pos_right hm (Nat.pow_pos (by omega))
  have h3 : k ≤ e := by
    have h4 : (2 : Nat) ^ (k + 23) < 2 ^ (24 + e) := by rw [Nat.pow_add 2 24]; omega
    have := (Nat.pow_lt_pow_iff_right (a := 2) (by omega)).1 h4
    omega
  refine ⟨(m * 2 ^ (e - k) : Nat), ?_⟩
  rw [hn2, ← natPow_cast, ← Int.natCast_mul, Nat.mul_assoc, ← Nat.pow_add, Nat.sub_add_cancel h3]

theorem fadd_le (a b : Int) (h0 : 0 ≤ a) (m : Int) (e : Nat) (hm : m ≤ 2 ^ 24) (hm0 : 0 ≤ m)
    (hb : b = m * 2 ^ e) (h : a ≤ b) : f32OfInt a ≤ b := by
  have h1 := f32OfInt_mono_nonneg h0 h
  rw [hb, f32OfInt_mul_pow m e (by omega) hm] at h1
  omega

/-- **C127 (nearest, partial)** with that single exception every float from 0 to `2^22` is put on a
nearest terrain line. -/
theorem C127_nearest_partial (n : Int) (hf : IsF32 n) (h0 : 0 ≤ n) (h1 : n < 2 ^ 22 * 2 ^ 149)
    (hne : n ≠ belowHalf) : Nearest n (mapToTerrain n) := by
  have hh := half_pos
  have hu := unit_eq
  have hup : 0 < unit := by omega
  have h1' : n < 2 ^ 22 * unit := h1
  obtain ⟨t, ht⟩ : ∃ t, t = (n + half) / unit := ⟨_, rfl⟩
  have ht0 : 0 ≤ t := by rw [ht]; exact Int.ediv_nonneg (by omega) (by omega)
  have hle : t * unit ≤ n + half := by rw [ht]; exact Int.ediv_mul_le _ (by omega)
  have hlt : n + half < (t + 1) * unit := by rw [ht]; exact Int.lt_mul_of_ediv_lt hup (by omega)
  have ht2 : t ≤ 2 ^ 22 := by
    have : (n + half) / unit < 2 ^ 22 + 1 := Int.ediv_lt_of_lt_mul hup (by rw [Int.add_mul]; omega)
    omega
  have hlow : t * unit ≤ fadd n half := by
    have := f32OfInt_mono_nonneg (Int.mul_nonneg ht0 (by omega)) hle
    unfold unit at this
    rw [f32OfInt_mul_pow t 149 (by omega) (by omega)] at this
    exact this
  have hhigh : fadd n half < (t + 1) * unit := by
    unfold fadd
    by_cases hA : n < half
    · have hb : n ≤ (2 ^ 24 - 2) * 2 ^ 124 := by
        by_cases hk : (2 : Int) ^ (124 + 23) ≤ n
        · obtain ⟨q, hq⟩ := isF32_dvd n hf h0 124 hk
          have e : half = 2 ^ 24 * 2 ^ 124 := by unfold half; decide +kernel
          have e2 : belowHalf = (2 ^ 24 - 1) * 2 ^ 124 := by unfold belowHalf; decide +kernel
          have hp : (0 : Int) < 2 ^ 124 := by decide +kernel
          rw [hq, e] at hA
          have hq1 : q < 2 ^ 24 := Int.lt_of_mul_lt_mul_right hA (by omega)
          have hq2 : q ≠ 2 ^ 24 - 1 := by
            rintro rfl
            exact hne (by rw [hq, e2])
          rw [hq]
          exact Int.mul_le_mul_of_nonneg_right (by omega) (by omega)
        · have : (2 : Int) ^ (124 + 23) ≤ (2 ^ 24 - 2) * 2 ^ 124 := by decide +kernel
          omega
      have := fadd_le (n + half) ((2 ^ 24 - 1) * 2 ^ 125) (by omega) (2 ^ 24 - 1) 125 (by decide) (by decide) rfl (by
        have : (2 ^ 24 - 1 : Int) * 2 ^ 125 = (2 ^ 24 - 2) * 2 ^ 124 + 2 ^ 148 := by decide +kernel
        rw [this]
        show n + 2 ^ 148 ≤ _
        omega)
      have h2 : ((2 : Int) ^ 24 - 1) * 2 ^ 125 < unit := by unfold unit; decide +kernel
      have h3 : unit ≤ (t + 1) * unit := by
        have := Int.mul_nonneg ht0 (show 0 ≤ unit by omega)
        rw [Int.add_mul, Int.one_mul]; omega
      omega
    · -- the binade of `n`
      have hkk : n.toNat ≠ 0 := by omega
      have hlo := Nat.log2_self_le hkk
      have hhi := @Nat.lt_log2_self n.toNat
      have hlo' : (2 : Int) ^ n.toNat.log2 ≤ n := by
        have : ((2 ^ n.toNat.log2 : Nat) : Int) ≤ (n.toNat : Int) := Int.ofNat_le.2 hlo
        rw [natPow_cast] at this; omega
      have hhi' : n < (2 : Int) ^ (n.toNat.log2 + 1) := by
        have : (n.toNat : Int) < ((2 ^ (n.toNat.log2 + 1) : Nat) : Int) := Int.ofNat_lt.2 hhi
        rw [natPow_cast] at this; omega
      have hk1 : 148 ≤ n.toNat.log2 := by
        by_cases h : 148 ≤ n.toNat.log2
        · exact h
        · have h2 := Nat.pow_le_pow_right (n := 2) (by omega) (show n.toNat.log2 + 1 ≤ 148 by omega)
          have h3 : ((2 ^ (n.toNat.log2 + 1) : Nat) : Int) ≤ ((2 ^ 148 : Nat) : Int) := Int.ofNat_le.2 h2
          rw [natPow_cast, natPow_cast] at h3
          exfalso
          apply hA
          show n < 2 ^ 148
          omega
      have hk2 : n.toNat.log2 ≤ 170 := by
        by_cases h : n.toNat.log2 ≤ 170
        · exact h
        · have h2 := Nat.pow_le_pow_right (n := 2) (by omega) (show 171 ≤ n.toNat.log2 by omega)
          have h3 : ((2 ^ 171 : Nat) : Int) ≤ ((2 ^ n.toNat.log2 : Nat) : Int) := Int.ofNat_le.2 h2
          rw [natPow_cast, natPow_cast] at h3
          have h4 : (2 : Int) ^ 22 * 2 ^ 149 = 2 ^ 171 := by decide +kernel
          omega
      obtain ⟨j, hj⟩ : ∃ j, n.toNat.log2 = 148 + j := ⟨n.toNat.log2 - 148, by omega⟩
      rw [hj] at hlo' hhi'
      have hj2 : j ≤ 22 := by omega
      have e1 : (2 : Int) ^ (148 + j + 1) = 2 ^ j * unit := by
        unfold unit
        rw [← Int.pow_add]; congr 1; omega
      have hP : (1 : Int) ≤ 2 ^ j := by
        have := Int.pow_pos (n := 2) (m := j) (by omega); omega
      have hP2 : (2 : Int) ^ j ≤ 2 ^ 22 := by
        have h2 := Nat.pow_le_pow_right (n := 2) (by omega) hj2
        have h3 : ((2 ^ j : Nat) : Int) ≤ ((2 ^ 22 : Nat) : Int) := Int.ofNat_le.2 h2
        rwa [natPow_cast, natPow_cast] at h3
      by_cases hB : t + 1 ≤ 2 ^ j
      · obtain ⟨q, hq⟩ := isF32_dvd n hf h0 (125 + j) (by
          rw [show 125 + j + 23 = 148 + j by omega]; exact hlo')
        have hD : (0 : Int) < 2 ^ (125 + j) := Int.pow_pos (by omega)
        have e2 : half = 2 ^ (23 - j) * 2 ^ (125 + j) := by
          unfold half
          rw [← Int.pow_add]; congr 1; omega
        have e3 : unit = 2 ^ (24 - j) * 2 ^ (125 + j) := by
          unfold unit
          rw [← Int.pow_add]; congr 1; omega
        have hlt' := hlt
        rw [e3, hq, e2, ← Int.add_mul, ← Int.mul_assoc] at hlt'
        have hlt2 := Int.lt_of_mul_lt_mul_right hlt' (by omega)
        have hM : (t + 1) * 2 ^ (24 - j) ≤ 2 ^ 24 := by
          have h2 : (t + 1) * 2 ^ (24 - j) ≤ 2 ^ j * 2 ^ (24 - j) :=
            Int.mul_le_mul_of_nonneg_right hB (by have := Int.pow_pos (n := 2) (m := 24 - j) (by omega); omega)
          rw [← Int.pow_add] at h2
          rw [show j + (24 - j) = 24 by omega] at h2
          exact h2
        have hM0 : 0 < (t + 1) * 2 ^ (24 - j) := Int.mul_pos (by omega) (Int.pow_pos (by omega))
        have h5 := fadd_le (n + half) (((t + 1) * 2 ^ (24 - j) - 1) * 2 ^ (125 + j)) (by omega)
          ((t + 1) * 2 ^ (24 - j) - 1) (125 + j) (by omega) (by omega) rfl (by
            rw [hq, e2, ← Int.add_mul]
            exact Int.mul_le_mul_of_nonneg_right (by omega) (by omega))
        have e4 : (t + 1) * unit = (t + 1) * 2 ^ (24 - j) * 2 ^ (125 + j) := by rw [e3, Int.mul_assoc]
        rw [Int.sub_mul, Int.one_mul] at h5
        omega
      · have h6 : n + half ≤ (2 * 2 ^ j + 1) * 2 ^ 148 := by
          rw [Int.add_mul, Int.one_mul]
          have : 2 * (2 : Int) ^ j * 2 ^ 148 = 2 ^ j * unit := by
            rw [mul_split]
            unfold half
            rw [Int.mul_assoc]
          show n + 2 ^ 148 ≤ _
          omega
        have h7 := fadd_le (n + half) _ (by omega) (2 * 2 ^ j + 1) 148 (by omega) (by omega) rfl h6
        have h8 : (2 * (2 : Int) ^ j + 1) * 2 ^ 148 = 2 ^ j * unit + half := by
          rw [mul_split, Int.add_mul, Int.one_mul]
          unfold half
          rw [Int.mul_assoc]
        have h9 : (2 ^ j + 1) * unit ≤ (t + 1) * unit := Int.mul_le_mul_of_nonneg_right (by omega) (by omega)
        rw [Int.add_mul, Int.one_mul] at h9
        omega
  have e : mapToTerrain n = t := toI32_unique _ _ ht0 (by omega) hlow hhigh
  rw [e]
  unfold Nearest
  show 2 * (t * unit - n).natAbs ≤ 2 ^ 149
  rw [Int.add_mul, Int.one_mul] at hlt
  have : ((2 ^ 149 : Nat) : Int) = unit := by rw [natPow_cast]; rfl
  omega

example : Nearest (3 * 2 ^ 147) (mapToTerrain (3 * 2 ^ 147)) :=
  C127_nearest_partial _ ⟨3, 147, by decide, by decide +kernel⟩ (by decide +kernel) (by decide +kernel) (by decide +kernel)

/-! ## The playable area -/

/-- **C128 (cells)** the two cell corners of an accepted map are the playable area apart, and the
playable area lies in the map unless a corner is negative. -/
theorem C128_cells (bld : Build) (i tail : List UInt8) (m : MapInfo) (h : MapInfo.parse i = .ok (tail, m))
    (hl : 0 ≤ m.cellLeft) (hb : 0 ≤ m.cellBottom) :
    ∃ w h, m.cellDimPlayable bld = .ok (w, h) ∧ 0 < w ∧ 0 < h ∧
      (cellRightTop m).1 = (cellLeftBottom m).1 + w ∧ (cellRightTop m).2 = (cellLeftBottom m).2 + h ∧
      (cellRightTop m).1 ≤ (cellDimMap m).1 ∧ (cellRightTop m).2 ≤ (cellDimMap m).2 := by
  obtain ⟨h1, -, -, h4, h5, h6, h7⟩ := C56_playable_dims_partial bld i tail m h hl hb
  obtain ⟨b1, b2, b3, b4, b5, b6⟩ := C56_bounds_partial i tail m h
  refine ⟨_, _, h1, h4, h6, ?_, ?_, b2, b5⟩
  · show m.cellRight = m.cellLeft + _; omega
  · show m.cellTop = m.cellBottom + _; omega

/-- **C128 (playable terrain coordinates)** the terrain point `i` columns and `j` rows from the left bottom
corner gets the playable coordinates `(i, j)`; nothing overflows. -/
theorem C128_playable (bld : Build) (bs tail : List UInt8) (m : MapInfo) (h : MapInfo.parse bs = .ok (tail, m))
    (hl : 0 ≤ m.cellLeft) (hb : 0 ≤ m.cellBottom) (i j : Int) (hi : -256 ≤ i ∧ i ≤ 256) (hj : -256 ≤ j ∧ j ≤ 256) :
    fromMapTerrain bld m ((terrainLeftBottom m).1 + i) ((terrainLeftBottom m).2 + j) = .ok (i, j) := by
  obtain ⟨b1, b2, b3, b4, b5, b6⟩ := C56_bounds_partial bs tail m h
  have e1 : m.cellLeft + i - m.cellLeft = i := by omega
  have e2 : m.cellBottom + j - m.cellBottom = j := by omega
  have f1 : i32Op bld i = .ok i := by unfold i32Op; rw [if_pos (by omega)]
  have f2 : i32Op bld j = .ok j := by unfold i32Op; rw [if_pos (by omega)]
  unfold fromMapTerrain
  show (do let px ← i32Op bld (m.cellLeft + i - m.cellLeft)
           let py ← i32Op bld (m.cellBottom + j - m.cellBottom)
           pure (px, py)) = _
  rw [e1, e2, f1, f2]
  rfl

/-- **C128 (terrain corner, exactly)** the right top terrain corner is one terrain step beyond the last point of the playable area if and only if that area
reaches the right and the top of the map, wherever it begins. -/
theorem C128_terrain_exactly (bld : Build) (bs tail : List UInt8) (m : MapInfo) (h : MapInfo.parse bs = .ok (tail, m))
    (hl : 0 ≤ m.cellLeft) (hb : 0 ≤ m.cellBottom) :
    ∃ w h x y, m.terrainDimPlayable bld = .ok (w, h) ∧ terrainRightTop bld m = .ok (x, y) ∧
      ((x = (terrainLeftBottom m).1 + w ∧ y = (terrainLeftBottom m).2 + h) ↔ m.cellRight = m.cellWidth ∧ m.cellTop = m.cellHeight) := by
  obtain ⟨h1, h2, h3, h4, h5, h6, h7⟩ := C56_playable_dims_partial bld bs tail m h hl hb
  obtain ⟨b1, b2, b3, b4, b5, b6⟩ := C56_bounds_partial bs tail m h
  refine ⟨_, _, m.cellWidth + 1, m.cellHeight + 1, h2, ?_, ?_⟩
  · simp only [terrainRightTop, i32Op]
    rw [if_pos (by omega), if_pos (by omega)]
    rfl
  · simp only [terrainLeftBottom]
    omega

/-- **C128 (terrain corner, partial)** if the playable area reaches the right and the top of the map, the right top terrain
corner is one terrain step beyond its last point. -/
theorem C128_terrain_partial (bld : Build) (bs tail : List UInt8) (m : MapInfo) (h : MapInfo.parse bs = .ok (tail, m))
    (hl : 0 ≤ m.cellLeft) (hb : 0 ≤ m.cellBottom) (hr : m.cellRight = m.cellWidth) (ht : m.cellTop = m.cellHeight) :
    ∃ w h, m.terrainDimPlayable bld = .ok (w, h) ∧
      terrainRightTop bld m = .ok ((terrainLeftBottom m).1 + w, (terrainLeftBottom m).2 + h) := by
  obtain ⟨w, h, x, y, h1, h2, h3⟩ := C128_terrain_exactly bld bs tail m h hl hb
  obtain ⟨rfl, rfl⟩ := h3.2 ⟨hr, ht⟩
  exact ⟨w, h, h1, h2⟩

/-- **C128 (terrain corner, refuted)** in general it is not: the method returns the size of the whole map,
whatever the playable area is. -/
theorem C128_terrain_refuted : ¬ ∀ (bs tail : List UInt8) (m : MapInfo), MapInfo.parse bs = .ok (tail, m) →
    0 ≤ m.cellLeft → 0 ≤ m.cellBottom → ∀ w h x y, m.terrainDimPlayable .release = .ok (w, h) →
      terrainRightTop .release m = .ok (x, y) →
      x - (terrainLeftBottom m).1 = w ∨ x - (terrainLeftBottom m).1 = w - 1 := by
  intro h
  have := h (mapBytes 2) [77] (MapInfo.mk 20 10 12 [97] [] (str "Dark") (str "Zerus") 2 3 8 9)
    (by decide +kernel) (by decide) (by decide) 7 7 11 13 (by decide) (by decide)
  revert this
  decide

example : fromMapTerrain .debug (MapInfo.mk 20 10 12 [97] [] (str "Dark") (str "Zerus") 2 3 8 9) 5 4 = .ok (3, 1) := by
  decide

end S2.Coords
