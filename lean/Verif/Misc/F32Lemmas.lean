import Verif.State.F32
/-! Facts about rounding to 24 bits. -/
namespace S2

/-- Shape of `roundNat` for numbers of more than 24 bits. -/
theorem roundNat_shape {n : Nat} (h : 2 ^ 24 ≤ n) :
    ∃ e, 1 ≤ e ∧ 2 ^ 23 * 2 ^ e ≤ n ∧ n < 2 ^ 24 * 2 ^ e ∧ e = n.log2 - 23 ∧
      2 ^ 23 ≤ n / 2 ^ e ∧ n / 2 ^ e < 2 ^ 24 ∧
      roundNat n = if 2 * (n % 2 ^ e) > 2 ^ e ∨ (2 * (n % 2 ^ e) = 2 ^ e ∧ n / 2 ^ e % 2 = 1)
        then (n / 2 ^ e + 1) * 2 ^ e else n / 2 ^ e * 2 ^ e := by
  have hn : n ≠ 0 := by omega
  have hlog : 24 ≤ n.log2 := (Nat.le_log2 hn).2 h
  have h1 : 2 ^ n.log2 ≤ n := Nat.log2_self_le hn
  have h2 : n < 2 ^ (n.log2 + 1) := Nat.lt_log2_self
  refine ⟨n.log2 - 23, by omega, ?_, ?_, rfl, ?_, ?_, ?_⟩
  · rw [← Nat.pow_add, show 23 + (n.log2 - 23) = n.log2 by omega]; exact h1
  · rw [← Nat.pow_add, show 24 + (n.log2 - 23) = n.log2 + 1 by omega]; exact h2
  · rw [Nat.le_div_iff_mul_le (Nat.two_pow_pos _), ← Nat.pow_add, show 23 + (n.log2 - 23) = n.log2 by omega]; exact h1
  · rw [Nat.div_lt_iff_lt_mul (Nat.two_pow_pos _), ← Nat.pow_add, show 24 + (n.log2 - 23) = n.log2 + 1 by omega]; exact h2
  · unfold roundNat; rw [if_neg (by omega)]

theorem roundNat_small {n : Nat} (h : n < 2 ^ 24) : roundNat n = n := by
  unfold roundNat; rw [if_pos h]

/-- Rounding is between the two neighbouring multiples. -/
theorem roundNat_bounds {n e : Nat} (h : 2 ^ 24 ≤ n) (he : e = n.log2 - 23) :
    n / 2 ^ e * 2 ^ e ≤ roundNat n ∧ roundNat n ≤ (n / 2 ^ e + 1) * 2 ^ e := by
  obtain ⟨e', -, -, -, h4, -, -, h7⟩ := roundNat_shape h
  rw [← he] at h4; subst h4
  rw [h7]
  have : n / 2 ^ e' * 2 ^ e' ≤ (n / 2 ^ e' + 1) * 2 ^ e' := Nat.mul_le_mul_right _ (by omega)
  split <;> omega

theorem roundNat_mono {a b : Nat} (h : a ≤ b) : roundNat a ≤ roundNat b := by
  by_cases hb : b < 2 ^ 24
  · rw [roundNat_small hb, roundNat_small (by omega)]; exact h
  have hb : 2 ^ 24 ≤ b := by omega
  obtain ⟨eb, hb1, hb2, hb3, hb4, hb5, hb6, hb7⟩ := roundNat_shape hb
  have bb := roundNat_bounds hb hb4
  by_cases ha : a < 2 ^ 24
  · rw [roundNat_small ha]
    have : 2 ^ 23 * 2 ^ 1 ≤ b / 2 ^ eb * 2 ^ eb :=
      Nat.mul_le_mul hb5 (Nat.pow_le_pow_right (by decide) hb1)
    omega
  have ha : 2 ^ 24 ≤ a := by omega
  obtain ⟨ea, ha1, ha2, ha3, ha4, ha5, ha6, ha7⟩ := roundNat_shape ha
  have ba := roundNat_bounds ha ha4
  have hle : ea ≤ eb := by
    rw [ha4, hb4]
    have : a.log2 ≤ b.log2 := (Nat.le_log2 (by omega)).2 (Nat.le_trans (Nat.log2_self_le (by omega)) h)
    omega
  rcases Nat.lt_or_ge ea eb with hlt | hge
  · have h1 : (a / 2 ^ ea + 1) * 2 ^ ea ≤ 2 ^ 24 * 2 ^ ea := Nat.mul_le_mul_right _ (by omega)
    have h2 : 2 ^ 24 * 2 ^ ea = 2 ^ 23 * 2 ^ (ea + 1) := by
      rw [← Nat.pow_add, ← Nat.pow_add, show 24 + ea = 23 + (ea + 1) by omega]
    have h3 : 2 ^ 23 * 2 ^ (ea + 1) ≤ b / 2 ^ eb * 2 ^ eb :=
      Nat.mul_le_mul hb5 (Nat.pow_le_pow_right (by decide) hlt)
    omega
  · have : ea = eb := by omega
    subst this
    have hq : a / 2 ^ ea ≤ b / 2 ^ ea := Nat.div_le_div_right h
    rcases Nat.lt_or_ge (a / 2 ^ ea) (b / 2 ^ ea) with hlt | hge
    · have : (a / 2 ^ ea + 1) * 2 ^ ea ≤ b / 2 ^ ea * 2 ^ ea := Nat.mul_le_mul_right _ hlt
      omega
    · have hqe : a / 2 ^ ea = b / 2 ^ ea := by omega
      have hr : a % 2 ^ ea ≤ b % 2 ^ ea := by
        have e1 := Nat.div_add_mod a (2 ^ ea)
        have e2 := Nat.div_add_mod b (2 ^ ea)
        rw [hqe] at e1
        omega
      rw [ha7, hb7, hqe]
      have hm : b / 2 ^ ea * 2 ^ ea ≤ (b / 2 ^ ea + 1) * 2 ^ ea := Nat.mul_le_mul_right _ (by omega)
      split
      · rename_i hc
        rw [if_pos (by omega)]
        exact Nat.le_refl _
      · split
        · exact hm
        · exact Nat.le_refl _

/-- A number of at most 24 significant bits is not changed. -/
theorem roundNat_exact {m e : Nat} (hm : m ≤ 2 ^ 24) : roundNat (m * 2 ^ e) = m * 2 ^ e := by
  by_cases hn : m * 2 ^ e < 2 ^ 24
  · exact roundNat_small hn
  have hn : 2 ^ 24 ≤ m * 2 ^ e := by omega
  obtain ⟨e', h1, h2, h3, h4, h5, h6, h7⟩ := roundNat_shape hn
  have hle : e' ≤ e ∨ m = 2 ^ 24 := by
    by_cases hlt : e < e'
    · right
      have : 2 ^ 23 * 2 ^ (e + 1) ≤ m * 2 ^ e :=
        Nat.le_trans (Nat.mul_le_mul_left _ (Nat.pow_le_pow_right (by decide) hlt)) h2
      rw [Nat.pow_succ 2 e, Nat.mul_comm (2 ^ e) 2, ← Nat.mul_assoc] at this
      have := Nat.le_of_mul_le_mul_right this (Nat.two_pow_pos e)
      omega
    · left; omega
  have hdvd : 2 ^ e' ∣ m * 2 ^ e := by
    rcases hle with hle | rfl
    · exact Nat.dvd_trans (Nat.pow_dvd_pow 2 hle) (Nat.dvd_mul_left _ _)
    · rw [← Nat.pow_add]
      apply Nat.pow_dvd_pow
      have : 2 ^ (23 + e') ≤ 2 ^ (24 + e) := by rw [Nat.pow_add, Nat.pow_add]; exact h2
      have := (Nat.pow_le_pow_iff_right (by decide : 1 < 2)).1 this
      omega
  have hmod : (m * 2 ^ e) % 2 ^ e' = 0 := Nat.mod_eq_zero_of_dvd hdvd
  have hp := Nat.two_pow_pos e'
  rw [h7, hmod, if_neg (by omega)]
  exact Nat.div_mul_cancel hdvd

theorem roundNat_idem (n : Nat) : roundNat (roundNat n) = roundNat n := by
  by_cases hn : n < 2 ^ 24
  · rw [roundNat_small hn, roundNat_small hn]
  · obtain ⟨e, h1, h2, h3, h4, h5, h6, h7⟩ := roundNat_shape (by omega : 2 ^ 24 ≤ n)
    rw [h7]
    split
    · exact roundNat_exact (by omega)
    · exact roundNat_exact (by omega)

/-- Relative error at most 2^-24. -/
theorem roundNat_error (n : Nat) :
    2 ^ 24 * roundNat n ≤ 2 ^ 24 * n + n ∧ 2 ^ 24 * n ≤ 2 ^ 24 * roundNat n + n := by
  by_cases hn : n < 2 ^ 24
  · rw [roundNat_small hn]; omega
  · obtain ⟨e, h1, h2, h3, h4, h5, h6, h7⟩ := roundNat_shape (by omega : 2 ^ 24 ≤ n)
    have ed := Nat.div_add_mod n (2 ^ e)
    have em := Nat.mod_lt n (Nat.two_pow_pos e)
    have e3 : (n / 2 ^ e + 1) * 2 ^ e = n / 2 ^ e * 2 ^ e + 2 ^ e := by rw [Nat.add_mul, Nat.one_mul]
    have e4 : 2 ^ e * (n / 2 ^ e) = n / 2 ^ e * 2 ^ e := Nat.mul_comm _ _
    rw [h7]
    generalize n / 2 ^ e = q at *
    generalize n % 2 ^ e = r at *
    generalize 2 ^ e = p at *
    generalize q * p = qp at *
    split <;> omega

end S2
