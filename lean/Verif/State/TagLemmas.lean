import Verif.State.Types
/-! # Arithmetic of unit tags -/
namespace S2

theorem unitTag_toNat (i r : BitVec 32) : (unitTag i r).toNat = i.toNat * 2 ^ 18 + r.toNat := by
  have hi := i.isLt
  have hr := r.isLt
  unfold unitTag
  rw [BitVec.toNat_add, BitVec.toNat_shiftLeft, BitVec.toNat_setWidth, BitVec.toNat_setWidth, Nat.shiftLeft_eq,
    Nat.mod_eq_of_lt (b := 2 ^ 64) (a := i.toNat) (by omega), Nat.mod_eq_of_lt (b := 2 ^ 64) (a := r.toNat) (by omega),
    Nat.mod_eq_of_lt (b := 2 ^ 64) (a := i.toNat * 2 ^ 18) (by omega), Nat.mod_eq_of_lt (by omega)]

theorem unitTagIndex_toNat (t : BitVec 64) (h : t.toNat < 2 ^ 63) : (unitTagIndex t).toNat = t.toNat / 2 ^ 18 % 2 ^ 14 := by
  unfold unitTagIndex
  rw [BitVec.sshiftRight_eq_of_msb_false (by
    rw [BitVec.msb_eq_decide]; simp; omega)]
  rw [BitVec.toNat_setWidth, BitVec.toNat_and, BitVec.toNat_ushiftRight, Nat.shiftRight_eq_div_pow]
  rw [show (0x3fff#64).toNat = 2 ^ 14 - 1 from rfl, Nat.and_two_pow_sub_one_eq_mod]
  have := Nat.mod_lt (t.toNat / 2 ^ 18) (show 0 < 2 ^ 14 by decide)
  exact Nat.mod_eq_of_lt (by omega)

theorem unitTagRecycle_toNat (t : BitVec 64) : (unitTagRecycle t).toNat = t.toNat % 2 ^ 18 := by
  unfold unitTagRecycle
  rw [BitVec.toNat_setWidth, BitVec.toNat_and]
  rw [show (0x3ffff#64).toNat = 2 ^ 18 - 1 from rfl, Nat.and_two_pow_sub_one_eq_mod]
  have := Nat.mod_lt t.toNat (show 0 < 2 ^ 18 by decide)
  exact Nat.mod_eq_of_lt (by omega)

theorem tagIndex_eq (t : Int) (h0 : 0 ≤ t) (h : t < 2 ^ 63) : tagIndex t = t / 2 ^ 18 % 2 ^ 14 := by
  unfold tagIndex
  have ht : (BitVec.ofInt 64 t).toNat = t.toNat := by
    rw [BitVec.toNat_ofInt]; congr 1; exact Int.emod_eq_of_lt h0 (by omega)
  rw [unitTagIndex_toNat _ (by rw [ht]; omega), ht]
  omega

theorem tagIndex_bound (t : Int) : 0 ≤ tagIndex t ∧ tagIndex t < 2 ^ 14 := by
  unfold tagIndex unitTagIndex
  rw [BitVec.toNat_setWidth, BitVec.toNat_and, show (0x3fff#64).toNat = 2 ^ 14 - 1 from rfl, Nat.and_two_pow_sub_one_eq_mod]
  omega

end S2
