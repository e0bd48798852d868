import Verif.Props.Bits
/-! # Bit arrays and the number the published decoder reads (C180) -/
namespace S2

/-- The number of an `n`-bit array whose bytes are given, eight bits each (the last may have fewer), the first byte being the highest. [specification] -/
def arrayNumber (n : Nat) : List UInt8 → Nat
  | [] => 0
  | b :: bs => b.toNat * 2 ^ (n - 8) + arrayNumber (n - 8) bs

theorem lsb_u8 (u : List Bool) (h : u.length ≤ 8) : (UInt8.ofNat (lsbVal u)).toNat = lsbVal u := by
  have h1 := lsbVal_lt u
  have h2 : 2 ^ u.length ≤ 2 ^ 8 := Nat.pow_le_pow_right (by decide) h
  rw [UInt8.toNat_ofNat']
  exact Nat.mod_eq_of_lt (by omega)

theorem arrayNumber_aligned : (f : Nat) → (g : Nat) → (u : List Bool) → 0 < u.length → u.length ≤ f → u.length ≤ g →
    arrayNumber u.length (bitArrF f 0 u) = bitsValF g 0 u
  | 0, _, u, h, hf, _ => by omega
  | _ + 1, 0, u, h, _, hg => by omega
  | f + 1, g + 1, u, h, hf, hg => by
    rw [bitArrF, bitsValF]
    by_cases h8 : u.length ≤ 8
    · rw [if_pos h8, if_pos (by omega), bitsVal_zero_off_byte u h8, arrayNumber, lsb_u8 u h8, Nat.sub_eq_zero_of_le h8]
      simp [arrayNumber]
    · have ht : (u.take 8).length = 8 := by rw [List.length_take]; omega
      rw [if_neg h8, if_neg (by omega), bitsVal_zero_off_byte (u.take 8) (by omega), arrayNumber, lsb_u8 _ (by omega)]
      have ih := arrayNumber_aligned f g (u.drop 8) (by rw [List.length_drop]; omega) (by rw [List.length_drop]; omega) (by rw [List.length_drop]; omega)
      rw [List.length_drop] at ih
      rw [ih]

theorem arrayNumber_short (off : Nat) (u : List Bool) (ho : off < 8) (h0 : 0 < u.length) (h : u.length ≤ 8) :
    arrayNumber u.length (bitArr off u) = bitsVal off u := by
  have hb : bitArr off u = [UInt8.ofNat (bitsVal off u)] := by
    unfold bitArr
    obtain ⟨k, hk⟩ : ∃ k, u.length = k + 1 := ⟨u.length - 1, by omega⟩
    rw [hk, bitArrF, if_pos h]
  have h1 := bitsVal_lt off u ho
  have h2 : 2 ^ u.length ≤ 2 ^ 8 := Nat.pow_le_pow_right (by decide) h
  rw [hb, arrayNumber, arrayNumber, Nat.sub_eq_zero_of_le h, UInt8.toNat_ofNat', Nat.mod_eq_of_lt (by omega)]
  simp

/-- **C180 (partial).** A bit array that starts at a byte boundary, or that has at most eight bits, is read as the number that the published decoder reads.
Missing: longer arrays that start within a byte (`C180_refuted`). -/
theorem C180_number_partial (c : Cur) (hc : c.WF) (n : Nat) (hn : 0 < n) (h : c.off = 0 ∨ n ≤ 8) (c' : Cur) (bs : List UInt8)
    (hr : takeBitArray c n = .ok (c', bs)) : arrayNumber n bs = readBits c.bytes c.off n := by
  rw [takeBitArray_bits c n hc hn] at hr
  split at hr
  · cases hr
  · rename_i hl
    cases hr
    have ht : (c.bits.take n).length = n := by rw [List.length_take]; omega
    rw [readBits_eq c n hc.1 (by omega)]
    rcases h with h | h
    · have := arrayNumber_aligned n n (c.bits.take n) (by omega) (by omega) (by omega)
      rw [ht] at this
      unfold bitArr bitsVal
      rw [h, ht]
      exact this
    · have := arrayNumber_short c.off (c.bits.take n) hc.1 (by omega) (by omega)
      rwa [ht] at this

/-- **C180 (refuted).** Nine bits two bits into a byte: the published decoder reads the number 9, the array read is `05 00`, which is the number 10. -/
theorem C180_refuted : ¬ ∀ (c : Cur), c.WF → ∀ (n : Nat), 0 < n → ∀ (c' : Cur) (bs : List UInt8), takeBitArray c n = .ok (c', bs) →
    arrayNumber n bs = readBits c.bytes c.off n := by
  intro h
  have hr : takeBitArray ⟨[4, 1], 2⟩ 9 = .ok (⟨[1], 3⟩, [5, 0]) := by decide +kernel
  have := h ⟨[4, 1], 2⟩ ⟨by decide, fun h => by simp at h⟩ 9 (by decide) _ _ hr
  revert this
  decide +kernel

example : takeBitArray ⟨[0x34, 0x12, 0x01], 0⟩ 17 = .ok (⟨[0x01], 1⟩, [0x34, 0x12, 0x01]) ∧ arrayNumber 17 [0x34, 0x12, 0x01] = 0x68 * 256 + 0x25 := by
  decide +kernel

end S2
