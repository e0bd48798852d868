import Verif.BitsLemmas
import Verif.Spec.BitPackedSpec
/-! # Helper lemmas: values of bit strings, encoders, array reads -/
namespace S2

theorem lsbBits_length (n v : Nat) : (lsbBits n v).length = n := by
  induction n generalizing v with
  | zero => rfl
  | succ n ih => simp [lsbBits, ih]

theorem lsbVal_lsbBits (n v : Nat) : lsbVal (lsbBits n v) = v % 2 ^ n := by
  induction n generalizing v with
  | zero => simp [lsbBits, lsbVal, Nat.mod_one]
  | succ n ih =>
    simp only [lsbBits, lsbVal, ih]
    have h1 : (v % 2 == 1).toNat = v % 2 := by
      rcases Nat.mod_two_eq_zero_or_one v with h | h <;> simp [h]
    rw [h1, Nat.pow_succ, Nat.mul_comm (2 ^ n) 2, Nat.mod_mul]

theorem lsbBits_lsbVal (bs : List Bool) : lsbBits bs.length (lsbVal bs) = bs := by
  induction bs with
  | nil => rfl
  | cons b bs ih =>
    simp only [List.length_cons, lsbBits, lsbVal]
    have h1 : (b.toNat + 2 * lsbVal bs) / 2 = lsbVal bs := by cases b <;> simp <;> omega
    have h2 : ((b.toNat + 2 * lsbVal bs) % 2 == 1) = b := by cases b <;> simp <;> omega
    rw [h1, h2, ih]

theorem lsbVal_lt (bs : List Bool) : lsbVal bs < 2 ^ bs.length := by
  induction bs with
  | nil => simp [lsbVal]
  | cons b bs ih =>
    simp only [lsbVal, List.length_cons, Nat.pow_succ]
    cases b <;> simp <;> omega

theorem lsbBits_drop (m v k : Nat) (h : k ≤ m) : (lsbBits m v).drop k = lsbBits (m - k) (v / 2 ^ k) := by
  induction k generalizing m v with
  | zero => simp
  | succ k ih =>
    obtain ⟨m, rfl⟩ : ∃ m', m = m' + 1 := ⟨m - 1, by omega⟩
    simp only [lsbBits, List.drop_succ_cons]
    rw [ih _ _ (by omega), Nat.div_div_eq_div_mul, Nat.pow_succ, Nat.mul_comm 2]
    congr 1; omega

theorem lsbBits_take (m v k : Nat) (h : k ≤ m) : (lsbBits m v).take k = lsbBits k v := by
  induction k generalizing m v with
  | zero => simp [lsbBits]
  | succ k ih =>
    obtain ⟨m, rfl⟩ : ∃ m', m = m' + 1 := ⟨m - 1, by omega⟩
    simp only [lsbBits, List.take_succ_cons]
    rw [ih _ _ (by omega)]

theorem byteBits_eq (b : UInt8) : byteBits b = lsbBits 8 b.toNat := by
  simp only [byteBits, lsbBits, Nat.testBit_eq_decide_div_mod_eq, Nat.div_div_eq_div_mul]
  simp only [Nat.pow_zero, Nat.div_one, Nat.reducePow, Nat.reduceMul]
  rfl

theorem byteBits_inj {a b : UInt8} (h : byteBits a = byteBits b) : a = b := by
  rw [byteBits_eq, byteBits_eq] at h
  have h2 := congrArg lsbVal h
  rw [lsbVal_lsbBits, lsbVal_lsbBits, Nat.mod_eq_of_lt a.toNat_lt, Nat.mod_eq_of_lt b.toNat_lt] at h2
  exact UInt8.toNat_inj.mp h2

theorem byteBits_ofNat_lsbVal (bits : List Bool) (h : bits.length = 8) :
    byteBits (UInt8.ofNat (lsbVal bits)) = bits := by
  rw [byteBits_eq]
  have h1 := lsbVal_lt bits
  rw [h] at h1
  have : (UInt8.ofNat (lsbVal bits)).toNat = lsbVal bits := by
    rw [UInt8.toNat_ofNat']; exact Nat.mod_eq_of_lt h1
  rw [this, ← h, lsbBits_lsbVal]

theorem lsbVal_byte_part (b : UInt8) (off n : Nat) (rest : List Bool) (h : off + n ≤ 8) :
    lsbVal (((byteBits b ++ rest).drop off).take n) = b.toNat / 2 ^ off % 2 ^ n := by
  rw [List.drop_append_of_le_length (by rw [byteBits_length]; omega),
    List.take_append_of_le_length (by rw [List.length_drop, byteBits_length]; omega),
    byteBits_eq, lsbBits_drop _ _ _ (by omega), lsbBits_take _ _ _ (by omega), lsbVal_lsbBits]

theorem readBits_eq_bitsValF (bs : List UInt8) : ∀ (off n f : Nat), off < 8 →
    off + n ≤ 8 * bs.length ∨ n = 0 → n ≤ f →
    readBits bs off n = bitsValF f off (((bytesBits bs).drop off).take n) := by
  induction bs with
  | nil =>
    intro off n f hoff hlen hf
    have : n = 0 := by rcases hlen with h | h; (simp at h; omega); exact h
    subst this
    cases f <;> simp [readBits, bitsValF, lsbVal]
  | cons b bs ih =>
    intro off n f hoff hlen hf
    cases f with
    | zero =>
      have : n = 0 := by omega
      subst this
      have := readBits_lt (b :: bs) off 0 hoff
      simp only [bitsValF]; omega
    | succ f =>
      have hlen' : (((bytesBits (b :: bs)).drop off).take n).length = n := by
        rw [List.length_take, List.length_drop, bytesBits_length]; omega
      simp only [readBits, bitsValF, hlen']
      split
      · rw [bytesBits_cons, lsbVal_byte_part _ _ _ _ (by omega)]
      · rename_i hn
        have hlen : off + n ≤ 8 * (b :: bs).length := by omega
        simp only [List.length_cons] at hlen
        rw [List.take_take, Nat.min_eq_left (by omega)]
        rw [bytesBits_cons, lsbVal_byte_part _ _ _ _ (by omega)]
        have h4 : b.toNat / 2 ^ off < 2 ^ (8 - off) := by
          rw [Nat.div_lt_iff_lt_mul (Nat.two_pow_pos off), ← Nat.pow_add,
            show 8 - off + off = 8 by omega]
          exact b.toNat_lt
        rw [Nat.mod_eq_of_lt h4]
        congr 1
        rw [ih 0 (n - (8 - off)) f (by omega) (by omega) (by omega)]
        congr 1
        rw [List.drop_take, List.drop_drop, show off + (8 - off) = 8 by omega,
          List.drop_left' (byteBits_length b)]
        simp

theorem bitsValF_fuel (f : Nat) : ∀ (g off : Nat) (bits : List Bool), off < 8 → bits.length ≤ f → bits.length ≤ g →
    bitsValF f off bits = bitsValF g off bits := by
  induction f with
  | zero =>
    intro g off bits hoff h _
    have : bits = [] := by cases bits <;> simp_all
    subst this
    cases g <;> simp [bitsValF, lsbVal]
  | succ f ih =>
    intro g off bits hoff hf hg
    cases g with
    | zero =>
      have : bits = [] := by cases bits <;> simp_all
      subst this; simp [bitsValF, lsbVal]
    | succ g =>
      simp only [bitsValF]
      split
      · rfl
      · rw [ih g 0 _ (by omega)] <;> simp <;> omega

theorem readBits_eq (c : Cur) (n : Nat) (hc : c.off < 8) (h : n ≤ c.bits.length) :
    readBits c.bytes c.off n = bitsVal c.off (c.bits.take n) := by
  rw [Cur.bits_length] at h
  rw [readBits_eq_bitsValF c.bytes c.off n n hc (by omega) (by omega)]
  unfold bitsVal Cur.bits
  apply bitsValF_fuel _ _ _ _ hc <;> simp [bytesBits_length]
  omega

theorem bitsValF_lt (f : Nat) : ∀ (off : Nat) (bits : List Bool), off < 8 →
    bitsValF f off bits < 2 ^ bits.length := by
  induction f with
  | zero => intro off bits _; simp [bitsValF, Nat.two_pow_pos]
  | succ f ih =>
    intro off bits hoff
    simp only [bitsValF]
    split
    · exact lsbVal_lt bits
    · have h1 := lsbVal_lt (bits.take (8 - off))
      have h2 := ih 0 (bits.drop (8 - off)) (by omega)
      rw [List.length_take, Nat.min_eq_left (by omega)] at h1
      rw [List.length_drop] at h2
      calc _ < lsbVal (bits.take (8 - off)) * 2 ^ (bits.length - (8 - off))
              + 2 ^ (bits.length - (8 - off)) := by omega
        _ = (lsbVal (bits.take (8 - off)) + 1) * 2 ^ (bits.length - (8 - off)) := by
            rw [Nat.add_mul, Nat.one_mul]
        _ ≤ 2 ^ (8 - off) * 2 ^ (bits.length - (8 - off)) := Nat.mul_le_mul_right _ (by omega)
        _ = 2 ^ bits.length := by rw [← Nat.pow_add]; congr 1; omega

theorem bitsVal_lt (off : Nat) (bits : List Bool) (h : off < 8) :
    bitsVal off bits < 2 ^ bits.length := bitsValF_lt _ _ _ h

theorem encBitsF_length (f : Nat) : ∀ (off n v : Nat), off < 8 → n ≤ f → (encBitsF f off n v).length = n := by
  induction f with
  | zero => intro off n v _ h; simp [encBitsF]; omega
  | succ f ih =>
    intro off n v hoff h
    simp only [encBitsF]
    split
    · exact lsbBits_length n v
    · rw [List.length_append, lsbBits_length, ih _ _ _ (by omega) (by omega)]; omega

theorem encBits_length (off n v : Nat) (h : off < 8) : (encBits off n v).length = n :=
  encBitsF_length n off n v h (Nat.le_refl _)

theorem bitsValF_encBitsF (f : Nat) : ∀ (off n v : Nat), off < 8 → n ≤ f → v < 2 ^ n →
    bitsValF f off (encBitsF f off n v) = v := by
  induction f with
  | zero => intro off n v _ h hv; have : n = 0 := by omega
            subst this; simp [bitsValF] at *; omega
  | succ f ih =>
    intro off n v hoff h hv
    have hl := encBitsF_length (f + 1) off n v hoff h
    simp only [bitsValF, hl]
    by_cases hn : n ≤ 8 - off
    · rw [if_pos hn]
      simp only [encBitsF, if_pos hn]
      rw [lsbVal_lsbBits, Nat.mod_eq_of_lt hv]
    · rw [if_neg hn]
      simp only [encBitsF, if_neg hn]
      rw [List.take_left' (lsbBits_length _ _), List.drop_left' (lsbBits_length _ _),
        lsbVal_lsbBits, ih 0 _ _ (by omega) (by omega) (Nat.mod_lt _ (Nat.two_pow_pos _))]
      have : v / 2 ^ (n - (8 - off)) < 2 ^ (8 - off) := by
        rw [Nat.div_lt_iff_lt_mul (Nat.two_pow_pos _), ← Nat.pow_add,
          show 8 - off + (n - (8 - off)) = n by omega]
        exact hv
      rw [Nat.mod_eq_of_lt this, Nat.mul_comm, Nat.div_add_mod]

theorem bitsVal_encBits (off n v : Nat) (h : off < 8) (hv : v < 2 ^ n) :
    bitsVal off (encBits off n v) = v := by
  unfold bitsVal
  rw [encBits_length off n v h]
  exact bitsValF_encBitsF n off n v h (Nat.le_refl _) hv

theorem encBitsF_bitsValF (f : Nat) : ∀ (off : Nat) (bits : List Bool), off < 8 → bits.length ≤ f →
    encBitsF f off bits.length (bitsValF f off bits) = bits := by
  induction f with
  | zero => intro off bits _ h; have : bits = [] := by cases bits <;> simp_all
            subst this; rfl
  | succ f ih =>
    intro off bits hoff h
    by_cases hn : bits.length ≤ 8 - off
    · simp only [encBitsF, bitsValF, if_pos hn]; exact lsbBits_lsbVal bits
    · simp only [encBitsF, bitsValF, if_neg hn]
      have h2 := bitsValF_lt f 0 (bits.drop (8 - off)) (by omega)
      rw [List.length_drop] at h2
      have h1 : (lsbVal (bits.take (8 - off)) * 2 ^ (bits.length - (8 - off)) +
          bitsValF f 0 (bits.drop (8 - off))) / 2 ^ (bits.length - (8 - off))
          = lsbVal (bits.take (8 - off)) := by
        rw [Nat.mul_comm, Nat.mul_add_div (Nat.two_pow_pos _), Nat.div_eq_of_lt h2, Nat.add_zero]
      have h3 : (lsbVal (bits.take (8 - off)) * 2 ^ (bits.length - (8 - off)) +
          bitsValF f 0 (bits.drop (8 - off))) % 2 ^ (bits.length - (8 - off))
          = bitsValF f 0 (bits.drop (8 - off)) := by
        rw [Nat.mul_comm, Nat.mul_add_mod, Nat.mod_eq_of_lt h2]
      rw [h1, h3]
      have h4 := ih 0 (bits.drop (8 - off)) (by omega) (by rw [List.length_drop]; omega)
      rw [List.length_drop] at h4
      rw [h4]
      have h5 := lsbBits_lsbVal (bits.take (8 - off))
      rw [List.length_take, Nat.min_eq_left (by omega)] at h5
      rw [h5, List.take_append_drop]

theorem encBits_bitsVal (off : Nat) (bits : List Bool) (h : off < 8) :
    encBits off bits.length (bitsVal off bits) = bits := encBitsF_bitsValF _ _ _ h (Nat.le_refl _)

theorem bitsVal_inj (off : Nat) (as bs : List Bool) (h : off < 8) (hl : as.length = bs.length)
    (hv : bitsVal off as = bitsVal off bs) : as = bs := by
  rw [← encBits_bitsVal off as h, ← encBits_bitsVal off bs h, hl, hv]

/-- Characterisation of `take_n_bits_into_i64` on bits. -/
theorem takeI64_bits (c : Cur) (n : Nat) (hc : c.WF) :
    takeI64 c n = if 64 < n then .err (.more64 n)
      else if c.bits.length < n then .err .eof
      else .ok (c.advance n, toI64 (bitsVal c.off (c.bits.take n))) := by
  rw [takeI64_eq c n hc]
  split
  · rfl
  · split
    · rfl
    · rw [readBits_eq c n hc.1 (by omega)]

theorem Cur.WF.off_le {c : Cur} (hc : c.WF) : c.off ≤ 8 * c.bytes.length := by
  by_cases hb : c.bytes = []
  · simp [hc.2 hb]
  · have := List.length_pos_iff.mpr hb; have := hc.1; omega

theorem rtake_bits (c : Cur) (n : Nat) (hc : c.WF) (hn : n ≤ 8) :
    rtake c n = if c.bits.length < n then .err .eof else .ok (bitsVal c.off (c.bits.take n)) := by
  have h := rtake_eq c n hc.1 hn
  have hl := c.bits_length
  have ho := hc.off_le
  split
  · exact h.2.1 (by omega) (by omega)
  · by_cases h0 : n = 0
    · subst h0; rw [h.1 rfl]; simp [bitsVal, bitsValF]
    · rw [h.2.2 (by omega) (by omega), readBits_eq c n hc.1 (by omega)]

theorem nomTake_bits (c : Cur) (n : Nat) (hc : c.WF) :
    (c.bits.length < n → nomTake n c = .err .eof) ∧
    (n ≤ c.bits.length → ∃ v, nomTake n c = .ok (c.advance n, v)) := by
  have h := nomTake_eq n c hc.1
  have hl := c.bits_length
  have ho := hc.off_le
  refine ⟨fun hlt => h.2.1 (by omega) (by omega), fun hge => ?_⟩
  by_cases h0 : n = 0
  · exact ⟨0, by rw [h.1 h0, h0, Cur.advance_zero c hc.1]⟩
  · exact h.2.2 (by omega) (by omega)

theorem parseBool_bits (c : Cur) (hc : c.WF) :
    parseBool c = match c.bits with
      | [] => .err .eof
      | b :: _ => .ok (c.advance 1, b) := by
  unfold parseBool
  have h1 := rtake_bits c 1 hc (by omega)
  have h2 := nomTake_bits c 1 hc
  cases hb : c.bits with
  | nil => rw [h1, hb]; simp
  | cons b bs =>
    obtain ⟨v, hv⟩ := h2.2 (by rw [hb]; simp)
    rw [h1, hb, hv]
    simp only [List.length_cons]
    rw [if_neg (by omega)]
    simp only [Res.bind_ok, Res.pure_eq, List.take_succ_cons, List.take_zero]
    have : 1 ≤ 8 - c.off := by have := hc.1; omega
    cases b <;> simp [bitsVal, bitsValF, this, lsbVal]

theorem byteAlign_bits (c : Cur) (hc : c.WF) :
    byteAlign c = .ok (c.advance (padLen c.off), ()) ∧ padLen c.off ≤ c.bits.length ∧
      (c.advance (padLen c.off)).off = 0 := by
  have hl := c.bits_length
  have ho := hc.off_le
  have h8 := hc.1
  unfold byteAlign padLen
  by_cases h0 : c.off = 0
  · rw [if_neg (by simp [h0])]
    simp [h0, Cur.advance_zero c hc.1]
  · have hp : (8 - c.off) % 8 = 8 - c.off := Nat.mod_eq_of_lt (by omega)
    rw [if_pos h0, hp]
    obtain ⟨v, hv⟩ := (nomTake_bits c (8 - c.off) hc).2 (by omega)
    rw [hv]
    refine ⟨rfl, by omega, ?_⟩
    simp only [Cur.advance]; omega

theorem bitArrF_fuel (f : Nat) : ∀ (g off : Nat) (bits : List Bool), 0 < bits.length → bits.length ≤ f → bits.length ≤ g →
    bitArrF f off bits = bitArrF g off bits := by
  induction f with
  | zero => intro g off bits h0 h _; omega
  | succ f ih =>
    intro g off bits h0 hf hg
    cases g with
    | zero => omega
    | succ g =>
      simp only [bitArrF]
      split
      · rfl
      · rw [ih g off] <;> simp <;> omega

theorem takeBitArrayLoop_bits (f : Nat) : ∀ (c : Cur) (rem : Nat) (acc : List UInt8), c.WF → 0 < rem → rem ≤ f →
    takeBitArrayLoop f c rem acc = if c.bits.length < rem then .err .eof
      else .ok (c.advance rem, acc ++ bitArrF f c.off (c.bits.take rem)) := by
  induction f with
  | zero => intro c rem acc _ _ h; omega
  | succ f ih =>
    intro c rem acc hc h0 hf
    simp only [takeBitArrayLoop, bitArrF]
    by_cases h8 : rem > 8
    · rw [if_pos h8, rtake_bits c 8 hc (by omega)]
      by_cases hl : c.bits.length < 8
      · rw [if_pos hl, if_pos (by omega)]; simp
      · obtain ⟨v, hv⟩ := (nomTake_bits c 8 hc).2 (by omega)
        rw [if_neg hl, hv]
        simp only [Res.bind_ok]
        rw [if_neg (by omega), ih _ _ _ (c.advance_WF 8 (by omega) hc) (by omega) (by omega)]
        rw [Cur.advance_bits, List.length_drop, Cur.advance_advance, show 8 + (rem - 8) = rem by omega]
        by_cases hl2 : c.bits.length < rem
        · rw [if_pos (by omega), if_pos hl2]
        · rw [if_neg (by omega), if_neg hl2]
          have hoff : (c.advance 8).off = c.off := by
            simp only [Cur.advance]; have := hc.1; omega
          rw [if_neg (by rw [List.length_take]; omega), hoff, List.take_take,
            Nat.min_eq_left (by omega), List.drop_take, List.append_assoc]
          rfl
    · rw [if_neg h8, rtake_bits c rem hc (by omega)]
      by_cases hl : c.bits.length < rem
      · rw [if_pos hl, if_pos hl]; simp
      · obtain ⟨v, hv⟩ := (nomTake_bits c rem hc).2 (by omega)
        rw [if_neg hl, if_neg hl, hv]
        simp only [Res.bind_ok, Nat.sub_self, if_true, Res.pure_eq]
        rw [if_pos (by rw [List.length_take]; omega)]

theorem takeBitArray_bits (c : Cur) (n : Nat) (hc : c.WF) (hn : 0 < n) :
    takeBitArray c n = if c.bits.length < n then .err .eof
      else .ok (c.advance n, bitArr c.off (c.bits.take n)) := by
  unfold takeBitArray
  rw [takeBitArrayLoop_bits (n + 1) c n [] hc hn (by omega)]
  split
  · rfl
  · rename_i h
    have hl : (c.bits.take n).length = n := by rw [List.length_take]; omega
    unfold bitArr
    rw [hl, List.nil_append]
    rw [bitArrF_fuel (n + 1) n c.off (c.bits.take n)] <;> omega

theorem takeBitArray_zero (c : Cur) (hc : c.WF) : takeBitArray c 0 = .ok (c, [0]) := by
  unfold takeBitArray
  simp [takeBitArrayLoop, (rtake_eq c 0 hc.1 (by omega)).1, (nomTake_eq 0 c hc.1).1]

theorem bitsVal_zero_off_byte (bits : List Bool) (h : bits.length ≤ 8) : bitsVal 0 bits = lsbVal bits := by
  unfold bitsVal
  cases bits with
  | nil => rfl
  | cons b bs => simp only [List.length_cons, bitsValF] at *; rw [if_pos (by omega)]

theorem bitArrF_aligned (f : Nat) : ∀ (bs : List UInt8), bs ≠ [] → 8 * bs.length ≤ f →
    bitArrF f 0 (bytesBits bs) = bs := by
  induction f with
  | zero => intro bs h h2; cases bs <;> simp_all
  | succ f ih =>
    intro bs h h2
    cases bs with
    | nil => exact absurd rfl h
    | cons b bs =>
      have hb : ∀ rest, UInt8.ofNat (lsbVal ((byteBits b ++ rest).take 8)) = b := by
        intro rest
        have := lsbVal_byte_part b 0 8 rest (by omega)
        simp only [List.drop_zero] at this
        rw [this]
        apply UInt8.toNat_inj.mp
        rw [UInt8.toNat_ofNat']
        have := b.toNat_lt
        simp
      cases bs with
      | nil =>
        have e : bytesBits [b] = byteBits b := by simp [bytesBits]
        rw [e]
        simp only [bitArrF]
        rw [if_pos (by rw [byteBits_length]; omega), bitsVal_zero_off_byte _ (by rw [byteBits_length]; omega)]
        have := hb []
        simp only [List.append_nil] at this
        rw [List.take_of_length_le (by rw [byteBits_length]; omega)] at this
        rw [this]
      | cons b2 bs =>
        have hl := bytesBits_length (b :: b2 :: bs)
        simp only [bitArrF]
        rw [if_neg (by rw [hl]; simp only [List.length_cons]; omega),
          bitsVal_zero_off_byte _ (by rw [List.length_take]; omega), bytesBits_cons, hb,
          List.drop_left' (byteBits_length b), ih (b2 :: bs) (by simp) (by simp at *; omega)]

theorem bitArr_aligned (bs : List UInt8) (h : bs ≠ []) : bitArr 0 (bytesBits bs) = bs :=
  bitArrF_aligned _ bs h (by rw [bytesBits_length]; omega)

end S2
