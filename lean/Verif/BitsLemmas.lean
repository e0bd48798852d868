import Verif.Spec.BitSpec
/-! # Helper lemmas: the bit-packed primitives against `Verif.Spec.BitSpec` -/
namespace S2

theorem nomTakeLoop_snd (bs : List UInt8) : ∀ (off n acc : Nat), off < 8 → (n = 0 → off = 0) →
    off + n ≤ 8 * bs.length → (nomTakeLoop bs off n acc 0).2 = (off + n) % 8 := by
  induction bs with
  | nil => intro off n acc h1 h2 h3; simp at h3; simp [nomTakeLoop, h3]
  | cons b bs ih =>
    intro off n acc h1 h2 h3
    simp only [List.length_cons] at h3
    simp only [nomTakeLoop]
    split
    · rename_i h; have := h2 h; subst h; simp [this]
    · split
      · dsimp only; omega
      · rw [ih] <;> omega

theorem shl_shr_u8 (b : UInt8) (k : Nat) (hk : k ≤ 8) :
    (b.toNat * 2 ^ k % 256) / 2 ^ k = b.toNat % 2 ^ (8 - k) := by
  have h : (256 : Nat) = 2 ^ k * 2 ^ (8 - k) := by
    rw [← Nat.pow_add, show k + (8 - k) = 8 by omega]
  rw [h, Nat.mul_comm b.toNat, Nat.mul_mod_mul_left, Nat.mul_div_cancel_left _ (Nat.two_pow_pos k)]

theorem nomTakeLoop_fst_one (b : UInt8) (bs : List UInt8) (off n : Nat) (hn : 0 < n)
    (h : off + n ≤ 8) :
    (nomTakeLoop (b :: bs) off n 0 0).1 = b.toNat % 2 ^ (8 - off) / 2 ^ (8 - off - n) := by
  simp only [nomTakeLoop]
  rw [if_neg (by omega)]
  split
  · simp [shl_shr_u8 b off (by omega)]
  · have h8 : n = 8 - off := by omega
    subst h8
    cases bs <;> simp [nomTakeLoop, shl_shr_u8 b off (by omega)]

theorem nomTake_eq (n : Nat) (c : Cur) (hc : c.off < 8) :
    (n = 0 → nomTake n c = .ok (c, 0)) ∧
    (0 < n → c.bytes.length * 8 < n + c.off → nomTake n c = .err .eof) ∧
    (0 < n → n + c.off ≤ c.bytes.length * 8 → ∃ v, nomTake n c = .ok (c.advance n, v)) := by
  refine ⟨?_, ?_, ?_⟩
  · intro h; simp [nomTake, h]
  · intro h h2
    unfold nomTake
    rw [if_neg (by omega)]
    simp [h2]
  · intro h h2
    unfold nomTake
    rw [if_neg (by omega)]
    dsimp only
    rw [if_neg (by omega)]
    refine ⟨(nomTakeLoop (c.bytes.take ((n + c.off) / 8 + 1)) c.off n 0 0).1, ?_⟩
    rw [nomTakeLoop_snd _ _ _ _ hc (by omega) (by rw [List.length_take]; omega)]
    unfold Cur.advance
    rw [Nat.add_comm n c.off]

theorem nomTake_one (b : UInt8) (bs : List UInt8) (off n : Nat) (hn : 0 < n) (h : off + n ≤ 8) :
    ∃ c', nomTake n ⟨b :: bs, off⟩ = .ok (c', b.toNat % 2 ^ (8 - off) / 2 ^ (8 - off - n)) := by
  unfold nomTake
  rw [if_neg (by omega)]
  dsimp only
  rw [if_neg (by simp; omega)]
  rw [List.take_succ_cons, nomTakeLoop_fst_one _ _ _ _ hn h]
  exact ⟨_, rfl⟩

theorem readBits_lt (bs : List UInt8) : ∀ (off n : Nat), off < 8 → readBits bs off n < 2 ^ n := by
  induction bs with
  | nil => intro off n _; simp [readBits, Nat.two_pow_pos]
  | cons b bs ih =>
    intro off n h
    simp only [readBits]
    split
    · exact Nat.mod_lt _ (Nat.two_pow_pos n)
    · rename_i h2
      have h3 := ih 0 (n - (8 - off)) (by omega)
      have h4 : b.toNat / 2 ^ off < 2 ^ (8 - off) := by
        rw [Nat.div_lt_iff_lt_mul (Nat.two_pow_pos off), ← Nat.pow_add]
        have : 8 - off + off = 8 := by omega
        rw [this]; exact b.toNat_lt
      have h5 : 2 ^ n = 2 ^ (8 - off) * 2 ^ (n - (8 - off)) := by
        rw [← Nat.pow_add]; congr 1; omega
      rw [h5]
      calc _ < b.toNat / 2 ^ off * 2 ^ (n - (8 - off)) + 2 ^ (n - (8 - off)) := by omega
        _ = (b.toNat / 2 ^ off + 1) * 2 ^ (n - (8 - off)) := by rw [Nat.add_mul, Nat.one_mul]
        _ ≤ _ := Nat.mul_le_mul_right _ (by omega)

/-- `rtake` is `readBits`. -/
theorem rtake_eq (c : Cur) (n : Nat) (hc : c.off < 8) (hn : n ≤ 8) :
    (n = 0 → rtake c n = .ok 0) ∧
    (0 < n → c.bytes.length * 8 < c.off + n → rtake c n = .err .eof) ∧
    (0 < n → c.off + n ≤ c.bytes.length * 8 → rtake c n = .ok (readBits c.bytes c.off n)) := by
  obtain ⟨bytes, off⟩ := c
  dsimp only at *
  refine ⟨?_, ?_, ?_⟩
  · intro h; subst h
    unfold rtake; rw [if_neg (by dsimp only; omega)]
    simp [nomTake]
  · intro h0 h
    unfold rtake
    dsimp only
    split
    · rename_i h8
      cases bytes with
      | nil =>
        rw [(nomTake_eq (8 - off) ⟨[], 0⟩ (by simp)).2.1 (by omega) (by simp; omega)]
        simp
      | cons b bs =>
        cases bs with
        | nil =>
          obtain ⟨v, hv⟩ := (nomTake_eq (8 - off) ⟨[b], 0⟩ (by simp)).2.2 (by omega) (by simp)
          obtain ⟨w, hw⟩ := (nomTake_eq 8 ⟨[b], 0⟩ (by simp)).2.2 (by omega) (by simp)
          rw [hv, hw]
          simp only [Res.bind_ok, Cur.advance]
          rw [(nomTake_eq _ _ (by dsimp only; omega)).2.1 (by omega) (by simp; omega)]
          simp
        | cons b2 bs => simp at h; omega
    · rename_i h8
      rw [(nomTake_eq _ _ (by dsimp only; omega)).2.1 (by omega) (by dsimp only; omega)]
      simp
  · intro h0 h
    cases bytes with
    | nil => simp at h; omega
    | cons b bs =>
      unfold rtake
      dsimp only
      split
      · rename_i h8
        obtain ⟨c1, hv⟩ := nomTake_one b bs 0 (8 - off) (by omega) (by omega)
        obtain ⟨w, hw⟩ := (nomTake_eq 8 ⟨b :: bs, 0⟩ (by simp)).2.2 (by omega) (by simp; omega)
        rw [hv, hw]
        cases bs with
        | nil => simp at h; omega
        | cons b2 bs =>
          obtain ⟨c2, hv2⟩ := nomTake_one b2 bs (8 - (n - (8 - off))) (n - (8 - off))
            (by omega) (by omega)
          simp only [Res.bind_ok, Cur.advance]
          simp only [Nat.zero_add, Nat.div_self (by omega : 0 < 8), List.drop_succ_cons, List.drop_zero]
          rw [hv2]
          simp only [Res.bind_ok, Res.pure_eq, readBits]
          rw [if_neg (by omega), if_pos (by omega)]
          have e1 : 8 - 0 - (8 - off) = off := by omega
          have e2 : 8 - (8 - (n - (8 - off))) = n - (8 - off) := by omega
          rw [e1, e2, Nat.sub_self]
          have hb : b.toNat % 2 ^ (8 - 0) = b.toNat := Nat.mod_eq_of_lt (by simpa using b.toNat_lt)
          rw [hb]
          have h4 : b.toNat / 2 ^ off < 2 ^ (8 - off) := by
            rw [Nat.div_lt_iff_lt_mul (Nat.two_pow_pos off), ← Nat.pow_add]
            have : 8 - off + off = 8 := by omega
            rw [this]; exact b.toNat_lt
          have h5 : b.toNat / 2 ^ off * 2 ^ (n - (8 - off)) < 256 := by
            calc _ < 2 ^ (8 - off) * 2 ^ (n - (8 - off)) :=
                  Nat.mul_lt_mul_of_pos_right h4 (Nat.two_pow_pos _)
              _ = 2 ^ n := by rw [← Nat.pow_add]; congr 1; omega
              _ ≤ 2 ^ 8 := Nat.pow_le_pow_right (by omega) hn
          rw [Nat.mod_eq_of_lt h5]
          simp
      · rename_i h8
        obtain ⟨c1, hv⟩ := nomTake_one b bs (8 - off - n) n (by omega) (by omega)
        rw [hv]
        simp only [Res.bind_ok, Res.pure_eq, readBits]
        rw [if_pos (by omega)]
        have e1 : 8 - (8 - off - n) = off + n := by omega
        have e2 : off + n - n = off := by omega
        rw [e1, e2, Nat.pow_add, Nat.mod_mul_right_div_self]

theorem Cur.advance_zero (c : Cur) (h : c.off < 8) : c.advance 0 = c := by
  cases c with | mk bytes off =>
  simp only [Cur.advance, Nat.add_zero] at *
  rw [Nat.div_eq_of_lt h, Nat.mod_eq_of_lt h, List.drop_zero]

theorem Cur.advance_advance (c : Cur) (a b : Nat) :
    (c.advance a).advance b = c.advance (a + b) := by
  simp only [Cur.advance, List.drop_drop, Cur.mk.injEq]
  refine ⟨?_, by omega⟩
  congr 1; omega

theorem Cur.advance_off_lt (c : Cur) (n : Nat) : (c.advance n).off < 8 := by
  simp only [Cur.advance]; omega

theorem byteBits_length (b : UInt8) : (byteBits b).length = 8 := rfl

theorem bytesBits_length (bs : List UInt8) : (bytesBits bs).length = 8 * bs.length := by
  induction bs with
  | nil => rfl
  | cons b bs ih => simp only [bytesBits, List.flatMap_cons, List.length_append,
      byteBits_length, List.length_cons] at *; omega

theorem Cur.bits_length (c : Cur) : c.bits.length = 8 * c.bytes.length - c.off := by
  simp [Cur.bits, bytesBits_length]

theorem bytesBits_cons (b : UInt8) (bs : List UInt8) :
    bytesBits (b :: bs) = byteBits b ++ bytesBits bs := rfl

theorem bytesBits_append (as bs : List UInt8) :
    bytesBits (as ++ bs) = bytesBits as ++ bytesBits bs := by
  simp [bytesBits, List.flatMap_append]

theorem bytesBits_drop (bs : List UInt8) (k : Nat) :
    (bytesBits bs).drop (8 * k) = bytesBits (bs.drop k) := by
  induction k generalizing bs with
  | zero => simp
  | succ k ih =>
    cases bs with
    | nil => simp [bytesBits]
    | cons b bs =>
      rw [bytesBits_cons, List.drop_succ_cons, ← ih bs, List.drop_append,
        List.drop_eq_nil_of_le (by rw [byteBits_length]; omega), List.nil_append, byteBits_length]
      congr 1

theorem Cur.advance_bits (c : Cur) (n : Nat) : (c.advance n).bits = c.bits.drop n := by
  simp only [Cur.bits, Cur.advance, ← bytesBits_drop, List.drop_drop]
  congr 1; omega

theorem Cur.advance_WF (c : Cur) (n : Nat) (h : n ≤ c.bits.length) (hc : c.WF) :
    (c.advance n).WF := by
  refine ⟨c.advance_off_lt n, ?_⟩
  rw [Cur.bits_length] at h
  intro he
  simp only [Cur.advance, List.drop_eq_nil_iff] at he ⊢
  by_cases hb : c.bytes = []
  · have := hc.2 hb; simp [hb] at h; simp [h, this]
  · have : 0 < c.bytes.length := List.length_pos_iff.mpr hb
    have := hc.1
    omega

/-- `readBits` splits at chunk boundaries the way the loop of `take_n_bits_into_i64` does. -/
theorem readBits_split (c : Cur) (n k : Nat) (hoff : c.off < 8) (hlen : c.off + n ≤ 8 * c.bytes.length)
    (hk : k = 8 - c.off) (hkn : k < n) :
    readBits c.bytes c.off n = readBits c.bytes c.off k * 2 ^ (n - k)
      + readBits (c.advance k).bytes (c.advance k).off (n - k) := by
  obtain ⟨bytes, off⟩ := c
  dsimp only at *
  cases bytes with
  | nil => simp at hlen; omega
  | cons b bs =>
    subst hk
    have e : (off + (8 - off)) = 8 := by omega
    simp only [readBits, Cur.advance, e]
    rw [if_neg (by omega), if_pos (by omega)]
    have h4 : b.toNat / 2 ^ off < 2 ^ (8 - off) := by
      rw [Nat.div_lt_iff_lt_mul (Nat.two_pow_pos off), ← Nat.pow_add]
      have : 8 - off + off = 8 := by omega
      rw [this]; exact b.toNat_lt
    rw [Nat.mod_eq_of_lt h4]
    simp

theorem takeI64Loop_eq (fuel : Nat) : ∀ (c : Cur) (rem acc : Nat), c.off < 8 → rem < fuel →
    acc % 2 ^ rem = 0 →
    (rem = 0 → takeI64Loop fuel c rem acc = .ok (c, acc)) ∧
    (0 < rem → c.bytes.length * 8 < c.off + rem → takeI64Loop fuel c rem acc = .err .eof) ∧
    (0 < rem → c.off + rem ≤ c.bytes.length * 8 →
      takeI64Loop fuel c rem acc = .ok (c.advance rem, acc + readBits c.bytes c.off rem)) := by
  induction fuel with
  | zero => intro c rem acc _ h; omega
  | succ fuel ih =>
    intro c rem acc hoff hf hacc
    refine ⟨?_, ?_⟩
    · intro h; subst h
      simp [takeI64Loop, (rtake_eq c 0 hoff (by omega)).1, (nomTake_eq 0 c hoff).1]
    · by_cases hbig : rem > 8
      · -- aligning chunk
        have hcount : (if c.off ≠ 0 then 8 - c.off else 8) = 8 - c.off := by
          split
          · rfl
          · omega
        have hrt := rtake_eq c (8 - c.off) hoff (by omega)
        have hnt := nomTake_eq (8 - c.off) c hoff
        by_cases hne : c.off + (8 - c.off) ≤ c.bytes.length * 8
        · obtain ⟨v, hv⟩ := hnt.2.2 (by omega) (by omega)
          have hb := hrt.2.2 (by omega) hne
          have hal : (c.advance (8 - c.off)).off = 0 := by simp only [Cur.advance]; omega
          have hbl : (c.advance (8 - c.off)).bytes.length = c.bytes.length - 1 := by
            simp only [Cur.advance, List.length_drop]; omega
          have hx1 : c.bytes.length * 8 < c.off + rem →
              (c.advance (8 - c.off)).bytes.length * 8 <
              (c.advance (8 - c.off)).off + (rem - (8 - c.off)) := by
            rw [hal, hbl]; omega
          have hx2 : c.off + rem ≤ c.bytes.length * 8 →
              (c.advance (8 - c.off)).off + (rem - (8 - c.off)) ≤
              (c.advance (8 - c.off)).bytes.length * 8 := by
            rw [hal, hbl]; omega
          have hx3 : 0 < rem - (8 - c.off) := by omega
          have hlt : readBits c.bytes c.off (8 - c.off) < 2 ^ (8 - c.off) :=
            readBits_lt _ _ _ hoff
          have hor : acc ||| (readBits c.bytes c.off (8 - c.off)) <<< (rem - (8 - c.off))
              = acc + readBits c.bytes c.off (8 - c.off) * 2 ^ (rem - (8 - c.off)) := by
            obtain ⟨q, rfl⟩ := Nat.dvd_of_mod_eq_zero hacc
            rw [Nat.shiftLeft_eq]
            symm
            apply Nat.two_pow_add_eq_or_of_lt
            calc _ < 2 ^ (8 - c.off) * 2 ^ (rem - (8 - c.off)) :=
                  Nat.mul_lt_mul_of_pos_right hlt (Nat.two_pow_pos _)
              _ = 2 ^ rem := by rw [← Nat.pow_add]; congr 1; omega
          have hrec := ih (c.advance (8 - c.off)) (rem - (8 - c.off))
            (acc + readBits c.bytes c.off (8 - c.off) * 2 ^ (rem - (8 - c.off)))
            (c.advance_off_lt _) (by omega) (by
              have h2 : acc % 2 ^ (rem - (8 - c.off)) = 0 := by
                have hd : 2 ^ (rem - (8 - c.off)) ∣ 2 ^ rem := Nat.pow_dvd_pow 2 (by omega)
                exact Nat.mod_eq_zero_of_dvd (Nat.dvd_trans hd (Nat.dvd_of_mod_eq_zero hacc))
              rw [Nat.add_mul_mod_self_right, h2])
          have hstep : takeI64Loop (fuel + 1) c rem acc =
              takeI64Loop fuel (c.advance (8 - c.off)) (rem - (8 - c.off))
                (acc + readBits c.bytes c.off (8 - c.off) * 2 ^ (rem - (8 - c.off))) := by
            simp only [takeI64Loop]
            rw [if_pos hbig, hcount, hb, hv]
            simp only [Res.bind_ok]
            rw [if_neg (by omega), hor]
          rw [hstep]
          refine ⟨?_, ?_⟩
          · intro _ hs
            exact hrec.2.1 hx3 (hx1 hs)
          · intro _ hs
            rw [hrec.2.2 hx3 (hx2 hs)]
            rw [Cur.advance_advance, readBits_split c rem (8 - c.off) hoff (by omega) rfl (by omega),
              Nat.add_assoc]
            have : 8 - c.off + (rem - (8 - c.off)) = rem := by omega
            rw [this]
        · have hb := hrt.2.1 (by omega) (by omega)
          refine ⟨?_, ?_⟩
          · intro _ hs
            simp only [takeI64Loop]
            rw [if_pos hbig, hcount, hb]; simp
          · intro _ hs; omega
      · have hrt := rtake_eq c rem hoff (by omega)
        have hnt := nomTake_eq rem c hoff
        refine ⟨?_, ?_⟩
        · intro h0 hs
          simp only [takeI64Loop]
          rw [if_neg hbig, hrt.2.1 h0 hs]; simp
        · intro h0 hs
          obtain ⟨v, hv⟩ := hnt.2.2 h0 (by omega)
          simp only [takeI64Loop]
          rw [if_neg hbig, hrt.2.2 h0 hs, hv]
          simp only [Res.bind_ok, Nat.sub_self, Nat.shiftLeft_zero, if_true, Res.pure_eq]
          obtain ⟨q, rfl⟩ := Nat.dvd_of_mod_eq_zero hacc
          rw [← Nat.two_pow_add_eq_or_of_lt (readBits_lt _ _ _ hoff)]

/-- Full characterisation of `take_n_bits_into_i64`. -/
theorem takeI64_eq (c : Cur) (n : Nat) (hc : c.WF) :
    takeI64 c n = if 64 < n then .err (.more64 n)
      else if c.bits.length < n then .err .eof
      else .ok (c.advance n, toI64 (readBits c.bytes c.off n)) := by
  have hl := c.bits_length
  unfold takeI64
  split
  · rfl
  · have h := takeI64Loop_eq (n + 1) c n 0 hc.1 (by omega) (by simp)
    by_cases h0 : n = 0
    · subst h0
      rw [h.1 rfl]
      simp only [Res.bind_ok, Res.pure_eq, Cur.advance_zero c hc.1]
      have : readBits c.bytes c.off 0 = 0 := by
        have := readBits_lt c.bytes c.off 0 hc.1; omega
      rw [this]; simp
    · have hoff : c.off ≤ 8 * c.bytes.length := by
        by_cases hb : c.bytes = []
        · simp [hc.2 hb]
        · have := List.length_pos_iff.mpr hb; have := hc.1; omega
      split
      · rw [h.2.1 (by omega) (by omega)]; simp
      · rw [h.2.2 (by omega) (by omega)]; simp

end S2
