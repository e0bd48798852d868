import Verif.Spec.VlqSpec
/-! # Helper lemmas on variable-length integers -/
namespace S2

theorem and80 (b : UInt8) : (b.toNat &&& 0x80 = 0) ↔ b.toNat < 128 := by
  have hb := b.toNat_lt
  constructor
  · intro h
    apply Nat.lt_of_not_le; intro h2
    have h3 : b.toNat.testBit 7 = true := by
      rw [Nat.testBit_eq_decide_div_mod_eq]; simp; omega
    have : (b.toNat &&& 0x80).testBit 7 = true := by
      rw [Nat.testBit_and, h3]; decide
    rw [h] at this; simp at this
  · intro h
    have e : (0x80 : Nat) = 2 ^ 7 := rfl
    apply Nat.eq_of_testBit_eq
    intro i
    rw [Nat.testBit_and, e, Nat.testBit_two_pow]
    by_cases hi : i = 7
    · subst hi
      rw [Nat.testBit_eq_decide_div_mod_eq]; simp; omega
    · simp; omega

theorem and7f (n : Nat) : n &&& 0x7f = n % 128 := by
  have : (0x7f : Nat) = 2 ^ 7 - 1 := rfl
  rw [this, Nat.and_two_pow_sub_one_eq_mod]

theorem and3f (n : Nat) : n &&& 0x3f = n % 64 := by
  have : (0x3f : Nat) = 2 ^ 6 - 1 := rfl
  rw [this, Nat.and_two_pow_sub_one_eq_mod]

theorem and1 (n : Nat) : (n &&& 1 != 0) = (n % 2 == 1) := by
  rw [Nat.and_one_is_mod]
  rcases Nat.mod_two_eq_zero_or_one n with h | h <;> simp [h]

theorem IsVlq_cons (b : UInt8) (bs : List UInt8) :
    IsVlq (b :: bs) ↔ (b.toNat < 128 ∧ bs = []) ∨ (128 ≤ b.toNat ∧ IsVlq bs) := by
  cases bs with
  | nil => simp [IsVlq]
  | cons c bs => simp [IsVlq]

theorem IsVlq_unique {a b s t : List UInt8} (ha : IsVlq a) (hb : IsVlq b) (h : a ++ s = b ++ t) :
    a = b ∧ s = t := by
  induction a generalizing b with
  | nil => exact absurd ha (by simp [IsVlq])
  | cons x a ih =>
    cases b with
    | nil => exact absurd hb (by simp [IsVlq])
    | cons y b =>
      simp only [List.cons_append, List.cons.injEq] at h
      obtain ⟨rfl, h⟩ := h
      rw [IsVlq_cons] at ha hb
      rcases ha with ⟨h1, rfl⟩ | ⟨h1, h2⟩ <;> rcases hb with ⟨h3, rfl⟩ | ⟨h3, h4⟩
      · simpa using h
      · omega
      · omega
      · obtain ⟨rfl, rfl⟩ := ih h2 h4 h; exact ⟨rfl, rfl⟩

/-- Every input either starts with a complete VLQ or consists of continuation bytes only. -/
theorem vlq_split (i : List UInt8) :
    (∃ e tail, i = e ++ tail ∧ IsVlq e) ∨ (∀ b ∈ i, 128 ≤ b.toNat) := by
  induction i with
  | nil => right; simp
  | cons b bs ih =>
    by_cases h : b.toNat < 128
    · left; exact ⟨[b], bs, rfl, h⟩
    · rcases ih with ⟨e, tail, rfl, he⟩ | h2
      · left; exact ⟨b :: e, tail, rfl, (IsVlq_cons _ _).mpr (Or.inr ⟨by omega, he⟩)⟩
      · right; intro x hx; rcases List.mem_cons.mp hx with rfl | hx
        · omega
        · exact h2 x hx

theorem vlqLoop_step_done (bld : Build) (tail : List UInt8) (v : UInt8) (r bits : Nat)
    (h : v.toNat < 128) : vlqLoop bld tail v r bits = .ok (tail, r) := by
  unfold vlqLoop
  rw [if_pos ((and80 v).mpr h)]

theorem vlqLoop_step_nil (bld : Build) (v : UInt8) (r bits : Nat)
    (h : 128 ≤ v.toNat) : vlqLoop bld [] v r bits = .err .eof := by
  unfold vlqLoop
  rw [if_neg (by rw [and80]; omega)]

theorem vlqLoop_step_cons (bld : Build) (nv : UInt8) (tail : List UInt8) (v : UInt8) (r bits : Nat)
    (h : 128 ≤ v.toNat) : vlqLoop bld (nv :: tail) v r bits =
      (shlI64 bld (nv.toNat % 128) bits >>= fun sh => vlqLoop bld tail nv (r ||| sh) (bits + 7)) := by
  conv => lhs; unfold vlqLoop
  rw [if_neg (by rw [and80]; omega)]
  simp only [and7f]

theorem or_shl_mod (r x bits : Nat) (hr : r < 2 ^ bits) (hb : bits < 64) :
    r ||| (x <<< bits) % 2 ^ 64 = (r + x * 2 ^ bits) % 2 ^ 64 := by
  have hr2 : r % 2 ^ 64 = r := Nat.mod_eq_of_lt (Nat.lt_of_lt_of_le hr (Nat.pow_le_pow_right (by omega) (by omega)))
  conv => lhs; rw [← hr2, ← Nat.or_mod_two_pow]
  rw [Nat.or_comm, Nat.shiftLeft_eq, Nat.mul_comm x, ← Nat.two_pow_add_eq_or_of_lt hr, Nat.add_comm]

/-- In-range run of the loop over the continuation bytes `e` (with `v` the previous byte). -/
theorem vlqLoop_run (bld : Build) (e : List UInt8) : ∀ (v : UInt8) (tail : List UInt8) (R k : Nat),
    IsVlq (v :: e) → R < 2 ^ (6 + 7 * k) → k + e.length ≤ 9 →
    vlqLoop bld (e ++ tail) v (R % 2 ^ 64) (6 + 7 * k) =
      .ok (tail, (R + vlqGroups e * 2 ^ (6 + 7 * k)) % 2 ^ 64) := by
  induction e with
  | nil =>
    intro v tail R k hv hr hk
    simp only [IsVlq] at hv
    rw [List.nil_append, vlqLoop_step_done _ _ _ _ _ hv]
    simp only [vlqGroups, Nat.zero_mul, Nat.add_zero]
  | cons nv e ih =>
    intro v tail R k hv hr hk
    simp only [List.length_cons] at hk
    rw [IsVlq_cons] at hv
    obtain ⟨hv1, hv2⟩ : 128 ≤ v.toNat ∧ IsVlq (nv :: e) := by
      rcases hv with ⟨_, h⟩ | h
      · exact absurd h (by simp)
      · exact h
    rw [List.cons_append, vlqLoop_step_cons _ _ _ _ _ _ hv1]
    have h64 : 6 + 7 * k < 64 := by omega
    have hR : R % 2 ^ 64 = R :=
      Nat.mod_eq_of_lt (Nat.lt_of_lt_of_le hr (Nat.pow_le_pow_right (by omega) (by omega)))
    simp only [shlI64, if_pos h64, Res.bind_ok]
    rw [hR, or_shl_mod _ _ _ hr h64]
    have e1 : 6 + 7 * k + 7 = 6 + 7 * (k + 1) := by omega
    have hx : nv.toNat % 128 < 128 := Nat.mod_lt _ (by omega)
    have hp : 2 ^ (6 + 7 * (k + 1)) = 2 ^ (6 + 7 * k) * 128 := by
      rw [show 6 + 7 * (k + 1) = (6 + 7 * k) + 7 by omega, Nat.pow_add]
    rw [e1, ih nv tail (R + nv.toNat % 128 * 2 ^ (6 + 7 * k)) (k + 1) hv2 ?_ (by omega)]
    · simp only [vlqGroups]
      rw [hp]
      congr 3
      rw [Nat.add_mul, Nat.add_assoc]
      congr 2
      rw [Nat.mul_comm 128, Nat.mul_assoc, Nat.mul_comm 128]
    · rw [hp]
      calc _ < 2 ^ (6 + 7 * k) + nv.toNat % 128 * 2 ^ (6 + 7 * k) := by omega
        _ = (nv.toNat % 128 + 1) * 2 ^ (6 + 7 * k) := by rw [Nat.add_mul, Nat.one_mul, Nat.add_comm]
        _ ≤ 128 * 2 ^ (6 + 7 * k) := Nat.mul_le_mul_right _ (by omega)
        _ = _ := Nat.mul_comm _ _

/-- A run that never meets a terminating byte is an end-of-input error (or a debug panic). -/
theorem vlqLoop_trunc (bld : Build) (i : List UInt8) : ∀ (v : UInt8) (r bits : Nat),
    128 ≤ v.toNat → (∀ b ∈ i, 128 ≤ b.toNat) →
    vlqLoop bld i v r bits = .err .eof ∨ (bld = .debug ∧ vlqLoop bld i v r bits = .panic) := by
  induction i with
  | nil => intro v r bits hv _; left; exact vlqLoop_step_nil _ _ _ _ hv
  | cons nv i ih =>
    intro v r bits hv h
    rw [vlqLoop_step_cons _ _ _ _ _ _ hv]
    simp only [shlI64]
    have hnv := h nv (by simp)
    have hi : ∀ b ∈ i, 128 ≤ b.toNat := fun b hb => h b (by simp [hb])
    split
    · simp only [Res.bind_ok]; exact ih _ _ _ hnv hi
    · cases bld with
      | debug => right; simp
      | release => simp only [Res.bind_ok]; exact ih _ _ _ hnv hi

/-- Release builds always finish a complete VLQ. -/
theorem vlqLoop_release (e : List UInt8) : ∀ (v : UInt8) (r k : Nat) (tail : List UInt8),
    IsVlq (v :: e) → vlqLoop .release (e ++ tail) v r (6 + 7 * k) = .ok (tail, vlqMasked e k r) := by
  induction e with
  | nil =>
    intro v r k tail hv
    simp only [IsVlq] at hv
    rw [List.nil_append, vlqLoop_step_done _ _ _ _ _ hv]; rfl
  | cons nv e ih =>
    intro v r k tail hv
    rw [IsVlq_cons] at hv
    obtain ⟨hv1, hv2⟩ : 128 ≤ v.toNat ∧ IsVlq (nv :: e) := by
      rcases hv with ⟨_, h⟩ | h
      · exact absurd h (by simp)
      · exact h
    have hsh : shlI64 .release (nv.toNat % 128) (6 + 7 * k)
        = .ok (((nv.toNat % 128) <<< ((6 + 7 * k) % 64)) % 2 ^ 64) := by
      unfold shlI64
      split
      · rename_i h; rw [Nat.mod_eq_of_lt h]
      · rfl
    rw [List.cons_append, vlqLoop_step_cons _ _ _ _ _ _ hv1, hsh, Res.bind_ok]
    have := ih nv (r ||| ((nv.toNat % 128) <<< ((6 + 7 * k) % 64)) % 2 ^ 64) (k + 1) tail hv2
    rw [show 6 + 7 * k + 7 = 6 + 7 * (k + 1) by omega, this]; rfl

/-- Debug builds panic on a complete VLQ with too many continuation bytes. -/
theorem vlqLoop_debug_long (e : List UInt8) : ∀ (v : UInt8) (tail : List UInt8) (r k : Nat),
    IsVlq (v :: e) → 9 < k + e.length → k ≤ 9 →
    vlqLoop .debug (e ++ tail) v r (6 + 7 * k) = .panic := by
  induction e with
  | nil => intro v tail r k _ h h2; simp at h; omega
  | cons nv e ih =>
    intro v tail r k hv h h2
    simp only [List.length_cons] at h
    rw [IsVlq_cons] at hv
    obtain ⟨hv1, hv2⟩ : 128 ≤ v.toNat ∧ IsVlq (nv :: e) := by
      rcases hv with ⟨_, h⟩ | h
      · exact absurd h (by simp)
      · exact h
    rw [List.cons_append, vlqLoop_step_cons _ _ _ _ _ _ hv1]
    by_cases h64 : 6 + 7 * k < 64
    · simp only [shlI64, if_pos h64, Res.bind_ok]
      rw [show 6 + 7 * k + 7 = 6 + 7 * (k + 1) by omega]
      exact ih _ _ _ _ hv2 (by omega) (by omega)
    · simp only [shlI64, if_neg h64, Res.bind_panic]

theorem toI64_range (n : Nat) : inI64 (toI64 n) := by
  unfold toI64 inI64 i64Min i64Max
  have : n % 2 ^ 64 < 2 ^ 64 := Nat.mod_lt _ (by decide)
  dsimp only
  split <;> constructor <;> omega

theorem toI64_mod (n : Nat) : toI64 (n % 2 ^ 64) = toI64 n := by
  unfold toI64; rw [Nat.mod_mod]

/-- `parse_vlq_int` on a complete VLQ of at most 10 bytes. -/
theorem parseVlq_run (bld : Build) (e tail : List UInt8) (he : IsVlq e) (hl : e.length ≤ 10) :
    parseVlq bld (e ++ tail) =
      (if vlqNeg e then (negI64 bld (toI64 (vlqMag e)) >>= fun r => .ok (tail, r))
       else .ok (tail, toI64 (vlqMag e))) := by
  cases e with
  | nil => exact absurd he (by simp [IsVlq])
  | cons b e =>
    simp only [List.length_cons] at hl
    have hb : b.toNat / 2 % 64 % 2 ^ 64 = b.toNat / 2 % 64 := by omega
    have hrun := vlqLoop_run bld e b tail (b.toNat / 2 % 64) 0 he (by simp; omega) (by omega)
    simp only [Nat.mul_zero, Nat.add_zero] at hrun
    rw [hb] at hrun
    simp only [parseVlq, List.cons_append, and3f, Nat.shiftRight_eq_div_pow, Nat.pow_one, hrun,
      Res.bind_ok, and1, toI64_mod, vlqNeg, vlqMag]
    rw [Nat.mul_comm (vlqGroups e)]
    rfl

theorem wrapI64_of_inI64 {x : Int} (h : inI64 x) : wrapI64 x = x := by
  unfold inI64 i64Min i64Max at h
  unfold wrapI64 toI64
  dsimp only
  have h1 : (x % 2 ^ 64).toNat % 2 ^ 64 = (x % 2 ^ 64).toNat := by
    apply Nat.mod_eq_of_lt; omega
  rw [h1]
  split <;> omega

theorem negI64_release (x : Int) (h : inI64 x) : negI64 .release x = .ok (wrapI64 (-x)) := by
  unfold negI64
  split
  · rename_i h2; subst h2; rfl
  · rename_i h2
    rw [wrapI64_of_inI64]
    unfold inI64 i64Min i64Max at *; omega

theorem negI64_debug (x : Int) (h : inI64 x) : negI64 .debug x =
    if inI64 (-x) then .ok (-x) else .panic := by
  unfold negI64
  split
  · rename_i h2; subst h2; rw [if_neg (by unfold inI64 i64Min i64Max; omega)]
  · rw [if_pos (by unfold inI64 i64Min i64Max at *; omega)]

theorem parseVlq_debug_run (e tail : List UInt8) (he : IsVlq e) :
    parseVlq .debug (e ++ tail) = if e.length ≤ 10 ∧ inI64 (vlqVal e) then .ok (tail, vlqVal e)
      else .panic := by
  by_cases hl : e.length ≤ 10
  · rw [parseVlq_run _ _ _ he hl]
    unfold vlqVal
    have hr := toI64_range (vlqMag e)
    cases vlqNeg e with
    | true =>
      simp only [if_true]
      rw [negI64_debug _ hr]
      by_cases h : inI64 (-toI64 (vlqMag e)) <;> simp [h, hl]
    | false => simp [hr, hl]
  · rw [if_neg (by omega)]
    cases e with
    | nil => exact absurd he (by simp [IsVlq])
    | cons b e =>
      have := vlqLoop_debug_long e b tail ((b.toNat >>> 1) &&& 0x3f) 0 he (by simp at hl; omega) (by omega)
      simp only [Nat.mul_zero, Nat.add_zero] at this
      simp only [parseVlq, List.cons_append, this, Res.bind_panic]

theorem parseVlq_release_run (e tail : List UInt8) (he : IsVlq e) :
    parseVlq .release (e ++ tail) = .ok (tail, if e.length ≤ 10 then wrapI64 (vlqVal e) else vlqOverlong e) := by
  by_cases hl : e.length ≤ 10
  · rw [parseVlq_run _ _ _ he hl, if_pos hl]
    unfold vlqVal
    have hr := toI64_range (vlqMag e)
    cases vlqNeg e with
    | true => simp only [if_true]; rw [negI64_release _ hr]; rfl
    | false => simp [wrapI64_of_inI64 hr]
  · rw [if_neg hl]
    cases e with
    | nil => exact absurd he (by simp [IsVlq])
    | cons b e =>
      have hr' := vlqLoop_release e b ((b.toNat >>> 1) &&& 0x3f) 0 tail he
      simp only [Nat.mul_zero, Nat.add_zero] at hr'
      have e1 : (b.toNat >>> 1) &&& 0x3f = b.toNat / 2 % 64 := by
        rw [and3f, Nat.shiftRight_eq_div_pow]
      rw [e1] at hr'
      simp only [parseVlq, List.cons_append, e1, hr', Res.bind_ok, and1, vlqOverlong]
      split
      · rw [negI64_release _ (toI64_range _)]; rfl
      · rfl

theorem parseVlq_trunc (bld : Build) (i : List UInt8) (h : ∀ b ∈ i, 128 ≤ b.toNat) :
    parseVlq bld i = .err .eof ∨ (bld = .debug ∧ parseVlq bld i = .panic) := by
  cases i with
  | nil => left; rfl
  | cons b i =>
    have := vlqLoop_trunc bld i b ((b.toNat >>> 1) &&& 0x3f) 6 (h b (by simp)) (fun x hx => h x (by simp [hx]))
    simp only [parseVlq]
    rcases this with h1 | ⟨h1, h2⟩
    · left; rw [h1]; rfl
    · right; rw [h2]; exact ⟨h1, rfl⟩

/-- `parse_vlq_int` accepts exactly the wire relation. -/
theorem parseVlq_iff (bld : Build) (i tail : List UInt8) (x : Int) :
    parseVlq bld i = .ok (tail, x) ↔ ∃ e, i = e ++ tail ∧ VlqEnc bld x e := by
  constructor
  · intro h
    rcases vlq_split i with ⟨e, t, rfl, he⟩ | htr
    · cases bld with
      | debug =>
        rw [parseVlq_debug_run _ _ he] at h
        split at h
        · simp at h; obtain ⟨rfl, rfl⟩ := h
          rename_i hh
          exact ⟨e, rfl, he, hh.1, hh.2, rfl⟩
        · simp at h
      | release =>
        rw [parseVlq_release_run _ _ he] at h
        simp at h; obtain ⟨rfl, h⟩ := h
        refine ⟨e, rfl, he, ?_, ?_⟩
        · intro hl; rw [if_pos hl] at h; exact h.symm
        · intro hl; rw [if_neg (by omega)] at h; exact h.symm
    · rcases parseVlq_trunc bld i htr with h1 | ⟨_, h1⟩ <;> rw [h1] at h <;> simp at h
  · rintro ⟨e, rfl, he, hx⟩
    cases bld with
    | debug =>
      obtain ⟨h1, h2, rfl⟩ := hx
      rw [parseVlq_debug_run _ _ he, if_pos ⟨h1, h2⟩]
    | release =>
      rw [parseVlq_release_run _ _ he]
      by_cases hl : e.length ≤ 10
      · rw [if_pos hl, ← hx.1 hl]
      · rw [if_neg hl, ← hx.2 (by omega)]

theorem parseVlq_release_ne_panic (i : List UInt8) : parseVlq .release i ≠ .panic := by
  rcases vlq_split i with ⟨e, t, rfl, he⟩ | htr
  · rw [parseVlq_release_run _ _ he]; simp
  · rcases parseVlq_trunc .release i htr with h1 | ⟨h1, _⟩
    · rw [h1]; simp
    · simp at h1

/-- Debug and release agree unless debug panics. -/
theorem parseVlq_debug_release (i : List UInt8) :
    parseVlq .debug i = .panic ∨ parseVlq .debug i = parseVlq .release i := by
  rcases vlq_split i with ⟨e, t, rfl, he⟩ | htr
  · rw [parseVlq_debug_run _ _ he, parseVlq_release_run _ _ he]
    split
    · rename_i h; right; rw [if_pos h.1, wrapI64_of_inI64 h.2]
    · left; rfl
  · rcases parseVlq_trunc .debug i htr with h1 | ⟨_, h1⟩
    · rcases parseVlq_trunc .release i htr with h2 | ⟨h2, _⟩
      · right; rw [h1, h2]
      · simp at h2
    · left; exact h1

/-! ## Encoder -/

theorem encGroups_spec (f : Nat) : ∀ (m : Nat), m < f →
    IsVlq (encGroups f m) ∧ vlqGroups (encGroups f m) = m ∧
      ∀ k, m < 128 ^ (k + 1) → (encGroups f m).length ≤ k + 1 := by
  induction f with
  | zero => intro m h; omega
  | succ f ih =>
    intro m h
    simp only [encGroups]
    split
    · rename_i h128
      have e : (UInt8.ofNat m).toNat = m := by rw [UInt8.toNat_ofNat']; omega
      refine ⟨by simpa [IsVlq, e] using h128, ?_, ?_⟩
      · simp [vlqGroups, e]; omega
      · intro k _; simp
    · rename_i h128
      have e : (UInt8.ofNat (m % 128 + 128)).toNat = m % 128 + 128 := by
        rw [UInt8.toNat_ofNat']; omega
      obtain ⟨h1, h2, h3⟩ := ih (m / 128) (by omega)
      refine ⟨(IsVlq_cons _ _).mpr (Or.inr ⟨by omega, h1⟩), ?_, ?_⟩
      · simp only [vlqGroups, e, h2]; omega
      · intro k hk
        cases k with
        | zero => simp at hk; omega
        | succ k =>
          have := h3 k (by
            rw [Nat.div_lt_iff_lt_mul (by omega)]
            rw [Nat.pow_succ] at hk; exact hk)
          simp only [List.length_cons]; omega

theorem toI64_of_lt {n : Nat} (h : n < 2 ^ 63) : toI64 n = n := by
  unfold toI64
  rw [Nat.mod_eq_of_lt (by omega)]
  simp [h]

/-- The encoder produces a wire form of `x`. -/
theorem encVlq_enc (bld : Build) (x : Int) (h : i64Min < x ∧ x ≤ i64Max) : VlqEnc bld x (encVlq x) := by
  have hm : x.natAbs < 2 ^ 63 := by unfold i64Min i64Max at h; omega
  have key : IsVlq (encVlq x) ∧ (encVlq x).length ≤ 10 ∧ vlqVal (encVlq x) = x := by
    unfold encVlq
    dsimp only
    generalize hs : (if x < 0 then 1 else 0) = s
    have hs1 : s ≤ 1 := by split at hs <;> omega
    split
    · rename_i h64
      have e : (UInt8.ofNat (x.natAbs * 2 + s)).toNat = x.natAbs * 2 + s := by
        rw [UInt8.toNat_ofNat']; omega
      refine ⟨by simp only [IsVlq, e]; omega, by simp, ?_⟩
      simp only [vlqVal, vlqNeg, vlqMag, vlqGroups, e]
      have hmag : (x.natAbs * 2 + s) / 2 % 64 + 64 * 0 = x.natAbs := by omega
      rw [hmag, toI64_of_lt hm]
      have hs2 : (x.natAbs * 2 + s) % 2 = s := by omega
      rw [hs2]
      split at hs <;> subst hs <;> simp <;> omega
    · rename_i h64
      have e : (UInt8.ofNat (128 + x.natAbs % 64 * 2 + s)).toNat = 128 + x.natAbs % 64 * 2 + s := by
        rw [UInt8.toNat_ofNat']; omega
      obtain ⟨h1, h2, h3⟩ := encGroups_spec (x.natAbs + 1) (x.natAbs / 64) (by omega)
      refine ⟨(IsVlq_cons _ _).mpr (Or.inr ⟨by omega, h1⟩), ?_, ?_⟩
      · have := h3 8 (by
          rw [Nat.div_lt_iff_lt_mul (by omega)]
          have : (128 : Nat) ^ (8 + 1) * 64 = 2 ^ 69 := by decide
          omega)
        simp only [List.length_cons]; omega
      · simp only [vlqVal, vlqNeg, vlqMag, e, h2]
        have hmag : (128 + x.natAbs % 64 * 2 + s) / 2 % 64 + 64 * (x.natAbs / 64) = x.natAbs := by omega
        rw [hmag, toI64_of_lt hm]
        have hs2 : (128 + x.natAbs % 64 * 2 + s) % 2 = s := by omega
        rw [hs2]
        split at hs <;> subst hs <;> simp <;> omega
  obtain ⟨h1, h2, h3⟩ := key
  have hin : inI64 x := ⟨by omega, h.2⟩
  refine ⟨h1, ?_⟩
  cases bld with
  | debug => exact ⟨h2, by rw [h3]; exact hin, h3.symm⟩
  | release => exact ⟨fun _ => by rw [h3, wrapI64_of_inI64 hin], fun h => absurd h2 (by omega)⟩

end S2
