import Verif.Spec.GenDeclSpec
import Verif.Props.Generator
/-! # Generated modules against the description (C142) -/
namespace S2.Generator
open S2

theorem lt_width (n : Nat) : n < 2 ^ width n := by
  cases n with
  | zero => decide
  | succ n => exact Nat.lt_log2_self

theorem width_of_pow (k : Nat) : width (2 ^ k - 1) = k := by
  cases k with
  | zero => rfl
  | succ k =>
    have h : 0 < 2 ^ (k + 1) - 1 := by have := Nat.one_lt_two_pow (n := k + 1) (by omega); omega
    obtain ⟨m, hm⟩ : ∃ m, 2 ^ (k + 1) - 1 = m + 1 := ⟨2 ^ (k + 1) - 1 - 1, by omega⟩
    rw [hm]
    show (m + 1).log2 + 1 = k + 1
    have h1 : (m + 1).log2 < k + 1 := (Nat.log2_lt (by omega)).2 (by omega)
    have h2 : k ≤ (m + 1).log2 := (Nat.le_log2 (by omega)).2 (by rw [← hm, Nat.pow_succ]; have := Nat.two_pow_pos k; omega)
    omega

theorem log2p1_width (x : Int) (h : 0 ≤ x) : log2p1 x = width x.toNat := by
  unfold log2p1
  by_cases h0 : x ≤ 0
  · have : x = 0 := by omega
    subst this; rfl
  · rw [if_neg h0]
    obtain ⟨m, hm⟩ : ∃ m, x.toNat = m + 1 := ⟨x.toNat - 1, by omega⟩
    rw [hm]; rfl

/-- The width does not grow with one more unless the end of a power of two is reached. -/
theorem width_succ (n : Nat) (h : ∀ k : Nat, n + 1 ≠ 2 ^ k) : width (n + 1) = width n := by
  cases n with
  | zero => exact absurd rfl (h 0)
  | succ n =>
    show (n + 1 + 1).log2 + 1 = (n + 1).log2 + 1
    have h1 : (n + 1 + 1).log2 < (n + 1).log2 + 1 := by
      rw [Nat.log2_lt (by omega)]
      have := Nat.lt_log2_self (n := n + 1)
      have := h ((n + 1).log2 + 1)
      omega
    have h2 : (n + 1).log2 ≤ (n + 1 + 1).log2 := by
      rw [Nat.le_log2 (by omega)]
      have := Nat.log2_self_le (n := n + 1) (by omega)
      omega
    omega

theorem width_mul_four (n : Nat) (h : 0 < n) : width (4 * n) = width n + 2 := by
  obtain ⟨m, rfl⟩ : ∃ m, n = m + 1 := ⟨n - 1, by omega⟩
  show (4 * m + 3 + 1).log2 + 1 = (m + 1).log2 + 1 + 2
  have e : 4 * m + 3 + 1 = 2 * (2 * (m + 1)) := by omega
  rw [e, Nat.log2_two_mul (by omega), Nat.log2_two_mul (by omega)]

theorem width_le (n k : Nat) (h : n < 2 ^ k) : width n ≤ k := by
  cases n with
  | zero => exact Nat.zero_le _
  | succ n => exact (Nat.log2_lt (by omega)).2 h

theorem tagBits_width (n : Nat) : tagBits n = width (n - 1) := by
  unfold tagBits
  split
  · have : n - 1 = 0 := by omega
    rw [this]; rfl
  · obtain ⟨m, hm⟩ : ∃ m, n - 1 = m + 1 := ⟨n - 2, by omega⟩
    rw [hm]; rfl

theorem maxBits_width (b : Bounds) (h : b.minIncl = true) (h0 : 0 ≤ b.hi) : maxBits b = width b.hi.toNat := by
  unfold maxBits
  rw [← log2p1_width _ h0]
  unfold Bounds.hi
  simp only [h, if_true]

theorem notPow_toNat {b : Bounds} (h0 : 0 ≤ b.hi) (h : b.notPow) (k : Nat) : b.hi.toNat + 1 ≠ 2 ^ k := by
  intro e
  refine h k ?_
  have : ((b.hi.toNat + 1 : Nat) : Int) = ((2 ^ k : Nat) : Int) := by rw [e]
  rw [Int.natCast_pow] at this
  have h4 : ((2 : Nat) : Int) ^ k = 2 ^ k := rfl
  rw [h4] at this
  omega

theorem arrayBits_width (b : Bounds) (h0 : 0 ≤ b.hi) (h : b.notPow) : arrayBits b = width b.hi.toNat := by
  have e : (if b.maxIncl = true then b.max + 1 else b.max) = b.hi + 1 := by
    unfold Bounds.hi; split <;> omega
  unfold arrayBits
  rw [e, log2p1_width _ (by omega)]
  have : (b.hi + 1).toNat = b.hi.toNat + 1 := by omega
  rw [this, width_succ _ (notPow_toNat h0 h)]

theorem inlineBits_width (b : Bounds) (h0 : 0 ≤ b.hi) (h : b.maxIncl = true ∨ b.notPow) : log2p1 b.max = width b.hi.toNat := by
  by_cases hm : b.maxIncl = true
  · have e : b.max = b.hi := by unfold Bounds.hi; rw [if_pos hm]
    rw [e, log2p1_width _ h0]
  · have e : b.max = b.hi + 1 := by unfold Bounds.hi; rw [if_neg hm]; omega
    rw [e, log2p1_width _ (by omega)]
    have : (b.hi + 1).toNat = b.hi.toNat + 1 := by omega
    rw [this, width_succ _ (notPow_toNat h0 (h.resolve_left hm))]

theorem two_pow_toNat (k : Nat) : ((2 : Int) ^ k - 1).toNat = 2 ^ k - 1 := by
  have h4 : ((2 : Nat) : Int) ^ k = 2 ^ k := rfl
  have h := Nat.two_pow_pos k
  have : ((2 ^ k : Nat) : Int) = 2 ^ k := by rw [Int.natCast_pow]; rfl
  omega

theorem goodInt_lo {b : Bounds} (h : b.goodInt) : b.lo = b.min := by unfold Bounds.lo; rw [if_pos h.1]

theorem goodInt_width {b : Bounds} (h : b.goodInt) : intBits b = width (b.hi - b.lo).toNat := by
  rw [goodInt_lo h]
  obtain ⟨hi, h | ⟨k, hk, hmin, h⟩⟩ := h
  · obtain ⟨hmin, h0, h⟩ := h
    have hneg : ¬ b.min < 0 := by omega
    rw [hmin, Int.sub_zero]
    rcases h with ⟨hp, _⟩ | ⟨k, _, hp, hm, hx⟩
    · simp only [intBits, hp, if_neg hneg, maxBits_width b hi h0]
    · simp only [intBits, hp, if_neg hneg]
      have e : b.hi = 2 ^ k - 1 := by unfold Bounds.hi; rw [hx, hm]; rfl
      rw [e, two_pow_toNat, width_of_pow]
  · have hneg : b.min < 0 := by rw [hmin]; have := Int.pow_pos (n := 2) (m := k) (by omega); omega
    have e : b.hi = 2 ^ k - 1 := by
      rcases h with ⟨_, h⟩ | ⟨_, hm, hx⟩
      · exact h
      · unfold Bounds.hi; rw [hx, hm]; rfl
    have hw : width (b.hi - b.min).toNat = k + 1 := by
      have e2 : b.hi - b.min = 2 ^ (k + 1) - 1 := by rw [e, hmin, pow_succ_two]; omega
      rw [e2, two_pow_toNat, width_of_pow]
    rw [hw]
    rcases h with ⟨hp, h⟩ | ⟨hp, _⟩
    · simp only [intBits, hp, if_pos hneg]
      rw [maxBits_width b hi (by have := Int.pow_pos (n := 2) (m := k) (by omega); omega), e, two_pow_toNat, width_of_pow]
    · simp only [intBits, hp, if_pos hneg]

/-! ## Each declaration -/

/-- The type carries the described values, in the described wire form. -/
def Right (bld : Build) (ty : BTy) (has : Val → Prop) (wire : Nat → Val → List Bool) : Prop :=
  ty.wf = true ∧ ∀ v, has v → BHas bld ty v ∧ ∀ off, benc ty off v = wire off v

theorem encSeq_congr (f g : Nat → Val → List Bool) (vs : List Val) (h : ∀ w ∈ vs, ∀ o, f o w = g o w) (off : Nat) :
    encSeq f off vs = encSeq g off vs := by
  induction vs generalizing off with
  | nil => rfl
  | cons v vs ih =>
    rw [encSeq, encSeq, h v (List.mem_cons_self ..), ih (fun w hw => h w (List.mem_cons_of_mem _ hw))]

theorem fromZero_facts {b : Bounds} (h : b.fromZero) : b.lo = 0 ∧ b.hi - b.lo = b.hi ∧ width b.hi.toNat ≤ 16 ∧
    ((b.hi.toNat : Nat) : Int) = b.hi := by
  obtain ⟨h1, h2, h3, h4⟩ := h
  have e : b.lo = 0 := by unfold Bounds.lo; rw [if_pos h2, h1]
  exact ⟨e, by omega, width_le _ _ (by omega), by omega⟩

theorem arr_right (bld : Build) (b : Bounds) (hb : b.fromZero) (t : BTy) (has : Val → Prop) (wire : Nat → Val → List Bool)
    (h : Right bld t has wire) :
    Right bld (.arr (width b.hi.toNat) t) (fun v => ∃ vs, v = .list vs ∧ b.lo ≤ vs.length ∧ vs.length ≤ b.hi ∧ ∀ w ∈ vs, has w)
      (fun off v => match v with
        | .list vs => wireInt b off vs.length ++ encSeq wire ((off + width (b.hi - b.lo).toNat) % 8) vs
        | _ => []) := by
  obtain ⟨hlo, hd, hw, hn⟩ := fromZero_facts hb
  refine ⟨by rw [BTy.wf]; exact h.1, ?_⟩
  rintro _ ⟨vs, rfl, h1, h2, h3⟩
  have hlt := lt_width b.hi.toNat
  refine ⟨⟨vs, rfl, by omega, by omega, fun w hw => (h.2 w (h3 w hw)).1⟩, ?_⟩
  intro off
  simp only [benc, wireInt, hd, hlo, Int.sub_zero, Int.toNat_natCast]
  rw [encSeq_congr _ wire vs (fun w hw o => (h.2 w (h3 w hw)).2 o)]

theorem int_right (bld : Build) (b : Bounds) (n : Nat) (hmin : b.minIncl = true) (hn : n = width (b.hi - b.lo).toNat)
    (h1 : -2 ^ 39 ≤ b.min ∧ b.min ≤ 0) (h2 : b.hi < 2 ^ 62) :
    Right bld (.int b.min n) (fun v => ∃ x, v = .int x ∧ b.lo ≤ x ∧ x ≤ b.hi)
      (fun off v => match v with | .int x => wireInt b off x | _ => []) := by
  have hlo : b.lo = b.min := by unfold Bounds.lo; rw [if_pos hmin]
  refine ⟨rfl, ?_⟩
  rintro _ ⟨x, rfl, hx1, hx2⟩
  have hlt := lt_width (b.hi - b.lo).toNat
  have hle : n ≤ 63 := by rw [hn]; exact width_le _ _ (by omega)
  refine ⟨⟨x, rfl, by omega, ?_, by omega, ?_, .inl (by omega)⟩, ?_⟩
  · unfold inI64 i64Min i64Max; omega
  · rw [hn]
    have : (((b.hi - b.lo).toNat : Nat) : Int) < ((2 ^ width (b.hi - b.lo).toNat : Nat) : Int) := Int.ofNat_lt.2 hlt
    rw [Int.natCast_pow] at this
    have h4 : ((2 : Nat) : Int) ^ width (b.hi - b.lo).toNat = 2 ^ width (b.hi - b.lo).toNat := rfl
    rw [h4] at this
    omega
  · intro off
    simp only [benc, wireInt, hn, hlo]

theorem goodInt_range {b : Bounds} (h : b.goodInt) : (-2 ^ 39 ≤ b.min ∧ b.min ≤ 0) ∧ b.hi < 2 ^ 62 := by
  obtain ⟨hi, h | ⟨k, hk, hmin, h⟩⟩ := h
  · obtain ⟨hmin, h0, h⟩ := h
    refine ⟨by omega, ?_⟩
    rcases h with ⟨hp, _⟩ | ⟨k, hk, hp, hm, hx⟩
    · unfold Bounds.hi; split <;> omega
    · have := pow_le_pow k 62 hk
      unfold Bounds.hi; rw [hx, hm]; simp only [Bool.false_eq_true, if_false]; omega
  · have h1 := pow_le_pow k 39 hk
    have h2 := Int.pow_pos (n := 2) (m := k) (by omega)
    refine ⟨by omega, ?_⟩
    rcases h with ⟨_, h⟩ | ⟨_, hm, hx⟩
    · omega
    · unfold Bounds.hi; rw [hx, hm]; simp only [Bool.false_eq_true, if_false]; omega

theorem choice_right (bld : Build) (n : Nat) (hn : n ≤ 2 ^ 16) (alts : BAlts) (has : Int → Val → Prop) (wire : Int → Nat → Val → List Bool)
    (hwf : alts.wf = true) (htag : ∀ tag w, has tag w → 0 ≤ tag ∧ tag < n)
    (h : ∀ tag w, has tag w → BAltHas bld alts tag w ∧ ∀ off, bencAlt alts tag off w = wire tag off w) :
    Right bld (.choice (tagBits n) alts) (fun v => ∃ tag w, v = .choice tag w ∧ has tag w)
      (fun off v => match v with
        | .choice tag w => encBits off (width (n - 1)) tag.toNat ++ wire tag ((off + width (n - 1)) % 8) w
        | _ => []) := by
  refine ⟨by rw [BTy.wf]; exact hwf, ?_⟩
  rintro _ ⟨tag, w, rfl, hh⟩
  obtain ⟨t0, tn⟩ := htag tag w hh
  have hlt := lt_width (n - 1)
  have hle : width (n - 1) ≤ 16 := width_le _ _ (by omega)
  have h4 : ((2 ^ width (n - 1) : Nat) : Int) = 2 ^ width (n - 1) := by rw [Int.natCast_pow]; rfl
  refine ⟨⟨tag, w, rfl, by rw [tagBits_width]; omega, t0, by rw [tagBits_width]; omega, by omega, (h tag w hh).1⟩, ?_⟩
  intro off
  simp only [benc, tagBits_width, (h tag w hh).2]

theorem Variants.count_tags : ∀ vs : Variants, vs.count = vs.tags.length
  | .nil => rfl
  | .cons _ _ rest => by rw [Variants.count, Variants.tags, List.length_cons, Variants.count_tags rest]

theorem Values.count_tags : ∀ vs : Values, vs.count = vs.tags.length
  | .nil => rfl
  | .plain _ rest => by rw [Values.count, Values.tags, List.length_cons, Values.count_tags rest]
  | .event _ _ rest => by rw [Values.count, Values.tags, List.length_cons, Values.count_tags rest]

theorem Variants.has_tag (e : Bool) (n : Nat) : ∀ (vs : Variants), vs.tagsBelow n → ∀ tag w, vs.Has e tag w → 0 ≤ tag ∧ tag < n
  | .nil, _, _, _, h => by rw [Variants.Has] at h; exact h.elim
  | .cons t ty rest, hb, tag, w, h => by
    rw [Variants.Has] at h
    obtain ⟨h1, h2, h3⟩ := hb
    split at h
    · rename_i e; subst e; exact ⟨h1, h2⟩
    · exact Variants.has_tag e n rest h3 tag w h

theorem Values.has_tag (e : Bool) (n : Nat) : ∀ (vs : Values), vs.tagsBelow n → ∀ tag w, vs.Has e tag w → 0 ≤ tag ∧ tag < n
  | .nil, _, _, _, h => by rw [Values.Has] at h; exact h.elim
  | .plain t rest, hb, tag, w, h => by
    rw [Values.Has] at h
    obtain ⟨h1, h2, h3⟩ := hb
    split at h
    · rename_i e; subst e; exact ⟨h1, h2⟩
    · exact Values.has_tag e n rest h3 tag w h
  | .event t d rest, hb, tag, w, h => by
    rw [Values.Has] at h
    obtain ⟨h1, h2, h3⟩ := hb
    split at h
    · rename_i e; subst e; exact ⟨h1, h2⟩
    · exact Values.has_tag e n rest h3 tag w h

theorem opt_right (bld : Build) (t : BTy) (has : Val → Prop) (wire : Nat → Val → List Bool) (h : Right bld t has wire) :
    Right bld (.opt t) (fun v => v = .none ∨ ∃ w, v = .some w ∧ has w)
      (fun off v => match v with | .some w => true :: wire ((off + 1) % 8) w | .none => [false] | _ => []) := by
  refine ⟨by rw [BTy.wf]; exact h.1, ?_⟩
  rintro _ (rfl | ⟨w, rfl, hw⟩)
  · exact ⟨.inl rfl, fun off => rfl⟩
  · exact ⟨.inr ⟨w, rfl, (h.2 w hw).1⟩, fun off => by simp only [benc, (h.2 w hw).2]⟩

theorem Right.congr {bld : Build} {ty : BTy} {has has' : Val → Prop} {wire wire' : Nat → Val → List Bool} (h : Right bld ty has wire)
    (h1 : ∀ v, has' v → has v) (h2 : ∀ v, has' v → ∀ off, wire off v = wire' off v) : Right bld ty has' wire' :=
  ⟨h.1, fun v hv => ⟨(h.2 v (h1 v hv)).1, fun off => ((h.2 v (h1 v hv)).2 off).trans (h2 v hv off)⟩⟩


mutual
theorem member_right (bld : Build) (name : String) : ∀ (t : Desc), t.Good name →
    ∃ ty, genMember name t = some ty ∧ Right bld ty (t.Has false) t.wire
  | .ref d, h => by
    rw [Desc.Good] at h
    obtain ⟨ty, h1, h2⟩ := decl_right bld d h
    exact ⟨ty, by rw [genMember, h1], h2.congr (fun v hv => by rwa [Desc.Has] at hv) (fun v _ off => by rw [Desc.wire])⟩
  | .bool, _ => ⟨.bool, by rw [genMember], rfl, fun v hv => by
      rw [Desc.Has] at hv; obtain ⟨b, rfl⟩ := hv
      exact ⟨⟨b, rfl⟩, fun off => by rw [Desc.wire]; rfl⟩⟩
  | .null, _ => ⟨.null, by rw [genMember], rfl, fun v hv => by
      rw [Desc.Has] at hv; subst hv
      exact ⟨rfl, fun off => rfl⟩⟩
  | .fourcc, _ => ⟨.fourcc, by rw [genMember], rfl, fun v hv => by
      rw [Desc.Has] at hv; obtain ⟨bs, rfl, hl⟩ := hv
      exact ⟨⟨bs, rfl, hl⟩, fun off => by rw [Desc.wire]; rfl⟩⟩
  | .int b, h => by
    rw [Desc.Good] at h
    obtain ⟨h1, h2, h3, h4⟩ := h
    refine ⟨_, by rw [genMember], (int_right bld b (maxBits b) h2 ?_ (by omega) ?_).congr (fun v hv => by rwa [Desc.Has] at hv) ?_⟩
    · have : b.lo = 0 := by unfold Bounds.lo; rw [if_pos h2, h1]
      rw [maxBits_width b h2 h3, this, Int.sub_zero]
    · unfold Bounds.hi; split <;> omega
    · intro v hv off
      rw [Desc.Has] at hv; obtain ⟨x, rfl, _⟩ := hv
      rw [Desc.wire]
  | .blob _, h => by rw [Desc.Good] at h <;> simp_all
  | .string _, h => by rw [Desc.Good] at h <;> simp_all
  | .ascii _, h => by rw [Desc.Good] at h <;> simp_all
  | .bitArray _, h => by rw [Desc.Good] at h <;> simp_all
  | .array b t, h => by
    cases t with
    | ref d =>
      rw [Desc.Good] at h
      obtain ⟨hb, hi, hd⟩ := h
      obtain ⟨ty, h1, h2⟩ := decl_right bld d hd
      refine ⟨_, by rw [genMember, h1, inlineBits_width b hb.2.2.1 hi]; rfl, (arr_right bld b hb ty _ _ h2).congr ?_ ?_⟩
      · intro v hv
        rw [Desc.Has] at hv
        obtain ⟨vs, rfl, a1, a2, a3⟩ := hv
        exact ⟨vs, rfl, a1, a2, fun w hw => by have := a3 w hw; rwa [Desc.Has] at this⟩
      · intro v hv off
        rw [Desc.Has] at hv
        obtain ⟨vs, rfl, _⟩ := hv
        simp only [Desc.wire]
    | _ => rw [Desc.Good] at h <;> simp_all
  | .dynArray b t, h => by
    cases t with
    | ref d =>
      rw [Desc.Good] at h
      obtain ⟨hb, hi, hd⟩ := h
      obtain ⟨ty, h1, h2⟩ := decl_right bld d hd
      refine ⟨_, by rw [genMember, h1, inlineBits_width b hb.2.2.1 hi]; rfl, (arr_right bld b hb ty _ _ h2).congr ?_ ?_⟩
      · intro v hv
        rw [Desc.Has] at hv
        obtain ⟨vs, rfl, a1, a2, a3⟩ := hv
        exact ⟨vs, rfl, a1, a2, fun w hw => by have := a3 w hw; rwa [Desc.Has] at this⟩
      · intro v hv off
        rw [Desc.Has] at hv
        obtain ⟨vs, rfl, _⟩ := hv
        simp only [Desc.wire]
    | _ => rw [Desc.Good] at h <;> simp_all
  | .optional t, h => by
    cases t with
    | ref d =>
      rw [Desc.Good] at h
      obtain ⟨ty, h1, h2⟩ := decl_right bld d h
      refine ⟨_, by rw [genMember, genOptional, h1]; rfl, (opt_right bld ty _ _ h2).congr ?_ ?_⟩
      · intro v hv
        rw [Desc.Has] at hv
        rcases hv with rfl | ⟨w, rfl, hw⟩
        · exact .inl rfl
        · exact .inr ⟨w, rfl, by rwa [Desc.Has] at hw⟩
      · intro v hv off
        rw [Desc.Has] at hv
        rcases hv with rfl | ⟨w, rfl, hw⟩
        · rw [Desc.wire]
        · simp only [Desc.wire]
    | bool =>
      refine ⟨_, by rw [genMember, genOptional], rfl, fun v hv => ?_⟩
      rw [Desc.Has] at hv
      rcases hv with rfl | ⟨w, rfl, hw⟩
      · exact ⟨.inl rfl, fun off => by rw [Desc.wire]; rfl⟩
      · rw [Desc.Has] at hw
        obtain ⟨x, rfl⟩ := hw
        exact ⟨.inr ⟨_, rfl, x, rfl⟩, fun off => by simp only [Desc.wire, benc]⟩
    | fourcc =>
      refine ⟨_, by rw [genMember, genOptional], rfl, fun v hv => ?_⟩
      rw [Desc.Has] at hv
      rcases hv with rfl | ⟨w, rfl, hw⟩
      · exact ⟨.inl rfl, fun off => by rw [Desc.wire]; rfl⟩
      · rw [Desc.Has] at hw
        obtain ⟨x, rfl, hx⟩ := hw
        exact ⟨.inr ⟨_, rfl, x, rfl, hx⟩, fun off => by simp only [Desc.wire, benc]⟩
    | _ => rw [Desc.Good] at h <;> simp_all
  | .choice vs, h => by
    rw [Desc.Good] at h
    obtain ⟨hn, hg, ht, hc⟩ := h
    obtain ⟨alts, h1, h2, h3⟩ := variants_right bld vs hg
    refine ⟨_, by rw [genMember, if_pos hn, h1, vs.count_tags]; rfl, (choice_right bld vs.tags.length hc alts (vs.Has false) vs.wire h2
      (Variants.has_tag false _ vs ht) h3).congr (fun v hv => by rwa [Desc.Has] at hv) ?_⟩
    intro v hv off
    rw [Desc.Has] at hv
    obtain ⟨tag, w, rfl, _⟩ := hv
    rw [Desc.wire]
  | .other, h => by rw [Desc.Good] at h <;> simp_all
theorem payload_right (bld : Build) : ∀ (t : Desc), t.GoodPayload →
    ∃ ty, genPayload t = some ty ∧ Right bld ty (t.Has false) t.wire
  | .ref d, h => by
    rw [Desc.GoodPayload] at h
    obtain ⟨ty, h1, h2⟩ := decl_right bld d h
    exact ⟨ty, by rw [genPayload, h1], h2.congr (fun v hv => by rwa [Desc.Has] at hv) (fun v _ off => by rw [Desc.wire])⟩
  | .bool, _ => ⟨.bool, by rw [genPayload], rfl, fun v hv => by
      rw [Desc.Has] at hv; obtain ⟨b, rfl⟩ := hv
      exact ⟨⟨b, rfl⟩, fun off => by rw [Desc.wire]; rfl⟩⟩
  | .null, _ => ⟨.null, by rw [genPayload], rfl, fun v hv => by
      rw [Desc.Has] at hv; subst hv
      exact ⟨rfl, fun off => rfl⟩⟩
  | .fourcc, _ => ⟨.fourcc, by rw [genPayload], rfl, fun v hv => by
      rw [Desc.Has] at hv; obtain ⟨bs, rfl, hl⟩ := hv
      exact ⟨⟨bs, rfl, hl⟩, fun off => by rw [Desc.wire]; rfl⟩⟩
  | .int _, h => by rw [Desc.GoodPayload] at h <;> simp_all
  | .blob _, h => by rw [Desc.GoodPayload] at h <;> simp_all
  | .string _, h => by rw [Desc.GoodPayload] at h <;> simp_all
  | .ascii _, h => by rw [Desc.GoodPayload] at h <;> simp_all
  | .bitArray _, h => by rw [Desc.GoodPayload] at h <;> simp_all
  | .array _ _, h => by rw [Desc.GoodPayload] at h <;> simp_all
  | .dynArray _ _, h => by rw [Desc.GoodPayload] at h <;> simp_all
  | .choice _, h => by rw [Desc.GoodPayload] at h <;> simp_all
  | .other, h => by rw [Desc.GoodPayload] at h <;> simp_all
  | .optional t, h => by
    cases t with
    | ref d =>
      rw [Desc.GoodPayload] at h
      obtain ⟨ty, h1, h2⟩ := decl_right bld d h
      refine ⟨_, by rw [genPayload, h1]; rfl, (opt_right bld ty _ _ h2).congr ?_ ?_⟩
      · intro v hv
        rw [Desc.Has] at hv
        rcases hv with rfl | ⟨w, rfl, hw⟩
        · exact .inl rfl
        · exact .inr ⟨w, rfl, by rwa [Desc.Has] at hw⟩
      · intro v hv off
        rw [Desc.Has] at hv
        rcases hv with rfl | ⟨w, rfl, hw⟩
        · rw [Desc.wire]
        · simp only [Desc.wire]
    | _ => rw [Desc.GoodPayload] at h <;> simp_all
theorem members_right (bld : Build) : ∀ (fs : Members), fs.Good → ∃ bf, genMembers fs = some bf ∧ bf.wf = true ∧
    ∀ vs, fs.Has false vs → BFieldsHas bld bf vs ∧ ∀ off, bencFields bf off vs = fs.wire off vs
  | .nil, _ => ⟨.nil, by rw [genMembers], rfl, fun vs h => by
      rw [Members.Has] at h; subst h; exact ⟨rfl, fun off => by rw [Members.wire, bencFields] <;> simp⟩⟩
  | .const rest, h => by
    rw [Members.Good] at h
    obtain ⟨bf, h1, h2, h3⟩ := members_right bld rest h
    refine ⟨bf, by rw [genMembers, h1], h2, fun vs hv => ?_⟩
    rw [Members.Has] at hv
    exact ⟨(h3 vs hv).1, fun off => by rw [Members.wire]; exact (h3 vs hv).2 off⟩
  | .member name t rest, h => by
    rw [Members.Good] at h
    obtain ⟨ty, a1, a2⟩ := member_right bld name t h.1
    obtain ⟨bf, h1, h2, h3⟩ := members_right bld rest h.2
    refine ⟨.cons name ty bf, by rw [genMembers, a1, h1], by rw [BFields.wf, a2.1, h2]; rfl, fun vs hv => ?_⟩
    rw [Members.Has] at hv
    obtain ⟨v, vs', rfl, b1, b2⟩ := hv
    refine ⟨⟨v, vs', rfl, (a2.2 v b1).1, (h3 vs' b2).1⟩, fun off => ?_⟩
    rw [Members.wire, bencFields, (a2.2 v b1).2, (h3 vs' b2).2]
theorem variants_right (bld : Build) : ∀ (vs : Variants), vs.Good → ∃ alts, genVariants vs = some alts ∧ alts.wf = true ∧
    ∀ tag w, vs.Has false tag w → BAltHas bld alts tag w ∧ ∀ off, bencAlt alts tag off w = vs.wire tag off w
  | .nil, _ => ⟨.nil, by rw [genVariants], rfl, fun tag w h => by rw [Variants.Has] at h; exact h.elim⟩
  | .cons t ty rest, h => by
    rw [Variants.Good] at h
    obtain ⟨bt, a1, a2⟩ := payload_right bld ty h.1
    obtain ⟨alts, h1, h2, h3⟩ := variants_right bld rest h.2
    refine ⟨.cons t bt alts, by rw [genVariants, a1, h1], by rw [BAlts.wf, a2.1, h2]; rfl, fun tag w hv => ?_⟩
    rw [Variants.Has] at hv
    by_cases ht : tag = t
    · rw [if_pos ht] at hv
      exact ⟨by rw [BAltHas, if_pos ht]; exact (a2.2 w hv).1, fun off => by
        rw [bencAlt, Variants.wire, if_pos ht, if_pos ht, (a2.2 w hv).2]⟩
    · rw [if_neg ht] at hv
      exact ⟨by rw [BAltHas, if_neg ht]; exact (h3 tag w hv).1, fun off => by
        rw [bencAlt, Variants.wire, if_neg ht, if_neg ht, (h3 tag w hv).2]⟩
theorem values_right (bld : Build) : ∀ (vs : Values), vs.Good → ∃ alts, genValues vs = some alts ∧ alts.wf = true ∧
    ∀ tag w, vs.Has false tag w → BAltHas bld alts tag w ∧ ∀ off, bencAlt alts tag off w = vs.wire tag off w
  | .nil, _ => ⟨.nil, by rw [genValues], rfl, fun tag w h => by rw [Values.Has] at h; exact h.elim⟩
  | .plain t rest, h => by
    rw [Values.Good] at h
    obtain ⟨alts, h1, h2, h3⟩ := values_right bld rest h
    refine ⟨.cons t .null alts, by rw [genValues, h1]; rfl, by rw [BAlts.wf, h2]; rfl, fun tag w hv => ?_⟩
    rw [Values.Has] at hv
    by_cases ht : tag = t
    · rw [if_pos ht] at hv
      subst hv
      exact ⟨by rw [BAltHas, if_pos ht]; rfl, fun off => by rw [bencAlt, Values.wire, if_pos ht, if_pos ht]; rfl⟩
    · rw [if_neg ht] at hv
      exact ⟨by rw [BAltHas, if_neg ht]; exact (h3 tag w hv).1, fun off => by
        rw [bencAlt, Values.wire, if_neg ht, if_neg ht, (h3 tag w hv).2]⟩
  | .event t d rest, h => by
    rw [Values.Good] at h
    obtain ⟨bt, a1, a2⟩ := decl_right bld d h.1
    obtain ⟨alts, h1, h2, h3⟩ := values_right bld rest h.2
    refine ⟨.cons t bt alts, by rw [genValues, a1, h1], by rw [BAlts.wf, a2.1, h2]; rfl, fun tag w hv => ?_⟩
    rw [Values.Has] at hv
    by_cases ht : tag = t
    · rw [if_pos ht] at hv
      exact ⟨by rw [BAltHas, if_pos ht]; exact (a2.2 w hv).1, fun off => by
        rw [bencAlt, Values.wire, if_pos ht, if_pos ht, (a2.2 w hv).2]⟩
    · rw [if_neg ht] at hv
      exact ⟨by rw [BAltHas, if_neg ht]; exact (h3 tag w hv).1, fun off => by
        rw [bencAlt, Values.wire, if_neg ht, if_neg ht, (h3 tag w hv).2]⟩
theorem decl_right (bld : Build) : ∀ (d : Decl), d.Good → ∃ ty, genDecl d = some ty ∧ Right bld ty (d.Has false) d.wire
  | .struct fs, h => by
    rw [Decl.Good] at h
    obtain ⟨bf, h1, h2, h3⟩ := members_right bld fs h
    refine ⟨.struct bf, by rw [genDecl, h1]; rfl, by rw [BTy.wf, h2], fun v hv => ?_⟩
    rw [Decl.Has] at hv
    obtain ⟨vs, rfl, hv⟩ := hv
    exact ⟨⟨vs, rfl, (h3 vs hv).1⟩, fun off => by rw [benc, Decl.wire, (h3 vs hv).2]⟩
  | .choice vs, h => by
    rw [Decl.Good] at h
    obtain ⟨hg, ht, hc⟩ := h
    obtain ⟨alts, h1, h2, h3⟩ := variants_right bld vs hg
    refine ⟨_, by rw [genDecl, h1, vs.count_tags]; rfl, (choice_right bld vs.tags.length hc alts (vs.Has false) vs.wire h2
      (Variants.has_tag false _ vs ht) h3).congr (fun v hv => by rwa [Decl.Has] at hv) ?_⟩
    intro v hv off
    rw [Decl.Has] at hv
    obtain ⟨tag, w, rfl, _⟩ := hv
    rw [Decl.wire]
  | .enum vs, h => by
    rw [Decl.Good] at h
    obtain ⟨hg, ht, hc⟩ := h
    obtain ⟨alts, h1, h2, h3⟩ := values_right bld vs hg
    refine ⟨_, by rw [genDecl, h1, vs.count_tags]; rfl, (choice_right bld vs.tags.length hc alts (vs.Has false) vs.wire h2
      (Values.has_tag false _ vs ht) h3).congr (fun v hv => by rwa [Decl.Has] at hv) ?_⟩
    intro v hv off
    rw [Decl.Has] at hv
    obtain ⟨tag, w, rfl, _⟩ := hv
    rw [Decl.wire]
  | .int b, h => by
    rw [Decl.Good] at h
    obtain ⟨g1, g2⟩ := goodInt_range h
    refine ⟨_, by rw [genDecl, intType], (int_right bld b (intBits b) h.1 (goodInt_width h) g1 g2).congr
      (fun v hv => by rwa [Decl.Has] at hv) ?_⟩
    intro v hv off
    rw [Decl.Has] at hv; obtain ⟨x, rfl, _⟩ := hv
    rw [Decl.wire]
  | .bitArray b, h => by
    rw [Decl.Good] at h
    obtain ⟨hlo, hd, hw, hn⟩ := fromZero_facts h
    refine ⟨_, by rw [genDecl, if_pos h.1, bitArrayType, maxBits_width b h.2.1 h.2.2.1], rfl, fun v hv => ?_⟩
    rw [Decl.Has] at hv
    obtain ⟨bs, rfl, a1, a2, a3⟩ := hv
    have hlt := lt_width b.hi.toNat
    refine ⟨⟨bs, rfl, a1.resolve_left (by decide), by omega, by omega⟩, fun off => ?_⟩
    simp only [benc, Decl.wire, wireInt, hd, hlo, Int.sub_zero]
    have : (8 * (bs.length : Int)).toNat = 8 * bs.length := by omega
    rw [this]
  | .user d, h => by
    rw [Decl.Good] at h
    obtain ⟨ty, h1, h2⟩ := decl_right bld d h
    exact ⟨ty, by rw [genDecl, h1], h2.congr (fun v hv => by rwa [Decl.Has] at hv) (fun v _ off => by rw [Decl.wire])⟩
  | .blob _, h => by rw [Decl.Good] at h; exact h.elim
  | .string b, h => by
    rw [Decl.Good] at h
    obtain ⟨hb, hp, hpos⟩ := h
    obtain ⟨hlo, hd, hw, hn⟩ := fromZero_facts hb
    refine ⟨_, by rw [genDecl, if_pos hb.1, stringType, arrayBits_width b hb.2.2.1 hp], by rw [BTy.wf]; simp; omega, fun v hv => ?_⟩
    rw [Decl.Has] at hv
    obtain ⟨bs, rfl, a1, a2⟩ := hv
    have e : width b.hi.toNat + 2 = width (4 * b.hi).toNat := by
      rw [← width_mul_four _ (by omega)]
      congr 1; omega
    have hlt := lt_width (4 * b.hi).toNat
    refine ⟨⟨bs, rfl, a1.resolve_left (by decide), by omega, by rw [e]; omega⟩, fun off => ?_⟩
    simp only [benc, Decl.wire, wireBytes, Int.sub_zero, Int.toNat_natCast, e]
  | .array b t, h => by
    cases t with
    | ref d =>
      rw [Decl.Good] at h
      obtain ⟨hb, hi, hd⟩ := h
      obtain ⟨ty, h1, h2⟩ := decl_right bld d hd
      refine ⟨_, by rw [genDecl, h1, Option.map_some, arrayType, arrayBits_width b hb.2.2.1 hi], (arr_right bld b hb ty _ _ h2).congr ?_ ?_⟩
      · intro v hv
        rw [Decl.Has] at hv
        obtain ⟨vs, rfl, a1, a2, a3⟩ := hv
        exact ⟨vs, rfl, a1, a2, fun w hw => by have := a3 w hw; rwa [Desc.Has] at this⟩
      · intro v hv off
        rw [Decl.Has] at hv
        obtain ⟨vs, rfl, _⟩ := hv
        simp only [Decl.wire, Desc.wire]
    | _ => rw [Decl.Good] at h <;> simp_all
end

/-! ## C142 -/

/-- **C142, partial.** For every good description (of any size and depth) the generator writes a parser, and the parser reads every described value
without empty strings back from its described wire form, wherever that starts and whatever follows it, and stops
exactly at its end.  Missing: the other descriptions and empty strings, see the refutations. -/
theorem C142_generated_partial (bld : Build) (d : Decl) (h : d.Good) : ∃ ty, genDecl d = some ty ∧
    ∀ v, d.Has false v → ∀ (c : Cur), c.WF → ∀ rest, c.bits = d.wire c.off v ++ rest →
      bparse bld ty c = .ok (c.advance (d.wire c.off v).length, v) := by
  obtain ⟨ty, h1, h2, h3⟩ := decl_right bld d h
  refine ⟨ty, h1, fun v hv c hc rest hr => ?_⟩
  obtain ⟨a1, a2⟩ := h3 v hv
  rw [← a2] at hr ⊢
  exact bparse_benc bld ty h2 v a1 c hc rest hr

/-- A command event like that of the protocol: a constant, flags, an ability (a struct) that may be missing, a target (a choice)
and an array. -/
def exEvent : Decl := .struct (.const (.member "m_cmdFlags" (.int ⟨0, true, 26, false, none⟩)
  (.member "m_abil" (.optional (.ref (.struct (.member "m_abilLink" (.ref (.int ⟨0, true, 65536, false, some 16⟩))
    (.member "m_fast" .bool .nil)))))
  (.member "m_data" (.ref (.choice (.cons 0 .null (.cons 1 (.ref (.int ⟨-2147483648, true, 2147483648, false, some 31⟩))
    (.cons 2 (.optional (.ref (.string ⟨0, true, 79, true, none⟩))) .nil)))))
  (.member "m_units" (.array ⟨0, true, 500, true, none⟩ (.ref (.int ⟨0, true, 65536, false, some 16⟩))) .nil)))))

theorem exEvent_good : exEvent.Good := by
  simp only [exEvent, Decl.Good, Members.Good, Desc.Good, Variants.Good, Desc.GoodPayload, Variants.tagsBelow, Variants.tags, List.length_cons, List.length_nil]
  have np : Bounds.notPow ⟨0, true, 79, true, none⟩ := by
    intro k hk
    have e : (80 : Int) = 2 ^ k := hk
    have e2 : (80 : Nat) = 2 ^ k := by
      have h4 : ((2 ^ k : Nat) : Int) = 2 ^ k := by rw [Int.natCast_pow]; rfl
      omega
    have : k < 7 := by
      refine Nat.lt_of_not_le fun h => ?_
      have := Nat.pow_le_pow_right (n := 2) (by omega) h
      omega
    have : k = 0 ∨ k = 1 ∨ k = 2 ∨ k = 3 ∨ k = 4 ∨ k = 5 ∨ k = 6 := by omega
    rcases this with rfl | rfl | rfl | rfl | rfl | rfl | rfl <;> simp at e2
  refine ⟨⟨by decide, by decide, by decide, by decide⟩, ⟨⟨by decide, .inl ⟨by decide, by decide, .inr ⟨16, by decide, rfl, by decide, rfl⟩⟩⟩, trivial, trivial⟩,
    ⟨⟨trivial, ⟨rfl, .inr ⟨31, by decide, by decide, .inr ⟨rfl, by decide, rfl⟩⟩⟩, ⟨⟨rfl, rfl, by decide, by decide⟩, np, by decide⟩, trivial⟩,
      ⟨by decide, by decide, by decide, by decide, by decide, by decide, trivial⟩, by decide⟩,
    ⟨⟨rfl, rfl, by decide, by decide⟩, .inl (by simp), by decide, .inl ⟨by decide, by decide, .inr ⟨16, by decide, rfl, by decide, rfl⟩⟩⟩, trivial⟩

/-- A value of it: flags 5, ability 200, a text, two units. -/
def exEventValue : Val := .struct [.int 5, .some (.struct [.int 200, .bool true]), .choice 2 (.some (.bytes [0x68, 0x69])), .list [.int 7, .int 9]]

example : exEvent.Has false exEventValue := by
  simp only [exEvent, exEventValue, Decl.Has, Members.Has]
  refine ⟨_, rfl, _, _, rfl, ⟨5, rfl, by decide, by decide⟩, _, _, rfl, .inr ⟨_, rfl, ⟨_, rfl, _, _, rfl, ⟨200, rfl, by decide, by decide⟩,
    _, _, rfl, ⟨true, rfl⟩, rfl⟩⟩, _, _, rfl, ?_, _, _, rfl, ?_, rfl⟩
  · rw [Desc.Has, Decl.Has]
    refine ⟨2, _, rfl, ?_⟩
    simp only [Variants.Has]
    simp
    rw [Desc.Has]
    exact .inr ⟨_, rfl, _, rfl, .inr (by simp), by decide⟩
  · rw [Desc.Has]
    refine ⟨_, rfl, by decide, by decide, ?_⟩
    intro w hw
    simp at hw
    rcases hw with rfl | rfl <;> exact ⟨_, rfl, by decide, by decide⟩

/-- The struct with the one member `m_x` of this type. -/
def oneMember (t : Desc) : Decl := .struct (.member "m_x" t .nil)

/-- There is a place where the value stands in its described form and the generated parser does not return it. -/
def Misread (d : Decl) (v : Val) : Prop :=
  d.Has false v ∧ ∃ (c : Cur) (rest : List Bool) (ty : BTy), c.WF ∧ c.bits = d.wire c.off v ++ rest ∧ genDecl d = some ty ∧
    ∀ c', bparse .release ty c ≠ .ok (c', v)

theorem misread_of (d : Decl) (v : Val) (ty : BTy) (bs : List UInt8) (hv : d.Has false v) (hg : genDecl d = some ty)
    (hb : ((⟨bs, 0⟩ : Cur).bits.take (d.wire 0 v).length == d.wire 0 v) = true)
    (hp : (match bparse .release ty ⟨bs, 0⟩ with
      | .ok (_, w) => decide (w = v)
      | _ => false) = false) : Misread d v := by
  refine ⟨hv, ⟨bs, 0⟩, (⟨bs, 0⟩ : Cur).bits.drop (d.wire 0 v).length, ty, by simp [Cur.WF], ?_, hg, fun c' h => ?_⟩
  · show (⟨bs, 0⟩ : Cur).bits = d.wire 0 v ++ _
    have := eq_of_beq hb
    conv => lhs; rw [← List.take_append_drop (d.wire 0 v).length (⟨bs, 0⟩ : Cur).bits]
    rw [this]
  · rw [h] at hp
    simp at hp

/-- **C142.** In general not.  (1) An optional integer is read from before its presence bit.  (2) A string inside a struct is read
without going to the next byte boundary.  (3) A declared array of up to 15 elements has four bits of length, and five are read.
(4) A signed integer inside a struct is read with one bit too few.  (5) For a bit array inside a struct (or an array of
bools) there is no parser at all. -/
theorem C142_generated_refuted :
    Misread (oneMember (.optional (.int ⟨0, true, 255, true, none⟩))) (.struct [.some (.int 6)]) ∧
    Misread (oneMember (.ascii ⟨0, true, 31, true, none⟩)) (.struct [.bytes [65]]) ∧
    Misread (.array ⟨0, true, 15, true, none⟩ (.ref (oneMember .bool))) (.list [.struct [.bool true], .struct [.bool true]]) ∧
    Misread (oneMember (.int ⟨-128, true, 127, true, none⟩)) (.struct [.int 100]) ∧
    (oneMember (.bitArray ⟨0, true, 16, true, none⟩)).Has false (.struct [.bytes [1, 2]]) ∧
    genDecl (oneMember (.bitArray ⟨0, true, 16, true, none⟩)) = none ∧
    genDecl (oneMember (.array ⟨0, true, 20, true, none⟩ .bool)) = none := by
  refine ⟨misread_of _ _ (.struct (.cons "m_x" (.optRewind (.int 0 8)) .nil)) [7, 0] ?_ rfl (by decide +kernel) (by decide +kernel),
    misread_of _ _ (.struct (.cons "m_x" (.byteArr 5) .nil)) [1, 65, 0] ?_ rfl (by decide +kernel) (by decide +kernel),
    misread_of _ _ (.arr 5 (.struct (.cons "m_x" .bool .nil))) [50, 0, 0] ?_ rfl (by decide +kernel) (by decide +kernel),
    misread_of _ _ (.struct (.cons "m_x" (.int (-128) 7) .nil)) [228, 0] ?_ rfl (by decide +kernel) (by decide +kernel), ?_, rfl, rfl⟩
  · exact ⟨_, rfl, _, _, rfl, .inr ⟨_, rfl, 6, rfl, by decide, by decide⟩, rfl⟩
  · exact ⟨_, rfl, _, _, rfl, ⟨[65], rfl, .inr (by simp), by decide, by decide⟩, rfl⟩
  · refine ⟨_, rfl, by decide, by decide, ?_⟩
    intro w hw
    simp at hw
    subst hw
    exact ⟨_, rfl, _, _, rfl, ⟨true, rfl⟩, rfl⟩
  · exact ⟨_, rfl, _, _, rfl, ⟨100, rfl, by decide, by decide⟩, rfl⟩
  · exact ⟨_, rfl, _, _, rfl, ⟨[1, 2], rfl, .inr (by simp), by decide, by decide⟩, rfl⟩

end S2.Generator
