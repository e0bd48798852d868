import Verif.Spec.BitPackedEnc
import Verif.Schema.BitPackedLemmas
/-! # The parser inverts the reference encoder -/
namespace S2

theorem seqEnc_encSeq {R : Nat → Val → List Bool → Prop} {f : Nat → Val → List Bool} (vs : List Val) :
    ∀ off, off < 8 → (∀ v ∈ vs, ∀ o, o < 8 → R o v (f o v)) → SeqEnc R off vs (encSeq f off vs) := by
  induction vs with
  | nil => intro off _ _; rfl
  | cons v vs ih =>
    intro off ho h
    exact ⟨_, _, rfl, h v (by simp) off ho, ih _ (Nat.mod_lt _ (by omega)) (fun w hw => h w (by simp [hw]))⟩

theorem packedVal_of {bld : Build} {k x : Int} (hx : inI64 x) (hk : k ≤ x)
    (h : x - k < 2 ^ 63 ∨ (bld = .release ∧ inI64 k ∧ x - k < 2 ^ 64)) :
    PackedVal bld k (toI64 (x - k).toNat) x := by
  by_cases hlt : x - k < 2 ^ 63
  · left
    rw [toI64_of_lt (by omega)]
    have : k + ((x - k).toNat : Int) = x := by omega
    rw [this]; exact ⟨hx, rfl⟩
  · obtain ⟨rfl, hk2, h64⟩ := h.resolve_left hlt
    have e : toI64 (x - k).toNat = x - k - 2 ^ 64 := by
      unfold toI64
      rw [Nat.mod_eq_of_lt (by omega)]
      dsimp only
      rw [if_neg (by omega)]; omega
    have e2 : k + toI64 (x - k).toNat = x - 2 ^ 64 := by rw [e]; omega
    right
    rw [e2]
    refine ⟨rfl, ?_, ?_⟩
    · unfold inI64 i64Min i64Max at *; omega
    · have h3 : wrapI64 (x - 2 ^ 64) = wrapI64 x := by
        unfold wrapI64
        congr 1
        omega
      rw [h3, wrapI64_of_inI64 hx]

mutual
theorem benc_enc (bld : Build) : ∀ (t : BTy) (off : Nat) (v : Val), off < 8 → BHas bld t v →
    BEnc bld t off v (benc t off v)
  | .int k n, off, v, ho, h => by
    obtain ⟨x, rfl, hn, hx, hk, hlt, h⟩ := h
    have hb : bitsVal off (encBits off n (x - k).toNat) = (x - k).toNat := by
      apply bitsVal_encBits _ _ _ ho
      have : ((x - k).toNat : Int) < ((2 ^ n : Nat) : Int) := by
        rw [Int.toNat_of_nonneg (by omega)]; push_cast; exact hlt
      exact_mod_cast this
    exact ⟨hn, encBits_length _ _ _ ho, x, rfl, by rw [benc, hb]; exact packedVal_of hx hk h⟩
  | .bool, off, v, ho, h => by obtain ⟨b, rfl⟩ := h; exact ⟨b, rfl, rfl⟩
  | .null, off, v, ho, h => by subst h; exact ⟨rfl, rfl⟩
  | .fourcc, off, v, ho, h => by obtain ⟨bs, rfl, h⟩ := h; exact ⟨bs, h, rfl, rfl⟩
  | .blob n, off, v, ho, h => by
    obtain ⟨bs, rfl, h0, hn, h⟩ := h
    exact ⟨_, _, bs, rfl, encBits_length _ _ _ ho, hn, by simp, bitsVal_encBits _ _ _ ho h,
      by rw [zeroFix, if_neg h0]⟩
  | .aligned k, off, v, ho, h => by
    obtain ⟨bs, rfl, h0, h⟩ := h
    exact ⟨_, bs, rfl, by simp, h, by rw [zeroFix, if_neg h0]⟩
  | .bitsI64 n, off, v, ho, h => by
    obtain ⟨x, rfl, hn, h0, h⟩ := h
    have h2 : min 63 (2 ^ n - 1) < 2 ^ n := by
      have := Nat.two_pow_pos n
      have := Nat.min_le_right 63 (2 ^ n - 1)
      omega
    have ho2 : (off + n) % 8 < 8 := Nat.mod_lt _ (by omega)
    have h3 : x.toNat < 2 ^ (min 63 (2 ^ n - 1)) := by
      have : ((x.toNat : Nat) : Int) < ((2 ^ (min 63 (2 ^ n - 1)) : Nat) : Int) := by
        rw [Int.toNat_of_nonneg h0]; push_cast; exact h
      exact_mod_cast this
    have h63 : min 63 (2 ^ n - 1) ≤ 63 := Nat.min_le_left _ _
    refine ⟨_, _, rfl, encBits_length _ _ _ ho, hn, ?_, ?_, ?_⟩
    · rw [encBits_length _ _ _ ho2, bitsVal_encBits _ _ _ ho h2]
    · rw [encBits_length _ _ _ ho2]; omega
    · rw [bitsVal_encBits _ _ _ ho2 h3, toI64_of_lt]
      · rw [Int.toNat_of_nonneg h0]
      · exact Nat.lt_of_lt_of_le h3 (Nat.pow_le_pow_right (by omega) h63)
  | .bitsVec n, off, v, ho, h => by
    obtain ⟨bs, rfl, h0, hn, h⟩ := h
    have ho2 : (off + n) % 8 < 8 := Nat.mod_lt _ (by omega)
    refine ⟨_, _, rfl, encBits_length _ _ _ ho, hn, ?_, ?_⟩
    · rw [unalignedBits_length _ ho2, bitsVal_encBits _ _ _ ho h]
    · rw [if_neg (unalignedBits_ne_nil ho2 h0), bitArr_unaligned _ ho2 _ h0]
  | .byteArr n, off, v, ho, h => by
    obtain ⟨bs, rfl, hn, h⟩ := h
    exact ⟨_, bs, rfl, encBits_length _ _ _ ho, hn, bitsVal_encBits _ _ _ ho h, rfl⟩
  | .arr n t, off, v, ho, h => by
    obtain ⟨vs, rfl, hn, hl, h⟩ := h
    refine ⟨_, _, vs, rfl, encBits_length _ _ _ ho, hn, bitsVal_encBits _ _ _ ho hl, rfl, ?_⟩
    exact seqEnc_encSeq vs _ (Nat.mod_lt _ (by omega)) (fun w hw o ho' => benc_enc bld t o w ho' (h w hw))
  | .opt t, off, v, ho, h => by
    rcases h with rfl | ⟨w, rfl, h⟩
    · exact Or.inl ⟨rfl, rfl⟩
    · exact Or.inr ⟨w, _, rfl, rfl, benc_enc bld t _ w (Nat.mod_lt _ (by omega)) h⟩
  | .optRewind t, off, v, ho, h => by subst h; exact Or.inl ⟨rfl, rfl⟩
  | .struct fs, off, v, ho, h => by
    obtain ⟨vs, rfl, h⟩ := h
    exact ⟨vs, rfl, bencFields_enc bld fs off vs ho h⟩
  | .choice n alts, off, v, ho, h => by
    obtain ⟨tag, w, rfl, hn, h0, h1, h2, h⟩ := h
    have h3 : tag.toNat < 2 ^ n := by
      have : ((tag.toNat : Nat) : Int) < ((2 ^ n : Nat) : Int) := by
        rw [Int.toNat_of_nonneg h0]; push_cast; exact h1
      exact_mod_cast this
    have h4 : toI64 (bitsVal off (encBits off n tag.toNat)) = tag := by
      rw [bitsVal_encBits _ _ _ ho h3, toI64_of_lt (by omega), Int.toNat_of_nonneg h0]
    refine ⟨encBits off n tag.toNat, _, w, rfl, encBits_length _ _ _ ho, hn, by rw [h4], ?_⟩
    rw [h4]
    exact bencAlt_enc bld alts tag _ w (Nat.mod_lt _ (by omega)) h
theorem bencFields_enc (bld : Build) : ∀ (fs : BFields) (off : Nat) (vs : List Val), off < 8 →
    BFieldsHas bld fs vs → BFieldsEnc bld fs off vs (bencFields fs off vs)
  | .nil, off, vs, ho, h => by subst h; exact ⟨rfl, rfl⟩
  | .cons _ t rest, off, vs, ho, h => by
    obtain ⟨v, vs', rfl, h1, h2⟩ := h
    exact ⟨v, vs', _, _, rfl, rfl, benc_enc bld t off v ho h1,
      bencFields_enc bld rest _ vs' (Nat.mod_lt _ (by omega)) h2⟩
theorem bencAlt_enc (bld : Build) : ∀ (alts : BAlts) (tag : Int) (off : Nat) (v : Val), off < 8 →
    BAltHas bld alts tag v → BAltEnc bld alts tag off v (bencAlt alts tag off v)
  | .nil, tag, off, v, ho, h => h
  | .cons t ty rest, tag, off, v, ho, h => by
    rw [BAltHas] at h
    rw [BAltEnc, bencAlt]
    split
    · rename_i e; rw [if_pos e] at h; exact benc_enc bld ty off v ho h
    · rename_i e; rw [if_neg e] at h; exact bencAlt_enc bld rest tag off v ho h
end

/-- Decoding an encoded value gives it back, whatever follows it in the stream. -/
theorem bparse_benc (bld : Build) (t : BTy) (hw : t.wf = true) (v : Val) (hv : BHas bld t v)
    (c : Cur) (hc : c.WF) (rest : List Bool) (h : c.bits = benc t c.off v ++ rest) :
    bparse bld t c = .ok (c.advance (benc t c.off v).length, v) :=
  (bparse_iff bld t hw c hc _ _).2 ⟨_, rest, h, benc_enc bld t c.off v hc.1 hv, rfl⟩

end S2
