import Verif.Schema.Shape
import Verif.BitsLemmas2
/-!
# Decoded values have the shape and the number ranges of their bit-packed schema type
-/
namespace S2

mutual
/-- `v` is a value of the Rust type generated for the bit-packed type `t`, with its
small numbers (up to 32 bits) in the range of their type. [proof device, no counterpart in /repo] -/
def BRng : BTy → Val → Prop
  | .int k n, v => ∃ x, v = .int x ∧ (-(2 ^ 32) ≤ k → k ≤ 2 ^ 32 → n ≤ 32 → k ≤ x ∧ x < k + 2 ^ n)
  | .bool, v => ∃ b, v = .bool b
  | .null, v => v = .unit
  | .fourcc, v => ∃ bs, v = .bytes bs
  | .blob _, v => ∃ bs, v = .bytes bs
  | .aligned _, v => ∃ bs, v = .bytes bs
  | .bitsI64 _, v => ∃ x, v = .int x
  | .bitsVec _, v => ∃ bs, v = .bytes bs
  | .byteArr _, v => ∃ bs, v = .bytes bs
  | .arr _ t, v => ∃ vs, v = .list vs ∧ ∀ w ∈ vs, BRng t w
  | .opt t, v => v = .none ∨ ∃ w, v = .some w ∧ BRng t w
  | .optRewind t, v => v = .none ∨ ∃ w, v = .some w ∧ BRng t w
  | .struct fs, v => ∃ vs, v = .struct vs ∧ BFieldsRng fs vs
  | .choice _ alts, v => ∃ tag w, v = .choice tag w ∧ BAltRng alts tag w
/-- Field lists. [proof device, no counterpart in /repo] -/
def BFieldsRng : BFields → List Val → Prop
  | .nil, vs => vs = []
  | .cons _ ty rest, vs => ∃ v vs', vs = v :: vs' ∧ BRng ty v ∧ BFieldsRng rest vs'
/-- Payload of variant `tag`. [proof device, no counterpart in /repo] -/
def BAltRng : BAlts → Int → Val → Prop
  | .nil, _, _ => False
  | .cons t ty rest, tag, v => if tag = t then BRng ty v else BAltRng rest tag v
end


theorem SeqEnc_mem8 {α : Type} {R : Nat → α → List Bool → Prop} : ∀ (vs : List α) (off : Nat) (u : List Bool),
    off < 8 → SeqEnc R off vs u → ∀ v ∈ vs, ∃ o d, o < 8 ∧ R o v d
  | [], _, _, _, _, v, hv => by simp at hv
  | w :: ws, off, u, ho, h, v, hv => by
    obtain ⟨u1, u2, _, h1, h2⟩ := h
    rcases List.mem_cons.mp hv with rfl | hv
    · exact ⟨_, _, ho, h1⟩
    · exact SeqEnc_mem8 ws _ _ (Nat.mod_lt _ (by decide)) h2 v hv

theorem packed_range {bld : Build} {k x : Int} {n off : Nat} {u : List Bool} (ho : off < 8) (hu : u.length = n)
    (h : PackedVal bld k (toI64 (bitsVal off u)) x) (h1 : -(2 ^ 32) ≤ k) (h2 : k ≤ 2 ^ 32) (h3 : n ≤ 32) :
    k ≤ x ∧ x < k + 2 ^ n := by
  have hb := bitsVal_lt off u ho
  rw [hu] at hb
  have hn : 2 ^ n ≤ 2 ^ 32 := Nat.pow_le_pow_right (by decide) h3
  have hw : toI64 (bitsVal off u) = (bitsVal off u : Int) := by
    unfold toI64
    rw [Nat.mod_eq_of_lt (by omega)]
    simp only []
    rw [if_pos (by omega)]
  have hc : ((2 ^ n : Nat) : Int) = 2 ^ n := by simp
  rw [hw] at h
  generalize bitsVal off u = w at *
  generalize (2 : Nat) ^ n = m at *
  rw [← hc]
  have hi : inI64 (k + w) := by unfold inI64 i64Min i64Max; omega
  rcases h with ⟨_, rfl⟩ | ⟨_, h, _⟩
  · omega
  · exact absurd hi h

mutual
theorem BEnc_rng {bld : Build} : ∀ (t : BTy) (off : Nat) (v : Val) (u : List Bool),
    off < 8 → BEnc bld t off v u → BRng t v
  | .int k n, _, v, u, ho, h => by
    obtain ⟨_, hu, x, rfl, hp⟩ := h; exact ⟨x, rfl, packed_range ho hu hp⟩
  | .bool, _, v, u, ho, h => by obtain ⟨b, rfl, _⟩ := h; exact ⟨_, rfl⟩
  | .null, _, v, u, ho, h => h.1
  | .fourcc, _, v, u, ho, h => by obtain ⟨b, _, rfl, _⟩ := h; exact ⟨_, rfl⟩
  | .blob _, _, v, u, ho, h => by obtain ⟨_, _, bs, _, _, _, _, _, rfl⟩ := h; exact ⟨_, rfl⟩
  | .aligned _, _, v, u, ho, h => by obtain ⟨_, bs, _, _, _, rfl⟩ := h; exact ⟨_, rfl⟩
  | .bitsI64 _, _, v, u, ho, h => by obtain ⟨_, _, _, _, _, _, _, rfl⟩ := h; exact ⟨_, rfl⟩
  | .bitsVec _, _, v, u, ho, h => by obtain ⟨_, _, _, _, _, _, rfl⟩ := h; exact ⟨_, rfl⟩
  | .byteArr _, _, v, u, ho, h => by obtain ⟨_, bs, _, _, _, _, rfl⟩ := h; exact ⟨_, rfl⟩
  | .arr n t, off, v, u, ho, h => by
    obtain ⟨l, d, vs, _, _, _, _, rfl, h⟩ := h
    refine ⟨vs, rfl, fun w hw => ?_⟩
    obtain ⟨o, d', h8, h'⟩ := SeqEnc_mem8 vs _ _ (Nat.mod_lt _ (by decide)) h w hw
    exact BEnc_rng t o w d' h8 h'
  | .opt t, off, v, u, ho, h => by
    rcases h with ⟨rfl, _⟩ | ⟨w, d, rfl, _, h⟩
    · exact .inl rfl
    · exact .inr ⟨w, rfl, BEnc_rng t _ w d (Nat.mod_lt _ (by decide)) h⟩
  | .optRewind t, off, v, u, ho, h => by
    rcases h with ⟨rfl, _⟩ | ⟨w, d, rfl, _, h⟩
    · exact .inl rfl
    · exact .inr ⟨w, rfl, BEnc_rng t _ w u ho h⟩
  | .struct fs, off, v, u, ho, h => by
    obtain ⟨vs, rfl, h⟩ := h
    exact ⟨vs, rfl, BFieldsEnc_rng fs off vs u ho h⟩
  | .choice n alts, off, v, u, ho, h => by
    obtain ⟨l, d, w, _, _, _, rfl, h⟩ := h
    exact ⟨_, w, rfl, BAltEnc_rng alts _ _ w d (Nat.mod_lt _ (by decide)) h⟩
theorem BFieldsEnc_rng {bld : Build} : ∀ (fs : BFields) (off : Nat) (vs : List Val) (u : List Bool),
    off < 8 → BFieldsEnc bld fs off vs u → BFieldsRng fs vs
  | .nil, _, _, _, _, h => h.1
  | .cons _ ty rest, off, vs, u, ho, h => by
    obtain ⟨v, vs', u1, u2, rfl, _, h1, h2⟩ := h
    exact ⟨v, vs', rfl, BEnc_rng ty off v u1 ho h1, BFieldsEnc_rng rest _ vs' u2 (Nat.mod_lt _ (by decide)) h2⟩
theorem BAltEnc_rng {bld : Build} : ∀ (alts : BAlts) (tag : Int) (off : Nat) (v : Val) (u : List Bool),
    off < 8 → BAltEnc bld alts tag off v u → BAltRng alts tag v
  | .nil, _, _, _, _, _, h => by simp [BAltEnc] at h
  | .cons t ty rest, tag, off, v, u, ho, h => by
    simp only [BAltEnc] at h
    simp only [BAltRng]
    by_cases ht : tag = t
    · rw [if_pos ht] at h ⊢; exact BEnc_rng ty off v u ho h
    · rw [if_neg ht] at h ⊢; exact BAltEnc_rng rest tag off v u ho h
end

end S2
