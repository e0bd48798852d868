import Verif.BitsLemmas2
import Verif.VlqLemmas
import Verif.Schema.ByteAlignedLemmas
import Verif.Spec.BitPackedSpec
/-!
# `bparse` recognises exactly the wire grammar `BEnc`
-/
namespace S2

/-- `f` accepts exactly the prefixes described by `R`, and consumes exactly that prefix. -/
def Parses {α : Type} (f : Cur → Res (Cur × α)) (R : Nat → α → List Bool → Prop) : Prop :=
  ∀ c : Cur, c.WF → ∀ c' a, f c = .ok (c', a) ↔
    ∃ u rest, c.bits = u ++ rest ∧ R c.off a u ∧ c' = c.advance u.length

theorem advance_append {c : Cur} {u rest : List Bool} (hc : c.WF) (h : c.bits = u ++ rest) :
    (c.advance u.length).WF ∧ (c.advance u.length).bits = rest ∧
      (c.advance u.length).off = (c.off + u.length) % 8 := by
  have hl : u.length ≤ c.bits.length := by rw [h]; simp
  refine ⟨Cur.advance_WF c _ hl hc, ?_, rfl⟩
  rw [Cur.advance_bits, h, List.drop_left' rfl]

theorem Parses.congr {α : Type} {f g : Cur → Res (Cur × α)} {R S : Nat → α → List Bool → Prop}
    (h : Parses f R) (hf : ∀ c, c.WF → g c = f c) (hR : ∀ off a u, off < 8 → (R off a u ↔ S off a u)) :
    Parses g S := by
  intro c hc c' a
  rw [hf c hc, h c hc]
  constructor
  · rintro ⟨u, rest, h1, h2, h3⟩; exact ⟨u, rest, h1, (hR _ _ _ hc.1).1 h2, h3⟩
  · rintro ⟨u, rest, h1, h2, h3⟩; exact ⟨u, rest, h1, (hR _ _ _ hc.1).2 h2, h3⟩

theorem Parses.bind {α β : Type} {f : Cur → Res (Cur × α)} {R : Nat → α → List Bool → Prop}
    {g : α → Cur → Res (Cur × β)} {S : α → Nat → β → List Bool → Prop}
    (hf : Parses f R) (hg : ∀ a, Parses (g a) (S a)) :
    Parses (fun c => f c >>= fun p => g p.2 p.1)
      (fun off b u => ∃ a u1 u2, u = u1 ++ u2 ∧ R off a u1 ∧ S a ((off + u1.length) % 8) b u2) := by
  intro c hc c' b
  simp only [Res.bind_eq_ok]
  constructor
  · rintro ⟨⟨c1, a⟩, h1, h2⟩
    obtain ⟨u1, r1, e1, hR, rfl⟩ := (hf c hc _ _).1 h1
    obtain ⟨hw, hb, ho⟩ := advance_append hc e1
    obtain ⟨u2, r2, e2, hS, rfl⟩ := (hg a _ hw _ _).1 h2
    refine ⟨u1 ++ u2, r2, ?_, ⟨a, u1, u2, rfl, hR, ?_⟩, ?_⟩
    · rw [e1, ← hb, e2, List.append_assoc]
    · rwa [← ho]
    · rw [Cur.advance_advance, List.length_append]
  · rintro ⟨u, r, e, ⟨a, u1, u2, rfl, hR, hS⟩, rfl⟩
    rw [List.append_assoc] at e
    obtain ⟨hw, hb, ho⟩ := advance_append hc e
    refine ⟨(c.advance u1.length, a), (hf c hc _ _).2 ⟨u1, _, e, hR, rfl⟩, ?_⟩
    refine (hg a _ hw _ _).2 ⟨u2, r, hb, ?_, ?_⟩
    · rwa [ho]
    · rw [Cur.advance_advance, List.length_append]

theorem Parses.map {α β : Type} {f : Cur → Res (Cur × α)} {R : Nat → α → List Bool → Prop}
    (hf : Parses f R) (k : α → β) :
    Parses (fun c => f c >>= fun p => (pure (p.1, k p.2) : Res (Cur × β)))
      (fun off b u => ∃ a, b = k a ∧ R off a u) := by
  intro c hc c' b
  simp only [Res.bind_eq_ok, Res.pure_eq, Res.ok.injEq, Prod.mk.injEq]
  constructor
  · rintro ⟨⟨c1, a⟩, h1, rfl, rfl⟩
    obtain ⟨u, r, e, hR, rfl⟩ := (hf c hc _ _).1 h1
    exact ⟨u, r, e, ⟨a, rfl, hR⟩, rfl⟩
  · rintro ⟨u, r, e, ⟨a, rfl, hR⟩, rfl⟩
    exact ⟨(_, a), (hf c hc _ _).2 ⟨u, r, e, hR, rfl⟩, rfl, rfl⟩

theorem Parses.pure {α : Type} (a : α) :
    Parses (fun c => (Pure.pure (c, a) : Res (Cur × α))) (fun _ b u => b = a ∧ u = []) := by
  intro c hc c' b
  simp only [Res.pure_eq, Res.ok.injEq, Prod.mk.injEq]
  constructor
  · rintro ⟨rfl, rfl⟩; exact ⟨[], c.bits, rfl, ⟨rfl, rfl⟩, by simp [Cur.advance_zero _ hc.1]⟩
  · rintro ⟨u, r, e, ⟨rfl, rfl⟩, rfl⟩; exact ⟨by simp [Cur.advance_zero _ hc.1], rfl⟩

theorem Parses.repeatN {α : Type} {f : Cur → Res (Cur × α)} {R : Nat → α → List Bool → Prop}
    (hf : Parses f R) (n : Nat) :
    Parses (fun c => S2.repeatN f n c) (fun off vs u => vs.length = n ∧ SeqEnc R off vs u) := by
  induction n with
  | zero =>
    refine (Parses.pure []).congr (fun c _ => rfl) ?_
    intro off a u _
    constructor
    · rintro ⟨rfl, rfl⟩; exact ⟨rfl, rfl⟩
    · rintro ⟨h1, h2⟩
      cases a with
      | nil => exact ⟨rfl, h2⟩
      | cons _ _ => simp at h1
  | succ n ih =>
    refine (hf.bind (fun a => ih.map (fun l => a :: l))).congr (fun c _ => rfl) ?_
    intro off vs u _
    constructor
    · rintro ⟨a, u1, u2, rfl, hR, l, rfl, hlen, hS⟩
      exact ⟨by simp [hlen], u1, u2, rfl, hR, hS⟩
    · rintro ⟨hlen, hS⟩
      cases vs with
      | nil => simp at hlen
      | cons a l =>
        obtain ⟨u1, u2, rfl, hR, hS⟩ := hS
        exact ⟨a, u1, u2, rfl, hR, l, rfl, by simpa using hlen, hS⟩

/-! ## Primitives -/

theorem parses_fixed {α : Type} {f : Cur → Res (Cur × α)} {n : Nat} {k : Nat → List Bool → α}
    (h : ∀ c, c.WF → f c = if c.bits.length < n then .err .eof
        else .ok (c.advance n, k c.off (c.bits.take n))) :
    Parses f (fun off a u => u.length = n ∧ a = k off u) := by
  intro c hc c' a
  rw [h c hc]
  constructor
  · intro he
    split at he
    · simp at he
    · rename_i hlt
      simp only [Res.ok.injEq, Prod.mk.injEq] at he
      obtain ⟨rfl, rfl⟩ := he
      refine ⟨c.bits.take n, c.bits.drop n, (List.take_append_drop _ _).symm, ⟨?_, rfl⟩, ?_⟩
      · rw [List.length_take]; omega
      · rw [List.length_take, Nat.min_eq_left (by omega)]
  · rintro ⟨u, r, e, ⟨rfl, rfl⟩, rfl⟩
    rw [if_neg (by rw [e]; simp), e, List.take_left' rfl]

theorem takeI64_parses (n : Nat) :
    Parses (fun c => takeI64 c n) (fun off x u => n ≤ 64 ∧ u.length = n ∧ x = toI64 (bitsVal off u)) := by
  by_cases hn : 64 < n
  · intro c hc c' a
    simp only [takeI64_bits c n hc, if_pos hn]
    simp only [reduceCtorEq, false_iff]
    rintro ⟨u, r, e, ⟨h, _⟩, _⟩; omega
  · refine (parses_fixed (n := n) (k := fun off u => toI64 (bitsVal off u))
      (fun c hc => by rw [takeI64_bits c n hc, if_neg hn])).congr (fun c _ => rfl) ?_
    intro off a u _; simp [Nat.not_lt.mp hn]

theorem addI64_ok (bld : Build) (a b x : Int) : addI64 bld a b = .ok x ↔ PackedVal bld a b x := by
  unfold addI64 PackedVal
  split
  · rename_i h; simp [h, eq_comm]
  · rename_i h; cases bld <;> simp [h, eq_comm]

theorem parsePackedInt_parses (bld : Build) (k : Int) (n : Nat) :
    Parses (fun c => parsePackedInt bld c k n) (fun off x u => n ≤ 64 ∧ u.length = n ∧
      PackedVal bld k (toI64 (bitsVal off u)) x) := by
  have hb : ∀ a, Parses (fun c => addI64 bld k a >>= fun r => (pure (c, r) : Res (Cur × Int)))
      (fun _ x u => PackedVal bld k a x ∧ u = []) := by
    intro a c hc c' b
    simp only [Res.bind_eq_ok, Res.pure_eq, Res.ok.injEq, Prod.mk.injEq, addI64_ok]
    constructor
    · rintro ⟨x, h1, rfl, rfl⟩; exact ⟨[], c.bits, rfl, ⟨h1, rfl⟩, by simp [Cur.advance_zero _ hc.1]⟩
    · rintro ⟨u, r, e, ⟨h1, rfl⟩, rfl⟩; exact ⟨b, h1, by simp [Cur.advance_zero _ hc.1], rfl⟩
  refine ((takeI64_parses n).bind hb).congr (fun c _ => rfl) ?_
  intro off x u _
  constructor
  · rintro ⟨a, u1, u2, rfl, ⟨h1, h2, rfl⟩, h3, rfl⟩; simpa using ⟨h1, h2, h3⟩
  · rintro ⟨h1, h2, h3⟩; exact ⟨_, u, [], by simp, ⟨h1, h2, rfl⟩, h3, rfl⟩

theorem parsePackedInt_zero_parses (bld : Build) (n : Nat) :
    Parses (fun c => parsePackedInt bld c 0 n) (fun off x u => n ≤ 64 ∧ u.length = n ∧
      x = toI64 (bitsVal off u)) := by
  refine (parsePackedInt_parses bld 0 n).congr (fun c _ => rfl) ?_
  intro off x u _
  have := toI64_range (bitsVal off u)
  unfold PackedVal
  simp [Int.zero_add, this]

theorem parseBool_parses : Parses parseBool (fun _ b u => u = [b]) := by
  intro c hc c' b
  rw [parseBool_bits c hc]
  constructor
  · intro h
    split at h
    · simp at h
    · rename_i x r e
      simp only [Res.ok.injEq, Prod.mk.injEq] at h
      obtain ⟨rfl, rfl⟩ := h
      exact ⟨[x], r, e, rfl, rfl⟩
  · rintro ⟨u, r, e, rfl, rfl⟩
    rw [e]; rfl

theorem byteAlign_parses : Parses byteAlign (fun off _ u => u.length = padLen off) := by
  intro c hc c' b
  obtain ⟨h1, h2, _⟩ := byteAlign_bits c hc
  rw [h1]
  simp only [Res.ok.injEq, Prod.mk.injEq, and_true]
  constructor
  · rintro rfl
    refine ⟨c.bits.take (padLen c.off), c.bits.drop _, (List.take_append_drop _ _).symm, ?_, ?_⟩
    · rw [List.length_take]; omega
    · rw [List.length_take, Nat.min_eq_left h2]
  · rintro ⟨u, r, e, h3, rfl⟩; rw [h3]

theorem takeBitArray_parses (n : Nat) :
    Parses (fun c => takeBitArray c n) (fun off bs u => u.length = n ∧
      bs = if u = [] then [0] else bitArr off u) := by
  rcases Nat.eq_zero_or_pos n with rfl | hn
  · refine (Parses.pure [0]).congr (fun c hc => by rw [takeBitArray_zero c hc]; rfl) ?_
    intro off a u _
    constructor
    · rintro ⟨rfl, rfl⟩; simp
    · rintro ⟨h1, h2⟩
      have : u = [] := List.length_eq_zero_iff.mp h1
      subst this; simpa using h2
  · refine (parses_fixed (n := n) (k := fun off u => bitArr off u)
      (fun c hc => by rw [takeBitArray_bits c n hc hn])).congr (fun c _ => rfl) ?_
    intro off a u _
    constructor
    · rintro ⟨rfl, rfl⟩
      rw [if_neg (by rintro rfl; simp at hn)]; simp
    · rintro ⟨rfl, rfl⟩
      rw [if_neg (by rintro rfl; simp at hn)]; simp

/-! ## Byte groups -/

theorem bitArr_single (off : Nat) (u : List Bool) (h0 : u ≠ []) (h : u.length ≤ 8) :
    bitArr off u = [UInt8.ofNat (bitsVal off u)] := by
  unfold bitArr
  cases u with
  | nil => simp at h0
  | cons b bs => simp only [List.length_cons, bitArrF] at *; rw [if_pos h]

theorem bitArr_cons8 (off : Nat) (u v : List Bool) (h : u.length = 8) (hv : v ≠ []) :
    bitArr off (u ++ v) = UInt8.ofNat (bitsVal off u) :: bitArr off v := by
  unfold bitArr
  have h2 : 0 < v.length := List.length_pos_iff.mpr hv
  obtain ⟨f, hf⟩ : ∃ f, (u ++ v).length = f + 1 := ⟨(u ++ v).length - 1, by simp; omega⟩
  rw [hf]
  simp only [bitArrF]
  rw [if_neg (by simp; omega), List.take_left' h, List.drop_left' h]
  rw [bitArrF_fuel _ v.length _ _ h2 (by simp at hf; omega) (by omega)]

theorem ofNat_toNat_lt {n : Nat} (h : n < 256) : (UInt8.ofNat n).toNat = n := by
  rw [UInt8.toNat_ofNat']; exact Nat.mod_eq_of_lt h

theorem bitsVal_lt8 (off : Nat) (u : List Bool) (ho : off < 8) (h : u.length = 8) :
    bitsVal off u < 256 := by
  have := bitsVal_lt off u ho
  rw [h] at this; exact this

theorem bitArr_unaligned (off : Nat) (ho : off < 8) : ∀ (bs : List UInt8), bs ≠ [] →
    bitArr off (unalignedBits off bs) = bs
  | [], h => absurd rfl h
  | [b], _ => by
    have hl := encBits_length off 8 b.toNat ho
    have : unalignedBits off [b] = encBits off 8 b.toNat := by simp [unalignedBits]
    rw [this, bitArr_single _ _ (by intro h; rw [h] at hl; simp at hl) (by omega),
      bitsVal_encBits _ _ _ ho b.toNat_lt]
    simp
  | b :: b' :: bs, _ => by
    have hl := encBits_length off 8 b.toNat ho
    have hl' := encBits_length off 8 b'.toNat ho
    have : unalignedBits off (b :: b' :: bs) = encBits off 8 b.toNat ++ unalignedBits off (b' :: bs) := by
      simp [unalignedBits]
    rw [this, bitArr_cons8 _ _ _ hl, bitArr_unaligned off ho (b' :: bs) (by simp),
      bitsVal_encBits _ _ _ ho b.toNat_lt]
    · simp
    · intro h
      have := congrArg List.length h
      simp [unalignedBits, hl'] at this

theorem unalignedBits_length (off : Nat) (ho : off < 8) (bs : List UInt8) :
    (unalignedBits off bs).length = 8 * bs.length := by
  induction bs with
  | nil => rfl
  | cons b bs ih =>
    have : unalignedBits off (b :: bs) = encBits off 8 b.toNat ++ unalignedBits off bs := by
      simp [unalignedBits]
    rw [this, List.length_append, ih, encBits_length off 8 _ ho, List.length_cons]; omega

/-- Whole groups of eight bits are exactly some bytes. -/
theorem exists_unaligned (off : Nat) (ho : off < 8) (k : Nat) : ∀ (u : List Bool), u.length = 8 * k →
    ∃ bs : List UInt8, bs.length = k ∧ u = unalignedBits off bs := by
  induction k with
  | zero => intro u h; exact ⟨[], rfl, by simpa [unalignedBits] using h⟩
  | succ k ih =>
    intro u h
    obtain ⟨bs, h1, h2⟩ := ih (u.drop 8) (by rw [List.length_drop]; omega)
    have hl : (u.take 8).length = 8 := by rw [List.length_take]; omega
    refine ⟨UInt8.ofNat (bitsVal off (u.take 8)) :: bs, by simp [h1], ?_⟩
    have : unalignedBits off (UInt8.ofNat (bitsVal off (u.take 8)) :: bs)
        = encBits off 8 (UInt8.ofNat (bitsVal off (u.take 8))).toNat ++ unalignedBits off bs := by
      simp [unalignedBits]
    rw [this, ofNat_toNat_lt (bitsVal_lt8 _ _ ho hl), ← h2]
    have h3 := encBits_bitsVal off (u.take 8) ho
    rw [hl] at h3
    rw [h3, List.take_append_drop]

theorem unalignedBits_zero (bs : List UInt8) : unalignedBits 0 bs = bytesBits bs := by
  unfold unalignedBits bytesBits
  congr 1
  funext b
  rw [byteBits_eq]
  rfl

/-- `take_bit_array(k * 8)`. -/
theorem takeBytesBits_parses (k : Nat) :
    Parses (fun c => takeBitArray c (k * 8)) (fun off v u => ∃ bs : List UInt8, bs.length = k ∧
      u = unalignedBits off bs ∧ v = zeroFix bs) := by
  refine (takeBitArray_parses (k * 8)).congr (fun c _ => rfl) ?_
  intro off v u ho
  constructor
  · rintro ⟨h1, rfl⟩
    obtain ⟨bs, h2, rfl⟩ := exists_unaligned off ho k u (by omega)
    refine ⟨bs, h2, rfl, ?_⟩
    unfold zeroFix
    by_cases hb : bs = []
    · subst hb; simp [unalignedBits]
    · rw [if_neg hb, if_neg, bitArr_unaligned off ho bs hb]
      intro h
      have h3 := unalignedBits_length off ho bs
      rw [h] at h3
      have := List.length_pos_iff.mpr hb
      simp at h3; omega
  · rintro ⟨bs, rfl, rfl, rfl⟩
    refine ⟨by rw [unalignedBits_length off ho]; omega, ?_⟩
    unfold zeroFix
    by_cases hb : bs = []
    · subst hb; simp [unalignedBits]
    · rw [if_neg hb, if_neg, bitArr_unaligned off ho bs hb]
      intro h
      have h3 := unalignedBits_length off ho bs
      rw [h] at h3
      have := List.length_pos_iff.mpr hb
      simp at h3; omega

theorem takeFourcc_parses :
    Parses takeFourcc (fun off v u => v.length = 4 ∧ u = unalignedBits off v) := by
  refine (takeBytesBits_parses 4).congr (fun c _ => rfl) ?_
  intro off v u ho
  constructor
  · rintro ⟨bs, h1, rfl, rfl⟩
    have : zeroFix bs = bs := if_neg (by rintro rfl; simp at h1)
    rw [this]; exact ⟨h1, rfl⟩
  · rintro ⟨h1, rfl⟩
    exact ⟨v, h1, rfl, (if_neg (by rintro rfl; simp at h1)).symm⟩

theorem takeUnalignedByte_parses :
    Parses takeUnalignedByte (fun off b u => u = encBits off 8 b.toNat) := by
  intro c hc c' b
  unfold takeUnalignedByte
  simp only [Res.bind_eq_ok]
  have hp := takeBytesBits_parses 1 c hc
  constructor
  · rintro ⟨⟨c1, l⟩, h1, h2⟩
    obtain ⟨u, r, e, ⟨bs, h3, h4, h5⟩, rfl⟩ := (hp _ _).1 h1
    obtain ⟨x, rfl⟩ := List.length_eq_one_iff.mp h3
    simp only [zeroFix, List.cons_ne_nil, if_false] at h5
    subst h5
    simp only [Res.pure_eq, Res.ok.injEq, Prod.mk.injEq] at h2
    obtain ⟨rfl, rfl⟩ := h2
    exact ⟨u, r, e, by simpa [unalignedBits] using h4, rfl⟩
  · rintro ⟨u, r, e, h, rfl⟩
    exact ⟨(_, [b]), (hp _ _).2 ⟨u, r, e, ⟨[b], rfl, by simpa [unalignedBits] using h, rfl⟩, rfl⟩, rfl⟩

theorem seqEnc_unaligned (off : Nat) (ho : off < 8) (bs : List UInt8) (u : List Bool) :
    SeqEnc (fun o (b : UInt8) u => u = encBits o 8 b.toNat) off bs u ↔ u = unalignedBits off bs := by
  induction bs generalizing u with
  | nil => rfl
  | cons b bs ih =>
    have h8 : (off + 8) % 8 = off := by omega
    constructor
    · rintro ⟨u1, u2, rfl, rfl, h⟩
      rw [encBits_length _ _ _ ho, h8, ih] at h
      subst h; rfl
    · rintro rfl
      refine ⟨_, unalignedBits off bs, rfl, rfl, ?_⟩
      rw [encBits_length _ _ _ ho, h8, ih]

theorem asUsize_toI64 {n : Nat} (h : n < 2 ^ 64) : asUsize (toI64 n) = n := by
  unfold asUsize toI64
  simp only [Nat.mod_eq_of_lt h]
  have e : (2 : Int) ^ 64 = 18446744073709551616 := by decide
  have e2 : (2 : Nat) ^ 64 = 18446744073709551616 := by decide
  rw [e2] at h
  rw [e]
  split <;> omega

theorem asUsize_bits {off n : Nat} {u : List Bool} (ho : off < 8) (h : u.length = n) (hn : n ≤ 64) :
    asUsize (toI64 (bitsVal off u)) = bitsVal off u := by
  apply asUsize_toI64
  have := bitsVal_lt off u ho
  rw [h] at this
  exact Nat.lt_of_lt_of_le this (Nat.pow_le_pow_right (by omega) hn)

theorem padLen_add (off : Nat) : (off + padLen off) % 8 = 0 ∨ 8 < off := by
  unfold padLen; omega

/-! ## Every wire form of a positive type is non-empty -/

theorem unalignedBits_ne_nil {off : Nat} (ho : off < 8) {bs : List UInt8} (h : bs ≠ []) :
    unalignedBits off bs ≠ [] := by
  intro e
  have h3 := unalignedBits_length off ho bs
  rw [e] at h3
  have := List.length_pos_iff.mpr h
  simp at h3; omega

mutual
theorem BEnc_ne_nil (bld : Build) : ∀ (t : BTy) (off : Nat) (v : Val) (u : List Bool), off < 8 →
    t.pos = true → BEnc bld t off v u → u ≠ []
  | .int k n, off, v, u, ho, hp, h => by
    obtain ⟨h1, h2, _⟩ := h
    simp [BTy.pos] at hp
    rintro rfl; simp at h2; omega
  | .bool, off, v, u, ho, hp, h => by obtain ⟨b, _, rfl⟩ := h; simp
  | .null, off, v, u, ho, hp, h => by simp [BTy.pos] at hp
  | .fourcc, off, v, u, ho, hp, h => by
    obtain ⟨bs, h1, _, rfl⟩ := h
    exact unalignedBits_ne_nil ho (by rintro rfl; simp at h1)
  | .blob n, off, v, u, ho, hp, h => by
    obtain ⟨l, pad, bs, rfl, h1, _⟩ := h
    simp [BTy.pos] at hp
    intro h; simp at h; obtain ⟨rfl, _⟩ := h; simp at h1; omega
  | .aligned k, off, v, u, ho, hp, h => by
    obtain ⟨pad, bs, rfl, h1, h2, _⟩ := h
    simp [BTy.pos] at hp
    intro h
    have := congrArg List.length h
    rw [List.length_append, bytesBits_length] at this
    simp at this; omega
  | .bitsI64 n, off, v, u, ho, hp, h => by
    obtain ⟨l, d, rfl, h1, _⟩ := h
    simp [BTy.pos] at hp
    intro h; simp at h; obtain ⟨rfl, _⟩ := h; simp at h1; omega
  | .bitsVec n, off, v, u, ho, hp, h => by
    obtain ⟨l, d, rfl, h1, _⟩ := h
    simp [BTy.pos] at hp
    intro h; simp at h; obtain ⟨rfl, _⟩ := h; simp at h1; omega
  | .byteArr n, off, v, u, ho, hp, h => by
    obtain ⟨l, d, rfl, h1, _⟩ := h
    simp [BTy.pos] at hp
    intro h; simp at h; obtain ⟨rfl, _⟩ := h; simp at h1; omega
  | .arr n t, off, v, u, ho, hp, h => by
    obtain ⟨l, d, vs, rfl, h1, _⟩ := h
    simp [BTy.pos] at hp
    intro h; simp at h; obtain ⟨rfl, _⟩ := h; simp at h1; omega
  | .opt t, off, v, u, ho, hp, h => by
    rcases h with ⟨_, rfl⟩ | ⟨w, d, _, rfl, _⟩ <;> simp
  | .optRewind t, off, v, u, ho, hp, h => by
    rcases h with ⟨_, rfl⟩ | ⟨w, d, _, rfl, _⟩ <;> simp
  | .struct fs, off, v, u, ho, hp, h => by
    obtain ⟨vs, _, h⟩ := h
    exact BFieldsEnc_ne_nil bld fs off vs u ho (by simpa [BTy.pos] using hp) h
  | .choice n alts, off, v, u, ho, hp, h => by
    obtain ⟨l, d, vs, rfl, h1, _⟩ := h
    simp [BTy.pos] at hp
    intro h; simp at h; obtain ⟨rfl, _⟩ := h; simp at h1; omega
theorem BFieldsEnc_ne_nil (bld : Build) : ∀ (fs : BFields) (off : Nat) (vs : List Val) (u : List Bool),
    off < 8 → fs.pos = true → BFieldsEnc bld fs off vs u → u ≠ []
  | .nil, off, vs, u, ho, hp, h => by simp [BFields.pos] at hp
  | .cons _ t rest, off, vs, u, ho, hp, h => by
    obtain ⟨v, vs', u1, u2, _, rfl, h1, h2⟩ := h
    simp only [BFields.pos, Bool.or_eq_true] at hp
    rcases hp with hp | hp
    · have := BEnc_ne_nil bld t off v u1 ho hp h1
      simp [this]
    · have := BFieldsEnc_ne_nil bld rest _ vs' u2 (Nat.mod_lt _ (by omega)) hp h2
      simp [this]
end

/-! ## The parser -/

mutual
/-- **The bit-packed parser of any type accepts exactly the wire forms of that type.** -/
theorem bparse_parses (bld : Build) : ∀ (t : BTy), t.wf = true → Parses (bparse bld t) (BEnc bld t)
  | .int k n, _ => by
    refine ((parsePackedInt_parses bld k n).map Val.int).congr (fun c _ => rfl) ?_
    intro off v u _
    constructor
    · rintro ⟨x, rfl, h1, h2, h3⟩; exact ⟨h1, h2, x, rfl, h3⟩
    · rintro ⟨h1, h2, x, rfl, h3⟩; exact ⟨x, rfl, h1, h2, h3⟩
  | .bool, _ => (parseBool_parses.map Val.bool).congr (fun c _ => rfl) (fun off v u _ => Iff.rfl)
  | .null, _ => (Parses.pure Val.unit).congr (fun c _ => rfl) (fun off v u _ => Iff.rfl)
  | .fourcc, _ => by
    refine (takeFourcc_parses.map Val.bytes).congr (fun c _ => rfl) ?_
    intro off v u _
    constructor
    · rintro ⟨x, rfl, h1, h2⟩; exact ⟨x, h1, rfl, h2⟩
    · rintro ⟨x, h1, rfl, h2⟩; exact ⟨x, rfl, h1, h2⟩
  | .blob n, _ => by
    refine ((parsePackedInt_zero_parses bld n).bind (fun size => byteAlign_parses.bind
      (fun _ => (takeBytesBits_parses (asUsize size)).map Val.bytes))).congr (fun c _ => rfl) ?_
    intro off v u ho
    have hz : ∀ o, o < 8 → (o + padLen o) % 8 = 0 := by intro o h; unfold padLen; omega
    constructor
    · rintro ⟨size, l, u2, rfl, ⟨h1, h2, rfl⟩, _, pad, u3, rfl, h3, _, rfl, bs, h4, rfl, rfl⟩
      rw [h2] at h3
      refine ⟨l, pad, bs, ?_, h2, h1, h3, ?_, rfl⟩
      · rw [h2, h3, hz _ (Nat.mod_lt _ (by omega)), unalignedBits_zero]
      · rw [asUsize_bits ho h2 h1] at h4; exact h4.symm
    · rintro ⟨l, pad, bs, rfl, h1, h2, h3, h4, rfl⟩
      refine ⟨_, l, _, rfl, ⟨h2, h1, rfl⟩, (), pad, _, rfl, by rw [h1]; exact h3, _, rfl, bs, ?_, ?_, rfl⟩
      · rw [asUsize_bits ho h1 h2]; exact h4.symm
      · rw [h1, h3, hz _ (Nat.mod_lt _ (by omega)), unalignedBits_zero]
  | .aligned k, _ => by
    refine (byteAlign_parses.bind
      (fun _ => (takeBytesBits_parses k).map Val.bytes)).congr (fun c _ => rfl) ?_
    intro off v u ho
    have hz : (off + padLen off) % 8 = 0 := by unfold padLen; omega
    constructor
    · rintro ⟨_, pad, u3, rfl, h3, _, rfl, bs, h4, rfl, rfl⟩
      refine ⟨pad, bs, ?_, h3, h4, rfl⟩
      rw [h3, hz, unalignedBits_zero]
    · rintro ⟨pad, bs, rfl, h3, h4, rfl⟩
      refine ⟨(), pad, _, rfl, h3, _, rfl, bs, h4, ?_, rfl⟩
      rw [h3, hz, unalignedBits_zero]
  | .bitsI64 n, _ => by
    refine ((takeI64_parses n).bind (fun len => (takeI64_parses (asUsize len)).map Val.int)).congr
      (fun c _ => rfl) ?_
    intro off v u ho
    constructor
    · rintro ⟨len, l, d, rfl, ⟨h1, h2, rfl⟩, x, rfl, h3, h4, rfl⟩
      rw [asUsize_bits ho h2 h1] at h3 h4
      exact ⟨l, d, rfl, h2, h1, h4, by omega, by rw [h2]⟩
    · rintro ⟨l, d, rfl, h2, h1, h4, h5, rfl⟩
      refine ⟨_, l, d, rfl, ⟨h1, h2, rfl⟩, _, rfl, ?_, ?_, by rw [h2]⟩
      · rw [asUsize_bits ho h2 h1]; omega
      · rw [asUsize_bits ho h2 h1]; exact h4
  | .bitsVec n, _ => by
    refine ((takeI64_parses n).bind (fun len => (takeBitArray_parses (asUsize len)).map Val.bytes)).congr
      (fun c _ => rfl) ?_
    intro off v u ho
    constructor
    · rintro ⟨len, l, d, rfl, ⟨h1, h2, rfl⟩, x, rfl, h4, rfl⟩
      rw [asUsize_bits ho h2 h1] at h4
      exact ⟨l, d, rfl, h2, h1, h4, by rw [h2]⟩
    · rintro ⟨l, d, rfl, h2, h1, h4, rfl⟩
      refine ⟨_, l, d, rfl, ⟨h1, h2, rfl⟩, _, rfl, ?_, by rw [h2]⟩
      rw [asUsize_bits ho h2 h1]; exact h4
  | .byteArr n, _ => by
    refine ((takeI64_parses n).bind
      (fun len => (takeUnalignedByte_parses.repeatN (asUsize len)).map Val.bytes)).congr
      (fun c _ => rfl) ?_
    intro off v u ho
    constructor
    · rintro ⟨len, l, d, rfl, ⟨h1, h2, rfl⟩, bs, rfl, h4, h5⟩
      rw [asUsize_bits ho h2 h1] at h4
      rw [seqEnc_unaligned _ (Nat.mod_lt _ (by omega))] at h5
      exact ⟨l, bs, by rw [h5, h2], h2, h1, h4.symm, rfl⟩
    · rintro ⟨l, bs, rfl, h2, h1, h4, rfl⟩
      refine ⟨_, l, _, rfl, ⟨h1, h2, rfl⟩, _, rfl, ?_, ?_⟩
      · rw [asUsize_bits ho h2 h1]; exact h4.symm
      · rw [seqEnc_unaligned _ (Nat.mod_lt _ (by omega)), h2]
  | .arr n t, hw => by
    have ih := bparse_parses bld t (by simpa [BTy.wf] using hw)
    refine ((takeI64_parses n).bind
      (fun len => (ih.repeatN (asUsize len)).map Val.list)).congr (fun c _ => rfl) ?_
    intro off v u ho
    constructor
    · rintro ⟨len, l, d, rfl, ⟨h1, h2, rfl⟩, vs, rfl, h4, h5⟩
      rw [asUsize_bits ho h2 h1] at h4
      exact ⟨l, d, vs, rfl, h2, h1, h4.symm, rfl, by rw [← h2]; exact h5⟩
    · rintro ⟨l, d, vs, rfl, h2, h1, h4, rfl, h5⟩
      refine ⟨_, l, _, rfl, ⟨h1, h2, rfl⟩, _, rfl, ?_, ?_⟩
      · rw [asUsize_bits ho h2 h1]; exact h4.symm
      · rw [h2]; exact h5
  | .opt t, hw => by
    have ih := bparse_parses bld t (by simpa [BTy.wf] using hw)
    have hb : ∀ p : Bool, Parses (fun c => if p then (bparse bld t c >>= fun q => (pure (q.1, Val.some q.2) : Res (Cur × Val))) else pure (c, Val.none))
        (fun off v u => if p then (∃ w, v = Val.some w ∧ BEnc bld t off w u) else (v = .none ∧ u = [])) := by
      intro p
      cases p
      · simpa using Parses.pure Val.none
      · simpa using ih.map Val.some
    refine (parseBool_parses.bind hb).congr (fun c _ => rfl) ?_
    intro off v u ho
    constructor
    · rintro ⟨p, u1, u2, rfl, rfl, h⟩
      cases p
      · simp at h; obtain ⟨rfl, rfl⟩ := h; exact Or.inl ⟨rfl, rfl⟩
      · simp at h; obtain ⟨w, rfl, h⟩ := h; exact Or.inr ⟨w, u2, rfl, rfl, h⟩
    · rintro (⟨rfl, rfl⟩ | ⟨w, d, rfl, rfl, h⟩)
      · exact ⟨false, [false], [], rfl, rfl, by simp⟩
      · exact ⟨true, [true], d, rfl, rfl, by simpa using h⟩
  | .optRewind t, hw => by
    simp only [BTy.wf, Bool.and_eq_true] at hw
    have ih := bparse_parses bld t hw.1
    intro c hc c' v
    rw [bparse]
    rw [parseBool_bits c hc]
    constructor
    · intro h
      split at h
      · simp at h
      · rename_i b r e
        cases b
        · simp at h
          obtain ⟨rfl, rfl⟩ := h
          exact ⟨[false], r, e, Or.inl ⟨rfl, rfl⟩, rfl⟩
        · simp only [Res.bind_ok, if_true, Res.bind_eq_ok] at h
          obtain ⟨⟨c1, w⟩, h1, h2⟩ := h
          simp only [Res.pure_eq, Res.ok.injEq, Prod.mk.injEq] at h2
          obtain ⟨rfl, rfl⟩ := h2
          obtain ⟨u, r', e', h3, rfl⟩ := (ih c hc _ _).1 h1
          have hne := BEnc_ne_nil bld t _ _ _ hc.1 hw.2 h3
          cases u with
          | nil => simp at hne
          | cons x d =>
            rw [e'] at e
            have : x = true := by simp at e; exact e.1
            subst this
            exact ⟨true :: d, r', e', Or.inr ⟨w, d, rfl, rfl, h3⟩, rfl⟩
    · rintro ⟨u, r, e, (⟨rfl, rfl⟩ | ⟨w, d, rfl, rfl, h⟩), rfl⟩
      · rw [e]; rfl
      · have := (ih c hc _ _).2 ⟨_, r, e, h, rfl⟩
        rw [e]
        simp only [List.cons_append, Res.bind_ok, if_true, this, Res.pure_eq]
  | .struct fs, hw => by
    have ih := bfields_parses bld fs (by simpa [BTy.wf] using hw)
    exact (ih.map Val.struct).congr (fun c _ => rfl) (fun off v u ho => Iff.rfl)
  | .choice n alts, hw => by
    have ih := balt_parses bld alts (by simpa [BTy.wf] using hw)
    refine ((parsePackedInt_zero_parses bld n).bind
      (fun tag => (ih tag).map (Val.choice tag))).congr (fun c _ => rfl) ?_
    intro off v u ho
    constructor
    · rintro ⟨tag, l, d, rfl, ⟨h1, h2, rfl⟩, w, rfl, h⟩
      exact ⟨l, d, w, rfl, h2, h1, rfl, by rw [← h2]; simpa [h2] using h⟩
    · rintro ⟨l, d, w, rfl, h2, h1, rfl, h⟩
      exact ⟨_, l, d, rfl, ⟨h1, h2, rfl⟩, w, rfl, by rw [h2]; exact h⟩
theorem bfields_parses (bld : Build) : ∀ (fs : BFields), fs.wf = true →
    Parses (bfields bld fs) (BFieldsEnc bld fs)
  | .nil, _ => (Parses.pure []).congr (fun c _ => rfl) (fun off v u _ => Iff.rfl)
  | .cons name t rest, hw => by
    simp only [BFields.wf, Bool.and_eq_true] at hw
    have h1 := bparse_parses bld t hw.1
    have h2 := bfields_parses bld rest hw.2
    refine (h1.bind (fun v => h2.map (fun vs => v :: vs))).congr (fun c _ => rfl) ?_
    intro off vs u _
    constructor
    · rintro ⟨v, u1, u2, rfl, h1, vs', rfl, h2⟩; exact ⟨v, vs', u1, u2, rfl, rfl, h1, h2⟩
    · rintro ⟨v, vs', u1, u2, rfl, rfl, h1, h2⟩; exact ⟨v, u1, u2, rfl, h1, vs', rfl, h2⟩
theorem balt_parses (bld : Build) : ∀ (alts : BAlts), alts.wf = true → ∀ tag,
    Parses (balt bld alts tag) (BAltEnc bld alts tag)
  | .nil, _, tag => by
    intro c hc c' v
    simp [balt, BAltEnc]
  | .cons t ty rest, hw, tag => by
    simp only [BAlts.wf, Bool.and_eq_true] at hw
    by_cases h : tag = t
    · refine (bparse_parses bld ty hw.1).congr (fun c _ => by rw [balt, if_pos h]) ?_
      intro off v u _; rw [BAltEnc, if_pos h]
    · refine (balt_parses bld rest hw.2 tag).congr (fun c _ => by rw [balt, if_neg h]) ?_
      intro off v u _; rw [BAltEnc, if_neg h]
end

theorem bparse_iff (bld : Build) (t : BTy) (hw : t.wf = true) (c : Cur) (hc : c.WF) (c' : Cur) (v : Val) :
    bparse bld t c = .ok (c', v) ↔
      ∃ u rest, c.bits = u ++ rest ∧ BEnc bld t c.off v u ∧ c' = c.advance u.length :=
  bparse_parses bld t hw c hc c' v

end S2
