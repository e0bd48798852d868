import Verif.Props.BitPacked
import Verif.Spec.GeneratorSpec
/-!
# C122 – C125: the widths a generated parser reads
-/
namespace S2.Generator
open S2

theorem log2p1_pos (x : Int) (h : 0 < x) :
    0 < log2p1 x ∧ 2 ^ (log2p1 x - 1) ≤ x ∧ x < 2 ^ log2p1 x := by
  unfold log2p1
  rw [if_neg (by omega)]
  have hx : x.toNat ≠ 0 := by omega
  have h1 := Nat.log2_self_le hx
  have h2 := @Nat.lt_log2_self x.toNat
  refine ⟨by omega, ?_, ?_⟩
  · have : ((2 ^ x.toNat.log2 : Nat) : Int) ≤ (x.toNat : Int) := Int.ofNat_le.2 h1
    rw [Int.natCast_pow] at this
    simp only [Nat.add_sub_cancel]
    have e : (x.toNat : Int) = x := by omega
    rw [e] at this
    exact this
  · have : (x.toNat : Int) < ((2 ^ (x.toNat.log2 + 1) : Nat) : Int) := Int.ofNat_lt.2 h2
    rw [Int.natCast_pow] at this
    have e : (x.toNat : Int) = x := by omega
    rw [e] at this
    exact this

theorem log2p1_lt (x : Int) : x < 2 ^ log2p1 x := by
  by_cases h : 0 < x
  · exact (log2p1_pos x h).2.2
  · have : (0 : Int) < 2 ^ log2p1 x := Int.pow_pos (by omega)
    omega

theorem pow_le_pow (a b : Nat) (h : a ≤ b) : (2 : Int) ^ a ≤ 2 ^ b := by
  have := Nat.pow_le_pow_right (n := 2) (by omega) h
  have h2 : ((2 ^ a : Nat) : Int) ≤ ((2 ^ b : Nat) : Int) := Int.ofNat_le.2 this
  rwa [Int.natCast_pow, Int.natCast_pow] at h2

theorem pow_succ_two (k : Nat) : (2 : Int) ^ (k + 1) = 2 ^ k + 2 ^ k := by
  rw [Int.pow_succ]; omega

theorem log2p1_le (x : Int) (n : Nat) (h : x < 2 ^ n) : log2p1 x ≤ n := by
  by_cases hx : 0 < x
  · obtain ⟨h0, h1, _⟩ := log2p1_pos x hx
    by_cases hn : log2p1 x ≤ n
    · exact hn
    · have := pow_le_pow n (log2p1 x - 1) (by omega)
      omega
  · unfold log2p1; rw [if_pos (by omega)]; omega

/-! ## Choices and enums -/

theorem tagBits_enough (n : Nat) : n ≤ 2 ^ tagBits n := by
  unfold tagBits
  split
  · simp; omega
  · have := @Nat.lt_log2_self (n - 1)
    omega

theorem tagBits_fewest (n : Nat) (h : 1 < n) : 2 ^ (tagBits n - 1) < n := by
  unfold tagBits
  rw [if_neg (by omega)]
  have := Nat.log2_self_le (n := n - 1) (by omega)
  simp only [Nat.add_sub_cancel]
  omega

/-- **C122 (width)** the tag of a generated choice with `n` variants has room for `n` tags, and one
bit less has not. -/
theorem C122_fewest_bits (n : Nat) :
    n ≤ 2 ^ tagBits n ∧ (1 < n → 2 ^ (tagBits n - 1) < n) ∧ (n ≤ 1 → tagBits n = 0) :=
  ⟨tagBits_enough n, tagBits_fewest n, fun h => by unfold tagBits; rw [if_pos h]⟩

theorem payload_has (bld : Build) : ∀ (alts : BAlts) (tag : Int) (ty : BTy) (w : Val),
    payload alts tag = some ty → BHas bld ty w → BAltHas bld alts tag w
  | .nil, _, _, _, h, _ => by simp [payload] at h
  | .cons t ty' rest, tag, ty, w, h, hw => by
    rw [payload] at h
    rw [BAltHas]
    split
    · rename_i e
      rw [if_pos e] at h
      cases h
      exact hw
    · rename_i e
      rw [if_neg e] at h
      exact payload_has bld rest tag ty w h hw

theorem payload_tag : ∀ (alts : BAlts) (tag : Int) (ty : BTy), payload alts tag = some ty → tag ∈ tags alts
  | .nil, _, _, h => by simp [payload] at h
  | .cons t ty' rest, tag, ty, h => by
    rw [payload] at h
    rw [tags]
    split at h
    · rename_i e; simp [e]
    · exact List.mem_cons_of_mem _ (payload_tag rest tag ty h)

/-- **C122 (partial)** if the tags are below the number of variants, every variant of a generated
choice is read back with its payload, at every bit offset and whatever follows. -/
theorem C122_partial (alts : BAlts) (hn : altCount alts ≤ 2 ^ 16) (hw : alts.wf = true)
    (hd : ∀ t ∈ tags alts, 0 ≤ t ∧ t < altCount alts) (tag : Int) (ty : BTy) (w : Val)
    (hp : payload alts tag = some ty) (hv : BHas .release ty w) :
    ReadsBack (choiceType alts) (.choice tag w) := by
  intro c hc rest h
  refine bparse_benc .release _ (by unfold choiceType; rw [BTy.wf]; exact hw) _ ?_ c hc rest h
  have ht := hd tag (payload_tag alts tag ty hp)
  have h1 := tagBits_enough (altCount alts)
  have hb : tagBits (altCount alts) ≤ 16 := by
    by_cases h0 : 1 < altCount alts
    · have h2 := tagBits_fewest _ h0
      by_cases hh : tagBits (altCount alts) ≤ 16
      · exact hh
      · have := Nat.pow_le_pow_right (n := 2) (by omega) (show 16 ≤ tagBits (altCount alts) - 1 by omega)
        omega
    · have := (C122_fewest_bits (altCount alts)).2.2 (by omega)
      omega
  have h3 : ((altCount alts : Nat) : Int) ≤ ((2 ^ tagBits (altCount alts) : Nat) : Int) := Int.ofNat_le.2 h1
  rw [Int.natCast_pow] at h3
  have h4 : (altCount alts : Int) ≤ 65536 := by omega
  exact ⟨tag, w, rfl, by omega, ht.1, by have : ((2 : Nat) : Int) = 2 := rfl
                                         rw [this] at h3; omega, by omega,
    payload_has .release alts tag ty w hp hv⟩

/-- Three variants with payloads of different types. -/
def exAlts : BAlts := .cons 0 .null (.cons 1 (.int 0 8) (.cons 2 .bool .nil))

example : ReadsBack (choiceType exAlts) (.choice 1 (.int 200)) :=
  C122_partial exAlts (by decide) (by decide) (by decide) 1 (.int 0 8) (.int 200) rfl
    ⟨200, rfl, by decide, by decide, by decide, by decide, .inl (by decide)⟩

example : bparse .release (choiceType exAlts) ⟨[0x21, 0xFF], 0⟩ =
    .ok (⟨[0xFF], 2⟩, .choice 1 (.int 35)) := by decide +kernel

theorem choice_tag_lt (bld : Build) (n : Nat) (hn : n < 63) (alts : BAlts) (c c' : Cur) (hc : c.WF) (tag : Int) (w : Val)
    (hwf : alts.wf = true) (h : bparse bld (.choice n alts) c = .ok (c', .choice tag w)) : 0 ≤ tag ∧ tag < 2 ^ n := by
  obtain ⟨u, rest, _, ⟨l, d, w', _, hl, _, hv, _⟩, _⟩ :=
    (bparse_iff bld (.choice n alts) (by rw [BTy.wf]; exact hwf) c hc c' _).1 h
  simp only [Val.choice.injEq] at hv
  have hb := bitsVal_lt c.off l hc.1
  rw [hl] at hb
  have h2 : (2 : Nat) ^ n < 2 ^ 63 := Nat.pow_lt_pow_right (by omega) hn
  have h3 : toI64 (bitsVal c.off l) = (bitsVal c.off l : Int) := by
    exact toI64_of_lt (by omega)
  rw [hv.1, h3]
  have h4 : ((bitsVal c.off l : Nat) : Int) < ((2 ^ n : Nat) : Int) := Int.ofNat_lt.2 hb
  rw [Int.natCast_pow] at h4
  exact ⟨by omega, h4⟩

/-- **C122 (refuted)** the width comes from the number of variants, not from their tags: with tags
0 and 5 no input whatsoever is read as variant 5. -/
theorem C122_refuted : ¬ ∀ (alts : BAlts), altCount alts ≤ 2 ^ 16 → alts.wf = true → (tags alts).Nodup →
    (∀ t ∈ tags alts, 0 ≤ t) → ∀ tag ∈ tags alts, ∃ (c c' : Cur) (w : Val), c.WF ∧
      bparse .release (choiceType alts) c = .ok (c', .choice tag w) := by
  intro h
  obtain ⟨c, c', w, hc, h1⟩ := h (.cons 0 .null (.cons 5 .null .nil)) (by decide) (by decide) (by decide)
    (by decide) 5 (by decide)
  have := (choice_tag_lt .release 1 (by omega) _ c c' hc 5 w (by decide) h1).2
  omega

/-- The choices and enums among the shipped bit-packed types. -/
def shippedChoice : BTy → Bool
  | .choice n alts => decide (n < 63) && decide ((tags alts).Nodup) && (tags alts).all (fun t => decide (0 ≤ t ∧ t < 2 ^ n))
  | _ => true

/-- Does the choice have the width the generator chooses? -/
def generatedWidth : BTy → Bool
  | .choice n alts => n == tagBits (altCount alts)
  | _ => true

theorem shipped_choices : allBitPacked.all (fun p => shippedChoice p.2) = true := by decide +kernel

/-- **C122 (shipped parsers)** in both shipped protocols every variant of every choice and enum has its
own tag and the tag fits into the bits read, so every variant is read back. -/
theorem C122_shipped (p : String × BTy) (hp : p ∈ allBitPacked) (n : Nat) (alts : BAlts)
    (ht : p.2 = .choice n alts) :
    (tags alts).Nodup ∧ (∀ t ∈ tags alts, 0 ≤ t ∧ t < 2 ^ n) ∧
    ∀ (tag : Int) (ty : BTy) (w : Val), payload alts tag = some ty → BHas .release ty w →
      ReadsBack p.2 (.choice tag w) := by
  have h := List.all_eq_true.1 shipped_choices p hp
  rw [ht] at h
  simp only [shippedChoice, Bool.and_eq_true, decide_eq_true_eq, List.all_eq_true] at h
  obtain ⟨⟨hn, h1⟩, h2⟩ := h
  refine ⟨h1, h2, ?_⟩
  intro tag ty w hpay hv c hc rest hb
  have hwf := allBitPacked_wf p hp
  refine bparse_benc .release _ hwf _ ?_ c hc rest hb
  have htag := h2 tag (payload_tag alts tag ty hpay)
  rw [ht]
  have := pow_le_pow n 62 (by omega)
  exact ⟨tag, w, rfl, by omega, htag.1, htag.2, by omega, payload_has .release alts tag ty w hpay hv⟩

/-- **C122 (shipped widths)** all of them have the width the generator chooses, except one that was
widened by hand. -/
theorem C122_shipped_widths :
    (allBitPacked.filter (fun p => !generatedWidth p.2)).map Prod.fst = ["GameEMessageId"] := by
  decide +kernel

/-! ## Integers -/

theorem maxBits_eq (b : Bounds) : maxBits b =
    log2p1 (b.max - (if b.minIncl then 0 else 1) - (if b.maxIncl then 0 else 1)) := by
  unfold maxBits
  cases b.minIncl <;> cases b.maxIncl <;> simp

/-- Largest admitted value. -/
theorem admits_le (b : Bounds) (v : Int) (h : b.Admits v) : v ≤ b.max - (if b.maxIncl then 0 else 1) := by
  unfold Bounds.Admits at h
  cases hm : b.maxIncl <;> simp [hm] at h ⊢ <;> omega

theorem admits_ge (b : Bounds) (v : Int) (h : b.Admits v) : b.min ≤ v := by
  unfold Bounds.Admits at h
  cases hm : b.minIncl <;> simp [hm] at h <;> omega

/-- The bits that a constraint's upper bound needs. -/
def topBits (b : Bounds) : Nat :=
  match b.pow with
  | some k => k
  | none => log2p1 (b.max - (if b.minIncl then 0 else 1) - (if b.maxIncl then 0 else 1))

theorem intBits_top (b : Bounds) : intBits b = topBits b + (if b.min < 0 then 1 else 0) := by
  unfold intBits topBits
  rw [maxBits_eq]
  cases b.pow <;> simp <;> split <;> omega

theorem top_enough (b : Bounds) (hco : b.Coherent) (hi : b.minIncl = true ∨ 0 < b.min)
    (hpow : b.pow ≠ none → b.maxIncl = false ∨ 0 < b.min) (v : Int) (h : b.Admits v) (h0 : 0 ≤ b.min) :
    v - b.min < 2 ^ topBits b := by
  have h1 := admits_le b v h
  unfold topBits
  cases hp : b.pow with
  | some k =>
    have e := hco k hp
    have h2 := hpow (by rw [hp]; simp)
    simp only
    rcases h2 with h2 | h2
    · rw [h2] at h1; simp at h1; omega
    · cases hm : b.maxIncl <;> simp [hm] at h1 <;> omega
  | none =>
    have h2 := log2p1_lt (b.max - (if b.minIncl then 0 else 1) - (if b.maxIncl then 0 else 1))
    simp only
    rcases hi with hi | hi
    · rw [hi] at h2 ⊢; simp at h2 ⊢; omega
    · have h3 : b.max - (if b.minIncl then 0 else 1) - (if b.maxIncl then 0 else 1) ≥
        b.max - 1 - (if b.maxIncl then 0 else 1) := by split <;> omega
      omega

theorem int_enough (b : Bounds) (hco : b.Coherent) (hi : b.minIncl = true ∨ 0 < b.min)
    (hpow : b.pow ≠ none → b.maxIncl = false ∨ 0 < b.min) (hneg : b.min < 0 → -b.min ≤ 2 ^ (intBits b - 1))
    (v : Int) (h : b.Admits v) : v - b.min < 2 ^ intBits b := by
  by_cases h0 : 0 ≤ b.min
  · rw [intBits_top, if_neg (by omega)]
    exact top_enough b hco hi hpow v h h0
  · have h1 := hneg (by omega)
    rw [intBits_top, if_pos (by omega)] at h1 ⊢
    simp only [Nat.add_sub_cancel] at h1
    rw [pow_succ_two]
    have h2 := admits_le b v h
    have hmi : b.minIncl = true := by
      rcases hi with hi | hi
      · exact hi
      · omega
    suffices hs : v < 2 ^ topBits b by omega
    unfold topBits
    cases hp : b.pow with
    | some k =>
      have e := hco k hp
      have h3 := hpow (by rw [hp]; simp)
      simp only
      rcases h3 with h3 | h3
      · rw [h3] at h2; simp at h2; omega
      · omega
    | none =>
      have h3 := log2p1_lt (b.max - (if b.minIncl then 0 else 1) - (if b.maxIncl then 0 else 1))
      simp only
      rw [hmi] at h3 ⊢; simp at h3 ⊢; omega

/-- **C123 (partial)** a generated integer parser reads back every value its constraint admits, if the
lower bound is inclusive or positive, an upper bound written as a power of two is exclusive (or the
lower bound is positive), and a negative lower bound is no farther from 0 than half the bits reach. -/
theorem C123_partial (b : Bounds) (hco : b.Coherent) (hi : b.minIncl = true ∨ 0 < b.min)
    (hpow : b.pow ≠ none → b.maxIncl = false ∨ 0 < b.min) (hneg : b.min < 0 → -b.min ≤ 2 ^ (intBits b - 1))
    (hw : intBits b ≤ 64) (hmin : inI64 b.min) (v : Int) (hv : inI64 v) (h : b.Admits v) :
    ReadsBack (intType b) (.int v) := by
  intro c hc rest hb
  refine bparse_benc .release _ rfl _ ?_ c hc rest hb
  have h1 := int_enough b hco hi hpow hneg v h
  have h2 := pow_le_pow _ 64 hw
  exact ⟨v, rfl, hw, hv, admits_ge b v h, h1, .inr ⟨rfl, hmin, by omega⟩⟩

/-- 32-bit signed integers, described as `-2^31 ≤ v < 2^31`. -/
def exSigned : Bounds := ⟨-2147483648, true, 2147483648, false, some 31⟩

example : intBits exSigned = 32 := by decide
example : ReadsBack (intType exSigned) (.int (-1)) :=
  C123_partial exSigned (by intro k hk; cases hk; decide) (.inl rfl) (fun _ => .inl rfl) (fun _ => by decide)
    (by decide) (by decide) (-1) (by decide) ⟨by decide, by decide⟩

/-- **C123 (width, partial)** for the ranges that start at 0 and for the symmetric ranges the width is
exactly the number of bits the range needs. -/
theorem C123_width_partial (b : Bounds) (hco : b.Coherent) (hm : b.minIncl = true)
    (h : (b.min = 0 ∧ (b.pow ≠ none → b.maxIncl = false)) ∨
      ∃ k, b.min = -2 ^ k ∧ b.max = 2 ^ k ∧ b.maxIncl = false ∧ b.pow = some k) :
    b.FewestBits (intBits b) := by
  rcases h with ⟨h0, hp⟩ | ⟨k, h1, h2, h3, h4⟩
  · refine ⟨int_enough b hco (.inl hm) (fun h => .inl (hp h)) (fun h => by omega), ?_⟩
    rw [intBits_top, if_neg (by omega), Nat.add_zero]
    unfold topBits
    cases hq : b.pow with
    | some k =>
      have e := hco k hq
      have hx := hp (by rw [hq]; simp)
      simp only
      intro hk
      have hpos : (0 : Int) < 2 ^ k := Int.pow_pos (by omega)
      refine ⟨b.max - 1, ⟨by rw [hm]; simp; omega, by rw [hx]; simp; omega⟩, ?_⟩
      obtain ⟨j, rfl⟩ : ∃ j, k = j + 1 := ⟨k - 1, by omega⟩
      have hpos' : (0 : Int) < 2 ^ j := Int.pow_pos (by omega)
      rw [pow_succ_two] at e
      simp only [Nat.add_sub_cancel]
      omega
    | none =>
      simp only
      intro hk
      have hx : 0 < b.max - (if b.minIncl then 0 else 1) - (if b.maxIncl then 0 else 1) := by
        by_cases hx : 0 < b.max - (if b.minIncl then 0 else 1) - (if b.maxIncl then 0 else 1)
        · exact hx
        · unfold log2p1 at hk; rw [if_pos (by omega)] at hk; omega
      have hy := (log2p1_pos _ hx).2.1
      refine ⟨_, ⟨?_, ?_⟩, by rw [h0, Int.sub_zero]; exact hy⟩
      · rw [hm, h0]; rw [hm] at hx; simp only [if_true] at hx ⊢; omega
      · rw [hm]; cases b.maxIncl <;> simp <;> omega
  · have hpos : (0 : Int) < 2 ^ k := Int.pow_pos (by omega)
    have e : intBits b = k + 1 := by
      rw [intBits_top, if_pos (by omega)]
      unfold topBits
      rw [h4]
    refine ⟨int_enough b hco (.inl hm) (fun _ => .inl h3) (fun _ => by rw [e]; simp only [Nat.add_sub_cancel]; omega), ?_⟩
    intro _
    refine ⟨b.max - 1, ⟨by rw [hm]; simp; omega, by rw [h3]; simp; omega⟩, ?_⟩
    rw [e]
    simp only [Nat.add_sub_cancel]
    omega

example : Bounds.FewestBits ⟨0, true, 500, true, none⟩ 9 :=
  C123_width_partial ⟨0, true, 500, true, none⟩ (fun k h => by cases h) rfl (.inl ⟨rfl, fun h => absurd rfl h⟩)

theorem int_read_lt (k : Int) (n : Nat) (hn : n < 63) (hk : -2 ^ 62 ≤ k ∧ k ≤ 0) (c c' : Cur) (hc : c.WF) (x : Int)
    (h : bparse .release (.int k n) c = .ok (c', .int x)) : x < k + 2 ^ n := by
  obtain ⟨u, rest, _, ⟨_, hl, y, hy, hp⟩, _⟩ := (bparse_iff .release (.int k n) rfl c hc c' _).1 h
  simp only [Val.int.injEq] at hy
  subst hy
  have hb := bitsVal_lt c.off u hc.1
  rw [hl] at hb
  have h2 : (2 : Nat) ^ n < 2 ^ 63 := Nat.pow_lt_pow_right (by omega) hn
  have h3 := toI64_of_lt (n := bitsVal c.off u) (by omega)
  have h4 : ((bitsVal c.off u : Nat) : Int) < ((2 ^ n : Nat) : Int) := Int.ofNat_lt.2 hb
  rw [Int.natCast_pow] at h4
  rw [h3] at hp
  have h5 : ((2 : Nat) : Int) ^ n = 2 ^ n := rfl
  rw [h5] at h4
  rcases hp with ⟨_, e⟩ | ⟨_, hni, _⟩
  · omega
  · exfalso
    apply hni
    unfold inI64 i64Min i64Max
    omega

/-- **C123 (refuted)** a constraint with a negative lower bound gets the bits of its *upper* bound plus
one: for `-5 ≤ v ≤ 1` two bits are read and no input is ever read as 1. -/
theorem C123_refuted : ¬ ∀ (b : Bounds), b.Coherent → b.minIncl = true → b.maxIncl = true → ∀ v, b.Admits v →
    ∃ (c c' : Cur), c.WF ∧ bparse .release (intType b) c = .ok (c', .int v) := by
  intro h
  obtain ⟨c, c', hc, h1⟩ := h ⟨-5, true, 1, true, none⟩ (fun k h => by cases h) rfl rfl 1
    ⟨by decide, by decide⟩
  have h2 := int_read_lt (-5) 2 (by omega) (by decide) c c' hc 1 h1
  exact absurd h2 (by decide)

/-- **C123 (width, refuted)** the lower bound is not taken off the upper bound: `100 ≤ v ≤ 127` needs
five bits, seven are read. -/
theorem C123_width_refuted : ¬ ∀ (b : Bounds), b.Coherent → b.minIncl = true → b.maxIncl = true →
    0 ≤ b.min → b.FewestBits (intBits b) := by
  intro h
  obtain ⟨v, ⟨_, h2⟩, h1⟩ := (h ⟨100, true, 127, true, none⟩ (fun k h => by cases h) rfl rfl (by decide)).2 (by decide)
  have e : intBits ⟨100, true, 127, true, none⟩ = 7 := by decide
  rw [e] at h1
  simp at h1 h2
  omega

/-! ## Lengths of arrays and strings -/

theorem arrayBits_enough (b : Bounds) (n : Nat) (h : b.Admits n) : n < 2 ^ arrayBits b := by
  have h1 := admits_le b n h
  have h2 := log2p1_lt (if b.maxIncl then b.max + 1 else b.max)
  have h3 : (n : Int) < 2 ^ arrayBits b := by
    unfold arrayBits
    cases hm : b.maxIncl <;> rw [hm] at h1 h2 <;> simp at h1 h2 ⊢ <;> omega
  have h4 : (n : Int) < ((2 ^ arrayBits b : Nat) : Int) := by rw [Int.natCast_pow]; exact h3
  exact Int.ofNat_lt.1 h4

theorem arrayBits_le (b : Bounds) (h : b.max < 2 ^ 16) : arrayBits b ≤ 17 := by
  unfold arrayBits
  apply log2p1_le
  split <;> omega

/-- **C124 (arrays)** a generated array parser reads back every array of a length the constraint admits. -/
theorem C124_arrays (b : Bounds) (elem : BTy) (hw : elem.wf = true) (hmax : b.max < 2 ^ 16) (vs : List Val)
    (hl : b.Admits vs.length) (hv : ∀ v ∈ vs, BHas .release elem v) : ReadsBack (arrayType b elem) (.list vs) := by
  intro c hc rest hb
  refine bparse_benc .release _ (by unfold arrayType; rw [BTy.wf]; exact hw) _ ?_ c hc rest hb
  have := arrayBits_le b hmax
  exact ⟨vs, rfl, by omega, arrayBits_enough b _ hl, hv⟩

/-- **C124 (strings)** and every non-empty string. -/
theorem C124_strings (b : Bounds) (hmax : b.max < 2 ^ 16) (bs : List UInt8) (hne : bs ≠ [])
    (hl : b.Admits bs.length) : ReadsBack (stringType b) (.bytes bs) := by
  intro c hc rest hb
  have h1 := arrayBits_le b hmax
  have h2 := arrayBits_enough b _ hl
  have h3 := Nat.pow_le_pow_right (n := 2) (by omega) (show arrayBits b ≤ arrayBits b + 2 by omega)
  refine bparse_benc .release _ (by unfold stringType; rw [BTy.wf]; simp; omega) _ ?_ c hc rest hb
  exact ⟨bs, rfl, hne, by omega, by omega⟩

example : ReadsBack (arrayType ⟨0, true, 16, true, none⟩ .bool) (.list (List.replicate 16 (.bool true))) :=
  C124_arrays _ .bool rfl (by decide) _ ⟨by decide, by decide⟩ (by
    intro v hv
    rw [(List.mem_replicate.1 hv).2]
    exact ⟨true, rfl⟩)

/-- **C124 (width, partial)** the length of an array that may be empty has exactly the bits it needs,
unless the number of possible lengths is a power of two. -/
theorem C124_width_partial (b : Bounds) (h0 : b.min = 0) (hm : b.minIncl = true)
    (hp : ∀ k : Nat, (if b.maxIncl then b.max + 1 else b.max) ≠ 2 ^ k) : b.FewestBits (arrayBits b) := by
  refine ⟨?_, ?_⟩
  · intro v hv
    have h1 := admits_ge b v hv
    have h2 := arrayBits_enough b v.toNat (by rwa [Int.toNat_of_nonneg (by omega)])
    have h3 : ((v.toNat : Nat) : Int) < ((2 ^ arrayBits b : Nat) : Int) := Int.ofNat_lt.2 h2
    rw [Int.natCast_pow] at h3
    have h4 : ((2 : Nat) : Int) ^ arrayBits b = 2 ^ arrayBits b := rfl
    rw [h4] at h3
    omega
  · intro hpos
    have hx : 0 < (if b.maxIncl then b.max + 1 else b.max) := by
      by_cases hx : 0 < (if b.maxIncl then b.max + 1 else b.max)
      · exact hx
      · unfold arrayBits log2p1 at hpos; rw [if_pos (by omega)] at hpos; omega
    have hy := (log2p1_pos _ hx).2.1
    have hz := hp (arrayBits b - 1)
    refine ⟨(if b.maxIncl then b.max + 1 else b.max) - 1, ⟨by rw [hm, h0]; simp; omega, ?_⟩, ?_⟩
    · cases b.maxIncl <;> simp <;> omega
    · unfold arrayBits at hz ⊢
      rw [h0]
      omega

/-- **C124 (width, refuted)** an array of at most 15 elements needs four bits for its length, five are
read (the bound is raised by one first); strings get two more. -/
theorem C124_width_refuted : ¬ ∀ (b : Bounds), b.min = 0 → b.minIncl = true → b.FewestBits (arrayBits b) := by
  intro h
  obtain ⟨v, ⟨_, h2⟩, h1⟩ := (h ⟨0, true, 15, true, none⟩ rfl rfl).2 (by decide)
  have e : arrayBits ⟨0, true, 15, true, none⟩ = 5 := by decide
  rw [e] at h1
  simp at h1 h2
  omega

/-! ## Blobs of a fixed size -/

theorem takeBitArrayLoop_length (f : Nat) : ∀ (c : Cur) (rem : Nat) (acc : List UInt8) (c' : Cur) (bs : List UInt8),
    takeBitArrayLoop f c rem acc = .ok (c', bs) → bs.length ≤ acc.length + (rem + 7) / 8 + 1 ∧
      (0 < rem → bs.length ≤ acc.length + (rem + 7) / 8) := by
  induction f with
  | zero => intro c rem acc c' bs h; simp [takeBitArrayLoop] at h
  | succ f ih =>
    intro c rem acc c' bs h
    rw [takeBitArrayLoop] at h
    obtain ⟨x, _, h⟩ := Res.bind_eq_ok.1 h
    obtain ⟨⟨t, y⟩, _, h⟩ := Res.bind_eq_ok.1 h
    dsimp only at h
    by_cases h8 : rem > 8
    · rw [if_pos h8, if_neg (by omega)] at h
      have := (ih t _ _ c' bs h).2 (by omega)
      simp only [List.length_append, List.length_cons, List.length_nil] at this
      omega
    · rw [if_neg h8, if_pos (by omega)] at h
      simp only [Res.pure_eq, Res.ok.injEq, Prod.mk.injEq] at h
      obtain ⟨_, rfl⟩ := h
      simp only [List.length_append, List.length_cons, List.length_nil]
      omega

/-- **C125 (refuted for every size)** a generated parser for a blob of exactly `n` bytes, `n ≥ 2`, never
returns `n` bytes: it reads the bits of the number `n`. -/
theorem C125_refuted (n : Nat) (hn : 2 ≤ n) (pow : Option Nat) (c c' : Cur) (bs : List UInt8)
    (h : blobParse ⟨n, true, n, true, pow⟩ c = .ok (c', bs)) : bs.length < n := by
  unfold blobParse at h
  obtain ⟨⟨t, _⟩, _, h⟩ := Res.bind_eq_ok.1 h
  dsimp only at h
  have h1 := takeBitArrayLoop_length _ _ _ _ _ _ h
  have e : maxBits ⟨n, true, n, true, pow⟩ = log2p1 n := by rw [maxBits_eq]; simp
  have h2 := (log2p1_pos (n : Int) (by omega))
  have h3 : log2p1 (n : Int) ≤ n := by
    apply log2p1_le
    have : n < 2 ^ n := Nat.lt_two_pow_self
    have h4 : ((n : Nat) : Int) < ((2 ^ n : Nat) : Int) := Int.ofNat_lt.2 this
    rwa [Int.natCast_pow] at h4
  have h5 := h1.2 (by rw [e]; exact h2.1)
  rw [e] at h5
  simp only [List.length_nil] at h5
  omega

/-- Six bits of the first of forty bytes. -/
example : (blobParse ⟨40, true, 40, true, none⟩ ⟨List.replicate 40 0xFF, 0⟩) =
    .ok (⟨List.replicate 40 0xFF, 6⟩, [63]) := by decide +kernel

/-- **C125 (partial)** the shipped parsers of the forty-byte cache handles were corrected by hand: they
read back any forty bytes. -/
theorem C125_partial (t : BTy) (ht : t = P87702.BitPacked.CCacheHandle ∨ t = P87702.BitPacked.GameCCacheHandle)
    (bs : List UInt8) (hl : bs.length = 40) : ReadsBack t (.bytes bs) := by
  have e : t = .aligned 40 := by rcases ht with rfl | rfl <;> rfl
  subst e
  intro c hc rest hb
  refine bparse_benc .release _ rfl _ ?_ c hc rest hb
  exact ⟨bs, rfl, by intro h; simp [h] at hl, hl⟩

end S2.Generator
