import Verif.Schema.BitPackedSafe
/-!
# C01 – C06: bit-packed primitives

`c.WF` is the invariant of nom bit cursors (offset `< 8`, `0` on an empty slice); `(bytes, 0)` has
it and every successful read keeps it (`C02`).
-/
namespace S2

/-- A concrete cursor in the middle of a byte: offset 3 of `[0xB5, 0x0F, 0x80]`. -/
def sampleCur : Cur := ⟨[0xB5, 0x0F, 0x80], 3⟩

/-- **C01** `take_n_bits_into_i64` computes Blizzard's `read_bits` (spec: `readBits`),
reinterpreted as `i64`. -/
theorem C01_value (c : Cur) (hc : c.WF) (n : Nat) (hn : n ≤ 64) (h : n ≤ c.bits.length) :
    ∃ c', takeI64 c n = .ok (c', toI64 (readBits c.bytes c.off n)) := by
  rw [takeI64_eq c n hc, if_neg (by omega), if_neg (by omega)]; exact ⟨_, rfl⟩

/-- **C01** more than 64 bits is always the dedicated error. -/
theorem C01_more_than_64 (c : Cur) (n : Nat) (hn : 64 < n) : takeI64 c n = .err (.more64 n) := by
  unfold takeI64; rw [if_pos hn]

/-- **C01** up to 63 bits the value is the unsigned number itself. -/
theorem C01_unsigned (c : Cur) (hc : c.WF) (n : Nat) (hn : n ≤ 63) (h : n ≤ c.bits.length) :
    ∃ c', takeI64 c n = .ok (c', (readBits c.bytes c.off n : Int)) ∧
      readBits c.bytes c.off n < 2 ^ n := by
  have hlt : readBits c.bytes c.off n < 2 ^ n := by
    rw [readBits_eq c n hc.1 h]
    have := bitsVal_lt c.off (c.bits.take n) hc.1
    rwa [List.length_take, Nat.min_eq_left h] at this
  obtain ⟨c', h1⟩ := C01_value c hc n (by omega) h
  refine ⟨c', ?_, hlt⟩
  rw [h1, toI64_of_lt (Nat.lt_of_lt_of_le hlt (Nat.pow_le_pow_right (by omega) hn))]

example : sampleCur.WF ∧ 12 ≤ sampleCur.bits.length ∧
    takeI64 sampleCur 12 = .ok (⟨[0x0F, 0x80], 7⟩, 0xB0F) := by decide +kernel

/-- **C02** a read of `n ≤ 64` bits succeeds exactly when `n` unread bits remain, and then the
cursor is exactly `n` bits further; otherwise it is an error, never a panic. -/
theorem C02_int (c : Cur) (hc : c.WF) (n : Nat) (hn : n ≤ 64) :
    ((∃ c' x, takeI64 c n = .ok (c', x)) ↔ n ≤ c.bits.length) ∧
    (∀ c' x, takeI64 c n = .ok (c', x) →
      c' = c.advance n ∧ c'.WF ∧ c'.bits = c.bits.drop n) ∧
    takeI64 c n ≠ .panic := by
  have key := takeI64_bits c n hc
  rw [if_neg (by omega)] at key
  refine ⟨?_, ?_, (takeI64_safe n c hc).1⟩
  · rw [key]
    split
    · simp; omega
    · simp; omega
  · intro c' x h
    have hw := (takeI64_safe n c hc).2 c' x h
    rw [key] at h
    split at h
    · simp at h
    · simp only [Res.ok.injEq, Prod.mk.injEq] at h
      obtain ⟨rfl, _⟩ := h
      exact ⟨rfl, hw, Cur.advance_bits c n⟩

/-- **C02** the same for bit arrays of any size. -/
theorem C02_bit_array (c : Cur) (hc : c.WF) (n : Nat) :
    ((∃ c' x, takeBitArray c n = .ok (c', x)) ↔ n ≤ c.bits.length) ∧
    (∀ c' x, takeBitArray c n = .ok (c', x) →
      c' = c.advance n ∧ c'.WF ∧ c'.bits = c.bits.drop n) ∧
    takeBitArray c n ≠ .panic := by
  have hp := takeBitArray_parses n c hc
  refine ⟨⟨?_, ?_⟩, ?_, (takeBitArray_safe n c hc).1⟩
  · rintro ⟨c', x, h⟩
    obtain ⟨u, r, e, ⟨h1, _⟩, _⟩ := (hp _ _).1 h
    rw [e]; simp; omega
  · intro h
    exact ⟨_, _, (hp _ _).2 ⟨c.bits.take n, c.bits.drop n, (List.take_append_drop _ _).symm,
      ⟨by rw [List.length_take]; omega, rfl⟩, rfl⟩⟩
  · intro c' x h
    have hw := (takeBitArray_safe n c hc).2 c' x h
    obtain ⟨u, r, e, ⟨h1, _⟩, rfl⟩ := (hp _ _).1 h
    subst h1
    exact ⟨rfl, hw, Cur.advance_bits c _⟩

/-- **C02** the same for `parse_bool`, which returns the next bit. -/
theorem C02_bool (c : Cur) (hc : c.WF) :
    (c.bits = [] → parseBool c = .err .eof) ∧
    (∀ b r, c.bits = b :: r → parseBool c = .ok (c.advance 1, b)) := by
  rw [parseBool_bits c hc]
  refine ⟨fun h => by rw [h], fun b r h => by rw [h]⟩

/-- **C02** alignment skips to the next byte boundary and never fails. -/
theorem C02_align (c : Cur) (hc : c.WF) :
    ∃ c', byteAlign c = .ok (c', ()) ∧ c'.off = 0 ∧ c'.WF ∧
      c'.bytes = (if c.off = 0 then c.bytes else c.bytes.drop 1) := by
  obtain ⟨h1, h2, h3⟩ := byteAlign_bits c hc
  refine ⟨_, h1, h3, Cur.advance_WF c _ h2 hc, ?_⟩
  have h8 := hc.1
  unfold Cur.advance padLen
  dsimp only
  split
  · rename_i h; rw [h]; simp
  · rename_i h
    rw [show (c.off + (8 - c.off) % 8) / 8 = 1 by omega]

example : sampleCur.WF ∧ (∃ c' x, takeI64 sampleCur 21 = .ok (c', x)) ∧ ¬ 22 ≤ sampleCur.bits.length := by
  refine ⟨by decide, ?_, by decide⟩
  exact (C02_int sampleCur (by decide) 21 (by decide)).1.mpr (by decide)

/-- **C03** `8k` bits read from an aligned cursor are the next `k` bytes, verbatim, and the cursor
is left aligned right behind them. -/
theorem C03_aligned (bs tail : List UInt8) (hb : bs ≠ []) :
    takeBitArray ⟨bs ++ tail, 0⟩ (8 * bs.length) = .ok (⟨tail, 0⟩, bs) := by
  have hc : (⟨bs ++ tail, 0⟩ : Cur).WF := ⟨by simp, by simp⟩
  have h := (takeBytesBits_parses bs.length ⟨bs ++ tail, 0⟩ hc
    ((⟨bs ++ tail, 0⟩ : Cur).advance (unalignedBits 0 bs).length) bs).2
    ⟨unalignedBits 0 bs, bytesBits tail, by
      rw [unalignedBits_zero]; simp [Cur.bits, bytesBits], ⟨bs, rfl, rfl, by
      rw [zeroFix, if_neg hb]⟩, rfl⟩
  rw [unalignedBits_length 0 (by omega)] at h
  rw [Nat.mul_comm]
  refine (show takeBitArray ⟨bs ++ tail, 0⟩ (bs.length * 8) = _ from h).trans ?_
  simp [Cur.advance]

/-- **C03** at any bit offset, `8k` bits are the `k` bytes obtained by Blizzard's rule eight bits at a
time (`encBits off 8 b` is the only eight-bit string that `readBits` maps to `b`). -/
theorem C03_unaligned (c : Cur) (hc : c.WF) (bs : List UInt8) (hb : bs ≠ []) (rest : List Bool)
    (h : c.bits = bs.flatMap (fun b => encBits c.off 8 b.toNat) ++ rest) :
    takeBitArray c (8 * bs.length) = .ok (c.advance (8 * bs.length), bs) := by
  have hh := (takeBytesBits_parses bs.length c hc (c.advance (unalignedBits c.off bs).length) bs).2
    ⟨unalignedBits c.off bs, rest, h, ⟨bs, rfl, rfl, by rw [zeroFix, if_neg hb]⟩, rfl⟩
  rw [unalignedBits_length _ hc.1] at hh
  rw [Nat.mul_comm] at hh
  rwa [Nat.mul_comm 8] at hh ⊢

example : takeBitArray ⟨[1, 2, 3, 4], 0⟩ 24 = .ok (⟨[4], 0⟩, [1, 2, 3]) :=
  C03_aligned [1, 2, 3] [4] (by decide)
example : takeBitArray sampleCur 16 = .ok (⟨[0x80], 3⟩, [0xB7, 0x08]) := by decide +kernel

/-- **C04 (refuted)** a zero-length bit array is not decoded as the empty byte string. -/
theorem C04_refuted : ¬ ∀ c : Cur, c.WF → takeBitArray c 0 = .ok (c, []) := by
  intro h
  have := h sampleCur (by decide)
  rw [takeBitArray_zero sampleCur (by decide)] at this
  simp at this

/-- **C04 (refuted)** the decoded blob for the encoded length 0 is one zero byte, for every
blob type and every cursor where such a blob starts. -/
theorem C04_zero_blob_is_one_zero (bld : Build) (n : Nat) (hn : n ≤ 32) (c : Cur) (hc : c.WF)
    (l pad rest : List Bool) (h : c.bits = l ++ (pad ++ rest)) (hl : l.length = n)
    (hp : pad.length = padLen ((c.off + n) % 8)) (h0 : bitsVal c.off l = 0) :
    bparse bld (.blob n) c = .ok (c.advance (n + pad.length), .bytes [0]) := by
  rw [bparse_iff bld (.blob n) (by simpa [BTy.wf] using hn) c hc]
  refine ⟨l ++ (pad ++ []), rest, by simp [h], ⟨l, pad, [], by simp [bytesBits], hl, by omega, hp, by simpa using h0, rfl⟩, ?_⟩
  simp [hl]

/-- **C04 (partial)** what does hold: every non-empty blob is returned verbatim.  Missing: the
empty blob (see `C04_refuted`). -/
theorem C04_partial (bld : Build) (n : Nat) (hn : n ≤ 32) (c : Cur) (hc : c.WF)
    (bs : List UInt8) (hb : bs ≠ []) (l pad rest : List Bool)
    (h : c.bits = l ++ (pad ++ (bytesBits bs ++ rest))) (hl : l.length = n)
    (hp : pad.length = padLen ((c.off + n) % 8)) (h0 : bitsVal c.off l = bs.length) :
    bparse bld (.blob n) c = .ok (c.advance (n + pad.length + 8 * bs.length), .bytes bs) := by
  rw [bparse_iff bld (.blob n) (by simpa [BTy.wf] using hn) c hc]
  refine ⟨l ++ (pad ++ bytesBits bs), rest, by simp [h], ⟨l, pad, bs, rfl, hl, by omega, hp, h0, by
    rw [zeroFix, if_neg hb]⟩, ?_⟩
  simp [hl, bytesBits_length, Nat.add_assoc]

/-- an 11-bit length 0 at offset 0, then 5 padding bits: a one-byte result. -/
example : bparse .release (.blob 11) ⟨[0, 0, 7], 0⟩ = .ok (⟨[7], 0⟩, .bytes [0]) :=
  C04_zero_blob_is_one_zero .release 11 (by decide) ⟨[0, 0, 7], 0⟩ (by decide)
    (List.replicate 11 false) (List.replicate 5 false) (byteBits 7) (by decide) (by decide)
    (by decide) (by decide)

/-- an 11-bit length 2 (`0, 2`), padding, two bytes. -/
example : bparse .release (.blob 11) ⟨[0, 2, 65, 66, 7], 0⟩ = .ok (⟨[7], 0⟩, .bytes [65, 66]) := by
  have := C04_partial .release 11 (by decide) ⟨[0, 2, 65, 66, 7], 0⟩ (by decide) [65, 66] (by decide)
    ((bytesBits [0, 2]).take 11) (List.replicate 5 false) (byteBits 7) (by decide) (by decide)
    (by decide) (by decide +kernel)
  exact this.trans (by decide +kernel)

/-- **C05** `parse_packed_int(K, n)` returns `K + u`, `u` the `n`-bit number read, in both builds,
whenever `K + 2^n` fits. -/
theorem C05_excess (bld : Build) (c : Cur) (hc : c.WF) (k : Int) (n : Nat) (hn : n ≤ 63)
    (hk : i64Min ≤ k) (hkn : k + 2 ^ n - 1 ≤ i64Max) (h : n ≤ c.bits.length) :
    parsePackedInt bld c k n = .ok (c.advance n, k + readBits c.bytes c.off n) ∧
      k ≤ k + readBits c.bytes c.off n ∧ k + readBits c.bytes c.off n < k + 2 ^ n := by
  obtain ⟨c', h1, hlt⟩ := C01_unsigned c hc n hn h
  have hc' := ((C02_int c hc n (by omega)).2.1 _ _ h1).1
  subst hc'
  have hlt2 : (readBits c.bytes c.off n : Int) < 2 ^ n := by
    have : ((readBits c.bytes c.off n : Nat) : Int) < ((2 ^ n : Nat) : Int) := by exact_mod_cast hlt
    simpa using this
  refine ⟨?_, by omega, by omega⟩
  have ha : addI64 bld k (readBits c.bytes c.off n) = .ok (k + readBits c.bytes c.off n) := by
    unfold addI64
    rw [if_pos]
    unfold inI64
    exact ⟨by omega, by omega⟩
  rw [parsePackedInt, h1]
  simp only [Res.bind_ok, ha]
  rfl

example : parsePackedInt .debug sampleCur (-100) 7 = .ok (⟨[0x0F, 0x80], 2⟩, -9) := by decide +kernel

/-- **C06 (refuted)** a 64-bit excess-`2^63` field (`Int64`,
/repo/src/versions/protocol87702/mod.rs:5210-5222) panics in debug builds on eight bytes of input. -/
theorem C06_refuted : ¬ ∀ (c : Cur), c.WF → ∀ k n, parsePackedInt .debug c k n ≠ .panic := by
  intro h
  exact h ⟨[0x80, 0, 0, 0, 0, 0, 0, 0], 0⟩ (by decide) (-9223372036854775808) 64 (by decide +kernel)

/-- **C06 (partial)** exactly the remaining cases are safe: a release build never panics, and a
debug build never panics when `K = 0` or `n ≤ 62` and `|K| ≤ 2^62`-ish (`packedFits`).  Missing: debug
builds on the excess-`2^63` 64-bit fields. -/
theorem C06_partial (bld : Build) (c : Cur) (hc : c.WF) (k : Int) (n : Nat)
    (h : bld = .release ∨ k = 0 ∨ (n ≤ 62 ∧ i64Min ≤ k ∧ k ≤ 2 ^ 62)) :
    parsePackedInt bld c k n ≠ .panic ∧
      ∀ c' x, parsePackedInt bld c k n = .ok (c', x) →
        (bld = .debug ∨ k = 0 ∨ (n ≤ 62 ∧ i64Min ≤ k ∧ k ≤ 2 ^ 62)) →
        x = k + toI64 (readBits c.bytes c.off n) := by
  have hfit : (k = 0 ∨ (n ≤ 62 ∧ i64Min ≤ k ∧ k ≤ 2 ^ 62)) → packedFits k n = true := by
    intro h
    simp only [packedFits, Bool.or_eq_true, Bool.and_eq_true, decide_eq_true_eq]
    rcases h with h | ⟨h1, h2, h3⟩
    · exact .inl h
    · exact .inr ⟨⟨h1, h2⟩, h3⟩
  refine ⟨(parsePackedInt_safe bld k n (h.imp_right hfit) c hc).1, ?_⟩
  intro c' x hx hb
  obtain ⟨u, r, e, ⟨h1, h2, h3⟩, rfl⟩ := (parsePackedInt_parses bld k n c hc _ _).1 hx
  have hu : c.bits.take n = u := by rw [e, List.take_left' h2]
  rw [readBits_eq c n hc.1 (by rw [e]; simp; omega), hu]
  rcases h3 with h3 | ⟨rfl, h3, _⟩
  · exact h3.2
  · rcases hb with hb | hb
    · simp at hb
    · exact absurd (addI64_fits (hfit hb) (h2 ▸ bitsVal_lt c.off u hc.1)) h3

/-- **C06** which reads panic: a debug build, and only if the exact sum of the offset and the number read is no `i64`. -/
theorem C06_panics_iff (bld : Build) (c : Cur) (hc : c.WF) (k : Int) (n : Nat) :
    parsePackedInt bld c k n = .panic ↔
      bld = .debug ∧ n ≤ 64 ∧ n ≤ c.bits.length ∧ ¬ inI64 (k + toI64 (readBits c.bytes c.off n)) := by
  by_cases hn : n ≤ 64
  · by_cases hb : n ≤ c.bits.length
    · obtain ⟨c', h⟩ := C01_value c hc n hn hb
      unfold parsePackedInt
      rw [h]
      simp only [Res.bind_ok, addI64]
      cases bld <;> by_cases hi : inI64 (k + toI64 (readBits c.bytes c.off n)) <;> simp [hi, hn, hb, Res.pure_eq]
    · have h1 := C02_int c hc n hn
      unfold parsePackedInt
      cases h : takeI64 c n with
      | ok p => exact absurd (h1.1.1 ⟨p.1, p.2, h⟩) hb
      | err e =>
        constructor
        · intro h'; cases h'
        · rintro ⟨_, _, h', _⟩; exact absurd h' hb
      | panic => exact absurd h h1.2.2
  · unfold parsePackedInt
    rw [C01_more_than_64 c n (by omega)]
    constructor
    · intro h; cases h
    · rintro ⟨_, h, _⟩; exact absurd h hn

/-- **C06** in release builds the wrap-around restores the intended value of the 64-bit
excess-`2^63` field for every `i64`. -/
theorem C06_release_int64 (c : Cur) (hc : c.WF) (x : Int) (hx : inI64 x) (rest : List Bool)
    (h : c.bits = encBits c.off 64 (x + 2 ^ 63).toNat ++ rest) :
    parsePackedInt .release c (-(2 ^ 63)) 64 = .ok (c.advance 64, x) := by
  unfold inI64 i64Min i64Max at hx
  have hlt : (x + 2 ^ 63).toNat < 2 ^ 64 := by omega
  rw [(parsePackedInt_parses .release (-(2 ^ 63)) 64 c hc _ _)]
  refine ⟨_, rest, h, ⟨by omega, encBits_length _ _ _ hc.1, ?_⟩, by rw [encBits_length _ _ _ hc.1]⟩
  rw [bitsVal_encBits _ _ _ hc.1 hlt]
  unfold PackedVal
  by_cases h0 : x < 0
  · left
    rw [toI64_of_lt (by omega)]
    refine ⟨?_, by omega⟩
    unfold inI64 i64Min i64Max; omega
  · right
    have e : toI64 (x + 2 ^ 63).toNat = x - 2 ^ 63 := by
      unfold toI64; rw [Nat.mod_eq_of_lt hlt]; dsimp only; rw [if_neg (by omega)]; omega
    rw [e]
    refine ⟨rfl, ?_, ?_⟩
    · unfold inI64 i64Min i64Max; omega
    · have : wrapI64 (-(2 ^ 63) + (x - 2 ^ 63)) = wrapI64 x := by unfold wrapI64; congr 1; omega
      rw [this, wrapI64_of_inI64]
      unfold inI64 i64Min i64Max; omega

end S2
