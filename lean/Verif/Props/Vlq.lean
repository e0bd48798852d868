import Verif.Schema.ByteAlignedRoundTrip
/-!
# C07 – C13, C65: variable-length integers and tagged primitives
-/
namespace S2

/-- **C07** every `i64` except `i64::MIN` survives encoding and decoding, whatever follows it, in
both builds. -/
theorem C07_roundtrip (bld : Build) (x : Int) (h : i64Min < x ∧ x ≤ i64Max) (tail : List UInt8) :
    parseVlq bld (encVlq x ++ tail) = .ok (tail, x) :=
  (parseVlq_iff bld _ _ _).2 ⟨_, rfl, encVlq_enc bld x h⟩

/-- The reference encoder really is the VLQ format: continuation bits on all bytes but the last, at
most ten bytes, value `x`. -/
theorem C07_encoder (x : Int) (h : i64Min < x ∧ x ≤ i64Max) :
    IsVlq (encVlq x) ∧ (encVlq x).length ≤ 10 ∧ vlqVal (encVlq x) = x := by
  obtain ⟨h1, h2, _, h3⟩ := encVlq_enc .debug x h
  exact ⟨h1, h2, h3.symm⟩

example : encVlq (-1000000) = [0x81, 0x89, 0x7a] ∧
    parseVlq .debug (encVlq (-1000000) ++ [1, 2]) = .ok ([1, 2], -1000000) :=
  ⟨by decide +kernel, C07_roundtrip .debug (-1000000) (by decide) [1, 2]⟩

/-- **C08** decoding succeeds only on input that starts with a complete VLQ, and consumes exactly
that (in both builds, for every input). -/
theorem C08_consumes (bld : Build) (i tail : List UInt8) (x : Int)
    (h : parseVlq bld i = .ok (tail, x)) : ∃ e, i = e ++ tail ∧ IsVlq e := by
  obtain ⟨e, h1, h2, _⟩ := (parseVlq_iff bld i tail x).1 h
  exact ⟨e, h1, h2⟩

/-- **C08** on a complete VLQ of at most ten bytes a release build returns the sign-magnitude value
reduced to 64 bits. -/
theorem C08_release (e tail : List UInt8) (he : IsVlq e) (hl : e.length ≤ 10) :
    parseVlq .release (e ++ tail) = .ok (tail, wrapI64 (vlqVal e)) := by
  rw [parseVlq_release_run e tail he, if_pos hl]

/-- **C08** up to nine bytes nothing is reduced: the value is exactly the sign-magnitude number of
the 6-bit and 7-bit groups. -/
theorem C08_exact (bld : Build) (e tail : List UInt8) (he : IsVlq e) (hl : e.length ≤ 9) :
    parseVlq bld (e ++ tail) = .ok (tail, if vlqNeg e then -(vlqMag e : Int) else vlqMag e) := by
  have hg : ∀ l : List UInt8, vlqGroups l < 128 ^ l.length := by
    intro l
    induction l with
    | nil => simp [vlqGroups]
    | cons b l ih =>
      simp only [vlqGroups, List.length_cons, Nat.pow_succ]
      omega
  have hm : vlqMag e < 2 ^ 62 := by
    cases e with
    | nil => simp [vlqMag]
    | cons b l =>
      have h1 := hg l
      have h2 : 128 ^ l.length ≤ 128 ^ 8 := Nat.pow_le_pow_right (by omega) (by simp at hl; omega)
      simp only [vlqMag]
      have h3 : (128 : Nat) ^ 8 = 2 ^ 56 := by decide
      omega
  have hv : vlqVal e = if vlqNeg e then -(vlqMag e : Int) else vlqMag e := by
    unfold vlqVal; rw [toI64_of_lt (by omega)]
  have hr : inI64 (vlqVal e) := by
    rw [hv]; unfold inI64 i64Min i64Max; split <;> omega
  cases bld with
  | debug => rw [parseVlq_debug_run e tail he, if_pos ⟨by omega, hr⟩, hv]
  | release => rw [C08_release e tail he (by omega), wrapI64_of_inI64 hr, hv]

/-- **C08** in a debug build: exactly the complete VLQs of at most ten bytes whose value is an
`i64` succeed; any other complete VLQ panics. -/
theorem C08_debug (e tail : List UInt8) (he : IsVlq e) :
    parseVlq .debug (e ++ tail) =
      if e.length ≤ 10 ∧ inI64 (vlqVal e) then .ok (tail, vlqVal e) else .panic :=
  parseVlq_debug_run e tail he

example : IsVlq [0xff, 0x80, 0x01] ∧ parseVlq .release ([0xff, 0x80, 0x01] ++ [9]) = .ok ([9], -8255) := by
  refine ⟨by decide, ?_⟩
  exact (C08_exact .release _ _ (by decide) (by decide)).trans (by decide +kernel)

/-- **C09 (refuted)** debug builds panic on some byte strings: an eleven-byte VLQ (shift amount),
and magnitude `2^63` with the sign bit (negation). -/
theorem C09_refuted : ¬ ∀ (bld : Build) (i : List UInt8), parseVlq bld i ≠ .panic := by
  intro h
  exact h .debug (List.replicate 10 0x80 ++ [0]) (by decide +kernel)

theorem C09_refuted_negation :
    parseVlq .debug [0x81, 0x80, 0x80, 0x80, 0x80, 0x80, 0x80, 0x80, 0x80, 0x02] = .panic := by
  decide +kernel

/-- **C09 (partial)** release builds never panic.  Missing: debug builds on over-long or
out-of-range VLQs (see `C09_refuted`; `C08_debug` says exactly which). -/
theorem C09_partial (i : List UInt8) : parseVlq .release i ≠ .panic := parseVlq_release_ne_panic i

/-- **C10** input without a terminating byte is an error in a release build (in a debug build an
error or a panic), never a value. -/
theorem C10_truncated (i : List UInt8) (h : ∀ b ∈ i, 128 ≤ b.toNat) :
    parseVlq .release i = .err .eof ∧
    (parseVlq .debug i = .err .eof ∨ parseVlq .debug i = .panic) := by
  have h1 := parseVlq_trunc .release i h
  have h2 := parseVlq_trunc .debug i h
  simp only [reduceCtorEq, false_and, or_false, true_and] at h1 h2
  exact ⟨h1, h2⟩

/-- **C10** and a truncated prefix of a valid encoding is never accepted. -/
theorem C10_prefix (bld : Build) (e p q : List UInt8) (he : IsVlq e) (h : e = p ++ q) (hq : q ≠ []) (x : Int)
    (tail : List UInt8) : parseVlq bld p ≠ .ok (tail, x) := by
  intro hp
  obtain ⟨e', h1, h2⟩ := C08_consumes bld p tail x hp
  have : e' ++ (tail ++ q) = e ++ [] := by rw [List.append_nil, h, h1, List.append_assoc]
  have := (IsVlq_unique h2 he this).2
  simp at this
  exact hq this.2

example : (∀ b ∈ ([0x80, 0xff] : List UInt8), 128 ≤ b.toNat) ∧ parseVlq .release [0x80, 0xff] = .err .eof := by
  decide +kernel

/-- The five tagged primitive readers. -/
inductive Prim | bitarray | blob | int | bool | fourcc
  deriving DecidableEq

/-- Does the reader of primitive `p` accept the input? -/
def Prim.accepts (bld : Build) (p : Prim) (i : List UInt8) : Bool :=
  match p with
  | .bitarray => (taggedBitarray bld i).isOk
  | .blob => (taggedBlob bld i).isOk
  | .int => (taggedVlq bld i).isOk
  | .bool => (taggedBool i).isOk
  | .fourcc => (taggedFourcc i).isOk

/-- Tag bytes of the versioned format. -/
def Prim.tag : Prim → UInt8
  | .bitarray => 1
  | .blob => 2
  | .bool => 6
  | .fourcc => 7
  | .int => 9

theorem Res.isOk_iff {α : Type} {r : Res α} : r.isOk = true ↔ ∃ a, r = .ok a := by
  cases r <;> simp [Res.isOk]

/-- **C11** a primitive is accepted only behind its own tag byte. -/
theorem C11_own_tag (bld : Build) (p : Prim) (i : List UInt8) (h : p.accepts bld i = true) :
    ∃ rest, i = p.tag :: rest := by
  cases p <;> simp only [Prim.accepts, Res.isOk_iff] at h <;> obtain ⟨⟨tail, x⟩, h⟩ := h
  · obtain ⟨n, e, rfl, _⟩ := taggedBitarray_ok.1 h; exact ⟨_, rfl⟩
  · obtain ⟨n, e, rfl, _⟩ := taggedBlob_ok.1 h; exact ⟨_, rfl⟩
  · obtain ⟨e, rfl, _⟩ := taggedVlq_ok.1 h; exact ⟨_, rfl⟩
  · obtain ⟨b, rfl, _⟩ := taggedBool_ok.1 h; exact ⟨_, rfl⟩
  · obtain ⟨bs, rfl, _⟩ := taggedFourcc_ok.1 h; exact ⟨_, rfl⟩

/-- **C11** no input is accepted by two different primitive readers. -/
theorem C11_exclusive (bld : Build) (p q : Prim) (i : List UInt8) (hp : p.accepts bld i = true)
    (hq : q.accepts bld i = true) : p = q := by
  obtain ⟨r, rfl⟩ := C11_own_tag bld p i hp
  obtain ⟨r', h⟩ := C11_own_tag bld q _ hq
  have ht : p.tag = q.tag := by injection h
  revert ht
  cases p <;> cases q <;> decide

example : Prim.accepts .debug .blob [2, 4, 65, 66] = true ∧ Prim.accepts .debug .int [2, 4, 65, 66] = false := by
  decide +kernel

/-- **C12** blobs. -/
theorem C12_blob (bld : Build) (bs tail : List UInt8) (h : bs.length < 2 ^ 63) :
    taggedBlob bld (2 :: (encVlq bs.length ++ (bs ++ tail))) = .ok (tail, bs) :=
  taggedBlob_ok.2 ⟨bs.length, _, rfl, encVlq_enc bld _ (vlqable_natCast h), asUsize_natCast h⟩

/-- **C12** booleans: any non-zero byte is true. -/
theorem C12_bool (b : UInt8) (tail : List UInt8) : taggedBool (6 :: b :: tail) = .ok (tail, b != 0) := rfl

/-- **C12** four-character codes: big-endian `u32`. -/
theorem C12_fourcc (x : Nat) (h : x < 2 ^ 32) (tail : List UInt8) :
    taggedFourcc (7 :: (be4 x ++ tail)) = .ok (tail, x) :=
  taggedFourcc_ok.2 ⟨be4 x, rfl, rfl, (beNat_be4 h).symm⟩

/-- **C12** integers. -/
theorem C12_int (bld : Build) (x : Int) (h : i64Min < x ∧ x ≤ i64Max) (tail : List UInt8) :
    taggedVlq bld (9 :: (encVlq x ++ tail)) = .ok (tail, x) :=
  taggedVlq_ok.2 ⟨_, rfl, encVlq_enc bld x h⟩

/-- **C12** bit arrays of `n` bits occupy `⌈n/8⌉` bytes, returned verbatim. -/
theorem C12_bitarray (bld : Build) (n : Nat) (bs tail : List UInt8) (hn : n < 2 ^ 63)
    (h : (n + 7) / 8 = bs.length) :
    taggedBitarray bld (1 :: (encVlq n ++ (bs ++ tail))) = .ok (tail, bs) :=
  taggedBitarray_ok.2 ⟨n, _, rfl, encVlq_enc bld _ (vlqable_natCast hn), by rwa [asUsize_natCast hn]⟩

example : taggedBitarray .debug [1, 22, 0xAB, 0x05, 77] = .ok ([77], [0xAB, 0x05]) :=
  C12_bitarray .debug 11 [0xAB, 0x05] [77] (by decide) (by decide)
example : taggedFourcc [7, 0x53, 0x32, 0, 1, 5] = .ok ([5], 0x53320001) := by decide +kernel

theorem VlqEnc_range {bld : Build} {x : Int} {e : List UInt8} (h : VlqEnc bld x e) : inI64 x := by
  obtain ⟨_, h⟩ := h
  cases bld with
  | debug => exact h.2.2 ▸ h.2.1
  | release =>
    obtain ⟨h1, h2⟩ := h
    by_cases hl : e.length ≤ 10
    · rw [h1 hl]; exact toI64_range _
    · rw [h2 (by omega)]
      unfold vlqOverlong
      cases e with
      | nil => simp at hl
      | cons b bs =>
        dsimp only
        split
        · exact toI64_range _
        · exact toI64_range _

/-- **C13** a blob whose length field decodes to a negative number or to more than the remaining
bytes is an error.  (`body.length < 2^63`: a Rust slice has at most `isize::MAX` bytes.) -/
theorem C13_rejected (bld : Build) (e body : List UInt8) (n : Int)
    (he : parseVlq bld (e ++ body) = .ok (body, n)) (hb : body.length < 2 ^ 63)
    (h : n < 0 ∨ body.length < n) : taggedBlob bld (2 :: (e ++ body)) = .err .eof := by
  obtain ⟨e', h1, h2⟩ := (parseVlq_iff bld _ _ _).1 he
  have hr := VlqEnc_range h2
  have hlt : body.length < asUsize n := by
    unfold inI64 i64Min i64Max at hr
    unfold asUsize
    rcases h with h | h <;> omega
  unfold taggedBlob
  rw [show tagByte BLOB_TAG (2 :: (e ++ body)) = .ok (e ++ body, ()) from rfl]
  simp only [Res.bind_ok, he]
  unfold takeBytes
  rw [if_pos hlt]

/-- **C13** an accepted blob is never partial: its length is the encoded one. -/
theorem C13_whole (bld : Build) (i tail bs : List UInt8) (h : taggedBlob bld i = .ok (tail, bs)) :
    ∃ e n, i = 2 :: (e ++ (bs ++ tail)) ∧ parseVlq bld (e ++ (bs ++ tail)) = .ok (bs ++ tail, n) ∧
      asUsize n = bs.length := by
  obtain ⟨n, e, h1, h2, h3⟩ := taggedBlob_ok.1 h
  exact ⟨e, n, h1, (parseVlq_iff bld _ _ _).2 ⟨e, rfl, h2⟩, h3⟩

/-- length `-1` -/
example : taggedBlob .debug [2, 3, 65, 66] = .err .eof :=
  C13_rejected .debug [3] [65, 66] (-1) (by decide +kernel) (by decide) (by decide)
/-- length `3` with two bytes left -/
example : taggedBlob .debug [2, 6, 65, 66] = .err .eof :=
  C13_rejected .debug [6] [65, 66] 3 (by decide +kernel) (by decide) (by decide)

/-- **C65 (refuted)** over-long VLQs are not rejected by release builds: an eleven-byte VLQ all of
whose payload is in the eleventh byte (a number of at least `2^69`) is accepted with the value 64
(shift amount 69 masked to 5). -/
theorem C65_refuted : ¬ ∀ (e tail : List UInt8), IsVlq e → 10 < e.length →
    (parseVlq .release (e ++ tail)).isOk = false := by
  intro h
  have := h (List.replicate 10 0x80 ++ [2]) [] (by decide) (by decide)
  revert this
  decide +kernel

theorem C65_witness : parseVlq .release (List.replicate 10 0x80 ++ [2]) = .ok ([], 64) ∧
    vlqMag (List.replicate 10 0x80 ++ [2]) = 2 ^ 70 := by decide +kernel

/-- **C65 (partial)** debug builds never return a value for an over-long VLQ (they panic).
Missing: release builds, see `C65_refuted`. -/
theorem C65_partial (e tail : List UInt8) (he : IsVlq e) (hl : 10 < e.length) :
    parseVlq .debug (e ++ tail) = .panic := by
  rw [parseVlq_debug_run e tail he, if_neg (by omega)]

example : IsVlq (List.replicate 10 0x80 ++ [2]) ∧ 10 < (List.replicate 10 (0x80 : UInt8) ++ [2]).length := by
  decide

end S2
