import Verif.State.TagLemmas
import Verif.State.Tracker
/-! # Unit tags (C41) and unit positions (C48, C75) -/
namespace S2

/-! ## C41 -/

/-- A tag built from an index below `2^14` and a recycle count below `2^18` gives both back. -/
theorem C41_tag_parts (i r : BitVec 32) (hi : i.toNat < 2 ^ 14) (hr : r.toNat < 2 ^ 18) :
    unitTagIndex (unitTag i r) = i ∧ unitTagRecycle (unitTag i r) = r := by
  have h := unitTag_toNat i r
  constructor
  · apply BitVec.eq_of_toNat_eq
    rw [unitTagIndex_toNat _ (by omega), h]; omega
  · apply BitVec.eq_of_toNat_eq
    rw [unitTagRecycle_toNat, h]; omega

/-- Every 32-bit tag is the tag of its two parts. -/
theorem C41_tag_rebuild (t : BitVec 64) (ht : t.toNat < 2 ^ 32) : unitTag (unitTagIndex t) (unitTagRecycle t) = t := by
  apply BitVec.eq_of_toNat_eq
  rw [unitTag_toNat, unitTagIndex_toNat _ (by omega), unitTagRecycle_toNat]; omega

/-- So distinct (index, recycle) pairs in range have distinct tags. -/
theorem C41_tag_injective (i r i' r' : BitVec 32) (hi : i.toNat < 2 ^ 14) (hr : r.toNat < 2 ^ 18)
    (hi' : i'.toNat < 2 ^ 14) (hr' : r'.toNat < 2 ^ 18) (h : unitTag i r = unitTag i' r') : i = i' ∧ r = r' := by
  obtain ⟨h1, h2⟩ := C41_tag_parts i r hi hr
  obtain ⟨h3, h4⟩ := C41_tag_parts i' r' hi' hr'
  rw [h] at h1 h2
  exact ⟨h1.symm.trans h3, h2.symm.trans h4⟩

example : unitTagIndex (unitTag 219#32 3#32) = 219#32 ∧ unitTagRecycle (unitTag 219#32 3#32) = 3#32 :=
  C41_tag_parts _ _ (by decide) (by decide)

/-! ## C48 -/

/-- The specification: entry `k` of the decoded positions, from the flat item list. -/
structure IsPositions (first : Int) (items : List Int) (out : List (Int × Int × Int)) : Prop where
  /-- One entry per complete group of three. -/
  length : out.length = items.length / 3
  /-- Entry `k` has the index of the first unit plus all deltas up to its own, and its coordinates times
  four. -/
  entry : ∀ k, k < items.length / 3 → ∃ x y : Int,
    items[3 * k + 1]? = some x ∧ items[3 * k + 2]? = some y ∧
    out[k]? = some (asU 32 (first + ((List.range (k + 1)).map (fun j => items.getD (3 * j) 0)).sum), 4 * x, 4 * y)

theorem positionsLoop_spec (bld : Build) : ∀ (items : List Int) (idx : Int) (out : List (Int × Int × Int)),
    positionsLoop bld items idx = .ok out →
    (∀ k, k < items.length / 3 → -(2 ^ 31) ≤ idx + ((List.range (k + 1)).map (fun j => items.getD (3 * j) 0)).sum ∧
      idx + ((List.range (k + 1)).map (fun j => items.getD (3 * j) 0)).sum < 2 ^ 31) →
    (∀ k x, k % 3 ≠ 0 → items[k]? = some x → -(2 ^ 31) ≤ x * 4 ∧ x * 4 < 2 ^ 31) →
    IsPositions idx items out
  | d :: x :: y :: rest, idx, out, h, hidx, hxy => by
    have h0 := hidx 0 (by simp only [List.length_cons]; omega)
    simp only [List.range_one, List.map_cons, List.map_nil, Nat.mul_zero, List.getD_cons_zero, List.sum_cons, List.sum_nil,
      Int.add_zero, Nat.zero_add] at h0
    have hx := hxy 1 x (by decide) rfl
    have hy := hxy 2 y (by decide) rfl
    have hlen : (d :: x :: y :: rest).length / 3 = rest.length / 3 + 1 := by simp only [List.length_cons]; omega
    have hsum : ∀ k, ((List.range (k + 1 + 1)).map (fun j => (d :: x :: y :: rest).getD (3 * j) 0)).sum =
        d + ((List.range (k + 1)).map (fun j => rest.getD (3 * j) 0)).sum := by
      intro k
      rw [List.range_succ_eq_map, List.map_cons, List.sum_cons, List.map_map]
      congr 1
    simp only [positionsLoop, addI32, mul4I32, if_pos h0, if_pos hx, if_pos hy, Res.bind_ok] at h
    obtain ⟨out', h1, h2⟩ := Res.bind_eq_ok.1 h
    simp only [Res.pure_eq, Res.ok.injEq] at h2
    subst h2
    have ih := positionsLoop_spec bld rest (idx + d) out' h1 (by
      intro k hk
      have := hidx (k + 1) (by omega)
      rw [hsum] at this
      omega) (by
      intro k z hk hz
      exact hxy (k + 3) z (by omega) (by simpa using hz))
    refine ⟨by rw [hlen, List.length_cons, ih.length], ?_⟩
    intro k hk
    cases k with
    | zero => refine ⟨x, y, rfl, rfl, ?_⟩; simp [Int.mul_comm]
    | succ k =>
      obtain ⟨x', y', e1, e2, e3⟩ := ih.entry k (by omega)
      refine ⟨x', y', ?_, ?_, ?_⟩
      · rw [show 3 * (k + 1) + 1 = 3 * k + 1 + 3 by omega]; simpa using e1
      · rw [show 3 * (k + 1) + 2 = 3 * k + 2 + 3 by omega]; simpa using e2
      · rw [List.getElem?_cons_succ, e3, hsum, Int.add_assoc]
  | [], idx, out, h, _, _ => by
    simp only [positionsLoop, Res.ok.injEq] at h; subst h; exact ⟨rfl, fun k hk => by simp at hk⟩
  | [_], idx, out, h, _, _ => by
    simp only [positionsLoop, Res.ok.injEq] at h; subst h; exact ⟨by simp, fun k hk => by simp at hk⟩
  | [_, _], idx, out, h, _, _ => by
    simp only [positionsLoop, Res.ok.injEq] at h; subst h; exact ⟨by simp, fun k hk => by simp at hk⟩

theorem positionsLoop_ok (bld : Build) : ∀ (items : List Int) (idx : Int),
    (∀ k, k < items.length / 3 → -(2 ^ 31) ≤ idx + ((List.range (k + 1)).map (fun j => items.getD (3 * j) 0)).sum ∧
      idx + ((List.range (k + 1)).map (fun j => items.getD (3 * j) 0)).sum < 2 ^ 31) →
    (∀ k x, k % 3 ≠ 0 → items[k]? = some x → -(2 ^ 31) ≤ x * 4 ∧ x * 4 < 2 ^ 31) →
    ∃ out, positionsLoop bld items idx = .ok out
  | d :: x :: y :: rest, idx, hidx, hxy => by
    have h0 := hidx 0 (by simp only [List.length_cons]; omega)
    simp only [List.range_one, List.map_cons, List.map_nil, Nat.mul_zero, List.getD_cons_zero, List.sum_cons, List.sum_nil,
      Int.add_zero, Nat.zero_add] at h0
    have hx := hxy 1 x (by decide) rfl
    have hy := hxy 2 y (by decide) rfl
    have hlen : (d :: x :: y :: rest).length / 3 = rest.length / 3 + 1 := by simp only [List.length_cons]; omega
    have hsum : ∀ k, ((List.range (k + 1 + 1)).map (fun j => (d :: x :: y :: rest).getD (3 * j) 0)).sum =
        d + ((List.range (k + 1)).map (fun j => rest.getD (3 * j) 0)).sum := by
      intro k
      rw [List.range_succ_eq_map, List.map_cons, List.sum_cons, List.map_map]
      congr 1
    obtain ⟨out, ho⟩ := positionsLoop_ok bld rest (idx + d) (by
      intro k hk
      have := hidx (k + 1) (by omega)
      rw [hsum] at this
      omega) (by
      intro k z hk hz
      exact hxy (k + 3) z (by omega) (by simpa using hz))
    simp only [positionsLoop, addI32, mul4I32, if_pos h0, if_pos hx, if_pos hy, Res.bind_ok, ho]
    exact ⟨_, rfl⟩
  | [], idx, _, _ => ⟨[], rfl⟩
  | [_], idx, _, _ => ⟨[], rfl⟩
  | [_, _], idx, _, _ => ⟨[], rfl⟩

/-- Positions decode exactly, for every item list of any length, as long as no running index or coordinate
leaves `i32`.  `first < 2^31` is part of that. -/
theorem C48_positions (bld : Build) (e : UnitPositionsEvent) (h0 : 0 ≤ e.firstUnitIndex) (h1 : e.firstUnitIndex < 2 ^ 31)
    (hidx : ∀ k, k < e.items.length / 3 →
      -(2 ^ 31) ≤ e.firstUnitIndex + ((List.range (k + 1)).map (fun j => e.items.getD (3 * j) 0)).sum ∧
      e.firstUnitIndex + ((List.range (k + 1)).map (fun j => e.items.getD (3 * j) 0)).sum < 2 ^ 31)
    (hxy : ∀ k x, k % 3 ≠ 0 → e.items[k]? = some x → -(2 ^ 31) ≤ x * 4 ∧ x * 4 < 2 ^ 31) :
    ∃ out, toUnitPositions bld e = .ok out ∧ IsPositions e.firstUnitIndex e.items out := by
  have hf : asI32 e.firstUnitIndex = e.firstUnitIndex := by
    unfold asI32
    rw [Int.emod_eq_of_lt h0 (by omega), if_pos h1]
  unfold toUnitPositions
  rw [hf]
  obtain ⟨out, ho⟩ := positionsLoop_ok bld e.items e.firstUnitIndex hidx hxy
  exact ⟨out, ho, positionsLoop_spec bld e.items _ out ho hidx hxy⟩

/-- With a non-negative running index the reported unit index is that integer itself. -/
theorem C48_index_plain (x : Int) (h0 : 0 ≤ x) (h1 : x < 2 ^ 32) : asU 32 x = x := Int.emod_eq_of_lt h0 h1

/-- With running indexes and coordinates that fit `i32` neither build panics, and both give the same values.
Missing from the full claim: larger values (`C75_overflow_refuted`). -/
theorem C75_in_range_partial (e : UnitPositionsEvent) (h0 : 0 ≤ e.firstUnitIndex) (h1 : e.firstUnitIndex < 2 ^ 31)
    (hidx : ∀ k, k < e.items.length / 3 →
      -(2 ^ 31) ≤ e.firstUnitIndex + ((List.range (k + 1)).map (fun j => e.items.getD (3 * j) 0)).sum ∧
      e.firstUnitIndex + ((List.range (k + 1)).map (fun j => e.items.getD (3 * j) 0)).sum < 2 ^ 31)
    (hxy : ∀ k x, k % 3 ≠ 0 → e.items[k]? = some x → -(2 ^ 31) ≤ x * 4 ∧ x * 4 < 2 ^ 31) :
    ∃ out, toUnitPositions .debug e = .ok out ∧ toUnitPositions .release e = .ok out ∧ IsPositions e.firstUnitIndex e.items out := by
  obtain ⟨a, ha, hpa⟩ := C48_positions .debug e h0 h1 hidx hxy
  obtain ⟨b, hb, hpb⟩ := C48_positions .release e h0 h1 hidx hxy
  refine ⟨a, ha, ?_, hpa⟩
  rw [hb]
  congr 1
  apply List.ext_getElem?
  intro k
  by_cases hk : k < e.items.length / 3
  · obtain ⟨x, y, hx, hy, h⟩ := hpa.entry k hk
    obtain ⟨x', y', hx', hy', h'⟩ := hpb.entry k hk
    rw [h, h']
    rw [hx] at hx'; rw [hy] at hy'
    cases hx'; cases hy'; rfl
  · rw [List.getElem?_eq_none (by rw [hpb.length]; omega), List.getElem?_eq_none (by rw [hpa.length]; omega)]

/-- Beyond `i32` the full claim fails: the running index 2^31 - 1 + 1 panics in a debug build and comes
out right only modulo `2^32` in a release build; a coordinate `2^29` loses its value. -/
theorem C75_overflow_refuted :
    toUnitPositions .debug ⟨0, [2 ^ 31 - 1, 0, 0, 1, 0, 0]⟩ = .panic ∧
    toUnitPositions .release ⟨0, [1, 2 ^ 29, 0]⟩ = .ok [(1, -(2 ^ 31), 0)] ∧
    toUnitPositions .release ⟨0, [1, 2 ^ 30, 0]⟩ = .ok [(1, 0, 0)] := by
  decide +kernel

example : ∃ out, toUnitPositions .debug ⟨5, [1, 10, 20, 2, 30, 40, 7]⟩ = .ok out ∧ out = [(6, 40, 80), (8, 120, 160)] := by
  refine ⟨_, rfl, ?_⟩; decide +kernel

example : IsPositions 5 [1, 10, 20, 2, 30, 40, 7] [(6, 40, 80), (8, 120, 160)] := by
  obtain ⟨out, h, hp⟩ := C48_positions .debug ⟨5, [1, 10, 20, 2, 30, 40, 7]⟩ (by decide) (by decide)
    (by intro k hk; have : k = 0 ∨ k = 1 := by simp at hk; omega
        rcases this with rfl | rfl <;> decide)
    (by
      intro k x _ hk
      have : k < 7 := (List.getElem?_eq_some_iff.1 hk).1
      have : k = 0 ∨ k = 1 ∨ k = 2 ∨ k = 3 ∨ k = 4 ∨ k = 5 ∨ k = 6 := by omega
      rcases this with rfl | rfl | rfl | rfl | rfl | rfl | rfl <;> simp at hk <;> subst hk <;> decide)
  have : Res.ok [(6, 40, 80), (8, 120, 160)] = Res.ok out := by rw [← h]; decide +kernel
  simp only [Res.ok.injEq] at this
  exact this ▸ hp

/-- `asI32` by plain arithmetic. -/
theorem asI32_mod (x : Int) : asI32 x % 2 ^ 32 = x % 2 ^ 32 ∧ -(2 ^ 31) ≤ asI32 x ∧ asI32 x < 2 ^ 31 := by
  unfold asI32
  split <;> omega

theorem addI32_ok {bld : Build} {a b r : Int} (h : addI32 bld a b = .ok r) : r % 2 ^ 32 = (a + b) % 2 ^ 32 := by
  unfold addI32 at h
  split at h
  · simp only [Res.ok.injEq] at h; rw [← h]
  · cases bld
    · cases h
    · simp only [Res.ok.injEq] at h; rw [← h]; exact (asI32_mod _).1

theorem mul4I32_ok {bld : Build} {a r : Int} (h : mul4I32 bld a = .ok r) :
    r % 2 ^ 32 = (4 * a) % 2 ^ 32 ∧ -(2 ^ 31) ≤ r ∧ r < 2 ^ 31 ∧ (bld = .debug → r = 4 * a) := by
  unfold mul4I32 at h
  split at h
  · simp only [Res.ok.injEq] at h; subst h; refine ⟨by omega, by omega, by omega, fun _ => by omega⟩
  · cases bld
    · cases h
    · simp only [Res.ok.injEq] at h
      have := asI32_mod (a * 4)
      subst h
      exact ⟨by omega, by omega, by omega, fun c => by cases c⟩

/-- What every successful decoding is, in either build and whatever the numbers: one entry per complete group
of three; the unit index is the number below `2^32` that differs from first index plus deltas by a multiple of `2^32`,
each coordinate is the `i32` that differs from four times the item by a multiple of `2^32`; in a debug build it
is exactly four times the item. -/
structure IsPositionsMod (bld : Build) (first : Int) (items : List Int) (out : List (Int × Int × Int)) : Prop where
  length : out.length = items.length / 3
  entry : ∀ k, k < items.length / 3 → ∃ x y tag x4 y4 : Int,
    items[3 * k + 1]? = some x ∧ items[3 * k + 2]? = some y ∧ out[k]? = some (tag, x4, y4) ∧
    (0 ≤ tag ∧ tag < 2 ^ 32 ∧
      tag % 2 ^ 32 = (first + ((List.range (k + 1)).map (fun j => items.getD (3 * j) 0)).sum) % 2 ^ 32) ∧
    (-(2 ^ 31) ≤ x4 ∧ x4 < 2 ^ 31 ∧ x4 % 2 ^ 32 = (4 * x) % 2 ^ 32) ∧
    (-(2 ^ 31) ≤ y4 ∧ y4 < 2 ^ 31 ∧ y4 % 2 ^ 32 = (4 * y) % 2 ^ 32) ∧
    (bld = .debug → x4 = 4 * x ∧ y4 = 4 * y)

theorem positionsLoop_mod (bld : Build) : ∀ (items : List Int) (idx first : Int) (out : List (Int × Int × Int)),
    idx % 2 ^ 32 = first % 2 ^ 32 → positionsLoop bld items idx = .ok out → IsPositionsMod bld first items out
  | d :: x :: y :: rest, idx, first, out, hm, h => by
    have hlen : (d :: x :: y :: rest).length / 3 = rest.length / 3 + 1 := by simp only [List.length_cons]; omega
    have hsum : ∀ k, ((List.range (k + 1 + 1)).map (fun j => (d :: x :: y :: rest).getD (3 * j) 0)).sum =
        d + ((List.range (k + 1)).map (fun j => rest.getD (3 * j) 0)).sum := by
      intro k
      rw [List.range_succ_eq_map, List.map_cons, List.sum_cons, List.map_map]
      congr 1
    simp only [positionsLoop] at h
    obtain ⟨i, hi, h⟩ := Res.bind_eq_ok.1 h
    obtain ⟨x4, hx, h⟩ := Res.bind_eq_ok.1 h
    obtain ⟨y4, hy, h⟩ := Res.bind_eq_ok.1 h
    obtain ⟨out', ho, h⟩ := Res.bind_eq_ok.1 h
    simp only [Res.pure_eq, Res.ok.injEq] at h
    subst h
    have hi' := addI32_ok hi
    have hx' := mul4I32_ok hx
    have hy' := mul4I32_ok hy
    have ih := positionsLoop_mod bld rest i (first + d) out' (by omega) ho
    refine ⟨by rw [hlen, List.length_cons, ih.length], ?_⟩
    intro k hk
    cases k with
    | zero =>
      refine ⟨x, y, asU 32 i, x4, y4, rfl, rfl, rfl, ?_, ⟨hx'.2.1, hx'.2.2.1, hx'.1⟩, ⟨hy'.2.1, hy'.2.2.1, hy'.1⟩,
        fun hb => ⟨hx'.2.2.2 hb, hy'.2.2.2 hb⟩⟩
      simp only [List.range_one, List.map_cons, List.map_nil, Nat.mul_zero, List.getD_cons_zero, List.sum_cons, List.sum_nil,
        Int.add_zero, Nat.zero_add, asU]
      omega
    | succ k =>
      obtain ⟨x', y', tag, a, b, e1, e2, e3, e4, e5, e6, e7⟩ := ih.entry k (by omega)
      refine ⟨x', y', tag, a, b, ?_, ?_, e3, ?_, e5, e6, e7⟩
      · rw [show 3 * (k + 1) + 1 = 3 * k + 1 + 3 by omega]; simpa using e1
      · rw [show 3 * (k + 1) + 2 = 3 * k + 2 + 3 by omega]; simpa using e2
      · rw [hsum, ← Int.add_assoc]; exact e4
  | [], idx, _, out, _, h => by
    simp only [positionsLoop, Res.ok.injEq] at h; subst h; exact ⟨rfl, fun k hk => by simp at hk⟩
  | [_], idx, _, out, _, h => by
    simp only [positionsLoop, Res.ok.injEq] at h; subst h; exact ⟨by simp, fun k hk => by simp at hk⟩
  | [_, _], idx, _, out, _, h => by
    simp only [positionsLoop, Res.ok.injEq] at h; subst h; exact ⟨by simp, fun k hk => by simp at hk⟩

theorem positionsLoop_release : ∀ (items : List Int) (idx : Int), ∃ out, positionsLoop .release items idx = .ok out
  | d :: x :: y :: rest, idx => by
    have ha : ∀ a b, ∃ r, addI32 .release a b = .ok r := by
      intro a b; unfold addI32; split <;> exact ⟨_, rfl⟩
    have hm : ∀ a, ∃ r, mul4I32 .release a = .ok r := by
      intro a; unfold mul4I32; split <;> exact ⟨_, rfl⟩
    obtain ⟨i, hi⟩ := ha idx d
    obtain ⟨x4, hx⟩ := hm x
    obtain ⟨y4, hy⟩ := hm y
    obtain ⟨out, ho⟩ := positionsLoop_release rest i
    exact ⟨_, by simp only [positionsLoop, hi, hx, hy, ho, Res.bind_ok]; rfl⟩
  | [], _ => ⟨[], rfl⟩
  | [_], _ => ⟨[], rfl⟩
  | [_, _], _ => ⟨[], rfl⟩

/-- Whatever the event, a release build decodes it, to values that are right modulo `2^32`. -/
theorem C75_release_partial (e : UnitPositionsEvent) :
    ∃ out, toUnitPositions .release e = .ok out ∧ IsPositionsMod .release e.firstUnitIndex e.items out := by
  obtain ⟨out, ho⟩ := positionsLoop_release e.items (asI32 e.firstUnitIndex)
  exact ⟨out, ho, positionsLoop_mod _ _ _ _ _ (asI32_mod _).1 ho⟩

/-- Whatever the event, what a debug build returns (if it does not panic) has exact coordinates. -/
theorem C75_debug_partial (e : UnitPositionsEvent) (out : List (Int × Int × Int))
    (h : toUnitPositions .debug e = .ok out) : IsPositionsMod .debug e.firstUnitIndex e.items out :=
  positionsLoop_mod _ _ _ _ _ (asI32_mod _).1 h

/-- A coordinate that overflows, and an index that does. -/
example : toUnitPositions .release ⟨2 ^ 32 - 1, [2, 2 ^ 29, 3]⟩ = .ok [(1, -(2 ^ 31), 12)] := by decide +kernel
example : toUnitPositions .debug ⟨2 ^ 32 - 1, [2, 5, 3]⟩ = .ok [(1, 20, 12)] := by decide +kernel

end S2
