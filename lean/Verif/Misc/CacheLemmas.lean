import Verif.Misc.Cache
import Verif.Spec.CacheSpec
import Verif.ResLemmas
namespace S2.Cache

open S2 S2.CacheSpec

theorem takeB_ok {n : Nat} {i t b : List UInt8} :
    takeB n i = .ok (t, b) ↔ i = b ++ t ∧ b.length = n := by
  unfold takeB
  constructor
  · intro h
    split at h
    · cases h
    · rename_i hl
      simp only [Res.ok.injEq, Prod.mk.injEq] at h
      obtain ⟨rfl, rfl⟩ := h
      exact ⟨(List.take_append_drop n i).symm, by rw [List.length_take]; omega⟩
  · rintro ⟨rfl, rfl⟩
    rw [if_neg (by simp)]
    simp

theorem tagB_ok {g i t b : List UInt8} :
    tagB g i = .ok (t, b) ↔ b = g ∧ i = g ++ t := by
  unfold tagB
  constructor
  · intro h
    split at h
    · rename_i hp
      simp only [Res.ok.injEq, Prod.mk.injEq] at h
      obtain ⟨rfl, rfl⟩ := h
      refine ⟨rfl, ?_⟩
      obtain ⟨r, hr⟩ := List.isPrefixOf_iff_prefix.1 hp
      rw [← hr]; simp
    · cases h
  · rintro ⟨rfl, rfl⟩
    rw [if_pos (List.isPrefixOf_iff_prefix.2 ⟨_, rfl⟩)]
    simp

theorem takeWhileB_ok {p : UInt8 → Bool} {i t b : List UInt8} :
    takeWhileB p i = .ok (t, b) ↔ i = b ++ t ∧ (∀ x ∈ b, p x = true) ∧ (∀ x, t.head? = some x → p x = false) := by
  unfold takeWhileB
  simp only [Res.ok.injEq, Prod.mk.injEq]
  constructor
  · rintro ⟨rfl, rfl⟩
    refine ⟨List.takeWhile_append_dropWhile.symm, fun x hx => ?_, fun x hx => ?_⟩
    · induction i with
      | nil => simp at hx
      | cons a i ih =>
        rw [List.takeWhile_cons] at hx
        split at hx
        · rcases List.mem_cons.1 hx with rfl | h
          · assumption
          · exact ih h
        · cases hx
    · induction i with
      | nil => simp at hx
      | cons a i ih =>
        rw [List.dropWhile_cons] at hx
        split at hx
        · exact ih hx
        · simp only [List.head?_cons, Option.some.injEq] at hx
          subst hx; simp_all
  · rintro ⟨rfl, hb, ht⟩
    induction b with
    | nil =>
      cases t with
      | nil => simp
      | cons a t =>
        have := ht a rfl
        simp [this]
    | cons a b ih =>
      have ha := hb a (by simp)
      have := ih (fun x hx => hb x (by simp [hx]))
      simp [ha, this]

theorem zstr_ok {i t s : List UInt8} :
    zstr i = .ok (t, s) ↔ i = s ++ ([0] ++ t) ∧ NoZero s := by
  unfold zstr
  simp only [Res.bind_eq_ok, Prod.exists, takeWhileB_ok, takeB_ok, Res.pure_eq, Res.ok.injEq, Prod.mk.injEq]
  constructor
  · rintro ⟨t', s', ⟨rfl, hs, hh⟩, t'', z, ⟨rfl, hz⟩, rfl, rfl⟩
    match z, hz with
    | [z], _ =>
      have := hh z rfl
      simp at this
      subst this
      refine ⟨rfl, fun b hb h => ?_⟩
      have := hs b hb
      simp [h] at this
  · rintro ⟨rfl, hs⟩
    exact ⟨[0] ++ t, s, ⟨rfl, fun x hx => by simpa using hs x hx, fun x hx => by
      simp at hx; subst hx; rfl⟩, t, [0], ⟨rfl, rfl⟩, rfl, rfl⟩

theorem leBytes_length (k : Nat) (x : Int) : (leBytes k x).length = k := by
  induction k generalizing x with
  | zero => rfl
  | succ k ih => simp [leBytes, ih]

theorem u8_ofNat_toNat (n : Nat) (h : n < 256) : (UInt8.ofNat n).toNat = n := by
  rw [UInt8.toNat_ofNat']; exact Nat.mod_eq_of_lt h

theorem leNat4 (x : Int) : (leNat (leBytes 4 x) : Int) = x % 4294967296 := by
  simp only [leBytes, leNat]
  rw [u8_ofNat_toNat _ (by omega), u8_ofNat_toNat _ (by omega), u8_ofNat_toNat _ (by omega),
    u8_ofNat_toNat _ (by omega)]
  omega

theorem leNat2 (x : Int) : (leNat (leBytes 2 x) : Int) = x % 65536 := by
  simp only [leBytes, leNat]
  rw [u8_ofNat_toNat _ (by omega), u8_ofNat_toNat _ (by omega)]
  omega

theorem u8_eq_ofNat {b : UInt8} {n : Nat} (h : n = b.toNat) : UInt8.ofNat n = b := by
  subst h; exact UInt8.ofNat_toNat

theorem u8_lt (b : UInt8) : b.toNat < 256 := b.toNat_lt

theorem asI32_cases (x : Int) : (x % 4294967296 < 2147483648 ∧ asI32 x = x % 4294967296) ∨
    (¬ x % 4294967296 < 2147483648 ∧ asI32 x = x % 4294967296 - 4294967296) := by
  unfold asI32
  by_cases h : x % 4294967296 < 2147483648
  · left; exact ⟨h, if_pos h⟩
  · right; exact ⟨h, if_neg h⟩

theorem asI32_eq {x : Int} (h : inI32 x) : asI32 (x % 4294967296) = x := by
  unfold inI32 at h
  rcases asI32_cases (x % 4294967296) with ⟨h1, h2⟩ | ⟨h1, h2⟩ <;> rw [h2] <;> omega

theorem asI32_in (x : Int) : inI32 (asI32 x) := by
  unfold inI32
  rcases asI32_cases x with ⟨h1, h2⟩ | ⟨h1, h2⟩ <;> rw [h2] <;> omega

theorem leI32_ok {i t : List UInt8} {x : Int} :
    leI32 i = .ok (t, x) ↔ i = leBytes 4 x ++ t ∧ inI32 x := by
  unfold leI32
  simp only [Res.bind_eq_ok, Prod.exists, takeB_ok, Res.pure_eq, Res.ok.injEq, Prod.mk.injEq]
  constructor
  · rintro ⟨t', b, ⟨rfl, hb⟩, rfl, rfl⟩
    refine ⟨?_, asI32_in _⟩
    match b, hb with
    | [b0, b1, b2, b3], _ =>
      have h0 := u8_lt b0; have h1 := u8_lt b1; have h2 := u8_lt b2; have h3 := u8_lt b3
      have hn : leNat [b0, b1, b2, b3] = b0.toNat + 256 * (b1.toNat + 256 * (b2.toNat + 256 * (b3.toNat + 256 * 0))) := rfl
      generalize hX : (leNat [b0, b1, b2, b3] : Int) = X
      have hX' : X = b0.toNat + 256 * (b1.toNat + 256 * (b2.toNat + 256 * b3.toNat)) := by
        rw [← hX, hn]; omega
      congr 1
      simp only [leBytes]
      rcases asI32_cases X with ⟨h4, h5⟩ | ⟨h4, h5⟩ <;> rw [h5] <;>
        rw [u8_eq_ofNat (b := b0) (by omega), u8_eq_ofNat (b := b1) (by omega),
          u8_eq_ofNat (b := b2) (by omega), u8_eq_ofNat (b := b3) (by omega)]
  · rintro ⟨rfl, hx⟩
    refine ⟨t, leBytes 4 x, ⟨rfl, leBytes_length _ _⟩, rfl, ?_⟩
    rw [leNat4, asI32_eq hx]

theorem leU16_ok {i t : List UInt8} {n : Nat} :
    leU16 i = .ok (t, n) ↔ i = leBytes 2 n ++ t ∧ n < 2 ^ 16 := by
  unfold leU16
  simp only [Res.bind_eq_ok, Prod.exists, takeB_ok, Res.pure_eq, Res.ok.injEq, Prod.mk.injEq]
  constructor
  · rintro ⟨t', b, ⟨rfl, hb⟩, rfl, rfl⟩
    match b, hb with
    | [b0, b1], _ =>
      have h0 := u8_lt b0; have h1 := u8_lt b1
      have hn : leNat [b0, b1] = b0.toNat + 256 * (b1.toNat + 256 * 0) := rfl
      rw [hn]
      refine ⟨?_, by omega⟩
      congr 1
      simp only [leBytes]
      rw [u8_eq_ofNat (b := b0) (by omega), u8_eq_ofNat (b := b1) (by omega)]
  · rintro ⟨rfl, hx⟩
    refine ⟨t, leBytes 2 n, ⟨rfl, leBytes_length _ _⟩, rfl, ?_⟩
    have := leNat2 n
    omega

theorem skipExtra_ok {v : Int} {i t b : List UInt8} :
    skipExtra v i = .ok (t, b) ↔ i = b ++ t ∧ b.length = (if v > 24 then 8 else 0) := by
  unfold skipExtra
  split
  · exact takeB_ok
  · simp only [Res.ok.injEq, Prod.mk.injEq]
    constructor
    · rintro ⟨rfl, rfl⟩; exact ⟨rfl, rfl⟩
    · rintro ⟨rfl, h⟩
      have := List.eq_nil_of_length_eq_zero h
      subst this; exact ⟨rfl, rfl⟩

end S2.Cache
