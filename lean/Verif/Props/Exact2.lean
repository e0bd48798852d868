import Verif.Props.Scan
import Verif.Props.Tags
/-!
# More exact conditions: the top lists of a scan (C98), unit positions (C75)
-/
namespace S2

/-! ## C98 -/

/-- [proof device, no counterpart in /repo] Exchanges two names. -/
def swapName (x y : Str) (e : Str × Nat) : Str × Nat := (if e.1 = x then y else if e.1 = y then x else e.1, e.2)

theorem swapName_swap (x y : Str) (e : Str × Nat) : swapName x y (swapName x y e) = e := by
  obtain ⟨k, n⟩ := e
  simp only [swapName, Prod.mk.injEq, and_true]
  grind

theorem sortInsert_map {σ : Str × Nat → Str × Nat} (hσ : ∀ e, (σ e).2 = e.2) (a : Str × Nat) : ∀ l : List (Str × Nat),
    sortInsert (fun a b : Str × Nat => decide (b.2 ≤ a.2)) (σ a) (l.map σ) =
      (sortInsert (fun a b : Str × Nat => decide (b.2 ≤ a.2)) a l).map σ
  | [] => rfl
  | b :: l => by
    rw [List.map_cons, sortInsert, sortInsert, hσ, hσ]
    split
    · rfl
    · rw [List.map_cons, sortInsert_map hσ a l]

theorem sortBy_map {σ : Str × Nat → Str × Nat} (hσ : ∀ e, (σ e).2 = e.2) : ∀ l : List (Str × Nat),
    sortBy (fun a b : Str × Nat => decide (b.2 ≤ a.2)) (l.map σ) = (sortBy (fun a b : Str × Nat => decide (b.2 ≤ a.2)) l).map σ
  | [] => rfl
  | a :: l => by rw [List.map_cons, sortBy, sortBy, sortBy_map hσ l, sortInsert_map hσ]

theorem freq_entry {names : List Str} {m : List (Str × Nat)} (h : FreqTable names m) (k : Str) (n : Nat) :
    (k, n) ∈ m ↔ k ∈ names ∧ n = names.count k := by
  constructor
  · intro he
    have h1 := freqOf_mem h.nodup he
    rw [h.freq] at h1
    simp only at h1
    have h2 := h.pos _ he
    simp only at h2
    exact ⟨List.count_pos_iff.1 (by omega), h1.symm⟩
  · rintro ⟨hk, rfl⟩
    have hin : k ∈ m.map Prod.fst := by
      apply Classical.byContradiction
      intro hc
      have := h.freq k
      rw [freqOf_not_mem hc] at this
      have := List.count_pos_iff.mpr hk
      omega
    obtain ⟨e, he, rfl⟩ := List.mem_map.mp hin
    have := freqOf_mem h.nodup he
    rw [h.freq] at this
    rw [this]
    exact he

theorem freq_nodup {names : List Str} {m : List (Str × Nat)} (h : FreqTable names m) : m.Nodup :=
  (List.pairwise_map.1 h.nodup).imp (fun hne c => hne (by rw [c]))

theorem top_counts (o1 o2 : List (Str × Nat) → List (Str × Nat)) (m : List (Str × Nat)) (h1 : (o1 m).Perm m) (h2 : (o2 m).Perm m) :
    (top10 o1 m).map Prod.snd = (top10 o2 m).map Prod.snd := by
  unfold top10
  rw [List.map_take, List.map_take]
  congr 1
  apply sorted_perm_unique
  · exact (((sortBy_perm _ _).trans h1).trans ((sortBy_perm _ _).trans h2).symm).map _
  · exact List.pairwise_map.mpr (top_sorted _)
  · exact List.pairwise_map.mpr (top_sorted _)

open Classical in
theorem top10_indep {names : List Str} {m : List (Str × Nat)} (h : FreqTable names m) (ord : List (Str × Nat) → List (Str × Nat))
    (ho : ∀ m, (ord m).Perm m) :
    (∀ ord' : List (Str × Nat) → List (Str × Nat), (∀ m, (ord' m).Perm m) → top10 ord' m = top10 ord m) ↔
      ∀ e ∈ top10 ord m, ∀ y ∈ names, names.count y = e.2 → y = e.1 := by
  constructor
  · intro hall e he y hy hc
    apply Classical.byContradiction
    intro hne
    have hem : e ∈ m := (ho m).mem_iff.1 ((sortBy_perm _ _).mem_iff.1 (List.mem_of_mem_take he))
    obtain ⟨hx, hcx⟩ := (freq_entry h e.1 e.2).1 hem
    have hσ : ∀ a, (swapName e.1 y a).2 = a.2 := fun _ => rfl
    have hinj : Function.Injective (swapName e.1 y) := fun a b hab => by
      rw [← swapName_swap e.1 y a, hab, swapName_swap]
    have hperm : ((ord m).map (swapName e.1 y)).Perm m := by
      refine ((ho m).map _).trans ?_
      have hnd : (m.map (swapName e.1 y)).Nodup := (List.pairwise_map.2 ((freq_nodup h).imp (fun hne c => hne (hinj c))))
      rw [List.perm_ext_iff_of_nodup hnd (freq_nodup h)]
      rintro ⟨k, n⟩
      have h1 : (k, n) ∈ m.map (swapName e.1 y) ↔ swapName e.1 y (k, n) ∈ m := by
        rw [List.mem_map]
        constructor
        · rintro ⟨a, ha, hk⟩
          rw [← hk, swapName_swap]; exact ha
        · intro ha
          exact ⟨_, ha, swapName_swap _ _ _⟩
      rw [h1]
      simp only [swapName]
      by_cases hk1 : k = e.1
      · subst hk1
        rw [if_pos rfl, freq_entry h, freq_entry h, hc, ← hcx]
        simp [hy, hx]
      · rw [if_neg hk1]
        by_cases hk2 : k = y
        · subst hk2
          rw [if_pos rfl, freq_entry h, freq_entry h, hc, ← hcx]
          simp [hy, hx]
        · rw [if_neg hk2]
    have := hall (fun m' => if m' = m then (ord m).map (swapName e.1 y) else m') (by
      intro m'
      by_cases hm : m' = m
      · subst hm; simpa using hperm
      · simp only [if_neg hm]; exact .refl _)
    unfold top10 at this he
    simp only [if_true] at this
    rw [sortBy_map hσ, ← List.map_take] at this
    obtain ⟨i, hi, hie⟩ := List.getElem_of_mem he
    have h2 := congrArg (fun l => l[i]?) this
    simp only [List.getElem?_map, List.getElem?_eq_getElem hi, Option.map_some, hie, Option.some.injEq] at h2
    have h3 := congrArg Prod.fst h2
    simp only [swapName, if_true] at h3
    exact hne h3
  · intro hd ord' ho'
    have hc := top_counts ord' ord m (ho' m) (ho m)
    have hlen : (top10 ord' m).length = (top10 ord m).length := by simpa using congrArg List.length hc
    apply List.ext_getElem hlen
    intro i h1 h2
    have hci : ((top10 ord' m)[i]).2 = ((top10 ord m)[i]).2 := by
      have := congrArg (fun l => l[i]?) hc
      simpa [List.getElem?_map, List.getElem?_eq_getElem h1, List.getElem?_eq_getElem h2] using this
    have h3 := (isTop10_of_freq h ord' (ho' m)).counts _ (List.getElem_mem h1)
    have hmem : ((top10 ord' m)[i]).1 ∈ names := List.count_pos_iff.1 (h3.1 ▸ h3.2)
    exact Prod.ext (hd _ (List.getElem_mem h2) _ hmem (by rw [← h3.1, hci])) hci

/-- **C98 (exactly when)** the list of the most frequent players does not depend on the iteration order of the hash map if and only
if no other name is as frequent as a listed one; and so for the maps. -/
theorem C98_exactly {D : Type} (w : World D) (bld : Build) (ord : List (Str × Nat) → List (Str × Nat))
    (hord : ∀ m, (ord m).Perm m) (table : BalTable) (split : Option Split) (sources : List Str) (st : DirStats)
    (h : scanSources w bld ord table split sources = .ok st) :
    let dets := readableDetails w bld (readable (InitFile.tryRead w bld) 0 sources)
    let names := dets.flatMap (fun d => d.details.playerNames)
    let titles := dets.map (fun d => d.details.title)
    ((∀ ord' : List (Str × Nat) → List (Str × Nat), (∀ m, (ord' m).Perm m) →
        ∃ st', scanSources w bld ord' table split sources = .ok st' ∧ st'.topPlayers = st.topPlayers) ↔
      ∀ e ∈ st.topPlayers, ∀ y ∈ names, names.count y = e.2 → y = e.1) ∧
    ((∀ ord' : List (Str × Nat) → List (Str × Nat), (∀ m, (ord' m).Perm m) →
        ∃ st', scanSources w bld ord' table split sources = .ok st' ∧ st'.topMaps = st.topMaps) ↔
      ∀ e ∈ st.topMaps, ∀ y ∈ titles, titles.count y = e.2 → y = e.1) := by
  intro dets names titles
  have ser : ∀ o, scanSources w bld o table split sources = scanSources w bld o table none sources := by
    intro o
    cases split with
    | none => rfl
    | some sp => exact C53_parallel w bld o table sp sources
  rw [ser] at h
  simp only [ser]
  simp only [scanSources, Res.bind_eq_ok, Res.pure_eq, Res.ok.injEq] at h
  obtain ⟨inits, h1, acc, h2, rfl⟩ := h
  have hres : ∀ ord' : List (Str × Nat) → List (Str × Nat), scanSources w bld ord' table none sources =
      .ok ⟨sources.length, inits.length, acc.abilitySupported, top10 ord' acc.users, top10 ord' acc.maps⟩ := by
    intro ord'
    simp only [scanSources, h1, Res.bind_ok, h2, Res.pure_eq]
  obtain ⟨_, rfl⟩ := (readInits_ok _ _ _ _).mp h1
  obtain ⟨_, h3, h4, h5⟩ := scanLoop_ok w bld _ _ _ _ [] [] h2 FreqTable.nil FreqTable.nil
  rw [List.nil_append] at h4 h5
  constructor
  · rw [← top10_indep h4 ord hord]
    constructor
    · intro hh ord' ho'
      obtain ⟨st', e1, e2⟩ := hh ord' ho'
      rw [hres] at e1
      cases e1
      exact e2
    · intro hh ord' ho'
      exact ⟨_, hres ord', hh ord' ho'⟩
  · rw [← top10_indep h5 ord hord]
    constructor
    · intro hh ord' ho'
      obtain ⟨st', e1, e2⟩ := hh ord' ho'
      rw [hres] at e1
      cases e1
      exact e2
    · intro hh ord' ho'
      exact ⟨_, hres ord', hh ord' ho'⟩

/-- In the example directory the map list is the same for all orders, the player list is not. -/
example : ∃ st, scanSources exDir .release id [] none [str "a", str "bad", str "b"] = .ok st ∧
    st.topPlayers = [(str "Ann", 2), (str "Bob", 2)] ∧ st.topMaps = [(str "Map", 2)] :=
  ⟨⟨3, 2, 0, [(str "Ann", 2), (str "Bob", 2)], [(str "Map", 2)]⟩, by decide +kernel, rfl, rfl⟩

/-! ## C75 -/

/-- [specification] Some running index (from `first` on), or some coordinate times four, of a complete group of three is no
`i32`. -/
def LeavesI32 (first : Int) (items : List Int) : Prop :=
  ∃ k, k < items.length / 3 ∧
    (¬ (-(2 ^ 31) ≤ first + ((List.range (k + 1)).map (fun j => items.getD (3 * j) 0)).sum ∧
        first + ((List.range (k + 1)).map (fun j => items.getD (3 * j) 0)).sum < 2 ^ 31) ∨
     ¬ (-(2 ^ 31) ≤ 4 * items.getD (3 * k + 1) 0 ∧ 4 * items.getD (3 * k + 1) 0 < 2 ^ 31) ∨
     ¬ (-(2 ^ 31) ≤ 4 * items.getD (3 * k + 2) 0 ∧ 4 * items.getD (3 * k + 2) 0 < 2 ^ 31))

theorem leaves_cons (first d x y : Int) (rest : List Int) : LeavesI32 first (d :: x :: y :: rest) ↔
    ¬ (-(2 ^ 31) ≤ first + d ∧ first + d < 2 ^ 31) ∨ ¬ (-(2 ^ 31) ≤ x * 4 ∧ x * 4 < 2 ^ 31) ∨
    ¬ (-(2 ^ 31) ≤ y * 4 ∧ y * 4 < 2 ^ 31) ∨ LeavesI32 (first + d) rest := by
  have hlen : (d :: x :: y :: rest).length / 3 = rest.length / 3 + 1 := by simp only [List.length_cons]; omega
  have hsum : ∀ k, ((List.range (k + 1 + 1)).map (fun j => (d :: x :: y :: rest).getD (3 * j) 0)).sum =
      d + ((List.range (k + 1)).map (fun j => rest.getD (3 * j) 0)).sum := by
    intro k
    rw [List.range_succ_eq_map, List.map_cons, List.sum_cons, List.map_map]
    congr 1
  have h0 : ((List.range (0 + 1)).map (fun j => (d :: x :: y :: rest).getD (3 * j) 0)).sum = d := by simp
  have hg : ∀ k i, (d :: x :: y :: rest).getD (3 * (k + 1) + i) 0 = rest.getD (3 * k + i) 0 := by
    intro k i
    rw [show 3 * (k + 1) + i = 3 * k + i + 3 by omega]
    simp
  have e1 : (d :: x :: y :: rest).getD (3 * 0 + 1) 0 = x := rfl
  have e2 : (d :: x :: y :: rest).getD (3 * 0 + 2) 0 = y := rfl
  constructor
  · rintro ⟨k, hk, h⟩
    cases k with
    | zero =>
      rw [h0, e1, e2] at h
      rcases h with h | h | h
      · exact .inl h
      · exact .inr (.inl (by omega))
      · exact .inr (.inr (.inl (by omega)))
    | succ k =>
      rw [hsum, hg, hg, ← Int.add_assoc] at h
      exact .inr (.inr (.inr ⟨k, by omega, h⟩))
  · rintro (h | h | h | ⟨k, hk, h⟩)
    · exact ⟨0, by omega, by rw [h0, e1, e2]; exact .inl h⟩
    · exact ⟨0, by omega, by rw [h0, e1, e2]; exact .inr (.inl (by omega))⟩
    · exact ⟨0, by omega, by rw [h0, e1, e2]; exact .inr (.inr (by omega))⟩
    · exact ⟨k + 1, by omega, by rw [hsum, hg, hg, ← Int.add_assoc]; exact h⟩

theorem positionsLoop_debug : ∀ (items : List Int) (idx : Int),
    (LeavesI32 idx items → positionsLoop .debug items idx = .panic) ∧
    (¬ LeavesI32 idx items → ∃ out, positionsLoop .debug items idx = .ok out ∧ positionsLoop .release items idx = .ok out)
  | d :: x :: y :: rest, idx => by
    rw [leaves_cons]
    have ih := positionsLoop_debug rest (idx + d)
    by_cases h1 : -(2 ^ 31) ≤ idx + d ∧ idx + d < 2 ^ 31
    · by_cases h2 : -(2 ^ 31) ≤ x * 4 ∧ x * 4 < 2 ^ 31
      · by_cases h3 : -(2 ^ 31) ≤ y * 4 ∧ y * 4 < 2 ^ 31
        · simp only [positionsLoop, addI32, mul4I32, if_pos h1, if_pos h2, if_pos h3, Res.bind_ok]
          constructor
          · rintro (h | h | h | h)
            · exact absurd h1 h
            · exact absurd h2 h
            · exact absurd h3 h
            · rw [ih.1 h]; rfl
          · intro h
            obtain ⟨out, e1, e2⟩ := ih.2 (fun c => h (.inr (.inr (.inr c))))
            rw [e1, e2]
            exact ⟨_, rfl, rfl⟩
        · exact ⟨fun _ => by simp only [positionsLoop, addI32, mul4I32, if_pos h1, if_pos h2, if_neg h3, Res.bind_ok]; rfl,
            fun h => absurd (.inr (.inr (.inl h3))) h⟩
      · exact ⟨fun _ => by simp only [positionsLoop, addI32, mul4I32, if_pos h1, if_neg h2, Res.bind_ok]; rfl,
          fun h => absurd (.inr (.inl h2)) h⟩
    · exact ⟨fun _ => by simp only [positionsLoop, addI32, if_neg h1]; rfl, fun h => absurd (.inl h1) h⟩
  | [], _ => ⟨fun ⟨k, hk, _⟩ => by simp at hk, fun _ => ⟨[], rfl, rfl⟩⟩
  | [_], _ => ⟨fun ⟨k, hk, _⟩ => by simp at hk, fun _ => ⟨[], rfl, rfl⟩⟩
  | [_, _], _ => ⟨fun ⟨k, hk, _⟩ => by simp at hk, fun _ => ⟨[], rfl, rfl⟩⟩

/-- [specification] The first index of an event as an `i32`: the same, or `2^32` less from `2^31` on. -/
def firstIndex (e : UnitPositionsEvent) : Int := if e.firstUnitIndex < 2 ^ 31 then e.firstUnitIndex else e.firstUnitIndex - 2 ^ 32

/-- **C75 (exactly when)** a debug build panics if and only if some running index or some coordinate of a complete group of three
leaves `i32`; otherwise both builds return the same positions. -/
theorem C75_exactly (e : UnitPositionsEvent) (h0 : 0 ≤ e.firstUnitIndex) (h1 : e.firstUnitIndex < 2 ^ 32) :
    (toUnitPositions .debug e = .panic ↔ LeavesI32 (firstIndex e) e.items) ∧
    (¬ LeavesI32 (firstIndex e) e.items →
      ∃ out, toUnitPositions .debug e = .ok out ∧ toUnitPositions .release e = .ok out) := by
  have hf : asI32 e.firstUnitIndex = firstIndex e := by
    unfold asI32 firstIndex
    rw [Int.emod_eq_of_lt h0 h1]
  unfold toUnitPositions
  rw [hf]
  obtain ⟨a, b⟩ := positionsLoop_debug e.items (firstIndex e)
  refine ⟨⟨?_, a⟩, b⟩
  intro hp
  apply Classical.byContradiction
  intro hn
  obtain ⟨out, ho, _⟩ := b hn
  rw [hp] at ho
  cases ho

/-- The overflow of `C75_overflow_refuted`, and a first index above `2^31` that does no harm. -/
example : LeavesI32 0 [2 ^ 31 - 1, 0, 0, 1, 0, 0] := ⟨1, by decide, .inl (by decide)⟩
example : firstIndex ⟨2 ^ 32 - 1, [2, 5, 3]⟩ = -1 := by decide

end S2
