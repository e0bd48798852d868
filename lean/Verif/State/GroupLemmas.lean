import Verif.State.UserLemmas
/-! # Sorting, deduplication, marking -/
namespace S2

theorem mem_sortInsert {α : Type} {le : α → α → Bool} {a x : α} {l : List α} : x ∈ sortInsert le a l ↔ x = a ∨ x ∈ l := by
  induction l with
  | nil => simp [sortInsert]
  | cons b bs ih =>
    unfold sortInsert
    split
    · simp
    · simp only [List.mem_cons, ih]
      constructor
      · rintro (h | h | h) <;> simp [h]
      · rintro (h | h | h) <;> simp [h]

theorem mem_sortBy {α : Type} {le : α → α → Bool} {x : α} {l : List α} : x ∈ sortBy le l ↔ x ∈ l := by
  induction l with
  | nil => simp [sortBy]
  | cons a as ih => simp [sortBy, mem_sortInsert, ih]

theorem sortInsert_sorted {a : Int} {l : List Int} (h : l.Pairwise (· ≤ ·)) :
    (sortInsert (fun a b : Int => decide (a ≤ b)) a l).Pairwise (· ≤ ·) := by
  induction l with
  | nil => simp [sortInsert]
  | cons b bs ih =>
    unfold sortInsert
    have hb := (List.pairwise_cons.1 h)
    split
    · rename_i hle
      simp only [decide_eq_true_eq] at hle
      refine List.pairwise_cons.2 ⟨?_, h⟩
      intro x hx
      rcases List.mem_cons.1 hx with rfl | hx
      · exact hle
      · exact Int.le_trans hle (hb.1 x hx)
    · rename_i hle
      simp only [decide_eq_true_eq] at hle
      refine List.pairwise_cons.2 ⟨?_, ih hb.2⟩
      intro x hx
      rcases mem_sortInsert.1 hx with rfl | hx
      · omega
      · exact hb.1 x hx

theorem sortBy_sorted (l : List Int) : (sortBy (fun a b : Int => decide (a ≤ b)) l).Pairwise (· ≤ ·) := by
  induction l with
  | nil => simp [sortBy]
  | cons a as ih => exact sortInsert_sorted ih

theorem dedupFrom_sub {last : Int} {l : List Int} {x : Int} (h : x ∈ dedupFrom (· == ·) last l) : x ∈ l := by
  induction l generalizing last with
  | nil => simp [dedupFrom] at h
  | cons b bs ih =>
    unfold dedupFrom at h
    split at h
    · simp [ih h]
    · rcases List.mem_cons.1 h with h | h
      · simp [h]
      · simp [ih h]

theorem dedupFrom_mem {last : Int} {l : List Int} {x : Int} (h : x ∈ l) (hne : x ≠ last) :
    x ∈ dedupFrom (· == ·) last l := by
  induction l generalizing last with
  | nil => simp at h
  | cons b bs ih =>
    unfold dedupFrom
    split
    · rename_i hb
      simp only [beq_iff_eq] at hb
      rcases List.mem_cons.1 h with h | h
      · exact absurd (h.trans hb.symm) hne
      · exact ih h hne
    · by_cases hxb : x = b
      · simp [hxb]
      · rcases List.mem_cons.1 h with h | h
        · exact absurd h hxb
        · simp [ih h hxb]

theorem mem_dedupBy {l : List Int} {x : Int} : x ∈ dedupBy (· == ·) l ↔ x ∈ l := by
  cases l with
  | nil => simp [dedupBy]
  | cons a as =>
    unfold dedupBy
    constructor
    · intro h
      rcases List.mem_cons.1 h with h | h
      · simp [h]
      · simp [dedupFrom_sub h]
    · intro h
      by_cases hx : x = a
      · simp [hx]
      · rcases List.mem_cons.1 h with h | h
        · exact absurd h hx
        · simp [dedupFrom_mem h hx]

theorem dedupFrom_strict {last : Int} {l : List Int} (h : (last :: l).Pairwise (· ≤ ·)) :
    (last :: dedupFrom (· == ·) last l).Pairwise (· < ·) := by
  induction l generalizing last with
  | nil => simp [dedupFrom]
  | cons b bs ih =>
    have h1 := List.pairwise_cons.1 h
    have h2 := List.pairwise_cons.1 h1.2
    unfold dedupFrom
    split
    · rename_i hb
      simp only [beq_iff_eq] at hb
      subst hb
      exact ih h1.2
    · rename_i hb
      simp only [beq_iff_eq] at hb
      have hlb : last < b := by have := h1.1 b (by simp); omega
      have ih' := ih h1.2
      refine List.pairwise_cons.2 ⟨?_, ih'⟩
      intro x hx
      rcases List.mem_cons.1 hx with rfl | hx
      · exact hlb
      · exact Int.lt_trans hlb ((List.pairwise_cons.1 ih').1 x hx)

theorem dedupBy_strict {l : List Int} (h : l.Pairwise (· ≤ ·)) : (dedupBy (· == ·) l).Pairwise (· < ·) := by
  cases l with
  | nil => simp [dedupBy]
  | cons a as => exact dedupFrom_strict h

/-- `sort_unstable` then `dedup` on the concatenation: the sorted union. -/
def union (a b : List Int) : List Int := dedupBy (· == ·) (sortBy (fun a b => decide (a ≤ b)) (a ++ b))

theorem mem_union {a b : List Int} {x : Int} : x ∈ union a b ↔ x ∈ a ∨ x ∈ b := by
  simp [union, mem_dedupBy, mem_sortBy]

theorem union_strict (a b : List Int) : (union a b).Pairwise (· < ·) := dedupBy_strict (sortBy_sorted _)

/-! ## Marking -/

/-- A unit after being marked as selected (once or more). -/
def marked (loop : Int) (u : SUnit) : SUnit :=
  { u with isSelected := true, radius := if u.isSelected then u.radius else u.radius * 2, lastGameLoop := loop }

/-- A unit after its mark was removed. -/
def unmarked (loop : Int) (u : SUnit) : SUnit :=
  { u with isSelected := false, radius := if u.isSelected then u.radius * (1 / 2) else u.radius, lastGameLoop := loop }

theorem markLoop_spec (loop k : Int) : ∀ (tags : List Int) (us : Units),
    (markLoop loop tags us).1 k = if k ∈ tags.map tagIndex then (us k).map (marked loop) else us k
  | [], us => by simp [markLoop]
  | t :: tags, us => by
    simp only [markLoop, List.map_cons, List.mem_cons]
    by_cases hk : k = tagIndex t
    · subst hk
      simp only [true_or, if_true]
      split
      · rename_i hn
        rw [markLoop_spec loop _ tags, hn]; simp
      · rename_i u hu
        split
        · rename_i hsel
          rw [markLoop_spec loop _ tags]
          simp only [Units.set_self, hu]
          split <;> simp [marked, hsel]
        · rename_i hsel
          simp only
          rw [markLoop_spec loop _ tags]
          simp only [Units.set_self, hu]
          split <;> simp [marked, hsel]
    · simp only [hk, false_or]
      split
      · exact markLoop_spec loop k tags us
      · split
        · rw [markLoop_spec loop k tags]; simp only [Units.set_ne _ _ hk]
        · simp only
          rw [markLoop_spec loop k tags]; simp only [Units.set_ne _ _ hk]

theorem unmarkLoop_spec (loop k : Int) : ∀ (tags : List Int) (us : Units),
    (unmarkLoop loop tags us).1 k = if k ∈ tags.map tagIndex then (us k).map (unmarked loop) else us k
  | [], us => by simp [unmarkLoop]
  | t :: tags, us => by
    simp only [unmarkLoop, List.map_cons, List.mem_cons]
    by_cases hk : k = tagIndex t
    · subst hk
      simp only [true_or, if_true]
      split
      · rename_i hn
        rw [unmarkLoop_spec loop _ tags, hn]; simp
      · rename_i u hu
        split
        · rename_i hsel
          simp only
          rw [unmarkLoop_spec loop _ tags]
          simp only [Units.set_self, hu]
          split <;> simp [unmarked, hsel]
        · rename_i hsel
          rw [unmarkLoop_spec loop _ tags]
          simp only [Units.set_self, hu]
          split <;> simp [unmarked, hsel]
    · simp only [hk, false_or]
      split
      · exact unmarkLoop_spec loop k tags us
      · split
        · simp only
          rw [unmarkLoop_spec loop k tags]; simp only [Units.set_ne _ _ hk]
        · rw [unmarkLoop_spec loop k tags]; simp only [Units.set_ne _ _ hk]

theorem selectedIds_eq {s : SState} (hw : s.Wf) (user : Int) :
    selectedIds s user = .ok ((groupOf s user 10).getD []) := by
  unfold selectedIds groupOf
  cases h : getUser s.users user with
  | none => rfl
  | some u =>
    have hl : u.groups.length = 11 := hw.2 _ (getUser_mem h)
    simp only [Option.bind_some]
    rw [indexGroup_eq (by simp [activeGroup, hl])]
    simp [activeGroup, hl]

theorem groupOf_lt {s : SState} (hw : s.Wf) {user : Int} {u : UserState} (hu : getUser s.users user = some u) (i : Nat) :
    groupOf s user i = u.groups[i]? ∧ (i < 11 ↔ (groupOf s user i).isSome) := by
  have hl : u.groups.length = 11 := hw.2 _ (getUser_mem hu)
  simp only [groupOf, hu, Option.bind_some, true_and]
  simp [hl]

end S2
