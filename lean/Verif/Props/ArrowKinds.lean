import Verif.Misc.ArrowKinds
/-! # Tables and their columns (C174) -/
namespace S2

/-- The row type the documentation of a kind names (the comments of /repo/src/arrow_store/mod.rs:41-63). [specification] -/
def ArrowKind.documented : ArrowKind → Option RowType
  | .userInitData => some .userInitDataFlatRow
  | .details => some .playerLobbyDetailsFlatRow
  | .stats => some .playerStatsFlatRow
  | .upgrades => some .upgradeEventFlatRow
  | .unitBorn => some .unitBornEventFlatRow
  | .unitDied => some .unitDiedEventFlatRow
  | .messageEvents => some .messageEvent
  | .cmdTargetPoint => some .cmdTargetPointEventFlatRow
  | .cmdTargetUnit => some .cmdTargetUnitEventFlatRow
  | .all => none

theorem go_some (cols : RowType) (collect : ArrowKind → Option RowType) (k : ArrowKind) (r : RowType) (h : collect k = some r) :
    ∀ (opens : List Bool) (acc : List RowType),
      exportKind.go collect k cols opens acc = ⟨some cols, acc ++ List.replicate (opens.count true) r, false⟩ := by
  intro opens
  induction opens with
  | nil => intro acc; simp [exportKind.go]
  | cons b rest ih =>
    intro acc
    cases b with
    | false => rw [exportKind.go, ih]; simp
    | true =>
      rw [exportKind.go, h]
      simp only [ih, List.count_cons_self, List.replicate_succ, List.append_assoc, List.singleton_append]

theorem go_none (cols : RowType) (collect : ArrowKind → Option RowType) (k : ArrowKind) (h : collect k = none) :
    ∀ (opens : List Bool) (acc : List RowType),
      exportKind.go collect k cols opens acc = ⟨some cols, acc, opens.contains true⟩ := by
  intro opens
  induction opens with
  | nil => intro acc; rfl
  | cons b rest ih =>
    intro acc
    cases b with
    | false => rw [exportKind.go, ih]; simp
    | true => rw [exportKind.go, h]; simp

/-- C174 (what holds): every row that the tracker export or the game export puts into a file is of the type of the file's columns, which is
the documented one; there is one batch for every source that opens, and no panic, if the kind belongs to the call. -/
theorem C174_columns_partial (k : ArrowKind) (opens : List Bool) :
    (∀ collect, collect = ArrowKind.trackerRows ∨ collect = ArrowKind.gameRows →
      (∀ r ∈ (exportKind collect k opens).rows, (exportKind collect k opens).file = some r ∧ k.documented = some r) ∧
      (collect k ≠ none → exportKind collect k opens = ⟨k.documented, List.replicate (opens.count true) (k.documented.getD .messageEvent), false⟩)) ∧
    (∀ cols, k.schema = some cols → k.documented = some cols) := by
  refine ⟨?_, by cases k <;> simp [ArrowKind.schema, ArrowKind.documented]⟩
  intro collect hc
  have agree : ∀ r, collect k = some r → k.schema = some r ∧ k.documented = some r := by
    intro r hr
    rcases hc with rfl | rfl <;> cases k <;> simp_all [ArrowKind.trackerRows, ArrowKind.gameRows, ArrowKind.schema, ArrowKind.documented]
  cases hk : collect k with
  | some r =>
    obtain ⟨h1, h2⟩ := agree r hk
    have e : exportKind collect k opens = ⟨some r, List.replicate (opens.count true) r, false⟩ := by
      unfold exportKind
      simp only [h1]
      rw [go_some r collect k r hk]; simp
    rw [e, h2]
    refine ⟨fun x hx => ?_, fun _ => rfl⟩
    rw [List.eq_of_mem_replicate hx]; exact ⟨rfl, rfl⟩
  | none =>
    refine ⟨fun x hx => ?_, fun h => absurd rfl h⟩
    exfalso
    unfold exportKind at hx
    cases hs : k.schema with
    | none => rw [hs] at hx; cases hx
    | some cols =>
      rw [hs] at hx
      simp only [go_none cols collect k hk] at hx
      cases hx

example : exportKind ArrowKind.trackerRows .stats [true, false, true] =
    ⟨some .playerStatsFlatRow, [.playerStatsFlatRow, .playerStatsFlatRow], false⟩ := by decide

/-- C174, exactly: which kinds an export call writes.  The tracker export panics for every other kind as soon as one source opens, and
before that has already created the file (unless the kind has no columns: then nothing is created and it always panics); likewise
the game export. -/
theorem C174_exactly (k : ArrowKind) (opens : List Bool) :
    ((exportKind ArrowKind.trackerRows k opens).panicked = true ↔
      k ∈ [.messageEvents, .all] ∨ (k ∉ [.stats, .upgrades, .unitBorn, .unitDied] ∧ true ∈ opens)) ∧
    ((exportKind ArrowKind.gameRows k opens).panicked = true ↔
      k ∈ [.messageEvents, .all] ∨ (k ∉ [.cmdTargetPoint, .cmdTargetUnit] ∧ true ∈ opens)) ∧
    (∀ collect, ((exportKind collect k opens).file = none ↔ k ∈ [.messageEvents, .all])) := by
  have ft : ∀ collect, ((exportKind collect k opens).file = none ↔ k.schema = none) := by
    intro collect
    unfold exportKind
    cases hs : k.schema with
    | none => simp
    | some cols =>
      cases hk : collect k with
      | some r => simp [go_some cols collect k r hk]
      | none => simp [go_none cols collect k hk]
  have pt : ∀ collect, ((exportKind collect k opens).panicked = true ↔ k.schema = none ∨ (collect k = none ∧ true ∈ opens)) := by
    intro collect
    unfold exportKind
    cases hs : k.schema with
    | none => simp
    | some cols =>
      cases hk : collect k with
      | some r => simp [go_some cols collect k r hk]
      | none => simp [go_none cols collect k hk]
  refine ⟨?_, ?_, fun c => ?_⟩
  · rw [pt]; cases k <;> simp [ArrowKind.schema, ArrowKind.trackerRows]
  · rw [pt]; cases k <;> simp [ArrowKind.schema, ArrowKind.gameRows]
  · rw [ft]; cases k <;> simp [ArrowKind.schema]

/-- C174 is refuted: message events and user init data are documented kinds that no call writes: with one source that opens every call panics
or writes rows of another type. -/
theorem C174_refuted : ∀ k : ArrowKind, k = .messageEvents ∨ k = .userInitData →
    k.documented ≠ none ∧ (exportKind ArrowKind.trackerRows k [true]).panicked = true ∧ (exportKind ArrowKind.gameRows k [true]).panicked = true ∧
    k.detailsRows ≠ k.documented := by
  rintro k (rfl | rfl) <;> decide

end S2
