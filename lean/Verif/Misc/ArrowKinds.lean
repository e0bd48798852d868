import Verif.Basic
/-!
# The kinds of tables and what can be done with each (/repo/src/arrow_store/mod.rs:40-133, 199-345)

The contents of the tables are `Verif/Misc/Export.lean` and `Verif/Misc/Rows.lean`; here only which columns a file gets, and
which calls panic.
-/
namespace S2

/-- `ArrowIpcTypes` (/repo/src/arrow_store/mod.rs:41-63). -/
inductive ArrowKind
  | userInitData | details | stats | upgrades | unitBorn | unitDied | messageEvents | cmdTargetPoint | cmdTargetUnit | all
  deriving DecidableEq, Repr

/-- The row types, by the struct whose columns are used (/repo/src/arrow_store/mod.rs:69-130). -/
inductive RowType
  | userInitDataFlatRow | playerLobbyDetailsFlatRow | playerStatsFlatRow | upgradeEventFlatRow | unitBornEventFlatRow
  | unitDiedEventFlatRow | messageEvent | cmdTargetPointEventFlatRow | cmdTargetUnitEventFlatRow
  deriving DecidableEq, Repr

/-- `schema`; `none` is the panic of `unimplemented!()` (/repo/src/arrow_store/mod.rs:67-133). -/
def ArrowKind.schema : ArrowKind → Option RowType
  | .userInitData => some .userInitDataFlatRow
  | .details => some .playerLobbyDetailsFlatRow
  | .stats => some .playerStatsFlatRow
  | .upgrades => some .upgradeEventFlatRow
  | .unitBorn => some .unitBornEventFlatRow
  | .unitDied => some .unitDiedEventFlatRow
  | .cmdTargetPoint => some .cmdTargetPointEventFlatRow
  | .cmdTargetUnit => some .cmdTargetUnitEventFlatRow
  | _ => none

/-- The `match self` of `handle_tracker_events`: the rows collected, or a panic (/repo/src/arrow_store/mod.rs:221-239, 252-270). -/
def ArrowKind.trackerRows : ArrowKind → Option RowType
  | .stats => some .playerStatsFlatRow
  | .upgrades => some .upgradeEventFlatRow
  | .unitBorn => some .unitBornEventFlatRow
  | .unitDied => some .unitDiedEventFlatRow
  | _ => none

/-- The `match self` of `handle_game_events` (/repo/src/arrow_store/mod.rs:297-309, 319-331). -/
def ArrowKind.gameRows : ArrowKind → Option RowType
  | .cmdTargetPoint => some .cmdTargetPointEventFlatRow
  | .cmdTargetUnit => some .cmdTargetUnitEventFlatRow
  | _ => none

/-- `handle_details_ipc_cmd`: always the same rows and columns, whatever `self` is (/repo/src/arrow_store/mod.rs:377-409). -/
def ArrowKind.detailsRows (_ : ArrowKind) : Option RowType := some .playerLobbyDetailsFlatRow

/-- What a call has done: the columns of the file it created, if it got so far, the rows put into it, and whether it
panicked. [/repo/src/arrow_store/mod.rs:203-345] -/
structure ExportTrace where
  file : Option RowType
  rows : List RowType
  panicked : Bool
  deriving DecidableEq, Repr

/-- `handle_tracker_events` and `handle_game_events` (serial path) as far as columns go: the columns are asked for first, then the file
is created, then every source that opens is matched (`collect`), the first failing match ends the call
(/repo/src/arrow_store/mod.rs:203-276, 281-341).  `opens` says which sources `SC2EventIterator::new` accepts. -/
def exportKind (collect : ArrowKind → Option RowType) (k : ArrowKind) (opens : List Bool) : ExportTrace :=
  match k.schema with
  | none => ⟨none, [], true⟩
  | some cols =>
    let rec go : List Bool → List RowType → ExportTrace
      | [], acc => ⟨some cols, acc, false⟩
      | false :: rest, acc => go rest acc
      | true :: rest, acc =>
        match collect k with
        | some r => go rest (acc ++ [r])
        | none => ⟨some cols, acc, true⟩
    go opens []

end S2
