import Verif.Gen.StatsRow
import Verif.State.Merged
import Verif.Misc.Replay
/-!
# Flat rows and their collectors

/repo/src/tracker_events/arrow_store, /repo/src/game_events/arrow_store, /repo/src/init_data/arrow_store.rs and the
`collect_into_*` functions of /repo/src/state/mod.rs.  Of `details` only `ext_fs_id` is used: the parameter
`fsId`.  Coordinates (`f32`) are rationals; `u8 as f32` is exact.
-/
namespace S2

/-- `UpgradeEventFlatRow` (/repo/src/tracker_events/arrow_store/upgrade_event_flat_row.rs:15-23) -/
structure UpgradeRow where
  playerId : Int
  name : Str
  count : Int
  replayLoop : Int
  replaySeconds : Nat
  fsId : Nat
  deriving DecidableEq, Repr

/-- `UpgradeEventFlatRow::new` (/repo/src/tracker_events/arrow_store/upgrade_event_flat_row.rs:27-41) -/
def UpgradeRow.new (fsId : Nat) (e : UpgradeEvent) (loop : Int) : UpgradeRow where
  playerId := e.playerId
  name := e.upgradeTypeName
  count := e.count
  replayLoop := loop
  replaySeconds := Time.trackerLoopToSeconds loop
  fsId := fsId

/-- `UnitBornEventFlatRow` (/repo/src/tracker_events/arrow_store/unit_born_event_flat_row.rs:19-35) -/
structure BornRow where
  unitTagIndex : Int
  unitTagRecycle : Int
  unitTypeName : Str
  controlPlayerId : Option Int
  upkeepPlayerId : Option Int
  x : Rat
  y : Rat
  creatorUnitTagIndex : Option Int
  creatorUnitTagRecycle : Option Int
  creatorUnitTypeName : Option Str
  creatorAbilityName : Option Str
  replayLoop : Int
  replaySeconds : Nat
  fsId : Nat
  playerName : Option Str
  deriving DecidableEq, Repr

/-- `from_unit_born` (/repo/src/tracker_events/arrow_store/unit_born_event_flat_row.rs:41-73) -/
def BornRow.fromUnitBorn (fsId : Nat) (e : UnitBornEvent) (loop : Int) : Hint → Option BornRow
  | .registered unit creator => some
    { unitTagIndex := e.unitTagIndex
      unitTagRecycle := e.unitTagRecycle
      unitTypeName := e.unitTypeName
      controlPlayerId := some e.controlPlayerId
      upkeepPlayerId := some e.upkeepPlayerId
      x := e.x
      y := e.y
      creatorUnitTagIndex := e.creatorUnitTagIndex
      creatorUnitTagRecycle := e.creatorUnitTagRecycle
      creatorAbilityName := e.creatorAbilityName
      creatorUnitTypeName := creator.map SUnit.name
      replayLoop := loop
      replaySeconds := Time.trackerLoopToSeconds loop
      fsId := fsId
      playerName := unit.playerName }
  | _ => none

/-- `from_unit_done` and `from_unit_type_change`, which have the same body
(/repo/src/tracker_events/arrow_store/unit_born_event_flat_row.rs:79-112, 117-149). -/
def BornRow.fromUnit (fsId : Nat) (index recycle loop : Int) : Hint → Option BornRow
  | .registered unit creator => some
    { unitTagIndex := index
      unitTagRecycle := recycle
      unitTypeName := unit.name
      controlPlayerId := unit.userId
      upkeepPlayerId := unit.userId
      x := unit.pos.x
      y := unit.pos.y
      creatorUnitTagIndex := none
      creatorUnitTagRecycle := none
      creatorAbilityName := unit.creatorAbilityName
      creatorUnitTypeName := creator.map SUnit.name
      replayLoop := loop
      replaySeconds := Time.trackerLoopToSeconds loop
      fsId := fsId
      playerName := unit.playerName }
  | _ => none

/-- `UnitDiedEventFlatRow` (/repo/src/tracker_events/arrow_store/unit_died_event_flat_row.rs:17-32) -/
structure DiedRow where
  unitDiedName : Str
  unitTagIndex : Int
  unitTagRecycle : Int
  killerPlayerId : Option Int
  x : Int
  y : Int
  unitKillerName : Str
  killerUnitTagIndex : Option Int
  killerUnitTagRecycle : Option Int
  replayLoop : Int
  replaySeconds : Nat
  fsId : Nat
  deriving DecidableEq, Repr

/-- `UnitDiedEventFlatRow::new` (/repo/src/tracker_events/arrow_store/unit_died_event_flat_row.rs:36-67) -/
def DiedRow.new (fsId : Nat) (e : UnitDiedEvent) (loop : Int) : Hint → Option DiedRow
  | .unregistered killer killed => some
    { unitDiedName := killed.name
      unitTagIndex := e.unitTagIndex
      unitTagRecycle := e.unitTagRecycle
      killerPlayerId := e.killerPlayerId
      x := e.x
      y := e.y
      unitKillerName := match killer with
        | some k => k.name
        | none => []
      killerUnitTagIndex := e.killerUnitTagIndex
      killerUnitTagRecycle := e.killerUnitTagRecycle
      replayLoop := loop
      replaySeconds := Time.trackerLoopToSeconds loop
      fsId := fsId }
  | _ => none

/-- `CmdTargetPointEventFlatRow` (/repo/src/game_events/arrow_store/cmd_event_flat_row.rs:16-32) -/
structure CmdPointRow where
  userId : Int
  playerName : Option Str
  cmdFlags : Int
  abilLink : Option Int
  abilCmdIndex : Option Int
  ability : Str
  targetX : Int
  targetY : Int
  targetZ : Int
  sequence : Int
  unitGroup : Option Int
  unitName : Str
  replayLoop : Int
  replaySeconds : Nat
  fsId : Nat
  deriving DecidableEq, Repr

/-- `event.m_abil.as_ref().map(|abil| abil.ability.clone()).unwrap_or_default()` [/repo/src/game_events/arrow_store/cmd_event_flat_row.rs:36-78, 112-167] -/
def CmdEvent.abilityText (e : CmdEvent) : Str :=
  match e.abil with
  | some a => a.ability
  | none => []

/-- `CmdTargetPointEventFlatRow::new` (/repo/src/game_events/arrow_store/cmd_event_flat_row.rs:36-78) -/
def CmdPointRow.new (fsId : Nat) (e : CmdEvent) (loop user : Int) (playerName : Option Str) (hint : Hint) :
    List CmdPointRow :=
  match e.data with
  | .targetPoint p =>
    match hint with
    | .abilities units _ _ => units.map (fun unit =>
      { userId := user
        playerName := playerName
        cmdFlags := e.cmdFlags
        abilLink := e.abil.map CmdAbil.abilLink
        ability := e.abilityText
        abilCmdIndex := e.abil.map CmdAbil.abilCmdIndex
        targetX := p.x
        targetY := p.y
        targetZ := p.z
        sequence := e.sequence
        unitGroup := e.unitGroup
        unitName := unit.name
        replayLoop := loop
        replaySeconds := Time.gameLoopToSeconds loop
        fsId := fsId })
    | _ => []
  | _ => []

/-- `CmdTargetUnitEventFlatRow` (/repo/src/game_events/arrow_store/cmd_event_flat_row.rs:87-108) -/
structure CmdUnitRow where
  userId : Int
  playerName : Option Str
  cmdFlags : Int
  abilLink : Option Int
  abilCmdIndex : Option Int
  ability : Str
  targetUnitFlags : Int
  tag : Int
  snapshotUnitLink : Int
  snapshotControlPlayerId : Option Int
  snapshotUpkeepPlayerId : Option Int
  snapshotX : Int
  snapshotY : Int
  snapshotZ : Int
  sequence : Int
  unitName : Str
  targetUnitName : Str
  replayLoop : Int
  replaySeconds : Nat
  fsId : Nat
  deriving DecidableEq, Repr

/-- `CmdTargetUnitEventFlatRow::new` (/repo/src/game_events/arrow_store/cmd_event_flat_row.rs:112-167) -/
def CmdUnitRow.new (fsId : Nat) (e : CmdEvent) (loop user : Int) (playerName : Option Str) (hint : Hint) :
    List CmdUnitRow :=
  match e.data with
  | .targetUnit t =>
    match hint with
    | .abilities units _ _ => units.map (fun unit =>
      { userId := user
        playerName := playerName
        cmdFlags := e.cmdFlags
        abilLink := e.abil.map CmdAbil.abilLink
        abilCmdIndex := e.abil.map CmdAbil.abilCmdIndex
        ability := e.abilityText
        targetUnitFlags := t.targetUnitFlags
        tag := t.tag
        snapshotUnitLink := t.snapshotUnitLink
        snapshotControlPlayerId := t.snapshotControlPlayerId
        snapshotUpkeepPlayerId := t.snapshotUpkeepPlayerId
        snapshotX := t.snapshotPoint.x
        snapshotY := t.snapshotPoint.y
        snapshotZ := t.snapshotPoint.z
        sequence := e.sequence
        unitName := unit.name
        targetUnitName := match unit.cmd.otherUnitName with
          | some n => n
          | none => []
        replayLoop := loop
        replaySeconds := Time.gameLoopToSeconds loop
        fsId := fsId })
    | _ => []
  | _ => []

/-- `UserInitDataFlatRow` (/repo/src/init_data/arrow_store.rs:16-25) -/
structure UserInitRow where
  fsId : Nat
  sha256 : Str
  fileName : Str
  userIndex : Int
  name : Str
  clanTag : Str
  scaledRating : Option Int
  deriving DecidableEq, Repr

/-- `From<&InitData> for Vec<UserInitDataFlatRow>` (/repo/src/init_data/arrow_store.rs:27-46) -/
def UserInitRow.ofInit (d : InitFile) : List UserInitRow :=
  d.sync.users.zipIdx.map (fun p =>
    { fsId := d.fsId
      sha256 := d.sha256
      fileName := d.fileName
      userIndex := asU 32 p.2
      name := p.1.name
      clanTag := p.1.clanTag.getD []
      scaledRating := p.1.scaledRating })

/-- `self.into_iter()` up to the first `None`, for `n` rounds: what every collector consumes
(/repo/src/state/mod.rs:402, 435, 465, 490, 515, 561). -/
def collectItems (bld : Build) (version : Nat) : Nat → MState → Option (Res (List Item))
  | 0, _ => none
  | n + 1, m =>
    match mnext bld version (n + 1) m with
    | none => none
    | some (.panic, _) => some .panic
    | some (.err e, _) => some (.err e)
    | some (.ok none, _) => some (.ok [])
    | some (.ok (some it), m') =>
      match collectItems bld version n m' with
      | some (.ok its) => some (.ok (it :: its))
      | r => r

/-- The closure of `collect_into_player_stats_flat_rows` (/repo/src/state/mod.rs:463-484) -/
def statsRowOf (fsId : Nat) (it : Item) : Option StatsRow :=
  match it.event with
  | .tracker loop (.playerStats p s) => some (StatsRow.new fsId p s loop)
  | _ => none

/-- The closure of `collect_into_upgrades_flat_rows` (/repo/src/state/mod.rs:488-509) -/
def upgradeRowOf (fsId : Nat) (it : Item) : Option UpgradeRow :=
  match it.event with
  | .tracker loop (.upgrade e) => some (UpgradeRow.new fsId e loop)
  | _ => none

/-- The closure of `collect_into_unit_born_flat_rows` (/repo/src/state/mod.rs:513-555) -/
def bornRowOf (fsId : Nat) (it : Item) : Option BornRow :=
  match it.event with
  | .tracker loop (.unitBorn e) => BornRow.fromUnitBorn fsId e loop it.hint
  | .tracker loop (.unitDone e) => BornRow.fromUnit fsId e.unitTagIndex e.unitTagRecycle loop it.hint
  | .tracker loop (.unitTypeChange e) =>
    match it.hint with
    | .none => none
    | h => BornRow.fromUnit fsId e.unitTagIndex e.unitTagRecycle loop h
  | _ => none

/-- The closure of `collect_into_unit_died_flat_rows` (/repo/src/state/mod.rs:559-581) -/
def diedRowOf (fsId : Nat) (it : Item) : Option DiedRow :=
  match it.event with
  | .tracker loop (.unitDied e) => DiedRow.new fsId e loop it.hint
  | _ => none

/-- The closure of `collect_into_game_cmd_target_points_flat_rows` (/repo/src/state/mod.rs:403-423); its own
check of the target is repeated by the row constructor. -/
def cmdPointRowsOf (fsId : Nat) (it : Item) : List CmdPointRow :=
  match it.event with
  | .game loop user name (.cmd e) => CmdPointRow.new fsId e loop user name it.hint
  | _ => []

/-- The closure of `collect_into_game_cmd_target_units_flat_rows` (/repo/src/state/mod.rs:436-456) -/
def cmdUnitRowsOf (fsId : Nat) (it : Item) : List CmdUnitRow :=
  match it.event with
  | .game loop user name (.cmd e) => CmdUnitRow.new fsId e loop user name it.hint
  | _ => []

/-- A collector: run the iterator to its end and turn every item into rows. [/repo/src/state/mod.rs:395-581] -/
def collectRows {ρ : Type} (rows : Item → List ρ) (bld : Build) (version n : Nat) (m : MState) : Option (Res (List ρ)) :=
  match collectItems bld version n m with
  | some (.ok its) => some (.ok (its.flatMap rows))
  | some (.err e) => some (.err e)
  | some .panic => some .panic
  | none => none

/-- `collect_into_player_stats_flat_rows` (/repo/src/state/mod.rs:463-484) -/
def collectStats (fsId : Nat) := collectRows (fun it => (statsRowOf fsId it).toList)
/-- `collect_into_upgrades_flat_rows` (/repo/src/state/mod.rs:488-509) -/
def collectUpgrades (fsId : Nat) := collectRows (fun it => (upgradeRowOf fsId it).toList)
/-- `collect_into_unit_born_flat_rows` (/repo/src/state/mod.rs:513-555) -/
def collectBorn (fsId : Nat) := collectRows (fun it => (bornRowOf fsId it).toList)
/-- `collect_into_unit_died_flat_rows` (/repo/src/state/mod.rs:559-581) -/
def collectDied (fsId : Nat) := collectRows (fun it => (diedRowOf fsId it).toList)
/-- `collect_into_game_cmd_target_points_flat_rows` (/repo/src/state/mod.rs:395-426) -/
def collectCmdPoints (fsId : Nat) := collectRows (cmdPointRowsOf fsId)
/-- `collect_into_game_cmd_target_units_flat_rows` (/repo/src/state/mod.rs:430-459) -/
def collectCmdUnits (fsId : Nat) := collectRows (cmdUnitRowsOf fsId)

end S2
