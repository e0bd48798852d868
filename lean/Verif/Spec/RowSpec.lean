import Verif.Misc.Rows
import Verif.Spec.FieldSpec
import Verif.Spec.MergeSpec
/-!
# What the exported rows should be

Rows in terms of the events of the file and of the replay state just before each event.
-/
namespace S2

/-- The rows `f` gives for event number `i` in the state reached by the events before it. -/
def rowsAt {ρ : Type} (bld : Build) (f : SState → SEvent → List ρ) (s : SState) (es : List SEvent) (i : Nat) : List ρ :=
  match es[i]?, runEvents bld s (es.take i) with
  | some e, .ok s' => f s' e
  | _, _ => []

/-- The rows of a history. -/
def rowsAlong {ρ : Type} (bld : Build) (f : SState → SEvent → List ρ) (s : SState) (es : List SEvent) : List ρ :=
  (List.range es.length).flatMap (rowsAt bld f s es)

/-- The 39 columns of a statistics row. -/
def statColumns : List (String × (StatsRow → Int)) :=
  [("minerals_current", (·.minerals_current)),
   ("vespene_current", (·.vespene_current)),
   ("minerals_collection_rate", (·.minerals_collection_rate)),
   ("vespene_collection_rate", (·.vespene_collection_rate)),
   ("workers_active_count", (·.workers_active_count)),
   ("minerals_used_in_progress_army", (·.minerals_used_in_progress_army)),
   ("minerals_used_in_progress_economy", (·.minerals_used_in_progress_economy)),
   ("minerals_used_in_progress_technology", (·.minerals_used_in_progress_technology)),
   ("vespene_used_in_progress_army", (·.vespene_used_in_progress_army)),
   ("vespene_used_in_progress_economy", (·.vespene_used_in_progress_economy)),
   ("vespene_used_in_progress_technology", (·.vespene_used_in_progress_technology)),
   ("minerals_used_current_army", (·.minerals_used_current_army)),
   ("minerals_used_current_economy", (·.minerals_used_current_economy)),
   ("minerals_used_current_technology", (·.minerals_used_current_technology)),
   ("vespene_used_current_army", (·.vespene_used_current_army)),
   ("vespene_used_current_economy", (·.vespene_used_current_economy)),
   ("vespene_used_current_technology", (·.vespene_used_current_technology)),
   ("minerals_lost_army", (·.minerals_lost_army)),
   ("minerals_lost_economy", (·.minerals_lost_economy)),
   ("minerals_lost_technology", (·.minerals_lost_technology)),
   ("vespene_lost_army", (·.vespene_lost_army)),
   ("vespene_lost_economy", (·.vespene_lost_economy)),
   ("vespene_lost_technology", (·.vespene_lost_technology)),
   ("minerals_killed_army", (·.minerals_killed_army)),
   ("minerals_killed_economy", (·.minerals_killed_economy)),
   ("minerals_killed_technology", (·.minerals_killed_technology)),
   ("vespene_killed_army", (·.vespene_killed_army)),
   ("vespene_killed_economy", (·.vespene_killed_economy)),
   ("vespene_killed_technology", (·.vespene_killed_technology)),
   ("food_used", (·.food_used)),
   ("food_made", (·.food_made)),
   ("minerals_used_active_forces", (·.minerals_used_active_forces)),
   ("vespene_used_active_forces", (·.vespene_used_active_forces)),
   ("minerals_friendly_fire_army", (·.minerals_friendly_fire_army)),
   ("minerals_friendly_fire_economy", (·.minerals_friendly_fire_economy)),
   ("minerals_friendly_fire_technology", (·.minerals_friendly_fire_technology)),
   ("vespene_friendly_fire_army", (·.vespene_friendly_fire_army)),
   ("vespene_friendly_fire_economy", (·.vespene_friendly_fire_economy)),
   ("vespene_friendly_fire_technology", (·.vespene_friendly_fire_technology))]

/-- The row of one statistics event: every column has the statistic of the same name. -/
def IsStatsRow (fsId : Nat) (r : StatsRow) (p : Int × (Int × PlayerStats)) : Prop :=
  r.player_id = p.2.1 ∧ r.ext_replay_loop = p.1 ∧ r.ext_replay_seconds = Time.trackerLoopToSeconds p.1 ∧ r.ext_fs_id = fsId ∧
    statColumns.map (fun c => (c.1, c.2 r)) = statistics.map (fun c => (c.1, c.2 p.2.2))

/-- The statistics events among tracker events. -/
def statsOf (p : Int × TrackerEvt) : Option (Int × (Int × PlayerStats)) :=
  match p.2 with
  | .playerStats player st => some (p.1, (player, st))
  | _ => none

/-- The row of one upgrade event. -/
def upgradeRow (fsId : Nat) (p : Int × TrackerEvt) : Option UpgradeRow :=
  match p.2 with
  | .upgrade e => some ⟨e.playerId, e.upgradeTypeName, e.count, p.1, Time.trackerLoopToSeconds p.1, fsId⟩
  | _ => none

/-- The name of the user announced as tracker player `id` (the first one, in the order of the user table). -/
def trackerPlayer (s : SState) (id : Int) : Option Str :=
  (s.users.find? (fun p => decide (p.2.setupPlayerId = some id))).map (fun p => p.2.name)

/-- The rows of the unit table: one per birth, one per completion or type change of a known unit. -/
def bornRows (fsId : Nat) (s : SState) : SEvent → List BornRow
  | .tracker l (.unitBorn e) =>
    [{ unitTagIndex := e.unitTagIndex, unitTagRecycle := e.unitTagRecycle, unitTypeName := e.unitTypeName,
       controlPlayerId := some e.controlPlayerId, upkeepPlayerId := some e.upkeepPlayerId, x := e.x, y := e.y,
       creatorUnitTagIndex := e.creatorUnitTagIndex, creatorUnitTagRecycle := e.creatorUnitTagRecycle,
       creatorUnitTypeName := (e.creatorUnitTagIndex.bind s.units).map SUnit.name,
       creatorAbilityName := e.creatorAbilityName,
       replayLoop := l, replaySeconds := Time.trackerLoopToSeconds l, fsId := fsId,
       playerName := match s.units e.unitTagIndex with
         | some u => u.playerName
         | none => trackerPlayer s e.controlPlayerId }]
  | .tracker l (.unitDone e) =>
    match s.units e.unitTagIndex with
    | none => []
    | some u =>
      [{ unitTagIndex := e.unitTagIndex, unitTagRecycle := e.unitTagRecycle, unitTypeName := u.name,
         controlPlayerId := u.userId, upkeepPlayerId := u.userId, x := u.pos.x, y := u.pos.y,
         creatorUnitTagIndex := none, creatorUnitTagRecycle := none, creatorUnitTypeName := none,
         creatorAbilityName := u.creatorAbilityName,
         replayLoop := l, replaySeconds := Time.trackerLoopToSeconds l, fsId := fsId, playerName := u.playerName }]
  | .tracker l (.unitTypeChange e) =>
    match s.units e.unitTagIndex with
    | none => []
    | some u =>
      [{ unitTagIndex := e.unitTagIndex, unitTagRecycle := e.unitTagRecycle, unitTypeName := e.unitTypeName,
         controlPlayerId := u.userId, upkeepPlayerId := u.userId, x := u.pos.x, y := u.pos.y,
         creatorUnitTagIndex := none, creatorUnitTagRecycle := none, creatorUnitTypeName := some u.name,
         creatorAbilityName := u.creatorAbilityName,
         replayLoop := l, replaySeconds := Time.trackerLoopToSeconds l, fsId := fsId, playerName := u.playerName }]
  | _ => []

/-- The rows of the death table: one per death of a known unit, with the names the victim and a known
killer (other than the victim itself) have at that time. -/
def diedRows (fsId : Nat) (s : SState) : SEvent → List DiedRow
  | .tracker l (.unitDied e) =>
    match s.units e.unitTagIndex with
    | none => []
    | some victim =>
      [{ unitDiedName := victim.name, unitTagIndex := e.unitTagIndex, unitTagRecycle := e.unitTagRecycle,
         killerPlayerId := e.killerPlayerId, x := e.x, y := e.y,
         unitKillerName := match e.killerUnitTagIndex with
           | none => []
           | some k => if k = e.unitTagIndex then [] else (match s.units k with
             | some killer => killer.name
             | none => [])
         killerUnitTagIndex := e.killerUnitTagIndex, killerUnitTagRecycle := e.killerUnitTagRecycle,
         replayLoop := l, replaySeconds := Time.trackerLoopToSeconds l, fsId := fsId }]
  | _ => []

/-- The known units in a user's active selection, in selection order. -/
def selectedUnits (s : SState) (user : Int) : List SUnit :=
  ((groupOf s user 10).getD []).filterMap (fun tag => s.units (tagIndex tag))

/-- The rows of the point-command table: one per selected known unit.  `ability u` is the ability name shown
in the row of `u`. -/
def cmdPointRows (fsId : Nat) (ability : SState → List SUnit → SUnit → CmdAbil → Str) (s : SState) : SEvent → List CmdPointRow
  | .game l user name (.cmd e) =>
    match e.data, e.abil with
    | .targetPoint p, some a => (selectedUnits s user).map (fun u =>
        { userId := user, playerName := name, cmdFlags := e.cmdFlags, abilLink := some a.abilLink,
          abilCmdIndex := some a.abilCmdIndex, ability := ability s (selectedUnits s user) u a,
          targetX := p.x, targetY := p.y, targetZ := p.z, sequence := e.sequence, unitGroup := e.unitGroup,
          unitName := u.name, replayLoop := l, replaySeconds := Time.gameLoopToSeconds l, fsId := fsId })
    | _, _ => []
  | _ => []

/-- The rows of the unit-command table: one per selected known unit.  `target t` is the name shown for the
target. -/
def cmdUnitRows (fsId : Nat) (ability : SState → List SUnit → SUnit → CmdAbil → Str)
    (target : SState → CmdTargetUnit → Str) (s : SState) : SEvent → List CmdUnitRow
  | .game l user name (.cmd e) =>
    match e.data, e.abil with
    | .targetUnit t, some a => (selectedUnits s user).map (fun u =>
        { userId := user, playerName := name, cmdFlags := e.cmdFlags, abilLink := some a.abilLink,
          abilCmdIndex := some a.abilCmdIndex, ability := ability s (selectedUnits s user) u a,
          targetUnitFlags := t.targetUnitFlags, tag := t.tag, snapshotUnitLink := t.snapshotUnitLink,
          snapshotControlPlayerId := t.snapshotControlPlayerId, snapshotUpkeepPlayerId := t.snapshotUpkeepPlayerId,
          snapshotX := t.snapshotPoint.x, snapshotY := t.snapshotPoint.y, snapshotZ := t.snapshotPoint.z,
          sequence := e.sequence, unitName := u.name, targetUnitName := target s t,
          replayLoop := l, replaySeconds := Time.gameLoopToSeconds l, fsId := fsId })
    | _, _ => []
  | _ => []

/-- The ability of the row's own unit. -/
def ownAbility (s : SState) (_ : List SUnit) (u : SUnit) (a : CmdAbil) : Str :=
  abilityName s.balance u.name a.abilLink a.abilCmdIndex

/-- The ability of the last selected unit, whichever unit the row is about. -/
def lastAbility (s : SState) (us : List SUnit) (_ : SUnit) (a : CmdAbil) : Str :=
  match us.getLast? with
  | some u => abilityName s.balance u.name a.abilLink a.abilCmdIndex
  | none => []

/-- The name of the unit a tag refers to: the unit registered under the tag's index. -/
def taggedName (s : SState) (t : CmdTargetUnit) : Str :=
  match s.units (tagIndex t.tag) with
  | some u => u.name
  | none => []

/-- The name of the unit registered under the whole tag taken as an index. -/
def wholeTagName (s : SState) (t : CmdTargetUnit) : Str :=
  match s.units t.tag with
  | some u => u.name
  | none => []

end S2
