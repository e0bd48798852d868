import Verif.Events.Types
import Verif.Gen.P87702ByteAligned
/-!
# Which wire field each member of a public tracker event comes from

Fields are addressed by their name in the protocol, not by position.
-/
namespace S2

/-- Names of the fields, in declaration order. -/
def VFields.names : VFields → List String
  | .nil => []
  | .cons _ name _ _ _ rest => name :: rest.names

/-- The value of the field called `name` of a decoded structure. -/
def wireField (t : VTy) (v : Val) (name : String) : Option Val :=
  match t, v with
  | .struct fs, .struct vs => (fs.names.zip vs).lookup name
  | _, _ => none

/-- The decoded form of an optional number / an optional text. -/
def optNum : Option Int → Val
  | some x => .some (.int x)
  | none => .none
def optText : Option Str → Val
  | some s => .some (.bytes s)
  | none => .none

/-- The 39 statistics: the member of the public record and its name. -/
def statistics : List (String × (PlayerStats → Int)) :=
  [("minerals_current", (·.minerals_current)),
   ("vespene_current", (·.vespene_current)),
   ("minerals_collection_rate", (·.minerals_collection_rate)),
   ("vespene_collection_rate", (·.vespene_collection_rate)),
   ("workers_active_count", (·.workers_active_count)),
   ("minerals_used_in_progress_army", (·.minerals_used_in_progress_army)),
   ("minerals_used_in_progress_economy", (·.minerals_used_in_progress_economy)),
   ("minerals_used_in_progress_technology", (·.minerals_used_in_progress_technology)),
   ("vespene_used_in_progress_army", (·.vespene_used_in_progress_army)),
   ("vespene_used_in_progress_economy", (·.vespene_used_in_progress_economy)),
   ("vespene_used_in_progress_technology", (·.vespene_used_in_progress_technology)),
   ("minerals_used_current_army", (·.minerals_used_current_army)),
   ("minerals_used_current_economy", (·.minerals_used_current_economy)),
   ("minerals_used_current_technology", (·.minerals_used_current_technology)),
   ("vespene_used_current_army", (·.vespene_used_current_army)),
   ("vespene_used_current_economy", (·.vespene_used_current_economy)),
   ("vespene_used_current_technology", (·.vespene_used_current_technology)),
   ("minerals_lost_army", (·.minerals_lost_army)),
   ("minerals_lost_economy", (·.minerals_lost_economy)),
   ("minerals_lost_technology", (·.minerals_lost_technology)),
   ("vespene_lost_army", (·.vespene_lost_army)),
   ("vespene_lost_economy", (·.vespene_lost_economy)),
   ("vespene_lost_technology", (·.vespene_lost_technology)),
   ("minerals_killed_army", (·.minerals_killed_army)),
   ("minerals_killed_economy", (·.minerals_killed_economy)),
   ("minerals_killed_technology", (·.minerals_killed_technology)),
   ("vespene_killed_army", (·.vespene_killed_army)),
   ("vespene_killed_economy", (·.vespene_killed_economy)),
   ("vespene_killed_technology", (·.vespene_killed_technology)),
   ("food_used", (·.food_used)),
   ("food_made", (·.food_made)),
   ("minerals_used_active_forces", (·.minerals_used_active_forces)),
   ("vespene_used_active_forces", (·.vespene_used_active_forces)),
   ("minerals_friendly_fire_army", (·.minerals_friendly_fire_army)),
   ("minerals_friendly_fire_economy", (·.minerals_friendly_fire_economy)),
   ("minerals_friendly_fire_technology", (·.minerals_friendly_fire_technology)),
   ("vespene_friendly_fire_army", (·.vespene_friendly_fire_army)),
   ("vespene_friendly_fire_economy", (·.vespene_friendly_fire_economy)),
   ("vespene_friendly_fire_technology", (·.vespene_friendly_fire_technology))]

/-- Supply is transmitted in units of 1/4096. -/
def supplyStats : List String := ["food_used", "food_made"]

open P87702.ByteAligned in
/-- The public event `e` says what the decoded wire event `v` says: same kind, and every member has the value
of the wire field of that name; texts are the same bytes and are valid UTF-8 (an upgrade name that is not is
shown in its escaped form). -/
def TrackerFields (e : TrackerEvt) (v : Val) : Prop :=
  match e with
  | .playerStats p st => ∃ w s, v = .choice 0 w ∧ wireField ReplayTrackerSPlayerStatsEvent w "m_player_id" = some (.int p) ∧
      wireField ReplayTrackerSPlayerStatsEvent w "m_stats" = some s ∧
      ∀ q ∈ statistics, ∃ x, wireField ReplayTrackerSPlayerStats s ("m_score_value_" ++ q.1) = some (.int x) ∧
        q.2 st = if q.1 ∈ supplyStats then x.tdiv 4096 else x
  | .unitBorn e => ∃ w, v = .choice 1 w ∧
      wireField ReplayTrackerSUnitBornEvent w "m_unit_tag_index" = some (.int e.unitTagIndex) ∧
      wireField ReplayTrackerSUnitBornEvent w "m_unit_tag_recycle" = some (.int e.unitTagRecycle) ∧
      wireField ReplayTrackerSUnitBornEvent w "m_unit_type_name" = some (.bytes e.unitTypeName) ∧ utf8Ok e.unitTypeName = true ∧
      wireField ReplayTrackerSUnitBornEvent w "m_control_player_id" = some (.int e.controlPlayerId) ∧
      wireField ReplayTrackerSUnitBornEvent w "m_upkeep_player_id" = some (.int e.upkeepPlayerId) ∧
      wireField ReplayTrackerSUnitBornEvent w "m_x" = some (.int e.x) ∧ wireField ReplayTrackerSUnitBornEvent w "m_y" = some (.int e.y) ∧
      wireField ReplayTrackerSUnitBornEvent w "m_creator_unit_tag_index" = some (optNum e.creatorUnitTagIndex) ∧
      wireField ReplayTrackerSUnitBornEvent w "m_creator_unit_tag_recycle" = some (optNum e.creatorUnitTagRecycle) ∧
      wireField ReplayTrackerSUnitBornEvent w "m_creator_ability_name" = some (optText e.creatorAbilityName) ∧
      ∀ s, e.creatorAbilityName = some s → utf8Ok s = true
  | .unitDied e => ∃ w, v = .choice 2 w ∧
      wireField ReplayTrackerSUnitDiedEvent w "m_unit_tag_index" = some (.int e.unitTagIndex) ∧
      wireField ReplayTrackerSUnitDiedEvent w "m_unit_tag_recycle" = some (.int e.unitTagRecycle) ∧
      wireField ReplayTrackerSUnitDiedEvent w "m_killer_player_id" = some (optNum e.killerPlayerId) ∧
      wireField ReplayTrackerSUnitDiedEvent w "m_x" = some (.int e.x) ∧ wireField ReplayTrackerSUnitDiedEvent w "m_y" = some (.int e.y) ∧
      wireField ReplayTrackerSUnitDiedEvent w "m_killer_unit_tag_index" = some (optNum e.killerUnitTagIndex) ∧
      wireField ReplayTrackerSUnitDiedEvent w "m_killer_unit_tag_recycle" = some (optNum e.killerUnitTagRecycle)
  | .unitOwnerChange e => ∃ w, v = .choice 3 w ∧
      wireField ReplayTrackerSUnitOwnerChangeEvent w "m_unit_tag_index" = some (.int e.unitTagIndex) ∧
      wireField ReplayTrackerSUnitOwnerChangeEvent w "m_unit_tag_recycle" = some (.int e.unitTagRecycle) ∧
      wireField ReplayTrackerSUnitOwnerChangeEvent w "m_control_player_id" = some (.int e.controlPlayerId) ∧
      wireField ReplayTrackerSUnitOwnerChangeEvent w "m_upkeep_player_id" = some (.int e.upkeepPlayerId)
  | .unitTypeChange e => ∃ w, v = .choice 4 w ∧
      wireField ReplayTrackerSUnitTypeChangeEvent w "m_unit_tag_index" = some (.int e.unitTagIndex) ∧
      wireField ReplayTrackerSUnitTypeChangeEvent w "m_unit_tag_recycle" = some (.int e.unitTagRecycle) ∧
      wireField ReplayTrackerSUnitTypeChangeEvent w "m_unit_type_name" = some (.bytes e.unitTypeName) ∧ utf8Ok e.unitTypeName = true
  | .upgrade e => ∃ w name, v = .choice 5 w ∧
      wireField ReplayTrackerSUpgradeEvent w "m_player_id" = some (.int e.playerId) ∧
      wireField ReplayTrackerSUpgradeEvent w "m_upgrade_type_name" = some (.bytes name) ∧
      e.upgradeTypeName = (if utf8Ok name then name else debugBytes name) ∧
      wireField ReplayTrackerSUpgradeEvent w "m_count" = some (.int e.count) ∧ e.playerName = none
  | .unitInit e => ∃ w, v = .choice 6 w ∧
      wireField ReplayTrackerSUnitInitEvent w "m_unit_tag_index" = some (.int e.unitTagIndex) ∧
      wireField ReplayTrackerSUnitInitEvent w "m_unit_tag_recycle" = some (.int e.unitTagRecycle) ∧
      wireField ReplayTrackerSUnitInitEvent w "m_unit_type_name" = some (.bytes e.unitTypeName) ∧ utf8Ok e.unitTypeName = true ∧
      wireField ReplayTrackerSUnitInitEvent w "m_control_player_id" = some (.int e.controlPlayerId) ∧
      wireField ReplayTrackerSUnitInitEvent w "m_upkeep_player_id" = some (.int e.upkeepPlayerId) ∧
      wireField ReplayTrackerSUnitInitEvent w "m_x" = some (.int e.x) ∧ wireField ReplayTrackerSUnitInitEvent w "m_y" = some (.int e.y)
  | .unitDone e => ∃ w, v = .choice 7 w ∧
      wireField ReplayTrackerSUnitDoneEvent w "m_unit_tag_index" = some (.int e.unitTagIndex) ∧
      wireField ReplayTrackerSUnitDoneEvent w "m_unit_tag_recycle" = some (.int e.unitTagRecycle)
  | .unitPosition e => ∃ w, v = .choice 8 w ∧
      wireField ReplayTrackerSUnitPositionsEvent w "m_first_unit_index" = some (.int e.firstUnitIndex) ∧
      wireField ReplayTrackerSUnitPositionsEvent w "m_items" = some (.list (e.items.map .int))
  | .playerSetup e => ∃ w, v = .choice 9 w ∧
      wireField ReplayTrackerSPlayerSetupEvent w "m_player_id" = some (.int e.playerId) ∧
      wireField ReplayTrackerSPlayerSetupEvent w "m_type" = some (.int e.type) ∧
      wireField ReplayTrackerSPlayerSetupEvent w "m_user_id" = some (optNum e.userId) ∧
      wireField ReplayTrackerSPlayerSetupEvent w "m_slot_id" = some (optNum e.slotId)

end S2
