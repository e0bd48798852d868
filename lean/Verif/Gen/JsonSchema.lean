import Verif.Misc.Json
/-!
# The serialized structs and enums

Generated by tools/gen_json.py: every struct and enum reachable from `VersionedBalanceUnit`, `SC2EventIteratorItem`, `SC2EventIterator`, `TrackerEvent`, `GameEvent`, `MessageEvent`, `Details`, `InitData`, with its fields in
declaration order (serialized name, serde attribute, type).  `Box` is transparent, type aliases are resolved.
-/
namespace S2.Json

/-- `Meta` (/repo/src/game_events/ability/balance_data/mod.rs:82-99). -/
def jMeta : JTy := .struct (
  .cons "@name" .required .string <|
  .cons "@tooltip" .required .string <|
  .cons "@icon" .required (.opt .string) <|
  .cons "@race" .required (.opt .string) <|
  .cons "@hotkey" .required (.opt .string) <|
  .cons "@source" .required (.opt .string) <|
  .cons "@index" .required (.opt (.uint 32)) <|
  .cons "@type" .required (.opt .string) <|
  .nil)

/-- `Life` (/repo/src/game_events/ability/balance_data/mod.rs:104-111). -/
def jLife : JTy := .struct (
  .cons "@start" .required (.uint 32) <|
  .cons "@max" .required (.uint 32) <|
  .cons "@regenRate" .required (.opt .f32) <|
  .nil)

/-- `Shields` (/repo/src/game_events/ability/balance_data/mod.rs:116-125). -/
def jShields : JTy := .struct (
  .cons "@start" .required (.uint 32) <|
  .cons "@max" .required (.uint 32) <|
  .cons "@regenRate" .required .f32 <|
  .cons "@delay" .default (.opt .f32) <|
  .nil)

/-- `Armor` (/repo/src/game_events/ability/balance_data/mod.rs:130-135). -/
def jArmor : JTy := .struct (
  .cons "@start" .required (.uint 32) <|
  .cons "@max" .required (.uint 32) <|
  .nil)

/-- `ShieldArmor` (/repo/src/game_events/ability/balance_data/mod.rs:213-218). -/
def jShieldArmor : JTy := .struct (
  .cons "@start" .required (.uint 32) <|
  .cons "@max" .required (.uint 32) <|
  .nil)

/-- `UnitShortRef` (/repo/src/game_events/ability/balance_data/mod.rs:142-147). -/
def jUnitShortRef : JTy := .struct (
  .cons "@id" .required .string <|
  .cons "@name" .required .string <|
  .nil)

/-- `RequiresTag` (/repo/src/game_events/ability/balance_data/mod.rs:425-428). -/
def jRequiresTag : JTy := .struct (
  .cons "unit" .default (.list jUnitShortRef) <|
  .nil)

/-- `Cost` (/repo/src/game_events/ability/balance_data/mod.rs:176-191). -/
def jCost : JTy := .struct (
  .cons "@minerals" .required (.opt (.uint 32)) <|
  .cons "@vespene" .required (.opt (.uint 32)) <|
  .cons "@supply" .required (.opt .f32) <|
  .cons "@time" .required (.opt .f32) <|
  .cons "@energy" .required (.opt (.uint 32)) <|
  .cons "@cooldown" .required (.opt .f32) <|
  .cons "@life" .required (.opt (.uint 32)) <|
  .nil)

/-- `ResearchUpgrade` (/repo/src/game_events/ability/balance_data/mod.rs:403-414). -/
def jResearchUpgrade : JTy := .struct (
  .cons "@id" .required .string <|
  .cons "@ability" .required (.uint 16) <|
  .cons "@index" .required (.sint 64) <|
  .cons "meta" .required jMeta <|
  .cons "cost" .required jCost <|
  .nil)

/-- `ResearchesTag` (/repo/src/game_events/ability/balance_data/mod.rs:418-421). -/
def jResearchesTag : JTy := .struct (
  .cons "upgrade" .default (.list jResearchUpgrade) <|
  .nil)

/-- `Movement` (/repo/src/game_events/ability/balance_data/mod.rs:196-207). -/
def jMovement : JTy := .struct (
  .cons "@type" .required .string <|
  .cons "@speed" .required .f32 <|
  .cons "@acceleration" .required .f32 <|
  .cons "@deceleration" .required .f32 <|
  .cons "@turnRate" .default (.opt .f32) <|
  .nil)

/-- `Score` (/repo/src/game_events/ability/balance_data/mod.rs:223-228). -/
def jScore : JTy := .struct (
  .cons "@build" .required (.opt (.uint 32)) <|
  .cons "@kill" .required (.opt (.uint 32)) <|
  .nil)

/-- `Misc` (/repo/src/game_events/ability/balance_data/mod.rs:233-254). -/
def jMisc : JTy := .struct (
  .cons "@radius" .required (.opt .f32) <|
  .cons "@cargoSize" .required (.opt (.uint 32)) <|
  .cons "@footprint" .required (.opt .string) <|
  .cons "@sightRadius" .required (.opt .f32) <|
  .cons "@supply" .required (.opt .f32) <|
  .cons "@range" .required (.opt .f32) <|
  .cons "@speed" .required (.opt .f32) <|
  .cons "@targets" .required (.opt .string) <|
  .cons "@count" .required (.opt (.uint 32)) <|
  .cons "@cargoCapacity" .required (.opt (.uint 32)) <|
  .nil)

/-- `Producer` (/repo/src/game_events/ability/balance_data/mod.rs:259-264). -/
def jProducer : JTy := .struct (
  .cons "@id" .required .string <|
  .cons "@name" .required .string <|
  .nil)

/-- `Attribute` (/repo/src/game_events/ability/balance_data/mod.rs:325-328). -/
def jAttribute : JTy := .struct (
  .cons "@type" .required (.opt .string) <|
  .nil)

/-- `AttributesTag` (/repo/src/game_events/ability/balance_data/mod.rs:432-435). -/
def jAttributesTag : JTy := .struct (
  .cons "attribute" .default (.list jAttribute) <|
  .nil)

/-- `StrengthsTag` (/repo/src/game_events/ability/balance_data/mod.rs:438-441). -/
def jStrengthsTag : JTy := .struct (
  .cons "unit" .default (.list jUnitShortRef) <|
  .nil)

/-- `WeaknessesTag` (/repo/src/game_events/ability/balance_data/mod.rs:444-447). -/
def jWeaknessesTag : JTy := .struct (
  .cons "unit" .default (.list jUnitShortRef) <|
  .nil)

/-- `EffectBonus` (/repo/src/game_events/ability/balance_data/mod.rs:269-276). -/
def jEffectBonus : JTy := .struct (
  .cons "@damage" .required (.uint 32) <|
  .cons "@max" .required (.uint 32) <|
  .cons "@type" .required (.opt .string) <|
  .nil)

/-- `Effect` (/repo/src/game_events/ability/balance_data/mod.rs:291-307). -/
def jEffect : JTy := .struct (
  .cons "@id" .required .string <|
  .cons "@index" .required (.uint 32) <|
  .cons "@radius" .required .f32 <|
  .cons "@damage" .required (.uint 32) <|
  .cons "@max" .required (.uint 32) <|
  .cons "@death" .required .string <|
  .cons "@kind" .required .string <|
  .cons "bonus" .required (.opt jEffectBonus) <|
  .nil)

/-- `Weapon` (/repo/src/game_events/ability/balance_data/mod.rs:312-320). -/
def jWeapon : JTy := .struct (
  .cons "@id" .required .string <|
  .cons "@index" .required (.uint 32) <|
  .cons "meta" .required jMeta <|
  .cons "misc" .required (.opt jMisc) <|
  .cons "score" .required (.opt jEffect) <|
  .nil)

/-- `WeaponsTag` (/repo/src/game_events/ability/balance_data/mod.rs:450-453). -/
def jWeaponsTag : JTy := .struct (
  .cons "weapon" .default (.list jWeapon) <|
  .nil)

/-- `Command` (/repo/src/game_events/ability/balance_data/mod.rs:333-341). -/
def jCommand : JTy := .struct (
  .cons "@id" .default (.opt .string) <|
  .cons "@index" .required (.sint 64) <|
  .cons "meta" .required jMeta <|
  .nil)

/-- `Ability` (/repo/src/game_events/ability/balance_data/mod.rs:346-354). -/
def jAbility : JTy := .struct (
  .cons "@id" .required .string <|
  .cons "@index" .required (.opt (.uint 16)) <|
  .cons "command" .default (.list jCommand) <|
  .nil)

/-- `AbilitiesTag` (/repo/src/game_events/ability/balance_data/mod.rs:456-459). -/
def jAbilitiesTag : JTy := .struct (
  .cons "ability" .default (.list jAbility) <|
  .nil)

/-- `UnitRef` (/repo/src/game_events/ability/balance_data/mod.rs:156-171). -/
def jUnitRef : JTy := .struct (
  .cons "@id" .required .string <|
  .cons "@name" .required (.opt .string) <|
  .cons "@ability" .required (.opt (.uint 16)) <|
  .cons "@index" .required (.opt (.sint 64)) <|
  .cons "meta" .required (.opt jMeta) <|
  .cons "cost" .required (.opt jCost) <|
  .cons "requires" .default jRequiresTag <|
  .nil)

/-- `BuildsTag` (/repo/src/game_events/ability/balance_data/mod.rs:468-471). -/
def jBuildsTag : JTy := .struct (
  .cons "unit" .default (.list jUnitRef) <|
  .nil)

/-- `TrainsTag` (/repo/src/game_events/ability/balance_data/mod.rs:462-465). -/
def jTrainsTag : JTy := .struct (
  .cons "unit" .default (.list jUnitRef) <|
  .nil)

/-- `UpgradeRef` (/repo/src/game_events/ability/balance_data/mod.rs:359-364). -/
def jUpgradeRef : JTy := .struct (
  .cons "@id" .default .string <|
  .cons "@name" .required .string <|
  .nil)

/-- `UpgradeLevelRequirement` (/repo/src/game_events/ability/balance_data/mod.rs:369-374). -/
def jUpgradeLevelRequirement : JTy := .struct (
  .cons "unit" .default (.list jUnitShortRef) <|
  .cons "upgrade" .default (.list jUpgradeRef) <|
  .nil)

/-- `UpgradeLevel` (/repo/src/game_events/ability/balance_data/mod.rs:380-389). -/
def jUpgradeLevel : JTy := .struct (
  .cons "@id" .default .string <|
  .cons "@index" .default (.uint 32) <|
  .cons "meta" .required jMeta <|
  .cons "requires" .default (.list jUpgradeLevelRequirement) <|
  .cons "cost" .required jCost <|
  .nil)

/-- `Upgrade` (/repo/src/game_events/ability/balance_data/mod.rs:394-399). -/
def jUpgrade : JTy := .struct (
  .cons "@id" .required .string <|
  .cons "level" .default (.list jUpgradeLevel) <|
  .nil)

/-- `UpgradesTag` (/repo/src/game_events/ability/balance_data/mod.rs:474-477). -/
def jUpgradesTag : JTy := .struct (
  .cons "upgrade" .default (.list jUpgrade) <|
  .nil)

/-- `VersionedBalanceUnit` (/repo/src/game_events/ability/balance_data/mod.rs:485-524). -/
def jVersionedBalanceUnit : JTy := .struct (
  .cons "@id" .required .string <|
  .cons "version" .skip (.uint 32) <|
  .cons "meta" .required jMeta <|
  .cons "life" .required jLife <|
  .cons "shields" .default (.opt jShields) <|
  .cons "armor" .required jArmor <|
  .cons "shieldArmor" .required jShieldArmor <|
  .cons "requires" .default jRequiresTag <|
  .cons "cost" .required (.opt jCost) <|
  .cons "researches" .default (.opt jResearchesTag) <|
  .cons "movement" .default (.opt jMovement) <|
  .cons "score" .required jScore <|
  .cons "misc" .required jMisc <|
  .cons "producer" .default (.opt jProducer) <|
  .cons "attributes" .default jAttributesTag <|
  .cons "strengths" .default jStrengthsTag <|
  .cons "weaknesses" .default jWeaknessesTag <|
  .cons "weapons" .default jWeaponsTag <|
  .cons "abilities" .default jAbilitiesTag <|
  .cons "builds" .default jBuildsTag <|
  .cons "trains" .default jTrainsTag <|
  .cons "upgrades" .default jUpgradesTag <|
  .nil)

/-- `PlayerStats` (/repo/src/tracker_events/player_stats.rs:39-79). -/
def jPlayerStats : JTy := .struct (
  .cons "minerals_current" .required (.sint 32) <|
  .cons "vespene_current" .required (.sint 32) <|
  .cons "minerals_collection_rate" .required (.sint 32) <|
  .cons "vespene_collection_rate" .required (.sint 32) <|
  .cons "workers_active_count" .required (.sint 32) <|
  .cons "minerals_used_in_progress_army" .required (.sint 32) <|
  .cons "minerals_used_in_progress_economy" .required (.sint 32) <|
  .cons "minerals_used_in_progress_technology" .required (.sint 32) <|
  .cons "vespene_used_in_progress_army" .required (.sint 32) <|
  .cons "vespene_used_in_progress_economy" .required (.sint 32) <|
  .cons "vespene_used_in_progress_technology" .required (.sint 32) <|
  .cons "minerals_used_current_army" .required (.sint 32) <|
  .cons "minerals_used_current_economy" .required (.sint 32) <|
  .cons "minerals_used_current_technology" .required (.sint 32) <|
  .cons "vespene_used_current_army" .required (.sint 32) <|
  .cons "vespene_used_current_economy" .required (.sint 32) <|
  .cons "vespene_used_current_technology" .required (.sint 32) <|
  .cons "minerals_lost_army" .required (.sint 32) <|
  .cons "minerals_lost_economy" .required (.sint 32) <|
  .cons "minerals_lost_technology" .required (.sint 32) <|
  .cons "vespene_lost_army" .required (.sint 32) <|
  .cons "vespene_lost_economy" .required (.sint 32) <|
  .cons "vespene_lost_technology" .required (.sint 32) <|
  .cons "minerals_killed_army" .required (.sint 32) <|
  .cons "minerals_killed_economy" .required (.sint 32) <|
  .cons "minerals_killed_technology" .required (.sint 32) <|
  .cons "vespene_killed_army" .required (.sint 32) <|
  .cons "vespene_killed_economy" .required (.sint 32) <|
  .cons "vespene_killed_technology" .required (.sint 32) <|
  .cons "food_used" .required (.sint 32) <|
  .cons "food_made" .required (.sint 32) <|
  .cons "minerals_used_active_forces" .required (.sint 32) <|
  .cons "vespene_used_active_forces" .required (.sint 32) <|
  .cons "minerals_friendly_fire_army" .required (.sint 32) <|
  .cons "minerals_friendly_fire_economy" .required (.sint 32) <|
  .cons "minerals_friendly_fire_technology" .required (.sint 32) <|
  .cons "vespene_friendly_fire_army" .required (.sint 32) <|
  .cons "vespene_friendly_fire_economy" .required (.sint 32) <|
  .cons "vespene_friendly_fire_technology" .required (.sint 32) <|
  .nil)

/-- `PlayerStatsEvent` (/repo/src/tracker_events/player_stats.rs:15-18). -/
def jPlayerStatsEvent : JTy := .struct (
  .cons "player_id" .required (.uint 8) <|
  .cons "stats" .required jPlayerStats <|
  .nil)

/-- `UnitBornEvent` (/repo/src/tracker_events/unit_born.rs:16-27). -/
def jUnitBornEvent : JTy := .struct (
  .cons "unit_tag_index" .required (.uint 32) <|
  .cons "unit_tag_recycle" .required (.uint 32) <|
  .cons "unit_type_name" .required .string <|
  .cons "control_player_id" .required (.uint 8) <|
  .cons "upkeep_player_id" .required (.uint 8) <|
  .cons "x" .required (.uint 8) <|
  .cons "y" .required (.uint 8) <|
  .cons "creator_unit_tag_index" .required (.opt (.uint 32)) <|
  .cons "creator_unit_tag_recycle" .required (.opt (.uint 32)) <|
  .cons "creator_ability_name" .required (.opt .string) <|
  .nil)

/-- `UnitDiedEvent` (/repo/src/tracker_events/unit_died.rs:16-24). -/
def jUnitDiedEvent : JTy := .struct (
  .cons "unit_tag_index" .required (.uint 32) <|
  .cons "unit_tag_recycle" .required (.uint 32) <|
  .cons "killer_player_id" .required (.opt (.uint 8)) <|
  .cons "x" .required (.uint 8) <|
  .cons "y" .required (.uint 8) <|
  .cons "killer_unit_tag_index" .required (.opt (.uint 32)) <|
  .cons "killer_unit_tag_recycle" .required (.opt (.uint 32)) <|
  .nil)

/-- `UnitOwnerChangeEvent` (/repo/src/tracker_events/unit_owner_change.rs:14-19). -/
def jUnitOwnerChangeEvent : JTy := .struct (
  .cons "unit_tag_index" .required (.uint 32) <|
  .cons "unit_tag_recycle" .required (.uint 32) <|
  .cons "control_player_id" .required (.uint 8) <|
  .cons "upkeep_player_id" .required (.uint 8) <|
  .nil)

/-- `UnitTypeChangeEvent` (/repo/src/tracker_events/unit_type_change.rs:14-18). -/
def jUnitTypeChangeEvent : JTy := .struct (
  .cons "unit_tag_index" .required (.uint 32) <|
  .cons "unit_tag_recycle" .required (.uint 32) <|
  .cons "unit_type_name" .required .string <|
  .nil)

/-- `UpgradeEvent` (/repo/src/tracker_events/player_upgrade.rs:14-19). -/
def jUpgradeEvent : JTy := .struct (
  .cons "player_id" .required (.uint 8) <|
  .cons "player_name" .required (.opt .string) <|
  .cons "upgrade_type_name" .required .string <|
  .cons "count" .required (.sint 32) <|
  .nil)

/-- `UnitInitEvent` (/repo/src/tracker_events/unit_init.rs:15-23). -/
def jUnitInitEvent : JTy := .struct (
  .cons "unit_tag_index" .required (.uint 32) <|
  .cons "unit_tag_recycle" .required (.uint 32) <|
  .cons "unit_type_name" .required .string <|
  .cons "control_player_id" .required (.uint 8) <|
  .cons "upkeep_player_id" .required (.uint 8) <|
  .cons "x" .required (.uint 8) <|
  .cons "y" .required (.uint 8) <|
  .nil)

/-- `UnitDoneEvent` (/repo/src/tracker_events/unit_done.rs:15-18). -/
def jUnitDoneEvent : JTy := .struct (
  .cons "unit_tag_index" .required (.uint 32) <|
  .cons "unit_tag_recycle" .required (.uint 32) <|
  .nil)

/-- `UnitPositionsEvent` (/repo/src/tracker_events/unit_positions.rs:31-34). -/
def jUnitPositionsEvent : JTy := .struct (
  .cons "first_unit_index" .required (.uint 32) <|
  .cons "items" .required (.list (.sint 32)) <|
  .nil)

/-- `PlayerSetupEvent` (/repo/src/tracker_events/player_setup.rs:14-19). -/
def jPlayerSetupEvent : JTy := .struct (
  .cons "player_id" .required (.uint 8) <|
  .cons "m_type" .required (.uint 32) <|
  .cons "user_id" .required (.opt (.uint 32)) <|
  .cons "slot_id" .required (.opt (.uint 32)) <|
  .nil)

/-- `ReplayTrackerEvent` (/repo/src/tracker_events/mod.rs:60-71). -/
def jReplayTrackerEvent : JTy := .enum (
  .newtype "PlayerStats" jPlayerStatsEvent <|
  .newtype "UnitBorn" jUnitBornEvent <|
  .newtype "UnitDied" jUnitDiedEvent <|
  .newtype "UnitOwnerChange" jUnitOwnerChangeEvent <|
  .newtype "UnitTypeChange" jUnitTypeChangeEvent <|
  .newtype "Upgrade" jUpgradeEvent <|
  .newtype "UnitInit" jUnitInitEvent <|
  .newtype "UnitDone" jUnitDoneEvent <|
  .newtype "UnitPosition" jUnitPositionsEvent <|
  .newtype "PlayerSetup" jPlayerSetupEvent <|
  .nil)

/-- `ELeaveReason` (/repo/src/game_events/mod.rs:99-116). -/
def jELeaveReason : JTy := .enum (
  .unit "UserLeft" <|
  .unit "UserDropped" <|
  .unit "UserBanned" <|
  .unit "UserVictory" <|
  .unit "UserDefeat" <|
  .unit "UserTied" <|
  .unit "UserDesynced" <|
  .unit "UserOutOfTime" <|
  .unit "WeWereUnresponsive" <|
  .unit "WeContinuedAlone" <|
  .unit "ReplayDesynced" <|
  .unit "UserTimeout" <|
  .unit "UserDisconnected" <|
  .unit "Unrecoverable" <|
  .unit "UserCatchupDesynced" <|
  .unit "TakeCommandDropped" <|
  .nil)

/-- `DropUserEvent` (/repo/src/game_events/mod.rs:123-126). -/
def jDropUserEvent : JTy := .struct (
  .cons "m_drop_session_user_id" .required (.uint 8) <|
  .cons "m_reason" .required jELeaveReason <|
  .nil)

/-- `GameSPointMini` (/repo/src/game_events/mod.rs:157-160). -/
def jGameSPointMini : JTy := .struct (
  .cons "x" .required (.sint 64) <|
  .cons "y" .required (.sint 64) <|
  .nil)

/-- `CameraSaveEvent` (/repo/src/game_events/mod.rs:133-136). -/
def jCameraSaveEvent : JTy := .struct (
  .cons "m_which" .required (.sint 64) <|
  .cons "m_target" .required jGameSPointMini <|
  .nil)

/-- `GameSCmdAbil` (/repo/src/game_events/mod.rs:181-186). -/
def jGameSCmdAbil : JTy := .struct (
  .cons "m_abil_link" .required (.uint 16) <|
  .cons "ability" .required .string <|
  .cons "m_abil_cmd_index" .required (.sint 64) <|
  .cons "m_abil_cmd_data" .required (.opt (.uint 8)) <|
  .nil)

/-- `GameSMapCoord3D` (/repo/src/game_events/mod.rs:206-210). -/
def jGameSMapCoord3D : JTy := .struct (
  .cons "x" .required (.sint 64) <|
  .cons "y" .required (.sint 64) <|
  .cons "z" .required (.sint 32) <|
  .nil)

/-- `GameSCmdDataTargetUnit` (/repo/src/game_events/mod.rs:217-225). -/
def jGameSCmdDataTargetUnit : JTy := .struct (
  .cons "m_target_unit_flags" .required (.uint 16) <|
  .cons "m_timer" .required (.uint 8) <|
  .cons "m_tag" .required (.uint 32) <|
  .cons "m_snapshot_unit_link" .required (.uint 16) <|
  .cons "m_snapshot_control_player_id" .required (.opt (.sint 64)) <|
  .cons "m_snapshot_upkeep_player_id" .required (.opt (.sint 64)) <|
  .cons "m_snapshot_point" .required jGameSMapCoord3D <|
  .nil)

/-- `GameSCmdData` (/repo/src/game_events/mod.rs:194-199). -/
def jGameSCmdData : JTy := .enum (
  .unit "None" <|
  .newtype "TargetPoint" jGameSMapCoord3D <|
  .newtype "TargetUnit" jGameSCmdDataTargetUnit <|
  .newtype "Data" (.uint 32) <|
  .nil)

/-- `GameSCmdEvent` (/repo/src/game_events/mod.rs:167-174). -/
def jGameSCmdEvent : JTy := .struct (
  .cons "m_cmd_flags" .required (.sint 64) <|
  .cons "m_abil" .required (.opt jGameSCmdAbil) <|
  .cons "m_data" .required jGameSCmdData <|
  .cons "m_sequence" .required (.sint 64) <|
  .cons "m_other_unit" .required (.opt (.uint 32)) <|
  .cons "m_unit_group" .required (.opt (.uint 32)) <|
  .nil)

/-- `GameSelectionMaskType` (/repo/src/game_events/mod.rs:354-356). -/
def jGameSelectionMaskType : JTy := .struct (
  .cons "value" .required (.list (.uint 8)) <|
  .nil)

/-- `GameSelectionIndexArrayType` (/repo/src/game_events/mod.rs:363-365). -/
def jGameSelectionIndexArrayType : JTy := .struct (
  .cons "value" .required (.list (.uint 16)) <|
  .nil)

/-- `GameSSelectionMask` (/repo/src/game_events/mod.rs:342-347). -/
def jGameSSelectionMask : JTy := .enum (
  .unit "None" <|
  .newtype "Mask" jGameSelectionMaskType <|
  .newtype "OneIndices" jGameSelectionIndexArrayType <|
  .newtype "ZeroIndices" jGameSelectionIndexArrayType <|
  .nil)

/-- `GameSSelectionDeltaSubgroup` (/repo/src/game_events/mod.rs:329-334). -/
def jGameSSelectionDeltaSubgroup : JTy := .struct (
  .cons "m_unit_link" .required (.uint 16) <|
  .cons "m_subgroup_priority" .required (.uint 8) <|
  .cons "m_intra_subgroup_priority" .required (.uint 8) <|
  .cons "m_count" .required (.uint 16) <|
  .nil)

/-- `GameSSelectionDelta` (/repo/src/game_events/mod.rs:317-322). -/
def jGameSSelectionDelta : JTy := .struct (
  .cons "m_subgroup_index" .required (.uint 16) <|
  .cons "m_remove_mask" .required jGameSSelectionMask <|
  .cons "m_add_subgroups" .required (.list jGameSSelectionDeltaSubgroup) <|
  .cons "m_add_unit_tags" .required (.list (.uint 32)) <|
  .nil)

/-- `GameSSelectionDeltaEvent` (/repo/src/game_events/mod.rs:308-311). -/
def jGameSSelectionDeltaEvent : JTy := .struct (
  .cons "m_control_group_id" .required (.uint 8) <|
  .cons "m_delta" .required jGameSSelectionDelta <|
  .nil)

/-- `GameEControlGroupUpdate` (/repo/src/game_events/mod.rs:408-415). -/
def jGameEControlGroupUpdate : JTy := .enum (
  .unit "ESet" <|
  .unit "EAppend" <|
  .unit "ERecall" <|
  .unit "EClear" <|
  .unit "ESetAndSteal" <|
  .unit "EAppendAndSteal" <|
  .nil)

/-- `GameSControlGroupUpdateEvent` (/repo/src/game_events/mod.rs:396-400). -/
def jGameSControlGroupUpdateEvent : JTy := .struct (
  .cons "m_control_group_index" .required (.uint 8) <|
  .cons "m_control_group_update" .required jGameEControlGroupUpdate <|
  .cons "m_mask" .required jGameSSelectionMask <|
  .nil)

/-- `GameSSelectionSyncData` (/repo/src/game_events/mod.rs:382-389). -/
def jGameSSelectionSyncData : JTy := .struct (
  .cons "m_count" .required (.uint 16) <|
  .cons "m_subgroup_count" .required (.uint 16) <|
  .cons "m_active_subgroup_index" .required (.uint 16) <|
  .cons "m_unit_tags_checksum" .required (.uint 32) <|
  .cons "m_subgroup_indices_checksum" .required (.uint 32) <|
  .cons "m_subgroups_checksum" .required (.uint 32) <|
  .nil)

/-- `GameSSelectionSyncCheckEvent` (/repo/src/game_events/mod.rs:372-375). -/
def jGameSSelectionSyncCheckEvent : JTy := .struct (
  .cons "m_control_group_id" .required (.uint 8) <|
  .cons "m_selection_sync_data" .required jGameSSelectionSyncData <|
  .nil)

/-- `GameSTriggerChatMessageEvent` (/repo/src/game_events/mod.rs:422-424). -/
def jGameSTriggerChatMessageEvent : JTy := .struct (
  .cons "m_chat_message" .required .string <|
  .nil)

/-- `GameSUnitClickEvent` (/repo/src/game_events/mod.rs:290-292). -/
def jGameSUnitClickEvent : JTy := .struct (
  .cons "m_unit_tag" .required (.uint 32) <|
  .nil)

/-- `GameSUnitHighlightEvent` (/repo/src/game_events/mod.rs:299-302). -/
def jGameSUnitHighlightEvent : JTy := .struct (
  .cons "m_unit_tag" .required (.uint 32) <|
  .cons "m_flags" .required (.uint 8) <|
  .nil)

/-- `GameSTriggerReplySelectedEvent` (/repo/src/game_events/mod.rs:431-434). -/
def jGameSTriggerReplySelectedEvent : JTy := .struct (
  .cons "m_conversation_id" .required (.sint 32) <|
  .cons "m_reply_id" .required (.sint 32) <|
  .nil)

/-- `CameraUpdateEvent` (/repo/src/game_events/mod.rs:143-150). -/
def jCameraUpdateEvent : JTy := .struct (
  .cons "m_target" .required (.opt jGameSPointMini) <|
  .cons "m_distance" .required (.opt (.sint 64)) <|
  .cons "m_pitch" .required (.opt (.sint 64)) <|
  .cons "m_yaw" .required (.opt (.sint 64)) <|
  .cons "m_reason" .required (.opt (.sint 8)) <|
  .cons "m_follow" .required .bool <|
  .nil)

/-- `GameSuiCoord` (/repo/src/game_events/mod.rs:271-274). -/
def jGameSuiCoord : JTy := .struct (
  .cons "x" .required (.uint 16) <|
  .cons "y" .required (.uint 16) <|
  .nil)

/-- `GameSTriggerMouseClickedEvent` (/repo/src/game_events/mod.rs:249-255). -/
def jGameSTriggerMouseClickedEvent : JTy := .struct (
  .cons "m_button" .required (.uint 32) <|
  .cons "m_down" .required .bool <|
  .cons "m_pos_ui" .required jGameSuiCoord <|
  .cons "m_pos_world" .required jGameSMapCoord3D <|
  .cons "m_flags" .required (.sint 8) <|
  .nil)

/-- `GameSTriggerMouseMovedEvent` (/repo/src/game_events/mod.rs:261-265). -/
def jGameSTriggerMouseMovedEvent : JTy := .struct (
  .cons "m_pos_ui" .required jGameSuiCoord <|
  .cons "m_pos_world" .required jGameSMapCoord3D <|
  .cons "m_flags" .required (.sint 8) <|
  .nil)

/-- `GameSTriggerHotkeyPressedEvent` (/repo/src/game_events/mod.rs:441-444). -/
def jGameSTriggerHotkeyPressedEvent : JTy := .struct (
  .cons "m_hotkey" .required (.uint 32) <|
  .cons "m_down" .required .bool <|
  .nil)

/-- `GameSTriggerTargetModeUpdateEvent` (/repo/src/game_events/mod.rs:451-456). -/
def jGameSTriggerTargetModeUpdateEvent : JTy := .struct (
  .cons "m_abil_link" .required (.uint 16) <|
  .cons "ability" .required .string <|
  .cons "m_abil_cmd_index" .required (.sint 64) <|
  .cons "m_state" .required (.sint 8) <|
  .nil)

/-- `GameSTriggerKeyPressedEvent` (/repo/src/game_events/mod.rs:463-466). -/
def jGameSTriggerKeyPressedEvent : JTy := .struct (
  .cons "m_key" .required (.sint 8) <|
  .cons "m_flags" .required (.sint 8) <|
  .nil)

/-- `GameSTriggerMouseWheelEvent` (/repo/src/game_events/mod.rs:280-283). -/
def jGameSTriggerMouseWheelEvent : JTy := .struct (
  .cons "m_wheel_spin" .required (.sint 16) <|
  .cons "m_flags" .required (.sint 8) <|
  .nil)

/-- `GameSTriggerButtonPressedEvent` (/repo/src/game_events/mod.rs:473-475). -/
def jGameSTriggerButtonPressedEvent : JTy := .struct (
  .cons "m_button" .required (.uint 16) <|
  .nil)

/-- `GameECommandManagerState` (/repo/src/game_events/mod.rs:492-496). -/
def jGameECommandManagerState : JTy := .enum (
  .unit "EFireDone" <|
  .unit "EFireOnce" <|
  .unit "EFireMany" <|
  .nil)

/-- `GameSCommandManagerStateEvent` (/repo/src/game_events/mod.rs:482-485). -/
def jGameSCommandManagerStateEvent : JTy := .struct (
  .cons "m_state" .required jGameECommandManagerState <|
  .cons "m_sequence" .required (.opt (.sint 64)) <|
  .nil)

/-- `GameSCmdUpdateTargetPointEvent` (/repo/src/game_events/mod.rs:232-234). -/
def jGameSCmdUpdateTargetPointEvent : JTy := .struct (
  .cons "m_target" .required jGameSMapCoord3D <|
  .nil)

/-- `GameSCmdUpdateTargetUnitEvent` (/repo/src/game_events/mod.rs:241-243). -/
def jGameSCmdUpdateTargetUnitEvent : JTy := .struct (
  .cons "m_target" .required jGameSCmdDataTargetUnit <|
  .nil)

/-- `ReplayGameEvent` (/repo/src/game_events/mod.rs:58-84). -/
def jReplayGameEvent : JTy := .enum (
  .newtype "DropUser" jDropUserEvent <|
  .newtype "CameraSave" jCameraSaveEvent <|
  .newtype "Cmd" jGameSCmdEvent <|
  .newtype "SelectionDelta" jGameSSelectionDeltaEvent <|
  .newtype "ControlGroupUpdate" jGameSControlGroupUpdateEvent <|
  .newtype "SelectionSyncCheck" jGameSSelectionSyncCheckEvent <|
  .newtype "TriggerChatMessage" jGameSTriggerChatMessageEvent <|
  .newtype "UnitClick" jGameSUnitClickEvent <|
  .newtype "UnitHighlight" jGameSUnitHighlightEvent <|
  .newtype "TriggerReplySelected" jGameSTriggerReplySelectedEvent <|
  .newtype "CameraUpdate" jCameraUpdateEvent <|
  .newtype "TriggerMouseClicked" jGameSTriggerMouseClickedEvent <|
  .newtype "TriggerMouseMoved" jGameSTriggerMouseMovedEvent <|
  .newtype "TriggerHotkeyPressed" jGameSTriggerHotkeyPressedEvent <|
  .newtype "TriggerTargetModeUpdate" jGameSTriggerTargetModeUpdateEvent <|
  .newtype "TriggerKeyPressed" jGameSTriggerKeyPressedEvent <|
  .newtype "TriggerMouseWheel" jGameSTriggerMouseWheelEvent <|
  .newtype "TriggerButtonPressed" jGameSTriggerButtonPressedEvent <|
  .newtype "CommandManagerState" jGameSCommandManagerStateEvent <|
  .newtype "CmdUpdateTargetPoint" jGameSCmdUpdateTargetPointEvent <|
  .newtype "CmdUpdateTargetUnit" jGameSCmdUpdateTargetUnitEvent <|
  .nil)

/-- `SC2EventType` (/repo/src/state/mod.rs:106-117). -/
def jSC2EventType : JTy := .enum (
  .fields "Tracker" (
    .cons "tracker_loop" .required (.sint 64) <|
    .cons "event" .required jReplayTrackerEvent <|
    .nil) <|
  .fields "Game" (
    .cons "game_loop" .required (.sint 64) <|
    .cons "user_id" .required (.sint 64) <|
    .cons "player_name" .required (.opt .string) <|
    .cons "event" .required jReplayGameEvent <|
    .nil) <|
  .nil)

/-- `Vec3D` (/repo/src/common.rs:28-28). -/
def jVec3D : JTy := (.array 3 .f32)

/-- `SC2UnitCmdAbil` (/repo/src/state/unit_cmd.rs:56-65). -/
def jSC2UnitCmdAbil : JTy := .struct (
  .cons "abil_link" .required (.uint 16) <|
  .cons "ability" .required .string <|
  .cons "abil_cmd_index" .required (.sint 64) <|
  .cons "abil_cmd_data" .required (.opt (.uint 8)) <|
  .nil)

/-- `SC2UnitCmdDataTargetUnit` (/repo/src/state/unit_cmd.rs:102-117). -/
def jSC2UnitCmdDataTargetUnit : JTy := .struct (
  .cons "target_unit_flags" .required (.uint 16) <|
  .cons "timer" .required (.uint 8) <|
  .cons "tag" .required (.uint 32) <|
  .cons "snapshot_unit_link" .required (.uint 16) <|
  .cons "snapshot_control_player_id" .required (.opt (.sint 64)) <|
  .cons "snapshot_upkeep_player_id" .required (.opt (.sint 64)) <|
  .cons "snapshot_point" .required jVec3D <|
  .nil)

/-- `SC2UnitCmdData` (/repo/src/state/unit_cmd.rs:79-88). -/
def jSC2UnitCmdData : JTy := .enum (
  .unit "None" <|
  .newtype "TargetPoint" jVec3D <|
  .newtype "TargetUnit" jSC2UnitCmdDataTargetUnit <|
  .newtype "Data" (.uint 32) <|
  .nil)

/-- `SC2UnitCmd` (/repo/src/state/unit_cmd.rs:12-27). -/
def jSC2UnitCmd : JTy := .struct (
  .cons "cmd_flags" .required (.sint 64) <|
  .cons "abil" .required (.opt jSC2UnitCmdAbil) <|
  .cons "data" .required jSC2UnitCmdData <|
  .cons "sequence" .required (.sint 64) <|
  .cons "other_unit" .required (.opt (.uint 32)) <|
  .cons "other_unit_name" .required (.opt .string) <|
  .cons "unit_group" .required (.opt (.uint 32)) <|
  .nil)

/-- `SC2Unit` (/repo/src/state/mod.rs:41-72). -/
def jSC2Unit : JTy := .struct (
  .cons "tag_index" .required (.uint 32) <|
  .cons "last_game_loop" .required (.sint 64) <|
  .cons "user_id" .required (.opt (.uint 8)) <|
  .cons "player_name" .required (.opt .string) <|
  .cons "name" .required .string <|
  .cons "pos" .required jVec3D <|
  .cons "init_game_loop" .required (.sint 64) <|
  .cons "creator_ability_name" .required (.opt .string) <|
  .cons "creator_tag_index" .required (.opt .string) <|
  .cons "radius" .required .f32 <|
  .cons "color" .required (.array 4 (.uint 8)) <|
  .cons "is_selected" .required .bool <|
  .cons "is_init" .required .bool <|
  .cons "cmd" .required jSC2UnitCmd <|
  .nil)

/-- `UnitChangeHint` (/repo/src/state/mod.rs:141-174). -/
def jUnitChangeHint : JTy := .enum (
  .fields "Registered" (
    .cons "unit" .required jSC2Unit <|
    .cons "creator" .required (.opt jSC2Unit) <|
    .nil) <|
  .newtype "Positions" (.list jSC2Unit) <|
  .newtype "TargetPoints" (.list jSC2Unit) <|
  .fields "TargetUnits" (
    .cons "units" .required (.list jSC2Unit) <|
    .cons "target" .required jSC2Unit <|
    .nil) <|
  .fields "Unregistered" (
    .cons "killer" .required (.opt jSC2Unit) <|
    .cons "killed" .required jSC2Unit <|
    .nil) <|
  .fields "Abilities" (
    .cons "units" .required (.list jSC2Unit) <|
    .cons "event" .required jGameSCmdEvent <|
    .cons "target" .required (.opt jSC2Unit) <|
    .nil) <|
  .newtype "Selection" (.list jSC2Unit) <|
  .unit "None" <|
  .nil)

/-- `SC2EventIteratorItem` (/repo/src/state/mod.rs:585-590). -/
def jSC2EventIteratorItem : JTy := .struct (
  .cons "event_type" .required jSC2EventType <|
  .cons "change_hint" .required jUnitChangeHint <|
  .nil)

/-- `UserInitialData` (/repo/src/init_data/mod.rs:103-123). -/
def jUserInitialData : JTy := .struct (
  .cons "name" .required .string <|
  .cons "clan_tag" .required (.opt .string) <|
  .cons "clan_logo" .required (.opt (.list (.uint 8))) <|
  .cons "highest_league" .required (.opt (.uint 8)) <|
  .cons "combined_race_levels" .required (.opt (.uint 32)) <|
  .cons "random_seed" .required (.uint 32) <|
  .cons "race_preference" .required (.opt (.sint 64)) <|
  .cons "team_preference" .required (.opt (.uint 8)) <|
  .cons "test_map" .required .bool <|
  .cons "test_auto" .required .bool <|
  .cons "examine" .required .bool <|
  .cons "custom_interface" .required .bool <|
  .cons "test_type" .required (.uint 32) <|
  .cons "observe" .required (.uint 8) <|
  .cons "hero" .required .string <|
  .cons "skin" .required .string <|
  .cons "mount" .required .string <|
  .cons "toon_handle" .required .string <|
  .cons "scaled_rating" .required (.opt (.sint 32)) <|
  .nil)

/-- `OptionFog` (/repo/src/init_data/mod.rs:223-229). -/
def jOptionFog : JTy := .enum (
  .unit "EDefault" <|
  .unit "EHideTerrain" <|
  .unit "EMapExplored" <|
  .unit "EAlwaysVisible" <|
  .nil)

/-- `OptionObservers` (/repo/src/init_data/mod.rs:237-243). -/
def jOptionObservers : JTy := .enum (
  .unit "ENone" <|
  .unit "EOnJoin" <|
  .unit "EOnJoinAndDefeat" <|
  .unit "ERefereesOnJoin" <|
  .nil)

/-- `OptionUserDifficulty` (/repo/src/init_data/mod.rs:251-256). -/
def jOptionUserDifficulty : JTy := .enum (
  .unit "ENone" <|
  .unit "EGlobal" <|
  .unit "EIndividual" <|
  .nil)

/-- `GameOptions` (/repo/src/init_data/mod.rs:166-183). -/
def jGameOptions : JTy := .struct (
  .cons "lock_teams" .required .bool <|
  .cons "teams_together" .required .bool <|
  .cons "advanced_shared_control" .required .bool <|
  .cons "random_races" .required .bool <|
  .cons "battle_net" .required .bool <|
  .cons "amm" .required .bool <|
  .cons "competitive" .required .bool <|
  .cons "practice" .required .bool <|
  .cons "cooperative" .required .bool <|
  .cons "no_victory_or_defeat" .required .bool <|
  .cons "hero_duplicates_allowed" .required .bool <|
  .cons "fog" .required jOptionFog <|
  .cons "observers" .required jOptionObservers <|
  .cons "user_difficulty" .required jOptionUserDifficulty <|
  .cons "client_debug_flags" .required (.sint 64) <|
  .cons "build_coach_enabled" .required .bool <|
  .nil)

/-- `GameType` (/repo/src/init_data/mod.rs:191-200). -/
def jGameType : JTy := .enum (
  .unit "EMelee" <|
  .unit "EFreeForAll" <|
  .unit "EUseSettings" <|
  .unit "EOneOnOne" <|
  .unit "ETwoTeamPlay" <|
  .unit "EThreeTeamPlay" <|
  .unit "EFourTeamPlay" <|
  .nil)

/-- `SlotDescription` (/repo/src/init_data/mod.rs:208-215). -/
def jSlotDescription : JTy := .struct (
  .cons "allowed_colors" .required (.sint 64) <|
  .cons "allowed_races" .required (.sint 64) <|
  .cons "allowed_difficulty" .required (.sint 64) <|
  .cons "allowed_controls" .required (.list (.uint 8)) <|
  .cons "allowed_observe_types" .required (.sint 64) <|
  .cons "allowed_ai_builds" .required (.list (.uint 8)) <|
  .nil)

/-- `GameDescription` (/repo/src/init_data/mod.rs:130-159). -/
def jGameDescription : JTy := .struct (
  .cons "random_value" .required (.uint 32) <|
  .cons "game_cache_name" .required .string <|
  .cons "game_options" .required jGameOptions <|
  .cons "game_speed" .required (.uint 8) <|
  .cons "game_type" .required jGameType <|
  .cons "max_users" .required (.sint 64) <|
  .cons "max_observers" .required (.sint 64) <|
  .cons "max_players" .required (.sint 64) <|
  .cons "max_teams" .required (.sint 64) <|
  .cons "max_colors" .required (.sint 64) <|
  .cons "max_races" .required (.sint 64) <|
  .cons "max_controls" .required (.sint 64) <|
  .cons "map_size_x" .required (.uint 8) <|
  .cons "map_size_y" .required (.uint 8) <|
  .cons "map_file_sync_checksum" .required (.uint 32) <|
  .cons "map_file_name" .required .string <|
  .cons "map_author_name" .required .string <|
  .cons "mod_file_sync_checksum" .required (.uint 32) <|
  .cons "slot_descriptions" .required (.list jSlotDescription) <|
  .cons "default_difficulty" .required (.sint 64) <|
  .cons "default_ai_build" .required (.sint 64) <|
  .cons "cache_handles" .required (.list .string) <|
  .cons "has_extension_mod" .required .bool <|
  .cons "has_non_blizzard_extension_mod" .required .bool <|
  .cons "is_blizzard_map" .required .bool <|
  .cons "is_premade_ffa" .required .bool <|
  .cons "is_coop_mode" .required .bool <|
  .cons "is_realtime_mode" .required .bool <|
  .nil)

/-- `GamePhase` (/repo/src/init_data/mod.rs:284-292). -/
def jGamePhase : JTy := .enum (
  .unit "EInitializing" <|
  .unit "ELobby" <|
  .unit "EClosed" <|
  .unit "ELoading" <|
  .unit "EPlaying" <|
  .unit "EGameover" <|
  .nil)

/-- `RewardOverride` (/repo/src/init_data/mod.rs:341-344). -/
def jRewardOverride : JTy := .struct (
  .cons "key" .required (.uint 32) <|
  .cons "rewards" .required (.list (.uint 32)) <|
  .nil)

/-- `LobbySlot` (/repo/src/init_data/mod.rs:300-333). -/
def jLobbySlot : JTy := .struct (
  .cons "control" .required (.sint 64) <|
  .cons "user_id" .required (.opt (.sint 64)) <|
  .cons "team_id" .required (.sint 64) <|
  .cons "color_pref" .required (.opt (.sint 64)) <|
  .cons "race_pref" .required (.opt (.sint 64)) <|
  .cons "difficulty" .required (.sint 64) <|
  .cons "ai_build" .required (.sint 64) <|
  .cons "handicap" .required (.uint 32) <|
  .cons "observe" .required (.uint 8) <|
  .cons "logo_index" .required (.uint 32) <|
  .cons "hero" .required .string <|
  .cons "skin" .required .string <|
  .cons "mount" .required .string <|
  .cons "artifacts" .required (.list .string) <|
  .cons "working_set_slot_id" .required (.opt (.uint 8)) <|
  .cons "rewards" .required (.list (.uint 32)) <|
  .cons "toon_handle" .required .string <|
  .cons "licenses" .required (.list (.uint 32)) <|
  .cons "tandem_leader_id" .required (.opt (.sint 64)) <|
  .cons "commander" .required .string <|
  .cons "commander_level" .required (.uint 32) <|
  .cons "has_silence_penalty" .required .bool <|
  .cons "tandem_id" .required (.opt (.sint 64)) <|
  .cons "commander_mastery_level" .required (.uint 32) <|
  .cons "commander_mastery_talents" .required (.list (.uint 32)) <|
  .cons "trophy_id" .required (.uint 32) <|
  .cons "reward_overrides" .required (.list jRewardOverride) <|
  .cons "brutal_plus_difficulty" .required (.uint 32) <|
  .cons "retry_mutation_indexes" .required (.list (.uint 32)) <|
  .cons "a_c_enemy_race" .required (.uint 32) <|
  .cons "a_c_enemy_wave_type" .required (.uint 32) <|
  .cons "selected_commander_prestige" .required (.uint 32) <|
  .nil)

/-- `LobbyState` (/repo/src/init_data/mod.rs:264-276). -/
def jLobbyState : JTy := .struct (
  .cons "phase" .required jGamePhase <|
  .cons "max_users" .required (.sint 64) <|
  .cons "max_observers" .required (.sint 64) <|
  .cons "slots" .required (.list jLobbySlot) <|
  .cons "random_seed" .required (.uint 32) <|
  .cons "host_user_id" .required (.opt (.sint 64)) <|
  .cons "is_single_player" .required .bool <|
  .cons "picked_map_tag" .required (.uint 8) <|
  .cons "game_duration" .required (.uint 32) <|
  .cons "default_difficulty" .required (.sint 64) <|
  .cons "default_ai_build" .required (.sint 64) <|
  .nil)

/-- `LobbySyncState` (/repo/src/init_data/mod.rs:92-96). -/
def jLobbySyncState : JTy := .struct (
  .cons "user_initial_data" .required (.list jUserInitialData) <|
  .cons "game_description" .required jGameDescription <|
  .cons "lobby_state" .required jLobbyState <|
  .nil)

/-- `InitData` (/repo/src/init_data/mod.rs:26-37). -/
def jInitData : JTy := .struct (
  .cons "ext_fs_id" .required (.uint 64) <|
  .cons "ext_fs_sha256" .required .string <|
  .cons "ext_fs_file_name" .required .string <|
  .cons "version" .required (.uint 32) <|
  .cons "sync_lobby_state" .required jLobbySyncState <|
  .nil)

/-- `ToonNameDetails` (/repo/src/details.rs:345-350). -/
def jToonNameDetails : JTy := .struct (
  .cons "region" .required (.uint 8) <|
  .cons "program_id" .required (.uint 32) <|
  .cons "realm" .required (.uint 32) <|
  .cons "id" .required (.uint 64) <|
  .nil)

/-- `Color` (/repo/src/details.rs:357-362). -/
def jColor : JTy := .struct (
  .cons "a" .required (.uint 8) <|
  .cons "r" .required (.uint 8) <|
  .cons "g" .required (.uint 8) <|
  .cons "b" .required (.uint 8) <|
  .nil)

/-- `PlayerDetails` (/repo/src/details.rs:326-338). -/
def jPlayerDetails : JTy := .struct (
  .cons "name" .required .string <|
  .cons "toon" .required jToonNameDetails <|
  .cons "race" .required .string <|
  .cons "color" .required jColor <|
  .cons "control" .required (.uint 8) <|
  .cons "team_id" .required (.uint 8) <|
  .cons "handicap" .required (.uint 32) <|
  .cons "observe" .required (.uint 8) <|
  .cons "result" .required .string <|
  .cons "working_set_slot_id" .required (.opt (.uint 8)) <|
  .cons "hero" .required .string <|
  .nil)

/-- `Thumbnail` (/repo/src/details.rs:369-371). -/
def jThumbnail : JTy := .struct (
  .cons "file" .required .string <|
  .nil)

/-- `Details` (/repo/src/details.rs:240-261). -/
def jDetails : JTy := .struct (
  .cons "ext_fs_id" .required (.uint 64) <|
  .cons "ext_datetime" .required .date <|
  .cons "player_list" .required (.list jPlayerDetails) <|
  .cons "title" .required .string <|
  .cons "difficulty" .required .string <|
  .cons "thumbnail" .required jThumbnail <|
  .cons "is_blizzard_map" .required .bool <|
  .cons "time_utc" .required (.sint 64) <|
  .cons "time_local_offset" .required (.sint 64) <|
  .cons "restart_as_transition_map" .required (.opt .bool) <|
  .cons "disable_recover_game" .required .bool <|
  .cons "description" .required .string <|
  .cons "image_file_path" .required .string <|
  .cons "campaign_index" .required (.uint 8) <|
  .cons "map_file_name" .required .string <|
  .cons "cache_handles" .required (.list .string) <|
  .cons "mini_save" .required .bool <|
  .cons "game_speed" .required .string <|
  .cons "default_difficulty" .required (.uint 32) <|
  .cons "mod_paths" .required (.list .string) <|
  .nil)

/-- `PlayerLobbyDetails` (/repo/src/details.rs:163-181). -/
def jPlayerLobbyDetails : JTy := .struct (
  .cons "player_details" .required jPlayerDetails <|
  .cons "lobby_slot" .required jLobbySlot <|
  .cons "title" .required .string <|
  .cons "game_description" .required jGameDescription <|
  .cons "time_utc" .required (.sint 64) <|
  .cons "time_local_offset" .required (.sint 64) <|
  .cons "user_init_data_name" .required .string <|
  .cons "user_init_data_clan_tag" .required .string <|
  .cons "tracker_setup_player_id" .required (.opt (.uint 8)) <|
  .cons "tracker_setup_slot_id" .required (.opt (.uint 32)) <|
  .cons "cache_handles" .required (.list .string) <|
  .cons "ext_fs_sha256" .required .string <|
  .cons "ext_fs_file_name" .required .string <|
  .cons "ext_fs_id" .required (.uint 64) <|
  .cons "ext_datetime" .required .date <|
  .nil)

/-- `SC2UserState` (/repo/src/state/mod.rs:194-204). -/
def jSC2UserState : JTy := .struct (
  .cons "player_lobby_details" .required jPlayerLobbyDetails <|
  .cons "control_groups" .required (.list (.list (.uint 32))) <|
  .cons "camera_pos" .required jGameSPointMini <|
  .nil)

/-- `SC2ReplayState` (/repo/src/state/mod.rs:224-243). -/
def jSC2ReplayState : JTy := .struct (
  .cons "init_data" .required jInitData <|
  .cons "details" .required jDetails <|
  .cons "units" .required (.map (.uint 32) jSC2Unit) <|
  .cons "user_state" .required (.map (.sint 64) jSC2UserState) <|
  .cons "balance_units" .required (.map .string jVersionedBalanceUnit) <|
  .nil)

/-- `TrackertEventIteratorState` (/repo/src/tracker_events/iterator.rs:14-21). -/
def jTrackertEventIteratorState : JTy := .struct (
  .cons "event_data" .required (.list (.uint 8)) <|
  .cons "event_loop" .required (.sint 64) <|
  .cons "byte_index" .required (.uint 64) <|
  .nil)

/-- `GameEventIteratorState` (/repo/src/game_events/iterator.rs:16-25). -/
def jGameEventIteratorState : JTy := .struct (
  .cons "event_data" .required (.list (.uint 8)) <|
  .cons "event_loop" .required (.sint 64) <|
  .cons "byte_index" .required (.uint 64) <|
  .cons "bit_index" .required (.uint 64) <|
  .nil)

/-- `SC2ReplayFilters` (/repo/src/filters.rs:11-35). -/
def jSC2ReplayFilters : JTy := .struct (
  .cons "player_id" .required (.opt (.uint 8)) <|
  .cons "unit_tag" .required (.opt (.sint 64)) <|
  .cons "min_loop" .required (.opt (.sint 64)) <|
  .cons "max_loop" .required (.opt (.sint 64)) <|
  .cons "event_type" .required (.opt .string) <|
  .cons "unit_name" .required (.opt .string) <|
  .cons "max_events" .required (.opt (.uint 64)) <|
  .cons "include_stats" .required .bool <|
  .nil)

/-- `SC2EventIterator` (/repo/src/state/mod.rs:315-328). -/
def jSC2EventIterator : JTy := .struct (
  .cons "sc2_state" .required jSC2ReplayState <|
  .cons "tracker_iterator_state" .required jTrackertEventIteratorState <|
  .cons "game_iterator_state" .required jGameEventIteratorState <|
  .cons "next_tracker_event" .required (.opt jSC2EventType) <|
  .cons "next_game_event" .required (.opt jSC2EventType) <|
  .cons "filters" .required (.opt jSC2ReplayFilters) <|
  .nil)

/-- `TrackerEvent` (/repo/src/tracker_events/mod.rs:45-48). -/
def jTrackerEvent : JTy := .struct (
  .cons "delta" .required (.uint 32) <|
  .cons "event" .required jReplayTrackerEvent <|
  .nil)

/-- `GameEvent` (/repo/src/game_events/mod.rs:46-50). -/
def jGameEvent : JTy := .struct (
  .cons "delta" .required (.sint 64) <|
  .cons "user_id" .required (.sint 64) <|
  .cons "event" .required jReplayGameEvent <|
  .nil)

/-- `GameEMessageRecipient` (/repo/src/message_events.rs:44-50). -/
def jGameEMessageRecipient : JTy := .enum (
  .unit "EAll" <|
  .unit "EAllies" <|
  .unit "EIndividual" <|
  .unit "EBattlenet" <|
  .unit "EObservers" <|
  .nil)

/-- `ChatMessage` (/repo/src/message_events.rs:38-41). -/
def jChatMessage : JTy := .struct (
  .cons "m_recipient" .required jGameEMessageRecipient <|
  .cons "m_string" .required .string <|
  .nil)

/-- `ReplayMessageEvent` (/repo/src/message_events.rs:29-35). -/
def jReplayMessageEvent : JTy := .enum (
  .newtype "EChat" jChatMessage <|
  .nil)

/-- `MessageEvent` (/repo/src/message_events.rs:22-26). -/
def jMessageEvent : JTy := .struct (
  .cons "delta" .required (.sint 64) <|
  .cons "user_id" .required (.sint 64) <|
  .cons "event" .required jReplayMessageEvent <|
  .nil)

end S2.Json
