import Verif.Schema.ByteAligned
/-! Generated by tools/extract.py from /repo/src/versions/protocol87702/mod.rs:3-5055 (module byte_aligned).  Do not edit. -/
namespace S2.P87702.ByteAligned
open S2

/-- `SVarUint32` (/repo/src/versions/protocol87702/mod.rs:9-48) -/
def SVarUint32 : VTy :=
  .choice false <|
    .cons 0 (.int .u8) <| -- MUint6
    .cons 1 (.int .u32) <| -- MUint14
    .cons 2 (.int .u32) <| -- MUint22
    .cons 3 (.int .u32) <| -- MUint32
    .nil

/-- `EObserve` (/repo/src/versions/protocol87702/mod.rs:51-81) -/
def EObserve : VTy :=
  .choice true <|
    .cons 0 (.null) <| -- ENone
    .cons 1 (.null) <| -- ESpectator
    .cons 2 (.null) <| -- EReferee
    .nil

/-- `SVersion` (/repo/src/versions/protocol87702/mod.rs:84-244) -/
def SVersion : VTy :=
  .struct <|
    .cons 0 "m_flags" 0 .mandatory (.int .u8) <|
    .cons 1 "m_major" 1 .mandatory (.int .u8) <|
    .cons 2 "m_minor" 2 .mandatory (.int .u8) <|
    .cons 3 "m_revision" 3 .mandatory (.int .u8) <|
    .cons 4 "m_build" 4 .mandatory (.int .u32) <|
    .cons 5 "m_base_build" 5 .mandatory (.int .u32) <|
    .nil

/-- `Smd5` (/repo/src/versions/protocol87702/mod.rs:247-339) -/
def Smd5 : VTy :=
  .struct <|
    .cons 0 "m_data_deprecated" 0 .optional (.opt (.arr (.int .u8))) <|
    .cons 1 "m_data" 1 .mandatory (.blob) <|
    .nil

/-- `GameEGameSpeed` (/repo/src/versions/protocol87702/mod.rs:342-382) -/
def GameEGameSpeed : VTy :=
  .choice true <|
    .cons 0 (.null) <| -- ESlower
    .cons 1 (.null) <| -- ESlow
    .cons 2 (.null) <| -- ENormal
    .cons 3 (.null) <| -- EFast
    .cons 4 (.null) <| -- EFaster
    .nil

/-- `GameSThumbnail` (/repo/src/versions/protocol87702/mod.rs:385-431) -/
def GameSThumbnail : VTy :=
  .struct <|
    .cons 0 "m_file" 0 .mandatory (.blob) <|
    .nil

/-- `GameSColor` (/repo/src/versions/protocol87702/mod.rs:434-546) -/
def GameSColor : VTy :=
  .struct <|
    .cons 0 "m_a" 0 .mandatory (.int .u8) <|
    .cons 1 "m_r" 1 .mandatory (.int .u8) <|
    .cons 2 "m_g" 2 .mandatory (.int .u8) <|
    .cons 3 "m_b" 3 .mandatory (.int .u8) <|
    .nil

/-- `GameEResultDetails` (/repo/src/versions/protocol87702/mod.rs:549-584) -/
def GameEResultDetails : VTy :=
  .choice true <|
    .cons 0 (.null) <| -- EUndecided
    .cons 1 (.null) <| -- EWin
    .cons 2 (.null) <| -- ELoss
    .cons 3 (.null) <| -- ETie
    .nil

/-- `GameSToonNameDetails` (/repo/src/versions/protocol87702/mod.rs:587-724) -/
def GameSToonNameDetails : VTy :=
  .struct <|
    .cons 0 "m_region" 0 .mandatory (.int .u8) <|
    .cons 1 "m_program_id" 1 .mandatory (.fourcc) <|
    .cons 2 "m_realm" 2 .mandatory (.int .u32) <|
    .cons 3 "m_name" 3 (.dflt (.bytes [])) (.blob) <|
    .cons 4 "m_id" 4 .mandatory (.int .u64) <|
    .nil

/-- `GameSPlayerDetails` (/repo/src/versions/protocol87702/mod.rs:727-1017) -/
def GameSPlayerDetails : VTy :=
  .struct <|
    .cons 0 "m_name" 0 .mandatory (.blob) <|
    .cons 1 "m_toon" 1 .mandatory (GameSToonNameDetails) <|
    .cons 2 "m_race" 2 .mandatory (.blob) <|
    .cons 3 "m_color" 3 .mandatory (GameSColor) <|
    .cons 4 "m_control" 4 .mandatory (.int .u8) <|
    .cons 5 "m_team_id" 5 .mandatory (.int .u8) <|
    .cons 6 "m_handicap" 6 .mandatory (.int .u32) <|
    .cons 7 "m_observe" 7 .mandatory (EObserve) <|
    .cons 8 "m_result" 8 .mandatory (GameEResultDetails) <|
    .cons 9 "m_working_set_slot_id" 9 .optional (.opt (.int .u8)) <|
    .cons 10 "m_hero" 10 .mandatory (.blob) <|
    .nil

/-- `GameCPlayerDetailsArray` (/repo/src/versions/protocol87702/mod.rs:1020-1042) -/
def GameCPlayerDetailsArray : VTy :=
  .arr (GameSPlayerDetails)

/-- `GameSDetails` (/repo/src/versions/protocol87702/mod.rs:1045-1619) -/
def GameSDetails : VTy :=
  .struct <|
    .cons 0 "m_player_list" 0 .optional (.opt (.arr (GameSPlayerDetails))) <|
    .cons 1 "m_title" 1 .mandatory (.blob) <|
    .cons 2 "m_difficulty" 2 .mandatory (.blob) <|
    .cons 3 "m_thumbnail" 3 .mandatory (GameSThumbnail) <|
    .cons 4 "m_is_blizzard_map" 4 .mandatory (.bool) <|
    .cons 5 "m_time_utc" 5 .mandatory (.int .i64) <|
    .cons 6 "m_time_local_offset" 6 .mandatory (.int .i64) <|
    .cons 16 "m_restart_as_transition_map" 16 .optional (.opt .bool) <|
    .cons 17 "m_disable_recover_game" 17 .mandatory (.bool) <|
    .cons 7 "m_description" 7 .mandatory (.blob) <|
    .cons 8 "m_image_file_path" 8 .mandatory (.blob) <|
    .cons 15 "m_campaign_index" 15 .mandatory (.int .u8) <|
    .cons 9 "m_map_file_name" 9 .mandatory (.blob) <|
    .cons 10 "m_cache_handles" 10 .optional (.opt (.arr (.blob))) <|
    .cons 11 "m_mini_save" 11 .mandatory (.bool) <|
    .cons 12 "m_game_speed" 12 .mandatory (GameEGameSpeed) <|
    .cons 13 "m_default_difficulty" 13 .mandatory (.int .u32) <|
    .cons 14 "m_mod_paths" 14 .optional (.opt (.arr (.blob))) <|
    .nil

/-- `ReplaySHeader` (/repo/src/versions/protocol87702/mod.rs:1622-1900) -/
def ReplaySHeader : VTy :=
  .struct <|
    .cons 0 "m_signature" 0 .mandatory (.blob) <|
    .cons 1 "m_version" 1 .mandatory (SVersion) <|
    .cons 2 "m_type" 2 .mandatory (.int .u8) <|
    .cons 3 "m_elapsed_game_loops" 3 .mandatory (.int .u32) <|
    .cons 4 "m_use_scaled_time" 4 .mandatory (.bool) <|
    .cons 5 "m_ngdp_root_key" 5 .mandatory (Smd5) <|
    .cons 6 "m_data_build_num" 6 .mandatory (.int .u32) <|
    .cons 7 "m_replay_compatibility_hash" 7 .mandatory (Smd5) <|
    .cons 8 "m_ngdp_root_key_is_dev_data" 8 .mandatory (.bool) <|
    .nil

/-- `ReplayTrackerSPlayerStats` (/repo/src/versions/protocol87702/mod.rs:1991-3543) -/
def ReplayTrackerSPlayerStats : VTy :=
  .struct <|
    .cons 0 "m_score_value_minerals_current" 0 .mandatory (.int .i32) <|
    .cons 1 "m_score_value_vespene_current" 1 .mandatory (.int .i32) <|
    .cons 2 "m_score_value_minerals_collection_rate" 2 .mandatory (.int .i32) <|
    .cons 3 "m_score_value_vespene_collection_rate" 3 .mandatory (.int .i32) <|
    .cons 4 "m_score_value_workers_active_count" 4 .mandatory (.int .i32) <|
    .cons 5 "m_score_value_minerals_used_in_progress_army" 5 .mandatory (.int .i32) <|
    .cons 6 "m_score_value_minerals_used_in_progress_economy" 6 .mandatory (.int .i32) <|
    .cons 7 "m_score_value_minerals_used_in_progress_technology" 7 .mandatory (.int .i32) <|
    .cons 8 "m_score_value_vespene_used_in_progress_army" 8 .mandatory (.int .i32) <|
    .cons 9 "m_score_value_vespene_used_in_progress_economy" 9 .mandatory (.int .i32) <|
    .cons 10 "m_score_value_vespene_used_in_progress_technology" 10 .mandatory (.int .i32) <|
    .cons 11 "m_score_value_minerals_used_current_army" 11 .mandatory (.int .i32) <|
    .cons 12 "m_score_value_minerals_used_current_economy" 12 .mandatory (.int .i32) <|
    .cons 13 "m_score_value_minerals_used_current_technology" 13 .mandatory (.int .i32) <|
    .cons 14 "m_score_value_vespene_used_current_army" 14 .mandatory (.int .i32) <|
    .cons 15 "m_score_value_vespene_used_current_economy" 15 .mandatory (.int .i32) <|
    .cons 16 "m_score_value_vespene_used_current_technology" 16 .mandatory (.int .i32) <|
    .cons 17 "m_score_value_minerals_lost_army" 17 .mandatory (.int .i32) <|
    .cons 18 "m_score_value_minerals_lost_economy" 18 .mandatory (.int .i32) <|
    .cons 19 "m_score_value_minerals_lost_technology" 19 .mandatory (.int .i32) <|
    .cons 20 "m_score_value_vespene_lost_army" 20 .mandatory (.int .i32) <|
    .cons 21 "m_score_value_vespene_lost_economy" 21 .mandatory (.int .i32) <|
    .cons 22 "m_score_value_vespene_lost_technology" 22 .mandatory (.int .i32) <|
    .cons 23 "m_score_value_minerals_killed_army" 23 .mandatory (.int .i32) <|
    .cons 24 "m_score_value_minerals_killed_economy" 24 .mandatory (.int .i32) <|
    .cons 25 "m_score_value_minerals_killed_technology" 25 .mandatory (.int .i32) <|
    .cons 26 "m_score_value_vespene_killed_army" 26 .mandatory (.int .i32) <|
    .cons 27 "m_score_value_vespene_killed_economy" 27 .mandatory (.int .i32) <|
    .cons 28 "m_score_value_vespene_killed_technology" 28 .mandatory (.int .i32) <|
    .cons 29 "m_score_value_food_used" 29 .mandatory (.int .i32) <|
    .cons 30 "m_score_value_food_made" 30 .mandatory (.int .i32) <|
    .cons 31 "m_score_value_minerals_used_active_forces" 31 .mandatory (.int .i32) <|
    .cons 32 "m_score_value_vespene_used_active_forces" 32 .mandatory (.int .i32) <|
    .cons 33 "m_score_value_minerals_friendly_fire_army" 33 .mandatory (.int .i32) <|
    .cons 34 "m_score_value_minerals_friendly_fire_economy" 34 .mandatory (.int .i32) <|
    .cons 35 "m_score_value_minerals_friendly_fire_technology" 35 .mandatory (.int .i32) <|
    .cons 36 "m_score_value_vespene_friendly_fire_army" 36 .mandatory (.int .i32) <|
    .cons 37 "m_score_value_vespene_friendly_fire_economy" 37 .mandatory (.int .i32) <|
    .cons 38 "m_score_value_vespene_friendly_fire_technology" 38 .mandatory (.int .i32) <|
    .nil

/-- `ReplayTrackerSPlayerStatsEvent` (/repo/src/versions/protocol87702/mod.rs:3546-3617) -/
def ReplayTrackerSPlayerStatsEvent : VTy :=
  .struct <|
    .cons 0 "m_player_id" 0 .mandatory (.int .u8) <|
    .cons 1 "m_stats" 1 .mandatory (ReplayTrackerSPlayerStats) <|
    .nil

/-- `ReplayTrackerSUnitBornEvent` (/repo/src/versions/protocol87702/mod.rs:3620-3944) -/
def ReplayTrackerSUnitBornEvent : VTy :=
  .struct <|
    .cons 0 "m_unit_tag_index" 8 .mandatory (.int .u32) <|
    .cons 1 "m_unit_tag_recycle" 8 .mandatory (.int .u32) <|
    .cons 2 "m_unit_type_name" 8 .mandatory (.blob) <|
    .cons 3 "m_control_player_id" 8 .mandatory (.int .u8) <|
    .cons 4 "m_upkeep_player_id" 8 .mandatory (.int .u8) <|
    .cons 5 "m_x" 8 .mandatory (.int .u8) <|
    .cons 6 "m_y" 8 .mandatory (.int .u8) <|
    .cons 7 "m_creator_unit_tag_index" 8 .optional (.opt (.int .u32)) <|
    .cons 8 "m_creator_unit_tag_recycle" 8 .optional (.opt (.int .u32)) <|
    .cons 9 "m_creator_ability_name" 8 .optional (.opt .blob) <|
    .nil

/-- `ReplayTrackerSUnitDiedEvent` (/repo/src/versions/protocol87702/mod.rs:3947-4181) -/
def ReplayTrackerSUnitDiedEvent : VTy :=
  .struct <|
    .cons 0 "m_unit_tag_index" 8 .mandatory (.int .u32) <|
    .cons 1 "m_unit_tag_recycle" 8 .mandatory (.int .u32) <|
    .cons 2 "m_killer_player_id" 8 .optional (.opt (.int .u8)) <|
    .cons 3 "m_x" 8 .mandatory (.int .u8) <|
    .cons 4 "m_y" 8 .mandatory (.int .u8) <|
    .cons 5 "m_killer_unit_tag_index" 8 .optional (.opt (.int .u32)) <|
    .cons 6 "m_killer_unit_tag_recycle" 8 .optional (.opt (.int .u32)) <|
    .nil

/-- `ReplayTrackerSUnitOwnerChangeEvent` (/repo/src/versions/protocol87702/mod.rs:4184-4320) -/
def ReplayTrackerSUnitOwnerChangeEvent : VTy :=
  .struct <|
    .cons 0 "m_unit_tag_index" 8 .mandatory (.int .u32) <|
    .cons 1 "m_unit_tag_recycle" 8 .mandatory (.int .u32) <|
    .cons 2 "m_control_player_id" 2 .mandatory (.int .u8) <|
    .cons 3 "m_upkeep_player_id" 3 .mandatory (.int .u8) <|
    .nil

/-- `ReplayTrackerSUnitTypeChangeEvent` (/repo/src/versions/protocol87702/mod.rs:4323-4431) -/
def ReplayTrackerSUnitTypeChangeEvent : VTy :=
  .struct <|
    .cons 0 "m_unit_tag_index" 0 .mandatory (.int .u32) <|
    .cons 1 "m_unit_tag_recycle" 1 .mandatory (.int .u32) <|
    .cons 2 "m_unit_type_name" 2 .mandatory (.blob) <|
    .nil

/-- `ReplayTrackerSUpgradeEvent` (/repo/src/versions/protocol87702/mod.rs:4434-4536) -/
def ReplayTrackerSUpgradeEvent : VTy :=
  .struct <|
    .cons 0 "m_player_id" 0 .mandatory (.int .u8) <|
    .cons 1 "m_upgrade_type_name" 1 .mandatory (.blob) <|
    .cons 2 "m_count" 2 .mandatory (.int .i32) <|
    .nil

/-- `ReplayTrackerSUnitInitEvent` (/repo/src/versions/protocol87702/mod.rs:4539-4747) -/
def ReplayTrackerSUnitInitEvent : VTy :=
  .struct <|
    .cons 0 "m_unit_tag_index" 0 .mandatory (.int .u32) <|
    .cons 1 "m_unit_tag_recycle" 1 .mandatory (.int .u32) <|
    .cons 2 "m_unit_type_name" 2 .mandatory (.blob) <|
    .cons 3 "m_control_player_id" 3 .mandatory (.int .u8) <|
    .cons 4 "m_upkeep_player_id" 4 .mandatory (.int .u8) <|
    .cons 5 "m_x" 5 .mandatory (.int .u8) <|
    .cons 6 "m_y" 6 .mandatory (.int .u8) <|
    .nil

/-- `ReplayTrackerSUnitDoneEvent` (/repo/src/versions/protocol87702/mod.rs:4750-4830) -/
def ReplayTrackerSUnitDoneEvent : VTy :=
  .struct <|
    .cons 0 "m_unit_tag_index" 0 .mandatory (.int .u32) <|
    .cons 1 "m_unit_tag_recycle" 1 .mandatory (.int .u32) <|
    .nil

/-- `ReplayTrackerSUnitPositionsEvent` (/repo/src/versions/protocol87702/mod.rs:4833-4918) -/
def ReplayTrackerSUnitPositionsEvent : VTy :=
  .struct <|
    .cons 0 "m_first_unit_index" 0 .mandatory (.int .u32) <|
    .cons 1 "m_items" 1 .mandatory (.arr (.int .i32)) <|
    .nil

/-- `ReplayTrackerSPlayerSetupEvent` (/repo/src/versions/protocol87702/mod.rs:4921-5054) -/
def ReplayTrackerSPlayerSetupEvent : VTy :=
  .struct <|
    .cons 0 "m_player_id" 0 .mandatory (.int .u8) <|
    .cons 1 "m_type" 1 .mandatory (.int .u32) <|
    .cons 2 "m_user_id" 2 .optional (.opt (.int .u32)) <|
    .cons 3 "m_slot_id" 3 .optional (.opt (.int .u32)) <|
    .nil

/-- `ReplayTrackerEEventId` (/repo/src/versions/protocol87702/mod.rs:1903-1988) -/
def ReplayTrackerEEventId : VTy :=
  .choice true <|
    .cons 0 (ReplayTrackerSPlayerStatsEvent) <| -- EPlayerStats
    .cons 1 (ReplayTrackerSUnitBornEvent) <| -- EUnitBorn
    .cons 2 (ReplayTrackerSUnitDiedEvent) <| -- EUnitDied
    .cons 3 (ReplayTrackerSUnitOwnerChangeEvent) <| -- EUnitOwnerChange
    .cons 4 (ReplayTrackerSUnitTypeChangeEvent) <| -- EUnitTypeChange
    .cons 5 (ReplayTrackerSUpgradeEvent) <| -- EUpgrade
    .cons 6 (ReplayTrackerSUnitInitEvent) <| -- EUnitInit
    .cons 7 (ReplayTrackerSUnitDoneEvent) <| -- EUnitDone
    .cons 8 (ReplayTrackerSUnitPositionsEvent) <| -- EUnitPosition
    .cons 9 (ReplayTrackerSPlayerSetupEvent) <| -- EPlayerSetup
    .nil

/-- Variant names of `ReplayTrackerEEventId` by wire tag (/repo/src/versions/protocol87702/mod.rs:1903-1988) -/
def ReplayTrackerEEventId.variants : List (Int × String) :=
  [(0, "EPlayerStats"),
   (1, "EUnitBorn"),
   (2, "EUnitDied"),
   (3, "EUnitOwnerChange"),
   (4, "EUnitTypeChange"),
   (5, "EUpgrade"),
   (6, "EUnitInit"),
   (7, "EUnitDone"),
   (8, "EUnitPosition"),
   (9, "EPlayerSetup")]

/-- All 25 types of this module. [/repo/src/versions/protocol87702/mod.rs:1-18235] -/
def all : List (String × VTy) :=
  [("SVarUint32", SVarUint32),
   ("EObserve", EObserve),
   ("SVersion", SVersion),
   ("Smd5", Smd5),
   ("GameEGameSpeed", GameEGameSpeed),
   ("GameSThumbnail", GameSThumbnail),
   ("GameSColor", GameSColor),
   ("GameEResultDetails", GameEResultDetails),
   ("GameSToonNameDetails", GameSToonNameDetails),
   ("GameSPlayerDetails", GameSPlayerDetails),
   ("GameCPlayerDetailsArray", GameCPlayerDetailsArray),
   ("GameSDetails", GameSDetails),
   ("ReplaySHeader", ReplaySHeader),
   ("ReplayTrackerSPlayerStats", ReplayTrackerSPlayerStats),
   ("ReplayTrackerSPlayerStatsEvent", ReplayTrackerSPlayerStatsEvent),
   ("ReplayTrackerSUnitBornEvent", ReplayTrackerSUnitBornEvent),
   ("ReplayTrackerSUnitDiedEvent", ReplayTrackerSUnitDiedEvent),
   ("ReplayTrackerSUnitOwnerChangeEvent", ReplayTrackerSUnitOwnerChangeEvent),
   ("ReplayTrackerSUnitTypeChangeEvent", ReplayTrackerSUnitTypeChangeEvent),
   ("ReplayTrackerSUpgradeEvent", ReplayTrackerSUpgradeEvent),
   ("ReplayTrackerSUnitInitEvent", ReplayTrackerSUnitInitEvent),
   ("ReplayTrackerSUnitDoneEvent", ReplayTrackerSUnitDoneEvent),
   ("ReplayTrackerSUnitPositionsEvent", ReplayTrackerSUnitPositionsEvent),
   ("ReplayTrackerSPlayerSetupEvent", ReplayTrackerSPlayerSetupEvent),
   ("ReplayTrackerEEventId", ReplayTrackerEEventId)]

end S2.P87702.ByteAligned
