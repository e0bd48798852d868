import Verif.Schema.BitPacked
/-! Generated by tools/extract.py from /repo/src/versions/protocol87702/mod.rs:5056-18235 (module bit_packed).  Do not edit. -/
namespace S2.P87702.BitPacked
open S2

/-- `CFilePath` (/repo/src/versions/protocol87702/mod.rs:5061-5073) -/
def CFilePath : BTy :=
  .blob 11

/-- `TRaceId` (/repo/src/versions/protocol87702/mod.rs:5076-5087) -/
def TRaceId : BTy :=
  .int (0) 8

/-- `TRaceCount` (/repo/src/versions/protocol87702/mod.rs:5090-5101) -/
def TRaceCount : BTy :=
  .int (1) 8

/-- `TRacePreference` (/repo/src/versions/protocol87702/mod.rs:5104-5138) -/
def TRacePreference : BTy :=
  .struct <|
    .cons "m_race" (.opt (TRaceId)) <|
    .nil

/-- `CAllowedRaces` (/repo/src/versions/protocol87702/mod.rs:5141-5154) -/
def CAllowedRaces : BTy :=
  .bitsI64 8

/-- `Int8` (/repo/src/versions/protocol87702/mod.rs:5157-5168) -/
def Int8 : BTy :=
  .int (-128) 8

/-- `Int16` (/repo/src/versions/protocol87702/mod.rs:5171-5182) -/
def Int16 : BTy :=
  .int (-32768) 16

/-- `Int32` (/repo/src/versions/protocol87702/mod.rs:5185-5196) -/
def Int32 : BTy :=
  .int (-2147483648) 32

/-- `Int64` (/repo/src/versions/protocol87702/mod.rs:5199-5210) -/
def Int64 : BTy :=
  .int (-9223372036854775808) 64

/-- `Uint8` (/repo/src/versions/protocol87702/mod.rs:5213-5224) -/
def Uint8 : BTy :=
  .int (0) 8

/-- `Uint16` (/repo/src/versions/protocol87702/mod.rs:5227-5238) -/
def Uint16 : BTy :=
  .int (0) 16

/-- `Uint32` (/repo/src/versions/protocol87702/mod.rs:5241-5252) -/
def Uint32 : BTy :=
  .int (0) 32

/-- `Uint64` (/repo/src/versions/protocol87702/mod.rs:5255-5266) -/
def Uint64 : BTy :=
  .int (0) 64

/-- `Uint6` (/repo/src/versions/protocol87702/mod.rs:5269-5280) -/
def Uint6 : BTy :=
  .int (0) 6

/-- `Uint14` (/repo/src/versions/protocol87702/mod.rs:5283-5294) -/
def Uint14 : BTy :=
  .int (0) 14

/-- `Uint22` (/repo/src/versions/protocol87702/mod.rs:5297-5308) -/
def Uint22 : BTy :=
  .int (0) 22

/-- `SVarUint32` (/repo/src/versions/protocol87702/mod.rs:5311-5355) -/
def SVarUint32 : BTy :=
  .choice 2 <|
    .cons 0 (Uint6) <| -- MUint6
    .cons 1 (Uint14) <| -- MUint14
    .cons 2 (Uint22) <| -- MUint22
    .cons 3 (Uint32) <| -- MUint32
    .nil

/-- `TUserId` (/repo/src/versions/protocol87702/mod.rs:5358-5369) -/
def TUserId : BTy :=
  .int (0) 4

/-- `TUserCount` (/repo/src/versions/protocol87702/mod.rs:5372-5383) -/
def TUserCount : BTy :=
  .int (0) 5

/-- `CCacheHandle` (/repo/src/versions/protocol87702/mod.rs:5386-5400) -/
def CCacheHandle : BTy :=
  .aligned 40

/-- `CUserName` (/repo/src/versions/protocol87702/mod.rs:5403-5415) -/
def CUserName : BTy :=
  .blob 8

/-- `CClanTag` (/repo/src/versions/protocol87702/mod.rs:5418-5430) -/
def CClanTag : BTy :=
  .blob 8

/-- `CHeroHandle` (/repo/src/versions/protocol87702/mod.rs:5433-5445) -/
def CHeroHandle : BTy :=
  .blob 9

/-- `CSkinHandle` (/repo/src/versions/protocol87702/mod.rs:5448-5460) -/
def CSkinHandle : BTy :=
  .blob 9

/-- `CMountHandle` (/repo/src/versions/protocol87702/mod.rs:5463-5475) -/
def CMountHandle : BTy :=
  .blob 9

/-- `CArtifactHandle` (/repo/src/versions/protocol87702/mod.rs:5478-5490) -/
def CArtifactHandle : BTy :=
  .blob 9

/-- `CToonHandle` (/repo/src/versions/protocol87702/mod.rs:5493-5505) -/
def CToonHandle : BTy :=
  .blob 7

/-- `CCommanderHandle` (/repo/src/versions/protocol87702/mod.rs:5508-5520) -/
def CCommanderHandle : BTy :=
  .blob 9

/-- `EObserve` (/repo/src/versions/protocol87702/mod.rs:5523-5554) -/
def EObserve : BTy :=
  .choice 2 <|
    .cons 0 (.null) <| -- ENone
    .cons 1 (.null) <| -- ESpectator
    .cons 2 (.null) <| -- EReferee
    .nil

/-- `CAllowedObserveTypes` (/repo/src/versions/protocol87702/mod.rs:5557-5570) -/
def CAllowedObserveTypes : BTy :=
  .bitsI64 2

/-- `TTeamPreference` (/repo/src/versions/protocol87702/mod.rs:5573-5605) -/
def TTeamPreference : BTy :=
  .struct <|
    .cons "m_team" (.opt (Uint8)) <|
    .nil

/-- `SUserInitialData` (/repo/src/versions/protocol87702/mod.rs:5608-5935) -/
def SUserInitialData : BTy :=
  .struct <|
    .cons "m_name" (CUserName) <|
    .cons "m_clan_tag" (.opt (CClanTag)) <|
    .cons "m_clan_logo" (.opt (CCacheHandle)) <|
    .cons "m_highest_league" (.opt (Uint8)) <|
    .cons "m_combined_race_levels" (.opt (Uint32)) <|
    .cons "m_random_seed" (Uint32) <|
    .cons "m_race_preference" (TRacePreference) <|
    .cons "m_team_preference" (TTeamPreference) <|
    .cons "m_test_map" (.bool) <|
    .cons "m_test_auto" (.bool) <|
    .cons "m_examine" (.bool) <|
    .cons "m_custom_interface" (.bool) <|
    .cons "m_test_type" (Uint32) <|
    .cons "m_observe" (EObserve) <|
    .cons "m_hero" (CHeroHandle) <|
    .cons "m_skin" (CSkinHandle) <|
    .cons "m_mount" (CMountHandle) <|
    .cons "m_toon_handle" (CToonHandle) <|
    .cons "m_scaled_rating" (.opt (Int32)) <|
    .nil

/-- `CUserInitialDataArray` (/repo/src/versions/protocol87702/mod.rs:5938-5959) -/
def CUserInitialDataArray : BTy :=
  .arr 5 (SUserInitialData)

/-- `ELeaveReason` (/repo/src/versions/protocol87702/mod.rs:5962-6058) -/
def ELeaveReason : BTy :=
  .choice 4 <|
    .cons 0 (.null) <| -- EUserLeft
    .cons 1 (.null) <| -- EUserDropped
    .cons 2 (.null) <| -- EUserBanned
    .cons 3 (.null) <| -- EUserVictory
    .cons 4 (.null) <| -- EUserDefeat
    .cons 5 (.null) <| -- EUserTied
    .cons 6 (.null) <| -- EUserDesynced
    .cons 7 (.null) <| -- EUserOutOfTime
    .cons 8 (.null) <| -- EWeWereUnresponsive
    .cons 9 (.null) <| -- EWeContinuedAlone
    .cons 10 (.null) <| -- EReplayDesynced
    .cons 11 (.null) <| -- EUserTimeout
    .cons 12 (.null) <| -- EUserDisconnected
    .cons 13 (.null) <| -- EUnrecoverable
    .cons 14 (.null) <| -- EUserCatchupDesynced
    .cons 15 (.null) <| -- ETakeCommandDropped
    .nil

/-- `EReconnectStatus` (/repo/src/versions/protocol87702/mod.rs:6061-6097) -/
def EReconnectStatus : BTy :=
  .choice 2 <|
    .cons 0 (.null) <| -- EConnected
    .cons 1 (.null) <| -- EReconnected
    .cons 2 (.null) <| -- EDisconnected
    .cons 3 (.null) <| -- EUnrecoverable
    .nil

/-- `SVersion` (/repo/src/versions/protocol87702/mod.rs:6100-6196) -/
def SVersion : BTy :=
  .struct <|
    .cons "m_flags" (Uint8) <|
    .cons "m_major" (Uint8) <|
    .cons "m_minor" (Uint8) <|
    .cons "m_revision" (Uint8) <|
    .cons "m_build" (Uint32) <|
    .cons "m_base_build" (Uint32) <|
    .nil

/-- `Smd5` (/repo/src/versions/protocol87702/mod.rs:6199-6264) -/
def Smd5 : BTy :=
  .struct <|
    .cons "m_data_deprecated" (.optRewind (.arr 5 (Uint8))) <|
    .cons "m_data" (.byteArr 5) <|
    .nil

/-- `GameTColorId` (/repo/src/versions/protocol87702/mod.rs:6267-6278) -/
def GameTColorId : BTy :=
  .int (0) 5

/-- `GameTColorCount` (/repo/src/versions/protocol87702/mod.rs:6281-6292) -/
def GameTColorCount : BTy :=
  .int (0) 6

/-- `GameTColorPreference` (/repo/src/versions/protocol87702/mod.rs:6295-6329) -/
def GameTColorPreference : BTy :=
  .struct <|
    .cons "m_color" (.opt (GameTColorId)) <|
    .nil

/-- `GameCAllowedColors` (/repo/src/versions/protocol87702/mod.rs:6332-6345) -/
def GameCAllowedColors : BTy :=
  .bitsI64 6

/-- `GameTLobbySlotId` (/repo/src/versions/protocol87702/mod.rs:15856-15867) -/
def GameTLobbySlotId : BTy :=
  .int (0) 4

/-- `GameTControlId` (/repo/src/versions/protocol87702/mod.rs:15110-15121) -/
def GameTControlId : BTy :=
  .int (0) 8

/-- `GameTTeamId` (/repo/src/versions/protocol87702/mod.rs:18149-18160) -/
def GameTTeamId : BTy :=
  .int (0) 4

/-- `GameTDifficulty` (/repo/src/versions/protocol87702/mod.rs:13619-13630) -/
def GameTDifficulty : BTy :=
  .int (0) 6

/-- `GameTaiBuild` (/repo/src/versions/protocol87702/mod.rs:13649-13660) -/
def GameTaiBuild : BTy :=
  .int (0) 8

/-- `GameTHandicap` (/repo/src/versions/protocol87702/mod.rs:13607-13616) -/
def GameTHandicap : BTy :=
  Uint32

/-- `GameTPlayerLogoIndex` (/repo/src/versions/protocol87702/mod.rs:13215-13224) -/
def GameTPlayerLogoIndex : BTy :=
  Uint32

/-- `GameTLicense` (/repo/src/versions/protocol87702/mod.rs:16047-16056) -/
def GameTLicense : BTy :=
  Uint32

/-- `GameCLicenseArray` (/repo/src/versions/protocol87702/mod.rs:16059-16080) -/
def GameCLicenseArray : BTy :=
  .arr 16 (GameTLicense)

/-- `GameCRetryMutationIndexArray` (/repo/src/versions/protocol87702/mod.rs:15918-15939) -/
def GameCRetryMutationIndexArray : BTy :=
  .arr 3 (Uint32)

/-- `GameSLobbySlotChange` (/repo/src/versions/protocol87702/mod.rs:16718-16903) -/
def GameSLobbySlotChange : BTy :=
  .choice 5 <|
    .cons 0 (GameTControlId) <| -- MControl
    .cons 1 (.opt (TUserId)) <| -- MUserId
    .cons 2 (GameTTeamId) <| -- MTeamId
    .cons 3 (GameTColorPreference) <| -- MColorPref
    .cons 4 (TRacePreference) <| -- MRacePref
    .cons 5 (GameTDifficulty) <| -- MDifficulty
    .cons 6 (GameTaiBuild) <| -- MAiBuild
    .cons 7 (GameTHandicap) <| -- MHandicap
    .cons 8 (EObserve) <| -- MObserve
    .cons 9 (GameTPlayerLogoIndex) <| -- MLogoIndex
    .cons 10 (CHeroHandle) <| -- MHero
    .cons 11 (CSkinHandle) <| -- MSkin
    .cons 12 (CMountHandle) <| -- MMount
    .cons 13 (GameCLicenseArray) <| -- MLicenses
    .cons 14 (.opt (TUserId)) <| -- MTandemLeaderId
    .cons 15 (CCommanderHandle) <| -- MCommander
    .cons 16 (Uint32) <| -- MCommanderLevel
    .cons 17 (.bool) <| -- MHasSilencePenalty
    .cons 18 (.opt (TUserId)) <| -- MTandemId
    .cons 19 (Uint32) <| -- MCommanderMasteryLevel
    .cons 20 (Uint32) <| -- MBrutalPlusDifficulty
    .cons 21 (GameCRetryMutationIndexArray) <| -- MRetryMutationIndexes
    .cons 22 (Uint32) <| -- MACEnemyRace
    .cons 23 (Uint32) <| -- MACEnemyWaveType
    .cons 24 (Uint32) <| -- MSelectedCommanderPrestige
    .nil

/-- `GameSSetLobbySlotEvent` (/repo/src/versions/protocol87702/mod.rs:7636-7680) -/
def GameSSetLobbySlotEvent : BTy :=
  .struct <|
    .cons "m_slot_id" (GameTLobbySlotId) <|
    .cons "m_slot_change" (GameSLobbySlotChange) <|
    .nil

/-- `GameSBankFileEvent` (/repo/src/versions/protocol87702/mod.rs:7751-7784) -/
def GameSBankFileEvent : BTy :=
  .struct <|
    .cons "m_name" (.byteArr 7) <|
    .nil

/-- `GameESynchronous` (/repo/src/versions/protocol87702/mod.rs:6348-6383) -/
def GameESynchronous : BTy :=
  .choice 2 <|
    .cons 0 (.null) <| -- ELocal
    .cons 1 (GameSSetLobbySlotEvent) <| -- ESession
    .cons 2 (GameSBankFileEvent) <| -- EGame
    .nil

/-- `GameSDropOurselvesEvent` (/repo/src/versions/protocol87702/mod.rs:7741-7748) -/
def GameSDropOurselvesEvent : BTy :=
  .struct .nil

/-- `GameESynthesized` (/repo/src/versions/protocol87702/mod.rs:6386-6416) -/
def GameESynthesized : BTy :=
  .choice 1 <|
    .cons 0 (GameSDropOurselvesEvent) <| -- ESynthesized
    .cons 1 (GameSSetLobbySlotEvent) <| -- ENotSynthesized
    .nil

/-- `GameSPickMapTagEvent` (/repo/src/versions/protocol87702/mod.rs:8289-8317) -/
def GameSPickMapTagEvent : BTy :=
  .struct <|
    .cons "m_picked_map_tag" (Uint8) <|
    .nil

/-- `GameEDebug` (/repo/src/versions/protocol87702/mod.rs:6419-6449) -/
def GameEDebug : BTy :=
  .choice 1 <|
    .cons 0 (GameSPickMapTagEvent) <| -- EDebug
    .cons 1 (GameSSetLobbySlotEvent) <| -- ENotDebug
    .nil

/-- `GameEHijackMethod` (/repo/src/versions/protocol87702/mod.rs:6452-6478) -/
def GameEHijackMethod : BTy :=
  .choice 1 <|
    .cons 0 (.null) <| -- ERecover
    .cons 1 (.null) <| -- ETakeCommand
    .nil

/-- `GameTQueryId` (/repo/src/versions/protocol87702/mod.rs:6481-6490) -/
def GameTQueryId : BTy :=
  Uint16

/-- `GameSDropUserEvent` (/repo/src/versions/protocol87702/mod.rs:7683-7728) -/
def GameSDropUserEvent : BTy :=
  .struct <|
    .cons "m_drop_session_user_id" (TUserId) <|
    .cons "m_reason" (ELeaveReason) <|
    .nil

/-- `GameSStartGameEvent` (/repo/src/versions/protocol87702/mod.rs:7731-7738) -/
def GameSStartGameEvent : BTy :=
  .struct .nil

/-- `GameSUserFinishedLoadingEvent` (/repo/src/versions/protocol87702/mod.rs:8320-8327) -/
def GameSUserFinishedLoadingEvent : BTy :=
  .struct .nil

/-- `GameSUserFinishedLoadingSyncEvent` (/repo/src/versions/protocol87702/mod.rs:8330-8337) -/
def GameSUserFinishedLoadingSyncEvent : BTy :=
  .struct .nil

/-- `GameSSetGameDurationEvent` (/repo/src/versions/protocol87702/mod.rs:8340-8368) -/
def GameSSetGameDurationEvent : BTy :=
  .struct <|
    .cons "m_game_duration" (Uint32) <|
    .nil

/-- `GameSUserOptionsEvent` (/repo/src/versions/protocol87702/mod.rs:8019-8286) -/
def GameSUserOptionsEvent : BTy :=
  .struct <|
    .cons "m_game_fully_downloaded" (.bool) <|
    .cons "m_development_cheats_enabled" (.bool) <|
    .cons "m_test_cheats_enabled" (.bool) <|
    .cons "m_multiplayer_cheats_enabled" (.bool) <|
    .cons "m_sync_checksumming_enabled" (.bool) <|
    .cons "m_is_map_to_map_transition" (.bool) <|
    .cons "m_debug_pause_enabled" (.bool) <|
    .cons "m_use_galaxy_asserts" (.bool) <|
    .cons "m_platform_mac" (.bool) <|
    .cons "m_camera_follow" (.bool) <|
    .cons "m_base_build_num" (Uint32) <|
    .cons "m_build_num" (Uint32) <|
    .cons "m_version_flags" (Uint32) <|
    .cons "m_hotkey_profile" (.byteArr 7) <|
    .nil

/-- `GameSTurnEvent` (/repo/src/versions/protocol87702/mod.rs:8371-8378) -/
def GameSTurnEvent : BTy :=
  .struct .nil

/-- `GameSBankSectionEvent` (/repo/src/versions/protocol87702/mod.rs:7787-7820) -/
def GameSBankSectionEvent : BTy :=
  .struct <|
    .cons "m_name" (.byteArr 6) <|
    .nil

/-- `GameSBankKeyEvent` (/repo/src/versions/protocol87702/mod.rs:7823-7891) -/
def GameSBankKeyEvent : BTy :=
  .struct <|
    .cons "m_name" (.byteArr 6) <|
    .cons "m_type" (Uint32) <|
    .cons "m_data" (.byteArr 5) <|
    .nil

/-- `GameSBankValueEvent` (/repo/src/versions/protocol87702/mod.rs:7894-7962) -/
def GameSBankValueEvent : BTy :=
  .struct <|
    .cons "m_type" (Uint32) <|
    .cons "m_name" (.byteArr 6) <|
    .cons "m_data" (.byteArr 10) <|
    .nil

/-- `GameSBankSignatureEvent` (/repo/src/versions/protocol87702/mod.rs:7965-8016) -/
def GameSBankSignatureEvent : BTy :=
  .struct <|
    .cons "m_signature" (.arr 5 (Uint8)) <|
    .cons "m_toon_handle" (CToonHandle) <|
    .nil

/-- `GameTFixedMiniBitsUnsigned` (/repo/src/versions/protocol87702/mod.rs:13191-13200) -/
def GameTFixedMiniBitsUnsigned : BTy :=
  Uint16

/-- `GameSPointMini` (/repo/src/versions/protocol87702/mod.rs:13409-13453) -/
def GameSPointMini : BTy :=
  .struct <|
    .cons "x" (GameTFixedMiniBitsUnsigned) <|
    .cons "y" (GameTFixedMiniBitsUnsigned) <|
    .nil

/-- `GameSCameraSaveEvent` (/repo/src/versions/protocol87702/mod.rs:8381-8423) -/
def GameSCameraSaveEvent : BTy :=
  .struct <|
    .cons "m_which" (.int (0) 3) <|
    .cons "m_target" (GameSPointMini) <|
    .nil

/-- `GameSPauseGameEvent` (/repo/src/versions/protocol87702/mod.rs:8426-8454) -/
def GameSPauseGameEvent : BTy :=
  .struct <|
    .cons "m_pause_type_index" (Uint8) <|
    .nil

/-- `GameSUnpauseGameEvent` (/repo/src/versions/protocol87702/mod.rs:8457-8485) -/
def GameSUnpauseGameEvent : BTy :=
  .struct <|
    .cons "m_pause_type_index" (Uint8) <|
    .nil

/-- `GameSSingleStepGameEvent` (/repo/src/versions/protocol87702/mod.rs:8488-8495) -/
def GameSSingleStepGameEvent : BTy :=
  .struct .nil

/-- `GameEGameSpeed` (/repo/src/versions/protocol87702/mod.rs:12931-12972) -/
def GameEGameSpeed : BTy :=
  .choice 3 <|
    .cons 0 (.null) <| -- ESlower
    .cons 1 (.null) <| -- ESlow
    .cons 2 (.null) <| -- ENormal
    .cons 3 (.null) <| -- EFast
    .cons 4 (.null) <| -- EFaster
    .nil

/-- `GameSSetGameSpeedEvent` (/repo/src/versions/protocol87702/mod.rs:8498-8526) -/
def GameSSetGameSpeedEvent : BTy :=
  .struct <|
    .cons "m_speed" (GameEGameSpeed) <|
    .nil

/-- `GameSAddGameSpeedEvent` (/repo/src/versions/protocol87702/mod.rs:8529-8555) -/
def GameSAddGameSpeedEvent : BTy :=
  .struct <|
    .cons "m_delta" (Int8) <|
    .nil

/-- `GameSReplayJumpEvent` (/repo/src/versions/protocol87702/mod.rs:8558-8595) -/
def GameSReplayJumpEvent : BTy :=
  .struct <|
    .cons "m_replay_jump_game_loop" (.opt (Uint32)) <|
    .nil

/-- `GameSSaveGameEvent` (/repo/src/versions/protocol87702/mod.rs:8598-8698) -/
def GameSSaveGameEvent : BTy :=
  .struct <|
    .cons "m_file_name" (CFilePath) <|
    .cons "m_automatic" (.bool) <|
    .cons "m_overwrite" (.bool) <|
    .cons "m_name" (.byteArr 6) <|
    .cons "m_description" (.byteArr 9) <|
    .nil

/-- `GameSSaveGameDoneEvent` (/repo/src/versions/protocol87702/mod.rs:8701-8708) -/
def GameSSaveGameDoneEvent : BTy :=
  .struct .nil

/-- `GameSLoadGameDoneEvent` (/repo/src/versions/protocol87702/mod.rs:8711-8718) -/
def GameSLoadGameDoneEvent : BTy :=
  .struct .nil

/-- `GameTFixedBits` (/repo/src/versions/protocol87702/mod.rs:13179-13188) -/
def GameTFixedBits : BTy :=
  Int32

/-- `GameSPoint` (/repo/src/versions/protocol87702/mod.rs:13309-13349) -/
def GameSPoint : BTy :=
  .struct <|
    .cons "x" (GameTFixedBits) <|
    .cons "y" (GameTFixedBits) <|
    .nil

/-- `GameCCheatString` (/repo/src/versions/protocol87702/mod.rs:13053-13065) -/
def GameCCheatString : BTy :=
  .blob 11

/-- `GameSCheatEventData` (/repo/src/versions/protocol87702/mod.rs:8721-8793) -/
def GameSCheatEventData : BTy :=
  .struct <|
    .cons "m_point" (GameSPoint) <|
    .cons "m_time" (Int32) <|
    .cons "m_verb" (GameCCheatString) <|
    .cons "m_arguments" (GameCCheatString) <|
    .nil

/-- `GameSSessionCheatEvent` (/repo/src/versions/protocol87702/mod.rs:8796-8824) -/
def GameSSessionCheatEvent : BTy :=
  .struct <|
    .cons "m_data" (GameSCheatEventData) <|
    .nil

/-- `GameSCommandManagerResetEvent` (/repo/src/versions/protocol87702/mod.rs:8827-8853) -/
def GameSCommandManagerResetEvent : BTy :=
  .struct <|
    .cons "m_sequence" (Uint32) <|
    .nil

/-- `GameSGameCheatEvent` (/repo/src/versions/protocol87702/mod.rs:8856-8884) -/
def GameSGameCheatEvent : BTy :=
  .struct <|
    .cons "m_data" (GameSCheatEventData) <|
    .nil

/-- `GameTAbilLink` (/repo/src/versions/protocol87702/mod.rs:13167-13176) -/
def GameTAbilLink : BTy :=
  Uint16

/-- `GameSCmdAbil` (/repo/src/versions/protocol87702/mod.rs:7374-7438) -/
def GameSCmdAbil : BTy :=
  .struct <|
    .cons "m_abil_link" (GameTAbilLink) <|
    .cons "m_abil_cmd_index" (.int (0) 5) <|
    .cons "m_abil_cmd_data" (.opt (Uint8)) <|
    .nil

/-- `GameTMapCoordFixedBits` (/repo/src/versions/protocol87702/mod.rs:13255-13266) -/
def GameTMapCoordFixedBits : BTy :=
  .int (0) 20

/-- `GameSMapCoord3D` (/repo/src/versions/protocol87702/mod.rs:13503-13561) -/
def GameSMapCoord3D : BTy :=
  .struct <|
    .cons "x" (GameTMapCoordFixedBits) <|
    .cons "y" (GameTMapCoordFixedBits) <|
    .cons "z" (GameTFixedBits) <|
    .nil

/-- `GameTUnitTag` (/repo/src/versions/protocol87702/mod.rs:13131-13140) -/
def GameTUnitTag : BTy :=
  Uint32

/-- `GameTUnitLink` (/repo/src/versions/protocol87702/mod.rs:13119-13128) -/
def GameTUnitLink : BTy :=
  Uint16

/-- `GameTPlayerId` (/repo/src/versions/protocol87702/mod.rs:17438-17449) -/
def GameTPlayerId : BTy :=
  .int (0) 4

/-- `GameSCmdDataTargetUnit` (/repo/src/versions/protocol87702/mod.rs:7441-7586) -/
def GameSCmdDataTargetUnit : BTy :=
  .struct <|
    .cons "m_target_unit_flags" (Uint16) <|
    .cons "m_timer" (Uint8) <|
    .cons "m_tag" (GameTUnitTag) <|
    .cons "m_snapshot_unit_link" (GameTUnitLink) <|
    .cons "m_snapshot_control_player_id" (.opt (GameTPlayerId)) <|
    .cons "m_snapshot_upkeep_player_id" (.opt (GameTPlayerId)) <|
    .cons "m_snapshot_point" (GameSMapCoord3D) <|
    .nil

/-- `GameSCmdData` (/repo/src/versions/protocol87702/mod.rs:7589-7633) -/
def GameSCmdData : BTy :=
  .choice 2 <|
    .cons 0 (.null) <| -- None
    .cons 1 (GameSMapCoord3D) <| -- TargetPoint
    .cons 2 (GameSCmdDataTargetUnit) <| -- TargetUnit
    .cons 3 (Uint32) <| -- Data
    .nil

/-- `GameSCmdEvent` (/repo/src/versions/protocol87702/mod.rs:8887-9007) -/
def GameSCmdEvent : BTy :=
  .struct <|
    .cons "m_cmd_flags" (.int (0) 27) <|
    .cons "m_abil" (.opt (GameSCmdAbil)) <|
    .cons "m_data" (GameSCmdData) <|
    .cons "m_sequence" (.int (1) 32) <|
    .cons "m_other_unit" (.opt (GameTUnitTag)) <|
    .cons "m_unit_group" (.opt (Uint32)) <|
    .nil

/-- `GameTControlGroupId` (/repo/src/versions/protocol87702/mod.rs:17652-17663) -/
def GameTControlGroupId : BTy :=
  .int (0) 4

/-- `GameTSubgroupIndex` (/repo/src/versions/protocol87702/mod.rs:17610-17621) -/
def GameTSubgroupIndex : BTy :=
  .int (0) 9

/-- `GameSelectionMaskType` (/repo/src/versions/protocol87702/mod.rs:17772-17784) -/
def GameSelectionMaskType : BTy :=
  .bitsVec 9

/-- `GameTSelectionIndex` (/repo/src/versions/protocol87702/mod.rs:17568-17579) -/
def GameTSelectionIndex : BTy :=
  .int (0) 9

/-- `GameSelectionIndexArrayType` (/repo/src/versions/protocol87702/mod.rs:17748-17769) -/
def GameSelectionIndexArrayType : BTy :=
  .arr 9 (GameTSelectionIndex)

/-- `GameSSelectionMask` (/repo/src/versions/protocol87702/mod.rs:17787-17831) -/
def GameSSelectionMask : BTy :=
  .choice 2 <|
    .cons 0 (.null) <| -- None
    .cons 1 (GameSelectionMaskType) <| -- Mask
    .cons 2 (GameSelectionIndexArrayType) <| -- OneIndices
    .cons 3 (GameSelectionIndexArrayType) <| -- ZeroIndices
    .nil

/-- `GameTSubgroupPriority` (/repo/src/versions/protocol87702/mod.rs:17582-17593) -/
def GameTSubgroupPriority : BTy :=
  .int (0) 8

/-- `GameTSelectionCount` (/repo/src/versions/protocol87702/mod.rs:17554-17565) -/
def GameTSelectionCount : BTy :=
  .int (0) 9

/-- `GameSSelectionDeltaSubgroup` (/repo/src/versions/protocol87702/mod.rs:17666-17745) -/
def GameSSelectionDeltaSubgroup : BTy :=
  .struct <|
    .cons "m_unit_link" (GameTUnitLink) <|
    .cons "m_subgroup_priority" (GameTSubgroupPriority) <|
    .cons "m_intra_subgroup_priority" (GameTSubgroupPriority) <|
    .cons "m_count" (GameTSelectionCount) <|
    .nil

/-- `GameSSelectionDelta` (/repo/src/versions/protocol87702/mod.rs:17834-17924) -/
def GameSSelectionDelta : BTy :=
  .struct <|
    .cons "m_subgroup_index" (GameTSubgroupIndex) <|
    .cons "m_remove_mask" (GameSSelectionMask) <|
    .cons "m_add_subgroups" (.arr 9 (GameSSelectionDeltaSubgroup)) <|
    .cons "m_add_unit_tags" (.arr 9 (GameTUnitTag)) <|
    .nil

/-- `GameSSelectionDeltaEvent` (/repo/src/versions/protocol87702/mod.rs:9010-9054) -/
def GameSSelectionDeltaEvent : BTy :=
  .struct <|
    .cons "m_control_group_id" (GameTControlGroupId) <|
    .cons "m_delta" (GameSSelectionDelta) <|
    .nil

/-- `GameTControlGroupIndex` (/repo/src/versions/protocol87702/mod.rs:17638-17649) -/
def GameTControlGroupIndex : BTy :=
  .int (0) 4

/-- `GameEControlGroupUpdate` (/repo/src/versions/protocol87702/mod.rs:17505-17551) -/
def GameEControlGroupUpdate : BTy :=
  .choice 3 <|
    .cons 0 (.null) <| -- ESet
    .cons 1 (.null) <| -- EAppend
    .cons 2 (.null) <| -- ERecall
    .cons 3 (.null) <| -- EClear
    .cons 4 (.null) <| -- ESetAndSteal
    .cons 5 (.null) <| -- EAppendAndSteal
    .nil

/-- `GameSControlGroupUpdateEvent` (/repo/src/versions/protocol87702/mod.rs:9057-9119) -/
def GameSControlGroupUpdateEvent : BTy :=
  .struct <|
    .cons "m_control_group_index" (GameTControlGroupIndex) <|
    .cons "m_control_group_update" (GameEControlGroupUpdate) <|
    .cons "m_mask" (GameSSelectionMask) <|
    .nil

/-- `GameTSubgroupCount` (/repo/src/versions/protocol87702/mod.rs:17596-17607) -/
def GameTSubgroupCount : BTy :=
  .int (0) 9

/-- `GameTSyncChecksum` (/repo/src/versions/protocol87702/mod.rs:18049-18058) -/
def GameTSyncChecksum : BTy :=
  Uint32

/-- `GameSSelectionSyncData` (/repo/src/versions/protocol87702/mod.rs:17927-18046) -/
def GameSSelectionSyncData : BTy :=
  .struct <|
    .cons "m_count" (GameTSelectionCount) <|
    .cons "m_subgroup_count" (GameTSubgroupCount) <|
    .cons "m_active_subgroup_index" (GameTSubgroupIndex) <|
    .cons "m_unit_tags_checksum" (GameTSyncChecksum) <|
    .cons "m_subgroup_indices_checksum" (GameTSyncChecksum) <|
    .cons "m_subgroups_checksum" (GameTSyncChecksum) <|
    .nil

/-- `GameSSelectionSyncCheckEvent` (/repo/src/versions/protocol87702/mod.rs:9122-9167) -/
def GameSSelectionSyncCheckEvent : BTy :=
  .struct <|
    .cons "m_control_group_id" (GameTControlGroupId) <|
    .cons "m_selection_sync_data" (GameSSelectionSyncData) <|
    .nil

/-- `GameSResourceTradeEvent` (/repo/src/versions/protocol87702/mod.rs:9170-9221) -/
def GameSResourceTradeEvent : BTy :=
  .struct <|
    .cons "m_recipient_id" (GameTPlayerId) <|
    .cons "m_resources" (.arr 3 (Int32)) <|
    .nil

/-- `GameCTriggerChatMessageString` (/repo/src/versions/protocol87702/mod.rs:13068-13080) -/
def GameCTriggerChatMessageString : BTy :=
  .blob 11

/-- `GameSTriggerChatMessageEvent` (/repo/src/versions/protocol87702/mod.rs:9224-9252) -/
def GameSTriggerChatMessageEvent : BTy :=
  .struct <|
    .cons "m_chat_message" (GameCTriggerChatMessageString) <|
    .nil

/-- `GameSPoint3` (/repo/src/versions/protocol87702/mod.rs:13352-13406) -/
def GameSPoint3 : BTy :=
  .struct <|
    .cons "x" (GameTFixedBits) <|
    .cons "y" (GameTFixedBits) <|
    .cons "z" (GameTFixedBits) <|
    .nil

/-- `GameSaiCommunicateEvent` (/repo/src/versions/protocol87702/mod.rs:9255-9423) -/
def GameSaiCommunicateEvent : BTy :=
  .struct <|
    .cons "m_beacon" (Int8) <|
    .cons "m_ally" (Int8) <|
    .cons "m_flags" (Int8) <|
    .cons "m_build" (Int8) <|
    .cons "m_target_unit_tag" (GameTUnitTag) <|
    .cons "m_target_unit_snapshot_unit_link" (GameTUnitLink) <|
    .cons "m_target_unit_snapshot_upkeep_player_id" (Int8) <|
    .cons "m_target_unit_snapshot_control_player_id" (Int8) <|
    .cons "m_target_point" (GameSPoint3) <|
    .nil

/-- `GameSSetAbsoluteGameSpeedEvent` (/repo/src/versions/protocol87702/mod.rs:9426-9454) -/
def GameSSetAbsoluteGameSpeedEvent : BTy :=
  .struct <|
    .cons "m_speed" (GameEGameSpeed) <|
    .nil

/-- `GameSAddAbsoluteGameSpeedEvent` (/repo/src/versions/protocol87702/mod.rs:9457-9483) -/
def GameSAddAbsoluteGameSpeedEvent : BTy :=
  .struct <|
    .cons "m_delta" (Int8) <|
    .nil

/-- `GameSTriggerPingEvent` (/repo/src/versions/protocol87702/mod.rs:9486-9660) -/
def GameSTriggerPingEvent : BTy :=
  .struct <|
    .cons "m_point" (GameSPoint) <|
    .cons "m_unit" (GameTUnitTag) <|
    .cons "m_unit_link" (GameTUnitLink) <|
    .cons "m_unit_control_player_id" (.opt (GameTPlayerId)) <|
    .cons "m_unit_upkeep_player_id" (.opt (GameTPlayerId)) <|
    .cons "m_unit_position" (GameSMapCoord3D) <|
    .cons "m_unit_is_under_construction" (.bool) <|
    .cons "m_pinged_minimap" (.bool) <|
    .cons "m_option" (Int32) <|
    .nil

/-- `GameSBroadcastCheatEvent` (/repo/src/versions/protocol87702/mod.rs:9663-9707) -/
def GameSBroadcastCheatEvent : BTy :=
  .struct <|
    .cons "m_verb" (GameCCheatString) <|
    .cons "m_arguments" (GameCCheatString) <|
    .nil

/-- `GameSAllianceEvent` (/repo/src/versions/protocol87702/mod.rs:9710-9750) -/
def GameSAllianceEvent : BTy :=
  .struct <|
    .cons "m_alliance" (Uint32) <|
    .cons "m_control" (Uint32) <|
    .nil

/-- `GameSUnitClickEvent` (/repo/src/versions/protocol87702/mod.rs:9753-9781) -/
def GameSUnitClickEvent : BTy :=
  .struct <|
    .cons "m_unit_tag" (GameTUnitTag) <|
    .nil

/-- `GameSUnitHighlightEvent` (/repo/src/versions/protocol87702/mod.rs:9784-9826) -/
def GameSUnitHighlightEvent : BTy :=
  .struct <|
    .cons "m_unit_tag" (GameTUnitTag) <|
    .cons "m_flags" (Uint8) <|
    .nil

/-- `GameSTriggerReplySelectedEvent` (/repo/src/versions/protocol87702/mod.rs:9829-9871) -/
def GameSTriggerReplySelectedEvent : BTy :=
  .struct <|
    .cons "m_conversation_id" (Int32) <|
    .cons "m_reply_id" (Int32) <|
    .nil

/-- `GameSHijackReplaySessionUserInfo` (/repo/src/versions/protocol87702/mod.rs:9874-9934) -/
def GameSHijackReplaySessionUserInfo : BTy :=
  .struct <|
    .cons "m_session_user_id" (TUserId) <|
    .cons "m_add_new_game_user" (.bool) <|
    .cons "m_game_user_id" (TUserId) <|
    .nil

/-- `GameSHijackReplaySessionEvent` (/repo/src/versions/protocol87702/mod.rs:9937-9988) -/
def GameSHijackReplaySessionEvent : BTy :=
  .struct <|
    .cons "m_user_infos" (.arr 5 (GameSHijackReplaySessionUserInfo)) <|
    .cons "m_method" (GameEHijackMethod) <|
    .nil

/-- `GameCCacheHandle` (/repo/src/versions/protocol87702/mod.rs:15268-15282) -/
def GameCCacheHandle : BTy :=
  .aligned 40

/-- `GameSHijackReplayGameUserInfo` (/repo/src/versions/protocol87702/mod.rs:9991-10113) -/
def GameSHijackReplayGameUserInfo : BTy :=
  .struct <|
    .cons "m_game_user_id" (TUserId) <|
    .cons "m_observe" (EObserve) <|
    .cons "m_name" (CUserName) <|
    .cons "m_toon_handle" (.opt (CToonHandle)) <|
    .cons "m_clan_tag" (.opt (CClanTag)) <|
    .cons "m_clan_logo" (.opt (GameCCacheHandle)) <|
    .nil

/-- `GameSHijackReplayGameEvent` (/repo/src/versions/protocol87702/mod.rs:10116-10167) -/
def GameSHijackReplayGameEvent : BTy :=
  .struct <|
    .cons "m_user_infos" (.arr 5 (GameSHijackReplayGameUserInfo)) <|
    .cons "m_method" (GameEHijackMethod) <|
    .nil

/-- `GameSTriggerSkippedEvent` (/repo/src/versions/protocol87702/mod.rs:10380-10387) -/
def GameSTriggerSkippedEvent : BTy :=
  .struct .nil

/-- `GameSTriggerSoundLengthQueryEvent` (/repo/src/versions/protocol87702/mod.rs:10390-10430) -/
def GameSTriggerSoundLengthQueryEvent : BTy :=
  .struct <|
    .cons "m_sound_hash" (Uint32) <|
    .cons "m_length" (Uint32) <|
    .nil

/-- `GameTTriggerSoundTag` (/repo/src/versions/protocol87702/mod.rs:13155-13164) -/
def GameTTriggerSoundTag : BTy :=
  Uint32

/-- `GameSTriggerSoundOffsetEvent` (/repo/src/versions/protocol87702/mod.rs:10602-10630) -/
def GameSTriggerSoundOffsetEvent : BTy :=
  .struct <|
    .cons "m_sound" (GameTTriggerSoundTag) <|
    .nil

/-- `GameTTriggerThreadTag` (/repo/src/versions/protocol87702/mod.rs:13143-13152) -/
def GameTTriggerThreadTag : BTy :=
  Uint32

/-- `GameSTriggerTransmissionOffsetEvent` (/repo/src/versions/protocol87702/mod.rs:10633-10677) -/
def GameSTriggerTransmissionOffsetEvent : BTy :=
  .struct <|
    .cons "m_transmission_id" (Int32) <|
    .cons "m_thread" (GameTTriggerThreadTag) <|
    .nil

/-- `GameSTriggerTransmissionCompleteEvent` (/repo/src/versions/protocol87702/mod.rs:10680-10708) -/
def GameSTriggerTransmissionCompleteEvent : BTy :=
  .struct <|
    .cons "m_transmission_id" (Int32) <|
    .nil

/-- `GameSCameraUpdateEvent` (/repo/src/versions/protocol87702/mod.rs:10711-10847) -/
def GameSCameraUpdateEvent : BTy :=
  .struct <|
    .cons "m_target" (.opt (GameSPointMini)) <|
    .cons "m_distance" (.opt (GameTFixedMiniBitsUnsigned)) <|
    .cons "m_pitch" (.opt (GameTFixedMiniBitsUnsigned)) <|
    .cons "m_yaw" (.opt (GameTFixedMiniBitsUnsigned)) <|
    .cons "m_reason" (.opt (Int8)) <|
    .cons "m_follow" (.bool) <|
    .nil

/-- `GameSTriggerAbortMissionEvent` (/repo/src/versions/protocol87702/mod.rs:10170-10177) -/
def GameSTriggerAbortMissionEvent : BTy :=
  .struct .nil

/-- `GameSTriggerPurchaseMadeEvent` (/repo/src/versions/protocol87702/mod.rs:10180-10208) -/
def GameSTriggerPurchaseMadeEvent : BTy :=
  .struct <|
    .cons "m_purchase_item_id" (Int32) <|
    .nil

/-- `GameSTriggerPurchaseExitEvent` (/repo/src/versions/protocol87702/mod.rs:10211-10218) -/
def GameSTriggerPurchaseExitEvent : BTy :=
  .struct .nil

/-- `GameSTriggerPlanetMissionLaunchedEvent` (/repo/src/versions/protocol87702/mod.rs:10221-10249) -/
def GameSTriggerPlanetMissionLaunchedEvent : BTy :=
  .struct <|
    .cons "m_difficulty_level" (Int32) <|
    .nil

/-- `GameSTriggerPlanetPanelCanceledEvent` (/repo/src/versions/protocol87702/mod.rs:10252-10259) -/
def GameSTriggerPlanetPanelCanceledEvent : BTy :=
  .struct .nil

/-- `GameCChatString` (/repo/src/versions/protocol87702/mod.rs:17207-17219) -/
def GameCChatString : BTy :=
  .blob 11

/-- `MEventData` (/repo/src/versions/protocol87702/mod.rs:10321-10377) -/
def MEventData : BTy :=
  .choice 3 <|
    .cons 0 (.null) <| -- None
    .cons 1 (.bool) <| -- Checked
    .cons 2 (Uint32) <| -- ValueChanged
    .cons 3 (Int32) <| -- SelectionChanged
    .cons 4 (GameCChatString) <| -- TextChanged
    .cons 5 (Uint32) <| -- MouseButton
    .nil

/-- `GameSTriggerDialogControlEvent` (/repo/src/versions/protocol87702/mod.rs:10262-10318) -/
def GameSTriggerDialogControlEvent : BTy :=
  .struct <|
    .cons "m_control_id" (Int32) <|
    .cons "m_event_type" (Int32) <|
    .cons "m_event_data" (MEventData) <|
    .nil

/-- `GameSSyncSoundLength` (/repo/src/versions/protocol87702/mod.rs:13678-13734) -/
def GameSSyncSoundLength : BTy :=
  .struct <|
    .cons "m_sound_hash" (.arr 7 (Uint32)) <|
    .cons "m_length" (.arr 7 (Uint32)) <|
    .nil

/-- `GameSTriggerSoundLengthSyncEvent` (/repo/src/versions/protocol87702/mod.rs:10433-10461) -/
def GameSTriggerSoundLengthSyncEvent : BTy :=
  .struct <|
    .cons "m_sync_info" (GameSSyncSoundLength) <|
    .nil

/-- `GameEConversationSkip` (/repo/src/versions/protocol87702/mod.rs:13024-13050) -/
def GameEConversationSkip : BTy :=
  .choice 1 <|
    .cons 0 (.null) <| -- ESkipOneLine
    .cons 1 (.null) <| -- ESkipAllLines
    .nil

/-- `GameSTriggerConversationSkippedEvent` (/repo/src/versions/protocol87702/mod.rs:10850-10878) -/
def GameSTriggerConversationSkippedEvent : BTy :=
  .struct <|
    .cons "m_skip_type" (GameEConversationSkip) <|
    .nil

/-- `GameTuiCoordX` (/repo/src/versions/protocol87702/mod.rs:13269-13280) -/
def GameTuiCoordX : BTy :=
  .int (0) 11

/-- `GameTuiCoordY` (/repo/src/versions/protocol87702/mod.rs:13283-13294) -/
def GameTuiCoordY : BTy :=
  .int (0) 11

/-- `GameSuiCoord` (/repo/src/versions/protocol87702/mod.rs:13564-13604) -/
def GameSuiCoord : BTy :=
  .struct <|
    .cons "x" (GameTuiCoordX) <|
    .cons "y" (GameTuiCoordY) <|
    .nil

/-- `GameSTriggerMouseClickedEvent` (/repo/src/versions/protocol87702/mod.rs:10881-10967) -/
def GameSTriggerMouseClickedEvent : BTy :=
  .struct <|
    .cons "m_button" (Uint32) <|
    .cons "m_down" (.bool) <|
    .cons "m_pos_ui" (GameSuiCoord) <|
    .cons "m_pos_world" (GameSMapCoord3D) <|
    .cons "m_flags" (Int8) <|
    .nil

/-- `GameSTriggerMouseMovedEvent` (/repo/src/versions/protocol87702/mod.rs:10970-11028) -/
def GameSTriggerMouseMovedEvent : BTy :=
  .struct <|
    .cons "m_pos_ui" (GameSuiCoord) <|
    .cons "m_pos_world" (GameSMapCoord3D) <|
    .cons "m_flags" (Int8) <|
    .nil

/-- `GameTAchievementLink` (/repo/src/versions/protocol87702/mod.rs:13083-13092) -/
def GameTAchievementLink : BTy :=
  Uint16

/-- `GameSAchievementAwardedEvent` (/repo/src/versions/protocol87702/mod.rs:11031-11059) -/
def GameSAchievementAwardedEvent : BTy :=
  .struct <|
    .cons "m_achievement_link" (GameTAchievementLink) <|
    .nil

/-- `GameSTriggerHotkeyPressedEvent` (/repo/src/versions/protocol87702/mod.rs:11062-11102) -/
def GameSTriggerHotkeyPressedEvent : BTy :=
  .struct <|
    .cons "m_hotkey" (Uint32) <|
    .cons "m_down" (.bool) <|
    .nil

/-- `GameSTriggerTargetModeUpdateEvent` (/repo/src/versions/protocol87702/mod.rs:11105-11161) -/
def GameSTriggerTargetModeUpdateEvent : BTy :=
  .struct <|
    .cons "m_abil_link" (GameTAbilLink) <|
    .cons "m_abil_cmd_index" (.int (0) 5) <|
    .cons "m_state" (Int8) <|
    .nil

/-- `GameSTriggerPlanetPanelReplayEvent` (/repo/src/versions/protocol87702/mod.rs:11164-11171) -/
def GameSTriggerPlanetPanelReplayEvent : BTy :=
  .struct .nil

/-- `GameSTriggerSoundtrackDoneEvent` (/repo/src/versions/protocol87702/mod.rs:11174-11200) -/
def GameSTriggerSoundtrackDoneEvent : BTy :=
  .struct <|
    .cons "m_soundtrack" (Uint32) <|
    .nil

/-- `GameSTriggerPlanetMissionSelectedEvent` (/repo/src/versions/protocol87702/mod.rs:11203-11229) -/
def GameSTriggerPlanetMissionSelectedEvent : BTy :=
  .struct <|
    .cons "m_planet_id" (Int32) <|
    .nil

/-- `GameSTriggerKeyPressedEvent` (/repo/src/versions/protocol87702/mod.rs:11232-11272) -/
def GameSTriggerKeyPressedEvent : BTy :=
  .struct <|
    .cons "m_key" (Int8) <|
    .cons "m_flags" (Int8) <|
    .nil

/-- `GameSTriggerMovieFunctionEvent` (/repo/src/versions/protocol87702/mod.rs:11787-11822) -/
def GameSTriggerMovieFunctionEvent : BTy :=
  .struct <|
    .cons "m_function_name" (.byteArr 7) <|
    .nil

/-- `GameSTriggerPlanetPanelBirthCompleteEvent` (/repo/src/versions/protocol87702/mod.rs:11275-11282) -/
def GameSTriggerPlanetPanelBirthCompleteEvent : BTy :=
  .struct .nil

/-- `GameSTriggerPlanetPanelDeathCompleteEvent` (/repo/src/versions/protocol87702/mod.rs:11285-11292) -/
def GameSTriggerPlanetPanelDeathCompleteEvent : BTy :=
  .struct .nil

/-- `GameSResourceRequestEvent` (/repo/src/versions/protocol87702/mod.rs:11295-11330) -/
def GameSResourceRequestEvent : BTy :=
  .struct <|
    .cons "m_resources" (.arr 3 (Int32)) <|
    .nil

/-- `GameSResourceRequestFulfillEvent` (/repo/src/versions/protocol87702/mod.rs:11333-11362) -/
def GameSResourceRequestFulfillEvent : BTy :=
  .struct <|
    .cons "m_fulfill_request_id" (Int32) <|
    .nil

/-- `GameSResourceRequestCancelEvent` (/repo/src/versions/protocol87702/mod.rs:11365-11393) -/
def GameSResourceRequestCancelEvent : BTy :=
  .struct <|
    .cons "m_cancel_request_id" (Int32) <|
    .nil

/-- `GameSTriggerResearchPanelExitEvent` (/repo/src/versions/protocol87702/mod.rs:11396-11403) -/
def GameSTriggerResearchPanelExitEvent : BTy :=
  .struct .nil

/-- `GameSTriggerResearchPanelPurchaseEvent` (/repo/src/versions/protocol87702/mod.rs:11406-11413) -/
def GameSTriggerResearchPanelPurchaseEvent : BTy :=
  .struct .nil

/-- `GameSTriggerResearchPanelSelectionChangedEvent` (/repo/src/versions/protocol87702/mod.rs:11467-11495) -/
def GameSTriggerResearchPanelSelectionChangedEvent : BTy :=
  .struct <|
    .cons "m_research_item_id" (Int32) <|
    .nil

/-- `GameSTriggerCommandErrorEvent` (/repo/src/versions/protocol87702/mod.rs:11416-11464) -/
def GameSTriggerCommandErrorEvent : BTy :=
  .struct <|
    .cons "m_error" (Int32) <|
    .cons "m_abil" (.opt (GameSCmdAbil)) <|
    .nil

/-- `GameSTriggerMercenaryPanelExitEvent` (/repo/src/versions/protocol87702/mod.rs:11498-11505) -/
def GameSTriggerMercenaryPanelExitEvent : BTy :=
  .struct .nil

/-- `GameSTriggerMercenaryPanelPurchaseEvent` (/repo/src/versions/protocol87702/mod.rs:11508-11515) -/
def GameSTriggerMercenaryPanelPurchaseEvent : BTy :=
  .struct .nil

/-- `GameSTriggerMercenaryPanelSelectionChangedEvent` (/repo/src/versions/protocol87702/mod.rs:11518-11544) -/
def GameSTriggerMercenaryPanelSelectionChangedEvent : BTy :=
  .struct <|
    .cons "m_mercenary_id" (Int32) <|
    .nil

/-- `GameSTriggerVictoryPanelExitEvent` (/repo/src/versions/protocol87702/mod.rs:11547-11554) -/
def GameSTriggerVictoryPanelExitEvent : BTy :=
  .struct .nil

/-- `GameSTriggerBattleReportPanelExitEvent` (/repo/src/versions/protocol87702/mod.rs:11557-11564) -/
def GameSTriggerBattleReportPanelExitEvent : BTy :=
  .struct .nil

/-- `GameSTriggerBattleReportPanelPlayMissionEvent` (/repo/src/versions/protocol87702/mod.rs:11567-11611) -/
def GameSTriggerBattleReportPanelPlayMissionEvent : BTy :=
  .struct <|
    .cons "m_battle_report_id" (Int32) <|
    .cons "m_difficulty_level" (Int32) <|
    .nil

/-- `GameSTriggerBattleReportPanelPlaySceneEvent` (/repo/src/versions/protocol87702/mod.rs:11614-11642) -/
def GameSTriggerBattleReportPanelPlaySceneEvent : BTy :=
  .struct <|
    .cons "m_battle_report_id" (Int32) <|
    .nil

/-- `GameSTriggerBattleReportPanelSelectionChangedEvent` (/repo/src/versions/protocol87702/mod.rs:11645-11673) -/
def GameSTriggerBattleReportPanelSelectionChangedEvent : BTy :=
  .struct <|
    .cons "m_battle_report_id" (Int32) <|
    .nil

/-- `GameSTriggerVictoryPanelPlayMissionAgainEvent` (/repo/src/versions/protocol87702/mod.rs:11676-11704) -/
def GameSTriggerVictoryPanelPlayMissionAgainEvent : BTy :=
  .struct <|
    .cons "m_difficulty_level" (Int32) <|
    .nil

/-- `GameSTriggerMovieStartedEvent` (/repo/src/versions/protocol87702/mod.rs:11707-11714) -/
def GameSTriggerMovieStartedEvent : BTy :=
  .struct .nil

/-- `GameSTriggerMovieFinishedEvent` (/repo/src/versions/protocol87702/mod.rs:11717-11724) -/
def GameSTriggerMovieFinishedEvent : BTy :=
  .struct .nil

/-- `GameSDecrementGameTimeRemainingEvent` (/repo/src/versions/protocol87702/mod.rs:11727-11755) -/
def GameSDecrementGameTimeRemainingEvent : BTy :=
  .struct <|
    .cons "m_decrement_seconds" (Int32) <|
    .nil

/-- `GameSTriggerPortraitLoadedEvent` (/repo/src/versions/protocol87702/mod.rs:11758-11784) -/
def GameSTriggerPortraitLoadedEvent : BTy :=
  .struct <|
    .cons "m_portrait_id" (Int32) <|
    .nil

/-- `GameSTriggerCustomDialogDismissedEvent` (/repo/src/versions/protocol87702/mod.rs:11825-11851) -/
def GameSTriggerCustomDialogDismissedEvent : BTy :=
  .struct <|
    .cons "m_result" (Int32) <|
    .nil

/-- `GameSTriggerGameMenuItemSelectedEvent` (/repo/src/versions/protocol87702/mod.rs:11854-11883) -/
def GameSTriggerGameMenuItemSelectedEvent : BTy :=
  .struct <|
    .cons "m_game_menu_item_index" (Int32) <|
    .nil

/-- `GameTFixedMiniBitsSigned` (/repo/src/versions/protocol87702/mod.rs:13203-13212) -/
def GameTFixedMiniBitsSigned : BTy :=
  Int16

/-- `GameSTriggerMouseWheelEvent` (/repo/src/versions/protocol87702/mod.rs:11886-11928) -/
def GameSTriggerMouseWheelEvent : BTy :=
  .struct <|
    .cons "m_wheel_spin" (GameTFixedMiniBitsSigned) <|
    .cons "m_flags" (Int8) <|
    .nil

/-- `GameSTriggerPurchasePanelSelectedPurchaseItemChangedEvent` (/repo/src/versions/protocol87702/mod.rs:11931-11959) -/
def GameSTriggerPurchasePanelSelectedPurchaseItemChangedEvent : BTy :=
  .struct <|
    .cons "m_purchase_item_id" (Int32) <|
    .nil

/-- `GameSTriggerPurchasePanelSelectedPurchaseCategoryChangedEvent` (/repo/src/versions/protocol87702/mod.rs:11962-11991) -/
def GameSTriggerPurchasePanelSelectedPurchaseCategoryChangedEvent : BTy :=
  .struct <|
    .cons "m_purchase_category_id" (Int32) <|
    .nil

/-- `GameTButtonLink` (/repo/src/versions/protocol87702/mod.rs:13107-13116) -/
def GameTButtonLink : BTy :=
  Uint16

/-- `GameSTriggerButtonPressedEvent` (/repo/src/versions/protocol87702/mod.rs:11994-12022) -/
def GameSTriggerButtonPressedEvent : BTy :=
  .struct <|
    .cons "m_button" (GameTButtonLink) <|
    .nil

/-- `GameSTriggerGameCreditsFinishedEvent` (/repo/src/versions/protocol87702/mod.rs:12025-12032) -/
def GameSTriggerGameCreditsFinishedEvent : BTy :=
  .struct .nil

/-- `GameSTriggerCutsceneBookmarkFiredEvent` (/repo/src/versions/protocol87702/mod.rs:12035-12084) -/
def GameSTriggerCutsceneBookmarkFiredEvent : BTy :=
  .struct <|
    .cons "m_cutscene_id" (Int32) <|
    .cons "m_bookmark_name" (.byteArr 7) <|
    .nil

/-- `GameSTriggerCutsceneEndSceneFiredEvent` (/repo/src/versions/protocol87702/mod.rs:12087-12113) -/
def GameSTriggerCutsceneEndSceneFiredEvent : BTy :=
  .struct <|
    .cons "m_cutscene_id" (Int32) <|
    .nil

/-- `GameSTriggerCutsceneConversationLineEvent` (/repo/src/versions/protocol87702/mod.rs:12116-12191) -/
def GameSTriggerCutsceneConversationLineEvent : BTy :=
  .struct <|
    .cons "m_cutscene_id" (Int32) <|
    .cons "m_conversation_line" (.byteArr 7) <|
    .cons "m_alt_conversation_line" (.byteArr 7) <|
    .nil

/-- `GameSTriggerCutsceneConversationLineMissingEvent` (/repo/src/versions/protocol87702/mod.rs:12194-12243) -/
def GameSTriggerCutsceneConversationLineMissingEvent : BTy :=
  .struct <|
    .cons "m_cutscene_id" (Int32) <|
    .cons "m_conversation_line" (.byteArr 7) <|
    .nil

/-- `GameSGameUserLeaveEvent` (/repo/src/versions/protocol87702/mod.rs:12246-12274) -/
def GameSGameUserLeaveEvent : BTy :=
  .struct <|
    .cons "m_leave_reason" (ELeaveReason) <|
    .nil

/-- `GameSGameUserJoinEvent` (/repo/src/versions/protocol87702/mod.rs:12277-12425) -/
def GameSGameUserJoinEvent : BTy :=
  .struct <|
    .cons "m_observe" (EObserve) <|
    .cons "m_name" (CUserName) <|
    .cons "m_toon_handle" (.opt (CToonHandle)) <|
    .cons "m_clan_tag" (.opt (CClanTag)) <|
    .cons "m_clan_logo" (.opt (GameCCacheHandle)) <|
    .cons "m_hijack" (.bool) <|
    .cons "m_hijack_clone_game_user_id" (.opt (TUserId)) <|
    .nil

/-- `GameECommandManagerState` (/repo/src/versions/protocol87702/mod.rs:12428-12459) -/
def GameECommandManagerState : BTy :=
  .choice 2 <|
    .cons 0 (.null) <| -- EFireDone
    .cons 1 (.null) <| -- EFireOnce
    .cons 2 (.null) <| -- EFireMany
    .nil

/-- `GameSCommandManagerStateEvent` (/repo/src/versions/protocol87702/mod.rs:12462-12512) -/
def GameSCommandManagerStateEvent : BTy :=
  .struct <|
    .cons "m_state" (GameECommandManagerState) <|
    .cons "m_sequence" (.optRewind (.int (1) 32)) <|
    .nil

/-- `GameSCmdUpdateTargetPointEvent` (/repo/src/versions/protocol87702/mod.rs:12515-12543) -/
def GameSCmdUpdateTargetPointEvent : BTy :=
  .struct <|
    .cons "m_target" (GameSMapCoord3D) <|
    .nil

/-- `GameSCmdUpdateTargetUnitEvent` (/repo/src/versions/protocol87702/mod.rs:12546-12574) -/
def GameSCmdUpdateTargetUnitEvent : BTy :=
  .struct <|
    .cons "m_target" (GameSCmdDataTargetUnit) <|
    .nil

/-- `GameSTriggerAnimLengthQueryByNameEvent` (/repo/src/versions/protocol87702/mod.rs:10464-10522) -/
def GameSTriggerAnimLengthQueryByNameEvent : BTy :=
  .struct <|
    .cons "m_query_id" (GameTQueryId) <|
    .cons "m_length_ms" (Uint32) <|
    .cons "m_finish_game_loop" (Uint32) <|
    .nil

/-- `GameSTriggerAnimLengthQueryByPropsEvent` (/repo/src/versions/protocol87702/mod.rs:10525-10567) -/
def GameSTriggerAnimLengthQueryByPropsEvent : BTy :=
  .struct <|
    .cons "m_query_id" (GameTQueryId) <|
    .cons "m_length_ms" (Uint32) <|
    .nil

/-- `GameSTriggerAnimOffsetEvent` (/repo/src/versions/protocol87702/mod.rs:10570-10599) -/
def GameSTriggerAnimOffsetEvent : BTy :=
  .struct <|
    .cons "m_anim_wait_query_id" (GameTQueryId) <|
    .nil

/-- `GameSCatalogModifyEvent` (/repo/src/versions/protocol87702/mod.rs:12577-12659) -/
def GameSCatalogModifyEvent : BTy :=
  .struct <|
    .cons "m_catalog" (Uint8) <|
    .cons "m_entry" (Uint16) <|
    .cons "m_field" (.byteArr 9) <|
    .cons "m_value" (.byteArr 9) <|
    .nil

/-- `GameSHeroTalentTreeSelectedEvent` (/repo/src/versions/protocol87702/mod.rs:12662-12688) -/
def GameSHeroTalentTreeSelectedEvent : BTy :=
  .struct <|
    .cons "m_index" (Uint32) <|
    .nil

/-- `GameSTriggerProfilerLoggingFinishedEvent` (/repo/src/versions/protocol87702/mod.rs:12691-12698) -/
def GameSTriggerProfilerLoggingFinishedEvent : BTy :=
  .struct .nil

/-- `GameSHeroTalentTreeSelectionPanelToggledEvent` (/repo/src/versions/protocol87702/mod.rs:12701-12727) -/
def GameSHeroTalentTreeSelectionPanelToggledEvent : BTy :=
  .struct <|
    .cons "m_shown" (.bool) <|
    .nil

/-- `GameSMuteChatEvent` (/repo/src/versions/protocol87702/mod.rs:12730-12772) -/
def GameSMuteChatEvent : BTy :=
  .struct <|
    .cons "m_target_user_id" (TUserId) <|
    .cons "m_muted" (.bool) <|
    .nil

/-- `GameSConvertToReplaySessionEvent` (/repo/src/versions/protocol87702/mod.rs:12775-12812) -/
def GameSConvertToReplaySessionEvent : BTy :=
  .struct <|
    .cons "m_replay_jump_game_loop" (.opt (Int32)) <|
    .nil

/-- `GameSSetSyncLoadingTimeEvent` (/repo/src/versions/protocol87702/mod.rs:12815-12841) -/
def GameSSetSyncLoadingTimeEvent : BTy :=
  .struct <|
    .cons "m_sync_time" (Uint32) <|
    .nil

/-- `GameSSetSyncPlayingTimeEvent` (/repo/src/versions/protocol87702/mod.rs:12844-12870) -/
def GameSSetSyncPlayingTimeEvent : BTy :=
  .struct <|
    .cons "m_sync_time" (Uint32) <|
    .nil

/-- `GameSPeerSetSyncLoadingTimeEvent` (/repo/src/versions/protocol87702/mod.rs:12873-12899) -/
def GameSPeerSetSyncLoadingTimeEvent : BTy :=
  .struct <|
    .cons "m_sync_time" (Uint32) <|
    .nil

/-- `GameSPeerSetSyncPlayingTimeEvent` (/repo/src/versions/protocol87702/mod.rs:12902-12928) -/
def GameSPeerSetSyncPlayingTimeEvent : BTy :=
  .struct <|
    .cons "m_sync_time" (Uint32) <|
    .nil

/-- `GameEEventId` (/repo/src/versions/protocol87702/mod.rs:6493-7371) -/
def GameEEventId : BTy :=
  .choice 7 <|
    .cons 0 (GameSSetLobbySlotEvent) <| -- ESetLobbySlot
    .cons 1 (GameSDropUserEvent) <| -- EDropUser
    .cons 2 (GameSStartGameEvent) <| -- EStartGame
    .cons 3 (GameSDropOurselvesEvent) <| -- EDropOurselves
    .cons 4 (GameSUserFinishedLoadingEvent) <| -- EUserFinishedLoading
    .cons 5 (GameSUserFinishedLoadingSyncEvent) <| -- EUserFinishedLoadingSync
    .cons 6 (GameSSetGameDurationEvent) <| -- ESetGameDuration
    .cons 7 (GameSUserOptionsEvent) <| -- EUserOptions
    .cons 114 (GameSPickMapTagEvent) <| -- EPickMapTag
    .cons 8 (GameSTurnEvent) <| -- ETurn
    .cons 9 (GameSBankFileEvent) <| -- EBankFile
    .cons 10 (GameSBankSectionEvent) <| -- EBankSection
    .cons 11 (GameSBankKeyEvent) <| -- EBankKey
    .cons 12 (GameSBankValueEvent) <| -- EBankValue
    .cons 13 (GameSBankSignatureEvent) <| -- EBankSignature
    .cons 14 (GameSCameraSaveEvent) <| -- ECameraSave
    .cons 15 (GameSPauseGameEvent) <| -- EPauseGame
    .cons 16 (GameSUnpauseGameEvent) <| -- EUnpauseGame
    .cons 17 (GameSSingleStepGameEvent) <| -- ESingleStepGame
    .cons 18 (GameSSetGameSpeedEvent) <| -- ESetGameSpeed
    .cons 19 (GameSAddGameSpeedEvent) <| -- EAddGameSpeed
    .cons 20 (GameSReplayJumpEvent) <| -- EReplayJump
    .cons 21 (GameSSaveGameEvent) <| -- ESaveGame
    .cons 22 (GameSSaveGameDoneEvent) <| -- ESaveGameDone
    .cons 23 (GameSLoadGameDoneEvent) <| -- ELoadGameDone
    .cons 24 (GameSSessionCheatEvent) <| -- ESessionCheat
    .cons 25 (GameSCommandManagerResetEvent) <| -- ECommandManagerReset
    .cons 26 (GameSGameCheatEvent) <| -- EGameCheat
    .cons 27 (GameSCmdEvent) <| -- ECmd
    .cons 28 (GameSSelectionDeltaEvent) <| -- ESelectionDelta
    .cons 29 (GameSControlGroupUpdateEvent) <| -- EControlGroupUpdate
    .cons 30 (GameSSelectionSyncCheckEvent) <| -- ESelectionSyncCheck
    .cons 31 (GameSResourceTradeEvent) <| -- EResourceTrade
    .cons 32 (GameSTriggerChatMessageEvent) <| -- ETriggerChatMessage
    .cons 33 (GameSaiCommunicateEvent) <| -- EAiCommunicate
    .cons 34 (GameSSetAbsoluteGameSpeedEvent) <| -- ESetAbsoluteGameSpeed
    .cons 35 (GameSAddAbsoluteGameSpeedEvent) <| -- EAddAbsoluteGameSpeed
    .cons 36 (GameSTriggerPingEvent) <| -- ETriggerPing
    .cons 37 (GameSBroadcastCheatEvent) <| -- EBroadcastCheat
    .cons 38 (GameSAllianceEvent) <| -- EAlliance
    .cons 39 (GameSUnitClickEvent) <| -- EUnitClick
    .cons 40 (GameSUnitHighlightEvent) <| -- EUnitHighlight
    .cons 41 (GameSTriggerReplySelectedEvent) <| -- ETriggerReplySelected
    .cons 42 (GameSHijackReplaySessionEvent) <| -- EHijackReplaySession
    .cons 43 (GameSHijackReplayGameEvent) <| -- EHijackReplayGame
    .cons 44 (GameSTriggerSkippedEvent) <| -- ETriggerSkipped
    .cons 45 (GameSTriggerSoundLengthQueryEvent) <| -- ETriggerSoundLengthQuery
    .cons 46 (GameSTriggerSoundOffsetEvent) <| -- ETriggerSoundOffset
    .cons 47 (GameSTriggerTransmissionOffsetEvent) <| -- ETriggerTransmissionOffset
    .cons 48 (GameSTriggerTransmissionCompleteEvent) <| -- ETriggerTransmissionComplete
    .cons 49 (GameSCameraUpdateEvent) <| -- ECameraUpdate
    .cons 50 (GameSTriggerAbortMissionEvent) <| -- ETriggerAbortMission
    .cons 51 (GameSTriggerPurchaseMadeEvent) <| -- ETriggerPurchaseMade
    .cons 52 (GameSTriggerPurchaseExitEvent) <| -- ETriggerPurchaseExit
    .cons 53 (GameSTriggerPlanetMissionLaunchedEvent) <| -- ETriggerPlanetMissionLaunched
    .cons 54 (GameSTriggerPlanetPanelCanceledEvent) <| -- ETriggerPlanetPanelCanceled
    .cons 55 (GameSTriggerDialogControlEvent) <| -- ETriggerDialogControl
    .cons 56 (GameSTriggerSoundLengthSyncEvent) <| -- ETriggerSoundLengthSync
    .cons 57 (GameSTriggerConversationSkippedEvent) <| -- ETriggerConversationSkipped
    .cons 58 (GameSTriggerMouseClickedEvent) <| -- ETriggerMouseClicked
    .cons 59 (GameSTriggerMouseMovedEvent) <| -- ETriggerMouseMoved
    .cons 60 (GameSAchievementAwardedEvent) <| -- EAchievementAwarded
    .cons 61 (GameSTriggerHotkeyPressedEvent) <| -- ETriggerHotkeyPressed
    .cons 62 (GameSTriggerTargetModeUpdateEvent) <| -- ETriggerTargetModeUpdate
    .cons 63 (GameSTriggerPlanetPanelReplayEvent) <| -- ETriggerPlanetPanelPanelReplay
    .cons 64 (GameSTriggerSoundtrackDoneEvent) <| -- ETriggerSoundtrackDone
    .cons 65 (GameSTriggerPlanetMissionSelectedEvent) <| -- ETriggerPlanetMissionSelected
    .cons 66 (GameSTriggerKeyPressedEvent) <| -- ETriggerKeyPressed
    .cons 67 (GameSTriggerMovieFunctionEvent) <| -- ETriggerMovieFunction
    .cons 68 (GameSTriggerPlanetPanelBirthCompleteEvent) <| -- ETriggerPlanetPanelPanelBirthComplete
    .cons 69 (GameSTriggerPlanetPanelDeathCompleteEvent) <| -- ETriggerPlanetPanelPanelDeathComplete
    .cons 70 (GameSResourceRequestEvent) <| -- EResourceRequest
    .cons 71 (GameSResourceRequestFulfillEvent) <| -- EResourceRequestFulfill
    .cons 72 (GameSResourceRequestCancelEvent) <| -- EResourceRequestCancel
    .cons 73 (GameSTriggerResearchPanelExitEvent) <| -- ETriggerResearchPanelExit
    .cons 74 (GameSTriggerResearchPanelPurchaseEvent) <| -- ETriggerResearchPanelPurchase
    .cons 75 (GameSTriggerResearchPanelSelectionChangedEvent) <| -- ETriggerResearchPanelSelectionChanged
    .cons 76 (GameSTriggerCommandErrorEvent) <| -- ETriggerCommandError
    .cons 77 (GameSTriggerMercenaryPanelExitEvent) <| -- ETriggerMercenaryPanelExit
    .cons 78 (GameSTriggerMercenaryPanelPurchaseEvent) <| -- ETriggerMercenaryPanelPurchase
    .cons 79 (GameSTriggerMercenaryPanelSelectionChangedEvent) <| -- ETriggerMercenaryPanelSelectionChanged
    .cons 80 (GameSTriggerVictoryPanelExitEvent) <| -- ETriggerVictoryPanelExit
    .cons 81 (GameSTriggerBattleReportPanelExitEvent) <| -- ETriggerBattleReportPanelExit
    .cons 82 (GameSTriggerBattleReportPanelPlayMissionEvent) <| -- ETriggerBattleReportPanelPlayMission
    .cons 83 (GameSTriggerBattleReportPanelPlaySceneEvent) <| -- ETriggerBattleReportPanelPlayScene
    .cons 84 (GameSTriggerBattleReportPanelSelectionChangedEvent) <| -- ETriggerBattleReportSelectionChanged
    .cons 85 (GameSTriggerVictoryPanelPlayMissionAgainEvent) <| -- ETriggerVictoryPanelPlayMissionAgain
    .cons 86 (GameSTriggerMovieStartedEvent) <| -- ETriggerMovieStarted
    .cons 87 (GameSTriggerMovieFinishedEvent) <| -- ETriggerMovieFinished
    .cons 88 (GameSDecrementGameTimeRemainingEvent) <| -- EDecrementGameTimeRemaining
    .cons 89 (GameSTriggerPortraitLoadedEvent) <| -- ETriggerPortraitLoaded
    .cons 90 (GameSTriggerCustomDialogDismissedEvent) <| -- ETriggerQueryDialogDismissed
    .cons 91 (GameSTriggerGameMenuItemSelectedEvent) <| -- ETriggerGameMenuItemSelected
    .cons 92 (GameSTriggerMouseWheelEvent) <| -- ETriggerMouseWheel
    .cons 93 (GameSTriggerPurchasePanelSelectedPurchaseItemChangedEvent) <| -- ETriggerPurchasePanelSelectedPurchaseItemChanged
    .cons 94 (GameSTriggerPurchasePanelSelectedPurchaseCategoryChangedEvent) <| -- ETriggerPurchasePanelSelectedPurchaseCategoryChanged
    .cons 95 (GameSTriggerButtonPressedEvent) <| -- ETriggerButtonPressed
    .cons 96 (GameSTriggerGameCreditsFinishedEvent) <| -- ETriggerGameCreditsFinished
    .cons 97 (GameSTriggerCutsceneBookmarkFiredEvent) <| -- ETriggerCutsceneBookmarkFired
    .cons 98 (GameSTriggerCutsceneEndSceneFiredEvent) <| -- ETriggerCutsceneEndSceneFired
    .cons 99 (GameSTriggerCutsceneConversationLineEvent) <| -- ETriggerCutsceneConversationLine
    .cons 100 (GameSTriggerCutsceneConversationLineMissingEvent) <| -- ETriggerCutsceneConversationLineMissing
    .cons 101 (GameSGameUserLeaveEvent) <| -- EGameUserLeave
    .cons 102 (GameSGameUserJoinEvent) <| -- EGameUserJoin
    .cons 103 (GameSCommandManagerStateEvent) <| -- ECommandManagerState
    .cons 104 (GameSCmdUpdateTargetPointEvent) <| -- ECmdUpdateTargetPoint
    .cons 105 (GameSCmdUpdateTargetUnitEvent) <| -- ECmdUpdateTargetUnit
    .cons 106 (GameSTriggerAnimLengthQueryByNameEvent) <| -- ETriggerAnimLengthQueryByName
    .cons 107 (GameSTriggerAnimLengthQueryByPropsEvent) <| -- ETriggerAnimLengthQueryByProps
    .cons 108 (GameSTriggerAnimOffsetEvent) <| -- ETriggerAnimOffset
    .cons 109 (GameSCatalogModifyEvent) <| -- ECatalogModify
    .cons 110 (GameSHeroTalentTreeSelectedEvent) <| -- EHeroTalentTreeSelected
    .cons 111 (GameSTriggerProfilerLoggingFinishedEvent) <| -- ETriggerProfilerLoggingFinished
    .cons 112 (GameSHeroTalentTreeSelectionPanelToggledEvent) <| -- EHeroTalentTreeSelectionPanelToggled
    .cons 113 (GameSMuteChatEvent) <| -- EMuteUserChanged
    .cons 115 (GameSConvertToReplaySessionEvent) <| -- EConvertToReplaySession
    .cons 116 (GameSSetSyncLoadingTimeEvent) <| -- ESetSyncLoadingTime
    .cons 117 (GameSSetSyncPlayingTimeEvent) <| -- ESetSyncPlayingTime
    .cons 118 (GameSPeerSetSyncLoadingTimeEvent) <| -- EPeerSetSyncLoadingTime
    .cons 119 (GameSPeerSetSyncPlayingTimeEvent) <| -- EPeerSetSyncPlayingTime
    .nil

/-- `GameEPhase` (/repo/src/versions/protocol87702/mod.rs:12975-13021) -/
def GameEPhase : BTy :=
  .choice 3 <|
    .cons 0 (.null) <| -- EInitializing
    .cons 1 (.null) <| -- ELobby
    .cons 2 (.null) <| -- EClosed
    .cons 3 (.null) <| -- ELoading
    .cons 4 (.null) <| -- EPlaying
    .cons 5 (.null) <| -- EGameover
    .nil

/-- `GameTAchievementTermLink` (/repo/src/versions/protocol87702/mod.rs:13095-13104) -/
def GameTAchievementTermLink : BTy :=
  Uint16

/-- `GameTFixedInt` (/repo/src/versions/protocol87702/mod.rs:13227-13238) -/
def GameTFixedInt : BTy :=
  .int (-524288) 20

/-- `GameTFixedUInt` (/repo/src/versions/protocol87702/mod.rs:13241-13252) -/
def GameTFixedUInt : BTy :=
  .int (0) 19

/-- `GameTHeroLink` (/repo/src/versions/protocol87702/mod.rs:13297-13306) -/
def GameTHeroLink : BTy :=
  Uint16

/-- `GameSMapCoord` (/repo/src/versions/protocol87702/mod.rs:13456-13500) -/
def GameSMapCoord : BTy :=
  .struct <|
    .cons "x" (GameTMapCoordFixedBits) <|
    .cons "y" (GameTMapCoordFixedBits) <|
    .nil

/-- `GameCAllowedDifficulty` (/repo/src/versions/protocol87702/mod.rs:13633-13646) -/
def GameCAllowedDifficulty : BTy :=
  .bitsI64 6

/-- `GameCAllowedAiBuild` (/repo/src/versions/protocol87702/mod.rs:13663-13675) -/
def GameCAllowedAiBuild : BTy :=
  .bitsVec 8

/-- `GameSThumbnail` (/repo/src/versions/protocol87702/mod.rs:13737-13770) -/
def GameSThumbnail : BTy :=
  .struct <|
    .cons "m_file" (.byteArr 10) <|
    .nil

/-- `GameSColor` (/repo/src/versions/protocol87702/mod.rs:13773-13841) -/
def GameSColor : BTy :=
  .struct <|
    .cons "m_a" (Uint8) <|
    .cons "m_r" (Uint8) <|
    .cons "m_g" (Uint8) <|
    .cons "m_b" (Uint8) <|
    .nil

/-- `GameEResultDetails` (/repo/src/versions/protocol87702/mod.rs:13844-13880) -/
def GameEResultDetails : BTy :=
  .choice 2 <|
    .cons 0 (.null) <| -- EUndecided
    .cons 1 (.null) <| -- EWin
    .cons 2 (.null) <| -- ELoss
    .cons 3 (.null) <| -- ETie
    .nil

/-- `GameSToonNameDetails` (/repo/src/versions/protocol87702/mod.rs:13883-13972) -/
def GameSToonNameDetails : BTy :=
  .struct <|
    .cons "m_region" (Uint8) <|
    .cons "m_program_id" (.fourcc) <|
    .cons "m_realm" (Uint32) <|
    .cons "m_name" (.byteArr 5) <|
    .cons "m_id" (Uint64) <|
    .nil

/-- `GameSPlayerDetails` (/repo/src/versions/protocol87702/mod.rs:13975-14176) -/
def GameSPlayerDetails : BTy :=
  .struct <|
    .cons "m_name" (CUserName) <|
    .cons "m_toon" (GameSToonNameDetails) <|
    .cons "m_race" (.byteArr 7) <|
    .cons "m_color" (GameSColor) <|
    .cons "m_control" (GameTControlId) <|
    .cons "m_team_id" (GameTTeamId) <|
    .cons "m_handicap" (GameTHandicap) <|
    .cons "m_observe" (EObserve) <|
    .cons "m_result" (GameEResultDetails) <|
    .cons "m_working_set_slot_id" (.opt (Uint8)) <|
    .cons "m_hero" (.byteArr 7) <|
    .nil

/-- `GameCPlayerDetailsArray` (/repo/src/versions/protocol87702/mod.rs:14179-14200) -/
def GameCPlayerDetailsArray : BTy :=
  .arr 5 (GameSPlayerDetails)

/-- `GameCModPaths` (/repo/src/versions/protocol87702/mod.rs:14203-14224) -/
def GameCModPaths : BTy :=
  .arr 6 (CFilePath)

/-- `GameCCacheHandles` (/repo/src/versions/protocol87702/mod.rs:15285-15306) -/
def GameCCacheHandles : BTy :=
  .arr 6 (GameCCacheHandle)

/-- `GameSDetails` (/repo/src/versions/protocol87702/mod.rs:14227-14575) -/
def GameSDetails : BTy :=
  .struct <|
    .cons "m_player_list" (.opt (GameCPlayerDetailsArray)) <|
    .cons "m_title" (.byteArr 9) <|
    .cons "m_difficulty" (.byteArr 7) <|
    .cons "m_thumbnail" (GameSThumbnail) <|
    .cons "m_is_blizzard_map" (.bool) <|
    .cons "m_time_utc" (Int64) <|
    .cons "m_time_local_offset" (Int64) <|
    .cons "m_restart_as_transition_map" (.opt .bool) <|
    .cons "m_disable_recover_game" (.bool) <|
    .cons "m_description" (.byteArr 11) <|
    .cons "m_image_file_path" (CFilePath) <|
    .cons "m_campaign_index" (Uint8) <|
    .cons "m_map_file_name" (CFilePath) <|
    .cons "m_cache_handles" (.opt (GameCCacheHandles)) <|
    .cons "m_mini_save" (.bool) <|
    .cons "m_game_speed" (GameEGameSpeed) <|
    .cons "m_default_difficulty" (GameTDifficulty) <|
    .cons "m_mod_paths" (.opt (GameCModPaths)) <|
    .nil

/-- `GameEOptionFog` (/repo/src/versions/protocol87702/mod.rs:14578-14614) -/
def GameEOptionFog : BTy :=
  .choice 2 <|
    .cons 0 (.null) <| -- EDefault
    .cons 1 (.null) <| -- EHideTerrain
    .cons 2 (.null) <| -- EMapExplored
    .cons 3 (.null) <| -- EAlwaysVisible
    .nil

/-- `GameEOptionObservers` (/repo/src/versions/protocol87702/mod.rs:14617-14653) -/
def GameEOptionObservers : BTy :=
  .choice 2 <|
    .cons 0 (.null) <| -- ENone
    .cons 1 (.null) <| -- EOnJoin
    .cons 2 (.null) <| -- EOnJoinAndDefeat
    .cons 3 (.null) <| -- ERefereesOnJoin
    .nil

/-- `GameEOptionUserDifficulty` (/repo/src/versions/protocol87702/mod.rs:14656-14687) -/
def GameEOptionUserDifficulty : BTy :=
  .choice 2 <|
    .cons 0 (.null) <| -- ENone
    .cons 1 (.null) <| -- EGlobal
    .cons 2 (.null) <| -- EIndividual
    .nil

/-- `GameEGameLaunch` (/repo/src/versions/protocol87702/mod.rs:14690-14736) -/
def GameEGameLaunch : BTy :=
  .choice 3 <|
    .cons 0 (.null) <| -- EInvalid
    .cons 1 (.null) <| -- EMap
    .cons 2 (.null) <| -- EReplay
    .cons 3 (.null) <| -- ESave
    .cons 4 (.null) <| -- ETransition
    .cons 5 (.null) <| -- EServerReplay
    .nil

/-- `GameEClientDebugFlags` (/repo/src/versions/protocol87702/mod.rs:14739-14750) -/
def GameEClientDebugFlags : BTy :=
  .int (0) 64

/-- `GameSGameOptions` (/repo/src/versions/protocol87702/mod.rs:14753-15014) -/
def GameSGameOptions : BTy :=
  .struct <|
    .cons "m_lock_teams" (.bool) <|
    .cons "m_teams_together" (.bool) <|
    .cons "m_advanced_shared_control" (.bool) <|
    .cons "m_random_races" (.bool) <|
    .cons "m_battle_net" (.bool) <|
    .cons "m_amm" (.bool) <|
    .cons "m_competitive" (.bool) <|
    .cons "m_practice" (.bool) <|
    .cons "m_cooperative" (.bool) <|
    .cons "m_no_victory_or_defeat" (.bool) <|
    .cons "m_hero_duplicates_allowed" (.bool) <|
    .cons "m_fog" (GameEOptionFog) <|
    .cons "m_observers" (GameEOptionObservers) <|
    .cons "m_user_difficulty" (GameEOptionUserDifficulty) <|
    .cons "m_client_debug_flags" (GameEClientDebugFlags) <|
    .cons "m_build_coach_enabled" (.bool) <|
    .nil

/-- `GameEGameType` (/repo/src/versions/protocol87702/mod.rs:15017-15068) -/
def GameEGameType : BTy :=
  .choice 3 <|
    .cons 0 (.null) <| -- EMelee
    .cons 1 (.null) <| -- EFreeForAll
    .cons 2 (.null) <| -- EUseSettings
    .cons 3 (.null) <| -- EOneOnOne
    .cons 4 (.null) <| -- ETwoTeamPlay
    .cons 5 (.null) <| -- EThreeTeamPlay
    .cons 6 (.null) <| -- EFourTeamPlay
    .nil

/-- `GameEControl` (/repo/src/versions/protocol87702/mod.rs:15071-15107) -/
def GameEControl : BTy :=
  .choice 2 <|
    .cons 0 (.null) <| -- EOpen
    .cons 1 (.null) <| -- EClosed
    .cons 2 (.null) <| -- EUser
    .cons 3 (.null) <| -- EComputer
    .nil

/-- `GameTControlCount` (/repo/src/versions/protocol87702/mod.rs:15124-15135) -/
def GameTControlCount : BTy :=
  .int (0) 8

/-- `GameCAllowedControls` (/repo/src/versions/protocol87702/mod.rs:15138-15150) -/
def GameCAllowedControls : BTy :=
  .bitsVec 8

/-- `GameSSlotDescription` (/repo/src/versions/protocol87702/mod.rs:15153-15265) -/
def GameSSlotDescription : BTy :=
  .struct <|
    .cons "m_allowed_colors" (GameCAllowedColors) <|
    .cons "m_allowed_races" (CAllowedRaces) <|
    .cons "m_allowed_difficulty" (GameCAllowedDifficulty) <|
    .cons "m_allowed_controls" (GameCAllowedControls) <|
    .cons "m_allowed_observe_types" (CAllowedObserveTypes) <|
    .cons "m_allowed_ai_builds" (GameCAllowedAiBuild) <|
    .nil

/-- `GameCGameCacheName` (/repo/src/versions/protocol87702/mod.rs:15309-15321) -/
def GameCGameCacheName : BTy :=
  .blob 11

/-- `GameCAuthorName` (/repo/src/versions/protocol87702/mod.rs:15324-15336) -/
def GameCAuthorName : BTy :=
  .blob 8

/-- `GameSSlotDescriptions` (/repo/src/versions/protocol87702/mod.rs:15339-15360) -/
def GameSSlotDescriptions : BTy :=
  .arr 5 (GameSSlotDescription)

/-- `GameTPlayerCount` (/repo/src/versions/protocol87702/mod.rs:17452-17463) -/
def GameTPlayerCount : BTy :=
  .int (0) 5

/-- `GameTTeamCount` (/repo/src/versions/protocol87702/mod.rs:18163-18174) -/
def GameTTeamCount : BTy :=
  .int (1) 5

/-- `GameSGameDescription` (/repo/src/versions/protocol87702/mod.rs:15363-15839) -/
def GameSGameDescription : BTy :=
  .struct <|
    .cons "m_random_value" (Uint32) <|
    .cons "m_game_cache_name" (GameCGameCacheName) <|
    .cons "m_game_options" (GameSGameOptions) <|
    .cons "m_game_speed" (GameEGameSpeed) <|
    .cons "m_game_type" (GameEGameType) <|
    .cons "m_max_users" (TUserCount) <|
    .cons "m_max_observers" (TUserCount) <|
    .cons "m_max_players" (GameTPlayerCount) <|
    .cons "m_max_teams" (GameTTeamCount) <|
    .cons "m_max_colors" (GameTColorCount) <|
    .cons "m_max_races" (TRaceCount) <|
    .cons "m_max_controls" (GameTControlCount) <|
    .cons "m_map_size_x" (Uint8) <|
    .cons "m_map_size_y" (Uint8) <|
    .cons "m_map_file_sync_checksum" (GameTSyncChecksum) <|
    .cons "m_map_file_name" (CFilePath) <|
    .cons "m_map_author_name" (GameCAuthorName) <|
    .cons "m_mod_file_sync_checksum" (GameTSyncChecksum) <|
    .cons "m_slot_descriptions" (GameSSlotDescriptions) <|
    .cons "m_default_difficulty" (GameTDifficulty) <|
    .cons "m_default_ai_build" (GameTaiBuild) <|
    .cons "m_cache_handles" (GameCCacheHandles) <|
    .cons "m_has_extension_mod" (.bool) <|
    .cons "m_has_non_blizzard_extension_mod" (.bool) <|
    .cons "m_is_blizzard_map" (.bool) <|
    .cons "m_is_premade_ffa" (.bool) <|
    .cons "m_is_coop_mode" (.bool) <|
    .cons "m_is_realtime_mode" (.bool) <|
    .nil

/-- `GameTLobbySlotCount` (/repo/src/versions/protocol87702/mod.rs:15842-15853) -/
def GameTLobbySlotCount : BTy :=
  .int (0) 5

/-- `GameCArtifactArray` (/repo/src/versions/protocol87702/mod.rs:15870-15891) -/
def GameCArtifactArray : BTy :=
  .arr 4 (CArtifactHandle)

/-- `GameCCommanderMasteryTalentArray` (/repo/src/versions/protocol87702/mod.rs:15894-15915) -/
def GameCCommanderMasteryTalentArray : BTy :=
  .arr 3 (Uint32)

/-- `GameTReward` (/repo/src/versions/protocol87702/mod.rs:15942-15951) -/
def GameTReward : BTy :=
  Uint32

/-- `GameCRewardArray` (/repo/src/versions/protocol87702/mod.rs:15954-15975) -/
def GameCRewardArray : BTy :=
  .arr 17 (GameTReward)

/-- `GameCRewardOverride` (/repo/src/versions/protocol87702/mod.rs:15978-16020) -/
def GameCRewardOverride : BTy :=
  .struct <|
    .cons "m_key" (Uint32) <|
    .cons "m_rewards" (GameCRewardArray) <|
    .nil

/-- `GameCRewardOverrideArray` (/repo/src/versions/protocol87702/mod.rs:16023-16044) -/
def GameCRewardOverrideArray : BTy :=
  .arr 17 (GameCRewardOverride)

/-- `GameTFlexLicenseName` (/repo/src/versions/protocol87702/mod.rs:16083-16095) -/
def GameTFlexLicenseName : BTy :=
  .blob 8

/-- `GameTFlexLicenseAttributeName` (/repo/src/versions/protocol87702/mod.rs:16098-16110) -/
def GameTFlexLicenseAttributeName : BTy :=
  .blob 8

/-- `GameTFlexLicenseAttributeValue` (/repo/src/versions/protocol87702/mod.rs:16113-16125) -/
def GameTFlexLicenseAttributeValue : BTy :=
  .blob 11

/-- `GameSLobbySlot` (/repo/src/versions/protocol87702/mod.rs:16128-16691) -/
def GameSLobbySlot : BTy :=
  .struct <|
    .cons "m_control" (GameTControlId) <|
    .cons "m_user_id" (.opt (TUserId)) <|
    .cons "m_team_id" (GameTTeamId) <|
    .cons "m_color_pref" (GameTColorPreference) <|
    .cons "m_race_pref" (TRacePreference) <|
    .cons "m_difficulty" (GameTDifficulty) <|
    .cons "m_ai_build" (GameTaiBuild) <|
    .cons "m_handicap" (GameTHandicap) <|
    .cons "m_observe" (EObserve) <|
    .cons "m_logo_index" (GameTPlayerLogoIndex) <|
    .cons "m_hero" (CHeroHandle) <|
    .cons "m_skin" (CSkinHandle) <|
    .cons "m_mount" (CMountHandle) <|
    .cons "m_artifacts" (GameCArtifactArray) <|
    .cons "m_working_set_slot_id" (.opt (Uint8)) <|
    .cons "m_rewards" (GameCRewardArray) <|
    .cons "m_toon_handle" (CToonHandle) <|
    .cons "m_licenses" (GameCLicenseArray) <|
    .cons "m_tandem_leader_id" (.opt (TUserId)) <|
    .cons "m_commander" (CCommanderHandle) <|
    .cons "m_commander_level" (Uint32) <|
    .cons "m_has_silence_penalty" (.bool) <|
    .cons "m_tandem_id" (.opt (TUserId)) <|
    .cons "m_commander_mastery_level" (Uint32) <|
    .cons "m_commander_mastery_talents" (GameCCommanderMasteryTalentArray) <|
    .cons "m_trophy_id" (Uint32) <|
    .cons "m_reward_overrides" (GameCRewardOverrideArray) <|
    .cons "m_brutal_plus_difficulty" (Uint32) <|
    .cons "m_retry_mutation_indexes" (GameCRetryMutationIndexArray) <|
    .cons "m_a_c_enemy_race" (Uint32) <|
    .cons "m_a_c_enemy_wave_type" (Uint32) <|
    .cons "m_selected_commander_prestige" (Uint32) <|
    .nil

/-- `GameCLobbySlotArray` (/repo/src/versions/protocol87702/mod.rs:16694-16715) -/
def GameCLobbySlotArray : BTy :=
  .arr 5 (GameSLobbySlot)

/-- `GameSLobbyState` (/repo/src/versions/protocol87702/mod.rs:16906-17097) -/
def GameSLobbyState : BTy :=
  .struct <|
    .cons "m_phase" (GameEPhase) <|
    .cons "m_max_users" (TUserCount) <|
    .cons "m_max_observers" (TUserCount) <|
    .cons "m_slots" (GameCLobbySlotArray) <|
    .cons "m_random_seed" (Uint32) <|
    .cons "m_host_user_id" (.opt (TUserId)) <|
    .cons "m_is_single_player" (.bool) <|
    .cons "m_picked_map_tag" (Uint8) <|
    .cons "m_game_duration" (Uint32) <|
    .cons "m_default_difficulty" (GameTDifficulty) <|
    .cons "m_default_ai_build" (GameTaiBuild) <|
    .nil

/-- `GameSLobbySyncState` (/repo/src/versions/protocol87702/mod.rs:17100-17160) -/
def GameSLobbySyncState : BTy :=
  .struct <|
    .cons "m_user_initial_data" (CUserInitialDataArray) <|
    .cons "m_game_description" (GameSGameDescription) <|
    .cons "m_lobby_state" (GameSLobbyState) <|
    .nil

/-- `GameEMessageRecipient` (/repo/src/versions/protocol87702/mod.rs:17163-17204) -/
def GameEMessageRecipient : BTy :=
  .choice 3 <|
    .cons 0 (.null) <| -- EAll
    .cons 1 (.null) <| -- EAllies
    .cons 2 (.null) <| -- EIndividual
    .cons 3 (.null) <| -- EBattlenet
    .cons 4 (.null) <| -- EObservers
    .nil

/-- `GameSChatMessage` (/repo/src/versions/protocol87702/mod.rs:17276-17320) -/
def GameSChatMessage : BTy :=
  .struct <|
    .cons "m_recipient" (GameEMessageRecipient) <|
    .cons "m_string" (GameCChatString) <|
    .nil

/-- `GameSPingMessage` (/repo/src/versions/protocol87702/mod.rs:17323-17365) -/
def GameSPingMessage : BTy :=
  .struct <|
    .cons "m_recipient" (GameEMessageRecipient) <|
    .cons "m_point" (GameSPoint) <|
    .nil

/-- `GameSLoadingProgressMessage` (/repo/src/versions/protocol87702/mod.rs:17368-17394) -/
def GameSLoadingProgressMessage : BTy :=
  .struct <|
    .cons "m_progress" (Int32) <|
    .nil

/-- `GameSServerPingMessage` (/repo/src/versions/protocol87702/mod.rs:17397-17404) -/
def GameSServerPingMessage : BTy :=
  .struct .nil

/-- `GameSReconnectNotifyMessage` (/repo/src/versions/protocol87702/mod.rs:17407-17435) -/
def GameSReconnectNotifyMessage : BTy :=
  .struct <|
    .cons "m_status" (EReconnectStatus) <|
    .nil

/-- `GameEMessageId` (/repo/src/versions/protocol87702/mod.rs:17222-17273) -/
def GameEMessageId : BTy :=
  .choice 4 <|
    .cons 0 (GameSChatMessage) <| -- EChat
    .cons 1 (GameSPingMessage) <| -- EPing
    .cons 2 (GameSLoadingProgressMessage) <| -- ELoadingProgress
    .cons 3 (GameSServerPingMessage) <| -- EServerPing
    .cons 4 (GameSReconnectNotifyMessage) <| -- EReconnectNotify
    .nil

/-- `GameEResultCode` (/repo/src/versions/protocol87702/mod.rs:17466-17502) -/
def GameEResultCode : BTy :=
  .choice 2 <|
    .cons 0 (.null) <| -- EUndecided
    .cons 1 (.null) <| -- ELoss
    .cons 2 (.null) <| -- ETie
    .cons 3 (.null) <| -- EWin
    .nil

/-- `GameTControlGroupCount` (/repo/src/versions/protocol87702/mod.rs:17624-17635) -/
def GameTControlGroupCount : BTy :=
  .int (0) 4

/-- `GameTSyncValue` (/repo/src/versions/protocol87702/mod.rs:18061-18070) -/
def GameTSyncValue : BTy :=
  Uint16

/-- `GameSSessionSyncInfo` (/repo/src/versions/protocol87702/mod.rs:18073-18108) -/
def GameSSessionSyncInfo : BTy :=
  .struct <|
    .cons "m_checksums" (.arr 6 (GameTSyncChecksum)) <|
    .nil

/-- `GameSGameSyncInfo` (/repo/src/versions/protocol87702/mod.rs:18111-18146) -/
def GameSGameSyncInfo : BTy :=
  .struct <|
    .cons "m_checksums" (.arr 8 (GameTSyncChecksum)) <|
    .nil

/-- `ReplaySInitData` (/repo/src/versions/protocol87702/mod.rs:18177-18205) -/
def ReplaySInitData : BTy :=
  .struct <|
    .cons "m_sync_lobby_state" (GameSLobbySyncState) <|
    .nil

/-- `ReplaySGameUserId` (/repo/src/versions/protocol87702/mod.rs:18208-18234) -/
def ReplaySGameUserId : BTy :=
  .struct <|
    .cons "m_user_id" (.int (0) 5) <|
    .nil

/-- Variant names of `GameEEventId` by wire tag (/repo/src/versions/protocol87702/mod.rs:6493-7371) -/
def GameEEventId.variants : List (Int × String) :=
  [(0, "ESetLobbySlot"),
   (1, "EDropUser"),
   (2, "EStartGame"),
   (3, "EDropOurselves"),
   (4, "EUserFinishedLoading"),
   (5, "EUserFinishedLoadingSync"),
   (6, "ESetGameDuration"),
   (7, "EUserOptions"),
   (114, "EPickMapTag"),
   (8, "ETurn"),
   (9, "EBankFile"),
   (10, "EBankSection"),
   (11, "EBankKey"),
   (12, "EBankValue"),
   (13, "EBankSignature"),
   (14, "ECameraSave"),
   (15, "EPauseGame"),
   (16, "EUnpauseGame"),
   (17, "ESingleStepGame"),
   (18, "ESetGameSpeed"),
   (19, "EAddGameSpeed"),
   (20, "EReplayJump"),
   (21, "ESaveGame"),
   (22, "ESaveGameDone"),
   (23, "ELoadGameDone"),
   (24, "ESessionCheat"),
   (25, "ECommandManagerReset"),
   (26, "EGameCheat"),
   (27, "ECmd"),
   (28, "ESelectionDelta"),
   (29, "EControlGroupUpdate"),
   (30, "ESelectionSyncCheck"),
   (31, "EResourceTrade"),
   (32, "ETriggerChatMessage"),
   (33, "EAiCommunicate"),
   (34, "ESetAbsoluteGameSpeed"),
   (35, "EAddAbsoluteGameSpeed"),
   (36, "ETriggerPing"),
   (37, "EBroadcastCheat"),
   (38, "EAlliance"),
   (39, "EUnitClick"),
   (40, "EUnitHighlight"),
   (41, "ETriggerReplySelected"),
   (42, "EHijackReplaySession"),
   (43, "EHijackReplayGame"),
   (44, "ETriggerSkipped"),
   (45, "ETriggerSoundLengthQuery"),
   (46, "ETriggerSoundOffset"),
   (47, "ETriggerTransmissionOffset"),
   (48, "ETriggerTransmissionComplete"),
   (49, "ECameraUpdate"),
   (50, "ETriggerAbortMission"),
   (51, "ETriggerPurchaseMade"),
   (52, "ETriggerPurchaseExit"),
   (53, "ETriggerPlanetMissionLaunched"),
   (54, "ETriggerPlanetPanelCanceled"),
   (55, "ETriggerDialogControl"),
   (56, "ETriggerSoundLengthSync"),
   (57, "ETriggerConversationSkipped"),
   (58, "ETriggerMouseClicked"),
   (59, "ETriggerMouseMoved"),
   (60, "EAchievementAwarded"),
   (61, "ETriggerHotkeyPressed"),
   (62, "ETriggerTargetModeUpdate"),
   (63, "ETriggerPlanetPanelPanelReplay"),
   (64, "ETriggerSoundtrackDone"),
   (65, "ETriggerPlanetMissionSelected"),
   (66, "ETriggerKeyPressed"),
   (67, "ETriggerMovieFunction"),
   (68, "ETriggerPlanetPanelPanelBirthComplete"),
   (69, "ETriggerPlanetPanelPanelDeathComplete"),
   (70, "EResourceRequest"),
   (71, "EResourceRequestFulfill"),
   (72, "EResourceRequestCancel"),
   (73, "ETriggerResearchPanelExit"),
   (74, "ETriggerResearchPanelPurchase"),
   (75, "ETriggerResearchPanelSelectionChanged"),
   (76, "ETriggerCommandError"),
   (77, "ETriggerMercenaryPanelExit"),
   (78, "ETriggerMercenaryPanelPurchase"),
   (79, "ETriggerMercenaryPanelSelectionChanged"),
   (80, "ETriggerVictoryPanelExit"),
   (81, "ETriggerBattleReportPanelExit"),
   (82, "ETriggerBattleReportPanelPlayMission"),
   (83, "ETriggerBattleReportPanelPlayScene"),
   (84, "ETriggerBattleReportSelectionChanged"),
   (85, "ETriggerVictoryPanelPlayMissionAgain"),
   (86, "ETriggerMovieStarted"),
   (87, "ETriggerMovieFinished"),
   (88, "EDecrementGameTimeRemaining"),
   (89, "ETriggerPortraitLoaded"),
   (90, "ETriggerQueryDialogDismissed"),
   (91, "ETriggerGameMenuItemSelected"),
   (92, "ETriggerMouseWheel"),
   (93, "ETriggerPurchasePanelSelectedPurchaseItemChanged"),
   (94, "ETriggerPurchasePanelSelectedPurchaseCategoryChanged"),
   (95, "ETriggerButtonPressed"),
   (96, "ETriggerGameCreditsFinished"),
   (97, "ETriggerCutsceneBookmarkFired"),
   (98, "ETriggerCutsceneEndSceneFired"),
   (99, "ETriggerCutsceneConversationLine"),
   (100, "ETriggerCutsceneConversationLineMissing"),
   (101, "EGameUserLeave"),
   (102, "EGameUserJoin"),
   (103, "ECommandManagerState"),
   (104, "ECmdUpdateTargetPoint"),
   (105, "ECmdUpdateTargetUnit"),
   (106, "ETriggerAnimLengthQueryByName"),
   (107, "ETriggerAnimLengthQueryByProps"),
   (108, "ETriggerAnimOffset"),
   (109, "ECatalogModify"),
   (110, "EHeroTalentTreeSelected"),
   (111, "ETriggerProfilerLoggingFinished"),
   (112, "EHeroTalentTreeSelectionPanelToggled"),
   (113, "EMuteUserChanged"),
   (115, "EConvertToReplaySession"),
   (116, "ESetSyncLoadingTime"),
   (117, "ESetSyncPlayingTime"),
   (118, "EPeerSetSyncLoadingTime"),
   (119, "EPeerSetSyncPlayingTime")]

/-- Variant names of `GameEMessageId` by wire tag (/repo/src/versions/protocol87702/mod.rs:17222-17273) -/
def GameEMessageId.variants : List (Int × String) :=
  [(0, "EChat"),
   (1, "EPing"),
   (2, "ELoadingProgress"),
   (3, "EServerPing"),
   (4, "EReconnectNotify")]

/-- Variant names of `GameEMessageRecipient` by wire tag (/repo/src/versions/protocol87702/mod.rs:17163-17204) -/
def GameEMessageRecipient.variants : List (Int × String) :=
  [(0, "EAll"),
   (1, "EAllies"),
   (2, "EIndividual"),
   (3, "EBattlenet"),
   (4, "EObservers")]

/-- Variant names of `ELeaveReason` by wire tag (/repo/src/versions/protocol87702/mod.rs:5962-6058) -/
def ELeaveReason.variants : List (Int × String) :=
  [(0, "EUserLeft"),
   (1, "EUserDropped"),
   (2, "EUserBanned"),
   (3, "EUserVictory"),
   (4, "EUserDefeat"),
   (5, "EUserTied"),
   (6, "EUserDesynced"),
   (7, "EUserOutOfTime"),
   (8, "EWeWereUnresponsive"),
   (9, "EWeContinuedAlone"),
   (10, "EReplayDesynced"),
   (11, "EUserTimeout"),
   (12, "EUserDisconnected"),
   (13, "EUnrecoverable"),
   (14, "EUserCatchupDesynced"),
   (15, "ETakeCommandDropped")]

/-- Variant names of `GameEControlGroupUpdate` by wire tag (/repo/src/versions/protocol87702/mod.rs:17505-17551) -/
def GameEControlGroupUpdate.variants : List (Int × String) :=
  [(0, "ESet"),
   (1, "EAppend"),
   (2, "ERecall"),
   (3, "EClear"),
   (4, "ESetAndSteal"),
   (5, "EAppendAndSteal")]

/-- Variant names of `GameECommandManagerState` by wire tag (/repo/src/versions/protocol87702/mod.rs:12428-12459) -/
def GameECommandManagerState.variants : List (Int × String) :=
  [(0, "EFireDone"),
   (1, "EFireOnce"),
   (2, "EFireMany")]

/-- Variant names of `GameSSelectionMask` by wire tag (/repo/src/versions/protocol87702/mod.rs:17787-17831) -/
def GameSSelectionMask.variants : List (Int × String) :=
  [(0, "None"),
   (1, "Mask"),
   (2, "OneIndices"),
   (3, "ZeroIndices")]

/-- Variant names of `GameSCmdData` by wire tag (/repo/src/versions/protocol87702/mod.rs:7589-7633) -/
def GameSCmdData.variants : List (Int × String) :=
  [(0, "None"),
   (1, "TargetPoint"),
   (2, "TargetUnit"),
   (3, "Data")]

/-- All 289 types of this module. [/repo/src/versions/protocol87702/mod.rs:1-18235] -/
def all : List (String × BTy) :=
  [("CFilePath", CFilePath),
   ("TRaceId", TRaceId),
   ("TRaceCount", TRaceCount),
   ("TRacePreference", TRacePreference),
   ("CAllowedRaces", CAllowedRaces),
   ("Int8", Int8),
   ("Int16", Int16),
   ("Int32", Int32),
   ("Int64", Int64),
   ("Uint8", Uint8),
   ("Uint16", Uint16),
   ("Uint32", Uint32),
   ("Uint64", Uint64),
   ("Uint6", Uint6),
   ("Uint14", Uint14),
   ("Uint22", Uint22),
   ("SVarUint32", SVarUint32),
   ("TUserId", TUserId),
   ("TUserCount", TUserCount),
   ("CCacheHandle", CCacheHandle),
   ("CUserName", CUserName),
   ("CClanTag", CClanTag),
   ("CHeroHandle", CHeroHandle),
   ("CSkinHandle", CSkinHandle),
   ("CMountHandle", CMountHandle),
   ("CArtifactHandle", CArtifactHandle),
   ("CToonHandle", CToonHandle),
   ("CCommanderHandle", CCommanderHandle),
   ("EObserve", EObserve),
   ("CAllowedObserveTypes", CAllowedObserveTypes),
   ("TTeamPreference", TTeamPreference),
   ("SUserInitialData", SUserInitialData),
   ("CUserInitialDataArray", CUserInitialDataArray),
   ("ELeaveReason", ELeaveReason),
   ("EReconnectStatus", EReconnectStatus),
   ("SVersion", SVersion),
   ("Smd5", Smd5),
   ("GameTColorId", GameTColorId),
   ("GameTColorCount", GameTColorCount),
   ("GameTColorPreference", GameTColorPreference),
   ("GameCAllowedColors", GameCAllowedColors),
   ("GameTLobbySlotId", GameTLobbySlotId),
   ("GameTControlId", GameTControlId),
   ("GameTTeamId", GameTTeamId),
   ("GameTDifficulty", GameTDifficulty),
   ("GameTaiBuild", GameTaiBuild),
   ("GameTHandicap", GameTHandicap),
   ("GameTPlayerLogoIndex", GameTPlayerLogoIndex),
   ("GameTLicense", GameTLicense),
   ("GameCLicenseArray", GameCLicenseArray),
   ("GameCRetryMutationIndexArray", GameCRetryMutationIndexArray),
   ("GameSLobbySlotChange", GameSLobbySlotChange),
   ("GameSSetLobbySlotEvent", GameSSetLobbySlotEvent),
   ("GameSBankFileEvent", GameSBankFileEvent),
   ("GameESynchronous", GameESynchronous),
   ("GameSDropOurselvesEvent", GameSDropOurselvesEvent),
   ("GameESynthesized", GameESynthesized),
   ("GameSPickMapTagEvent", GameSPickMapTagEvent),
   ("GameEDebug", GameEDebug),
   ("GameEHijackMethod", GameEHijackMethod),
   ("GameTQueryId", GameTQueryId),
   ("GameSDropUserEvent", GameSDropUserEvent),
   ("GameSStartGameEvent", GameSStartGameEvent),
   ("GameSUserFinishedLoadingEvent", GameSUserFinishedLoadingEvent),
   ("GameSUserFinishedLoadingSyncEvent", GameSUserFinishedLoadingSyncEvent),
   ("GameSSetGameDurationEvent", GameSSetGameDurationEvent),
   ("GameSUserOptionsEvent", GameSUserOptionsEvent),
   ("GameSTurnEvent", GameSTurnEvent),
   ("GameSBankSectionEvent", GameSBankSectionEvent),
   ("GameSBankKeyEvent", GameSBankKeyEvent),
   ("GameSBankValueEvent", GameSBankValueEvent),
   ("GameSBankSignatureEvent", GameSBankSignatureEvent),
   ("GameTFixedMiniBitsUnsigned", GameTFixedMiniBitsUnsigned),
   ("GameSPointMini", GameSPointMini),
   ("GameSCameraSaveEvent", GameSCameraSaveEvent),
   ("GameSPauseGameEvent", GameSPauseGameEvent),
   ("GameSUnpauseGameEvent", GameSUnpauseGameEvent),
   ("GameSSingleStepGameEvent", GameSSingleStepGameEvent),
   ("GameEGameSpeed", GameEGameSpeed),
   ("GameSSetGameSpeedEvent", GameSSetGameSpeedEvent),
   ("GameSAddGameSpeedEvent", GameSAddGameSpeedEvent),
   ("GameSReplayJumpEvent", GameSReplayJumpEvent),
   ("GameSSaveGameEvent", GameSSaveGameEvent),
   ("GameSSaveGameDoneEvent", GameSSaveGameDoneEvent),
   ("GameSLoadGameDoneEvent", GameSLoadGameDoneEvent),
   ("GameTFixedBits", GameTFixedBits),
   ("GameSPoint", GameSPoint),
   ("GameCCheatString", GameCCheatString),
   ("GameSCheatEventData", GameSCheatEventData),
   ("GameSSessionCheatEvent", GameSSessionCheatEvent),
   ("GameSCommandManagerResetEvent", GameSCommandManagerResetEvent),
   ("GameSGameCheatEvent", GameSGameCheatEvent),
   ("GameTAbilLink", GameTAbilLink),
   ("GameSCmdAbil", GameSCmdAbil),
   ("GameTMapCoordFixedBits", GameTMapCoordFixedBits),
   ("GameSMapCoord3D", GameSMapCoord3D),
   ("GameTUnitTag", GameTUnitTag),
   ("GameTUnitLink", GameTUnitLink),
   ("GameTPlayerId", GameTPlayerId),
   ("GameSCmdDataTargetUnit", GameSCmdDataTargetUnit),
   ("GameSCmdData", GameSCmdData),
   ("GameSCmdEvent", GameSCmdEvent),
   ("GameTControlGroupId", GameTControlGroupId),
   ("GameTSubgroupIndex", GameTSubgroupIndex),
   ("GameSelectionMaskType", GameSelectionMaskType),
   ("GameTSelectionIndex", GameTSelectionIndex),
   ("GameSelectionIndexArrayType", GameSelectionIndexArrayType),
   ("GameSSelectionMask", GameSSelectionMask),
   ("GameTSubgroupPriority", GameTSubgroupPriority),
   ("GameTSelectionCount", GameTSelectionCount),
   ("GameSSelectionDeltaSubgroup", GameSSelectionDeltaSubgroup),
   ("GameSSelectionDelta", GameSSelectionDelta),
   ("GameSSelectionDeltaEvent", GameSSelectionDeltaEvent),
   ("GameTControlGroupIndex", GameTControlGroupIndex),
   ("GameEControlGroupUpdate", GameEControlGroupUpdate),
   ("GameSControlGroupUpdateEvent", GameSControlGroupUpdateEvent),
   ("GameTSubgroupCount", GameTSubgroupCount),
   ("GameTSyncChecksum", GameTSyncChecksum),
   ("GameSSelectionSyncData", GameSSelectionSyncData),
   ("GameSSelectionSyncCheckEvent", GameSSelectionSyncCheckEvent),
   ("GameSResourceTradeEvent", GameSResourceTradeEvent),
   ("GameCTriggerChatMessageString", GameCTriggerChatMessageString),
   ("GameSTriggerChatMessageEvent", GameSTriggerChatMessageEvent),
   ("GameSPoint3", GameSPoint3),
   ("GameSaiCommunicateEvent", GameSaiCommunicateEvent),
   ("GameSSetAbsoluteGameSpeedEvent", GameSSetAbsoluteGameSpeedEvent),
   ("GameSAddAbsoluteGameSpeedEvent", GameSAddAbsoluteGameSpeedEvent),
   ("GameSTriggerPingEvent", GameSTriggerPingEvent),
   ("GameSBroadcastCheatEvent", GameSBroadcastCheatEvent),
   ("GameSAllianceEvent", GameSAllianceEvent),
   ("GameSUnitClickEvent", GameSUnitClickEvent),
   ("GameSUnitHighlightEvent", GameSUnitHighlightEvent),
   ("GameSTriggerReplySelectedEvent", GameSTriggerReplySelectedEvent),
   ("GameSHijackReplaySessionUserInfo", GameSHijackReplaySessionUserInfo),
   ("GameSHijackReplaySessionEvent", GameSHijackReplaySessionEvent),
   ("GameCCacheHandle", GameCCacheHandle),
   ("GameSHijackReplayGameUserInfo", GameSHijackReplayGameUserInfo),
   ("GameSHijackReplayGameEvent", GameSHijackReplayGameEvent),
   ("GameSTriggerSkippedEvent", GameSTriggerSkippedEvent),
   ("GameSTriggerSoundLengthQueryEvent", GameSTriggerSoundLengthQueryEvent),
   ("GameTTriggerSoundTag", GameTTriggerSoundTag),
   ("GameSTriggerSoundOffsetEvent", GameSTriggerSoundOffsetEvent),
   ("GameTTriggerThreadTag", GameTTriggerThreadTag),
   ("GameSTriggerTransmissionOffsetEvent", GameSTriggerTransmissionOffsetEvent),
   ("GameSTriggerTransmissionCompleteEvent", GameSTriggerTransmissionCompleteEvent),
   ("GameSCameraUpdateEvent", GameSCameraUpdateEvent),
   ("GameSTriggerAbortMissionEvent", GameSTriggerAbortMissionEvent),
   ("GameSTriggerPurchaseMadeEvent", GameSTriggerPurchaseMadeEvent),
   ("GameSTriggerPurchaseExitEvent", GameSTriggerPurchaseExitEvent),
   ("GameSTriggerPlanetMissionLaunchedEvent", GameSTriggerPlanetMissionLaunchedEvent),
   ("GameSTriggerPlanetPanelCanceledEvent", GameSTriggerPlanetPanelCanceledEvent),
   ("GameCChatString", GameCChatString),
   ("MEventData", MEventData),
   ("GameSTriggerDialogControlEvent", GameSTriggerDialogControlEvent),
   ("GameSSyncSoundLength", GameSSyncSoundLength),
   ("GameSTriggerSoundLengthSyncEvent", GameSTriggerSoundLengthSyncEvent),
   ("GameEConversationSkip", GameEConversationSkip),
   ("GameSTriggerConversationSkippedEvent", GameSTriggerConversationSkippedEvent),
   ("GameTuiCoordX", GameTuiCoordX),
   ("GameTuiCoordY", GameTuiCoordY),
   ("GameSuiCoord", GameSuiCoord),
   ("GameSTriggerMouseClickedEvent", GameSTriggerMouseClickedEvent),
   ("GameSTriggerMouseMovedEvent", GameSTriggerMouseMovedEvent),
   ("GameTAchievementLink", GameTAchievementLink),
   ("GameSAchievementAwardedEvent", GameSAchievementAwardedEvent),
   ("GameSTriggerHotkeyPressedEvent", GameSTriggerHotkeyPressedEvent),
   ("GameSTriggerTargetModeUpdateEvent", GameSTriggerTargetModeUpdateEvent),
   ("GameSTriggerPlanetPanelReplayEvent", GameSTriggerPlanetPanelReplayEvent),
   ("GameSTriggerSoundtrackDoneEvent", GameSTriggerSoundtrackDoneEvent),
   ("GameSTriggerPlanetMissionSelectedEvent", GameSTriggerPlanetMissionSelectedEvent),
   ("GameSTriggerKeyPressedEvent", GameSTriggerKeyPressedEvent),
   ("GameSTriggerMovieFunctionEvent", GameSTriggerMovieFunctionEvent),
   ("GameSTriggerPlanetPanelBirthCompleteEvent", GameSTriggerPlanetPanelBirthCompleteEvent),
   ("GameSTriggerPlanetPanelDeathCompleteEvent", GameSTriggerPlanetPanelDeathCompleteEvent),
   ("GameSResourceRequestEvent", GameSResourceRequestEvent),
   ("GameSResourceRequestFulfillEvent", GameSResourceRequestFulfillEvent),
   ("GameSResourceRequestCancelEvent", GameSResourceRequestCancelEvent),
   ("GameSTriggerResearchPanelExitEvent", GameSTriggerResearchPanelExitEvent),
   ("GameSTriggerResearchPanelPurchaseEvent", GameSTriggerResearchPanelPurchaseEvent),
   ("GameSTriggerResearchPanelSelectionChangedEvent", GameSTriggerResearchPanelSelectionChangedEvent),
   ("GameSTriggerCommandErrorEvent", GameSTriggerCommandErrorEvent),
   ("GameSTriggerMercenaryPanelExitEvent", GameSTriggerMercenaryPanelExitEvent),
   ("GameSTriggerMercenaryPanelPurchaseEvent", GameSTriggerMercenaryPanelPurchaseEvent),
   ("GameSTriggerMercenaryPanelSelectionChangedEvent", GameSTriggerMercenaryPanelSelectionChangedEvent),
   ("GameSTriggerVictoryPanelExitEvent", GameSTriggerVictoryPanelExitEvent),
   ("GameSTriggerBattleReportPanelExitEvent", GameSTriggerBattleReportPanelExitEvent),
   ("GameSTriggerBattleReportPanelPlayMissionEvent", GameSTriggerBattleReportPanelPlayMissionEvent),
   ("GameSTriggerBattleReportPanelPlaySceneEvent", GameSTriggerBattleReportPanelPlaySceneEvent),
   ("GameSTriggerBattleReportPanelSelectionChangedEvent", GameSTriggerBattleReportPanelSelectionChangedEvent),
   ("GameSTriggerVictoryPanelPlayMissionAgainEvent", GameSTriggerVictoryPanelPlayMissionAgainEvent),
   ("GameSTriggerMovieStartedEvent", GameSTriggerMovieStartedEvent),
   ("GameSTriggerMovieFinishedEvent", GameSTriggerMovieFinishedEvent),
   ("GameSDecrementGameTimeRemainingEvent", GameSDecrementGameTimeRemainingEvent),
   ("GameSTriggerPortraitLoadedEvent", GameSTriggerPortraitLoadedEvent),
   ("GameSTriggerCustomDialogDismissedEvent", GameSTriggerCustomDialogDismissedEvent),
   ("GameSTriggerGameMenuItemSelectedEvent", GameSTriggerGameMenuItemSelectedEvent),
   ("GameTFixedMiniBitsSigned", GameTFixedMiniBitsSigned),
   ("GameSTriggerMouseWheelEvent", GameSTriggerMouseWheelEvent),
   ("GameSTriggerPurchasePanelSelectedPurchaseItemChangedEvent", GameSTriggerPurchasePanelSelectedPurchaseItemChangedEvent),
   ("GameSTriggerPurchasePanelSelectedPurchaseCategoryChangedEvent", GameSTriggerPurchasePanelSelectedPurchaseCategoryChangedEvent),
   ("GameTButtonLink", GameTButtonLink),
   ("GameSTriggerButtonPressedEvent", GameSTriggerButtonPressedEvent),
   ("GameSTriggerGameCreditsFinishedEvent", GameSTriggerGameCreditsFinishedEvent),
   ("GameSTriggerCutsceneBookmarkFiredEvent", GameSTriggerCutsceneBookmarkFiredEvent),
   ("GameSTriggerCutsceneEndSceneFiredEvent", GameSTriggerCutsceneEndSceneFiredEvent),
   ("GameSTriggerCutsceneConversationLineEvent", GameSTriggerCutsceneConversationLineEvent),
   ("GameSTriggerCutsceneConversationLineMissingEvent", GameSTriggerCutsceneConversationLineMissingEvent),
   ("GameSGameUserLeaveEvent", GameSGameUserLeaveEvent),
   ("GameSGameUserJoinEvent", GameSGameUserJoinEvent),
   ("GameECommandManagerState", GameECommandManagerState),
   ("GameSCommandManagerStateEvent", GameSCommandManagerStateEvent),
   ("GameSCmdUpdateTargetPointEvent", GameSCmdUpdateTargetPointEvent),
   ("GameSCmdUpdateTargetUnitEvent", GameSCmdUpdateTargetUnitEvent),
   ("GameSTriggerAnimLengthQueryByNameEvent", GameSTriggerAnimLengthQueryByNameEvent),
   ("GameSTriggerAnimLengthQueryByPropsEvent", GameSTriggerAnimLengthQueryByPropsEvent),
   ("GameSTriggerAnimOffsetEvent", GameSTriggerAnimOffsetEvent),
   ("GameSCatalogModifyEvent", GameSCatalogModifyEvent),
   ("GameSHeroTalentTreeSelectedEvent", GameSHeroTalentTreeSelectedEvent),
   ("GameSTriggerProfilerLoggingFinishedEvent", GameSTriggerProfilerLoggingFinishedEvent),
   ("GameSHeroTalentTreeSelectionPanelToggledEvent", GameSHeroTalentTreeSelectionPanelToggledEvent),
   ("GameSMuteChatEvent", GameSMuteChatEvent),
   ("GameSConvertToReplaySessionEvent", GameSConvertToReplaySessionEvent),
   ("GameSSetSyncLoadingTimeEvent", GameSSetSyncLoadingTimeEvent),
   ("GameSSetSyncPlayingTimeEvent", GameSSetSyncPlayingTimeEvent),
   ("GameSPeerSetSyncLoadingTimeEvent", GameSPeerSetSyncLoadingTimeEvent),
   ("GameSPeerSetSyncPlayingTimeEvent", GameSPeerSetSyncPlayingTimeEvent),
   ("GameEEventId", GameEEventId),
   ("GameEPhase", GameEPhase),
   ("GameTAchievementTermLink", GameTAchievementTermLink),
   ("GameTFixedInt", GameTFixedInt),
   ("GameTFixedUInt", GameTFixedUInt),
   ("GameTHeroLink", GameTHeroLink),
   ("GameSMapCoord", GameSMapCoord),
   ("GameCAllowedDifficulty", GameCAllowedDifficulty),
   ("GameCAllowedAiBuild", GameCAllowedAiBuild),
   ("GameSThumbnail", GameSThumbnail),
   ("GameSColor", GameSColor),
   ("GameEResultDetails", GameEResultDetails),
   ("GameSToonNameDetails", GameSToonNameDetails),
   ("GameSPlayerDetails", GameSPlayerDetails),
   ("GameCPlayerDetailsArray", GameCPlayerDetailsArray),
   ("GameCModPaths", GameCModPaths),
   ("GameCCacheHandles", GameCCacheHandles),
   ("GameSDetails", GameSDetails),
   ("GameEOptionFog", GameEOptionFog),
   ("GameEOptionObservers", GameEOptionObservers),
   ("GameEOptionUserDifficulty", GameEOptionUserDifficulty),
   ("GameEGameLaunch", GameEGameLaunch),
   ("GameEClientDebugFlags", GameEClientDebugFlags),
   ("GameSGameOptions", GameSGameOptions),
   ("GameEGameType", GameEGameType),
   ("GameEControl", GameEControl),
   ("GameTControlCount", GameTControlCount),
   ("GameCAllowedControls", GameCAllowedControls),
   ("GameSSlotDescription", GameSSlotDescription),
   ("GameCGameCacheName", GameCGameCacheName),
   ("GameCAuthorName", GameCAuthorName),
   ("GameSSlotDescriptions", GameSSlotDescriptions),
   ("GameTPlayerCount", GameTPlayerCount),
   ("GameTTeamCount", GameTTeamCount),
   ("GameSGameDescription", GameSGameDescription),
   ("GameTLobbySlotCount", GameTLobbySlotCount),
   ("GameCArtifactArray", GameCArtifactArray),
   ("GameCCommanderMasteryTalentArray", GameCCommanderMasteryTalentArray),
   ("GameTReward", GameTReward),
   ("GameCRewardArray", GameCRewardArray),
   ("GameCRewardOverride", GameCRewardOverride),
   ("GameCRewardOverrideArray", GameCRewardOverrideArray),
   ("GameTFlexLicenseName", GameTFlexLicenseName),
   ("GameTFlexLicenseAttributeName", GameTFlexLicenseAttributeName),
   ("GameTFlexLicenseAttributeValue", GameTFlexLicenseAttributeValue),
   ("GameSLobbySlot", GameSLobbySlot),
   ("GameCLobbySlotArray", GameCLobbySlotArray),
   ("GameSLobbyState", GameSLobbyState),
   ("GameSLobbySyncState", GameSLobbySyncState),
   ("GameEMessageRecipient", GameEMessageRecipient),
   ("GameSChatMessage", GameSChatMessage),
   ("GameSPingMessage", GameSPingMessage),
   ("GameSLoadingProgressMessage", GameSLoadingProgressMessage),
   ("GameSServerPingMessage", GameSServerPingMessage),
   ("GameSReconnectNotifyMessage", GameSReconnectNotifyMessage),
   ("GameEMessageId", GameEMessageId),
   ("GameEResultCode", GameEResultCode),
   ("GameTControlGroupCount", GameTControlGroupCount),
   ("GameTSyncValue", GameTSyncValue),
   ("GameSSessionSyncInfo", GameSSessionSyncInfo),
   ("GameSGameSyncInfo", GameSGameSyncInfo),
   ("ReplaySInitData", ReplaySInitData),
   ("ReplaySGameUserId", ReplaySGameUserId)]

end S2.P87702.BitPacked
