import Verif.Gen.P87702BitPacked
/-! Generated by tools/extract.py from /repo/src/versions/protocol75689/mod.rs:31-2108 (module bit_packed).  Do not edit. -/
namespace S2.P75689.BitPacked
open S2

/-- `GameSCmdEvent` (/repo/src/versions/protocol75689/mod.rs:1299-1419) -/
def GameSCmdEvent : BTy :=
  .struct <|
    .cons "m_cmd_flags" (.int (0) 26) <|
    .cons "m_abil" (.opt (S2.P87702.BitPacked.GameSCmdAbil)) <|
    .cons "m_data" (S2.P87702.BitPacked.GameSCmdData) <|
    .cons "m_sequence" (.int (1) 32) <|
    .cons "m_other_unit" (.opt (S2.P87702.BitPacked.GameTUnitTag)) <|
    .cons "m_unit_group" (.opt (S2.P87702.BitPacked.Uint32)) <|
    .nil

/-- `GameEEventId` (/repo/src/versions/protocol75689/mod.rs:321-1252) -/
def GameEEventId : BTy :=
  .choice 7 <|
    .cons 0 (S2.P87702.BitPacked.GameSSetLobbySlotEvent) <| -- ESetLobbySlot
    .cons 1 (S2.P87702.BitPacked.GameSDropUserEvent) <| -- EDropUser
    .cons 2 (S2.P87702.BitPacked.GameSStartGameEvent) <| -- EStartGame
    .cons 3 (S2.P87702.BitPacked.GameSDropOurselvesEvent) <| -- EDropOurselves
    .cons 4 (S2.P87702.BitPacked.GameSUserFinishedLoadingEvent) <| -- EUserFinishedLoading
    .cons 5 (S2.P87702.BitPacked.GameSUserFinishedLoadingSyncEvent) <| -- EUserFinishedLoadingSync
    .cons 6 (S2.P87702.BitPacked.GameSSetGameDurationEvent) <| -- ESetGameDuration
    .cons 7 (S2.P87702.BitPacked.GameSUserOptionsEvent) <| -- EUserOptions
    .cons 114 (S2.P87702.BitPacked.GameSPickMapTagEvent) <| -- EPickMapTag
    .cons 8 (S2.P87702.BitPacked.GameSTurnEvent) <| -- ETurn
    .cons 9 (S2.P87702.BitPacked.GameSBankFileEvent) <| -- EBankFile
    .cons 10 (S2.P87702.BitPacked.GameSBankSectionEvent) <| -- EBankSection
    .cons 11 (S2.P87702.BitPacked.GameSBankKeyEvent) <| -- EBankKey
    .cons 12 (S2.P87702.BitPacked.GameSBankValueEvent) <| -- EBankValue
    .cons 13 (S2.P87702.BitPacked.GameSBankSignatureEvent) <| -- EBankSignature
    .cons 14 (S2.P87702.BitPacked.GameSCameraSaveEvent) <| -- ECameraSave
    .cons 15 (S2.P87702.BitPacked.GameSPauseGameEvent) <| -- EPauseGame
    .cons 16 (S2.P87702.BitPacked.GameSUnpauseGameEvent) <| -- EUnpauseGame
    .cons 17 (S2.P87702.BitPacked.GameSSingleStepGameEvent) <| -- ESingleStepGame
    .cons 18 (S2.P87702.BitPacked.GameSSetGameSpeedEvent) <| -- ESetGameSpeed
    .cons 19 (S2.P87702.BitPacked.GameSAddGameSpeedEvent) <| -- EAddGameSpeed
    .cons 20 (S2.P87702.BitPacked.GameSReplayJumpEvent) <| -- EReplayJump
    .cons 21 (S2.P87702.BitPacked.GameSSaveGameEvent) <| -- ESaveGame
    .cons 22 (S2.P87702.BitPacked.GameSSaveGameDoneEvent) <| -- ESaveGameDone
    .cons 23 (S2.P87702.BitPacked.GameSLoadGameDoneEvent) <| -- ELoadGameDone
    .cons 24 (S2.P87702.BitPacked.GameSSessionCheatEvent) <| -- ESessionCheat
    .cons 25 (S2.P87702.BitPacked.GameSCommandManagerResetEvent) <| -- ECommandManagerReset
    .cons 26 (S2.P87702.BitPacked.GameSGameCheatEvent) <| -- EGameCheat
    .cons 27 (GameSCmdEvent) <| -- ECmd
    .cons 28 (S2.P87702.BitPacked.GameSSelectionDeltaEvent) <| -- ESelectionDelta
    .cons 29 (S2.P87702.BitPacked.GameSControlGroupUpdateEvent) <| -- EControlGroupUpdate
    .cons 30 (S2.P87702.BitPacked.GameSSelectionSyncCheckEvent) <| -- ESelectionSyncCheck
    .cons 31 (S2.P87702.BitPacked.GameSResourceTradeEvent) <| -- EResourceTrade
    .cons 32 (S2.P87702.BitPacked.GameSTriggerChatMessageEvent) <| -- ETriggerChatMessage
    .cons 33 (S2.P87702.BitPacked.GameSaiCommunicateEvent) <| -- EAiCommunicate
    .cons 34 (S2.P87702.BitPacked.GameSSetAbsoluteGameSpeedEvent) <| -- ESetAbsoluteGameSpeed
    .cons 35 (S2.P87702.BitPacked.GameSAddAbsoluteGameSpeedEvent) <| -- EAddAbsoluteGameSpeed
    .cons 36 (S2.P87702.BitPacked.GameSTriggerPingEvent) <| -- ETriggerPing
    .cons 37 (S2.P87702.BitPacked.GameSBroadcastCheatEvent) <| -- EBroadcastCheat
    .cons 38 (S2.P87702.BitPacked.GameSAllianceEvent) <| -- EAlliance
    .cons 39 (S2.P87702.BitPacked.GameSUnitClickEvent) <| -- EUnitClick
    .cons 40 (S2.P87702.BitPacked.GameSUnitHighlightEvent) <| -- EUnitHighlight
    .cons 41 (S2.P87702.BitPacked.GameSTriggerReplySelectedEvent) <| -- ETriggerReplySelected
    .cons 42 (S2.P87702.BitPacked.GameSHijackReplaySessionEvent) <| -- EHijackReplaySession
    .cons 43 (S2.P87702.BitPacked.GameSHijackReplayGameEvent) <| -- EHijackReplayGame
    .cons 44 (S2.P87702.BitPacked.GameSTriggerSkippedEvent) <| -- ETriggerSkipped
    .cons 45 (S2.P87702.BitPacked.GameSTriggerSoundLengthQueryEvent) <| -- ETriggerSoundLengthQuery
    .cons 46 (S2.P87702.BitPacked.GameSTriggerSoundOffsetEvent) <| -- ETriggerSoundOffset
    .cons 47 (S2.P87702.BitPacked.GameSTriggerTransmissionOffsetEvent) <| -- ETriggerTransmissionOffset
    .cons 48 (S2.P87702.BitPacked.GameSTriggerTransmissionCompleteEvent) <| -- ETriggerTransmissionComplete
    .cons 49 (S2.P87702.BitPacked.GameSCameraUpdateEvent) <| -- ECameraUpdate
    .cons 50 (S2.P87702.BitPacked.GameSTriggerAbortMissionEvent) <| -- ETriggerAbortMission
    .cons 51 (S2.P87702.BitPacked.GameSTriggerPurchaseMadeEvent) <| -- ETriggerPurchaseMade
    .cons 52 (S2.P87702.BitPacked.GameSTriggerPurchaseExitEvent) <| -- ETriggerPurchaseExit
    .cons 53 (S2.P87702.BitPacked.GameSTriggerPlanetMissionLaunchedEvent) <| -- ETriggerPlanetMissionLaunched
    .cons 54 (S2.P87702.BitPacked.GameSTriggerPlanetPanelCanceledEvent) <| -- ETriggerPlanetPanelCanceled
    .cons 55 (S2.P87702.BitPacked.GameSTriggerDialogControlEvent) <| -- ETriggerDialogControl
    .cons 56 (S2.P87702.BitPacked.GameSTriggerSoundLengthSyncEvent) <| -- ETriggerSoundLengthSync
    .cons 57 (S2.P87702.BitPacked.GameSTriggerConversationSkippedEvent) <| -- ETriggerConversationSkipped
    .cons 58 (S2.P87702.BitPacked.GameSTriggerMouseClickedEvent) <| -- ETriggerMouseClicked
    .cons 59 (S2.P87702.BitPacked.GameSTriggerMouseMovedEvent) <| -- ETriggerMouseMoved
    .cons 60 (S2.P87702.BitPacked.GameSAchievementAwardedEvent) <| -- EAchievementAwarded
    .cons 61 (S2.P87702.BitPacked.GameSTriggerHotkeyPressedEvent) <| -- ETriggerHotkeyPressed
    .cons 62 (S2.P87702.BitPacked.GameSTriggerTargetModeUpdateEvent) <| -- ETriggerTargetModeUpdate
    .cons 63 (S2.P87702.BitPacked.GameSTriggerPlanetPanelReplayEvent) <| -- ETriggerPlanetPanelPanelReplay
    .cons 64 (S2.P87702.BitPacked.GameSTriggerSoundtrackDoneEvent) <| -- ETriggerSoundtrackDone
    .cons 65 (S2.P87702.BitPacked.GameSTriggerPlanetMissionSelectedEvent) <| -- ETriggerPlanetMissionSelected
    .cons 66 (S2.P87702.BitPacked.GameSTriggerKeyPressedEvent) <| -- ETriggerKeyPressed
    .cons 67 (S2.P87702.BitPacked.GameSTriggerMovieFunctionEvent) <| -- ETriggerMovieFunction
    .cons 68 (S2.P87702.BitPacked.GameSTriggerPlanetPanelBirthCompleteEvent) <| -- ETriggerPlanetPanelPanelBirthComplete
    .cons 69 (S2.P87702.BitPacked.GameSTriggerPlanetPanelDeathCompleteEvent) <| -- ETriggerPlanetPanelPanelDeathComplete
    .cons 70 (S2.P87702.BitPacked.GameSResourceRequestEvent) <| -- EResourceRequest
    .cons 71 (S2.P87702.BitPacked.GameSResourceRequestFulfillEvent) <| -- EResourceRequestFulfill
    .cons 72 (S2.P87702.BitPacked.GameSResourceRequestCancelEvent) <| -- EResourceRequestCancel
    .cons 73 (S2.P87702.BitPacked.GameSTriggerResearchPanelExitEvent) <| -- ETriggerResearchPanelExit
    .cons 74 (S2.P87702.BitPacked.GameSTriggerResearchPanelPurchaseEvent) <| -- ETriggerResearchPanelPurchase
    .cons 75 (S2.P87702.BitPacked.GameSTriggerResearchPanelSelectionChangedEvent) <| -- ETriggerResearchPanelSelectionChanged
    .cons 76 (S2.P87702.BitPacked.GameSTriggerCommandErrorEvent) <| -- ETriggerCommandError
    .cons 77 (S2.P87702.BitPacked.GameSTriggerMercenaryPanelExitEvent) <| -- ETriggerMercenaryPanelExit
    .cons 78 (S2.P87702.BitPacked.GameSTriggerMercenaryPanelPurchaseEvent) <| -- ETriggerMercenaryPanelPurchase
    .cons 79 (S2.P87702.BitPacked.GameSTriggerMercenaryPanelSelectionChangedEvent) <| -- ETriggerMercenaryPanelSelectionChanged
    .cons 80 (S2.P87702.BitPacked.GameSTriggerVictoryPanelExitEvent) <| -- ETriggerVictoryPanelExit
    .cons 81 (S2.P87702.BitPacked.GameSTriggerBattleReportPanelExitEvent) <| -- ETriggerBattleReportPanelExit
    .cons 82 (S2.P87702.BitPacked.GameSTriggerBattleReportPanelPlayMissionEvent) <| -- ETriggerBattleReportPanelPlayMission
    .cons 83 (S2.P87702.BitPacked.GameSTriggerBattleReportPanelPlaySceneEvent) <| -- ETriggerBattleReportPanelPlayScene
    .cons 84 (S2.P87702.BitPacked.GameSTriggerBattleReportPanelSelectionChangedEvent) <| -- ETriggerBattleReportSelectionChanged
    .cons 85 (S2.P87702.BitPacked.GameSTriggerVictoryPanelPlayMissionAgainEvent) <| -- ETriggerVictoryPanelPlayMissionAgain
    .cons 86 (S2.P87702.BitPacked.GameSTriggerMovieStartedEvent) <| -- ETriggerMovieStarted
    .cons 87 (S2.P87702.BitPacked.GameSTriggerMovieFinishedEvent) <| -- ETriggerMovieFinished
    .cons 88 (S2.P87702.BitPacked.GameSDecrementGameTimeRemainingEvent) <| -- EDecrementGameTimeRemaining
    .cons 89 (S2.P87702.BitPacked.GameSTriggerPortraitLoadedEvent) <| -- ETriggerPortraitLoaded
    .cons 90 (S2.P87702.BitPacked.GameSTriggerCustomDialogDismissedEvent) <| -- ETriggerQueryDialogDismissed
    .cons 91 (S2.P87702.BitPacked.GameSTriggerGameMenuItemSelectedEvent) <| -- ETriggerGameMenuItemSelected
    .cons 92 (S2.P87702.BitPacked.GameSTriggerMouseWheelEvent) <| -- ETriggerMouseWheel
    .cons 93 (S2.P87702.BitPacked.GameSTriggerPurchasePanelSelectedPurchaseItemChangedEvent) <| -- ETriggerPurchasePanelSelectedPurchaseItemChanged
    .cons 94 (S2.P87702.BitPacked.GameSTriggerPurchasePanelSelectedPurchaseCategoryChangedEvent) <| -- ETriggerPurchasePanelSelectedPurchaseCategoryChanged
    .cons 95 (S2.P87702.BitPacked.GameSTriggerButtonPressedEvent) <| -- ETriggerButtonPressed
    .cons 96 (S2.P87702.BitPacked.GameSTriggerGameCreditsFinishedEvent) <| -- ETriggerGameCreditsFinished
    .cons 97 (S2.P87702.BitPacked.GameSTriggerCutsceneBookmarkFiredEvent) <| -- ETriggerCutsceneBookmarkFired
    .cons 98 (S2.P87702.BitPacked.GameSTriggerCutsceneEndSceneFiredEvent) <| -- ETriggerCutsceneEndSceneFired
    .cons 99 (S2.P87702.BitPacked.GameSTriggerCutsceneConversationLineEvent) <| -- ETriggerCutsceneConversationLine
    .cons 100 (S2.P87702.BitPacked.GameSTriggerCutsceneConversationLineMissingEvent) <| -- ETriggerCutsceneConversationLineMissing
    .cons 101 (S2.P87702.BitPacked.GameSGameUserLeaveEvent) <| -- EGameUserLeave
    .cons 102 (S2.P87702.BitPacked.GameSGameUserJoinEvent) <| -- EGameUserJoin
    .cons 103 (S2.P87702.BitPacked.GameSCommandManagerStateEvent) <| -- ECommandManagerState
    .cons 104 (S2.P87702.BitPacked.GameSCmdUpdateTargetPointEvent) <| -- ECmdUpdateTargetPoint
    .cons 105 (S2.P87702.BitPacked.GameSCmdUpdateTargetUnitEvent) <| -- ECmdUpdateTargetUnit
    .cons 106 (S2.P87702.BitPacked.GameSTriggerAnimLengthQueryByNameEvent) <| -- ETriggerAnimLengthQueryByName
    .cons 107 (S2.P87702.BitPacked.GameSTriggerAnimLengthQueryByPropsEvent) <| -- ETriggerAnimLengthQueryByProps
    .cons 108 (S2.P87702.BitPacked.GameSTriggerAnimOffsetEvent) <| -- ETriggerAnimOffset
    .cons 109 (S2.P87702.BitPacked.GameSCatalogModifyEvent) <| -- ECatalogModify
    .cons 110 (S2.P87702.BitPacked.GameSHeroTalentTreeSelectedEvent) <| -- EHeroTalentTreeSelected
    .cons 111 (S2.P87702.BitPacked.GameSTriggerProfilerLoggingFinishedEvent) <| -- ETriggerProfilerLoggingFinished
    .cons 112 (S2.P87702.BitPacked.GameSHeroTalentTreeSelectionPanelToggledEvent) <| -- EHeroTalentTreeSelectionPanelToggled
    .cons 113 (S2.P87702.BitPacked.GameSMuteChatEvent) <| -- EMuteUserChanged
    .cons 115 (S2.P87702.BitPacked.GameSConvertToReplaySessionEvent) <| -- EConvertToReplaySession
    .cons 116 (S2.P87702.BitPacked.GameSSetSyncLoadingTimeEvent) <| -- ESetSyncLoadingTime
    .cons 117 (S2.P87702.BitPacked.GameSSetSyncPlayingTimeEvent) <| -- ESetSyncPlayingTime
    .cons 118 (S2.P87702.BitPacked.GameSPeerSetSyncLoadingTimeEvent) <| -- EPeerSetSyncLoadingTime
    .cons 119 (S2.P87702.BitPacked.GameSPeerSetSyncPlayingTimeEvent) <| -- EPeerSetSyncPlayingTime
    .nil

/-- `GameTHandicap` (/repo/src/versions/protocol75689/mod.rs:1422-1433) -/
def GameTHandicap : BTy :=
  .int (0) 7

/-- `GameCLicenseArray` (/repo/src/versions/protocol75689/mod.rs:1436-1456) -/
def GameCLicenseArray : BTy :=
  .arr 13 (S2.P87702.BitPacked.GameTLicense)

/-- `GameSLobbySlot` (/repo/src/versions/protocol75689/mod.rs:1459-1929) -/
def GameSLobbySlot : BTy :=
  .struct <|
    .cons "m_control" (S2.P87702.BitPacked.GameTControlId) <|
    .cons "m_user_id" (.opt (S2.P87702.BitPacked.TUserId)) <|
    .cons "m_team_id" (S2.P87702.BitPacked.GameTTeamId) <|
    .cons "m_color_pref" (S2.P87702.BitPacked.GameTColorPreference) <|
    .cons "m_race_pref" (S2.P87702.BitPacked.TRacePreference) <|
    .cons "m_difficulty" (S2.P87702.BitPacked.GameTDifficulty) <|
    .cons "m_ai_build" (S2.P87702.BitPacked.GameTaiBuild) <|
    .cons "m_handicap" (GameTHandicap) <|
    .cons "m_observe" (S2.P87702.BitPacked.EObserve) <|
    .cons "m_logo_index" (S2.P87702.BitPacked.GameTPlayerLogoIndex) <|
    .cons "m_hero" (S2.P87702.BitPacked.CHeroHandle) <|
    .cons "m_skin" (S2.P87702.BitPacked.CSkinHandle) <|
    .cons "m_mount" (S2.P87702.BitPacked.CMountHandle) <|
    .cons "m_artifacts" (S2.P87702.BitPacked.GameCArtifactArray) <|
    .cons "m_working_set_slot_id" (.opt (S2.P87702.BitPacked.Uint8)) <|
    .cons "m_rewards" (S2.P87702.BitPacked.GameCRewardArray) <|
    .cons "m_toon_handle" (S2.P87702.BitPacked.CToonHandle) <|
    .cons "m_licenses" (GameCLicenseArray) <|
    .cons "m_tandem_leader_id" (.opt (S2.P87702.BitPacked.TUserId)) <|
    .cons "m_commander" (S2.P87702.BitPacked.CCommanderHandle) <|
    .cons "m_commander_level" (S2.P87702.BitPacked.Uint32) <|
    .cons "m_has_silence_penalty" (.bool) <|
    .cons "m_tandem_id" (.opt (S2.P87702.BitPacked.TUserId)) <|
    .cons "m_commander_mastery_level" (S2.P87702.BitPacked.Uint32) <|
    .cons "m_commander_mastery_talents" (S2.P87702.BitPacked.GameCCommanderMasteryTalentArray) <|
    .cons "m_trophy_id" (S2.P87702.BitPacked.Uint32) <|
    .cons "m_reward_overrides" (S2.P87702.BitPacked.GameCRewardOverrideArray) <|
    .nil

/-- `GameSLobbySlotChange` (/repo/src/versions/protocol75689/mod.rs:1932-2107) -/
def GameSLobbySlotChange : BTy :=
  .choice 5 <|
    .cons 0 (S2.P87702.BitPacked.GameTControlId) <| -- MControl
    .cons 1 (.opt (S2.P87702.BitPacked.TUserId)) <| -- MUserId
    .cons 2 (S2.P87702.BitPacked.GameTTeamId) <| -- MTeamId
    .cons 3 (S2.P87702.BitPacked.GameTColorPreference) <| -- MColorPref
    .cons 4 (S2.P87702.BitPacked.TRacePreference) <| -- MRacePref
    .cons 5 (S2.P87702.BitPacked.GameTDifficulty) <| -- MDifficulty
    .cons 6 (S2.P87702.BitPacked.GameTaiBuild) <| -- MAiBuild
    .cons 7 (GameTHandicap) <| -- MHandicap
    .cons 8 (S2.P87702.BitPacked.EObserve) <| -- MObserve
    .cons 9 (S2.P87702.BitPacked.GameTPlayerLogoIndex) <| -- MLogoIndex
    .cons 10 (S2.P87702.BitPacked.CHeroHandle) <| -- MHero
    .cons 11 (S2.P87702.BitPacked.CSkinHandle) <| -- MSkin
    .cons 12 (S2.P87702.BitPacked.CMountHandle) <| -- MMount
    .cons 13 (GameCLicenseArray) <| -- MLicenses
    .cons 14 (.opt (S2.P87702.BitPacked.TUserId)) <| -- MTandemLeaderId
    .cons 15 (S2.P87702.BitPacked.CCommanderHandle) <| -- MCommander
    .cons 16 (S2.P87702.BitPacked.Uint32) <| -- MCommanderLevel
    .cons 17 (.bool) <| -- MHasSilencePenalty
    .cons 18 (.opt (S2.P87702.BitPacked.TUserId)) <| -- MTandemId
    .cons 19 (S2.P87702.BitPacked.Uint32) <| -- MCommanderMasteryLevel
    .nil

/-- Variant names of `GameEEventId` by wire tag (/repo/src/versions/protocol75689/mod.rs:321-1252) -/
def GameEEventId.variants : List (Int × String) :=
  [(0, "ESetLobbySlot"),
   (1, "EDropUser"),
   (2, "EStartGame"),
   (3, "EDropOurselves"),
   (4, "EUserFinishedLoading"),
   (5, "EUserFinishedLoadingSync"),
   (6, "ESetGameDuration"),
   (7, "EUserOptions"),
   (114, "EPickMapTag"),
   (8, "ETurn"),
   (9, "EBankFile"),
   (10, "EBankSection"),
   (11, "EBankKey"),
   (12, "EBankValue"),
   (13, "EBankSignature"),
   (14, "ECameraSave"),
   (15, "EPauseGame"),
   (16, "EUnpauseGame"),
   (17, "ESingleStepGame"),
   (18, "ESetGameSpeed"),
   (19, "EAddGameSpeed"),
   (20, "EReplayJump"),
   (21, "ESaveGame"),
   (22, "ESaveGameDone"),
   (23, "ELoadGameDone"),
   (24, "ESessionCheat"),
   (25, "ECommandManagerReset"),
   (26, "EGameCheat"),
   (27, "ECmd"),
   (28, "ESelectionDelta"),
   (29, "EControlGroupUpdate"),
   (30, "ESelectionSyncCheck"),
   (31, "EResourceTrade"),
   (32, "ETriggerChatMessage"),
   (33, "EAiCommunicate"),
   (34, "ESetAbsoluteGameSpeed"),
   (35, "EAddAbsoluteGameSpeed"),
   (36, "ETriggerPing"),
   (37, "EBroadcastCheat"),
   (38, "EAlliance"),
   (39, "EUnitClick"),
   (40, "EUnitHighlight"),
   (41, "ETriggerReplySelected"),
   (42, "EHijackReplaySession"),
   (43, "EHijackReplayGame"),
   (44, "ETriggerSkipped"),
   (45, "ETriggerSoundLengthQuery"),
   (46, "ETriggerSoundOffset"),
   (47, "ETriggerTransmissionOffset"),
   (48, "ETriggerTransmissionComplete"),
   (49, "ECameraUpdate"),
   (50, "ETriggerAbortMission"),
   (51, "ETriggerPurchaseMade"),
   (52, "ETriggerPurchaseExit"),
   (53, "ETriggerPlanetMissionLaunched"),
   (54, "ETriggerPlanetPanelCanceled"),
   (55, "ETriggerDialogControl"),
   (56, "ETriggerSoundLengthSync"),
   (57, "ETriggerConversationSkipped"),
   (58, "ETriggerMouseClicked"),
   (59, "ETriggerMouseMoved"),
   (60, "EAchievementAwarded"),
   (61, "ETriggerHotkeyPressed"),
   (62, "ETriggerTargetModeUpdate"),
   (63, "ETriggerPlanetPanelPanelReplay"),
   (64, "ETriggerSoundtrackDone"),
   (65, "ETriggerPlanetMissionSelected"),
   (66, "ETriggerKeyPressed"),
   (67, "ETriggerMovieFunction"),
   (68, "ETriggerPlanetPanelPanelBirthComplete"),
   (69, "ETriggerPlanetPanelPanelDeathComplete"),
   (70, "EResourceRequest"),
   (71, "EResourceRequestFulfill"),
   (72, "EResourceRequestCancel"),
   (73, "ETriggerResearchPanelExit"),
   (74, "ETriggerResearchPanelPurchase"),
   (75, "ETriggerResearchPanelSelectionChanged"),
   (76, "ETriggerCommandError"),
   (77, "ETriggerMercenaryPanelExit"),
   (78, "ETriggerMercenaryPanelPurchase"),
   (79, "ETriggerMercenaryPanelSelectionChanged"),
   (80, "ETriggerVictoryPanelExit"),
   (81, "ETriggerBattleReportPanelExit"),
   (82, "ETriggerBattleReportPanelPlayMission"),
   (83, "ETriggerBattleReportPanelPlayScene"),
   (84, "ETriggerBattleReportSelectionChanged"),
   (85, "ETriggerVictoryPanelPlayMissionAgain"),
   (86, "ETriggerMovieStarted"),
   (87, "ETriggerMovieFinished"),
   (88, "EDecrementGameTimeRemaining"),
   (89, "ETriggerPortraitLoaded"),
   (90, "ETriggerQueryDialogDismissed"),
   (91, "ETriggerGameMenuItemSelected"),
   (92, "ETriggerMouseWheel"),
   (93, "ETriggerPurchasePanelSelectedPurchaseItemChanged"),
   (94, "ETriggerPurchasePanelSelectedPurchaseCategoryChanged"),
   (95, "ETriggerButtonPressed"),
   (96, "ETriggerGameCreditsFinished"),
   (97, "ETriggerCutsceneBookmarkFired"),
   (98, "ETriggerCutsceneEndSceneFired"),
   (99, "ETriggerCutsceneConversationLine"),
   (100, "ETriggerCutsceneConversationLineMissing"),
   (101, "EGameUserLeave"),
   (102, "EGameUserJoin"),
   (103, "ECommandManagerState"),
   (104, "ECmdUpdateTargetPoint"),
   (105, "ECmdUpdateTargetUnit"),
   (106, "ETriggerAnimLengthQueryByName"),
   (107, "ETriggerAnimLengthQueryByProps"),
   (108, "ETriggerAnimOffset"),
   (109, "ECatalogModify"),
   (110, "EHeroTalentTreeSelected"),
   (111, "ETriggerProfilerLoggingFinished"),
   (112, "EHeroTalentTreeSelectionPanelToggled"),
   (113, "EMuteUserChanged"),
   (115, "EConvertToReplaySession"),
   (116, "ESetSyncLoadingTime"),
   (117, "ESetSyncPlayingTime"),
   (118, "EPeerSetSyncLoadingTime"),
   (119, "EPeerSetSyncPlayingTime")]

/-- All 6 types of this module. [/repo/src/versions/protocol75689/mod.rs:1-2108] -/
def all : List (String × BTy) :=
  [("GameSCmdEvent", GameSCmdEvent),
   ("GameEEventId", GameEEventId),
   ("GameTHandicap", GameTHandicap),
   ("GameCLicenseArray", GameCLicenseArray),
   ("GameSLobbySlot", GameSLobbySlot),
   ("GameSLobbySlotChange", GameSLobbySlotChange)]

end S2.P75689.BitPacked
