import Verif.Text
import Verif.Schema.Val
import Verif.Gen.PlayerStats
/-!
# Version-agnostic events

`ReplayTrackerEvent` (/repo/src/tracker_events/mod.rs:49-71), `ReplayGameEvent`
(/repo/src/game_events/mod.rs:52-84) and `ReplayMessageEvent` (/repo/src/message_events.rs).
-/
namespace S2

/-- `UnitBornEvent` (/repo/src/tracker_events/unit_born.rs:16-27) -/
structure UnitBornEvent where
  unitTagIndex : Int
  unitTagRecycle : Int
  unitTypeName : Str
  controlPlayerId : Int
  upkeepPlayerId : Int
  x : Int
  y : Int
  creatorUnitTagIndex : Option Int
  creatorUnitTagRecycle : Option Int
  creatorAbilityName : Option Str
  deriving DecidableEq, Repr

/-- `UnitDiedEvent` (/repo/src/tracker_events/unit_died.rs:16-24) -/
structure UnitDiedEvent where
  unitTagIndex : Int
  unitTagRecycle : Int
  killerPlayerId : Option Int
  x : Int
  y : Int
  killerUnitTagIndex : Option Int
  killerUnitTagRecycle : Option Int
  deriving DecidableEq, Repr

/-- `UnitOwnerChangeEvent` (/repo/src/tracker_events/unit_owner_change.rs:14-19) -/
structure UnitOwnerChangeEvent where
  unitTagIndex : Int
  unitTagRecycle : Int
  controlPlayerId : Int
  upkeepPlayerId : Int
  deriving DecidableEq, Repr

/-- `UnitTypeChangeEvent` (/repo/src/tracker_events/unit_type_change.rs:14-18) -/
structure UnitTypeChangeEvent where
  unitTagIndex : Int
  unitTagRecycle : Int
  unitTypeName : Str
  deriving DecidableEq, Repr

/-- `UpgradeEvent` (/repo/src/tracker_events/player_upgrade.rs:14-19) -/
structure UpgradeEvent where
  playerId : Int
  playerName : Option Str
  upgradeTypeName : Str
  count : Int
  deriving DecidableEq, Repr

/-- `UnitInitEvent` (/repo/src/tracker_events/unit_init.rs:15-23) -/
structure UnitInitEvent where
  unitTagIndex : Int
  unitTagRecycle : Int
  unitTypeName : Str
  controlPlayerId : Int
  upkeepPlayerId : Int
  x : Int
  y : Int
  deriving DecidableEq, Repr

/-- `UnitDoneEvent` (/repo/src/tracker_events/unit_done.rs:15-18) -/
structure UnitDoneEvent where
  unitTagIndex : Int
  unitTagRecycle : Int
  deriving DecidableEq, Repr

/-- `UnitPositionsEvent` (/repo/src/tracker_events/unit_positions.rs:31-34) -/
structure UnitPositionsEvent where
  firstUnitIndex : Int
  items : List Int
  deriving DecidableEq, Repr

/-- `PlayerSetupEvent` (/repo/src/tracker_events/player_setup.rs:14-19) -/
structure PlayerSetupEvent where
  playerId : Int
  type : Int
  userId : Option Int
  slotId : Option Int
  deriving DecidableEq, Repr

/-- `ReplayTrackerEvent` (/repo/src/tracker_events/mod.rs:49-71) -/
inductive TrackerEvt
  | playerStats (playerId : Int) (stats : PlayerStats)
  | unitBorn (e : UnitBornEvent)
  | unitDied (e : UnitDiedEvent)
  | unitOwnerChange (e : UnitOwnerChangeEvent)
  | unitTypeChange (e : UnitTypeChangeEvent)
  | upgrade (e : UpgradeEvent)
  | unitInit (e : UnitInitEvent)
  | unitDone (e : UnitDoneEvent)
  | unitPosition (e : UnitPositionsEvent)
  | playerSetup (e : PlayerSetupEvent)
  deriving DecidableEq, Repr

/-- `GameSMapCoord3D` (/repo/src/game_events/mod.rs:206-210) -/
structure MapCoord where
  x : Int
  y : Int
  z : Int
  deriving DecidableEq, Repr

/-- `GameSCmdAbil` (/repo/src/game_events/mod.rs:181-186) -/
structure CmdAbil where
  abilLink : Int
  ability : Str
  abilCmdIndex : Int
  abilCmdData : Option Int
  deriving DecidableEq, Repr

/-- `GameSCmdDataTargetUnit` (/repo/src/game_events/mod.rs:217-225) -/
structure CmdTargetUnit where
  targetUnitFlags : Int
  timer : Int
  tag : Int
  snapshotUnitLink : Int
  snapshotControlPlayerId : Option Int
  snapshotUpkeepPlayerId : Option Int
  snapshotPoint : MapCoord
  deriving DecidableEq, Repr

/-- `GameSCmdData` (/repo/src/game_events/mod.rs:194-199) -/
inductive CmdData
  | none
  | targetPoint (p : MapCoord)
  | targetUnit (u : CmdTargetUnit)
  | data (d : Int)
  deriving DecidableEq, Repr

/-- `GameSCmdEvent` (/repo/src/game_events/mod.rs:167-174) -/
structure CmdEvent where
  cmdFlags : Int
  abil : Option CmdAbil
  data : CmdData
  sequence : Int
  otherUnit : Option Int
  unitGroup : Option Int
  deriving DecidableEq, Repr

/-- `GameEControlGroupUpdate` (/repo/src/game_events/mod.rs) -/
inductive GroupUpdate
  | set | append | recall | clear | setAndSteal | appendAndSteal
  deriving DecidableEq, Repr

/-- `GameSSelectionMask` (/repo/src/game_events/mod.rs:342-347), with `GameSelectionMaskType` and
`GameSelectionIndexArrayType` (353-365) identified with their content. -/
inductive SelectionMask
  | none
  | mask (bits : List UInt8)
  | oneIndices (l : List Int)
  | zeroIndices (l : List Int)
  deriving DecidableEq, Repr

/-- `GameSSelectionDeltaSubgroup` (/repo/src/game_events/mod.rs:329-334) -/
structure SelectionSubgroup where
  unitLink : Int
  subgroupPriority : Int
  intraSubgroupPriority : Int
  count : Int
  deriving DecidableEq, Repr

/-- `GameSSelectionDeltaEvent` and its `GameSSelectionDelta` (/repo/src/game_events/mod.rs:308-322). -/
structure SelectionDeltaEvent where
  controlGroupId : Int
  subgroupIndex : Int
  removeMask : SelectionMask
  addSubgroups : List SelectionSubgroup
  addUnitTags : List Int
  deriving DecidableEq, Repr

/-- `GameSControlGroupUpdateEvent` (/repo/src/game_events/mod.rs:396-400) -/
structure ControlGroupUpdateEvent where
  controlGroupIndex : Int
  update : GroupUpdate
  mask : SelectionMask
  deriving DecidableEq, Repr

/-- `CameraUpdateEvent` (/repo/src/game_events/mod.rs:143-150) without `m_target`. -/
structure CameraView where
  distance : Option Int
  pitch : Option Int
  yaw : Option Int
  reason : Option Int
  follow : Bool
  deriving DecidableEq, Repr

/-- `ELeaveReason` (/repo/src/game_events/mod.rs:99-116) -/
inductive LeaveReason
  | userLeft | userDropped | userBanned | userVictory | userDefeat | userTied | userDesynced | userOutOfTime
  | weWereUnresponsive | weContinuedAlone | replayDesynced | userTimeout | userDisconnected | unrecoverable
  | userCatchupDesynced | takeCommandDropped
  deriving DecidableEq, Repr

/-- `GameSSelectionSyncData` (/repo/src/game_events/mod.rs:382-389) -/
structure SelectionSyncData where
  count : Int
  subgroupCount : Int
  activeSubgroupIndex : Int
  unitTagsChecksum : Int
  subgroupIndicesChecksum : Int
  subgroupsChecksum : Int
  deriving DecidableEq, Repr

/-- `GameSuiCoord` (/repo/src/game_events/mod.rs:271-274) -/
structure UiCoord where
  x : Int
  y : Int
  deriving DecidableEq, Repr

/-- `GameECommandManagerState` (/repo/src/game_events/mod.rs:492-496) -/
inductive CommandManagerState
  | fireDone | fireOnce | fireMany
  deriving DecidableEq, Repr

/-- The variants of `ReplayGameEvent` (/repo/src/game_events/mod.rs:58-84) that `handle_game_event` passes through
unchanged, with their structures (/repo/src/game_events/mod.rs:123-126, 249-301, 372-375, 422-485). -/
inductive OtherEvt
  | dropUser (dropSessionUserId : Int) (reason : LeaveReason)
  | selectionSyncCheck (controlGroupId : Int) (data : SelectionSyncData)
  | triggerChatMessage (chatMessage : Str)
  | unitClick (unitTag : Int)
  | unitHighlight (unitTag flags : Int)
  | triggerReplySelected (conversationId replyId : Int)
  | triggerMouseClicked (button : Int) (down : Bool) (posUi : UiCoord) (posWorld : MapCoord) (flags : Int)
  | triggerMouseMoved (posUi : UiCoord) (posWorld : MapCoord) (flags : Int)
  | triggerHotkeyPressed (hotkey : Int) (down : Bool)
  | triggerTargetModeUpdate (abilLink : Int) (ability : Str) (abilCmdIndex state : Int)
  | triggerKeyPressed (key flags : Int)
  | triggerMouseWheel (wheelSpin flags : Int)
  | triggerButtonPressed (button : Int)
  | commandManagerState (state : CommandManagerState) (sequence : Option Int)
  deriving DecidableEq, Repr

/-- `ReplayGameEvent` (/repo/src/game_events/mod.rs:58-84): the seven kinds that `handle_game_event` acts upon, and
the fourteen it passes through. -/
inductive GameEvt
  | cameraSave (which x y : Int)
  | cameraUpdate (target : Option (Int × Int)) (view : CameraView)
  | cmd (e : CmdEvent)
  | cmdUpdateTargetPoint (target : MapCoord)
  | cmdUpdateTargetUnit (target : CmdTargetUnit)
  | selectionDelta (e : SelectionDeltaEvent)
  | controlGroupUpdate (e : ControlGroupUpdateEvent)
  | other (e : OtherEvt)
  deriving DecidableEq, Repr

/-- `ReplayMessageEvent::EChat` (/repo/src/message_events.rs) -/
structure ChatEvt where
  recipient : Int
  text : Str
  deriving DecidableEq, Repr

end S2
