import Verif.Spec.FieldSpec
import Verif.Gen.P87702BitPacked
/-!
# Which wire field each member of a public game or chat event comes from

Fields and variants are addressed by their names in the protocol.
-/
namespace S2
open P87702.BitPacked

/-- Names of the fields, in declaration order. -/
def BFields.names : BFields → List String
  | .nil => []
  | .cons name _ rest => name :: rest.names

/-- The field called `name` of the decoded structure `v` of type `t` has the value `x`. -/
def HasField (t : BTy) (v : Val) (name : String) (x : Val) : Prop :=
  match t, v with
  | .struct fs, .struct vs => fs.names.length = vs.length ∧ (fs.names.zip vs).lookup name = some x
  | _, _ => False

/-- The decoded value `v` is the variant called `name`, with payload `w`. -/
def IsVariant (variants : List (Int × String)) (v : Val) (name : String) (w : Val) : Prop :=
  ∃ t, v = .choice t w ∧ (t, name) ∈ variants

def IsPoint (x y : Int) (v : Val) : Prop :=
  HasField GameSPointMini v "x" (.int x) ∧ HasField GameSPointMini v "y" (.int y)

def IsCoord (c : MapCoord) (v : Val) : Prop :=
  HasField GameSMapCoord3D v "x" (.int c.x) ∧ HasField GameSMapCoord3D v "y" (.int c.y) ∧ HasField GameSMapCoord3D v "z" (.int c.z)

def IsUi (c : UiCoord) (v : Val) : Prop :=
  HasField GameSuiCoord v "x" (.int c.x) ∧ HasField GameSuiCoord v "y" (.int c.y)

def IsTargetUnit (u : CmdTargetUnit) (v : Val) : Prop :=
  HasField GameSCmdDataTargetUnit v "m_target_unit_flags" (.int u.targetUnitFlags) ∧
  HasField GameSCmdDataTargetUnit v "m_timer" (.int u.timer) ∧
  HasField GameSCmdDataTargetUnit v "m_tag" (.int u.tag) ∧
  HasField GameSCmdDataTargetUnit v "m_snapshot_unit_link" (.int u.snapshotUnitLink) ∧
  HasField GameSCmdDataTargetUnit v "m_snapshot_control_player_id" (optNum u.snapshotControlPlayerId) ∧
  HasField GameSCmdDataTargetUnit v "m_snapshot_upkeep_player_id" (optNum u.snapshotUpkeepPlayerId) ∧
  ∃ p, HasField GameSCmdDataTargetUnit v "m_snapshot_point" p ∧ IsCoord u.snapshotPoint p

def IsCmdData (d : CmdData) (v : Val) : Prop :=
  match d with
  | .none => ∃ w, IsVariant GameSCmdData.variants v "None" w
  | .targetPoint c => ∃ w, IsVariant GameSCmdData.variants v "TargetPoint" w ∧ IsCoord c w
  | .targetUnit u => ∃ w, IsVariant GameSCmdData.variants v "TargetUnit" w ∧ IsTargetUnit u w
  | .data x => IsVariant GameSCmdData.variants v "Data" (.int x)

/-- An ability of a command, before the name of the ability is looked up. -/
def IsAbil (a : CmdAbil) (v : Val) : Prop :=
  HasField GameSCmdAbil v "m_abil_link" (.int a.abilLink) ∧ HasField GameSCmdAbil v "m_abil_cmd_index" (.int a.abilCmdIndex) ∧
  HasField GameSCmdAbil v "m_abil_cmd_data" (optNum a.abilCmdData) ∧ a.ability = []

def IsOpt {α : Type} (R : α → Val → Prop) : Option α → Val → Prop
  | none, v => v = .none
  | some a, v => ∃ w, v = .some w ∧ R a w

def IsMask (m : SelectionMask) (v : Val) : Prop :=
  match m with
  | .none => ∃ w, IsVariant GameSSelectionMask.variants v "None" w
  | .mask b => IsVariant GameSSelectionMask.variants v "Mask" (.bytes b)
  | .oneIndices l => IsVariant GameSSelectionMask.variants v "OneIndices" (.list (l.map .int))
  | .zeroIndices l => IsVariant GameSSelectionMask.variants v "ZeroIndices" (.list (l.map .int))

def IsSubgroup (g : SelectionSubgroup) (v : Val) : Prop :=
  HasField GameSSelectionDeltaSubgroup v "m_unit_link" (.int g.unitLink) ∧
  HasField GameSSelectionDeltaSubgroup v "m_subgroup_priority" (.int g.subgroupPriority) ∧
  HasField GameSSelectionDeltaSubgroup v "m_intra_subgroup_priority" (.int g.intraSubgroupPriority) ∧
  HasField GameSSelectionDeltaSubgroup v "m_count" (.int g.count)

/-- Element by element. -/
inductive Each {α : Type} (R : α → Val → Prop) : List α → List Val → Prop
  | nil : Each R [] []
  | cons {a : α} {v : Val} {as : List α} {vs : List Val} : R a v → Each R as vs → Each R (a :: as) (v :: vs)

def groupUpdateName : GroupUpdate → String
  | .set => "ESet" | .append => "EAppend" | .recall => "ERecall" | .clear => "EClear"
  | .setAndSteal => "ESetAndSteal" | .appendAndSteal => "EAppendAndSteal"

def leaveReasonName : LeaveReason → String
  | .userLeft => "EUserLeft" | .userDropped => "EUserDropped" | .userBanned => "EUserBanned" | .userVictory => "EUserVictory"
  | .userDefeat => "EUserDefeat" | .userTied => "EUserTied" | .userDesynced => "EUserDesynced" | .userOutOfTime => "EUserOutOfTime"
  | .weWereUnresponsive => "EWeWereUnresponsive" | .weContinuedAlone => "EWeContinuedAlone" | .replayDesynced => "EReplayDesynced"
  | .userTimeout => "EUserTimeout" | .userDisconnected => "EUserDisconnected" | .unrecoverable => "EUnrecoverable"
  | .userCatchupDesynced => "EUserCatchupDesynced" | .takeCommandDropped => "ETakeCommandDropped"

def commandStateName : CommandManagerState → String
  | .fireDone => "EFireDone" | .fireOnce => "EFireOnce" | .fireMany => "EFireMany"

/-- The kinds that do not change the replay state. -/
def OtherFields (e : OtherEvt) (v : Val) : Prop :=
  match e with
  | .dropUser u r => ∃ w x y, IsVariant GameEEventId.variants v "EDropUser" w ∧
      HasField GameSDropUserEvent w "m_drop_session_user_id" (.int u) ∧ HasField GameSDropUserEvent w "m_reason" x ∧
      IsVariant ELeaveReason.variants x (leaveReasonName r) y
  | .selectionSyncCheck g d => ∃ w x, IsVariant GameEEventId.variants v "ESelectionSyncCheck" w ∧
      HasField GameSSelectionSyncCheckEvent w "m_control_group_id" (.int g) ∧
      HasField GameSSelectionSyncCheckEvent w "m_selection_sync_data" x ∧
      HasField GameSSelectionSyncData x "m_count" (.int d.count) ∧
      HasField GameSSelectionSyncData x "m_subgroup_count" (.int d.subgroupCount) ∧
      HasField GameSSelectionSyncData x "m_active_subgroup_index" (.int d.activeSubgroupIndex) ∧
      HasField GameSSelectionSyncData x "m_unit_tags_checksum" (.int d.unitTagsChecksum) ∧
      HasField GameSSelectionSyncData x "m_subgroup_indices_checksum" (.int d.subgroupIndicesChecksum) ∧
      HasField GameSSelectionSyncData x "m_subgroups_checksum" (.int d.subgroupsChecksum)
  | .triggerChatMessage m => ∃ w b, IsVariant GameEEventId.variants v "ETriggerChatMessage" w ∧
      HasField GameSTriggerChatMessageEvent w "m_chat_message" (.bytes b) ∧
      m = if utf8Ok b then b else str "InvalidUTF8(" ++ debugBytes b ++ str ")"
  | .unitClick t => ∃ w, IsVariant GameEEventId.variants v "EUnitClick" w ∧ HasField GameSUnitClickEvent w "m_unit_tag" (.int t)
  | .unitHighlight t f => ∃ w, IsVariant GameEEventId.variants v "EUnitHighlight" w ∧
      HasField GameSUnitHighlightEvent w "m_unit_tag" (.int t) ∧ HasField GameSUnitHighlightEvent w "m_flags" (.int f)
  | .triggerReplySelected c r => ∃ w, IsVariant GameEEventId.variants v "ETriggerReplySelected" w ∧
      HasField GameSTriggerReplySelectedEvent w "m_conversation_id" (.int c) ∧
      HasField GameSTriggerReplySelectedEvent w "m_reply_id" (.int r)
  | .triggerMouseClicked b d ui c f => ∃ w x y, IsVariant GameEEventId.variants v "ETriggerMouseClicked" w ∧
      HasField GameSTriggerMouseClickedEvent w "m_button" (.int b) ∧ HasField GameSTriggerMouseClickedEvent w "m_down" (.bool d) ∧
      HasField GameSTriggerMouseClickedEvent w "m_pos_ui" x ∧ IsUi ui x ∧
      HasField GameSTriggerMouseClickedEvent w "m_pos_world" y ∧ IsCoord c y ∧
      HasField GameSTriggerMouseClickedEvent w "m_flags" (.int f)
  | .triggerMouseMoved ui c f => ∃ w x y, IsVariant GameEEventId.variants v "ETriggerMouseMoved" w ∧
      HasField GameSTriggerMouseMovedEvent w "m_pos_ui" x ∧ IsUi ui x ∧
      HasField GameSTriggerMouseMovedEvent w "m_pos_world" y ∧ IsCoord c y ∧
      HasField GameSTriggerMouseMovedEvent w "m_flags" (.int f)
  | .triggerHotkeyPressed h d => ∃ w, IsVariant GameEEventId.variants v "ETriggerHotkeyPressed" w ∧
      HasField GameSTriggerHotkeyPressedEvent w "m_hotkey" (.int h) ∧ HasField GameSTriggerHotkeyPressedEvent w "m_down" (.bool d)
  | .triggerTargetModeUpdate l a i s => ∃ w, IsVariant GameEEventId.variants v "ETriggerTargetModeUpdate" w ∧
      HasField GameSTriggerTargetModeUpdateEvent w "m_abil_link" (.int l) ∧ a = [] ∧
      HasField GameSTriggerTargetModeUpdateEvent w "m_abil_cmd_index" (.int i) ∧
      HasField GameSTriggerTargetModeUpdateEvent w "m_state" (.int s)
  | .triggerKeyPressed k f => ∃ w, IsVariant GameEEventId.variants v "ETriggerKeyPressed" w ∧
      HasField GameSTriggerKeyPressedEvent w "m_key" (.int k) ∧ HasField GameSTriggerKeyPressedEvent w "m_flags" (.int f)
  | .triggerMouseWheel s f => ∃ w, IsVariant GameEEventId.variants v "ETriggerMouseWheel" w ∧
      HasField GameSTriggerMouseWheelEvent w "m_wheel_spin" (.int s) ∧ HasField GameSTriggerMouseWheelEvent w "m_flags" (.int f)
  | .triggerButtonPressed b => ∃ w, IsVariant GameEEventId.variants v "ETriggerButtonPressed" w ∧
      HasField GameSTriggerButtonPressedEvent w "m_button" (.int b)
  | .commandManagerState st q => ∃ w x y, IsVariant GameEEventId.variants v "ECommandManagerState" w ∧
      HasField GameSCommandManagerStateEvent w "m_state" x ∧
      IsVariant GameECommandManagerState.variants x (commandStateName st) y ∧
      HasField GameSCommandManagerStateEvent w "m_sequence" (optNum q)

/-- The public game event `e` says what the decoded wire event `v` says: the kind of the same name, and every
member has the value of the wire field of the same name. -/
def GameFields (e : GameEvt) (v : Val) : Prop :=
  match e with
  | .cameraSave which x y => ∃ w p, IsVariant GameEEventId.variants v "ECameraSave" w ∧
      HasField GameSCameraSaveEvent w "m_which" (.int which) ∧ HasField GameSCameraSaveEvent w "m_target" p ∧ IsPoint x y p
  | .cameraUpdate target c => ∃ w p, IsVariant GameEEventId.variants v "ECameraUpdate" w ∧
      HasField GameSCameraUpdateEvent w "m_target" p ∧ IsOpt (fun t => IsPoint t.1 t.2) target p ∧
      HasField GameSCameraUpdateEvent w "m_distance" (optNum c.distance) ∧
      HasField GameSCameraUpdateEvent w "m_pitch" (optNum c.pitch) ∧
      HasField GameSCameraUpdateEvent w "m_yaw" (optNum c.yaw) ∧
      HasField GameSCameraUpdateEvent w "m_reason" (optNum c.reason) ∧
      HasField GameSCameraUpdateEvent w "m_follow" (.bool c.follow)
  | .cmd c => ∃ w a d, IsVariant GameEEventId.variants v "ECmd" w ∧
      HasField GameSCmdEvent w "m_cmd_flags" (.int c.cmdFlags) ∧
      HasField GameSCmdEvent w "m_abil" a ∧ IsOpt IsAbil c.abil a ∧
      HasField GameSCmdEvent w "m_data" d ∧ IsCmdData c.data d ∧
      HasField GameSCmdEvent w "m_sequence" (.int c.sequence) ∧
      HasField GameSCmdEvent w "m_other_unit" (optNum c.otherUnit) ∧
      HasField GameSCmdEvent w "m_unit_group" (optNum c.unitGroup)
  | .cmdUpdateTargetPoint c => ∃ w p, IsVariant GameEEventId.variants v "ECmdUpdateTargetPoint" w ∧
      HasField GameSCmdUpdateTargetPointEvent w "m_target" p ∧ IsCoord c p
  | .cmdUpdateTargetUnit u => ∃ w p, IsVariant GameEEventId.variants v "ECmdUpdateTargetUnit" w ∧
      HasField GameSCmdUpdateTargetUnitEvent w "m_target" p ∧ IsTargetUnit u p
  | .selectionDelta e => ∃ w d m gs, IsVariant GameEEventId.variants v "ESelectionDelta" w ∧
      HasField GameSSelectionDeltaEvent w "m_control_group_id" (.int e.controlGroupId) ∧
      HasField GameSSelectionDeltaEvent w "m_delta" d ∧
      HasField GameSSelectionDelta d "m_subgroup_index" (.int e.subgroupIndex) ∧
      HasField GameSSelectionDelta d "m_remove_mask" m ∧ IsMask e.removeMask m ∧
      HasField GameSSelectionDelta d "m_add_subgroups" (.list gs) ∧ Each IsSubgroup e.addSubgroups gs ∧
      HasField GameSSelectionDelta d "m_add_unit_tags" (.list (e.addUnitTags.map .int))
  | .controlGroupUpdate e => ∃ w u x m, IsVariant GameEEventId.variants v "EControlGroupUpdate" w ∧
      HasField GameSControlGroupUpdateEvent w "m_control_group_index" (.int e.controlGroupIndex) ∧
      HasField GameSControlGroupUpdateEvent w "m_control_group_update" u ∧
      IsVariant GameEControlGroupUpdate.variants u (groupUpdateName e.update) x ∧
      HasField GameSControlGroupUpdateEvent w "m_mask" m ∧ IsMask e.mask m
  | .other o => OtherFields o v

/-- A chat message: recipient (by wire tag) and text. -/
def ChatFields (e : ChatEvt) (v : Val) : Prop :=
  ∃ w x, IsVariant GameEMessageId.variants v "EChat" w ∧
    HasField GameSChatMessage w "m_recipient" (.choice e.recipient x) ∧
    HasField GameSChatMessage w "m_string" (.bytes e.text) ∧ utf8Ok e.text = true

end S2
