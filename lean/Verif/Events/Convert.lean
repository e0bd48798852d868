import Verif.Events.Types
/-!
# From protocol-specific to version-agnostic events (`TryFrom` / `From` impls)

A value that does not have the shape of its schema type yields `.panic`; `Props/Events` proves that
decoded values never do.
-/
namespace S2

/-- Rust `x as uN`. [e.g. /repo/src/versions/protocol87702/events/common.rs:29-63] -/
def asU (n : Nat) (x : Int) : Int := x % 2 ^ n

/-- Rust `x as i32`. [e.g. /repo/src/versions/protocol87702/events/tracker/mod.rs:170-177] -/
def asI32 (x : Int) : Int := if x % 2 ^ 32 < 2 ^ 31 then x % 2 ^ 32 else x % 2 ^ 32 - 2 ^ 32

/-- Rust `x as i8` / `x as i16`. [/repo/src/versions/protocol87702/events/common.rs:29-33] -/
def asI8 (x : Int) : Int := if x % 2 ^ 8 < 2 ^ 7 then x % 2 ^ 8 else x % 2 ^ 8 - 2 ^ 8
/-- [/repo/src/versions/protocol87702/events/game/mod.rs:79-86] -/
def asI16 (x : Int) : Int := if x % 2 ^ 16 < 2 ^ 15 then x % 2 ^ 16 else x % 2 ^ 16 - 2 ^ 16

/-- An `Option` of an integer. [reading a generated `Option` field, as in /repo/src/versions/protocol87702/events/tracker/mod.rs:87-133] -/
def Val.optInt : Val → Res (Option Int)
  | .none => .ok Option.none
  | .some (.int x) => .ok (Option.some x)
  | _ => .panic

/-- An `Option` of bytes. [reading a generated `Option` field, as in /repo/src/versions/protocol87702/events/tracker/mod.rs:87-108] -/
def Val.optBytes : Val → Res (Option (List UInt8))
  | .none => .ok Option.none
  | .some (.bytes b) => .ok (Option.some b)
  | _ => .panic

/-- A list of integers. [reading a generated `Vec` field, as in /repo/src/versions/protocol87702/events/tracker/mod.rs:170-177] -/
def Val.ints : List Val → Res (List Int)
  | [] => .ok []
  | .int x :: vs => do
    let xs ← Val.ints vs
    pure (x :: xs)
  | _ => .panic

/-- `TryFrom<ReplayTrackerSUnitBornEvent>`
(/repo/src/versions/protocol87702/events/tracker/mod.rs:87-109): the creator ability name is checked
first, then the unit type name. -/
def convUnitBorn : Val → Res TrackerEvt
  | .struct [.int ti, .int tr, .bytes name, .int cp, .int up, .int x, .int y, cti, ctr, can] => do
    let cti ← cti.optInt
    let ctr ← ctr.optInt
    let can ← can.optBytes
    let creatorAbilityName ← (match can with
      | some b => do
        let s ← fromUtf8 b
        pure (some s)
      | none => pure none : Res (Option Str))
    let unitTypeName ← fromUtf8 name
    pure (.unitBorn ⟨ti, tr, unitTypeName, cp, up, x, y, cti, ctr, creatorAbilityName⟩)
  | _ => .panic

/-- `From<ReplayTrackerSUnitDiedEvent>` (/repo/src/versions/protocol87702/events/tracker/mod.rs:121-133) -/
def convUnitDied : Val → Res TrackerEvt
  | .struct [.int ti, .int tr, kp, .int x, .int y, kti, ktr] => do
    let kp ← kp.optInt
    let kti ← kti.optInt
    let ktr ← ktr.optInt
    pure (.unitDied ⟨ti, tr, kp, x, y, kti, ktr⟩)
  | _ => .panic

/-- `TryFrom<ReplayTrackerSUpgradeEvent>` (/repo/src/versions/protocol87702/events/tracker/mod.rs:72-86): a name that is not UTF-8 is
replaced by its debug form. -/
def convUpgrade : Val → Res TrackerEvt
  | .struct [.int pid, .bytes name, .int count] =>
    .ok (.upgrade ⟨pid, none, if utf8Ok name then name else debugBytes name, count⟩)
  | _ => .panic

/-- `TryFrom<ReplayTrackerSUnitTypeChangeEvent>` (/repo/src/versions/protocol87702/events/tracker/mod.rs:135-144) -/
def convUnitTypeChange : Val → Res TrackerEvt
  | .struct [.int ti, .int tr, .bytes name] => do
    let s ← fromUtf8 name
    pure (.unitTypeChange ⟨ti, tr, s⟩)
  | _ => .panic

/-- `TryFrom<ReplayTrackerSUnitInitEvent>` (/repo/src/versions/protocol87702/events/tracker/mod.rs:146-159) -/
def convUnitInit : Val → Res TrackerEvt
  | .struct [.int ti, .int tr, .bytes name, .int cp, .int up, .int x, .int y] => do
    let s ← fromUtf8 name
    pure (.unitInit ⟨ti, tr, s, cp, up, x, y⟩)
  | _ => .panic

/-- `From<ReplayTrackerSPlayerStatsEvent>` (/repo/src/versions/protocol87702/events/tracker/mod.rs:179-186) -/
def convPlayerStats : Val → Res TrackerEvt
  | .struct [.int pid, .struct stats] => do
    let ws ← Val.ints stats
    if ws.length = 39 then pure (.playerStats pid (convStats ws)) else .panic
  | _ => .panic

/-- `From<ReplayTrackerSUnitOwnerChangeEvent>` (/repo/src/versions/protocol87702/events/tracker/mod.rs:110-119) -/
def convUnitOwnerChange : Val → Res TrackerEvt
  | .struct [.int ti, .int tr, .int cp, .int up] => .ok (.unitOwnerChange ⟨ti, tr, cp, up⟩)
  | _ => .panic

/-- `From<ReplayTrackerSUnitDoneEvent>` (/repo/src/versions/protocol87702/events/tracker/mod.rs:161-168) -/
def convUnitDone : Val → Res TrackerEvt
  | .struct [.int ti, .int tr] => .ok (.unitDone ⟨ti, tr⟩)
  | _ => .panic

/-- `From<ReplayTrackerSUnitPositionsEvent>` (/repo/src/versions/protocol87702/events/tracker/mod.rs:170-177) -/
def convUnitPosition : Val → Res TrackerEvt
  | .struct [.int first, .list items] => do
    let xs ← Val.ints items
    pure (.unitPosition ⟨first, xs⟩)
  | _ => .panic

/-- `From<ReplayTrackerSPlayerSetupEvent>` (/repo/src/versions/protocol87702/events/tracker/mod.rs:240-249) -/
def convPlayerSetup : Val → Res TrackerEvt
  | .struct [.int pid, .int ty, uid, sid] => do
    let uid ← uid.optInt
    let sid ← sid.optInt
    pure (.playerSetup ⟨pid, ty, uid, sid⟩)
  | _ => .panic

/-- `TryFrom<ReplayTrackerEEventId> for ReplayTrackerEvent`
(/repo/src/versions/protocol87702/events/tracker/mod.rs:53-70) -/
def convTracker : Val → Res TrackerEvt
  | .choice tag v =>
    match tag with
    | 0 => convPlayerStats v
    | 1 => convUnitBorn v
    | 2 => convUnitDied v
    | 3 => convUnitOwnerChange v
    | 4 => convUnitTypeChange v
    | 5 => convUpgrade v
    | 6 => convUnitInit v
    | 7 => convUnitDone v
    | 8 => convUnitPosition v
    | 9 => convPlayerSetup v
    | _ => .panic
  | _ => .panic

/-- `From<GameSMapCoord3D>` (/repo/src/versions/protocol87702/events/game/mod.rs:69-77) -/
def convCoord : Val → Res MapCoord
  | .struct [.int x, .int y, .int z] => .ok ⟨x, y, asI32 z⟩
  | _ => .panic

/-- `From<GameSCmdAbil>` (/repo/src/versions/protocol87702/events/game/cmd.rs:20-29); the link is a
16-bit number, `as u16`. -/
def convAbil : Val → Res CmdAbil
  | .struct [.int link, .int idx, d] => do
    let d ← d.optInt
    pure ⟨asU 16 link, [], idx, d.map (asU 8)⟩
  | _ => .panic

/-- `From<GameSCmdDataTargetUnit>` (/repo/src/versions/protocol87702/events/game/cmd.rs:46-58) -/
def convTargetUnit : Val → Res CmdTargetUnit
  | .struct [.int flags, .int timer, .int tag, .int link, cp, up, pt] => do
    let cp ← cp.optInt
    let up ← up.optInt
    let pt ← convCoord pt
    pure ⟨asU 16 flags, asU 8 timer, asU 32 tag, asU 16 link, cp, up, pt⟩
  | _ => .panic

/-- `From<GameSCmdData>` (/repo/src/versions/protocol87702/events/game/cmd.rs:31-44) -/
def convCmdData : Val → Res CmdData
  | .choice tag v =>
    match tag with
    | 0 => .ok .none
    | 1 => do
      let p ← convCoord v
      pure (.targetPoint p)
    | 2 => do
      let u ← convTargetUnit v
      pure (.targetUnit u)
    | 3 => (match v with
      | .int d => .ok (.data (asU 32 d))
      | _ => .panic)
    | _ => .panic
  | _ => .panic

/-- `From<GameSCmdEvent>` (/repo/src/versions/protocol87702/events/game/cmd.rs:6-18; /repo/src/versions/protocol75689/mod.rs:1284-1296) -/
def convCmd : Val → Res GameEvt
  | .struct [.int flags, abil, data, .int seq, other, grp] => do
    let abil ← (match abil with
      | .none => pure none
      | .some a => do
        let a ← convAbil a
        pure (some a)
      | _ => .panic : Res (Option CmdAbil))
    let data ← convCmdData data
    let other ← other.optInt
    let grp ← grp.optInt
    pure (.cmd ⟨flags, abil, data, seq, other.map (asU 32), grp.map (asU 32)⟩)
  | _ => .panic

/-- `TryFrom<GameSSelectionMask>` (/repo/src/versions/protocol87702/events/game/selection.rs:44-58, with 16-22 and 101-109; the indices `as u16`,
/repo/src/versions/protocol87702/events/game/mod.rs:140-144). -/
def convMask : Val → Res SelectionMask
  | .choice tag v =>
    match tag with
    | 0 => .ok .none
    | 1 => (match v with
      | .bytes b => .ok (.mask b)
      | _ => .panic)
    | 2 => (match v with
      | .list l => do
        let xs ← Val.ints l
        pure (.oneIndices (xs.map (asU 16)))
      | _ => .panic)
    | 3 => (match v with
      | .list l => do
        let xs ← Val.ints l
        pure (.zeroIndices (xs.map (asU 16)))
      | _ => .panic)
    | _ => .panic
  | _ => .panic

/-- `From<GameSSelectionDeltaSubgroup>` (/repo/src/versions/protocol87702/events/game/selection.rs:90-99, with 72-82 and /repo/src/versions/protocol87702/events/game/mod.rs:146-150). -/
def convSubgroup : Val → Res SelectionSubgroup
  | .struct [.int link, .int p, .int q, .int c] => .ok ⟨asU 16 link, asU 8 p, asU 8 q, asU 16 c⟩
  | _ => .panic

/-- `for group in source.m_add_subgroups { m_add_subgroups.push(group.into()) }` [/repo/src/versions/protocol87702/events/game/selection.rs:24-42] -/
def convSubgroups : List Val → Res (List SelectionSubgroup)
  | [] => .ok []
  | v :: vs => do
    let g ← convSubgroup v
    let gs ← convSubgroups vs
    pure (g :: gs)

/-- `TryFrom<GameSSelectionDeltaEvent>` (/repo/src/versions/protocol87702/events/game/selection.rs:5-42, with 60-70) -/
def convSelectionDelta : Val → Res GameEvt
  | .struct [.int gid, .struct [.int sub, mask, .list subs, .list tags]] => do
    let subs ← convSubgroups subs
    let tags ← Val.ints tags
    let mask ← convMask mask
    pure (.selectionDelta ⟨asU 8 gid, asU 16 sub, mask, subs, tags.map (asU 32)⟩)
  | _ => .panic

/-- `From<GameEControlGroupUpdate>` (/repo/src/versions/protocol87702/events/game/control_group.rs:19-38) -/
def convGroupUpdate : Val → Res GroupUpdate
  | .choice tag _ =>
    match tag with
    | 0 => .ok .set
    | 1 => .ok .append
    | 2 => .ok .recall
    | 3 => .ok .clear
    | 4 => .ok .setAndSteal
    | 5 => .ok .appendAndSteal
    | _ => .panic
  | _ => .panic

/-- `TryFrom<GameSControlGroupUpdateEvent>` (/repo/src/versions/protocol87702/events/game/control_group.rs:6-17) -/
def convControlGroup : Val → Res GameEvt
  | .struct [.int idx, u, mask] => do
    let u ← convGroupUpdate u
    let mask ← convMask mask
    pure (.controlGroupUpdate ⟨asU 8 idx, u, mask⟩)
  | _ => .panic

/-- `From<GameSCameraSaveEvent>` (/repo/src/versions/protocol87702/events/game/camera.rs:6-13) -/
def convCameraSave : Val → Res GameEvt
  | .struct [.int which, .struct [.int x, .int y]] => .ok (.cameraSave which x y)
  | _ => .panic

/-- `From<GameSPointMini>` under an `Option` (/repo/src/versions/protocol87702/events/game/mod.rs:119-126). -/
def convOptPoint : Val → Res (Option (Int × Int))
  | .none => .ok none
  | .some (.struct [.int x, .int y]) => .ok (some (x, y))
  | _ => .panic

/-- `From<GameSCameraUpdateEvent>` (/repo/src/versions/protocol87702/events/game/camera.rs:15-26); the reason `as i8`
(/repo/src/versions/protocol87702/events/common.rs:29-33). -/
def convCameraUpdate : Val → Res GameEvt
  | .struct [target, distance, pitch, yaw, reason, .bool follow] => do
    let target ← convOptPoint target
    let distance ← distance.optInt
    let pitch ← pitch.optInt
    let yaw ← yaw.optInt
    let reason ← reason.optInt
    pure (.cameraUpdate target ⟨distance, pitch, yaw, reason.map asI8, follow⟩)
  | _ => .panic

/-- `From<GameSCmdUpdateTargetPointEvent>` (/repo/src/versions/protocol87702/events/game/cmd.rs:60-66) -/
def convTargetPointEvt : Val → Res GameEvt
  | .struct [p] => do
    let p ← convCoord p
    pure (.cmdUpdateTargetPoint p)
  | _ => .panic

/-- `From<GameSCmdUpdateTargetUnitEvent>` (/repo/src/versions/protocol87702/events/game/cmd.rs:68-74) -/
def convTargetUnitEvt : Val → Res GameEvt
  | .struct [u] => do
    let u ← convTargetUnit u
    pure (.cmdUpdateTargetUnit u)
  | _ => .panic

/-- `From<ELeaveReason>` (/repo/src/versions/protocol87702/events/game/user.rs:15-42). -/
def convLeaveReason : Val → Res LeaveReason
  | .choice tag _ =>
    match tag with
    | 0 => .ok .userLeft
    | 1 => .ok .userDropped
    | 2 => .ok .userBanned
    | 3 => .ok .userVictory
    | 4 => .ok .userDefeat
    | 5 => .ok .userTied
    | 6 => .ok .userDesynced
    | 7 => .ok .userOutOfTime
    | 8 => .ok .weWereUnresponsive
    | 9 => .ok .weContinuedAlone
    | 10 => .ok .replayDesynced
    | 11 => .ok .userTimeout
    | 12 => .ok .userDisconnected
    | 13 => .ok .unrecoverable
    | 14 => .ok .userCatchupDesynced
    | 15 => .ok .takeCommandDropped
    | _ => .panic
  | _ => .panic

/-- `From<GameSDropUserEvent>` (/repo/src/versions/protocol87702/events/game/user.rs:6-13); the user id `as u8` (/repo/src/versions/protocol87702/events/common.rs:59-63). -/
def convDropUser : Val → Res OtherEvt
  | .struct [.int u, r] => do
    let r ← convLeaveReason r
    pure (.dropUser (asU 8 u) r)
  | _ => .panic

/-- `From<GameSSelectionSyncCheckEvent>`, `From<GameSSelectionSyncData>` (/repo/src/versions/protocol87702/events/game/selection.rs:117-139). -/
def convSyncCheck : Val → Res OtherEvt
  | .struct [.int g, .struct [.int c, .int sc, .int a, .int t, .int i, .int s]] =>
    .ok (.selectionSyncCheck (asU 8 g) ⟨asU 16 c, asU 16 sc, asU 16 a, asU 32 t, asU 32 i, asU 32 s⟩)
  | _ => .panic

/-- `From<GameSTriggerChatMessageEvent>` (/repo/src/versions/protocol87702/events/game/mod.rs:164-177): a message that is not UTF-8 is shown as
`InvalidUTF8([…])`. -/
def convTriggerChat : Val → Res OtherEvt
  | .struct [.bytes b] => .ok (.triggerChatMessage (if utf8Ok b then b else str "InvalidUTF8(" ++ debugBytes b ++ str ")"))
  | _ => .panic

/-- `From<GameSUnitClickEvent>`, `From<GameSUnitHighlightEvent>` (/repo/src/versions/protocol87702/events/game/unit.rs:6-21). -/
def convUnitClick : Val → Res OtherEvt
  | .struct [.int t] => .ok (.unitClick (asU 32 t))
  | _ => .panic
/-- [/repo/src/versions/protocol87702/events/game/unit.rs:14-21] -/
def convUnitHighlight : Val → Res OtherEvt
  | .struct [.int t, .int f] => .ok (.unitHighlight (asU 32 t) (asU 8 f))
  | _ => .panic

/-- `From<GameSTriggerReplySelectedEvent>` (/repo/src/versions/protocol87702/events/game/mod.rs:179-188). -/
def convReplySelected : Val → Res OtherEvt
  | .struct [.int c, .int r] => .ok (.triggerReplySelected (asI32 c) (asI32 r))
  | _ => .panic

/-- `From<GameSuiCoord>` (/repo/src/versions/protocol87702/events/game/mod.rs:79-86). -/
def convUi : Val → Res UiCoord
  | .struct [.int x, .int y] => .ok ⟨asU 16 x, asU 16 y⟩
  | _ => .panic

/-- `From<GameSTriggerMouseClickedEvent>` (/repo/src/versions/protocol87702/events/game/mouse.rs:6-16). -/
def convMouseClicked : Val → Res OtherEvt
  | .struct [.int b, .bool d, ui, w, .int f] => do
    let ui ← convUi ui
    let w ← convCoord w
    pure (.triggerMouseClicked (asU 32 b) d ui w (asI8 f))
  | _ => .panic

/-- `From<GameSTriggerMouseMovedEvent>` (/repo/src/versions/protocol87702/events/game/mouse.rs:18-26). -/
def convMouseMoved : Val → Res OtherEvt
  | .struct [ui, w, .int f] => do
    let ui ← convUi ui
    let w ← convCoord w
    pure (.triggerMouseMoved ui w (asI8 f))
  | _ => .panic

/-- `From<GameSTriggerMouseWheelEvent>` (/repo/src/versions/protocol87702/events/game/mouse.rs:28-35). -/
def convMouseWheel : Val → Res OtherEvt
  | .struct [.int s, .int f] => .ok (.triggerMouseWheel (asI16 s) (asI8 f))
  | _ => .panic

/-- `From<GameSTriggerHotkeyPressedEvent>` (/repo/src/versions/protocol87702/events/game/mod.rs:190-199). -/
def convHotkey : Val → Res OtherEvt
  | .struct [.int h, .bool d] => .ok (.triggerHotkeyPressed (asU 32 h) d)
  | _ => .panic

/-- `From<GameSTriggerTargetModeUpdateEvent>` (/repo/src/versions/protocol87702/events/game/mod.rs:201-212). -/
def convTargetMode : Val → Res OtherEvt
  | .struct [.int l, .int i, .int s] => .ok (.triggerTargetModeUpdate (asU 16 l) [] i (asI8 s))
  | _ => .panic

/-- `From<GameSTriggerKeyPressedEvent>` (/repo/src/versions/protocol87702/events/game/mod.rs:214-221). -/
def convKey : Val → Res OtherEvt
  | .struct [.int k, .int f] => .ok (.triggerKeyPressed (asI8 k) (asI8 f))
  | _ => .panic

/-- `From<GameSTriggerButtonPressedEvent>` (/repo/src/versions/protocol87702/events/game/mod.rs:223-231). -/
def convButton : Val → Res OtherEvt
  | .struct [.int b] => .ok (.triggerButtonPressed (asU 16 b))
  | _ => .panic

/-- `From<GameECommandManagerState>`, `From<GameSCommandManagerStateEvent>` (/repo/src/versions/protocol87702/events/game/cmd.rs:76-99). -/
def convCommandState : Val → Res CommandManagerState
  | .choice tag _ =>
    match tag with
    | 0 => .ok .fireDone
    | 1 => .ok .fireOnce
    | 2 => .ok .fireMany
    | _ => .panic
  | _ => .panic
/-- [/repo/src/versions/protocol87702/events/game/cmd.rs:88-99] -/
def convCommandManager : Val → Res OtherEvt
  | .struct [st, seq] => do
    let st ← convCommandState st
    let seq ← seq.optInt
    pure (.commandManagerState st seq)
  | _ => .panic

/-- The arms of `TryFrom<GameEEventId>` for the kinds that the replay state passes through unchanged: EDropUser,
ESelectionSyncCheck, ETriggerChatMessage, EUnitClick, EUnitHighlight, ETriggerReplySelected, ETriggerMouseClicked,
ETriggerMouseMoved, ETriggerHotkeyPressed, ETriggerTargetModeUpdate, ETriggerKeyPressed, ETriggerMouseWheel,
ETriggerButtonPressed, ECommandManagerState (/repo/src/versions/protocol87702/events/game/mod.rs:88-117). -/
def convOther (tag : Int) (v : Val) : Res OtherEvt :=
  match tag with
  | 1 => convDropUser v
  | 30 => convSyncCheck v
  | 32 => convTriggerChat v
  | 39 => convUnitClick v
  | 40 => convUnitHighlight v
  | 41 => convReplySelected v
  | 58 => convMouseClicked v
  | 59 => convMouseMoved v
  | 61 => convHotkey v
  | 62 => convTargetMode v
  | 66 => convKey v
  | 92 => convMouseWheel v
  | 95 => convButton v
  | 103 => convCommandManager v
  | _ => .err .unsupportedEvent

/-- `TryFrom<GameEEventId> for ReplayGameEvent`
(/repo/src/versions/protocol87702/events/game/mod.rs:88-117, /repo/src/versions/protocol75689/mod.rs:1254-1282):
the same table in both protocols. -/
def convGame : Val → Res GameEvt
  | .choice tag v =>
    if tag = 14 then convCameraSave v
    else if tag = 27 then convCmd v
    else if tag = 28 then convSelectionDelta v
    else if tag = 29 then convControlGroup v
    else if tag = 49 then convCameraUpdate v
    else if tag = 104 then convTargetPointEvt v
    else if tag = 105 then convTargetUnitEvt v
    else do
      let o ← convOther tag v
      pure (.other o)
  | _ => .panic

/-- `TryFrom<GameEMessageId> for ReplayMessageEvent`
(/repo/src/versions/protocol87702/events/message/mod.rs:63-83): only chat; other kinds are unsupported. -/
def convMessage : Val → Res ChatEvt
  | .choice tag v =>
    if tag = 0 then
      match v with
      | .struct [.choice r _, .bytes s] => do
        let s ← fromUtf8 s
        pure ⟨r, s⟩
      | _ => .panic
    else .err .unsupportedEvent
  | _ => .panic

end S2
