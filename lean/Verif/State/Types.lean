import Verif.Events.Types
import Verif.State.F32
import Verif.State.Balance
/-!
# Replay state

`SC2ReplayState` and its parts (/repo/src/state/mod.rs, /repo/src/state/unit_cmd.rs,
/repo/src/state/unit_props.rs), and unit tags (/repo/src/tracker_events/mod.rs:90-106).
-/
namespace S2

/-- `unit_tag` (/repo/src/tracker_events/mod.rs:92-94): `u32` arguments, `i64` arithmetic.  The result
is below `2^51`, so the addition cannot overflow. -/
def unitTag (index recycle : BitVec 32) : BitVec 64 := (index.setWidth 64 <<< 18) + recycle.setWidth 64

/-- `unit_tag_index` (/repo/src/tracker_events/mod.rs:98-100); `>>` on `i64` is arithmetic. -/
def unitTagIndex (tag : BitVec 64) : BitVec 32 := ((tag.sshiftRight 18) &&& 0x3fff#64).setWidth 32

/-- `unit_tag_recycle` (/repo/src/tracker_events/mod.rs:104-106). -/
def unitTagRecycle (tag : BitVec 64) : BitVec 32 := (tag &&& 0x3ffff#64).setWidth 32

/-- `unit_tag_index(tag as i64)` on the integers used by the rest of the model. [/repo/src/tracker_events/mod.rs:96-100] -/
def tagIndex (tag : Int) : Int := (unitTagIndex (BitVec.ofInt 64 tag)).toNat

/-- `SC2UnitCmdAbil` (/repo/src/state/unit_cmd.rs:56-65) -/
structure UnitCmdAbil where
  abilLink : Int
  ability : Str
  abilCmdIndex : Int
  abilCmdData : Option Int
  deriving DecidableEq, Repr

/-- `SC2UnitCmdDataTargetUnit` (/repo/src/state/unit_cmd.rs:102-117) -/
structure UnitCmdTargetUnit where
  targetUnitFlags : Int
  timer : Int
  tag : Int
  snapshotUnitLink : Int
  snapshotControlPlayerId : Option Int
  snapshotUpkeepPlayerId : Option Int
  snapshotPoint : Vec3
  deriving DecidableEq, Repr

/-- `SC2UnitCmdData` (/repo/src/state/unit_cmd.rs:79-88) -/
inductive UnitCmdData
  | none
  | targetPoint (p : Vec3)
  | targetUnit (u : UnitCmdTargetUnit)
  | data (d : Int)
  deriving DecidableEq, Repr

/-- `SC2UnitCmd` (/repo/src/state/unit_cmd.rs:12-27) -/
structure UnitCmd where
  cmdFlags : Int
  abil : Option UnitCmdAbil
  data : UnitCmdData
  sequence : Int
  otherUnit : Option Int
  otherUnitName : Option Str
  unitGroup : Option Int
  deriving DecidableEq, Repr

/-- `SC2UnitCmd::default()` [/repo/src/state/unit_cmd.rs:1-131] -/
def UnitCmd.default : UnitCmd := ⟨0, .none, .none, 0, .none, .none, .none⟩

/-- `From<GameSMapCoord3D> for Vec3D` (/repo/src/common.rs:50-58); `-0.0` is 0 here. -/
def MapCoord.toVec (c : MapCoord) : Vec3 :=
  ⟨(f32OfInt c.x : Rat) / 4096, -(f32OfInt c.y : Rat) / 4096, (f32OfInt c.z : Rat) / 4096⟩

/-- `From<GameSCmdDataTargetUnit> for SC2UnitCmdDataTargetUnit` (/repo/src/state/unit_cmd.rs:119-131) -/
def CmdTargetUnit.toUnitCmd (t : CmdTargetUnit) : UnitCmdTargetUnit :=
  ⟨t.targetUnitFlags, t.timer, t.tag, t.snapshotUnitLink, t.snapshotControlPlayerId, t.snapshotUpkeepPlayerId,
    t.snapshotPoint.toVec⟩

/-- `From<GameSCmdData> for SC2UnitCmdData` (/repo/src/state/unit_cmd.rs:90-99) -/
def CmdData.toUnitCmd : CmdData → UnitCmdData
  | .none => .none
  | .targetPoint p => .targetPoint p.toVec
  | .targetUnit u => .targetUnit u.toUnitCmd
  | .data d => .data d

/-- `From<GameSCmdEvent> for SC2UnitCmd` (/repo/src/state/unit_cmd.rs:41-53, 67-76) -/
def CmdEvent.toUnitCmd (e : CmdEvent) : UnitCmd where
  cmdFlags := e.cmdFlags
  abil := e.abil.map (fun a => ⟨a.abilLink, a.ability, a.abilCmdIndex, a.abilCmdData⟩)
  data := e.data.toUnitCmd
  sequence := e.sequence
  otherUnit := e.otherUnit
  otherUnitName := none
  unitGroup := e.unitGroup

/-- `SC2Unit` (/repo/src/state/mod.rs:41-72), without `creator_tag_index`, which no code sets. -/
structure SUnit where
  tagIndex : Int
  lastGameLoop : Int
  userId : Option Int
  playerName : Option Str
  name : Str
  pos : Vec3
  initGameLoop : Int
  creatorAbilityName : Option Str
  radius : Rat
  color : List Nat
  isSelected : Bool
  isInit : Bool
  cmd : UnitCmd
  deriving DecidableEq, Repr

/-- `PartialEq` and `Ord` of `SC2Unit` (/repo/src/state/mod.rs:74-92): by tag index only. -/
def SUnit.eqv (a b : SUnit) : Bool := a.tagIndex == b.tagIndex
/-- [/repo/src/state/mod.rs:74-78, 86-90] -/
def SUnit.cmp (a b : SUnit) : Ordering := compare a.tagIndex b.tagIndex

/-- `SC2Unit::default()` [/repo/src/state/mod.rs:41-72] -/
def SUnit.default : SUnit := ⟨0, 0, none, none, [], ⟨0, 0, 0⟩, 0, none, 0, [0, 0, 0, 0], false, false, UnitCmd.default⟩

/-- The colours (/repo/src/state/unit_props.rs:5-21). -/
def freyaOrange : List Nat := [0xeb, 0x79, 0x07, 0xff]
/-- [/repo/src/state/unit_props.rs:1-78] -/
def freyaGold : List Nat := [0xea, 0x9e, 0x36, 0xff]
/-- [/repo/src/state/unit_props.rs:1-78] -/
def freyaLightBlue : List Nat := [0x72, 0xc5, 0xdd, 0xff]
/-- [/repo/src/state/unit_props.rs:1-78] -/
def freyaGray : List Nat := [0xb2, 0xc5, 0xc5, 0xff]
/-- [/repo/src/state/unit_props.rs:1-78] -/
def freyaPink : List Nat := [0xea, 0xa4, 0x83, 0xff]
/-- [/repo/src/state/unit_props.rs:1-78] -/
def freyaLightGray : List Nat := [0xf4, 0xf5, 0xf8, 0xff]
/-- [/repo/src/state/unit_props.rs:1-78] -/
def freyaViolet : List Nat := [0xa4, 0x01, 0xed, 0xff]
/-- [/repo/src/state/unit_props.rs:1-78] -/
def freyaWhite : List Nat := [0xfa, 0xf8, 0xfb, 0xff]
/-- [/repo/src/state/unit_props.rs:1-78] -/
def freyaYellow : List Nat := [0xf7, 0xd4, 0x54, 0xff]
/-- [/repo/src/state/unit_props.rs:1-78] -/
def freyaLightGreen : List Nat := [0x6e, 0xc2, 0x9c, 0xff]

/-- `user_color` (/repo/src/state/unit_props.rs:70-78) -/
def userColor (userId : Int) : List Nat :=
  if userId = 0 then freyaLightGreen
  else if userId = 1 then freyaLightBlue
  else if userId = 2 then freyaLightGray
  else if userId = 3 then freyaOrange
  else freyaWhite

/-- `get_unit_sized_color` (/repo/src/state/unit_props.rs:24-68).  The default radius is the `f32` nearest
to 0.45, which is `15099494 / 2^25`. -/
def unitSizedColor (name : Str) (userId : Int) (bal : BalUnits) : Rat × List Nat :=
  let size : Rat :=
    match bal name with
    | some u => (match u.radius with
      | some r => r
      | none => 15099494 / 33554432)
    | none => 15099494 / 33554432
  let color :=
    if name = str "VespeneGeyser" ∨ name = str "SpacePlatformGeyser" then freyaLightGreen
    else if name = str "LabMineralField" ∨ name = str "LabMineralField750" ∨ name = str "MineralField" ∨
      name = str "MineralField450" ∨ name = str "MineralField750" then freyaLightBlue
    else if name = str "XelNagaTower" then freyaWhite
    else if name = str "RichMineralField" then freyaGold
    else if name = str "RichMineralField750" then freyaOrange
    else if name = str "DestructibleRockEx1DiagonalHugeBLUR" ∨ name = str "DestructibleDebris6x6" then freyaGray
    else if name = str "UnbuildablePlatesDestructible" then freyaLightGray
    else if name = str "Overlord" ∨ name = str "Pylon" ∨ name = str "SupplyDepot" then freyaYellow
    else if name = str "SCV" ∨ name = str "Drone" ∨ name = str "Probe" ∨ name = str "Larva" ∨ name = str "Egg" then
      freyaLightGray
    else if name = str "Hatchery" ∨ name = str "CommandCenter" ∨ name = str "Nexus" then freyaPink
    else if name = str "Broodling" then freyaLightGray
    else if name = str "Infestor" then freyaViolet
    else userColor userId
  (size, color)

/-- `SC2Unit::set_unit_props` (/repo/src/state/mod.rs:96-101) -/
def SUnit.setProps (u : SUnit) (bal : BalUnits) : SUnit :=
  let p := unitSizedColor u.name (u.userId.getD 0) bal
  { u with radius := p.1, color := p.2 }

/-- `SC2UserState` (/repo/src/state/mod.rs:194-204); of `player_lobby_details` the player name and the two
`tracker_setup_*` fields, the only ones read or written while stepping. -/
structure UserState where
  name : Str
  setupPlayerId : Option Int
  setupSlotId : Option Int
  groups : List (List Int)
  camera : Int × Int
  deriving DecidableEq, Repr

/-- `SC2UserState::new` (/repo/src/state/mod.rs:207-218).  The lobby join leaves the `tracker_setup_*`
fields `None` (/repo/src/details.rs:221-222). -/
def UserState.new (name : Str) : UserState := ⟨name, none, none, List.replicate 11 [], (0, 0)⟩

/-- `ACTIVE_UNITS_GROUP_IDX` (/repo/src/state/mod.rs:37) -/
def activeGroup : Int := 10

/-- `HashMap<u32, SC2Unit>`; the code never iterates over it. [/repo/src/state/mod.rs:235] -/
abbrev Units := Int → Option SUnit

/-- `SC2ReplayState` (/repo/src/state/mod.rs:224-243), without `init_data` and `details`, which stepping
only reads (the protocol version is a parameter of the iterator model).  `user_state` is a `HashMap` that
the code iterates over: it is a list of entries with distinct keys, in the (arbitrary) iteration order,
which does not change as no entry is inserted or removed after construction. -/
structure SState where
  units : Units
  users : List (Int × UserState)
  balance : BalUnits

/-- `units.insert(k, u)` / writing through `get_mut`. [e.g. /repo/src/tracker_events/state.rs:33-75] -/
def Units.set (us : Units) (k : Int) (u : SUnit) : Units := fun i => if i = k then some u else us i

/-- `units.remove(k)` [/repo/src/tracker_events/state.rs:244-282] -/
def Units.remove (us : Units) (k : Int) : Units := fun i => if i = k then none else us i

/-- `user_state.get(&id)` [/repo/src/state/mod.rs:239] -/
def getUser (users : List (Int × UserState)) (id : Int) : Option UserState :=
  match users with
  | [] => none
  | (k, u) :: rest => if k = id then some u else getUser rest id

/-- Writing through `user_state.get_mut(&id)`: nothing happens if there is no such user. [/repo/src/state/mod.rs:239] -/
def setUser (users : List (Int × UserState)) (id : Int) (v : UserState) : List (Int × UserState) :=
  match users with
  | [] => []
  | (k, u) :: rest => if k = id then (k, v) :: rest else (k, u) :: setUser rest id v

/-- `UnitChangeHint` (/repo/src/state/mod.rs:141-174) -/
inductive Hint
  | registered (unit : SUnit) (creator : Option SUnit)
  | positions (units : List SUnit)
  | targetPoints (units : List SUnit)
  | targetUnits (units : List SUnit) (target : SUnit)
  | unregistered (killer : Option SUnit) (killed : SUnit)
  | abilities (units : List SUnit) (event : CmdEvent) (target : Option SUnit)
  | selection (units : List SUnit)
  | none
  deriving DecidableEq, Repr

/-- `v[i]` for `i: u8 as usize`: panics when out of range. [/repo/src/game_events/state.rs:331-401] -/
def indexGroup (groups : List (List Int)) (i : Int) : Res (List Int) :=
  match groups[i.toNat]? with
  | some g => .ok g
  | none => .panic

/-- `v[i] = g` [/repo/src/game_events/state.rs:331-401] -/
def assignGroup (groups : List (List Int)) (i : Int) (g : List Int) : Res (List (List Int)) :=
  if i.toNat < groups.length then .ok (groups.set i.toNat g) else .panic

/-- Insertion of an element before the first larger one. [std] -/
def sortInsert {α : Type} (le : α → α → Bool) (a : α) : List α → List α
  | [] => [a]
  | b :: bs => if le a b then a :: b :: bs else b :: sortInsert le a bs

/-- `sort_unstable`: on `u32`s any correct sort gives the same list.  On `SC2Unit`s (ordered by tag index
only) the order among equal tags is unspecified by the library; the model sorts stably, as the insertion
sort std uses for up to 20 elements does. [std; called in /repo/src/game_events/state.rs:288-401] -/
def sortBy {α : Type} (le : α → α → Bool) : List α → List α
  | [] => []
  | a :: as => sortInsert le a (sortBy le as)

/-- `dedup` after a retained element `last`. [std] -/
def dedupFrom {α : Type} (eq : α → α → Bool) (last : α) : List α → List α
  | [] => []
  | b :: bs => if eq last b then dedupFrom eq last bs else b :: dedupFrom eq b bs

/-- `dedup`: of consecutive equal elements keep the first. [std; called in /repo/src/game_events/state.rs:288-401] -/
def dedupBy {α : Type} (eq : α → α → Bool) : List α → List α
  | [] => []
  | a :: as => a :: dedupFrom eq a as

end S2
