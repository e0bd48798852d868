import Verif.State.Types
import Verif.Events.Convert
/-! # Tracker event handlers (/repo/src/tracker_events/state.rs) -/
namespace S2

/-- `i32` addition (`+=`): overflow panics in debug builds and wraps in release builds. [/repo/src/tracker_events/unit_positions.rs:42] -/
def addI32 (bld : Build) (a b : Int) : Res Int :=
  if -(2 ^ 31) ≤ a + b ∧ a + b < 2 ^ 31 then .ok (a + b)
  else match bld with
    | .debug => .panic
    | .release => .ok (asI32 (a + b))

/-- `x * 4` on `i32`. [/repo/src/tracker_events/unit_positions.rs:43-44] -/
def mul4I32 (bld : Build) (a : Int) : Res Int :=
  if -(2 ^ 31) ≤ a * 4 ∧ a * 4 < 2 ^ 31 then .ok (a * 4)
  else match bld with
    | .debug => .panic
    | .release => .ok (asI32 (a * 4))

/-- The loop of `to_unit_positions_vec` over `items.chunks_exact(3)`
(/repo/src/tracker_events/unit_positions.rs:39-53): a trailing chunk of fewer than three items is ignored. -/
def positionsLoop (bld : Build) : List Int → Int → Res (List (Int × Int × Int))
  | d :: x :: y :: rest, idx => do
    let idx ← addI32 bld idx d
    let x ← mul4I32 bld x
    let y ← mul4I32 bld y
    let out ← positionsLoop bld rest idx
    pure ((asU 32 idx, x, y) :: out)
  | _, _ => .ok []

/-- `UnitPositionsEvent::to_unit_positions_vec` (/repo/src/tracker_events/unit_positions.rs:38-53):
entries (tag, x, y). -/
def toUnitPositions (bld : Build) (e : UnitPositionsEvent) : Res (List (Int × Int × Int)) :=
  positionsLoop bld e.items (asI32 e.firstUnitIndex)

/-- `get_player_name_by_tracker_control_player_id` (/repo/src/tracker_events/state.rs:12-25): first hit in
iteration order. -/
def playerNameByTrackerId (users : List (Int × UserState)) (playerId : Int) : Option Str :=
  match users with
  | [] => none
  | (_, u) :: rest => if u.setupPlayerId = some playerId then some u.name else playerNameByTrackerId rest playerId

/-- `handle_unit_init` (/repo/src/tracker_events/state.rs:33-75) -/
def handleUnitInit (s : SState) (loop : Int) (e : UnitInitEvent) : SState × TrackerEvt × Hint :=
  let fresh : SUnit := SUnit.setProps
    { SUnit.default with
      lastGameLoop := loop, userId := some e.controlPlayerId, name := e.unitTypeName, pos := ⟨e.x, e.y, 0⟩,
      initGameLoop := loop, isInit := true, tagIndex := e.unitTagIndex,
      playerName := playerNameByTrackerId s.users e.controlPlayerId } s.balance
  let units := match s.units e.unitTagIndex with
    | some u => s.units.set e.unitTagIndex
        { u with lastGameLoop := loop, pos := ⟨e.x, e.y, 0⟩, isInit := true, name := e.unitTypeName }
    | none => s.units.set e.unitTagIndex fresh
  ({ s with units := units }, .unitInit e, .registered fresh none)

/-- The creator part of `handle_unit_born` (/repo/src/tracker_events/state.rs:85-95): the creator, if
known, is touched and copied. -/
def touchCreator (s : SState) (loop : Int) (creator : Option Int) : Units × Option SUnit :=
  match creator with
  | none => (s.units, none)
  | some c => match s.units c with
    | none => (s.units, none)
    | some u => (s.units.set c { u with lastGameLoop := loop }, some { u with lastGameLoop := loop })

/-- `handle_unit_born` (/repo/src/tracker_events/state.rs:80-134) -/
def handleUnitBorn (s : SState) (loop : Int) (e : UnitBornEvent) : SState × TrackerEvt × Hint :=
  let (units, creator) := touchCreator s loop e.creatorUnitTagIndex
  match units e.unitTagIndex with
  | some u =>
    let u' := { u with creatorAbilityName := e.creatorAbilityName, lastGameLoop := loop }
    ({ s with units := units.set e.unitTagIndex u' }, .unitBorn e, .registered u' creator)
  | none =>
    let fresh : SUnit := SUnit.setProps
      { SUnit.default with
        lastGameLoop := loop, userId := some e.controlPlayerId, name := e.unitTypeName, pos := ⟨e.x, e.y, 0⟩,
        initGameLoop := loop, tagIndex := e.unitTagIndex,
        playerName := playerNameByTrackerId s.users e.controlPlayerId } s.balance
    ({ s with units := units.set e.unitTagIndex fresh }, .unitBorn e, .registered fresh creator)

/-- `handle_unit_type_change` (/repo/src/tracker_events/state.rs:139-175) -/
def handleUnitTypeChange (s : SState) (loop : Int) (e : UnitTypeChangeEvent) : SState × TrackerEvt × Hint :=
  match s.units e.unitTagIndex with
  | some u =>
    let u' := SUnit.setProps { u with name := e.unitTypeName, lastGameLoop := loop } s.balance
    ({ s with units := s.units.set e.unitTagIndex u' }, .unitTypeChange e, .registered u' (some u))
  | none =>
    let fresh : SUnit := SUnit.setProps
      { SUnit.default with
        lastGameLoop := loop, userId := none, name := e.unitTypeName, initGameLoop := loop,
        tagIndex := e.unitTagIndex } s.balance
    ({ s with units := s.units.set e.unitTagIndex fresh }, .unitTypeChange e, .none)

/-- `handle_unit_done` (/repo/src/tracker_events/state.rs:180-206) -/
def handleUnitDone (s : SState) (loop : Int) (e : UnitDoneEvent) : SState × TrackerEvt × Hint :=
  match s.units e.unitTagIndex with
  | some u =>
    let u' := SUnit.setProps { u with lastGameLoop := loop, isInit := false } s.balance
    ({ s with units := s.units.set e.unitTagIndex u' }, .unitDone e, .registered u' none)
  | none => (s, .unitDone e, .none)

/-- The loop of `handle_unit_position` (/repo/src/tracker_events/state.rs:216-231); `UNIT_POSITION_RATIO` is
4. -/
def positionsUpdate (loop : Int) : List (Int × Int × Int) → Units → Units × List Int
  | [], us => (us, [])
  | (tag, x, y) :: rest, us =>
    match us tag with
    | some u =>
      let us' := us.set tag { u with pos := ⟨(f32OfInt x : Rat) / 4, (f32OfInt y : Rat) / 4, 0⟩, lastGameLoop := loop }
      let (us'', ids) := positionsUpdate loop rest us'
      (us'', tag :: ids)
    | none => positionsUpdate loop rest us

/-- `handle_unit_position` (/repo/src/tracker_events/state.rs:209-241) -/
def handleUnitPosition (bld : Build) (s : SState) (loop : Int) (e : UnitPositionsEvent) :
    Res (SState × TrackerEvt × Hint) := do
  let ps ← toUnitPositions bld e
  let (units, ids) := positionsUpdate loop ps s.units
  pure ({ s with units := units }, .unitPosition e, .positions (ids.filterMap units))

/-- `for group_idx in 0..11 { control_groups[group_idx].retain(|&x| x != tag_index) }`
(/repo/src/tracker_events/state.rs:250-254): panics when there are fewer than eleven groups. -/
def removeFromGroups (groups : List (List Int)) (tag : Int) : Res (List (List Int)) :=
  if groups.length < 11 then .panic
  else .ok ((groups.take 11).map (fun g => g.filter (fun x => x ≠ tag)) ++ groups.drop 11)

/-- The same for every user. [/repo/src/tracker_events/state.rs:250-254] -/
def removeFromUsers (tag : Int) : List (Int × UserState) → Res (List (Int × UserState))
  | [] => .ok []
  | (k, u) :: rest => do
    let g ← removeFromGroups u.groups tag
    let rest ← removeFromUsers tag rest
    pure ((k, { u with groups := g }) :: rest)

/-- `handle_unit_died` (/repo/src/tracker_events/state.rs:244-282) -/
def handleUnitDied (s : SState) (_loop : Int) (e : UnitDiedEvent) : Res (SState × TrackerEvt × Hint) := do
  let users ← removeFromUsers e.unitTagIndex s.users
  let units := s.units.remove e.unitTagIndex
  match s.units e.unitTagIndex with
  | none => pure ({ s with users := users, units := units }, .unitDied e, .none)
  | some killed =>
    let killer := match e.killerUnitTagIndex with
      | some k => units k
      | none => none
    pure ({ s with users := users, units := units }, .unitDied e, .unregistered killer killed)

/-- The `PlayerSetup` arm of `handle_tracker_event` (/repo/src/tracker_events/state.rs:309-332) -/
def handlePlayerSetup (s : SState) (e : PlayerSetupEvent) : SState × TrackerEvt × Hint :=
  match e.userId with
  | none => (s, .playerSetup e, .none)
  | some id =>
    match getUser s.users id with
    | none => (s, .playerSetup e, .none)
    | some u =>
      ({ s with users := setUser s.users id { u with setupPlayerId := some e.playerId, setupSlotId := e.slotId } },
        .playerSetup e, .none)

/-- `handle_tracker_event` (/repo/src/tracker_events/state.rs:285-348) -/
def handleTracker (bld : Build) (s : SState) (loop : Int) : TrackerEvt → Res (SState × TrackerEvt × Hint)
  | .unitBorn e => .ok (handleUnitBorn s loop e)
  | .unitTypeChange e => .ok (handleUnitTypeChange s loop e)
  | .unitInit e => .ok (handleUnitInit s loop e)
  | .unitDone e => .ok (handleUnitDone s loop e)
  | .unitDied e => handleUnitDied s loop e
  | .unitPosition e => handleUnitPosition bld s loop e
  | .playerSetup e => .ok (handlePlayerSetup s e)
  | .upgrade e => .ok (s, .upgrade { e with playerName := playerNameByTrackerId s.users e.playerId }, .none)
  | e => .ok (s, e, .none)

end S2
