import Verif.State.Types
/-! # Game event handlers (/repo/src/game_events/state.rs) -/
namespace S2

/-- `handle_camera_save` / `handle_camera_update` (/repo/src/game_events/state.rs:13-47). -/
def setCamera (s : SState) (user x y : Int) : SState :=
  match getUser s.users user with
  | none => s
  | some u => { s with users := setUser s.users user { u with camera := (x, y) } }

/-- The unit ids selected by a user: `control_groups[ACTIVE_UNITS_GROUP_IDX].clone()`, or none for an
unknown user (/repo/src/game_events/state.rs:70-74, 122-126, 184-188). -/
def selectedIds (s : SState) (user : Int) : Res (List Int) :=
  match getUser s.users user with
  | none => .ok []
  | some u => indexGroup u.groups activeGroup

/-- The loop of `handle_cmd` (/repo/src/game_events/state.rs:75-100).  `cmd` is shared by the rounds. -/
def cmdLoop (bal : BalUnits) (loop : Int) (target : Option SUnit) :
    List Int → Units → CmdEvent → Units × CmdEvent × List SUnit
  | [], us, cmd => (us, cmd, [])
  | sel :: rest, us, cmd =>
    match us (tagIndex sel) with
    | none => cmdLoop bal loop target rest us cmd
    | some u =>
      match cmd.abil with
      | none => cmdLoop bal loop target rest us cmd
      | some a =>
        let cmd' := { cmd with abil := some { a with ability := abilityName bal u.name a.abilLink a.abilCmdIndex } }
        let u' := { u with
          cmd := { cmd'.toUnitCmd with otherUnitName := target.map SUnit.name }, lastGameLoop := loop }
        let (us', cmd'', out) := cmdLoop bal loop target rest (us.set (tagIndex sel) u') cmd'
        (us', cmd'', u' :: out)

/-- `handle_cmd` (/repo/src/game_events/state.rs:55-111) -/
def handleCmd (s : SState) (loop user : Int) (cmd : CmdEvent) : Res (SState × GameEvt × Hint) := do
  let target := match cmd.data with
    | .targetUnit tu => s.units tu.tag
    | _ => none
  let ids ← selectedIds s user
  let (units, cmd', out) := cmdLoop s.balance loop target ids s.units cmd
  pure ({ s with units := units }, .cmd cmd', .abilities out cmd' target)

/-- The loop of `handle_update_target_point` and `handle_update_target_unit`
(/repo/src/game_events/state.rs:127-145, 189-205): `f` changes the unit's command. -/
def retarget (f : UnitCmd → UnitCmd) (loop : Int) : List Int → Units → Units × List SUnit
  | [], us => (us, [])
  | sel :: rest, us =>
    match us (tagIndex sel) with
    | none => retarget f loop rest us
    | some u =>
      let u' := { u with cmd := f u.cmd, lastGameLoop := loop }
      let (us', out) := retarget f loop rest (us.set (tagIndex sel) u')
      (us', u' :: out)

/-- `handle_update_target_point` (/repo/src/game_events/state.rs:115-150) -/
def handleTargetPoint (s : SState) (loop user : Int) (target : MapCoord) : Res (SState × GameEvt × Hint) := do
  let ids ← selectedIds s user
  let (units, out) := retarget (fun c => { c with data := .targetPoint target.toVec, otherUnit := none }) loop ids s.units
  pure ({ s with units := units }, .cmdUpdateTargetPoint target, .targetPoints out)

/-- `handle_update_target_unit` (/repo/src/game_events/state.rs:156-213) -/
def handleTargetUnit (s : SState) (loop user : Int) (target : CmdTargetUnit) : Res (SState × GameEvt × Hint) :=
  let registered := match s.units target.tag with
    | some x => some x
    | none => s.units (tagIndex target.tag)
  match registered with
  | none => .ok (s, .cmdUpdateTargetUnit target, .none)
  | some t => do
    let ids ← selectedIds s user
    let (units, out) := retarget (fun c => { c with data := .targetUnit target.toUnitCmd }) loop ids s.units
    pure ({ s with units := units }, .cmdUpdateTargetUnit target, .targetUnits out t)

/-- The loop of `unmark_previously_selected_units` (/repo/src/game_events/state.rs:224-234). -/
def unmarkLoop (loop : Int) : List Int → Units → Units × List Int
  | [], us => (us, [])
  | t :: rest, us =>
    match us (tagIndex t) with
    | none => unmarkLoop loop rest us
    | some u =>
      if u.isSelected then
        let (us', ids) := unmarkLoop loop rest
          (us.set (tagIndex t) { u with isSelected := false, radius := u.radius * (1 / 2), lastGameLoop := loop })
        (us', tagIndex t :: ids)
      else unmarkLoop loop rest (us.set (tagIndex t) { u with lastGameLoop := loop })

/-- `unmark_previously_selected_units` (/repo/src/game_events/state.rs:217-242). -/
def unmarkSelected (s : SState) (loop user : Int) : Res (SState × List SUnit) := do
  let ids ← selectedIds s user
  let (units, changed) := unmarkLoop loop ids s.units
  pure ({ s with units := units }, changed.filterMap units)

/-- The loop of `mark_selected_units` (/repo/src/game_events/state.rs:253-263). -/
def markLoop (loop : Int) : List Int → Units → Units × List Int
  | [], us => (us, [])
  | t :: rest, us =>
    match us (tagIndex t) with
    | none => markLoop loop rest us
    | some u =>
      if u.isSelected then markLoop loop rest (us.set (tagIndex t) { u with lastGameLoop := loop })
      else
        let (us', ids) := markLoop loop rest
          (us.set (tagIndex t) { u with isSelected := true, radius := u.radius * 2, lastGameLoop := loop })
        (us', tagIndex t :: ids)

/-- `mark_selected_units` (/repo/src/game_events/state.rs:246-270). -/
def markSelected (s : SState) (loop : Int) (tags : List Int) : SState × List SUnit :=
  let (units, changed) := markLoop loop tags s.units
  ({ s with units := units }, changed.filterMap units)

/-- `if let Some(user_state) = user_state.get_mut(&id) { user_state.control_groups = … }`
(/repo/src/game_events/state.rs:306-309, 333-393). -/
def updGroups (users : List (Int × UserState)) (user : Int) (f : List (List Int) → Res (List (List Int))) :
    Res (List (Int × UserState)) :=
  match getUser users user with
  | none => .ok users
  | some u => do
    let g ← f u.groups
    pure (setUser users user { u with groups := g })

/-- The `if` of `handle_selection_delta` (/repo/src/game_events/state.rs:288-305). -/
def selectionMarks (s : SState) (loop user : Int) (e : SelectionDeltaEvent) : Res (SState × List SUnit) :=
  if e.controlGroupId = activeGroup then do
    let (s', unmarked) ← unmarkSelected s loop user
    let (s'', marked) := markSelected s' loop e.addUnitTags
    pure (s'', unmarked ++ marked)
  else .ok (s, [])

/-- `handle_selection_delta` (/repo/src/game_events/state.rs:281-316); `SC2Unit`s compare by tag index. -/
def handleSelectionDelta (s : SState) (loop user : Int) (e : SelectionDeltaEvent) : Res (SState × GameEvt × Hint) := do
  let (s1, updated) ← selectionMarks s loop user e
  let users ← updGroups s1.users user (fun g => assignGroup g e.controlGroupId e.addUnitTags)
  let units := dedupBy (fun a b => a.tagIndex == b.tagIndex) (sortBy (fun a b => a.tagIndex ≤ b.tagIndex) updated)
  pure ({ s1 with users := users }, .selectionDelta e, .selection units)

/-- `for group_idx in 0..9 { for unit in &current { control_groups[group_idx].retain(|&x| x != *unit) } }`
(/repo/src/game_events/state.rs:343-347, 374-378).  Repeated `retain`s keep what none of the units equals. -/
def stealLoop (current : List Int) (groups : List (List Int)) : Res (List (List Int)) :=
  if groups.length < 9 then .panic
  else .ok ((groups.take 9).map (fun g => current.foldl (fun g unit => g.filter (fun x => x ≠ unit)) g) ++ groups.drop 9)

/-- The new control groups of the acting user
(the arms of the `match` in `update_control_group`, /repo/src/game_events/state.rs:331-401). -/
def groupsAfter (groups : List (List Int)) (idx : Int) : GroupUpdate → Res (List (List Int))
  | .set => do
    let active ← indexGroup groups activeGroup
    assignGroup groups idx active
  | .setAndSteal => do
    let active ← indexGroup groups activeGroup
    let groups ← stealLoop active groups
    let active ← indexGroup groups activeGroup
    assignGroup groups idx active
  | .clear => assignGroup groups idx []
  | .append => do
    let active ← indexGroup groups activeGroup
    let g ← indexGroup groups idx
    assignGroup groups idx (dedupBy (· == ·) (sortBy (fun a b => decide (a ≤ b)) (g ++ active)))
  | .appendAndSteal => do
    let active ← indexGroup groups activeGroup
    let groups ← stealLoop active groups
    let g ← indexGroup groups idx
    assignGroup groups idx (dedupBy (· == ·) (sortBy (fun a b => decide (a ≤ b)) (g ++ active)))
  | .recall => do
    let g ← indexGroup groups idx
    assignGroup groups activeGroup g

/-- The end of `update_control_group`: a recall marks the new selection
(/repo/src/game_events/state.rs:388-400). -/
def recallMarks (s : SState) (loop user : Int) (u : GroupUpdate) : Res (SState × List SUnit) :=
  if u = .recall then do
    let ids ← selectedIds s user
    pure (markSelected s loop ids)
  else .ok (s, [])

/-- `update_control_group` (/repo/src/game_events/state.rs:321-406) -/
def updateControlGroup (s : SState) (loop user : Int) (e : ControlGroupUpdateEvent) : Res (SState × GameEvt × Hint) := do
  let (s1, unmarked) ← unmarkSelected s loop user
  let users ← updGroups s1.users user (fun g => groupsAfter g e.controlGroupIndex e.update)
  let (s2, marked) ← recallMarks { s1 with users := users } loop user e.update
  pure (s2, .controlGroupUpdate e, .selection (unmarked ++ marked))

/-- `handle_game_event` (/repo/src/game_events/state.rs:410-442) -/
def handleGame (s : SState) (loop user : Int) : GameEvt → Res (SState × GameEvt × Hint)
  | .cameraSave w x y => .ok (setCamera s user x y, .cameraSave w x y, .none)
  | .cameraUpdate target view =>
    .ok ((match target with
      | some (x, y) => setCamera s user x y
      | none => s), .cameraUpdate target view, .none)
  | .cmd e => handleCmd s loop user e
  | .cmdUpdateTargetPoint t => handleTargetPoint s loop user t
  | .cmdUpdateTargetUnit t => handleTargetUnit s loop user t
  | .selectionDelta e => handleSelectionDelta s loop user e
  | .controlGroupUpdate e => updateControlGroup s loop user e
  | .other o => .ok (s, .other o, .none)

end S2
