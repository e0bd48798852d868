import Verif.Text
/-!
# Balance data

`VersionedBalanceUnit` restricted to what the code reads after loading: the radius and the four command
tables (/repo/src/game_events/ability/balance_data/mod.rs).
-/
namespace S2

/-- `Command` (/repo/src/game_events/ability/balance_data/mod.rs:333-341), without `meta`. -/
structure BalCommand where
  id : Option Str
  index : Int
  deriving DecidableEq, Repr

/-- `Ability` (/repo/src/game_events/ability/balance_data/mod.rs:346-354). -/
structure BalAbility where
  id : Str
  index : Option Int
  commands : List BalCommand
  deriving DecidableEq, Repr

/-- `UnitRef` (/repo/src/game_events/ability/balance_data/mod.rs:156-171), of which `id`, `ability_id`, `command_index`. -/
structure BalUnitRef where
  id : Str
  abilityId : Option Int
  commandIndex : Option Int
  deriving DecidableEq, Repr

/-- `ResearchUpgrade` (/repo/src/game_events/ability/balance_data/mod.rs:403-414), of which `id`, `ability`, `index`. -/
structure BalResearch where
  id : Str
  ability : Int
  index : Int
  deriving DecidableEq, Repr

/-- `VersionedBalanceUnit` (/repo/src/game_events/ability/balance_data/mod.rs:485-524), of which `misc.radius`, `abilities`, `trains`,
`builds`, `researches`. -/
structure BalUnit where
  radius : Option Rat
  abilities : List BalAbility
  trains : List BalUnitRef
  builds : List BalUnitRef
  researches : Option (List BalResearch)
  deriving DecidableEq, Repr

/-- `VersionedBalanceUnits = HashMap<String, VersionedBalanceUnit>` (/repo/src/game_events/ability/balance_data/mod.rs:527); only `get`
is used. -/
abbrev BalUnits := Str → Option BalUnit

/-- The inner loop over `ability.commands` (/repo/src/game_events/ability/balance_data/mod.rs:541-549). -/
def firstCommand (abilityId' : Str) (cmdIndex : Int) : List BalCommand → Option Str
  | [] => none
  | c :: cs =>
    if cmdIndex = c.index then some (abilityId' ++ str "." ++ c.id.getD (str ""))
    else firstCommand abilityId' cmdIndex cs

/-- The loop over `abilities.inner` (/repo/src/game_events/ability/balance_data/mod.rs:536-552). -/
def firstAbility (abilityId cmdIndex : Int) : List BalAbility → Option Str
  | [] => none
  | a :: as =>
    match a.index with
    | none => firstAbility abilityId cmdIndex as
    | some idx =>
      if idx ≠ abilityId then firstAbility abilityId cmdIndex as
      else
        match firstCommand a.id cmdIndex a.commands with
        | some s => some s
        | none => firstAbility abilityId cmdIndex as

/-- The loops over `trains.inner` and `builds.inner` (/repo/src/game_events/ability/balance_data/mod.rs:553-570). -/
def firstUnitRef (pre : Str) (abilityId cmdIndex : Int) : List BalUnitRef → Option Str
  | [] => none
  | u :: us =>
    match u.abilityId, u.commandIndex with
    | some a, some c =>
      if abilityId = a ∧ cmdIndex = c then some (pre ++ u.id) else firstUnitRef pre abilityId cmdIndex us
    | _, _ => firstUnitRef pre abilityId cmdIndex us

/-- The loop over `researches.inner` (/repo/src/game_events/ability/balance_data/mod.rs:571-577). -/
def firstResearch (abilityId cmdIndex : Int) : List BalResearch → Option Str
  | [] => none
  | r :: rs =>
    if abilityId = r.ability ∧ cmdIndex = r.index then some (str "Research." ++ r.id)
    else firstResearch abilityId cmdIndex rs

/-- `get_indexed_ability_command_name` (/repo/src/game_events/ability/balance_data/mod.rs:529-589); `Default::default()` is the empty
string. -/
def abilityName (bal : BalUnits) (unitName : Str) (abilityId cmdIndex : Int) : Str :=
  match bal unitName with
  | none => []
  | some u =>
    match firstAbility abilityId cmdIndex u.abilities with
    | some s => s
    | none =>
      match firstUnitRef (str "Train.") abilityId cmdIndex u.trains with
      | some s => s
      | none =>
        match firstUnitRef (str "Build.") abilityId cmdIndex u.builds with
        | some s => s
        | none =>
          match u.researches with
          | none => []
          | some rs =>
            match firstResearch abilityId cmdIndex rs with
            | some s => s
            | none => []

end S2
