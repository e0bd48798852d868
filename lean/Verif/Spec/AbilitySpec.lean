import Verif.State.Balance
/-! # Which names an ability command may resolve to, in order of precedence -/
namespace S2

/-- The names of the unit's own ability commands with this ability index and command index, in table order. -/
def ownCommands (u : BalUnit) (ability command : Int) : List Str :=
  (u.abilities.filter (fun a => a.index = some ability)).flatMap (fun a =>
    (a.commands.filter (fun c => c.index = command)).map (fun c => a.id ++ str "." ++ c.id.getD (str "")))

/-- The units trained with this ability and command. -/
def trained (u : BalUnit) (ability command : Int) : List Str :=
  (u.trains.filter (fun r => r.abilityId = some ability ∧ r.commandIndex = some command)).map (fun r => str "Train." ++ r.id)

/-- The units built with this ability and command. -/
def built (u : BalUnit) (ability command : Int) : List Str :=
  (u.builds.filter (fun r => r.abilityId = some ability ∧ r.commandIndex = some command)).map (fun r => str "Build." ++ r.id)

/-- The upgrades researched with this ability and command. -/
def researched (u : BalUnit) (ability command : Int) : List Str :=
  ((u.researches.getD []).filter (fun r => r.ability = ability ∧ r.index = command)).map (fun r => str "Research." ++ r.id)

/-- All names the command could have, the preferred one first. -/
def candidates (u : BalUnit) (ability command : Int) : List Str :=
  ownCommands u ability command ++ trained u ability command ++ built u ability command ++ researched u ability command

end S2
