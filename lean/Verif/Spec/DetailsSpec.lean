import Verif.Misc.Details
/-!
# What the `Details` of a replay must say, as a relation between the decoded protocol value and the result

Written without the conversion functions: each member of the result is put back into the place of the
protocol value it must have come from.
-/
namespace S2

/-- Two lists of equal length, related element by element. -/
def AllPairs {α β : Type} (R : α → β → Prop) : List α → List β → Prop
  | [], [] => True
  | a :: as, b :: bs => R a b ∧ AllPairs R as bs
  | _, _ => False

/-- An optional number as a protocol value. -/
def optIntVal : Option Int → Val
  | none => .none
  | some x => .some (.int x)

/-- An optional boolean as a protocol value. -/
def optBoolVal : Option Bool → Val
  | none => .none
  | some x => .some (.bool x)

/-- The names of the four game results, by their wire number. -/
def resultNames : List Str := [str "Undecided", str "Win", str "Loss", str "Tie"]

/-- The names of the five game speeds, by their wire number. -/
def speedNames : List Str := [str "Slower", str "Slow", str "Normal", str "Fast", str "Faster"]

/-- `p` is what the protocol value `v` says about a player (the toon's own name is dropped). -/
def PlayerSays (v : Val) (p : PlayerDetails) : Prop := ∃ (toonName : List UInt8) (result : Nat),
  v = .struct [.bytes p.name,
      .struct [.int p.toon.region, .int p.toon.programId, .int p.toon.realm, .bytes toonName, .int p.toon.id],
      .bytes p.race,
      .struct [.int p.color.a, .int p.color.r, .int p.color.g, .int p.color.b],
      .int p.control, .int p.teamId, .int p.handicap,
      .choice p.observe .unit, .choice result .unit, optIntVal p.workingSetSlotId, .bytes p.hero]
  ∧ (p.observe = 0 ∨ p.observe = 1 ∨ p.observe = 2)
  ∧ resultNames[result]? = some p.result
  ∧ utf8Ok p.name = true ∧ utf8Ok p.race = true ∧ utf8Ok p.hero = true

/-- `vs` are the items of the optional vector `v`; an absent vector has none. -/
def ItemsOf (v : Val) (vs : List Val) : Prop := (v = .none ∧ vs = []) ∨ v = .some (.list vs)

/-- `d` is what the protocol value `v` says. -/
def DetailsSays (v : Val) (d : Details) : Prop :=
  ∃ (vPlayers vRestart vHandles vMods : Val) (players : List Val) (handles : List (List UInt8)) (speed : Nat),
    v = .struct [vPlayers, .bytes d.title, .bytes d.difficulty, .struct [.bytes d.thumbnail],
      .bool d.isBlizzardMap, .int d.timeUtc, .int d.timeLocalOffset, vRestart,
      .bool d.disableRecoverGame, .bytes d.description, .bytes d.imageFilePath, .int d.campaignIndex,
      .bytes d.mapFileName, vHandles, .bool d.miniSave, .choice speed .unit, .int d.defaultDifficulty, vMods]
    ∧ ItemsOf vPlayers players ∧ AllPairs PlayerSays players d.playerList
    ∧ vRestart = optBoolVal d.restartAsTransitionMap
    ∧ ItemsOf vHandles (handles.map Val.bytes) ∧ d.cacheHandles = handles.map hexText
    ∧ ItemsOf vMods (d.modPaths.map Val.bytes) ∧ (∀ m ∈ d.modPaths, utf8Ok m = true)
    ∧ speedNames[speed]? = some d.gameSpeed
    ∧ utf8Ok d.title = true ∧ utf8Ok d.difficulty = true ∧ utf8Ok d.thumbnail = true
    ∧ utf8Ok d.description = true ∧ utf8Ok d.imageFilePath = true ∧ utf8Ok d.mapFileName = true

/-- The texts of a player that must be UTF-8: name, race, hero. -/
def playerTexts : Val → List (List UInt8)
  | .struct [.bytes name, _, .bytes race, _, _, _, _, _, _, _, .bytes hero] => [name, race, hero]
  | _ => []

/-- The items of an optional vector. -/
def optItems : Val → List Val
  | .some (.list vs) => vs
  | _ => []

/-- The bytes of a blob. -/
def blobOf : Val → List UInt8
  | .bytes b => b
  | _ => []

/-- All texts that must be UTF-8: those of the players, the mod paths, title, difficulty, thumbnail,
description, image path and map file name.  (Not: toon names and cache handles.) -/
def detailsTexts : Val → List (List UInt8)
  | .struct [players, .bytes title, .bytes difficulty, .struct [.bytes thumbnail], _, _, _, _, _,
      .bytes description, .bytes image, _, .bytes mapFile, _, _, _, _, mods] =>
    (optItems players).flatMap playerTexts ++ ((optItems mods).map blobOf ++
      [title, difficulty, thumbnail, description, image, mapFile])
  | _ => []

/-- The value of a lowercase hexadecimal digit. -/
def digitValue (c : UInt8) : Option Nat :=
  if 48 ≤ c ∧ c ≤ 57 then some (c.toNat - 48)
  else if 97 ≤ c ∧ c ≤ 102 then some (c.toNat - 87)
  else none

/-- Reads a text of two-digit lowercase hexadecimal numbers. -/
def readHex : Str → Option (List UInt8)
  | [] => some []
  | [_] => none
  | a :: b :: rest => do
    let x ← digitValue a
    let y ← digitValue b
    let r ← readHex rest
    pure (UInt8.ofNat (16 * x + y) :: r)

end S2
