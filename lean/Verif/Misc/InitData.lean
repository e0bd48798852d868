import Verif.Misc.Details
import Verif.Schema.BitPacked
import Verif.Gen.P87702BitPacked
/-!
# `replay.initData`

The version-agnostic structs of /repo/src/init_data/mod.rs and their `TryFrom`s
(/repo/src/versions/protocol87702/events/init_data.rs, /repo/src/versions/protocol87702/events/common.rs).  A value that is not of the shape
of its schema type yields `.panic`; `Props/InitData` proves that decoded values never do.
Rust enums without payload are represented by the position of the variant.
-/
namespace S2

/-- `UserInitialData` (/repo/src/init_data/mod.rs:103-123) -/
structure UserInit where
  name : Str
  clanTag : Option Str
  clanLogo : Option (List UInt8)
  highestLeague : Option Int
  combinedRaceLevels : Option Int
  randomSeed : Int
  racePreference : Option Int
  teamPreference : Option Int
  testMap : Bool
  testAuto : Bool
  examine : Bool
  customInterface : Bool
  testType : Int
  observe : Int
  hero : Str
  skin : Str
  mount : Str
  toonHandle : Str
  scaledRating : Option Int
  deriving DecidableEq, Repr, Inhabited

/-- `GameOptions` (/repo/src/init_data/mod.rs:166-183) -/
structure GameOptions where
  lockTeams : Bool
  teamsTogether : Bool
  advancedSharedControl : Bool
  randomRaces : Bool
  battleNet : Bool
  amm : Bool
  competitive : Bool
  practice : Bool
  cooperative : Bool
  noVictoryOrDefeat : Bool
  heroDuplicatesAllowed : Bool
  fog : Int
  observers : Int
  userDifficulty : Int
  clientDebugFlags : Int
  buildCoachEnabled : Bool
  deriving DecidableEq, Repr, Inhabited

/-- `SlotDescription` (/repo/src/init_data/mod.rs:208-215) -/
structure SlotDescription where
  allowedColors : Int
  allowedRaces : Int
  allowedDifficulty : Int
  allowedControls : List UInt8
  allowedObserveTypes : Int
  allowedAiBuilds : List UInt8
  deriving DecidableEq, Repr, Inhabited

/-- `GameDescription` (/repo/src/init_data/mod.rs:130-159) -/
structure GameDescription where
  randomValue : Int
  gameCacheName : Str
  gameOptions : GameOptions
  gameSpeed : Int
  gameType : Int
  maxUsers : Int
  maxObservers : Int
  maxPlayers : Int
  maxTeams : Int
  maxColors : Int
  maxRaces : Int
  maxControls : Int
  mapSizeX : Int
  mapSizeY : Int
  mapFileSyncChecksum : Int
  mapFileName : Str
  mapAuthorName : Str
  modFileSyncChecksum : Int
  slotDescriptions : List SlotDescription
  defaultDifficulty : Int
  defaultAiBuild : Int
  cacheHandles : List Str
  hasExtensionMod : Bool
  hasNonBlizzardExtensionMod : Bool
  isBlizzardMap : Bool
  isPremadeFfa : Bool
  isCoopMode : Bool
  isRealtimeMode : Bool
  deriving DecidableEq, Repr, Inhabited

/-- `RewardOverride` (/repo/src/init_data/mod.rs:341-344) -/
structure RewardOverride where
  key : Int
  rewards : List Int
  deriving DecidableEq, Repr, Inhabited

/-- `LobbySlot` (/repo/src/init_data/mod.rs:300-333) -/
structure LobbySlot where
  control : Int
  userId : Option Int
  teamId : Int
  colorPref : Option Int
  racePref : Option Int
  difficulty : Int
  aiBuild : Int
  handicap : Int
  observe : Int
  logoIndex : Int
  hero : Str
  skin : Str
  mount : Str
  artifacts : List Str
  workingSetSlotId : Option Int
  rewards : List Int
  toonHandle : Str
  licenses : List Int
  tandemLeaderId : Option Int
  commander : Str
  commanderLevel : Int
  hasSilencePenalty : Bool
  tandemId : Option Int
  commanderMasteryLevel : Int
  commanderMasteryTalents : List Int
  trophyId : Int
  rewardOverrides : List RewardOverride
  brutalPlusDifficulty : Int
  retryMutationIndexes : List Int
  acEnemyRace : Int
  acEnemyWaveType : Int
  selectedCommanderPrestige : Int
  deriving DecidableEq, Repr, Inhabited

/-- `LobbyState` (/repo/src/init_data/mod.rs:264-276) -/
structure LobbyState where
  phase : Int
  maxUsers : Int
  maxObservers : Int
  slots : List LobbySlot
  randomSeed : Int
  hostUserId : Option Int
  isSinglePlayer : Bool
  pickedMapTag : Int
  gameDuration : Int
  defaultDifficulty : Int
  defaultAiBuild : Int
  deriving DecidableEq, Repr, Inhabited

/-- `LobbySyncState` (/repo/src/init_data/mod.rs:92-96): the content of `InitData` besides the version and the
metadata (see `Misc/Replay.lean`). -/
structure LobbySync where
  users : List UserInit
  description : GameDescription
  lobby : LobbyState
  deriving DecidableEq, Repr, Inhabited

/-- A conversion between two enums without payload whose `n` variants correspond one to one, in order. [/repo/src/versions/protocol87702/events/init_data.rs:1-472] -/
def convEnum (n : Nat) : Val → Res Int
  | .choice t .unit => if 0 ≤ t ∧ t < n then .ok t else .panic
  | _ => .panic

/-- An `Option` wrapped in a struct of one field (`TRacePreference`, `TTeamPreference`,
`GameTColorPreference`). [/repo/src/versions/protocol87702/events/init_data.rs:1-472] -/
def convPref : Val → Res (Option Int)
  | .struct [o] => o.optInt
  | _ => .panic

/-- A vector of `Uint32` (or of a type wrapping it), each element `as u32`. [/repo/src/versions/protocol87702/events/init_data.rs:1-472] -/
def convU32s : Val → Res (List Int)
  | .list vs => do
    let xs ← Val.ints vs
    pure (xs.map (asU 32))
  | _ => .panic

/-- Conversion of all items of a vector, in order; the first error ends it. [/repo/src/versions/protocol87702/events/init_data.rs:1-472] -/
def convAll {α : Type} (f : Val → Res α) : List Val → Res (List α)
  | [] => .ok []
  | v :: vs => do
    let a ← f v
    let as ← convAll f vs
    pure (a :: as)

/-- An optional text (clan tag, /repo/src/versions/protocol87702/events/init_data.rs:56-59). -/
def convOptText : Option (List UInt8) → Res (Option Str)
  | none => .ok none
  | some b => do
    let s ← fromUtf8 b
    pure (some s)

/-- A text inside a vector (artifacts, /repo/src/versions/protocol87702/events/init_data.rs:373-378). -/
def convText : Val → Res Str
  | .bytes b => fromUtf8 b
  | _ => .panic

/-- `TryFrom<SUserInitialData>` (/repo/src/versions/protocol87702/events/init_data.rs:50-103) -/
def convUser : Val → Res UserInit
  | .struct [.bytes name, tag, logo, league, levels, .int seed, race, team, .bool testMap, .bool testAuto,
      .bool examine, .bool custom, .int testType, observe, .bytes hero, .bytes skin, .bytes mount, .bytes toon,
      rating] => do
    let name ← fromUtf8 name
    let tag ← tag.optBytes
    let tag ← convOptText tag
    let logo ← logo.optBytes
    let league ← league.optInt
    let levels ← levels.optInt
    let race ← convPref race
    let team ← convPref team
    let observe ← convEnum 3 observe
    let hero ← fromUtf8 hero
    let skin ← fromUtf8 skin
    let mount ← fromUtf8 mount
    let toon ← fromUtf8 toon
    let rating ← rating.optInt
    pure ⟨name, tag, logo, league.map (asU 8), levels.map (asU 32), asU 32 seed, race, team.map (asU 8), testMap,
      testAuto, examine, custom, asU 32 testType, observe, hero, skin, mount, toon, rating.map asI32⟩
  | _ => .panic

/-- `From<GameSGameOptions>` (/repo/src/versions/protocol87702/events/init_data.rs:258-295) -/
def convOptions : Val → Res GameOptions
  | .struct [.bool a, .bool b, .bool c, .bool d, .bool e, .bool f, .bool g, .bool h, .bool i, .bool j, .bool k,
      fog, observers, difficulty, .int flags, .bool coach] => do
    let fog ← convEnum 4 fog
    let observers ← convEnum 4 observers
    let difficulty ← convEnum 3 difficulty
    pure ⟨a, b, c, d, e, f, g, h, i, j, k, fog, observers, difficulty, flags, coach⟩
  | _ => .panic

/-- `From<GameSSlotDescription>` (/repo/src/versions/protocol87702/events/init_data.rs:207-224) -/
def convSlotDescription : Val → Res SlotDescription
  | .struct [.int colors, .int races, .int difficulty, .bytes controls, .int observe, .bytes builds] =>
    .ok ⟨colors, races, difficulty, controls, observe, builds⟩
  | _ => .panic

/-- `TryFrom<GameSGameDescription>` (/repo/src/versions/protocol87702/events/init_data.rs:125-205).  The two `as u8` casts of the map size
come first as in the code. -/
def convDescription : Val → Res GameDescription
  | .struct [.int random, .bytes cache, options, speed, type, .int users, .int observers, .int players, .int teams,
      .int colors, .int races, .int controls, .int sx, .int sy, .int mapSum, .bytes mapFile, .bytes author,
      .int modSum, .list slots, .int difficulty, .int build, .list handles, .bool b1, .bool b2, .bool b3, .bool b4,
      .bool b5, .bool b6] => do
    let cache ← fromUtf8 cache
    let options ← convOptions options
    let speed ← convEnum 5 speed
    let type ← convEnum 7 type
    let mapFile ← fromUtf8 mapFile
    let author ← fromUtf8 author
    let slots ← convAll convSlotDescription slots
    let handles ← Val.blobs handles
    pure ⟨asU 32 random, cache, options, speed, type, users, observers, players, teams, colors, races, controls,
      asU 8 sx, asU 8 sy, asU 32 mapSum, mapFile, author, asU 32 modSum, slots, difficulty, build,
      handles.map hexText, b1, b2, b3, b4, b5, b6⟩
  | _ => .panic

/-- `From<GameCRewardOverride>` (/repo/src/versions/protocol87702/events/init_data.rs:461-473) -/
def convOverride : Val → Res RewardOverride
  | .struct [.int key, rewards] => do
    let rewards ← convU32s rewards
    pure ⟨asU 32 key, rewards⟩
  | _ => .panic

/-- `TryFrom<GameSLobbySlot>` (/repo/src/versions/protocol87702/events/init_data.rs:357-459) -/
def convSlot : Val → Res LobbySlot
  | .struct [.int control, user, .int team, color, race, .int difficulty, .int build, .int handicap, observe,
      .int logo, .bytes hero, .bytes skin, .bytes mount, .list artifacts, slotId, rewards, .bytes toon, licenses,
      leader, .bytes commander, .int level, .bool silence, tandem, .int mastery, talents, .int trophy,
      .list overrides, .int brutal, mutations, .int acRace, .int acWave, .int prestige] => do
    let user ← user.optInt
    let color ← convPref color
    let race ← convPref race
    let observe ← convEnum 3 observe
    let hero ← fromUtf8 hero
    let skin ← fromUtf8 skin
    let mount ← fromUtf8 mount
    let artifacts ← convAll convText artifacts
    let slotId ← slotId.optInt
    let rewards ← convU32s rewards
    let toon ← fromUtf8 toon
    let licenses ← convU32s licenses
    let leader ← leader.optInt
    let commander ← fromUtf8 commander
    let tandem ← tandem.optInt
    let talents ← convU32s talents
    let overrides ← convAll convOverride overrides
    let mutations ← convU32s mutations
    pure ⟨control, user, team, color, race, difficulty, build, asU 32 handicap, observe, asU 32 logo, hero, skin,
      mount, artifacts, slotId.map (asU 8), rewards, toon, licenses, leader, commander, asU 32 level, silence, tandem,
      asU 32 mastery, talents, asU 32 trophy, overrides, asU 32 brutal, mutations, asU 32 acRace, asU 32 acWave,
      asU 32 prestige⟩
  | _ => .panic

/-- `TryFrom<GameSLobbyState>` (/repo/src/versions/protocol87702/events/init_data.rs:309-342) -/
def convLobby : Val → Res LobbyState
  | .struct [phase, .int users, .int observers, .list slots, .int seed, host, .bool single, .int tag, .int duration,
      .int difficulty, .int build] => do
    let phase ← convEnum 6 phase
    let slots ← convAll convSlot slots
    let host ← host.optInt
    pure ⟨phase, users, observers, slots, asU 32 seed, host, single, asU 8 tag, asU 32 duration, difficulty, build⟩
  | _ => .panic

/-- `TryFrom<ReplaySInitData>` and `TryFrom<GameSLobbySyncState>` (/repo/src/versions/protocol87702/events/init_data.rs:19-48) -/
def convInit : Val → Res LobbySync
  | .struct [.struct [.list users, desc, lobby]] => do
    let users ← convAll convUser users
    let desc ← convDescription desc
    let lobby ← convLobby lobby
    pure ⟨users, desc, lobby⟩
  | _ => .panic

/-- `ReplaySInitData::read_init_data` on the bytes of the `replay.initData` sector
(/repo/src/versions/protocol87702/events/init_data.rs:8-17; the MPQ archive is not modelled). -/
def readInit (bld : Build) (sector : List UInt8) : Res LobbySync := do
  let (_, v) ← bparse bld P87702.BitPacked.ReplaySInitData ⟨sector, 0⟩
  convInit v

end S2
