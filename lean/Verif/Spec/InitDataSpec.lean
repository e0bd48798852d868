import Verif.Misc.InitData
import Verif.Spec.DetailsSpec
/-!
# What the `InitData` of a replay must say

Each struct of the result written back as the protocol value it must have come from.  Nothing is dropped, so
these are functions; the only member that is not a plain copy is the text of the cache handles.
-/
namespace S2

/-- Optional bytes as a protocol value. -/
def optBytesVal : Option (List UInt8) → Val
  | none => .none
  | some x => .some (.bytes x)

/-- Numbers as a protocol value. -/
def intsVal (xs : List Int) : Val := .list (xs.map Val.int)

def wireUser (u : UserInit) : Val :=
  .struct [.bytes u.name, optBytesVal u.clanTag, optBytesVal u.clanLogo, optIntVal u.highestLeague,
    optIntVal u.combinedRaceLevels, .int u.randomSeed, .struct [optIntVal u.racePreference],
    .struct [optIntVal u.teamPreference], .bool u.testMap, .bool u.testAuto, .bool u.examine,
    .bool u.customInterface, .int u.testType, .choice u.observe .unit, .bytes u.hero, .bytes u.skin, .bytes u.mount,
    .bytes u.toonHandle, optIntVal u.scaledRating]

def wireOptions (o : GameOptions) : Val :=
  .struct [.bool o.lockTeams, .bool o.teamsTogether, .bool o.advancedSharedControl, .bool o.randomRaces,
    .bool o.battleNet, .bool o.amm, .bool o.competitive, .bool o.practice, .bool o.cooperative,
    .bool o.noVictoryOrDefeat, .bool o.heroDuplicatesAllowed, .choice o.fog .unit, .choice o.observers .unit,
    .choice o.userDifficulty .unit, .int o.clientDebugFlags, .bool o.buildCoachEnabled]

def wireSlotDescription (s : SlotDescription) : Val :=
  .struct [.int s.allowedColors, .int s.allowedRaces, .int s.allowedDifficulty, .bytes s.allowedControls,
    .int s.allowedObserveTypes, .bytes s.allowedAiBuilds]

/-- `handles`: the bytes of the cache handles. -/
def wireDescription (d : GameDescription) (handles : List (List UInt8)) : Val :=
  .struct [.int d.randomValue, .bytes d.gameCacheName, wireOptions d.gameOptions, .choice d.gameSpeed .unit,
    .choice d.gameType .unit, .int d.maxUsers, .int d.maxObservers, .int d.maxPlayers, .int d.maxTeams,
    .int d.maxColors, .int d.maxRaces, .int d.maxControls, .int d.mapSizeX, .int d.mapSizeY,
    .int d.mapFileSyncChecksum, .bytes d.mapFileName, .bytes d.mapAuthorName, .int d.modFileSyncChecksum,
    .list (d.slotDescriptions.map wireSlotDescription), .int d.defaultDifficulty, .int d.defaultAiBuild,
    .list (handles.map Val.bytes), .bool d.hasExtensionMod, .bool d.hasNonBlizzardExtensionMod,
    .bool d.isBlizzardMap, .bool d.isPremadeFfa, .bool d.isCoopMode, .bool d.isRealtimeMode]

def wireOverride (r : RewardOverride) : Val := .struct [.int r.key, intsVal r.rewards]

def wireSlot (s : LobbySlot) : Val :=
  .struct [.int s.control, optIntVal s.userId, .int s.teamId, .struct [optIntVal s.colorPref],
    .struct [optIntVal s.racePref], .int s.difficulty, .int s.aiBuild, .int s.handicap, .choice s.observe .unit,
    .int s.logoIndex, .bytes s.hero, .bytes s.skin, .bytes s.mount, .list (s.artifacts.map Val.bytes),
    optIntVal s.workingSetSlotId, intsVal s.rewards, .bytes s.toonHandle, intsVal s.licenses,
    optIntVal s.tandemLeaderId, .bytes s.commander, .int s.commanderLevel, .bool s.hasSilencePenalty,
    optIntVal s.tandemId, .int s.commanderMasteryLevel, intsVal s.commanderMasteryTalents, .int s.trophyId,
    .list (s.rewardOverrides.map wireOverride), .int s.brutalPlusDifficulty, intsVal s.retryMutationIndexes,
    .int s.acEnemyRace, .int s.acEnemyWaveType, .int s.selectedCommanderPrestige]

def wireLobby (l : LobbyState) : Val :=
  .struct [.choice l.phase .unit, .int l.maxUsers, .int l.maxObservers, .list (l.slots.map wireSlot),
    .int l.randomSeed, optIntVal l.hostUserId, .bool l.isSinglePlayer, .int l.pickedMapTag, .int l.gameDuration,
    .int l.defaultDifficulty, .int l.defaultAiBuild]

def wireInit (d : LobbySync) (handles : List (List UInt8)) : Val :=
  .struct [.struct [.list (d.users.map wireUser), wireDescription d.description handles, wireLobby d.lobby]]

/-- The texts of a user that must be UTF-8. -/
def UserInit.texts (u : UserInit) : List Str :=
  u.name :: (u.clanTag.toList ++ [u.hero, u.skin, u.mount, u.toonHandle])

/-- The texts of a lobby slot that must be UTF-8. -/
def LobbySlot.texts (s : LobbySlot) : List Str :=
  [s.hero, s.skin, s.mount] ++ (s.artifacts ++ [s.toonHandle, s.commander])

/-- All texts of the init data that must be UTF-8. -/
def LobbySync.texts (d : LobbySync) : List Str :=
  d.users.flatMap UserInit.texts ++
    ([d.description.gameCacheName, d.description.mapFileName, d.description.mapAuthorName] ++
      d.lobby.slots.flatMap LobbySlot.texts)

end S2
