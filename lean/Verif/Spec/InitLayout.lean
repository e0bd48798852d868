import Verif.Misc.InitData
import Verif.Misc.Hex
import Verif.Spec.GameLayout
/-!
# The published layout of the init data of a replay

Written from the published description of the format (Blizzard's `s2protocol`), independently of the
parser and of the types extracted from it: the order of the members and how many bits each of them takes.
-/
namespace S2.Published

/-- Forty bytes that start at a byte boundary. [specification] -/
def handle (bs : List UInt8) : Wire := seq [fun off => List.replicate (padLen off) false, fun _ => bytesBits bs]
/-- A bit array as a number: how many bits, in `n` bits, then the number in so many bits. [specification] -/
def sized (n len : Nat) (x : Int) : Wire := seq [bits n len, bits len x]
/-- Bytes in eight bits each, the last in what is left of `len` bits. [specification] -/
def groups : Nat → List UInt8 → List Wire
  | _, [] => []
  | len, b :: bs => bits (min 8 len) b.toNat :: groups (len - 8) bs
/-- A bit array as bytes (`C180` says when this is one number): how many bits, in `n` bits, then the bytes. [specification] -/
def bytewise (n len : Nat) (bs : List UInt8) : Wire := seq (bits n len :: groups len bs)
/-- A number of `n` bits above its least value, 1. [specification] -/
def fromOne (n : Nat) (x : Int) : Wire := bits n (x - 1)

/-- A user. [specification] -/
def initUser (u : UserInit) : Wire :=
  seq [chars 8 u.name, opt (chars 8) u.clanTag, opt handle u.clanLogo, opt (bits 8) u.highestLeague, opt (bits 32) u.combinedRaceLevels,
    bits 32 u.randomSeed, opt (bits 8) u.racePreference, opt (bits 8) u.teamPreference, flag u.testMap, flag u.testAuto, flag u.examine,
    flag u.customInterface, bits 32 u.testType, bits 2 u.observe, chars 9 u.hero, chars 9 u.skin, chars 9 u.mount, chars 7 u.toonHandle,
    opt (signed 32) u.scaledRating]

/-- The options of the game. [specification] -/
def options (o : GameOptions) : Wire :=
  seq [flag o.lockTeams, flag o.teamsTogether, flag o.advancedSharedControl, flag o.randomRaces, flag o.battleNet, flag o.amm,
    flag o.competitive, flag o.practice, flag o.cooperative, flag o.noVictoryOrDefeat, flag o.heroDuplicatesAllowed, bits 2 o.fog,
    bits 2 o.observers, bits 2 o.userDifficulty, bits 64 o.clientDebugFlags, flag o.buildCoachEnabled]

/-- How many bits the bit arrays of a slot description have. [specification] -/
structure SlotBits where
  colors : Nat
  races : Nat
  difficulty : Nat
  controls : Nat
  observe : Nat
  aiBuilds : Nat
  deriving DecidableEq

/-- What is allowed in a slot. [specification] -/
def slotDescription (p : SlotDescription × SlotBits) : Wire :=
  seq [sized 6 p.2.colors p.1.allowedColors, sized 8 p.2.races p.1.allowedRaces, sized 6 p.2.difficulty p.1.allowedDifficulty,
    bytewise 8 p.2.controls p.1.allowedControls, sized 2 p.2.observe p.1.allowedObserveTypes, bytewise 8 p.2.aiBuilds p.1.allowedAiBuilds]

/-- The description of the game; `slots` are its slots with the sizes of their arrays, `handles` the cache handles as bytes. [specification] -/
def description (slots : List (SlotDescription × SlotBits)) (handles : List (List UInt8)) (d : GameDescription) : Wire :=
  seq [bits 32 d.randomValue, chars 11 d.gameCacheName, options d.gameOptions, bits 3 d.gameSpeed, bits 3 d.gameType, bits 5 d.maxUsers,
    bits 5 d.maxObservers, bits 5 d.maxPlayers, fromOne 5 d.maxTeams, bits 6 d.maxColors, fromOne 8 d.maxRaces, bits 8 d.maxControls,
    bits 8 d.mapSizeX, bits 8 d.mapSizeY, bits 32 d.mapFileSyncChecksum, chars 11 d.mapFileName, chars 8 d.mapAuthorName,
    bits 32 d.modFileSyncChecksum, many 5 slotDescription slots, bits 6 d.defaultDifficulty, bits 8 d.defaultAiBuild, many 6 handle handles,
    flag d.hasExtensionMod, flag d.hasNonBlizzardExtensionMod, flag d.isBlizzardMap, flag d.isPremadeFfa, flag d.isCoopMode,
    flag d.isRealtimeMode]

/-- Rewards that replace others. [specification] -/
def override (o : RewardOverride) : Wire := seq [bits 32 o.key, many 17 (bits 32) o.rewards]

/-- A slot of the lobby. [specification] -/
def lobbySlot (s : LobbySlot) : Wire :=
  seq [bits 8 s.control, opt (bits 4) s.userId, bits 4 s.teamId, opt (bits 5) s.colorPref, opt (bits 8) s.racePref, bits 6 s.difficulty,
    bits 8 s.aiBuild, bits 32 s.handicap, bits 2 s.observe, bits 32 s.logoIndex, chars 9 s.hero, chars 9 s.skin, chars 9 s.mount,
    many 4 (chars 9) s.artifacts, opt (bits 8) s.workingSetSlotId, many 17 (bits 32) s.rewards, chars 7 s.toonHandle,
    many 16 (bits 32) s.licenses, opt (bits 4) s.tandemLeaderId, chars 9 s.commander, bits 32 s.commanderLevel, flag s.hasSilencePenalty,
    opt (bits 4) s.tandemId, bits 32 s.commanderMasteryLevel, many 3 (bits 32) s.commanderMasteryTalents, bits 32 s.trophyId,
    many 17 override s.rewardOverrides, bits 32 s.brutalPlusDifficulty, many 3 (bits 32) s.retryMutationIndexes, bits 32 s.acEnemyRace,
    bits 32 s.acEnemyWaveType, bits 32 s.selectedCommanderPrestige]

/-- The lobby. [specification] -/
def lobby (l : LobbyState) : Wire :=
  seq [bits 3 l.phase, bits 5 l.maxUsers, bits 5 l.maxObservers, many 5 lobbySlot l.slots, bits 32 l.randomSeed, opt (bits 4) l.hostUserId,
    flag l.isSinglePlayer, bits 8 l.pickedMapTag, bits 32 l.gameDuration, bits 6 l.defaultDifficulty, bits 8 l.defaultAiBuild]

/-- The init data. [specification] -/
def initData (slots : List (SlotDescription × SlotBits)) (handles : List (List UInt8)) (d : LobbySync) : Wire :=
  seq [many 5 initUser d.users, description slots handles d.description, lobby d.lobby]

/-- One of the first `n` variants. [specification] -/
def Upto (n : Nat) (x : Int) : Prop := 0 ≤ x ∧ x < n
/-- At most `2 ^ n - 1` items in range. [specification] -/
def FitsMany {α : Type} (n : Nat) (P : α → Prop) (l : List α) : Prop := l.length < 2 ^ n ∧ ∀ a ∈ l, P a
/-- [specification] -/
def FitsHandle (bs : List UInt8) : Prop := bs.length = 40
/-- [specification] -/
def FitsNumbered (n len : Nat) (x : Int) : Prop := len < 2 ^ n ∧ len < 64 ∧ U len x
/-- As many bytes as it takes, the last one within the bits that are left. [specification] -/
def FitsGroups : Nat → List UInt8 → Prop
  | len, [] => len = 0
  | len, b :: bs => 0 < len ∧ b.toNat < 2 ^ min 8 len ∧ FitsGroups (len - 8) bs
/-- [specification] -/
def FitsBytewise (n len : Nat) (bs : List UInt8) : Prop := 0 < len ∧ len < 2 ^ n ∧ FitsGroups len bs

/-- [specification] -/
def FitsInitUser (u : UserInit) : Prop :=
  FitsText 8 u.name ∧ Maybe (FitsText 8) u.clanTag ∧ Maybe FitsHandle u.clanLogo ∧ Maybe (U 8) u.highestLeague ∧
    Maybe (U 32) u.combinedRaceLevels ∧ U 32 u.randomSeed ∧ Maybe (U 8) u.racePreference ∧ Maybe (U 8) u.teamPreference ∧ U 32 u.testType ∧
    Upto 3 u.observe ∧ FitsText 9 u.hero ∧ FitsText 9 u.skin ∧ FitsText 9 u.mount ∧ FitsText 7 u.toonHandle ∧ Maybe (I 32) u.scaledRating
/-- [specification] -/
def FitsOptions (o : GameOptions) : Prop := Upto 4 o.fog ∧ Upto 4 o.observers ∧ Upto 3 o.userDifficulty ∧ U 63 o.clientDebugFlags
/-- [specification] -/
def FitsSlotDescription (p : SlotDescription × SlotBits) : Prop :=
  FitsNumbered 6 p.2.colors p.1.allowedColors ∧ FitsNumbered 8 p.2.races p.1.allowedRaces ∧ FitsNumbered 6 p.2.difficulty p.1.allowedDifficulty ∧
    FitsBytewise 8 p.2.controls p.1.allowedControls ∧ FitsNumbered 2 p.2.observe p.1.allowedObserveTypes ∧
    FitsBytewise 8 p.2.aiBuilds p.1.allowedAiBuilds
/-- The cache handles are handed out as hexadecimal digits. [specification] -/
def FitsDescription (slots : List (SlotDescription × SlotBits)) (handles : List (List UInt8)) (d : GameDescription) : Prop :=
  U 32 d.randomValue ∧ FitsText 11 d.gameCacheName ∧ FitsOptions d.gameOptions ∧ Upto 5 d.gameSpeed ∧ Upto 7 d.gameType ∧ U 5 d.maxUsers ∧
    U 5 d.maxObservers ∧ U 5 d.maxPlayers ∧ U 5 (d.maxTeams - 1) ∧ U 6 d.maxColors ∧ U 8 (d.maxRaces - 1) ∧ U 8 d.maxControls ∧
    U 8 d.mapSizeX ∧ U 8 d.mapSizeY ∧ U 32 d.mapFileSyncChecksum ∧ FitsText 11 d.mapFileName ∧ FitsText 8 d.mapAuthorName ∧
    U 32 d.modFileSyncChecksum ∧ FitsMany 5 FitsSlotDescription slots ∧ d.slotDescriptions = slots.map (·.1) ∧ U 6 d.defaultDifficulty ∧
    U 8 d.defaultAiBuild ∧ FitsMany 6 FitsHandle handles ∧ d.cacheHandles = handles.map hexText
/-- [specification] -/
def FitsOverride (o : RewardOverride) : Prop := U 32 o.key ∧ FitsMany 17 (U 32) o.rewards
/-- [specification] -/
def FitsLobbySlot (s : LobbySlot) : Prop :=
  U 8 s.control ∧ Maybe (U 4) s.userId ∧ U 4 s.teamId ∧ Maybe (U 5) s.colorPref ∧ Maybe (U 8) s.racePref ∧ U 6 s.difficulty ∧ U 8 s.aiBuild ∧
    U 32 s.handicap ∧ Upto 3 s.observe ∧ U 32 s.logoIndex ∧ FitsText 9 s.hero ∧ FitsText 9 s.skin ∧ FitsText 9 s.mount ∧
    FitsMany 4 (FitsText 9) s.artifacts ∧ Maybe (U 8) s.workingSetSlotId ∧ FitsMany 17 (U 32) s.rewards ∧ FitsText 7 s.toonHandle ∧
    FitsMany 16 (U 32) s.licenses ∧ Maybe (U 4) s.tandemLeaderId ∧ FitsText 9 s.commander ∧ U 32 s.commanderLevel ∧ Maybe (U 4) s.tandemId ∧
    U 32 s.commanderMasteryLevel ∧ FitsMany 3 (U 32) s.commanderMasteryTalents ∧ U 32 s.trophyId ∧ FitsMany 17 FitsOverride s.rewardOverrides ∧
    U 32 s.brutalPlusDifficulty ∧ FitsMany 3 (U 32) s.retryMutationIndexes ∧ U 32 s.acEnemyRace ∧ U 32 s.acEnemyWaveType ∧
    U 32 s.selectedCommanderPrestige
/-- [specification] -/
def FitsLobby (l : LobbyState) : Prop :=
  Upto 6 l.phase ∧ U 5 l.maxUsers ∧ U 5 l.maxObservers ∧ FitsMany 5 FitsLobbySlot l.slots ∧ U 32 l.randomSeed ∧ Maybe (U 4) l.hostUserId ∧
    U 8 l.pickedMapTag ∧ U 32 l.gameDuration ∧ U 6 l.defaultDifficulty ∧ U 8 l.defaultAiBuild
/-- The members are in the ranges of the description. [specification] -/
def InitFits (slots : List (SlotDescription × SlotBits)) (handles : List (List UInt8)) (d : LobbySync) : Prop :=
  FitsMany 5 FitsInitUser d.users ∧ FitsDescription slots handles d.description ∧ FitsLobby d.lobby

/-- An empty text becomes a zero byte. [specification] -/
def noEmpty (s : Str) : Str := if s = [] then [0] else s
/-- [specification] -/
def UserInit.noEmpty (u : UserInit) : UserInit :=
  { u with name := Published.noEmpty u.name, clanTag := u.clanTag.map Published.noEmpty, hero := Published.noEmpty u.hero,
           skin := Published.noEmpty u.skin, mount := Published.noEmpty u.mount, toonHandle := Published.noEmpty u.toonHandle }
/-- [specification] -/
def LobbySlot.noEmpty (s : LobbySlot) : LobbySlot :=
  { s with hero := Published.noEmpty s.hero, skin := Published.noEmpty s.skin, mount := Published.noEmpty s.mount,
           artifacts := s.artifacts.map Published.noEmpty, toonHandle := Published.noEmpty s.toonHandle,
           commander := Published.noEmpty s.commander }
/-- Every empty text becomes a zero byte. [specification] -/
def LobbySync.noEmpty (d : LobbySync) : LobbySync :=
  { users := d.users.map UserInit.noEmpty,
    description := { d.description with gameCacheName := Published.noEmpty d.description.gameCacheName,
                                        mapFileName := Published.noEmpty d.description.mapFileName,
                                        mapAuthorName := Published.noEmpty d.description.mapAuthorName },
    lobby := { d.lobby with slots := d.lobby.slots.map LobbySlot.noEmpty } }

/-- The texts of a user. [specification] -/
def UserInit.texts (u : UserInit) : List Str := u.name :: u.clanTag.toList ++ [u.hero, u.skin, u.mount, u.toonHandle]
/-- The texts of a slot. [specification] -/
def LobbySlot.texts (s : LobbySlot) : List Str := [s.hero, s.skin, s.mount] ++ s.artifacts ++ [s.toonHandle, s.commander]
/-- The texts of the init data. [specification] -/
def LobbySync.texts (d : LobbySync) : List Str :=
  d.users.flatMap UserInit.texts ++ [d.description.gameCacheName, d.description.mapFileName, d.description.mapAuthorName] ++
    d.lobby.slots.flatMap LobbySlot.texts

end S2.Published
