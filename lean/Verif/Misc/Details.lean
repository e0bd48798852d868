import Verif.Events.Convert
import Verif.Misc.Hex
import Verif.Gen.P87702ByteAligned
import Verif.Schema.ByteAligned
/-!
# `replay.details`

The version-agnostic structs of /repo/src/details.rs and their `TryFrom`s
(/repo/src/versions/protocol87702/events/details.rs).  A value that is not of the shape of its schema
type yields `.panic`; `Props/Details` proves that decoded values never do.
-/
namespace S2

/-- `ToonNameDetails` (/repo/src/details.rs:345-350) -/
structure Toon where
  region : Int
  programId : Int
  realm : Int
  id : Int
  deriving DecidableEq, Repr, Inhabited

/-- `Color` (/repo/src/details.rs:357-362) -/
structure Color where
  a : Int
  r : Int
  g : Int
  b : Int
  deriving DecidableEq, Repr, Inhabited

/-- `PlayerDetails` (/repo/src/details.rs:326-338) -/
structure PlayerDetails where
  name : Str
  toon : Toon
  race : Str
  color : Color
  control : Int
  teamId : Int
  handicap : Int
  observe : Int
  result : Str
  workingSetSlotId : Option Int
  hero : Str
  deriving DecidableEq, Repr, Inhabited

/-- `Details` (/repo/src/details.rs:240-261), without the two `ext_` members that `set_metadata` fills in
later (see `Misc/Replay.lean`); `thumbnail` is its single member `file`. -/
structure Details where
  playerList : List PlayerDetails
  title : Str
  difficulty : Str
  thumbnail : Str
  isBlizzardMap : Bool
  timeUtc : Int
  timeLocalOffset : Int
  restartAsTransitionMap : Option Bool
  disableRecoverGame : Bool
  description : Str
  imageFilePath : Str
  campaignIndex : Int
  mapFileName : Str
  cacheHandles : List Str
  miniSave : Bool
  gameSpeed : Str
  defaultDifficulty : Int
  modPaths : List Str
  deriving DecidableEq, Repr, Inhabited

/-- An `Option<bool>`. [/repo/src/versions/protocol87702/events/details.rs:1-144] -/
def Val.optBool : Val → Res (Option Bool)
  | .none => .ok Option.none
  | .some (.bool x) => .ok (Option.some x)
  | _ => .panic

/-- A `Vec<Vec<u8>>`. [/repo/src/versions/protocol87702/events/details.rs:1-144] -/
def Val.blobs : List Val → Res (List (List UInt8))
  | [] => .ok []
  | .bytes x :: vs => do
    let xs ← Val.blobs vs
    pure (x :: xs)
  | _ => .panic

/-- The vector inside an optional vector; absent is the empty vector
(/repo/src/versions/protocol87702/events/details.rs:24-31, 33-42, 44-48 all loop over the vector only when it is there). -/
def Val.optList : Val → Res (List Val)
  | .none => .ok []
  | .some (.list vs) => .ok vs
  | _ => .panic

/-- `TryFrom<GameSToonNameDetails>` (/repo/src/versions/protocol87702/events/details.rs:134-144) -/
def convToon : Val → Res Toon
  | .struct [.int region, .int programId, .int realm, .bytes _, .int id] => .ok ⟨region, programId, realm, id⟩
  | _ => .panic

/-- `From<GameSColor>` (/repo/src/versions/protocol87702/events/details.rs:91-100) -/
def convColor : Val → Res Color
  | .struct [.int a, .int r, .int g, .int b] => .ok ⟨a, r, g, b⟩
  | _ => .panic

/-- `From<byte_aligned::EObserve> for u8` (/repo/src/versions/protocol87702/events/common.rs:13-21,
/repo/src/common.rs:8-10) -/
def convObserve : Val → Res Int
  | .choice 0 .unit => .ok 0
  | .choice 1 .unit => .ok 1
  | .choice 2 .unit => .ok 2
  | _ => .panic

/-- `From<GameEResultDetails> for String` (/repo/src/versions/protocol87702/events/details.rs:102-111) -/
def convResult : Val → Res Str
  | .choice 0 .unit => .ok (str "Undecided")
  | .choice 1 .unit => .ok (str "Win")
  | .choice 2 .unit => .ok (str "Loss")
  | .choice 3 .unit => .ok (str "Tie")
  | _ => .panic

/-- `From<GameEGameSpeed> for String` (/repo/src/versions/protocol87702/events/details.rs:122-132) -/
def convSpeed : Val → Res Str
  | .choice 0 .unit => .ok (str "Slower")
  | .choice 1 .unit => .ok (str "Slow")
  | .choice 2 .unit => .ok (str "Normal")
  | .choice 3 .unit => .ok (str "Fast")
  | .choice 4 .unit => .ok (str "Faster")
  | _ => .panic

/-- `TryFrom<GameSPlayerDetails>` (/repo/src/versions/protocol87702/events/details.rs:72-89) -/
def convPlayer : Val → Res PlayerDetails
  | .struct [.bytes name, toon, .bytes race, color, .int control, .int team, .int handicap, observe,
      result, slot, .bytes hero] => do
    let name ← fromUtf8 name
    let toon ← convToon toon
    let race ← fromUtf8 race
    let color ← convColor color
    let observe ← convObserve observe
    let result ← convResult result
    let slot ← slot.optInt
    let hero ← fromUtf8 hero
    pure ⟨name, toon, race, color, control, team, handicap, observe, result, slot, hero⟩
  | _ => .panic

/-- The loop over the players (/repo/src/versions/protocol87702/events/details.rs:26-30) -/
def convPlayers : List Val → Res (List PlayerDetails)
  | [] => .ok []
  | v :: vs => do
    let p ← convPlayer v
    let ps ← convPlayers vs
    pure (p :: ps)

/-- The loop over the mod paths (/repo/src/versions/protocol87702/events/details.rs:44-48) -/
def convPaths : List (List UInt8) → Res (List Str)
  | [] => .ok []
  | b :: bs => do
    let p ← fromUtf8 b
    let ps ← convPaths bs
    pure (p :: ps)

/-- `TryFrom<GameSThumbnail>` (/repo/src/versions/protocol87702/events/details.rs:113-120) -/
def convThumbnail : Val → Res Str
  | .struct [.bytes file] => fromUtf8 file
  | _ => .panic

/-- `TryFrom<GameSDetails> for Details` (/repo/src/versions/protocol87702/events/details.rs:20-70) -/
def convDetails : Val → Res Details
  | .struct [players, .bytes title, .bytes difficulty, thumbnail, .bool blizz, .int utc, .int off, restart,
      .bool recover, .bytes description, .bytes image, .int campaign, .bytes mapFile, handles, .bool miniSave,
      speed, .int dd, mods] => do
    let players ← players.optList
    let players ← convPlayers players
    let handles ← handles.optList
    let handles ← Val.blobs handles
    let mods ← mods.optList
    let mods ← Val.blobs mods
    let mods ← convPaths mods
    let title ← fromUtf8 title
    let difficulty ← fromUtf8 difficulty
    let thumbnail ← convThumbnail thumbnail
    let restart ← restart.optBool
    let description ← fromUtf8 description
    let image ← fromUtf8 image
    let mapFile ← fromUtf8 mapFile
    let speed ← convSpeed speed
    pure ⟨players, title, difficulty, thumbnail, blizz, utc, off, restart, recover, description, image,
      campaign, mapFile, handles.map hexText, miniSave, speed, dd, mods⟩
  | _ => .panic

/-- `GameSDetails::read_details` on the bytes of the `replay.details` sector
(/repo/src/versions/protocol87702/events/details.rs:11-17; the MPQ archive is not modelled). -/
def readDetails (bld : Build) (sector : List UInt8) : Res Details := do
  let (_, v) ← vparse bld P87702.ByteAligned.GameSDetails sector
  convDetails v

/-- `Details::get_player_names` (/repo/src/details.rs:291-302) -/
def Details.playerNames (d : Details) : List Str :=
  d.playerList.filterMap (fun u => if u.observe = 0 then some u.name else none)

end S2
