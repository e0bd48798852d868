import Verif.Misc.InitData
import Verif.Misc.Time
import Verif.State.Merged
/-!
# From a replay file to the readers and the combined iterator

The MPQ archive (crate nom_mpq), the file system, the hash and the calendar are external: they are the fields
of `Archive` and `World`, arbitrary in every theorem.  Paths are byte strings: one that is not UTF-8 matters only
where the code turns the path into text (`pathOrDefault`, `InitFile.tryRead`).
-/
namespace S2

/-- What this crate asks of an opened archive: the content of the user data block, and
`read_mpq_file_sector(name, false, file_contents)`. [external crate nom-mpq; called at /repo/src/versions/mod.rs:15-64, /repo/src/state/mod.rs:341-344] -/
structure Archive where
  userData : Option (List UInt8)
  sector : String → Res (List UInt8)

/-- The outside world. [`read_file`, `parser::parse`, `sha256`, `chrono`: /repo/src/lib.rs:72-90, 171-181] -/
structure World (D : Type) where
  file : Str → Res (List UInt8)
  mpq : List UInt8 → Res Archive
  sha256 : List UInt8 → Str
  chrono : Int → Nat → Option D
  epoch : D

/-- `read_protocol_header` (/repo/src/protocol_version_decoder.rs:52-58): `expect` on the user data. -/
def readHeader (bld : Build) (a : Archive) : Res Val :=
  match a.userData with
  | none => .panic
  | some content => do
    let (_, v) ← vparse bld P87702.ByteAligned.ReplaySHeader content
    pure v

/-- `b"StarCraft II replay\x1b11"` [/repo/src/versions/mod.rs:15-42] -/
def replaySignature : List UInt8 := str "StarCraft II replay" ++ (0x1b :: str "11")

/-- `proto_header.m_signature` and `proto_header.m_version.m_base_build` [/repo/src/versions/mod.rs:15-42] -/
def signatureAndBuild : Val → Res (List UInt8 × Int)
  | .struct (.bytes sig :: .struct [_, _, _, _, _, .int base] :: _) => .ok (sig, base)
  | _ => .panic

/-- `assert_eq!(proto_header.m_signature, …)` [/repo/src/versions/mod.rs:15-42] -/
def assertSignature (sig : List UInt8) : Res Unit := if sig = replaySignature then .ok () else .panic

/-- The common start of the five readers: header, signature, base build
(/repo/src/versions/mod.rs:20-26, 50-56, 73-79, 95-101, 117-123). -/
def checkedBuild (bld : Build) (a : Archive) : Res Int := do
  let v ← readHeader bld a
  let (sig, base) ← signatureAndBuild v
  assertSignature sig
  pure base

/-- The two protocol modules. [/repo/src/versions/mod.rs:15-167] -/
inductive Protocol
  | p75689
  | p87702
  deriving DecidableEq, Repr

/-- The builds listed by name (/repo/src/versions/mod.rs:32-33 and four more times). -/
def listedBuilds : List Int :=
  [83830, 84643, 88500, 86383, 87702, 89634, 89165, 89720, 90136, 90779, 90870, 91115]

/-- `match proto_header.m_version.m_base_build { 0..=75689 => …, 83830 | … => …, _ => … }`
(/repo/src/versions/mod.rs:27-40, 57-62, 80-85, 102-107, 124-129). -/
def dispatch (build : Int) : Protocol :=
  if 0 ≤ build ∧ build ≤ 75689 then .p75689
  else if build ∈ listedBuilds then .p87702
  else .p87702

/-- `protocolN::bit_packed::GameEEventId`; the only type read here that protocol 75689 does not re-export from
protocol 87702 (/repo/src/versions/protocol75689/mod.rs:1-160). -/
def Protocol.gameTy : Protocol → BTy
  | .p75689 => P75689.BitPacked.GameEEventId
  | .p87702 => P87702.BitPacked.GameEEventId

/-- The `?` on a reader whose loop may still be running. [/repo/src/versions/mod.rs:15-64] -/
def andThenRead {α β : Type} (r : Res α) (f : α → Option (Res β)) : Option (Res β) :=
  match r with
  | .ok a => f a
  | .err e => some (.err e)
  | .panic => some .panic

/-- `versions::read_tracker_events` (/repo/src/versions/mod.rs:15-42), for `n` rounds of the loop; both
protocols have the same tracker event type. -/
def readTrackerEventsOf (bld : Build) (n : Nat) (a : Archive) : Option (Res (List (Int × TrackerEvt))) :=
  andThenRead (checkedBuild bld a) fun _ =>
    andThenRead (a.sector "replay.tracker.events") fun data => readTrackerEvents bld n data

/-- `versions::read_game_events` (/repo/src/versions/mod.rs:46-64). -/
def readGameEventsOf (bld : Build) (n : Nat) (a : Archive) : Option (Res (List (Int × Int × GameEvt))) :=
  andThenRead (checkedBuild bld a) fun build =>
    andThenRead (a.sector "replay.game.events") fun data =>
      readLoop (parseTriplet bld (dispatch build).gameTy) (convTriplet convGame) (fun c => c.bytes.isEmpty) n
        ⟨data, 0⟩ []

/-- `versions::read_message_events` (/repo/src/versions/mod.rs:68-86). -/
def readMessageEventsOf (bld : Build) (n : Nat) (a : Archive) : Option (Res (List (Int × Int × ChatEvt))) :=
  andThenRead (checkedBuild bld a) fun _ =>
    andThenRead (a.sector "replay.message.events") fun data => readMessageEvents bld n data

/-- `versions::read_details` (/repo/src/versions/mod.rs:90-108; the sector name is in
/repo/src/versions/protocol87702/events/details.rs:12-14). -/
def readDetailsOf (bld : Build) (a : Archive) : Res Details := do
  let _ ← checkedBuild bld a
  let data ← a.sector "replay.details"
  readDetails bld data

/-- `versions::read_init_data` (/repo/src/versions/mod.rs:112-131): the lobby state and the version
(`with_version`). -/
def readInitOf (bld : Build) (a : Archive) : Res (LobbySync × Int) := do
  let build ← checkedBuild bld a
  let data ← a.sector "replay.initData"
  let d ← readInit bld data
  pure (d, build)

/-- `InitData` (/repo/src/init_data/mod.rs:26-37) -/
structure InitFile where
  fsId : Nat
  sha256 : Str
  fileName : Str
  version : Int
  sync : LobbySync
  deriving DecidableEq, Repr, Inhabited

/-- `InitData::new` and `set_metadata` (/repo/src/init_data/mod.rs:42-58) -/
def InitFile.new {D : Type} (w : World D) (bld : Build) (fileName : Str) (fsId : Nat) (a : Archive)
    (content : List UInt8) : Res InitFile := do
  let (d, version) ← readInitOf bld a
  pure ⟨fsId, w.sha256 content, fileName, version, d⟩

/-- `path.to_str().unwrap_or_default()` (/repo/src/init_data/mod.rs:80): the path as text, or the empty text. -/
def pathOrDefault (path : Str) : Str := if utf8Ok path then path else []

/-- `TryFrom<(PathBuf, u64)> for InitData` (/repo/src/init_data/mod.rs:68-86).  A path that is not UTF-8 is read,
but stored as the empty text. -/
def InitFile.read {D : Type} (w : World D) (bld : Build) (path : Str) (fsId : Nat) : Res InitFile := do
  let content ← w.file path
  let a ← w.mpq content
  InitFile.new w bld (pathOrDefault path) fsId a content

/-- `try_read_init_data` (/repo/src/dir_stats.rs:102-116): the same, but a path that is not UTF-8 is
`expect`ed to be, after the archive has been parsed. -/
def InitFile.tryRead {D : Type} (w : World D) (bld : Build) (path : Str) (fsId : Nat) : Res InitFile := do
  let content ← w.file path
  let a ← w.mpq content
  if utf8Ok path then InitFile.new w bld path fsId a content else .panic

/-- `Details` with the two members `set_metadata` fills in (/repo/src/details.rs:241-242). -/
structure DetailsFile (D : Type) where
  fsId : Nat
  datetime : D
  details : Details
  deriving Repr, DecidableEq

/-- `Details::new` and `set_metadata` (/repo/src/details.rs:265-287): `unwrap_or_default` on the date. -/
def DetailsFile.new {D : Type} (w : World D) (bld : Build) (fsId : Nat) (a : Archive) : Res (DetailsFile D) := do
  let d ← readDetailsOf bld a
  let t ← Time.transformToNaivetime w.chrono bld d.timeUtc d.timeLocalOffset
  pure ⟨fsId, t.getD w.epoch, d⟩

/-- `TryFrom<&InitData> for Details` (/repo/src/details.rs:305-319): reads the file again. -/
def DetailsFile.ofInit {D : Type} (w : World D) (bld : Build) (init : InitFile) : Res (DetailsFile D) := do
  let content ← w.file init.fileName
  let a ← w.mpq content
  DetailsFile.new w bld init.fsId a

/-- `PlayerLobbyDetails` (/repo/src/details.rs:163-181), without the two `tracker_setup_*` members, which the
join leaves `None` (they are in `UserState`). -/
structure PlayerLobby (D : Type) where
  player : PlayerDetails
  slot : LobbySlot
  title : Str
  description : GameDescription
  timeUtc : Int
  timeLocalOffset : Int
  userName : Str
  clanTag : Str
  cacheHandles : List Str
  sha256 : Str
  fileName : Str
  fsId : Nat
  datetime : D
  deriving Repr, DecidableEq

/-- `if let (Some(a), Some(b)) = (lobby_slot.working_set_slot_id, player.working_set_slot_id) && a == b` [/repo/src/details.rs:183-233] -/
def sameSlot (slot : LobbySlot) (p : PlayerDetails) : Bool :=
  match slot.workingSetSlotId, p.workingSetSlotId with
  | some a, some b => decide (a = b)
  | _, _ => false

/-- The loop over the slots with `break` (/repo/src/details.rs:190-201). -/
def slotIndex (p : PlayerDetails) : Nat → List LobbySlot → Option Nat
  | _, [] => none
  | i, s :: ss => if sameSlot s p then some i else slotIndex p (i + 1) ss

/-- The row of one player (/repo/src/details.rs:189-228); `slots[slot_idx]` cannot be out of range, as the
index was found in that list. -/
def lobbyRow {D : Type} (init : InitFile) (det : DetailsFile D) (p : PlayerDetails) : Option (PlayerLobby D) :=
  match slotIndex p 0 init.sync.lobby.slots with
  | none => none
  | some i =>
    match init.sync.lobby.slots[i]? with
    | none => none
    | some slot => some
      { player := p
        slot := slot
        title := det.details.title
        description := init.sync.description
        timeUtc := det.details.timeUtc
        timeLocalOffset := det.details.timeLocalOffset
        userName := match init.sync.users[i]? with
          | some u => u.name
          | none => []
        clanTag := match init.sync.users[i]? with
          | some u => u.clanTag.getD []
          | none => []
        cacheHandles := det.details.cacheHandles
        sha256 := init.sha256
        fileName := init.fileName
        fsId := det.fsId
        datetime := det.datetime }

/-- `TryFrom<&InitData> for Vec<PlayerLobbyDetails>` (/repo/src/details.rs:183-233) -/
def lobbyJoin {D : Type} (w : World D) (bld : Build) (init : InitFile) : Res (List (PlayerLobby D)) := do
  let det ← DetailsFile.ofInit w bld init
  pure (det.details.playerList.filterMap (lobbyRow init det))

/-- `user_state.insert(user_id, …)`: replaces the value of a key that is there. [/repo/src/state/mod.rs:251-255] -/
def insertUser (users : List (Int × UserState)) (id : Int) (v : UserState) : List (Int × UserState) :=
  match users with
  | [] => [(id, v)]
  | (k, u) :: rest => if k = id then (k, v) :: rest else (k, u) :: insertUser rest id v

/-- The loop over the players of `TryFrom<&InitData> for SC2ReplayState` (/repo/src/state/mod.rs:251-255). -/
def userStates {D : Type} : List (PlayerLobby D) → List (Int × UserState) → List (Int × UserState)
  | [], users => users
  | p :: ps, users =>
    match p.slot.userId with
    | some id => userStates ps (insertUser users id (UserState.new p.player.name))
    | none => userStates ps users

/-- The balance data of all versions: entries of `HashMap<(u32, String), VersionedBalanceUnit>` in iteration
order. [/repo/src/state/mod.rs:335] -/
abbrev BalTable := List ((Int × Str) × BalUnit)

/-- `filter_map(…).collect::<HashMap<…>>()` (/repo/src/state/mod.rs:345-354): a later entry of the same name
would replace an earlier one. -/
def balanceOf (version : Int) : BalTable → BalUnits
  | [], _ => none
  | ((v, name), u) :: rest, n =>
    match balanceOf version rest n with
    | some u' => some u'
    | none => if v = version ∧ name = n then some u else none

/-- `SC2EventIterator::new` (/repo/src/state/mod.rs:333-369; `TryFrom<&InitData> for SC2ReplayState`, 245-262,
reads the details twice).  The protocol version of the iterator is `init.version`. -/
def openIterator {D : Type} (w : World D) (bld : Build) (init : InitFile) (table : BalTable)
    (filters : Option Filters) : Res MState := do
  let content ← w.file init.fileName
  let a ← w.mpq content
  let trk ← a.sector "replay.tracker.events"
  let game ← a.sector "replay.game.events"
  let _ ← DetailsFile.ofInit w bld init
  let players ← lobbyJoin w bld init
  let sc2 : SState := ⟨fun _ => none, userStates players [], balanceOf init.version table⟩
  pure (MState.new sc2 trk game filters)

/-- `set_player_id_from_user_name` (/repo/src/filters.rs:39-45) -/
def Filters.setPlayerFromName (f : Filters) (username : Str) : List PlayerDetails → Filters
  | [] => f
  | p :: ps =>
    Filters.setPlayerFromName (if p.name = username then { f with playerId := p.workingSetSlotId } else f) username ps

end S2
