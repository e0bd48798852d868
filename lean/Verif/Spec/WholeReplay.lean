import Verif.Spec.HeaderLayout
import Verif.Spec.GameLayout
import Verif.Spec.InitLayout
import Verif.Spec.GameHeard
/-!
# A whole replay written by the published description

Header, tracker events, game events, chat, details and init data, each by its published layout, put into an archive.
-/
namespace S2.Published

/-- What is in a replay.  `hidden` and the two lists of handles and `slots` are what the files carry and the library does not hand out.
[specification] -/
structure Replay where
  header : Header
  tracker : List (Int × TrackerEvt)
  game : List (Int × Int × GameEvt)
  chat : List (Int × Int × ChatEvt)
  details : Details
  hidden : PlayerDetails → Str
  detailHandles : List Str
  init : LobbySync
  slots : List (SlotDescription × SlotBits)
  initHandles : List (List UInt8)

/-- The version that decides the layout of the game events. [specification] -/
def Replay.version (r : Replay) : Nat := r.header.version.baseBuild.toNat

/-- Every number is in the range of the description, every text fits, no event file is empty, and the game events are such that the
reader finds their ends (see C178). [specification] -/
structure Replay.Fits (r : Replay) : Prop where
  header : HeaderFits r.header
  signature : r.header.signature = str "StarCraft II replay" ++ [27, 49, 49]
  tracker : r.tracker ≠ [] ∧ ∀ p ∈ r.tracker, U32 p.1 ∧ S2.Published.Fits p.2
  game : r.game ≠ [] ∧ ∀ p ∈ r.game, GameItemFits r.version p ∧ Ends p
  chat : r.chat ≠ [] ∧ ∀ p ∈ r.chat, ChatItemFits p
  details : DetailsFit r.hidden r.detailHandles r.details
  init : InitFits r.slots r.initHandles r.init

/-- The archive holds this replay: the members of header and details in any order, and anything after header, details and init data.
[specification] -/
def Replay.In (r : Replay) (a : Archive) : Prop :=
  (∃ ms rest, ms.Perm (headerMembers r.header) ∧ a.userData = some (numbered ms ++ rest)) ∧
  a.sector "replay.tracker.events" = .ok (r.tracker.flatMap trackerItem) ∧
  a.sector "replay.game.events" = .ok (r.game.flatMap (gameItem r.version)) ∧
  a.sector "replay.message.events" = .ok (r.chat.flatMap chatItem) ∧
  (∃ ms rest, ms.Perm (detailsMembers r.hidden r.detailHandles r.details) ∧ a.sector "replay.details" = .ok (numbered ms ++ rest)) ∧
  (∃ rest, a.sector "replay.initData" = .ok (pack (initData r.slots r.initHandles r.init 0) ++ rest))

/-- The bytes of the three event files together. [specification] -/
def Replay.eventBytes (r : Replay) : Nat :=
  (r.tracker.flatMap trackerItem).length + (r.game.flatMap (gameItem r.version)).length + (r.chat.flatMap chatItem).length

end S2.Published
