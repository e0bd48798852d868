import Verif.Misc.Details
import Verif.Misc.Hex
import Verif.Spec.TrackerLayout
import Verif.Spec.ByteAlignedEnc
/-!
# The published layout of the details of a replay

Written from the published description of the format (Blizzard's `s2protocol`), independently of the parser and of the types
extracted from it: the number of each member, and how each kind of value is written.
-/
namespace S2.Published

/-- A truth value: `06`, then a byte. [specification] -/
def truth (b : Bool) : List UInt8 := [6, if b then 1 else 0]
/-- A four-letter code: `07`, then its four bytes. [specification] -/
def letters (x : Int) : List UInt8 := 7 :: be4 x.toNat
/-- An array: `00`, how many, the items. [specification] -/
def array {α : Type} (f : α → List UInt8) (xs : List α) : List UInt8 := 0 :: (encVlq xs.length ++ xs.flatMap f)
/-- A structure whose members have the given numbers. [specification] -/
def numbered (members : List (Int × List UInt8)) : List UInt8 :=
  5 :: (encVlq members.length ++ members.flatMap (fun m => encVlq m.1 ++ m.2))

/-- The outcomes, in the order of their numbers. [specification] -/
def outcomes : List Str := [str "Undecided", str "Win", str "Loss", str "Tie"]
/-- The game speeds, in the order of their numbers. [specification] -/
def speeds : List Str := [str "Slower", str "Slow", str "Normal", str "Fast", str "Faster"]

/-- The identity of a player; the file also has the name. [specification] -/
def toon (name : Str) (t : Toon) : List UInt8 := record [num t.region, letters t.programId, num t.realm, text name, num t.id]
/-- A colour. [specification] -/
def colour (c : Color) : List UInt8 := record [num c.a, num c.r, num c.g, num c.b]
/-- A player; `hidden` is the name within the identity, which is not handed out. [specification] -/
def player (hidden : Str) (p : PlayerDetails) : List UInt8 :=
  record [text p.name, toon hidden p.toon, text p.race, colour p.color, num p.control, num p.teamId, num p.handicap, num p.observe,
    num (outcomes.idxOf p.result), maybe num p.workingSetSlotId, text p.hero]

/-- The members of the details with their numbers; `handles` are the cache handles as bytes. [specification] -/
def detailsMembers (hidden : PlayerDetails → Str) (handles : List Str) (d : Details) : List (Int × List UInt8) :=
  [(0, maybe (array (fun p => player (hidden p) p)) (some d.playerList)),
   (1, text d.title), (2, text d.difficulty), (3, record [text d.thumbnail]), (4, truth d.isBlizzardMap), (5, num d.timeUtc),
   (6, num d.timeLocalOffset), (7, text d.description), (8, text d.imageFilePath), (9, text d.mapFileName),
   (10, maybe (array text) (some handles)), (11, truth d.miniSave), (12, num (speeds.idxOf d.gameSpeed)), (13, num d.defaultDifficulty),
   (14, maybe (array text) (some d.modPaths)), (15, num d.campaignIndex), (16, maybe truth d.restartAsTransitionMap),
   (17, truth d.disableRecoverGame)]

/-- A number of 64 bits with sign that the format can write. [specification] -/
def I64 (x : Int) : Prop := -2 ^ 63 < x ∧ x < 2 ^ 63
/-- [specification] -/
def FitsToon (t : Toon) : Prop := U8 t.region ∧ U32 t.programId ∧ U32 t.realm ∧ (0 ≤ t.id ∧ t.id < 2 ^ 63)
/-- [specification] -/
def FitsColour (c : Color) : Prop := U8 c.a ∧ U8 c.r ∧ U8 c.g ∧ U8 c.b
/-- [specification] -/
def FitsPlayer (p : PlayerDetails) : Prop :=
  Txt p.name ∧ FitsToon p.toon ∧ Txt p.race ∧ FitsColour p.color ∧ U8 p.control ∧ U8 p.teamId ∧ U32 p.handicap ∧ (0 ≤ p.observe ∧ p.observe ≤ 2) ∧
    p.result ∈ outcomes ∧ Maybe U8 p.workingSetSlotId ∧ Txt p.hero
/-- The members are in the ranges of the description; the cache handles are handed out as hexadecimal digits. [specification] -/
def DetailsFit (hidden : PlayerDetails → Str) (handles : List Str) (d : Details) : Prop :=
  (d.playerList.length < 2 ^ 63 ∧ ∀ p ∈ d.playerList, FitsPlayer p ∧ (hidden p).length < 2 ^ 63) ∧ Txt d.title ∧ Txt d.difficulty ∧ Txt d.thumbnail ∧
    I64 d.timeUtc ∧ I64 d.timeLocalOffset ∧ Txt d.description ∧ Txt d.imageFilePath ∧ Txt d.mapFileName ∧
    (handles.length < 2 ^ 63 ∧ ∀ h ∈ handles, h.length < 2 ^ 63) ∧ d.cacheHandles = handles.map hexText ∧ d.gameSpeed ∈ speeds ∧
    U32 d.defaultDifficulty ∧ (d.modPaths.length < 2 ^ 63 ∧ ∀ p ∈ d.modPaths, Txt p) ∧ U8 d.campaignIndex

end S2.Published
