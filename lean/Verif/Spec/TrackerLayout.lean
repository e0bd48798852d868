import Verif.Spec.VlqSpec
import Verif.Events.Types
/-!
# The published layout of the tracker events

Written from the published description of the format (Blizzard's `s2protocol`), independently of the
parser and of the types extracted from it: which number announces which event, in which order and under
which tag the members of an event are stored, and how each kind of value is written.
-/
namespace S2.Published

/-- A number: `09`, then the number. [specification] -/
def num (x : Int) : List UInt8 := 9 :: encVlq x
/-- Text: `02`, its length in bytes, the bytes. [specification] -/
def text (s : Str) : List UInt8 := 2 :: (encVlq s.length ++ s)
/-- Something that may be absent: `04 00`, or `04 01` and the thing. [specification] -/
def maybe {α : Type} (f : α → List UInt8) : Option α → List UInt8
  | none => [4, 0]
  | some a => 4 :: 1 :: f a
/-- An array of numbers: `00`, how many, the numbers. [specification] -/
def nums (xs : List Int) : List UInt8 := 0 :: (encVlq xs.length ++ xs.flatMap num)
/-- A structure: `05`, how many members, then each member behind its number, counted from 0. [specification] -/
def record (members : List (List UInt8)) : List UInt8 :=
  5 :: (encVlq members.length ++ members.zipIdx.flatMap (fun p => encVlq p.2 ++ p.1))
/-- An event: its id as a number, then a structure. [specification] -/
def event (id : Int) (members : List (List UInt8)) : List UInt8 := num id ++ record members
/-- The time since the event before: `03`, the size class of the number (6, 14, 22 or 32 bits), the number. [specification] -/
def delta (d : Int) : List UInt8 :=
  3 :: (encVlq (if d < 2 ^ 6 then 0 else if d < 2 ^ 14 then 1 else if d < 2 ^ 22 then 2 else 3) ++ num d)

/-- The numbers of a statistics event, in the order of their tags; supply is stored in 4096ths. [specification] -/
def statValues (s : PlayerStats) : List Int :=
  [s.minerals_current, s.vespene_current, s.minerals_collection_rate,
   s.vespene_collection_rate, s.workers_active_count, s.minerals_used_in_progress_army,
   s.minerals_used_in_progress_economy, s.minerals_used_in_progress_technology, s.vespene_used_in_progress_army,
   s.vespene_used_in_progress_economy, s.vespene_used_in_progress_technology, s.minerals_used_current_army,
   s.minerals_used_current_economy, s.minerals_used_current_technology, s.vespene_used_current_army,
   s.vespene_used_current_economy, s.vespene_used_current_technology, s.minerals_lost_army,
   s.minerals_lost_economy, s.minerals_lost_technology, s.vespene_lost_army,
   s.vespene_lost_economy, s.vespene_lost_technology, s.minerals_killed_army,
   s.minerals_killed_economy, s.minerals_killed_technology, s.vespene_killed_army,
   s.vespene_killed_economy, s.vespene_killed_technology, 4096 * s.food_used,
   4096 * s.food_made, s.minerals_used_active_forces, s.vespene_used_active_forces,
   s.minerals_friendly_fire_army, s.minerals_friendly_fire_economy, s.minerals_friendly_fire_technology,
   s.vespene_friendly_fire_army, s.vespene_friendly_fire_economy, s.vespene_friendly_fire_technology]

/-- The bytes of a tracker event. [specification] -/
def trackerBody : TrackerEvt → List UInt8
  | .playerStats player s => event 0 [num player, record ((statValues s).map num)]
  | .unitBorn e => event 1 [num e.unitTagIndex, num e.unitTagRecycle, text e.unitTypeName, num e.controlPlayerId, num e.upkeepPlayerId,
      num e.x, num e.y, maybe num e.creatorUnitTagIndex, maybe num e.creatorUnitTagRecycle, maybe text e.creatorAbilityName]
  | .unitDied e => event 2 [num e.unitTagIndex, num e.unitTagRecycle, maybe num e.killerPlayerId, num e.x, num e.y,
      maybe num e.killerUnitTagIndex, maybe num e.killerUnitTagRecycle]
  | .unitOwnerChange e => event 3 [num e.unitTagIndex, num e.unitTagRecycle, num e.controlPlayerId, num e.upkeepPlayerId]
  | .unitTypeChange e => event 4 [num e.unitTagIndex, num e.unitTagRecycle, text e.unitTypeName]
  | .upgrade e => event 5 [num e.playerId, text e.upgradeTypeName, num e.count]
  | .unitInit e => event 6 [num e.unitTagIndex, num e.unitTagRecycle, text e.unitTypeName, num e.controlPlayerId, num e.upkeepPlayerId,
      num e.x, num e.y]
  | .unitDone e => event 7 [num e.unitTagIndex, num e.unitTagRecycle]
  | .unitPosition e => event 8 [num e.firstUnitIndex, nums e.items]
  | .playerSetup e => event 9 [num e.playerId, num e.type, maybe num e.userId, maybe num e.slotId]

/-- A tracker event with the time since the event before. [specification] -/
def trackerItem (p : Int × TrackerEvt) : List UInt8 := delta p.1 ++ trackerBody p.2

/-- Eight bits without sign. [specification] -/
def U8 (x : Int) : Prop := 0 ≤ x ∧ x < 2 ^ 8
/-- 32 bits without sign. [specification] -/
def U32 (x : Int) : Prop := 0 ≤ x ∧ x < 2 ^ 32
/-- 32 bits with sign. [specification] -/
def I32 (x : Int) : Prop := -2 ^ 31 ≤ x ∧ x < 2 ^ 31
/-- Text the format can carry. [specification] -/
def Txt (s : Str) : Prop := utf8Ok s = true ∧ s.length < 2 ^ 63
/-- Absent, or with the property. [specification] -/
def Maybe {α : Type} (P : α → Prop) (o : Option α) : Prop := ∀ a, o = some a → P a

/-- The members of the event are in the ranges of the description. [specification] -/
def Fits : TrackerEvt → Prop
  | .playerStats player s => U8 player ∧ ∀ x ∈ statValues s, I32 x
  | .unitBorn e => U32 e.unitTagIndex ∧ U32 e.unitTagRecycle ∧ Txt e.unitTypeName ∧ U8 e.controlPlayerId ∧ U8 e.upkeepPlayerId ∧ U8 e.x ∧ U8 e.y ∧
      Maybe U32 e.creatorUnitTagIndex ∧ Maybe U32 e.creatorUnitTagRecycle ∧ Maybe Txt e.creatorAbilityName
  | .unitDied e => U32 e.unitTagIndex ∧ U32 e.unitTagRecycle ∧ Maybe U8 e.killerPlayerId ∧ U8 e.x ∧ U8 e.y ∧ Maybe U32 e.killerUnitTagIndex ∧
      Maybe U32 e.killerUnitTagRecycle
  | .unitOwnerChange e => U32 e.unitTagIndex ∧ U32 e.unitTagRecycle ∧ U8 e.controlPlayerId ∧ U8 e.upkeepPlayerId
  | .unitTypeChange e => U32 e.unitTagIndex ∧ U32 e.unitTagRecycle ∧ Txt e.unitTypeName
  | .upgrade e => U8 e.playerId ∧ e.playerName = none ∧ Txt e.upgradeTypeName ∧ I32 e.count
  | .unitInit e => U32 e.unitTagIndex ∧ U32 e.unitTagRecycle ∧ Txt e.unitTypeName ∧ U8 e.controlPlayerId ∧ U8 e.upkeepPlayerId ∧ U8 e.x ∧ U8 e.y
  | .unitDone e => U32 e.unitTagIndex ∧ U32 e.unitTagRecycle
  | .unitPosition e => U32 e.firstUnitIndex ∧ e.items.length < 2 ^ 63 ∧ ∀ x ∈ e.items, I32 x
  | .playerSetup e => U8 e.playerId ∧ U32 e.type ∧ Maybe U32 e.userId ∧ Maybe U32 e.slotId

end S2.Published
