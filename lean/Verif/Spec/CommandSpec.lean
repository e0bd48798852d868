import Verif.Spec.StateSpec
import Verif.Spec.AbilitySpec
/-!
# What commands and positions a unit should have

Independent of the handlers' loops: what one event says about one unit.
-/
namespace S2

/-- The map point a coordinate of a game event denotes: coordinates are 1/4096 of a map cell, and the second
axis points the other way. -/
def pointOf (c : MapCoord) : Vec3 := ⟨(c.x : Rat) / 4096, (-c.y : Rat) / 4096, (c.z : Rat) / 4096⟩

/-- The command `e` as stored on a unit of type `name`: the event's own flags, ability numbers, target,
sequence number, other unit and unit group, with the ability's name as that unit type knows it. `target` is
the type of the target unit. -/
def commandFor (bal : BalUnits) (name : Str) (target : Option Str) (e : CmdEvent) (a : CmdAbil) : UnitCmd where
  cmdFlags := e.cmdFlags
  abil := some ⟨a.abilLink, abilityName bal name a.abilLink a.abilCmdIndex, a.abilCmdIndex, a.abilCmdData⟩
  data := match e.data with
    | .none => .none
    | .targetPoint p => .targetPoint p.toVec
    | .targetUnit u => .targetUnit u.toUnitCmd
    | .data d => .data d
  sequence := e.sequence
  otherUnit := e.otherUnit
  otherUnitName := target
  unitGroup := e.unitGroup

/-- How a game event changes the command of a *selected* unit of type `name` whose command was `c`.
`units` are the units before the event. -/
def orderedBy (bal : BalUnits) (units : Units) (name : Str) (c : UnitCmd) : GameEvt → UnitCmd
  | .cmd e => match e.abil with
    | some a => commandFor bal name
        (match e.data with
          | .targetUnit t => (units t.tag).map SUnit.name
          | _ => none) e a
    | none => c
  | .cmdUpdateTargetPoint p => { c with data := .targetPoint p.toVec, otherUnit := none }
  | .cmdUpdateTargetUnit t =>
    if (units t.tag).isSome ∨ (units (tagIndex t.tag)).isSome then { c with data := .targetUnit t.toUnitCmd } else c
  | _ => c

/-- The unit indexes a user has selected (the active selection is control group 10). -/
def selectionOf (s : SState) (user : Int) : List Int := ((groupOf s user 10).getD []).map tagIndex

/-- `e` changes the command of unit `k` when it happens in state `s`. -/
def Commands (s : SState) (k : Int) : SEvent → Prop
  | .game _ user _ (.cmd e) => e.abil.isSome ∧ k ∈ selectionOf s user
  | .game _ user _ (.cmdUpdateTargetPoint _) => k ∈ selectionOf s user
  | .game _ user _ (.cmdUpdateTargetUnit t) =>
    k ∈ selectionOf s user ∧ ((s.units t.tag).isSome ∨ (s.units (tagIndex t.tag)).isSome)
  | _ => False

/-- The entries of a position event: unit index (first index plus the deltas so far), x and y in map cells. -/
def entriesOf : Int → List Int → List (Int × Int × Int)
  | first, d :: x :: y :: rest => (first + d, x, y) :: entriesOf (first + d) rest
  | _, _ => []

/-- The last position a list of entries gives for unit `k`. -/
def lastEntry (k : Int) : List (Int × Int × Int) → Option Vec3
  | [] => none
  | (i, x, y) :: rest => (lastEntry k rest).or (if i = k then some ⟨x, y, 0⟩ else none)

/-- How an event changes the position of unit `k` (`none`: not in the game): a birth or construction puts a
new unit at the event's place, a construction event also moves a known unit, a unit first heard of in a type
change is at the origin, a death removes it, and a position event moves the units it lists. -/
def placeStep (k : Int) (p : Option Vec3) : SEvent → Option Vec3
  | .tracker _ (.unitBorn e) => if e.unitTagIndex = k then some (p.getD ⟨e.x, e.y, 0⟩) else p
  | .tracker _ (.unitInit e) => if e.unitTagIndex = k then some ⟨e.x, e.y, 0⟩ else p
  | .tracker _ (.unitTypeChange e) => if e.unitTagIndex = k then some (p.getD ⟨0, 0, 0⟩) else p
  | .tracker _ (.unitDied e) => if e.unitTagIndex = k then none else p
  | .tracker _ (.unitPosition e) => p.map (fun old => (lastEntry k (entriesOf e.firstUnitIndex e.items)).getD old)
  | _ => p

/-- Position events whose unit indexes fit in 31 bits and whose coordinates fit in 22 bits and a sign (the
game's maps have at most 256 cells a side). -/
def PlainPositions : SEvent → Prop
  | .tracker _ (.unitPosition e) => 0 ≤ e.firstUnitIndex ∧ e.firstUnitIndex < 2 ^ 31 ∧
    ∀ p ∈ entriesOf e.firstUnitIndex e.items,
      0 ≤ p.1 ∧ p.1 < 2 ^ 31 ∧ -(2 ^ 22) < p.2.1 ∧ p.2.1 < 2 ^ 22 ∧ -(2 ^ 22) < p.2.2 ∧ p.2.2 < 2 ^ 22
  | _ => True

/-- The map points in a game event that end up in unit commands. -/
def commandPoints : GameEvt → List MapCoord
  | .cmd e => match e.data with
    | .targetPoint c => [c]
    | .targetUnit u => [u.snapshotPoint]
    | _ => []
  | .cmdUpdateTargetPoint c => [c]
  | .cmdUpdateTargetUnit u => [u.snapshotPoint]
  | _ => []

end S2
