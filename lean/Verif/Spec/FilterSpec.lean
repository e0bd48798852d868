import Verif.State.Merged
/-!
# What the filters of the combined iterator let through

A specification of `SC2ReplayFilters` in terms of the fields of the events, independent of the `should_skip`
functions of the code.
-/
namespace S2

/-- The loop window applies to tracker events only; both ends belong to it. -/
def InWindow (f : Filters) : SEvent → Prop
  | .tracker l _ => (∀ a, f.minLoop = some a → a ≤ l) ∧ (∀ b, f.maxLoop = some b → l ≤ b)
  | .game _ _ _ _ => True

/-- The event belongs to player `p`: the player of the statistics, upgrade or set-up, the controlling player
of a birth, a construction start or an ownership change, the killer of a death; type changes, finished
constructions and position reports name no player and pass; a game event belongs to its user (whose number
the code reduces to 8 bits). -/
def OfPlayer (p : Int) : SEvent → Prop
  | .tracker _ (.playerStats q _) => q = p
  | .tracker _ (.unitBorn e) => e.controlPlayerId = p
  | .tracker _ (.unitDied e) => e.killerPlayerId = some p
  | .tracker _ (.unitOwnerChange e) => e.controlPlayerId = p
  | .tracker _ (.unitTypeChange _) => True
  | .tracker _ (.upgrade e) => e.playerId = p
  | .tracker _ (.unitInit e) => e.controlPlayerId = p
  | .tracker _ (.unitDone _) => True
  | .tracker _ (.unitPosition _) => True
  | .tracker _ (.playerSetup e) => e.playerId = p
  | .game _ u _ _ => u % 256 = p

/-- The event names no unit type, or names `n`. -/
def OfUnitType (n : Str) : SEvent → Prop
  | .tracker _ (.unitBorn e) => e.unitTypeName = n
  | .tracker _ (.unitInit e) => e.unitTypeName = n
  | .tracker _ (.unitTypeChange e) => e.unitTypeName = n
  | _ => True

/-- The event is one the filters let through. -/
def Wanted (f : Filters) (e : SEvent) : Prop :=
  InWindow f e ∧ (∀ p, f.playerId = some p → OfPlayer p e) ∧ (∀ n, f.unitName = some n → OfUnitType n e) ∧
  (∀ l p st, e = .tracker l (.playerStats p st) → f.includeStats = true)

end S2
