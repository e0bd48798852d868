import Verif.State.Merged
/-!
# Vocabulary for statements about the replay state
-/
namespace S2

/-- The state after a history of events (tracker and game events in any order). -/
def runEvents (bld : Build) : SState → List SEvent → Res SState
  | s, [] => .ok s
  | s, e :: es => match transition bld s e with
    | .ok (s', _) => runEvents bld s' es
    | .err x => .err x
    | .panic => .panic

/-- What an event says about the life of a unit: `(index, true)` for born / init / type change,
`(index, false)` for died. -/
def lifeCycle : SEvent → Option (Int × Bool)
  | .tracker _ (.unitBorn e) => some (e.unitTagIndex, true)
  | .tracker _ (.unitInit e) => some (e.unitTagIndex, true)
  | .tracker _ (.unitTypeChange e) => some (e.unitTagIndex, true)
  | .tracker _ (.unitDied e) => some (e.unitTagIndex, false)
  | _ => none

/-- The last thing a history says about the life of unit `k`. -/
def lastLife (k : Int) (es : List SEvent) : Option Bool :=
  ((es.filterMap lifeCycle).filter (fun p => p.1 = k)).getLast?.map Prod.snd

/-- A user's control group `i`. -/
def groupOf (s : SState) (user : Int) (i : Nat) : Option (List Int) :=
  (getUser s.users user).bind (fun u => u.groups[i]?)

/-- Every user has exactly the eleven control groups, and appears once. -/
def SState.Wf (s : SState) : Prop :=
  (s.users.map Prod.fst).Nodup ∧ ∀ p ∈ s.users, p.2.groups.length = 11

/-- A new replay state: no units, users with eleven empty control groups
(/repo/src/state/mod.rs:245-262). -/
def SState.initial (players : List (Int × Str)) (bal : BalUnits) : SState :=
  ⟨fun _ => none, players.map (fun p => (p.1, UserState.new p.2)), bal⟩

end S2
