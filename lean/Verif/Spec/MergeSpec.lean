import Verif.Spec.StateSpec
/-!
# Vocabulary for statements about the combined iterator
-/
namespace S2

/-- `c` is an interleaving of `a` and `b`: both in full, each in its own order. -/
inductive Interleaving {α : Type} : List α → List α → List α → Prop
  | nil : Interleaving [] [] []
  | left {x : α} {a b c : List α} : Interleaving a b c → Interleaving (x :: a) b (x :: c)
  | right {x : α} {a b c : List α} : Interleaving a b c → Interleaving a (x :: b) (x :: c)

/-- Processing a list of events one after the other: the reported items and the final state. -/
def runItems (bld : Build) : SState → List SEvent → Res (List Item × SState)
  | s, [] => .ok ([], s)
  | s, e :: es =>
    match transition bld s e with
    | .ok (s', it) => match runItems bld s' es with
      | .ok (its, s'') => .ok (it :: its, s'')
      | .err x => .err x
      | .panic => .panic
    | .err x => .err x
    | .panic => .panic

/-- The name of a user. -/
def userName (s : SState) (w : Int) : Option Str := (getUser s.users w).map UserState.name

/-- A tracker event of the tracker stream. -/
def trackerSEvent (p : Int × TrackerEvt) : SEvent := .tracker p.1 p.2

/-- A game event of the game stream with the name of its user in `s`. -/
def gameSEvent (s : SState) (p : Int × (Int × GameEvt)) : SEvent := .game p.1 p.2.1 (userName s p.2.1) p.2.2

/-- The game loop of an event. -/
def SEvent.time : SEvent → Int
  | .tracker l _ => l
  | .game l _ _ _ => l

/-- Is it a tracker event? -/
def SEvent.isTracker : SEvent → Bool
  | .tracker _ _ => true
  | .game _ _ _ _ => false

end S2
