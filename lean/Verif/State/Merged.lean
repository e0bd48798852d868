import Verif.State.Tracker
import Verif.State.Game
import Verif.Events.Read
/-! # The combined iterator and its filters (/repo/src/state/mod.rs, /repo/src/filters.rs) -/
namespace S2

/-- `SC2ReplayFilters` (/repo/src/filters.rs:11-35) -/
structure Filters where
  playerId : Option Int
  unitTag : Option Int
  minLoop : Option Int
  maxLoop : Option Int
  eventType : Option Str
  unitName : Option Str
  maxEvents : Option Nat
  includeStats : Bool
  deriving DecidableEq, Repr

/-- `SC2ReplayFilters::default()` [/repo/src/filters.rs:1-64] -/
def Filters.default : Filters := ⟨none, none, none, none, none, none, none, false⟩

/-- `decrease_allowed_event_counter` (/repo/src/filters.rs:48-54) -/
def Filters.decrease (f : Filters) : Filters :=
  match f.maxEvents with
  | some m => if m > 0 then { f with maxEvents := some (m - 1) } else f
  | none => f

/-- `is_max_event_reached` (/repo/src/filters.rs:56-63) -/
def Filters.maxReached (f : Filters) : Bool :=
  match f.maxEvents with
  | some m => m == 0
  | none => false

/-- `SC2EventType` (/repo/src/state/mod.rs:106-117) -/
inductive SEvent
  | tracker (loop : Int) (e : TrackerEvt)
  | game (loop userId : Int) (playerName : Option Str) (e : GameEvt)
  deriving DecidableEq, Repr

/-- A filter of the form `if let Some(x) = filters.field && self.value != x { return true; }`. [/repo/src/tracker_events/unit_born.rs:31-43 and the other `should_skip_event`s] -/
def differs {α : Type} [DecidableEq α] (filter : Option α) (value : α) : Bool :=
  match filter with
  | some x => decide (value ≠ x)
  | none => false

/-- `ReplayTrackerEvent::should_skip` (/repo/src/tracker_events/mod.rs:74-87) and the `should_skip` of each
event type (/repo/src/tracker_events/player_stats.rs:21-31, /repo/src/tracker_events/unit_born.rs:31-43, /repo/src/tracker_events/unit_died.rs:27-35, /repo/src/tracker_events/unit_owner_change.rs:21-28,
/repo/src/tracker_events/unit_type_change.rs:21-28, /repo/src/tracker_events/player_upgrade.rs:22-29, /repo/src/tracker_events/unit_init.rs:26-38, /repo/src/tracker_events/unit_done.rs:21-24,
/repo/src/tracker_events/unit_positions.rs:55-59, /repo/src/tracker_events/player_setup.rs:22-29). -/
def TrackerEvt.shouldSkip (f : Filters) : TrackerEvt → Bool
  | .playerStats p _ => differs f.playerId p || !f.includeStats
  | .unitBorn e => differs f.playerId e.controlPlayerId || differs f.unitName e.unitTypeName
  | .unitDied e => match f.playerId with
    | some p => decide (e.killerPlayerId ≠ some p)
    | none => false
  | .unitOwnerChange e => differs f.playerId e.controlPlayerId
  | .unitTypeChange e => differs f.unitName e.unitTypeName
  | .upgrade e => differs f.playerId e.playerId
  | .unitInit e => differs f.playerId e.controlPlayerId || differs f.unitName e.unitTypeName
  | .unitDone _ => false
  | .unitPosition _ => false
  | .playerSetup e => differs f.playerId e.playerId

/-- `SC2EventType::should_skip` (/repo/src/state/mod.rs:121-134); `ReplayGameEvent::should_skip` is
`false` (/repo/src/game_events/mod.rs:87-90).  `*user_id as u8` reduces modulo 256. -/
def SEvent.shouldSkip (f : Filters) : SEvent → Bool
  | .tracker _ e => e.shouldSkip f
  | .game _ user _ _ => differs f.playerId (asU 8 user)

/-- `shoud_skip_event` (/repo/src/state/mod.rs:603-619) -/
def shouldSkipEvent (f : Filters) (e : SEvent) : Bool :=
  (match f.minLoop, e with
    | some m, .tracker l _ => decide (l < m)
    | _, _ => false) ||
  (match f.maxLoop, e with
    | some m, .tracker l _ => decide (l > m)
    | _, _ => false) ||
  e.shouldSkip f

/-- `SC2EventIteratorItem` (/repo/src/state/mod.rs:585-590) -/
structure Item where
  event : SEvent
  hint : Hint
  deriving DecidableEq, Repr

/-- `handle_transition_to_next_event` (/repo/src/state/mod.rs:276-310) -/
def transition (bld : Build) (s : SState) : SEvent → Res (SState × Item)
  | .tracker l e => do
    let (s', e', h) ← handleTracker bld s l e
    pure (s', ⟨.tracker l e', h⟩)
  | .game l user name e => do
    let (s', e', h) ← handleGame s l user e
    pure (s', ⟨.game l user name e', h⟩)

/-- `SC2EventIterator` (/repo/src/state/mod.rs:315-328).  `nextT`/`nextG` hold the pre-fetched events; of a
game event: loop, user id, player name, event. -/
structure MState where
  sc2 : SState
  trk : IterState
  game : IterState
  nextT : Option (Int × TrackerEvt)
  nextG : Option (Int × (Int × Option Str × GameEvt))
  filters : Option Filters

/-- A fresh iterator over the two sectors (/repo/src/state/mod.rs:362-375). -/
def MState.new (sc2 : SState) (trk game : List UInt8) (f : Option Filters) : MState :=
  ⟨sc2, IterState.new trk, IterState.new game, none, none, f⟩

/-- "Fill the next_tracker_event if empty" (/repo/src/state/mod.rs:676-681).  The inner call is given
enough rounds: one per remaining byte (`C33_tracker_call_terminates`). -/
def fillT (bld : Build) (m : MState) : Res MState :=
  match m.nextT with
  | some _ => .ok m
  | none =>
    match trackerNext bld (m.trk.data.length + 1) m.trk with
    | some (.ok x, st) => .ok { m with nextT := x, trk := st }
    | some (.err e, _) => .err e
    | some (.panic, _) => .panic
    | none => .panic

/-- "Likewise, fill the next game event" (/repo/src/state/mod.rs:682-689); the player name is looked up
when the event is fetched (/repo/src/game_events/iterator.rs:103-115). -/
def fillG (bld : Build) (version : Nat) (m : MState) : Res MState :=
  match m.nextG with
  | some _ => .ok m
  | none =>
    match gameNext bld version (m.game.data.length + 1) m.game with
    | some (.ok none, st) => .ok { m with nextG := none, game := st }
    | some (.ok (some (l, user, e)), st) =>
      .ok { m with nextG := some (l, user, (getUser m.sc2.users user).map UserState.name, e), game := st }
    | some (.err e, _) => .err e
    | some (.panic, _) => .panic
    | none => .panic

/-- Which event comes next (/repo/src/state/mod.rs:690-713); `TRACKER_SPEED_RATIO` is 1. -/
def pick (m : MState) : Option (SEvent × MState) :=
  match m.nextT, m.nextG with
  | some (tl, te), some (gl, user, name, ge) =>
    if tl < f32ToI64 (f32OfInt gl) then some (.tracker tl te, { m with nextT := none })
    else some (.game gl user name ge, { m with nextG := none })
  | none, some (gl, user, name, ge) => some (.game gl user name ge, { m with nextG := none })
  | some (tl, te), none => some (.tracker tl te, { m with nextT := none })
  | none, none => none

/-- One round of the loop in `next` up to and including the state transition
(/repo/src/state/mod.rs:675-714): `none` when both streams are exhausted. -/
def pull (bld : Build) (version : Nat) (m : MState) : Res (Option Item × MState) := do
  let m ← fillT bld m
  let m ← fillG bld version m
  match pick m with
  | none => pure (none, m)
  | some (e, m') => do
    let (s', item) ← transition bld m'.sc2 e
    pure (some item, { m' with sc2 := s' })

/-- `SC2EventIterator::next` (/repo/src/state/mod.rs:674-729), for `n` rounds of its loop. -/
def mnext (bld : Build) (version : Nat) : Nat → MState → Option (Res (Option Item) × MState)
  | 0, _ => none
  | n + 1, m =>
    match pull bld version m with
    | .err e => some (.err e, m)
    | .panic => some (.panic, m)
    | .ok (none, m') => some (.ok none, m')
    | .ok (some item, m') =>
      match m'.filters with
      | none => some (.ok (some item), m')
      | some f =>
        if shouldSkipEvent f item.event then mnext bld version n m'
        else
          let f' := f.decrease
          let m'' := { m' with filters := some f' }
          if f'.maxReached then some (.ok none, m'') else some (.ok (some item), m'')

end S2
