import Verif.Events.Convert
import Verif.Gen.P87702ByteAligned
import Verif.Gen.P87702BitPacked
import Verif.Gen.P75689BitPacked
/-!
# Reading event streams

The event lists (`read_tracker_events`, `read_events`) and the lazy iterators
(`TrackertEventIteratorState`, `GameEventIteratorState`).  Input is the content of the MPQ sector.

A Rust `loop` is recursion on a step budget; `none` means "still running".
-/
namespace S2

/-- `match delta { SVarUint32::MUint6(val) => …, … }`: the payload of whichever variant. [/repo/src/versions/protocol87702/events/game/mod.rs:27-32] -/
def deltaOf : Val → Res Int
  | .choice _ (.int d) => .ok d
  | _ => .panic

/-- `user_id.m_user_id` [/repo/src/versions/protocol87702/events/game/mod.rs:35] -/
def userIdOf : Val → Res Int
  | .struct [.int u] => .ok u
  | _ => .panic

/-- `ReplayTrackerEEventId::parse_event_pair`
(/repo/src/versions/protocol87702/events/tracker/mod.rs:13-24; protocol 75689 re-exports the type). -/
def parsePair (bld : Build) (i : List UInt8) : Res (List UInt8 × (Int × Val)) := do
  let (tail, delta) ← vparse bld P87702.ByteAligned.SVarUint32 i
  let (tail, event) ← vparse bld P87702.ByteAligned.ReplayTrackerEEventId tail
  let delta ← deltaOf delta
  pure (tail, (delta, event))

/-- `parse_event_triplet` for the event type `ty`
(/repo/src/versions/protocol87702/events/game/mod.rs:19-36, /repo/src/versions/protocol87702/events/message/mod.rs:9-26,
/repo/src/versions/protocol75689/mod.rs:1201-1217). -/
def parseTriplet (bld : Build) (ty : BTy) (c : Cur) : Res (Cur × (Int × Int × Val)) := do
  let (tail, delta) ← bparse bld P87702.BitPacked.SVarUint32 c
  let (tail, userId) ← bparse bld P87702.BitPacked.ReplaySGameUserId tail
  let (tail, event) ← bparse bld ty tail
  let delta ← deltaOf delta
  let (tail, _) ← byteAlign tail
  let userId ← userIdOf userId
  pure (tail, (delta, userId, event))

/-- `0..=75689 => protocol75689…, _ => protocol87702…`: the game event type of a protocol version
(/repo/src/game_events/iterator.rs:44-72, /repo/src/versions/mod.rs:58-63). -/
def gameEventTy (version : Nat) : BTy :=
  if version ≤ 75689 then P75689.BitPacked.GameEEventId else P87702.BitPacked.GameEEventId

/-- The loop of `read_tracker_events` / `read_events`: parse (errors propagate), convert (conversion
errors skip the event), stop when the slice is empty
(/repo/src/versions/protocol87702/events/tracker/mod.rs:34-49, /repo/src/versions/protocol87702/events/game/mod.rs:45-64,
/repo/src/versions/protocol87702/events/message/mod.rs:38-59). -/
def readLoop {σ α β : Type} (step : σ → Res (σ × α)) (conv : α → Res β) (empty : σ → Bool) :
    Nat → σ → List β → Option (Res (List β))
  | 0, _, _ => none
  | n + 1, s, res =>
    match step s with
    | .err e => some (.err e)
    | .panic => some .panic
    | .ok (s', a) =>
      match conv a with
      | .panic => some .panic
      | .ok b => if empty s' then some (.ok (res ++ [b])) else readLoop step conv empty n s' (res ++ [b])
      | .err _ => if empty s' then some (.ok res) else readLoop step conv empty n s' res

/-- `TrackerEvent { delta, event }` from a parsed pair. [/repo/src/versions/protocol87702/events/tracker/mod.rs:34-49] -/
def convPair (p : Int × Val) : Res (Int × TrackerEvt) := do
  let e ← convTracker p.2
  pure (p.1, e)

/-- `GameEvent { delta, user_id, event }` / `MessageEvent { … }` from a parsed triplet. [/repo/src/versions/protocol87702/events/game/mod.rs:52-61] -/
def convTriplet {ε : Type} (conv : Val → Res ε) (p : Int × Int × Val) : Res (Int × Int × ε) := do
  let e ← conv p.2.2
  pure (p.1, p.2.1, e)

/-- `read_tracker_events` on the sector content, for `n` rounds of its loop
(/repo/src/versions/protocol87702/events/tracker/mod.rs:27-50). -/
def readTrackerEvents (bld : Build) (n : Nat) (data : List UInt8) : Option (Res (List (Int × TrackerEvt))) :=
  readLoop (parsePair bld) convPair List.isEmpty n data []

/-- `GameEEventId::read_events` (/repo/src/versions/protocol87702/events/game/mod.rs:39-66,
/repo/src/versions/protocol75689/mod.rs:1220-1251). -/
def readGameEvents (bld : Build) (version n : Nat) (data : List UInt8) :
    Option (Res (List (Int × Int × GameEvt))) :=
  readLoop (parseTriplet bld (gameEventTy version)) (convTriplet convGame) (fun c => c.bytes.isEmpty) n ⟨data, 0⟩ []

/-- `GameEMessageId::read_events` (/repo/src/versions/protocol87702/events/message/mod.rs:29-60; protocol
75689 re-exports the type). -/
def readMessageEvents (bld : Build) (n : Nat) (data : List UInt8) : Option (Res (List (Int × Int × ChatEvt))) :=
  readLoop (parseTriplet bld P87702.BitPacked.GameEMessageId) (convTriplet convMessage)
    (fun c => c.bytes.isEmpty) n ⟨data, 0⟩ []

/-- `TrackertEventIteratorState` / `GameEventIteratorState`
(/repo/src/tracker_events/iterator.rs:13-21, /repo/src/game_events/iterator.rs:15-25).  The tracker
iterator has no `bit_index`; here it keeps 0.  `event_loop: i64` is an unbounded integer:
`C32_loop_bound` shows it stays far below `2^63`. -/
structure IterState where
  data : List UInt8
  eventLoop : Int
  byteIndex : Nat
  bitIndex : Nat
  deriving DecidableEq, Repr

/-- `From<Vec<u8>>` (/repo/src/tracker_events/iterator.rs:23-31, /repo/src/game_events/iterator.rs:27-36). -/
def IterState.new (data : List UInt8) : IterState := ⟨data, 0, 0, 0⟩

/-- `&self.event_data[self.byte_index..]` [/repo/src/tracker_events/iterator.rs:66-93, /repo/src/game_events/iterator.rs:41-77] -/
def IterState.slice (st : IterState) : List UInt8 := st.data.drop st.byteIndex

/-- `read_versioned_tracker_event` (/repo/src/tracker_events/iterator.rs:35-61).  The method takes
`&mut self`: the state after a failing conversion is the advanced one.  `tail.as_ptr() - slice.as_ptr()`
is the number of bytes consumed. -/
def readVersionedTrackerEvent (bld : Build) (st : IterState) : Res TrackerEvt × IterState :=
  match parsePair bld st.slice with
  | .err e => (.err e, st)
  | .panic => (.panic, st)
  | .ok (tail, (delta, event)) =>
    (convTracker event,
      { st with byteIndex := st.byteIndex + (st.slice.length - tail.length),
                eventLoop := st.eventLoop + delta })

/-- `read_versioned_game_event` (/repo/src/game_events/iterator.rs:41-77). -/
def readVersionedGameEvent (bld : Build) (version : Nat) (st : IterState) : Res (Int × GameEvt) × IterState :=
  match parseTriplet bld (gameEventTy version) ⟨st.slice, st.bitIndex⟩ with
  | .err e => (.err e, st)
  | .panic => (.panic, st)
  | .ok (tail, (delta, userId, event)) =>
    ((do
      let e ← convGame event
      pure (userId, e)),
      { st with byteIndex := st.byteIndex + (st.slice.length - tail.bytes.length),
                bitIndex := tail.off,
                eventLoop := st.eventLoop + delta })

/-- The loop of `get_next_event` (/repo/src/tracker_events/iterator.rs:66-93,
/repo/src/game_events/iterator.rs:81-132): unsupported events are skipped, any other error ends the
call with `None`.  A `Some` carries the accumulated loop. -/
def nextLoop {β : Type} (step : IterState → Res β × IterState) :
    Nat → IterState → Option (Res (Option (Int × β)) × IterState)
  | 0, _ => none
  | n + 1, st =>
    if st.slice.isEmpty then some (.ok none, st)
    else
      match step st with
      | (.ok b, st') => some (.ok (some (st'.eventLoop, b)), st')
      | (.panic, st') => some (.panic, st')
      | (.err .unsupportedEvent, st') => nextLoop step n st'
      | (.err _, st') => some (.ok none, st')

/-- `TrackertEventIteratorState::get_next_event`, for `n` rounds of its loop. [/repo/src/tracker_events/iterator.rs:66-93] -/
def trackerNext (bld : Build) (n : Nat) (st : IterState) : Option (Res (Option (Int × TrackerEvt)) × IterState) :=
  nextLoop (readVersionedTrackerEvent bld) n st

/-- `GameEventIteratorState::get_next_event`, without the player name lookup (added by the caller). [/repo/src/game_events/iterator.rs:79-134] -/
def gameNext (bld : Build) (version n : Nat) (st : IterState) :
    Option (Res (Option (Int × (Int × GameEvt))) × IterState) :=
  nextLoop (readVersionedGameEvent bld version) n st

end S2
