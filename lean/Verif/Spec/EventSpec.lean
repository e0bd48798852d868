import Verif.Spec.ByteAlignedSpec
import Verif.Spec.BitPackedSpec
import Verif.Gen.P87702ByteAligned
import Verif.Gen.P87702BitPacked
/-!
# What an event stream is

An event on the wire, in terms of the wire grammars only; a stream is a concatenation of events.
-/
namespace S2

/-- The bytes `u` are one tracker event: a delta, then the event, both byte aligned. -/
def TrackerWire (bld : Build) (e : Int × Val) (u : List UInt8) : Prop :=
  ∃ k u1 u2, u = u1 ++ u2 ∧ VEnc bld P87702.ByteAligned.SVarUint32 (.choice k (.int e.1)) u1 ∧
    VEnc bld P87702.ByteAligned.ReplayTrackerEEventId e.2 u2

/-- The bytes `u` are one game (or message) event: the bits of delta, user id and event one after the
other, padded to the next byte. -/
def TripletWire (bld : Build) (ty : BTy) (e : Int × Int × Val) (u : List UInt8) : Prop :=
  ∃ k b1 b2 b3 pad, bytesBits u = b1 ++ (b2 ++ (b3 ++ pad)) ∧
    BEnc bld P87702.BitPacked.SVarUint32 0 (.choice k (.int e.1)) b1 ∧
    BEnc bld P87702.BitPacked.ReplaySGameUserId (b1.length % 8) (.struct [.int e.2.1]) b2 ∧
    BEnc bld ty ((b1.length + b2.length) % 8) e.2.2 b3 ∧
    pad.length = padLen ((b1.length + b2.length + b3.length) % 8)

/-- `data` is the concatenation of the wire forms of `items`. -/
def Stream {α : Type} (W : α → List UInt8 → Prop) (items : List α) (data : List UInt8) : Prop :=
  match items with
  | [] => data = []
  | a :: rest => ∃ u d, data = u ++ d ∧ W a u ∧ Stream W rest d

/-- Each event with its game loop: the sum of the deltas of all events up to and including it. -/
def stamped {α : Type} (delta : α → Int) (items : List α) : List (Int × α) :=
  items.zipIdx.map (fun p => (((items.take (p.2 + 1)).map delta).sum, p.1))

/-- The value of a successful result. -/
def Res.toOpt {α : Type} : Res α → Option α
  | .ok a => some a
  | _ => none

/-- The events yielded by one iterator call. -/
def yielded {ω : Type} : Res (Option ω) → List ω
  | .ok (some x) => [x]
  | _ => []

/-- Successive calls of an iterator with results `r₁, r₂, …`.  `next n` is a call allowed `n` rounds of
its internal loop; a call that returns does so for some number of rounds. -/
inductive Calls {ω σ : Type} (next : Nat → σ → Option (Res (Option ω) × σ)) :
    σ → List (Res (Option ω)) → σ → Prop
  | nil (st : σ) : Calls next st [] st
  | cons {st st1 st2 : σ} {n : Nat} {r : Res (Option ω)} {rs : List (Res (Option ω))} :
      next n st = some (r, st1) → Calls next st1 rs st2 → Calls next st (r :: rs) st2

end S2
