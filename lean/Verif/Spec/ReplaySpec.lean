import Verif.Misc.Replay
import Verif.Spec.ByteAlignedSpec
/-! # Vocabulary for statements about whole replay files -/
namespace S2

/-- The bytes start with a replay header with this signature and base build. -/
def HeaderSays (bld : Build) (content sig : List UInt8) (build : Int) : Prop :=
  ∃ (used tail : List UInt8) (flags major minor revision b : Val) (more : List Val), content = used ++ tail ∧
    VEnc bld P87702.ByteAligned.ReplaySHeader
      (.struct (.bytes sig :: .struct [flags, major, minor, revision, b, .int build] :: more)) used

/-- The archive has a replay header with the right signature and this base build. -/
def IsReplay (bld : Build) (a : Archive) (build : Int) : Prop :=
  ∃ content, a.userData = some content ∧ HeaderSays bld content (str "StarCraft II replay" ++ [27, 49, 49]) build

/-- The game event type of a build: protocol 75689 up to and including that build, protocol 87702 above. -/
def gameTypeFor (build : Int) : BTy :=
  if build ≤ 75689 then P75689.BitPacked.GameEEventId else P87702.BitPacked.GameEEventId

/-- The archive cannot be a replay at all, and the code asserts that it is: no user data block, or a header with a
different signature. -/
def FailsAssertion (bld : Build) (a : Archive) : Prop :=
  a.userData = none ∨ ∃ content sig build, a.userData = some content ∧ HeaderSays bld content sig build ∧
    sig ≠ str "StarCraft II replay" ++ [27, 49, 49]

/-- Slot `i` is the first with the working set slot id of the player. -/
def FirstSlot (slots : List LobbySlot) (p : PlayerDetails) (i : Nat) (slot : LobbySlot) : Prop :=
  slots[i]? = some slot ∧ (∃ id, p.workingSetSlotId = some id ∧ slot.workingSetSlotId = some id ∧
    ∀ j s, j < i → slots[j]? = some s → s.workingSetSlotId ≠ some id)

end S2
