import Verif.Gen.P87702ByteAligned
import Verif.Gen.P87702BitPacked
import Verif.Gen.P75689BitPacked
import Verif.Spec.ByteAlignedEnc
import Verif.Schema.BitPackedSafe
import Verif.Schema.ByteAlignedSize
/-! # Facts decided once for every extracted type -/
namespace S2

theorem byteAligned_all_wf : ∀ p ∈ P87702.ByteAligned.all, p.2.wf = true := by decide +kernel
theorem bitPacked_all_wf : ∀ p ∈ P87702.BitPacked.all, p.2.wf = true := by decide +kernel
theorem bitPacked75689_all_wf : ∀ p ∈ P75689.BitPacked.all, p.2.wf = true := by decide +kernel

/-- The extracted types that contain a re-reading option. -/
theorem bitPacked_rewinding : (P87702.BitPacked.all.filter (fun p => p.2.rewinds)).map Prod.fst =
    ["Smd5", "GameSCommandManagerStateEvent", "GameEEventId"] := by decide +kernel

/-- The extracted types with an excess-K integer that overflows `i64`. -/
theorem bitPacked_overflowing : (P87702.BitPacked.all.filter (fun p => !p.2.noOverflow)).map Prod.fst =
    ["Int64", "GameSDetails"] := by decide +kernel

theorem bitPacked75689_rewinding :
    (P75689.BitPacked.all.filter (fun p => p.2.rewinds)).map Prod.fst = ["GameEEventId"] := by
  decide +kernel
theorem bitPacked75689_overflowing :
    (P75689.BitPacked.all.filter (fun p => !p.2.noOverflow)).map Prod.fst = [] := by
  decide +kernel
theorem byteAligned_all_sized : ∀ p ∈ P87702.ByteAligned.all, p.2.sized = true ∧ p.2.isNull = false := by
  decide +kernel
end S2
