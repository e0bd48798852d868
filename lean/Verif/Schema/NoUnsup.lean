import Verif.Schema.BitPacked
import Verif.Schema.ByteAligned
import Verif.ResLemmas
/-! # The wire parsers never report `UnsupportedEventType`

That error is reserved to the conversions, and only it makes the iterators skip an event. -/
namespace S2

/-- Not the error `UnsupportedEventType`. [proof device, no counterpart in /repo] -/
def Res.Sup {α : Type} (r : Res α) : Prop := r ≠ .err .unsupportedEvent

theorem Res.Sup.bind {α β : Type} {x : Res α} {f : α → Res β} (hx : x.Sup) (hf : ∀ a, (f a).Sup) :
    (x >>= f).Sup := by
  cases x with
  | ok a => exact hf a
  | err e => simpa [Res.Sup] using hx
  | panic => simp [Res.Sup]

theorem Res.Sup.ok {α : Type} (a : α) : (Res.ok a).Sup := by simp [Res.Sup]
theorem Res.Sup.pure {α : Type} (a : α) : (Pure.pure a : Res α).Sup := by simp [Res.Sup]

theorem repeatN_sup {σ α : Type} (f : σ → Res (σ × α)) (hf : ∀ i, (f i).Sup) : ∀ n i, (repeatN f n i).Sup
  | 0, i => Res.Sup.ok _
  | n + 1, i => (hf i).bind fun _ => (repeatN_sup f hf n _).bind fun _ => Res.Sup.pure _

theorem iterN_sup {σ τ : Type} (f : τ → σ → Res (σ × τ)) (hf : ∀ s i, (f s i).Sup) : ∀ n s i, (iterN f n s i).Sup
  | 0, _, _ => Res.Sup.ok _
  | n + 1, s, i => (hf s i).bind fun _ => iterN_sup f hf n _ _

theorem tagByte_sup (t : UInt8) (i : List UInt8) : (tagByte t i).Sup := by
  unfold tagByte; split
  · split <;> simp [Res.Sup]
  · simp [Res.Sup]
theorem takeBytes_sup (n : Nat) (i : List UInt8) : (takeBytes n i).Sup := by
  unfold takeBytes; split <;> simp [Res.Sup]
theorem takeU8_sup (i : List UInt8) : (takeU8 i).Sup := by unfold takeU8; split <;> simp [Res.Sup]
theorem tryFrom_sup (k : IntKind) (x : Int) : (tryFrom k x).Sup := by unfold tryFrom; split <;> simp [Res.Sup]
theorem shlI64_sup (bld : Build) (x s : Nat) : (shlI64 bld x s).Sup := by
  unfold shlI64; split
  · simp [Res.Sup]
  · cases bld <;> simp [Res.Sup]
theorem negI64_sup (bld : Build) (x : Int) : (negI64 bld x).Sup := by
  unfold negI64; split
  · cases bld <;> simp [Res.Sup]
  · simp [Res.Sup]
theorem addI64_sup (bld : Build) (x y : Int) : (addI64 bld x y).Sup := by
  unfold addI64; split
  · simp [Res.Sup]
  · cases bld <;> simp [Res.Sup]

theorem vlqLoop_sup (bld : Build) : ∀ (tail : List UInt8) (v : UInt8) (r b : Nat), (vlqLoop bld tail v r b).Sup
  | [], v, r, b => by unfold vlqLoop; split <;> simp [Res.Sup]
  | nv :: t, v, r, b => by
    unfold vlqLoop; split
    · simp [Res.Sup]
    · exact (shlI64_sup _ _ _).bind fun _ => vlqLoop_sup bld t nv _ _

theorem parseVlq_sup (bld : Build) (i : List UInt8) : (parseVlq bld i).Sup := by
  unfold parseVlq; split
  · simp [Res.Sup]
  · refine (vlqLoop_sup _ _ _ _ _).bind fun _ => ?_
    split
    · split
      · exact (negI64_sup _ _).bind fun _ => Res.Sup.pure _
      · exact Res.Sup.pure _

theorem finishSlots_sup : ∀ (fs : VFields) (ss : List (Option Val)), (finishSlots fs ss).Sup
  | .nil, _ => Res.Sup.ok _
  | .cons _ _ _ kind _ rest, [] => by simp [finishSlots, Res.Sup]
  | .cons _ _ _ kind _ rest, s :: ss => by
    simp only [finishSlots]
    split
    · exact (finishSlots_sup rest ss).bind fun _ => Res.Sup.pure _
    · exact (finishSlots_sup rest ss).bind fun _ => Res.Sup.pure _
    · simp [Res.Sup]

mutual
theorem vparse_sup (bld : Build) : ∀ (t : VTy) i, (vparse bld t i).Sup
  | .int k, i => by
    simp only [vparse, taggedVlq]
    exact ((tagByte_sup _ _).bind fun _ => parseVlq_sup _ _).bind fun _ => (tryFrom_sup _ _).bind fun _ => Res.Sup.pure _
  | .blob, i => by
    simp only [vparse, taggedBlob]
    exact ((tagByte_sup _ _).bind fun _ => (parseVlq_sup _ _).bind fun _ => takeBytes_sup _ _).bind fun _ => Res.Sup.pure _
  | .bool, i => by
    simp only [vparse, taggedBool]
    exact ((tagByte_sup _ _).bind fun _ => (takeU8_sup _).bind fun _ => Res.Sup.pure _).bind fun _ => Res.Sup.pure _
  | .fourcc, i => by
    simp only [vparse, taggedFourcc]
    exact ((tagByte_sup _ _).bind fun _ => (takeBytes_sup _ _).bind fun _ => Res.Sup.pure _).bind fun _ => Res.Sup.pure _
  | .null, i => by simp only [vparse]; exact Res.Sup.ok _
  | .opt t, i => by
    simp only [vparse]
    refine (tagByte_sup _ _).bind fun _ => (takeU8_sup _).bind fun _ => ?_
    split
    · exact (vparse_sup bld t _).bind fun _ => Res.Sup.pure _
    · exact Res.Sup.pure _
  | .arr t, i => by
    have ih := vparse_sup bld t
    simp only [vparse]
    exact (tagByte_sup _ _).bind fun _ => (parseVlq_sup _ _).bind fun _ => (repeatN_sup _ ih _ _).bind fun _ => Res.Sup.pure _
  | .struct fs, i => by
    have ih := vfield_sup bld fs
    simp only [vparse]
    exact (tagByte_sup _ _).bind fun _ => (parseVlq_sup _ _).bind fun _ =>
      (iterN_sup _ (fun s i => (parseVlq_sup _ _).bind fun _ => ih _ _ _) _ _ _).bind fun _ =>
      (finishSlots_sup _ _).bind fun _ => Res.Sup.pure _
  | .choice b alts, i => by
    simp only [vparse]
    exact (tagByte_sup _ _).bind fun _ => (parseVlq_sup _ _).bind fun _ => (valt_sup bld alts _ _).bind fun _ => Res.Sup.pure _
theorem vfield_sup (bld : Build) : ∀ (fs : VFields) tag ss i, (vfield bld fs tag ss i).Sup
  | .nil, tag, ss, i => by simp [vfield, Res.Sup]
  | .cons _ _ _ kind ty rest, tag, [], i => by simp [vfield, Res.Sup]
  | .cons _ _ _ kind ty rest, tag, s :: ss, i => by
    simp only [vfield]
    split
    · split
      · exact (vparse_sup bld ty _).bind fun _ => Res.Sup.pure _
      · simp [Res.Sup]
    · exact (vfield_sup bld rest _ _ _).bind fun _ => Res.Sup.pure _
theorem valt_sup (bld : Build) : ∀ (alts : VAlts) tag i, (valt bld alts tag i).Sup
  | .nil, tag, i => by simp [valt, Res.Sup]
  | .cons t ty rest, tag, i => by
    simp only [valt]
    split
    · exact vparse_sup bld ty _
    · exact valt_sup bld rest _ _
end

theorem nomTake_sup (n : Nat) (c : Cur) : (nomTake n c).Sup := by
  unfold nomTake; split
  · simp [Res.Sup]
  · simp only []
    split <;> simp [Res.Sup]

theorem rtake_sup (c : Cur) (n : Nat) : (rtake c n).Sup := by
  unfold rtake; split
  · exact (nomTake_sup _ _).bind fun _ => (nomTake_sup _ _).bind fun _ => (nomTake_sup _ _).bind fun _ => Res.Sup.pure _
  · exact (nomTake_sup _ _).bind fun _ => Res.Sup.pure _

theorem takeI64Loop_sup : ∀ f c r a, (takeI64Loop f c r a).Sup
  | 0, _, _, _ => by simp [takeI64Loop, Res.Sup]
  | f + 1, c, r, a => by
    unfold takeI64Loop
    refine (rtake_sup _ _).bind fun _ => (nomTake_sup _ _).bind fun p => ?_
    simp only []
    generalize (if r > 8 then if c.off ≠ 0 then 8 - c.off else 8 else r) = k
    split
    · exact Res.Sup.pure _
    · exact takeI64Loop_sup f _ _ _

theorem takeI64_sup (c : Cur) (n : Nat) : (takeI64 c n).Sup := by
  unfold takeI64; split
  · simp [Res.Sup]
  · exact (takeI64Loop_sup _ _ _ _).bind fun _ => Res.Sup.pure _

theorem takeBitArrayLoop_sup : ∀ f c r a, (takeBitArrayLoop f c r a).Sup
  | 0, _, _, _ => by simp [takeBitArrayLoop, Res.Sup]
  | f + 1, c, r, a => by
    unfold takeBitArrayLoop
    refine (rtake_sup _ _).bind fun _ => (nomTake_sup _ _).bind fun p => ?_
    simp only []
    generalize (if r > 8 then 8 else r) = k
    split
    · exact Res.Sup.pure _
    · exact takeBitArrayLoop_sup f _ _ _

theorem takeBitArray_sup (c : Cur) (n : Nat) : (takeBitArray c n).Sup := takeBitArrayLoop_sup _ _ _ _

theorem byteAlign_sup (c : Cur) : (byteAlign c).Sup := by
  unfold byteAlign; split
  · exact (nomTake_sup _ _).bind fun _ => Res.Sup.pure _
  · exact Res.Sup.pure _

theorem takeUnalignedByte_sup (c : Cur) : (takeUnalignedByte c).Sup := by
  unfold takeUnalignedByte
  refine (takeBitArray_sup _ _).bind fun p => ?_
  obtain ⟨t, l⟩ := p
  cases l <;> simp [Res.Sup]

theorem parsePackedInt_sup (bld : Build) (c : Cur) (k : Int) (n : Nat) : (parsePackedInt bld c k n).Sup :=
  (takeI64_sup _ _).bind fun _ => (addI64_sup _ _ _).bind fun _ => Res.Sup.pure _

theorem parseBool_sup (c : Cur) : (parseBool c).Sup :=
  (rtake_sup _ _).bind fun _ => (nomTake_sup _ _).bind fun _ => Res.Sup.pure _

mutual
theorem bparse_sup (bld : Build) : ∀ (t : BTy) c, (bparse bld t c).Sup
  | .int k n, c => by simp only [bparse]; exact (parsePackedInt_sup _ _ _ _).bind fun _ => Res.Sup.pure _
  | .bool, c => by simp only [bparse]; exact (parseBool_sup _).bind fun _ => Res.Sup.pure _
  | .null, c => by simp only [bparse]; exact (Res.Sup.pure _).bind fun _ => Res.Sup.pure _
  | .fourcc, c => by simp only [bparse]; exact (takeBitArray_sup _ _).bind fun _ => Res.Sup.pure _
  | .blob n, c => by
    simp only [bparse]
    exact (parsePackedInt_sup _ _ _ _).bind fun _ => (byteAlign_sup _).bind fun _ =>
      (takeBitArray_sup _ _).bind fun _ => Res.Sup.pure _
  | .aligned k, c => by
    simp only [bparse]
    exact (byteAlign_sup _).bind fun _ => (takeBitArray_sup _ _).bind fun _ => Res.Sup.pure _
  | .bitsI64 n, c => by
    simp only [bparse]
    exact (takeI64_sup _ _).bind fun _ => (takeI64_sup _ _).bind fun _ => Res.Sup.pure _
  | .bitsVec n, c => by
    simp only [bparse]
    exact (takeI64_sup _ _).bind fun _ => (takeBitArray_sup _ _).bind fun _ => Res.Sup.pure _
  | .byteArr n, c => by
    simp only [bparse]
    exact (takeI64_sup _ _).bind fun _ => (repeatN_sup _ takeUnalignedByte_sup _ _).bind fun _ => Res.Sup.pure _
  | .arr n t, c => by
    have ih := bparse_sup bld t
    simp only [bparse]
    exact (takeI64_sup _ _).bind fun _ => (repeatN_sup _ ih _ _).bind fun _ => Res.Sup.pure _
  | .opt t, c => by
    simp only [bparse]
    refine (parseBool_sup _).bind fun _ => ?_
    split
    · exact (bparse_sup bld t _).bind fun _ => Res.Sup.pure _
    · exact Res.Sup.pure _
  | .optRewind t, c => by
    simp only [bparse]
    refine (parseBool_sup _).bind fun _ => ?_
    split
    · exact (bparse_sup bld t _).bind fun _ => Res.Sup.pure _
    · exact Res.Sup.pure _
  | .struct fs, c => by simp only [bparse]; exact (bfields_sup bld fs _).bind fun _ => Res.Sup.pure _
  | .choice n alts, c => by
    simp only [bparse]
    exact (parsePackedInt_sup _ _ _ _).bind fun _ => (balt_sup bld alts _ _).bind fun _ => Res.Sup.pure _
theorem bfields_sup (bld : Build) : ∀ (fs : BFields) c, (bfields bld fs c).Sup
  | .nil, c => by simp only [bfields]; exact Res.Sup.ok _
  | .cons _ t rest, c => by
    simp only [bfields]
    exact (bparse_sup bld t _).bind fun _ => (bfields_sup bld rest _).bind fun _ => Res.Sup.pure _
theorem balt_sup (bld : Build) : ∀ (alts : BAlts) tag c, (balt bld alts tag c).Sup
  | .nil, tag, c => by simp [balt, Res.Sup]
  | .cons t ty rest, tag, c => by
    simp only [balt]
    split
    · exact bparse_sup bld ty _
    · exact balt_sup bld rest _ _
end

end S2
