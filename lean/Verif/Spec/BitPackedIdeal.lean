import Verif.Spec.BitPackedEnc
/-! # The protocol's own reading of a schema: every optional field is an ordinary optional field -/
namespace S2

mutual
/-- The type as the protocol describes it: the two re-reading options become ordinary ones. -/
def BTy.ideal : BTy → BTy
  | .arr n t => .arr n t.ideal
  | .opt t => .opt t.ideal
  | .optRewind t => .opt t.ideal
  | .struct fs => .struct fs.ideal
  | .choice n alts => .choice n alts.ideal
  | t => t
def BFields.ideal : BFields → BFields
  | .nil => .nil
  | .cons name t rest => .cons name t.ideal rest.ideal
def BAlts.ideal : BAlts → BAlts
  | .nil => .nil
  | .cons tag t rest => .cons tag t.ideal rest.ideal
end

mutual
/-- Types without a re-reading option are described as they are. -/
theorem BTy.ideal_eq : ∀ (t : BTy), t.rewinds = false → t.ideal = t
  | .int .., _ => rfl
  | .bool, _ => rfl
  | .null, _ => rfl
  | .fourcc, _ => rfl
  | .blob _, _ => rfl
  | .aligned _, _ => rfl
  | .bitsI64 _, _ => rfl
  | .bitsVec _, _ => rfl
  | .byteArr _, _ => rfl
  | .arr n t, h => by simp only [BTy.ideal, BTy.ideal_eq t (by simpa [BTy.rewinds] using h)]
  | .opt t, h => by simp only [BTy.ideal, BTy.ideal_eq t (by simpa [BTy.rewinds] using h)]
  | .optRewind t, h => by simp [BTy.rewinds] at h
  | .struct fs, h => by simp only [BTy.ideal, BFields.ideal_eq fs (by simpa [BTy.rewinds] using h)]
  | .choice n alts, h => by simp only [BTy.ideal, BAlts.ideal_eq alts (by simpa [BTy.rewinds] using h)]
theorem BFields.ideal_eq : ∀ (fs : BFields), fs.rewinds = false → fs.ideal = fs
  | .nil, _ => rfl
  | .cons name t rest, h => by
    simp only [BFields.rewinds, Bool.or_eq_false_iff] at h
    simp only [BFields.ideal, BTy.ideal_eq t h.1, BFields.ideal_eq rest h.2]
theorem BAlts.ideal_eq : ∀ (alts : BAlts), alts.rewinds = false → alts.ideal = alts
  | .nil, _ => rfl
  | .cons tag t rest, h => by
    simp only [BAlts.rewinds, Bool.or_eq_false_iff] at h
    simp only [BAlts.ideal, BTy.ideal_eq t h.1, BAlts.ideal_eq rest h.2]
end

/-- Variant tags in schema order. -/
def BAlts.tags : BAlts → List Int
  | .nil => []
  | .cons t _ rest => t :: rest.tags

end S2
