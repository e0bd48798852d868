import Verif.Schema.ByteAligned
import Verif.Spec.VlqSpec
/-!
# Wire grammar of byte-aligned (versioned) values

`VEnc bld t v u`: the byte string `u` is a wire form of the value `v` at type `t`.  Nothing
here mentions the parser.
-/
namespace S2

/-- What a list of occurrences of one field (in wire order) makes of that field:
a mandatory field occurs exactly once; a defaulted one at most once; for an optional field all
occurrences but the last are `None` and the last one counts (absent means `None`). -/
def FieldResult : FKind → List Val → Val → Prop
  | .mandatory, occ, v => occ = [v]
  | .dflt d, occ, v => (occ = [] ∧ v = d) ∨ occ = [v]
  | .optional, occ, v => (∀ w ∈ occ.dropLast, w = Val.none) ∧ v = occ.getLast?.getD Val.none

/-- One entry of a struct on the wire: field tag, value, bytes of tag and value. -/
structure Entry where
  tag : Int
  val : Val
  bytes : List UInt8

/-- The struct value assembled from the entries: each field gets the result of its own
occurrences, and no entry belongs to no field. -/
def StructVals : VFields → List Entry → List Val → Prop
  | .nil, es, vs => es = [] ∧ vs = []
  | .cons t _ _ kind _ rest, es, vs =>
    ∃ v vs', vs = v :: vs' ∧
      FieldResult kind ((es.filter (fun e => decide (e.tag = t))).map Entry.val) v ∧
      StructVals rest (es.filter (fun e => decide (e.tag ≠ t))) vs'

mutual
/-- Wire forms of a value of type `t`. -/
def VEnc (bld : Build) : VTy → Val → List UInt8 → Prop
  | .int k, v, u => ∃ x e, v = .int x ∧ k.inRange x ∧ u = INT_TAG :: e ∧ VlqEnc bld x e
  | .blob, v, u => ∃ n e bs, v = .bytes bs ∧ u = BLOB_TAG :: (e ++ bs) ∧ VlqEnc bld n e ∧
      asUsize n = bs.length
  | .bool, v, u => ∃ b : UInt8, v = .bool (b != 0) ∧ u = [BOOL_TAG, b]
  | .fourcc, v, u => ∃ bs, bs.length = 4 ∧ v = .int (beNat bs) ∧ u = FOURCC_TAG :: bs
  | .null, v, u => v = .unit ∧ u = []
  | .opt t, v, u => (v = .none ∧ u = [OPT_TAG, 0]) ∨
      ∃ (p : UInt8) (w : Val) (e : List UInt8), p ≠ 0 ∧ v = .some w ∧ u = OPT_TAG :: p :: e ∧ VEnc bld t w e
  | .arr t, v, u => ∃ n e, ∃ items : List (Val × List UInt8), VlqEnc bld n e ∧
      asUsize n = items.length ∧ v = .list (items.map Prod.fst) ∧
      u = ARRAY_TAG :: (e ++ items.flatMap Prod.snd) ∧ ∀ it ∈ items, VEnc bld t it.1 it.2
  | .struct fs, v, u => ∃ n e vs, ∃ es : List Entry, VlqEnc bld n e ∧ asUsize n = es.length ∧
      v = .struct vs ∧ u = STRUCT_TAG :: (e ++ es.flatMap Entry.bytes) ∧
      (∀ en ∈ es, ∃ te fe, en.bytes = te ++ fe ∧ VlqEnc bld en.tag te ∧ VFieldEnc bld fs en.tag en.val fe) ∧
      StructVals fs es vs
  | .choice isInt alts, v, u => ∃ tag e w r, VlqEnc bld tag e ∧
      u = (if isInt then INT_TAG else CHOICE_TAG) :: (e ++ r) ∧ v = .choice tag w ∧
      VAltEnc bld alts tag w r
/-- Wire forms of the value of the field with the given tag. -/
def VFieldEnc (bld : Build) : VFields → Int → Val → List UInt8 → Prop
  | .nil, _, _, _ => False
  | .cons t _ _ _ ty rest, tag, v, u =>
    if tag = t then VEnc bld ty v u else VFieldEnc bld rest tag v u
/-- Wire forms of the payload of the variant with the given tag. -/
def VAltEnc (bld : Build) : VAlts → Int → Val → List UInt8 → Prop
  | .nil, _, _, _ => False
  | .cons t ty rest, tag, v, u =>
    if tag = t then VEnc bld ty v u else VAltEnc bld rest tag v u
end

end S2
