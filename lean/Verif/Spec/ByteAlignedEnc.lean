import Verif.Spec.ByteAlignedSpec
/-!
# A reference encoder for byte-aligned values

`VHas t v`: `v` is a value of type `t` the format can carry; `venc t v` is its wire form with
the struct fields in schema order.  Written from the format, not from the parser.
-/
namespace S2

/-- Field tags in schema order. -/
def VFields.tags : VFields → List Int
  | .nil => []
  | .cons t _ _ _ _ rest => t :: rest.tags

/-- Variant tags in schema order. -/
def VAlts.tags : VAlts → List Int
  | .nil => []
  | .cons t _ rest => t :: rest.tags

/-- Is the number an `i64` other than `i64::MIN`? -/
def vlqable (x : Int) : Prop := i64Min < x ∧ x ≤ i64Max
instance (x : Int) : Decidable (vlqable x) := by unfold vlqable; infer_instance

mutual
/-- Schema sanity: pairwise distinct field tags, all tags encodable.  Decided for every
extracted type. -/
def VTy.wf : VTy → Bool
  | .opt t => t.wf
  | .arr t => t.wf
  | .struct fs => fs.wf && decide fs.tags.Nodup && decide (fs.tags.length < 2 ^ 63)
  | .choice _ alts => alts.wf
  | _ => true
def VFields.wf : VFields → Bool
  | .nil => true
  | .cons t _ _ _ ty rest => decide (vlqable t) && ty.wf && rest.wf
def VAlts.wf : VAlts → Bool
  | .nil => true
  | .cons t ty rest => decide (vlqable t) && ty.wf && rest.wf
end

/-- Four bytes of a 32-bit number, most significant first. -/
def be4 (x : Nat) : List UInt8 :=
  [UInt8.ofNat (x / 2 ^ 24), UInt8.ofNat (x / 2 ^ 16), UInt8.ofNat (x / 2 ^ 8), UInt8.ofNat x]

mutual
/-- Values of type `t`. -/
def VHas : VTy → Val → Prop
  | .int k, v => ∃ x, v = .int x ∧ k.inRange x ∧ vlqable x
  | .blob, v => ∃ bs, v = .bytes bs ∧ bs.length < 2 ^ 63
  | .bool, v => ∃ b, v = .bool b
  | .fourcc, v => ∃ x : Nat, v = .int x ∧ x < 2 ^ 32
  | .null, v => v = .unit
  | .opt t, v => v = .none ∨ ∃ w, v = .some w ∧ VHas t w
  | .arr t, v => ∃ vs, v = .list vs ∧ vs.length < 2 ^ 63 ∧ ∀ w ∈ vs, VHas t w
  | .struct fs, v => ∃ vs, v = .struct vs ∧ VFieldsHas fs vs
  | .choice _ alts, v => ∃ tag w, v = .choice tag w ∧ VAltHas alts tag w
/-- Field lists. -/
def VFieldsHas : VFields → List Val → Prop
  | .nil, vs => vs = []
  | .cons _ _ _ _ ty rest, vs => ∃ v vs', vs = v :: vs' ∧ VHas ty v ∧ VFieldsHas rest vs'
/-- Payloads of the variant `tag`. -/
def VAltHas : VAlts → Int → Val → Prop
  | .nil, _, _ => False
  | .cons t ty rest, tag, v => if tag = t then VHas ty v else VAltHas rest tag v
end

mutual
/-- Reference encoder. -/
def venc : VTy → Val → List UInt8
  | .int _, .int x => INT_TAG :: encVlq x
  | .blob, .bytes bs => BLOB_TAG :: (encVlq bs.length ++ bs)
  | .bool, .bool b => [BOOL_TAG, if b then 1 else 0]
  | .fourcc, .int x => FOURCC_TAG :: be4 x.toNat
  | .opt _, .none => [OPT_TAG, 0]
  | .opt t, .some w => OPT_TAG :: 1 :: venc t w
  | .arr t, .list vs => ARRAY_TAG :: (encVlq vs.length ++ vs.flatMap (fun v => venc t v))
  | .struct fs, .struct vs => STRUCT_TAG :: (encVlq vs.length ++ (vencFields fs vs).flatMap Entry.bytes)
  | .choice isInt alts, .choice tag w =>
    (if isInt then INT_TAG else CHOICE_TAG) :: (encVlq tag ++ vencAlt alts tag w)
  | _, _ => []
/-- One entry per field, in schema order. -/
def vencFields : VFields → List Val → List Entry
  | .cons t _ _ _ ty rest, v :: vs => ⟨t, v, encVlq t ++ venc ty v⟩ :: vencFields rest vs
  | _, _ => []
/-- Payload of the variant `tag`. -/
def vencAlt : VAlts → Int → Val → List UInt8
  | .nil, _, _ => []
  | .cons t ty rest, tag, v => if tag = t then venc ty v else vencAlt rest tag v
end

end S2
