import Verif.Misc.GenBytes
import Verif.Spec.GenDeclSpec
import Verif.Spec.ByteAlignedEnc
/-!
# What a declaration means in the byte-aligned format

The values of a declared type with their wire forms, written from the description alone: every value starts with a byte that tells its kind; an
integer is the variable-length form of the number itself; a struct is the number of its entries and then, in any order, the tag
and the value of each member, where a member of optional type may be left out; constants take no room; a choice is the tag and the payload.
Nothing here refers to the generator.
-/
namespace S2.Generator
open S2

/-- The value that the entries give to a tag. -/
def valueAt (es : List Entry) (tag : Int) : Option Val := (es.find? (fun e => decide (e.tag = tag))).map Entry.val

/-- Is the type an optional one? -/
def VDesc.isOptional : VDesc → Bool
  | .optional _ => true
  | _ => false

/-- The values of the members are those of the entries with their tags; only a member of optional type may have no entry. -/
def VMembers.Assembled (es : List Entry) : VMembers → List Val → Prop
  | .nil, vs => vs = []
  | .const rest, vs => rest.Assembled es vs
  | .member none _ _ _, _ => False
  | .member (some tag) _ t rest, vs => ∃ v vs', vs = v :: vs' ∧
      (valueAt es tag = some v ∨ valueAt es tag = none ∧ t.isOptional = true ∧ v = .none) ∧ rest.Assembled es vs'

mutual
/-- `u` is a wire form of the value `v` of the type. -/
def VDesc.Enc : VDesc → Val → List UInt8 → Prop
  | .named _ d, v, u => d.Enc v u
  | .bool, v, u => ∃ b : Bool, v = .bool b ∧ u = [BOOL_TAG, if b then 1 else 0]
  | .null, v, u => v = .unit ∧ u = []
  | .fourcc, v, u => ∃ x : Nat, v = .int x ∧ x < 2 ^ 32 ∧ u = FOURCC_TAG :: be4 x
  | .int b, v, u => ∃ x, v = .int x ∧ b.lo ≤ x ∧ x ≤ b.hi ∧ u = INT_TAG :: encVlq x
  | .blob, v, u => ∃ bs, v = .bytes bs ∧ bs.length < 2 ^ 63 ∧ u = BLOB_TAG :: (encVlq bs.length ++ bs)
  | .string, v, u => ∃ bs, v = .bytes bs ∧ bs.length < 2 ^ 63 ∧ u = BLOB_TAG :: (encVlq bs.length ++ bs)
  | .optional t, v, u => (v = .none ∧ u = [OPT_TAG, 0]) ∨ ∃ w e, v = .some w ∧ u = OPT_TAG :: 1 :: e ∧ t.Enc w e
  | .array t, v, u => ∃ items : List (Val × List UInt8), v = .list (items.map Prod.fst) ∧ items.length < 2 ^ 63 ∧
      u = ARRAY_TAG :: (encVlq items.length ++ items.flatMap Prod.snd) ∧ ∀ it ∈ items, t.Enc it.1 it.2
  | .dynArray t, v, u => ∃ items : List (Val × List UInt8), v = .list (items.map Prod.fst) ∧ items.length < 2 ^ 63 ∧
      u = ARRAY_TAG :: (encVlq items.length ++ items.flatMap Prod.snd) ∧ ∀ it ∈ items, t.Enc it.1 it.2
  | .other, _, _ => False
def VDecl.Enc : VDecl → Val → List UInt8 → Prop
  | .struct fs, v, u => ∃ vs, ∃ es : List Entry, v = .struct vs ∧ es.length < 2 ^ 63 ∧ (es.map Entry.tag).Nodup ∧
      u = STRUCT_TAG :: (encVlq es.length ++ es.flatMap Entry.bytes) ∧
      (∀ en ∈ es, ∃ e, en.bytes = encVlq en.tag ++ e ∧ fs.Enc en.tag en.val e) ∧ fs.Assembled es vs
  | .choice vs, v, u => ∃ tag w e, v = .choice tag w ∧ u = CHOICE_TAG :: (encVlq tag ++ e) ∧ vs.Enc tag w e
  | .enum vs, v, u => ∃ tag w e, v = .choice tag w ∧ u = INT_TAG :: (encVlq tag ++ e) ∧ vs.Enc tag w e
  | .int b, v, u => ∃ x, v = .int x ∧ b.lo ≤ x ∧ x ≤ b.hi ∧ u = INT_TAG :: encVlq x
  | .user d, v, u => d.Enc v u
  | .blob, v, u => ∃ bs, v = .bytes bs ∧ bs.length < 2 ^ 63 ∧ u = BLOB_TAG :: (encVlq bs.length ++ bs)
  | .string, v, u => ∃ bs, v = .bytes bs ∧ bs.length < 2 ^ 63 ∧ u = BLOB_TAG :: (encVlq bs.length ++ bs)
  | .bitArray, _, _ => False
  | .array t, v, u => ∃ items : List (Val × List UInt8), v = .list (items.map Prod.fst) ∧ items.length < 2 ^ 63 ∧
      u = ARRAY_TAG :: (encVlq items.length ++ items.flatMap Prod.snd) ∧ ∀ it ∈ items, t.Enc it.1 it.2
/-- Wire forms of the member with that tag. -/
def VMembers.Enc : VMembers → Int → Val → List UInt8 → Prop
  | .nil, _, _, _ => False
  | .const rest, tag, v, u => rest.Enc tag v u
  | .member t _ ty rest, tag, v, u => if t = some tag then ty.Enc v u else rest.Enc tag v u
/-- Wire forms of the payload of the variant with that tag. -/
def VVariants.Enc : VVariants → Int → Val → List UInt8 → Prop
  | .nil, _, _, _ => False
  | .cons t _ ty rest, tag, v, u => if tag = t then ty.Enc v u else rest.Enc tag v u
/-- What follows the value of an enumeration. -/
def VValues.Enc : VValues → Int → Val → List UInt8 → Prop
  | .nil, _, _, _ => False
  | .plain t _ rest, tag, v, u => if tag = t then v = .unit ∧ u = [] else rest.Enc tag v u
  | .event t _ _ d rest, tag, v, u => if tag = t then d.Enc v u else rest.Enc tag v u
end

/-! ## The descriptions for which the generator is right -/

/-- The bounds of a declared integer, through renamings. -/
def VDecl.bounds? : VDecl → Option Bounds
  | .int b => some b
  | .user d => d.bounds?
  | _ => none

/-- Declared bytes, through renamings. -/
def VDecl.isBytes : VDecl → Bool
  | .blob => true
  | .string => true
  | .user d => d.isBytes
  | _ => false

/-- Bytes. -/
def VDesc.isBytes : VDesc → Bool
  | .blob => true
  | .string => true
  | .named _ d => d.isBytes
  | _ => false

/-- A declared array of bytes, through renamings. -/
def VDecl.isBlobs : VDecl → Bool
  | .array t => t.isBytes
  | .user d => d.isBlobs
  | _ => false

/-- The bounds fit the Rust type, and an `i64` other than the least. -/
def Bounds.within (b : Bounds) (k : IntKind) : Prop := k.lo ≤ b.lo ∧ b.hi ≤ k.hi ∧ i64Min < b.lo ∧ b.hi ≤ i64Max

/-- The tags of the members. -/
def VMembers.tags : VMembers → List Int
  | .nil => []
  | .const rest => rest.tags
  | .member none _ _ rest => rest.tags
  | .member (some t) _ _ rest => t :: rest.tags

mutual
/-- Member types: names of the table that are declared as the table takes them, booleans, four-character codes, bytes, optional ones, and arrays
of anything but integers. -/
def VDesc.Good : VDesc → Prop
  | .named n d =>
    match byteTable n with
    | some (.int k) => ∃ b, d.bounds? = some b ∧ b.within k
    | some .blob => d.isBytes = true
    | some .user => d.Good
    | some .blobs => d.isBlobs = true
    | some .players => d.GoodPlayers
    | _ => False
  | .bool => True
  | .fourcc => True
  | .blob => True
  | .string => True
  | .optional t => t.GoodOpt
  | .array t => t.GoodElem
  | _ => False
/-- Types of elements. -/
def VDesc.GoodElem : VDesc → Prop
  | .named n d =>
    match byteTable n with
    | some .blob => d.isBytes = true
    | some .user => d.Good
    | _ => False
  | _ => False
/-- Types of optional members. -/
def VDesc.GoodOpt : VDesc → Prop
  | .named n d =>
    match byteTable n with
    | some (.int k) => ∃ b, d.bounds? = some b ∧ b.within k
    | some .blob => d.isBytes = true
    | some .user => d.Good
    | some .blobs => d.isBlobs = true
    | some .players => d.GoodPlayers
    | _ => False
  | .bool => True
  | .fourcc => True
  | .blob => True
  | .string => True
  | .array t => t.GoodElem
  | _ => False
/-- Types of payloads. -/
def VDesc.GoodPayload : VDesc → Prop
  | .named n d =>
    match byteTable n with
    | some (.int k) => ∃ b, d.bounds? = some b ∧ b.within k
    | some .blob => d.isBytes = true
    | some .user => d.Good
    | _ => False
  | .bool => True
  | .fourcc => True
  | .blob => True
  | .string => True
  | _ => False
/-- An array of the struct of player details. -/
def VDecl.GoodPlayers : VDecl → Prop
  | .array (.named n d) => n = "NNet.Game.SPlayerDetails" ∧ d.Good
  | _ => False
def VDecl.Good : VDecl → Prop
  | .struct fs => fs.Good ∧ fs.tags.Nodup
  | .choice vs => vs.Good
  | .enum vs => vs.Good
  | .int b => b.within .i64
  | .array (.named n d) => emitted n = true ∧ d.Good
  | _ => False
def VMembers.Good : VMembers → Prop
  | .nil => True
  | .const rest => rest.Good
  | .member none _ _ _ => False
  | .member (some tag) _ t rest => vlqable tag ∧ t.Good ∧ rest.Good
def VVariants.Good : VVariants → Prop
  | .nil => True
  | .cons tag _ t rest => vlqable tag ∧ t.GoodPayload ∧ rest.Good
def VValues.Good : VValues → Prop
  | .nil => True
  | .plain tag _ rest => vlqable tag ∧ rest.Good
  | .event tag _ _ d rest => vlqable tag ∧ d.Good ∧ rest.Good
end

end S2.Generator
