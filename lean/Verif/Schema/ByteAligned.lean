import Verif.Vlq
import Verif.Schema.Val
/-!
# Byte-aligned (versioned) generated parsers

The module `byte_aligned` of /repo/src/versions/protocol87702/mod.rs:3-5055 is generated code:
every parser in it is an instance of a few templates (checked by `tools/extract.py`, which
aborts on anything else).  `VTy` names the templates, `vparse` is the code of each template.
-/
namespace S2

/-- How a struct field's accumulator is initialised, guarded and defaulted. [struct parsers of /repo/src/versions/protocol87702/mod.rs] -/
inductive FKind
  /-- `let mut f: Option<T> = None; … if f.is_none() … ok_or_return_missing_field_err!(f)` -/
  | mandatory
  /-- `let mut f: Option<Option<T>> = Some(None); … if let Some(None) = f …` -/
  | optional
  /-- as `mandatory` but `f.unwrap_or(default)` at the end -/
  | dflt (d : Val)

mutual
/-- Templates of byte-aligned types. [the shapes of the byte-aligned parsers in /repo/src/versions/protocol87702/mod.rs] -/
inductive VTy
  /-- `tagged_vlq_int` followed by `K::try_from(..)?` -/
  | int (k : IntKind)
  | blob
  | bool
  | fourcc
  /-- nothing on the wire (payload-less variant) -/
  | null
  | opt (t : VTy)
  | arr (t : VTy)
  | struct (fs : VFields)
  /-- `match variant_tag`; `isInt` tells whether the tag is validated with
  `validate_int_tag` or `validate_choice_tag` -/
  | choice (isInt : Bool) (alts : VAlts)
/-- Struct fields: wire tag, name, tag reported in `DuplicateTag`, accumulator kind, type. [struct parsers of /repo/src/versions/protocol87702/mod.rs] -/
inductive VFields
  | nil
  | cons (tag : Int) (name : String) (dupTag : Int) (kind : FKind) (t : VTy) (rest : VFields)
/-- Variants: wire tag and payload type. [choice and enum parsers of /repo/src/versions/protocol87702/mod.rs] -/
inductive VAlts
  | nil
  | cons (tag : Int) (t : VTy) (rest : VAlts)
end

/-- `for _ in 0..n { let (new_tail, data) = f(tail)?; tail = new_tail; array.push(data) }`
(e.g. /repo/src/versions/protocol87702/mod.rs:262-271). -/
def repeatN {σ α : Type} (f : σ → Res (σ × α)) : Nat → σ → Res (σ × List α)
  | 0, i => .ok (i, [])
  | n + 1, i => do
    let (i, a) ← f i
    let (i, as) ← repeatN f n i
    pure (i, a :: as)

/-- `for _ in 0..n { … }` updating the field accumulators
(e.g. /repo/src/versions/protocol87702/mod.rs:145-240). -/
def iterN {σ τ : Type} (f : τ → σ → Res (σ × τ)) : Nat → τ → σ → Res (σ × τ)
  | 0, s, i => .ok (i, s)
  | n + 1, s, i => do
    let (i, s) ← f s i
    iterN f n s i

/-- Initial accumulators. [struct parsers of /repo/src/versions/protocol87702/mod.rs] -/
def initSlots : VFields → List (Option Val)
  | .nil => []
  | .cons _ _ _ kind _ rest =>
    (match kind with
      | .optional => some Val.none
      | _ => none) :: initSlots rest

/-- The guard of a field arm: `f.is_none()`, or `if let Some(None) = f`. [struct parsers of /repo/src/versions/protocol87702/mod.rs] -/
def vacant (kind : FKind) (s : Option Val) : Bool :=
  match kind, s with
  | .optional, some Val.none => true
  | .optional, _ => false
  | _, none => true
  | _, some _ => false

/-- `ok_or_return_missing_field_err!` (/repo/src/lib.rs:56-70) / `unwrap_or` at the end. -/
def finishSlots : VFields → List (Option Val) → Res (List Val)
  | .nil, _ => .ok []
  | .cons _ name _ kind _ rest, s :: ss => do
    let v ← match kind, s with
      | _, some v => Res.ok v
      | .dflt d, none => .ok d
      | _, none => .err (.missingField name)
    let vs ← finishSlots rest ss
    pure (v :: vs)
  | .cons .., [] => .panic

mutual
/-- `T::parse(input)` for the byte-aligned template `t`
(/repo/src/versions/protocol87702/mod.rs:3-5055). -/
def vparse (bld : Build) : VTy → List UInt8 → Res (List UInt8 × Val)
  | .int k, i => do
    let (tail, x) ← taggedVlq bld i
    let x ← tryFrom k x
    pure (tail, .int x)
  | .blob, i => do
    let (tail, b) ← taggedBlob bld i
    pure (tail, .bytes b)
  | .bool, i => do
    let (tail, b) ← taggedBool i
    pure (tail, .bool b)
  | .fourcc, i => do
    let (tail, x) ← taggedFourcc i
    pure (tail, .int x)
  | .null, i => .ok (i, .unit)
  | .opt t, i => do
    let (tail, _) ← tagByte OPT_TAG i
    let (tail, p) ← takeU8 tail
    if p ≠ 0 then
      let (tail, v) ← vparse bld t tail
      pure (tail, .some v)
    else pure (tail, .none)
  | .arr t, i => do
    let (tail, _) ← tagByte ARRAY_TAG i
    let (tail, n) ← parseVlq bld tail
    let (tail, vs) ← repeatN (fun i => vparse bld t i) (asUsize n) tail
    pure (tail, .list vs)
  | .struct fs, i => do
    let (tail, _) ← tagByte STRUCT_TAG i
    let (tail, n) ← parseVlq bld tail
    let (tail, slots) ← iterN (fun s i => do
        let (i, tag) ← parseVlq bld i
        vfield bld fs tag s i) (asUsize n) (initSlots fs) tail
    let vs ← finishSlots fs slots
    pure (tail, .struct vs)
  | .choice isInt alts, i => do
    let (tail, _) ← tagByte (if isInt then INT_TAG else CHOICE_TAG) i
    let (tail, tag) ← parseVlq bld tail
    let (tail, v) ← valt bld alts tag tail
    pure (tail, .choice tag v)
/-- The `match field_tag { … }` of a struct parser: the arm with that tag, its guard and its
field parser; `_ => UnknownTag`. [struct parsers of /repo/src/versions/protocol87702/mod.rs] -/
def vfield (bld : Build) : VFields → Int → List (Option Val) → List UInt8 →
    Res (List UInt8 × List (Option Val))
  | .nil, tag, _, _ => .err (.unknownTag tag)
  | .cons t name dup kind ty rest, tag, s :: ss, i =>
    if tag = t then
      if vacant kind s then do
        let (tail, v) ← vparse bld ty i
        pure (tail, some v :: ss)
      else .err (.duplicateTag name dup)
    else do
      let (tail, ss) ← vfield bld rest tag ss i
      pure (tail, s :: ss)
  | .cons .., _, [], _ => .panic
/-- The `match variant_tag { … }` of a choice/enum parser; `_ => UnknownTag`. [choice and enum parsers of /repo/src/versions/protocol87702/mod.rs] -/
def valt (bld : Build) : VAlts → Int → List UInt8 → Res (List UInt8 × Val)
  | .nil, tag, _ => .err (.unknownTag tag)
  | .cons t ty rest, tag, i => if tag = t then vparse bld ty i else valt bld rest tag i
end

end S2
