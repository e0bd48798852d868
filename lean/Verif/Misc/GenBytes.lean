import Verif.Misc.Generator
import Verif.Schema.ByteAligned
import Verif.Text
/-!
# Parsers generated for a protocol description (byte-aligned module)

As in `Verif/Misc/GenDecls.lean` the description is a tree: a reference by `fullname` carries the declaration it names.  Here the
name is kept as well, because the byte-aligned generator chooses the reader by a table of names.

`none` means that there is no usable parser: the generator panics, or the text it writes cannot be compiled.  Which of both is said
at each case.

Simplifications.
* The emitted arms of a tagged struct name two variables that are not bound (`proto_field_tag` in the arm of a repeated field,
  `variant_tag` in the arm of an unknown tag, where `return` is missing too: /repo/src/generator/decoder_type.rs:571, 656).  They are read as the bundled module has them after
  correction by hand (the tag of the field; `return Err(UnknownTag(field_tag))`): otherwise no struct would have a parser.  The
  text as it is emitted is the subject of `Verif/Misc/GenText.lean`.
* `nom::multi::count(p, n)(tail)` is read as `repeatN`, as in the bundled module.
* The names of members are the converted ones (snake case); they only show in errors.
* A struct whose only field has no tag (decoder_type.rs:437, read without a field tag) is not modelled: `none`.
-/
namespace S2.Generator
open S2

mutual
/-- `type_info` of a member, an element or a variant: `fullname` if present (`named`), else `type`
(/repo/src/generator/decoder_type.rs:456-462, 1008-1014). -/
inductive VDesc
  | named (n : String) (d : VDecl)
  | bool
  | null
  | fourcc
  | int (b : Bounds)
  | blob
  | string
  | optional (t : VDesc)
  | array (elem : VDesc)
  | dynArray (elem : VDesc)
  /-- any other `type` (`BitArrayType`, `AsciiStringType`, …) -/
  | other
/-- A declaration of the description (/repo/src/generator/proto_morphist.rs:379-545). -/
inductive VDecl
  | struct (fs : VMembers)
  | choice (vs : VVariants)
  | enum (vs : VValues)
  | int (b : Bounds)
  | user (d : VDecl)
  | blob
  | string
  | bitArray
  | array (elem : VDesc)
/-- `fields` of a `StructType`: constants, and members with their `tag.value`
(/repo/src/generator/decoder_type.rs:453-470). -/
inductive VMembers
  | nil
  | const (rest : VMembers)
  | member (tag : Option Int) (name : String) (t : VDesc) (rest : VMembers)
/-- `fields` of a `ChoiceType` (/repo/src/generator/decoder_type.rs:1001-1027). -/
inductive VVariants
  | nil
  | cons (tag : Int) (name : String) (t : VDesc) (rest : VVariants)
/-- `fields` of an `EnumType`: value, name, and the struct that the table of tags has for it, if any
(/repo/src/generator/decoder_type.rs:1651-1690). -/
inductive VValues
  | nil
  | plain (value : Int) (name : String) (rest : VValues)
  | event (value : Int) (name : String) (struct : String) (d : VDecl) (rest : VValues)
end

/-- What the table of names chooses: `rust_ty`, `parser`, `do_try_from`, `is_optional`, `is_vec`
(/repo/src/generator/mod.rs:18-48, decoder_type.rs:100-245). -/
inductive VMorph
  /-- `tagged_vlq_int` and `try_from` -/
  | int (k : IntKind)
  /-- `tagged_blob` -/
  | blob
  | bool
  | fourcc
  /-- `Name::parse` of the declared type of that name -/
  | user
  /-- `Vec<Vec<u8>>`: `tagged_blob` for each element -/
  | blobs
  /-- `Vec<GameSPlayerDetails>`: `GameSPlayerDetails::parse` for each element -/
  | players
  /-- `Option<{}>` and `{}`: to be filled in -/
  | optional
  /-- `Vec<{}>` and `{}`: to be filled in -/
  | vec
  deriving DecidableEq

/-- `byte_aligned_from_nnet_name`; `none` is the panic `Unsupported type` (/repo/src/generator/decoder_type.rs:100-245). -/
def byteTable (n : String) : Option VMorph :=
  if n ∈ ["NNet.uint8", "NNet.Replay.EReplayType", "NNet.uint6", "NNet.Game.TPlayerId", "NNet.Game.TControlId",
      "NNet.Game.TTeamId", "NNet.Replay.Tracker.TUIntMiniBits"] then some (.int .u8)
  else if n ∈ ["NNet.uint32", "NNet.uint14", "NNet.uint22", "NNet.Game.TDifficulty", "NNet.Game.THandicap"] then some (.int .u32)
  else if n ∈ ["NNet.int32", "NNet.Game.TFixedBits"] then some (.int .i32)
  else if n = "NNet.SVersion" then some .user
  else if n ∈ ["NNet.Game.TColorId", "NNet.int64"] then some (.int .i64)
  else if n = "NNet.uint64" then some (.int .u64)
  else if n = "FourCCType" then some .fourcc
  else if n ∈ ["BlobType", "NNet.Replay.CSignature", "StringType", "NNet.Replay.Tracker.CatalogName", "NNet.Game.CCacheHandle",
      "NNet.CFilePath", "NNet.CUserName"] then some .blob
  else if n = "BoolType" then some .bool
  else if n = "OptionalType" then some .optional
  else if n ∈ ["ArrayType", "DynArrayType", "NNet.CUserArchiveDataArray", "NNet.CUserInitialDataArray"] then some .vec
  else if n ∈ ["NNet.SMD5", "NNet.EObserve", "NNet.Game.EResultDetails"] then some .user
  else if n = "NNet.Game.CCacheHandles" then some .blobs
  else if n = "NNet.Replay.Tracker.SPlayerStats" then some .user
  else if n = "NNet.Game.CPlayerDetailsArray" then some .players
  else if n = "NNet.Game.SThumbnail" then some .user
  else if n = "NNet.Game.CModPaths" then some .blobs
  else if n ∈ ["NNet.Game.EGameSpeed", "NNet.Game.SToonNameDetails", "NNet.Game.SColor"] then some .user
  else none

/-- The names whose declarations `gen_byte_aligned_mod` writes into the module
(/repo/src/generator/proto_morphist.rs:147-210).  Here the module a declaration stands in is
taken from its name; that this is what the nested loops do for a well-named description is `C171_byte_aligned_partial`. -/
def emitted (n : String) : Bool :=
  n ∈ ["NNet.SVersion", "NNet.SVarUint32", "NNet.SMD5", "NNet.EObserve", "NNet.Replay.SHeader", "NNet.Replay.Tracker.EEventId",
    "NNet.Game.CPlayerDetailsArray", "NNet.Game.SDetails", "NNet.Game.SPlayerDetails", "NNet.Game.SThumbnail", "NNet.Game.EGameSpeed",
    "NNet.Game.EResultDetails", "NNet.Game.SToonNameDetails", "NNet.Game.SColor"] ||
  "NNet.Replay.Tracker.S".toList.isPrefixOf n.toList

/-- The accumulator of a field: `Some(None)` for an `OptionalType`, otherwise `None` (/repo/src/generator/decoder_type.rs:512, 529-539). -/
def fieldKind : VDesc → FKind
  | .optional _ => .optional
  | _ => .mandatory

mutual
/-- `parse_<field>` of a member of a byte-aligned struct (/repo/src/generator/decoder_type.rs:473-645). -/
def vgenMember : VDesc → Option VTy
  | .named n d =>
    match byteTable n with
    | some (.int k) => some (.int k)
    | some .blob => some .blob
    | some .bool => some .bool
    | some .fourcc => some .fourcc
    | some .user => vgenDecl d
    | some .blobs => some (.arr .blob)
    | some .players => (vgenPlayers d).map .arr
    | some .optional => none                          -- no declared type has that name
    | some .vec => none                               -- `Vec<{}>`: the placeholder is left in the text
    | none => none                                    -- `Unsupported type` panics
  | .bool => some .bool
  | .null => none                                     -- panics
  | .fourcc => some .fourcc
  | .blob => some .blob
  | .string => some .blob
  | .optional t => vgenOptional t
  | .array t => vgenElem t
  | .dynArray _ => none                               -- `Vec<{}>` is left: only `ArrayType` is filled in (513)
  | .int _ => none                                    -- panics: the table has no `IntType`
  | .other => none                                    -- panics
/-- The elements of an `ArrayType` member (or of an optional one): `element_type.fullname`
(/repo/src/generator/decoder_type.rs:484-496, 513-524). -/
def vgenElem : VDesc → Option VTy
  | .named n d =>
    match byteTable n with
    | some (.int _) => none                           -- `map(|val| <_>::try_from(*val)?).collect()` cannot be compiled
    | some .blob => some (.arr .blob)
    | some .bool => some (.arr .bool)
    | some .fourcc => some (.arr .fourcc)
    | some .user => (vgenDecl d).map .arr
    | _ => none                                       -- `Vec<Vec<Vec<u8>>>` read with `tagged_blob`; placeholders; panics
  | _ => none                                         -- `expect` of `element_type.fullname` panics
/-- An `OptionalType` member (/repo/src/generator/decoder_type.rs:476-512, 589-618). -/
def vgenOptional : VDesc → Option VTy
  | .named n d =>
    match byteTable n with
    | some (.int k) => some (.opt (.int k))
    | some .blob => some (.opt .blob)
    | some .bool => some (.opt .bool)
    | some .fourcc => some (.opt .fourcc)
    | some .user => (vgenDecl d).map .opt
    | some .blobs => some (.opt (.arr .blob))
    | some .players => (vgenPlayers d).map (fun t => .opt (.arr t))
    | _ => none
  | .bool => some (.opt .bool)
  | .fourcc => some (.opt .fourcc)
  | .blob => some (.opt .blob)
  | .string => some (.opt .blob)
  | .array t => (vgenElem t).map .opt
  | .null => none                                     -- panics
  | .optional _ => none                               -- `Option<Option<{}>>`: a placeholder is left
  | .dynArray _ => none                               -- a placeholder is left
  | .int _ => none                                    -- panics
  | .other => none                                    -- panics
/-- `GameSPlayerDetails::parse`, the reader of the elements of `NNet.Game.CPlayerDetailsArray`, whatever that is declared to be
(/repo/src/generator/decoder_type.rs:209-214).  Simplification: only for the declaration as an array of that struct. -/
def vgenPlayers : VDecl → Option VTy
  | .array (.named n d) => if n = "NNet.Game.SPlayerDetails" then vgenDecl d else none
  | _ => none
/-- `parse` of a byte-aligned `StructType`: constants skipped, a member read by its tag
(/repo/src/generator/decoder_type.rs:423-671). -/
def vgenMembers : VMembers → Option VFields
  | .nil => some .nil
  | .const rest => vgenMembers rest
  | .member none _ _ _ => none                        -- `unwrap` of `tag.value` panics, unless it is the only field (not modelled)
  | .member (some tag) name t rest =>
    match vgenMember t, vgenMembers rest with
    | some ty, some fs =>
      some (.cons tag name tag (fieldKind t) ty fs)
    | _, _ => none
/-- The payload of a variant (/repo/src/generator/decoder_type.rs:1008-1056). -/
def vgenPayload : VDesc → Option VTy
  | .named n d =>
    match byteTable n with
    | some (.int k) => some (.int k)
    | some .blob => some .blob
    | some .bool => some .bool
    | some .fourcc => some .fourcc
    | some .user => vgenDecl d
    | _ => none                                       -- one element where the type says `Vec`; placeholders; panics
  | .bool => some .bool
  | .fourcc => some .fourcc
  | .blob => some .blob
  | .string => some .blob
  | _ => none                                         -- `Option<"IntType">`, with the quotes; placeholders; panics
/-- The arms of `match variant_tag`: a variant of type `NullType` is skipped
(/repo/src/generator/decoder_type.rs:1001-1066). -/
def vgenVariants : VVariants → Option VAlts
  | .nil => some .nil
  | .cons _ _ .null rest => vgenVariants rest
  | .cons tag _ t rest =>
    match vgenPayload t, vgenVariants rest with
    | some ty, some alts => some (.cons tag ty alts)
    | _, _ => none
/-- The arms of an `EnumType` (/repo/src/generator/decoder_type.rs:1651-1697). -/
def vgenValues : VValues → Option VAlts
  | .nil => some .nil
  | .plain value _ rest => (vgenValues rest).map (.cons value .null)
  | .event value _ _ d rest =>
    match vgenDecl d, vgenValues rest with
    | some ty, some alts => some (.cons value ty alts)
    | _, _ => none
/-- `gen_proto_code` for the byte-aligned module (/repo/src/generator/proto_morphist.rs:379-545). -/
def vgenDecl : VDecl → Option VTy
  | .struct fs => (vgenMembers fs).map .struct
  | .choice vs => (vgenVariants vs).map (.choice false)
  | .enum vs => (vgenValues vs).map (.choice true)
  | .int _ => some (.int .i64)                        -- 1187-1205: the bounds are not looked at
  | .user _ => none                                   -- `UserType is not supported for ByteAligned` panics
  | .blob => none                                     -- panics
  | .string => none                                   -- panics
  | .bitArray => none                                 -- panics
  | .array (.named n d) => if emitted n then (vgenDecl d).map .arr else none   -- 1537-1551: `Name::parse` must be in the module
  | .array _ => none                                  -- `unwrap` of `element_type.fullname` panics
end

end S2.Generator
