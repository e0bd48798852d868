import Verif.Misc.Generator
/-!
# Parsers generated for a protocol description (bit-packed module)

The description is a tree: a reference by `fullname` is replaced by the declaration it names, because the
generated text calls the parser of that name and the order of items in a Rust module is irrelevant.  (The
names themselves, and hence collisions of names, are not modelled here; the declaration whose text is emitted for a
name is taken to be the one the description means.)

`none` means that there is no usable parser: the generator panics (`Unsupported type`, `expect`, `unwrap`), or the
text it writes cannot be compiled (an unfilled `{}` or a value of the wrong type).  Which of both is said at each case.

`nom::multi::count(p, n)(tail)` in the emitted text is read as in nom 7, with which the bundled modules were generated; with the nom 8 of
`Cargo.toml` the call needs `.parse(tail)`, as the bundled modules have been changed to.
-/
namespace S2.Generator
open S2

mutual
/-- `type_info` of a member, an element or a variant: `fullname` if present (`ref`), else `type`
(/repo/src/generator/decoder_type.rs:700-707, 1086-1092). -/
inductive Desc
  | ref (d : Decl)
  | bool
  | null
  | fourcc
  | int (b : Bounds)
  | blob (b : Bounds)
  | string (b : Bounds)
  | ascii (b : Bounds)
  | bitArray (b : Bounds)
  | array (b : Bounds) (elem : Desc)
  | dynArray (b : Bounds) (elem : Desc)
  | optional (t : Desc)
  | choice (vs : Variants)
  /-- any other `type` -/
  | other
/-- A declaration of the module (/repo/src/generator/proto_morphist.rs:379-545). -/
inductive Decl
  | struct (fs : Members)
  | choice (vs : Variants)
  | enum (vs : Values)
  | int (b : Bounds)
  | bitArray (b : Bounds)
  | user (d : Decl)
  | blob (b : Bounds)
  | string (b : Bounds)
  | array (b : Bounds) (elem : Desc)
/-- `fields` of a `StructType`: constants and members (/repo/src/generator/decoder_type.rs:698-715). -/
inductive Members
  | nil
  | const (rest : Members)
  | member (name : String) (t : Desc) (rest : Members)
/-- `fields` of a `ChoiceType`: `tag.value` and type (/repo/src/generator/decoder_type.rs:1081-1107). -/
inductive Variants
  | nil
  | cons (tag : Int) (t : Desc) (rest : Variants)
/-- `fields` of an `EnumType`: the value, and the struct that the table of tags has for it, if any
(/repo/src/generator/decoder_type.rs:1651-1690). -/
inductive Values
  | nil
  | plain (value : Int) (rest : Values)
  | event (value : Int) (d : Decl) (rest : Values)
end

/-- Number of variants (/repo/src/generator/proto_morphist.rs:432-435). -/
def Variants.count : Variants → Nat
  | .nil => 0
  | .cons _ _ rest => rest.count + 1

/-- Number of values (/repo/src/generator/proto_morphist.rs:449-452). -/
def Values.count : Values → Nat
  | .nil => 0
  | .plain _ rest => rest.count + 1
  | .event _ _ rest => rest.count + 1

mutual
/-- `parse_<field>` of a member of a bit-packed struct (/repo/src/generator/decoder_type.rs:716-984, and the table
`bit_packed_from_nnet_name`, 249-304). -/
def genMember (name : String) : Desc → Option BTy
  | .ref d => genDecl d                                    -- `Name::parse(input)`
  | .bool => some .bool
  | .null => some .null
  | .fourcc => some .fourcc
  | .int b => some (.int b.min (maxBits b))                -- 832-841: neither the sign bit nor the power of `intBits`
  | .blob b => some (.byteArr (log2p1 b.max))              -- 922-950 with `take_unaligned_byte`: no `byte_align`
  | .string b => some (.byteArr (log2p1 b.max))
  | .ascii b => some (.byteArr (log2p1 b.max))
  | .bitArray _ => none                                    -- 818-823: `from_nnet_name("u8")` panics
  | .array b (.ref d) => (genDecl d).map (.arr (log2p1 b.max))
  | .array _ _ => none                                     -- `expect` of `element_type.fullname` panics
  | .dynArray b (.ref d) => (genDecl d).map (.arr (log2p1 b.max))
  | .dynArray _ _ => none
  | .optional t => genOptional t
  | .choice vs =>                                          -- any other name: `Unsupported type` panics
    if name = "m_eventData" then (genVariants vs).map (.choice (tagBits vs.count)) else none
  | .other => none                                         -- `Unsupported type` panics
/-- An `OptionalType` member: `parse_bool(input)` and, for integers and everything with a length, a read that starts
at `input` again (/repo/src/generator/decoder_type.rs:741-803, 869-921). -/
def genOptional : Desc → Option BTy
  | .ref d => (genDecl d).map .opt
  | .bool => some (.opt .bool)
  | .null => some (.opt .null)
  | .fourcc => some (.opt .fourcc)
  | .int b => some (.optRewind (.int b.min (maxBits b)))
  | .blob b => some (.optRewind (.byteArr (log2p1 b.max)))
  | .string b => some (.optRewind (.byteArr (log2p1 b.max)))
  | .ascii b => some (.optRewind (.byteArr (log2p1 b.max)))
  | .bitArray _ => none                                    -- panics
  | .array b (.ref d) => (genDecl d).map (fun t => .optRewind (.arr (log2p1 b.max) t))
  | .array _ _ => none                                     -- panics
  | .dynArray _ _ => none                                  -- `{}` is left in the text
  | .optional _ => none                                    -- `{}` is left in the text
  | .choice _ => none                                      -- panics
  | .other => none
/-- `parse` of a bit-packed `StructType`: the members in order, constants skipped
(/repo/src/generator/decoder_type.rs:680-984). -/
def genMembers : Members → Option BFields
  | .nil => some .nil
  | .const rest => genMembers rest
  | .member name t rest =>
    match genMember name t, genMembers rest with
    | some ty, some fs => some (.cons name ty fs)
    | _, _ => none
/-- The payload of a variant (/repo/src/generator/decoder_type.rs:1086-1150). -/
def genPayload : Desc → Option BTy
  | .ref d => genDecl d
  | .bool => some .bool
  | .null => some .null
  | .fourcc => some .fourcc
  | .optional (.ref d) => (genDecl d).map .opt
  | _ => none                      -- `{}` left, a string literal as a type, a byte where bytes are expected; or a panic
/-- The arms of `match variant_tag` (/repo/src/generator/decoder_type.rs:1081-1160). -/
def genVariants : Variants → Option BAlts
  | .nil => some .nil
  | .cons tag t rest =>
    match genPayload t, genVariants rest with
    | some ty, some alts => some (.cons tag ty alts)
    | _, _ => none
/-- The arms of an `EnumType` (/repo/src/generator/decoder_type.rs:1651-1697). -/
def genValues : Values → Option BAlts
  | .nil => some .nil
  | .plain value rest => (genValues rest).map (.cons value .null)
  | .event value d rest =>
    match genDecl d, genValues rest with
    | some ty, some alts => some (.cons value ty alts)
    | _, _ => none
/-- `gen_proto_code` for the bit-packed module (/repo/src/generator/proto_morphist.rs:379-545).  Simplification: the
asserted kinds of constraint (`MinMaxConstraint`, `ExactConstraint`) are taken for granted. -/
def genDecl : Decl → Option BTy
  | .struct fs => (genMembers fs).map .struct
  | .choice vs => (genVariants vs).map (.choice (tagBits vs.count))       -- 336-357, 1074-1161
  | .enum vs => (genValues vs).map (.choice (tagBits vs.count))
  | .int b => some (intType b)
  | .bitArray b => if b.min = 0 then some (bitArrayType b) else none     -- asserted, 1363
  | .user d => genDecl d
  | .blob b =>                     -- `take_bit_array(tail, maxBits b)` (`blobParse`); here only if that is a number of whole bytes
    if b.min = b.max ∧ maxBits b % 8 = 0 then some (.aligned (maxBits b / 8)) else none
  | .string b => if b.min = 0 then some (stringType b) else none          -- asserted, 1448
  | .array b (.ref d) => (genDecl d).map (arrayType b)
  | .array _ _ => none             -- `unwrap` of `element_type.fullname` panics
end

end S2.Generator
