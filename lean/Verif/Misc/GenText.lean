import Verif.Misc.GenBytes
/-!
# The text that the generator writes for the byte-aligned module

The pieces of text in the order in which they are pushed.  `none` is a panic.

Simplifications.
* Names are converted by `convert_case` (`to_case`, with `NNet` and dots removed) and numbers are copied from the description as they stand there: the
  three conversions are parameters (`Naming`).
* White space at the ends of pieces is as in the source; the indentation inside the few literals that are continued without `\` is one blank.
-/
namespace S2.Generator
open S2

/-- Text. [`String`] -/
abbrev Txt := List Char

/-- A literal piece of text. [`&str`] -/
def lit (s : String) : Txt := s.toList

/-- The conversions of names and numbers: `str_nnet_name_to_rust_name`, `to_case(Case::Snake)`, the literal of a tag
(/repo/src/generator/proto_morphist.rs:578-590, decoder_type.rs:470). -/
structure Naming where
  rust : String → Txt
  snake : String → Txt
  num : Int → Txt

/-- `ProtoTypeConversion` (/repo/src/generator/mod.rs:20-36; `is_sized_int` is never set for the byte-aligned module). -/
structure Morph where
  rustTy : Txt
  parser : Txt
  doTryFrom : Bool := false
  isOptional : Bool := false
  isVec : Bool := false
  deriving DecidableEq

/-- `s.replace("{}", x)` (std). -/
def replaceHole (x : Txt) : Txt → Txt
  | [] => []
  | '{' :: '}' :: r => x ++ replaceHole x r
  | c :: r => c :: replaceHole x r

/-- The arms of `byte_aligned_from_nnet_name`, in order: names and texts (/repo/src/generator/decoder_type.rs:100-245). -/
def morphTable : List (List String × Morph) :=
  [(["NNet.uint8", "NNet.Replay.EReplayType", "NNet.uint6", "NNet.Game.TPlayerId", "NNet.Game.TControlId",
      "NNet.Game.TTeamId", "NNet.Replay.Tracker.TUIntMiniBits"], ⟨lit "u8", lit "tagged_vlq_int", true, false, false⟩),
   (["NNet.uint32", "NNet.uint14", "NNet.uint22", "NNet.Game.TDifficulty", "NNet.Game.THandicap"],
      ⟨lit "u32", lit "tagged_vlq_int", true, false, false⟩),
   (["NNet.int32", "NNet.Game.TFixedBits"], ⟨lit "i32", lit "tagged_vlq_int", true, false, false⟩),
   (["NNet.SVersion"], ⟨lit "SVersion", lit "SVersion::parse", false, false, false⟩),
   (["NNet.Game.TColorId", "NNet.int64"], ⟨lit "i64", lit "tagged_vlq_int", true, false, false⟩),
   (["NNet.uint64"], ⟨lit "u64", lit "tagged_vlq_int", true, false, false⟩),
   (["FourCCType"], ⟨lit "u32", lit "tagged_fourcc", false, false, false⟩),
   (["BlobType", "NNet.Replay.CSignature", "StringType", "NNet.Replay.Tracker.CatalogName", "NNet.Game.CCacheHandle",
      "NNet.CFilePath", "NNet.CUserName"], ⟨lit "Vec<u8>", lit "tagged_blob", false, false, false⟩),
   (["BoolType"], ⟨lit "bool", lit "tagged_bool", false, false, false⟩),
   (["OptionalType"], ⟨lit "Option<{}>", lit "{}", false, true, false⟩),
   (["ArrayType", "DynArrayType", "NNet.CUserArchiveDataArray", "NNet.CUserInitialDataArray"],
      ⟨lit "Vec<{}>", lit "{}", false, false, true⟩),
   (["NNet.SMD5"], ⟨lit "Smd5", lit "Smd5::parse", false, false, false⟩),
   (["NNet.EObserve"], ⟨lit "EObserve", lit "EObserve::parse", false, false, false⟩),
   (["NNet.Game.EResultDetails"], ⟨lit "GameEResultDetails", lit "GameEResultDetails::parse", false, false, false⟩),
   (["NNet.Game.CCacheHandles"], ⟨lit "Vec<Vec<u8>>", lit "tagged_blob", false, false, true⟩),
   (["NNet.Replay.Tracker.SPlayerStats"], ⟨lit "ReplayTrackerSPlayerStats", lit "ReplayTrackerSPlayerStats::parse", false, false, false⟩),
   (["NNet.Game.CPlayerDetailsArray"], ⟨lit "Vec<GameSPlayerDetails>", lit "GameSPlayerDetails::parse", false, false, true⟩),
   (["NNet.Game.SThumbnail"], ⟨lit "GameSThumbnail", lit "GameSThumbnail::parse", false, false, false⟩),
   (["NNet.Game.CModPaths"], ⟨lit "Vec<Vec<u8>>", lit "tagged_blob", false, false, true⟩),
   (["NNet.Game.EGameSpeed"], ⟨lit "GameEGameSpeed", lit "GameEGameSpeed::parse", false, false, false⟩),
   (["NNet.Game.SToonNameDetails"], ⟨lit "GameSToonNameDetails", lit "GameSToonNameDetails::parse", false, false, false⟩),
   (["NNet.Game.SColor"], ⟨lit "GameSColor", lit "GameSColor::parse", false, false, false⟩)]

/-- `byte_aligned_from_nnet_name`: the first arm with that name, else a panic (/repo/src/generator/decoder_type.rs:100-245). -/
def nnetMorph (n : String) : Option Morph := (morphTable.find? (fun p => decide (n ∈ p.1))).map Prod.snd

/-- `type_info.type` (/repo/src/generator/decoder_type.rs:460, 1022). -/
def VDesc.kind : VDesc → String
  | .named .. => "UserType"
  | .bool => "BoolType"
  | .null => "NullType"
  | .fourcc => "FourCCType"
  | .int _ => "IntType"
  | .blob => "BlobType"
  | .string => "StringType"
  | .optional _ => "OptionalType"
  | .array _ => "ArrayType"
  | .dynArray _ => "DynArrayType"
  | .other => "BitArrayType"

/-- `type_info.fullname`, else `type_info.type` (/repo/src/generator/decoder_type.rs:456-462). -/
def VDesc.info : VDesc → String
  | .named n _ => n
  | t => t.kind

/-- `element_type.fullname`, expected (/repo/src/generator/decoder_type.rs:486-488, 515-517). -/
def VDesc.elemMorph : VDesc → Option Morph
  | .named n _ => nnetMorph n
  | _ => none

/-- The enclosed type of an optional member (/repo/src/generator/decoder_type.rs:482-511). -/
def enclosedMorph : VDesc → Option Morph
  | .array e => do
    let m ← e.elemMorph
    some { m with rustTy := lit "Vec<" ++ m.rustTy ++ lit ">", isVec := true, isOptional := true }
  | t => nnetMorph t.info

/-- What is known of a member before its text is written (/repo/src/generator/decoder_type.rs:473-525). -/
def fieldMorph (t : VDesc) : Option Morph := do
  let m ← nnetMorph t.info
  match t with
  | .optional e =>
    let i ← enclosedMorph e
    some { rustTy := replaceHole i.rustTy m.rustTy, parser := replaceHole i.parser m.parser, doTryFrom := i.doTryFrom, isVec := i.isVec, isOptional := true }
  | .array e =>
    let i ← e.elemMorph
    some { rustTy := replaceHole i.rustTy m.rustTy, parser := replaceHole i.parser m.parser, doTryFrom := i.doTryFrom, isVec := true, isOptional := m.isOptional }
  | _ => some m

/-- `open_byte_aligned_struct_main_parse_fn` (/repo/src/generator/decoder_type.rs:26-34). -/
def openStruct (proto name : Txt) : Txt :=
  lit "#[tracing::instrument(name=\"" ++ proto ++ lit "::byte_aligned::" ++ name ++
  lit "::Parse\", level = \"trace\", skip(input), fields(peek = peek_hex(input)))]\npub fn parse(input: &[u8]) -> S2ProtoResult<&[u8], Self> {\nlet (tail, _) = validate_struct_tag(input)?;\nlet (mut tail, struct_field_count) = parse_vlq_int(tail)?;\n"

/-- The four accumulators of a struct: the type, the functions of the members, the arms and the returned value; and the variables
(/repo/src/generator/decoder_type.rs:432-451). -/
structure StructText where
  typeDef : Txt
  lets : Txt
  fns : Txt
  arms : Txt
  ret : Txt

/-- The variable of a member (/repo/src/generator/decoder_type.rs:529-539). -/
def letText (f : Txt) (m : Morph) : Txt :=
  if m.isOptional then lit "let mut " ++ f ++ lit ": Option<" ++ m.rustTy ++ lit "> = Some(None);\n"
  else lit "let mut " ++ f ++ lit ": Option<" ++ m.rustTy ++ lit "> = None;\n"

/-- The guard of a member (/repo/src/generator/decoder_type.rs:552-559). -/
def guardText (f : Txt) (m : Morph) : Txt :=
  if m.isOptional then lit " if let Some(None) = " ++ f ++ lit " " else lit " if " ++ f ++ lit ".is_none()"

/-- The arm of a tagged member (/repo/src/generator/decoder_type.rs:540-574). -/
def taggedArm (f tag : Txt) (m : Morph) : Txt :=
  lit " " ++ tag ++ lit " => {\ntracing::debug!(\"Field [{i}]: tagged '" ++ tag ++ lit "' for field " ++ f ++ lit "\");\n" ++ guardText f m ++
  lit " {\nlet (new_tail, parsed_" ++ f ++ lit ") = Self::parse_" ++ f ++ lit "(tail)?;\ntail = new_tail;\n" ++ f ++ lit " = Some(parsed_" ++ f ++
  lit ");\ncontinue;\n} else {\ntracing::error!(\"Field " ++ f ++ lit " with tag " ++ tag ++
  lit " was already provided\");\nreturn Err(S2ProtocolError::DuplicateTag(String::from(\"" ++ f ++ lit "\"), proto_field_tag));\n}\n},\n"

/-- The code of an untagged member (/repo/src/generator/decoder_type.rs:552-559, 575-583). -/
def untaggedArm (f : Txt) (m : Morph) : Txt :=
  guardText f m ++ lit " {\nlet (new_tail, parsed_" ++ f ++ lit ") = Self::parse_" ++ f ++ lit "(tail)?;\ntail = new_tail;\n" ++ f ++
  lit " = Some(parsed_" ++ f ++ lit ");\n}\n"

/-- The loop over an array (/repo/src/generator/decoder_type.rs:600-610, 621-633). -/
def arrayText (src : Txt) (m : Morph) : Txt :=
  lit "let (tail, _) = validate_array_tag(" ++ src ++
  lit ")?;\nlet (tail, array_length) = parse_vlq_int(tail)?;\ntracing::debug!(\"Reading array length: {array_length}\");\nlet (tail, array) = nom::multi::count(" ++
  m.parser ++ lit ", array_length as usize)(tail)?;\n" ++
  (if m.doTryFrom then lit "let array = array.iter().map(|val| <_>::try_from(*val)?).collect();\n" else [])

/-- `parse_<field>` (/repo/src/generator/decoder_type.rs:587-652). -/
def fieldFn (f : Txt) (m : Morph) : Txt :=
  lit "#[tracing::instrument(level = \"trace\", skip(input), fields(peek = peek_hex(input)))]\npub fn parse_" ++ f ++
  lit "(input: &[u8]) -> S2ProtoResult<&[u8], " ++ m.rustTy ++ lit "> {\n" ++
  (if m.isOptional then
    lit "let (tail, _) = validate_opt_tag(input)?;\nlet (tail, is_provided) = nom::number::complete::u8(tail)?;\nlet (tail, " ++ f ++
    lit ") = if is_provided != 0 {\n" ++
    (if m.isVec then arrayText (lit "tail") m ++ lit "(tail, Some(array))"
     else lit "let (tail, res) = " ++ m.parser ++ lit "(tail)?;\n" ++
      (if m.doTryFrom then lit "    (tail, Some(<_>::try_from(res)?))\n" else lit "    (tail, Some(res))\n")) ++
    lit "} else {\n    (tail, None)\n};\n    tracing::debug!(\"" ++ f ++ lit ": {:?}\", " ++ f ++ lit ");\nOk((tail, " ++ f ++ lit "))\n"
   else if m.isVec then arrayText (lit "input") m ++ lit "Ok((tail, array))\n"
   else
    lit " let (tail, " ++ f ++ lit ") = " ++ m.parser ++ lit "(input)?;\n" ++
    (if m.doTryFrom then lit "        Ok((tail, " ++ m.rustTy ++ lit "::try_from(" ++ f ++ lit ")?))\n"
     else lit "        Ok((tail, " ++ f ++ lit "))\n")) ++
  lit "}\n"

/-- Number of fields, constants included (/repo/src/generator/decoder_type.rs:431-432). -/
def VMembers.length : VMembers → Nat
  | .nil => 0
  | .const rest => rest.length + 1
  | .member _ _ _ rest => rest.length + 1

/-- Has the first field a tag?  (A constant has none.) (/repo/src/generator/decoder_type.rs:432) -/
def VMembers.firstTagged : VMembers → Bool
  | .member (some _) .. => true
  | _ => false

/-- `has_tags` (/repo/src/generator/decoder_type.rs:432). -/
def VMembers.hasTags (fs : VMembers) : Bool := !(fs.length == 1 && !fs.firstTagged)

/-- The arm, or the code without a tag; `none` where `tag.value` is unwrapped and missing
(/repo/src/generator/decoder_type.rs:540-583). -/
def armText (nm : Naming) (tagged : Bool) (tag : Option Int) (f : Txt) (m : Morph) : Option Txt :=
  if tagged then tag.map (fun t => taggedArm f (nm.num t) m) else some (untaggedArm f m)

/-- The loop over the fields (/repo/src/generator/decoder_type.rs:453-653). -/
def membersText (nm : Naming) (tagged : Bool) : VMembers → StructText → Option StructText
  | .nil, a => some a
  | .const rest, a => membersText nm tagged rest a
  | .member tag name t rest, a => do
    let m ← fieldMorph t
    let arm ← armText nm tagged tag (nm.snake name) m
    membersText nm tagged rest
      { typeDef := a.typeDef ++ (lit "    pub " ++ nm.snake name ++ lit ": " ++ m.rustTy ++ lit ",\n")
        lets := a.lets ++ letText (nm.snake name) m
        fns := a.fns ++ fieldFn (nm.snake name) m
        arms := a.arms ++ arm
        ret := a.ret ++ (nm.snake name ++ lit ": ok_or_return_missing_field_err!(" ++ nm.snake name ++ lit "),\n") }

/-- `gen_byte_aligned_proto_struct_code`: the type and the functions
(/repo/src/generator/decoder_type.rs:423-671). -/
def structText (nm : Naming) (proto name : Txt) (fs : VMembers) : Option (Txt × Txt) := do
  let a ← membersText nm fs.hasTags fs
    { typeDef := [], lets := [], fns := []
      arms := if fs.hasTags then
        lit "for i in 0..(struct_field_count as usize) {\nlet (new_tail, field_tag) = parse_vlq_int(tail)?;\ntail = new_tail;\nmatch field_tag {\n" else []
      ret := lit "Ok((tail, Self {" }
  let arms := if fs.hasTags then
      a.arms ++ lit "\n _ => {\ntracing::error!(\"Unknown tag {field_tag}\");\nErr(S2ProtocolError::UnknownTag(variant_tag))\n},\n}\n}"
    else a.arms
  some (a.typeDef, a.fns ++ (openStruct proto name ++ a.lets ++ arms ++ (a.ret ++ lit "}))\n")))

/-- The type of a variant and its reader (/repo/src/generator/decoder_type.rs:1015-1024). -/
def variantMorph (t : VDesc) : Option Morph := do
  let m ← nnetMorph t.info
  match t with
  | .optional e =>
    some { m with rustTy := replaceHole (lit "\"" ++ lit e.kind ++ lit "\"") m.rustTy, parser := replaceHole (lit "\"" ++ lit e.kind ++ lit "\"") m.parser }
  | _ => some m

/-- The arm of a variant (/repo/src/generator/decoder_type.rs:1030-1056). -/
def variantArm (tag v : Txt) (opt : Bool) (m : Morph) : Txt :=
  lit " " ++ tag ++ lit " => {\ntracing::debug!(\"Variant tagged '" ++ tag ++ lit "' for " ++ v ++ lit "\");\n" ++
  (if opt then
    lit "let (tail, _) = validate_opt_tag(tail)?;\nlet (tail, is_provided) = nom::number::complete::u8(tail)?;\nif is_provided != 0 {\nlet (tail, res) = " ++
    m.parser ++ lit "(tail)?;\n    Ok((tail, Self::" ++ v ++ lit "(Some(res))))\n} else {\n    Ok((tail, Self::" ++ v ++ lit "(None)))\n}\n"
   else
    lit "let (tail, res) = " ++ m.parser ++ lit "(tail)?;\n" ++
    (if m.doTryFrom then lit "    Ok((tail, Self::" ++ v ++ lit "(" ++ m.rustTy ++ lit "::try_from(res)?)))\n"
     else lit "    Ok((tail, Self::" ++ v ++ lit "(res)))\n")) ++
  lit "    },\n"

/-- The loop over the variants: type and arms; `NullType` is skipped (/repo/src/generator/decoder_type.rs:1001-1057). -/
def variantsText (nm : Naming) : VVariants → Option (Txt × Txt)
  | .nil => some ([], [])
  | .cons _ _ .null rest => variantsText nm rest
  | .cons tag name t rest => do
    let m ← variantMorph t
    let (ty, arms) ← variantsText nm rest
    some (lit "    " ++ nm.rust name ++ lit "(" ++ m.rustTy ++ lit "),\n" ++ ty,
      variantArm (nm.num tag) (nm.rust name) (t.info == "OptionalType") m ++ arms)

/-- `open_byte_aligned_choice_main_parse_fn`, `gen_byte_aligned_proto_choice_code`
(/repo/src/generator/decoder_type.rs:316-328, 363-378, 989-1066). -/
def choiceText (nm : Naming) (proto name : Txt) (vs : VVariants) : Option (Txt × Txt) := do
  let (ty, arms) ← variantsText nm vs
  some (ty, lit "#[tracing::instrument(name=\"" ++ proto ++ lit "::" ++ name ++
    lit "::ChoiceType::parse\", level = \"trace\", skip(input), fields(peek = peek_hex(input)))]\npub fn parse(input: &[u8]) -> S2ProtoResult<&[u8], Self> {\nlet (tail, _) = validate_choice_tag(input)?;\nlet (tail, variant_tag) = parse_vlq_int(tail)?;\nmatch variant_tag {" ++
    arms ++ lit "\n _ => {\ntracing::error!(\"Unknown variant for tag {variant_tag}\");\nErr(S2ProtocolError::UnknownTag(variant_tag))\n},\n}")

/-- The variants and arms of an `EnumType` (/repo/src/generator/decoder_type.rs:1651-1690). -/
def valuesText (nm : Naming) : VValues → Txt × Txt
  | .nil => ([], [])
  | .plain value name rest =>
    (lit "    " ++ nm.rust name ++ lit ",\n" ++ (valuesText nm rest).1,
     lit " " ++ nm.num value ++ lit " => {\ntracing::debug!(\"Variant " ++ nm.rust name ++ lit " for value '" ++ nm.num value ++ lit "'\");\n" ++
     lit "Ok((tail, Self::" ++ nm.rust name ++ lit "))\n},\n" ++ (valuesText nm rest).2)
  | .event value name struct _ rest =>
    (lit "    " ++ nm.rust name ++ lit "(" ++ nm.rust struct ++ lit ")" ++ lit ",\n" ++ (valuesText nm rest).1,
     lit " " ++ nm.num value ++ lit " => {\ntracing::debug!(\"Variant " ++ nm.rust name ++ lit " for value '" ++ nm.num value ++ lit "'\");\n" ++
     lit "\n let (tail, res) = " ++ nm.rust struct ++ lit "::parse(tail)?;\n Ok((tail, Self::" ++ nm.rust name ++ lit "(res)))\n},\n" ++ (valuesText nm rest).2)

/-- `open_byte_aligned_enum_main_parse_fn`, `gen_agnostic_proto_enum_code` and the first brace of
`close_byte_aligned_enum_main_parse_fn` (/repo/src/generator/decoder_type.rs:1573-1592, 1644-1697). -/
def enumText (nm : Naming) (proto name : Txt) (vs : VValues) : Txt × Txt :=
  ((valuesText nm vs).1, lit "#[tracing::instrument(name=\"" ++ proto ++ lit "::" ++ name ++
    lit "::Parse\", level = \"trace\", skip(input), fields(peek = peek_hex(input)))]\npub fn parse(input: &[u8]) -> S2ProtoResult<&[u8], Self> {\nlet (tail, _) = validate_int_tag(input)?;\nlet (tail, variant_tag) = parse_vlq_int(tail)?;\nmatch variant_tag {\n" ++
    (valuesText nm vs).2 ++ lit "\n _ => {\ntracing::error!(\"Unknown variant value {variant_tag}\");\nErr(S2ProtocolError::UnknownTag(variant_tag))\n},\n\n }\n")

/-- `open_byte_aligned_int_main_parse_fn` (/repo/src/generator/decoder_type.rs:1187-1200, 1722-1730). -/
def intText (proto name : Txt) : Txt × Txt :=
  (lit "    pub value: i64,", lit "#[tracing::instrument(name=\"" ++ proto ++ lit "::" ++ name ++
    lit "::IntType::Parse\", level = \"trace\", skip(input), fields(peek = peek_hex(input)))]\npub fn parse(input: &[u8]) -> S2ProtoResult<&[u8], Self> {\nlet (tail, _) = validate_int_tag(input)?;\nlet (tail, value) = parse_vlq_int(tail)?;\nOk((tail, Self { value }))\n")

/-- `open_byte_aligned_array_main_parse_fn` (/repo/src/generator/decoder_type.rs:1537-1551, 1884-1892). -/
def arrayDeclText (proto name elem : Txt) : Txt × Txt :=
  (lit "    pub value: Vec<" ++ elem ++ lit ">,", lit "#[tracing::instrument(name=\"" ++ proto ++ lit "::" ++ name ++
    lit "::ArrayType::Parse\", level = \"trace\", skip(input), fields(peek = peek_hex(input)))]\npub fn parse(input: &[u8]) -> S2ProtoResult<&[u8], Self> {\nlet (tail, _) = validate_array_tag(input)?;\nlet (tail, array_length) = parse_vlq_int(tail)?;\ntracing::debug!(\"Reading array length: {array_length}\");\nlet (tail, value) = nom::multi::count(" ++
    elem ++ lit "::parse, array_length as usize)(tail)?;\nOk((tail, Self { value }))\n")

/-- `open_type_def_skel` (/repo/src/generator/proto_morphist.rs:550-565, 593-612). -/
def VDecl.keyword : VDecl → Txt
  | .choice _ => lit "enum"
  | .enum _ => lit "enum"
  | _ => lit "struct"

/-- The members and the functions of a declaration; the last brace of the functions is left out
(/repo/src/generator/proto_morphist.rs:411-525). -/
def bodyText (nm : Naming) (proto name : Txt) : VDecl → Option (Txt × Txt)
  | .struct fs => structText nm proto name fs
  | .choice vs => choiceText nm proto name vs
  | .enum vs => some (enumText nm proto name vs)
  | .int _ => some (intText proto name)
  | .array (.named n _) => some (arrayDeclText proto name (nm.rust n))
  | .array _ => none                          -- `unwrap`
  | .user _ => none                           -- panics (decoder_type.rs:1870)
  | .blob => none                             -- panics (1561)
  | .string => none                           -- panics (1429)
  | .bitArray => none                         -- panics (1388)

/-- `gen_proto_code`: the text written for a declaration (/repo/src/generator/proto_morphist.rs:379-545). -/
def declText (nm : Naming) (proto : Txt) (n : String) (d : VDecl) : Option Txt := do
  let (ty, fns) ← bodyText nm proto (nm.rust n) d
  some (lit "\n#[derive(Debug, PartialEq, Clone)]\npub " ++ d.keyword ++ lit " " ++ nm.rust n ++ lit " {\n" ++ ty ++ lit "}\n" ++
    (lit "impl " ++ nm.rust n ++ lit " {\n" ++ fns ++ lit "}" ++ lit "}\n" ++ lit "\n"))

/-- The declarations of the module, in order: only those with an emitted name
(/repo/src/generator/proto_morphist.rs:156-206).  One list of declarations stands for the nested
modules; that their walk gives the same text is `C171_same_text_partial`. -/
def declsText (nm : Naming) (proto : Txt) : List (String × VDecl) → Option Txt
  | [] => some []
  | (n, d) :: rest =>
    if emitted n then do
      let t ← declText nm proto n d
      let ts ← declsText nm proto rest
      some (t ++ ts)
    else declsText nm proto rest

/-- `gen_byte_aligned_mod` (/repo/src/generator/proto_morphist.rs:55-70, 86-97, 147-210).  Simplification: the comment at the head of the module is left out. -/
def moduleText (nm : Naming) (proto : Txt) (ds : List (String × VDecl)) : Option Txt := do
  let ts ← declsText nm proto ds
  some (lit "pub mod byte_aligned {\n" ++ lit "use crate::*;\nuse nom_mpq::parser::peek_hex;\n" ++ ts ++ lit "}\n")

end S2.Generator
