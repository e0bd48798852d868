import Verif.Props.GenText
import Verif.Spec.GenBitCodeSpec
/-! # Delimiters of the pieces of generated bit-packed text

For each literal piece of `Verif/Misc/GenBitCode.lean` the delimiters it needs and leaves (written by a script, checked by the kernel). -/
namespace S2.Generator
open S2

theorem blit0 (s : List Char) : awaited (s) (lit "bool") = some (s) :=
  awaited_frame [] [] _ (by decide +kernel) s
theorem blit1 (s : List Char) : awaited (s) (lit "Option<{}>") = some (s) :=
  awaited_frame [] [] _ (by decide +kernel) s
theorem blit2 (s : List Char) : awaited (s) (lit "Vec<{}>") = some (s) :=
  awaited_frame [] [] _ (by decide +kernel) s
theorem blit3 (s : List Char) : awaited (s) (lit "Vec<u8>") = some (s) :=
  awaited_frame [] [] _ (by decide +kernel) s
theorem blit4 (s : List Char) : awaited (s) (lit "i64") = some (s) :=
  awaited_frame [] [] _ (by decide +kernel) s
theorem blit5 (s : List Char) : awaited (s) (lit "()") = some (s) :=
  awaited_frame [] [] _ (by decide +kernel) s
theorem blit6 (s : List Char) : awaited (s) (lit "input") = some (s) :=
  awaited_frame [] [] _ (by decide +kernel) s
theorem blit7 (s : List Char) : awaited (s) (lit "Vec<") = some (s) :=
  awaited_frame [] [] _ (by decide +kernel) s
theorem blit8 (s : List Char) : awaited (s) (lit ">") = some (s) :=
  awaited_frame [] [] _ (by decide +kernel) s
theorem blit9 (s : List Char) : awaited (s) (lit "tail") = some (s) :=
  awaited_frame [] [] _ (by decide +kernel) s
theorem blit10 (s : List Char) : awaited (s) (lit "array_length") = some (s) :=
  awaited_frame [] [] _ (by decide +kernel) s
theorem blit11 (s : List Char) : awaited (s) (lit "Reading array length: ") = some (s) :=
  awaited_frame [] [] _ (by decide +kernel) s
theorem blit12 (s : List Char) : awaited (s) (lit "array") = some (s) :=
  awaited_frame [] [] _ (by decide +kernel) s
theorem blit13 (s : List Char) : awaited (s) (lit "res") = some (s) :=
  awaited_frame [] [] _ (by decide +kernel) s
theorem blit14 (s : List Char) : awaited (s) (lit "Reading array length: {array_length}") = some (s) :=
  awaited_frame [] [] _ (by decide +kernel) s
theorem blit15 (s : List Char) : awaited (s) (lit "MEventData") = some (s) :=
  awaited_frame [] [] _ (by decide +kernel) s
theorem blit16 (s : List Char) : awaited (s) (lit "\"") = some (s) :=
  awaited_frame [] [] _ (by decide +kernel) s
theorem blit17 (s : List Char) : awaited (s) (lit "    ") = some (s) :=
  awaited_frame [] [] _ (by decide +kernel) s
theorem blit18 (s : List Char) : awaited (s) (lit "(") = some (')' :: s) :=
  awaited_frame [] [')'] _ (by decide +kernel) s
theorem blit19 (s : List Char) : awaited (')' :: s) (lit "),\n") = some (s) :=
  awaited_frame [')'] [] _ (by decide +kernel) s
theorem blit20 (s : List Char) : awaited (s) (lit ",\n") = some (s) :=
  awaited_frame [] [] _ (by decide +kernel) s
theorem blit21 (s : List Char) : awaited (')' :: s) (lit ")") = some (s) :=
  awaited_frame [')'] [] _ (by decide +kernel) s
theorem blit22 (s : List Char) : awaited (s) (lit "ChoiceType:") = some (s) :=
  awaited_frame [] [] _ (by decide +kernel) s
theorem blit23 (s : List Char) : awaited (s) (lit "Use the number of elements in the json .fields to calculate how many") = some (s) :=
  awaited_frame [] [] _ (by decide +kernel) s
theorem blit24 (s : List Char) : awaited (s) (lit "bits to have unique tags.") = some (s) :=
  awaited_frame [] [] _ (by decide +kernel) s
theorem blit25 (s : List Char) : awaited (s) (lit "let num_fields: usize = ") = some (s) :=
  awaited_frame [] [] _ (by decide +kernel) s
theorem blit26 (s : List Char) : awaited (s) (lit ";") = some (s) :=
  awaited_frame [] [] _ (by decide +kernel) s
theorem blit27 (s : List Char) : awaited (s) (lit "num_bits") = some (s) :=
  awaited_frame [] [] _ (by decide +kernel) s
theorem blit28 (s : List Char) : awaited (s) (lit "usize") = some (s) :=
  awaited_frame [] [] _ (by decide +kernel) s
theorem blit29 (s : List Char) : awaited (s) (lit "variant_tag") = some (s) :=
  awaited_frame [] [] _ (by decide +kernel) s
theorem blit30 (s : List Char) : awaited (s) (lit "offset") = some (s) :=
  awaited_frame [] [] _ (by decide +kernel) s
theorem blit31 (s : List Char) : awaited (s) (lit "Total fields: ") = some (s) :=
  awaited_frame [] [] _ (by decide +kernel) s
theorem blit32 (s : List Char) : awaited (s) (lit "bitarray_length_bits") = some (s) :=
  awaited_frame [] [] _ (by decide +kernel) s
theorem blit33 (s : List Char) : awaited (s) (lit "bitarray_length") = some (s) :=
  awaited_frame [] [] _ (by decide +kernel) s
theorem blit34 (s : List Char) : awaited (s) (lit "value") = some (s) :=
  awaited_frame [] [] _ (by decide +kernel) s
theorem blit35 (s : List Char) : awaited (s) (lit "_") = some (s) :=
  awaited_frame [] [] _ (by decide +kernel) s
theorem blit36 (s : List Char) : awaited (s) (lit "str_size_num_bits") = some (s) :=
  awaited_frame [] [] _ (by decide +kernel) s
theorem blit37 (s : List Char) : awaited (s) (lit "str_size") = some (s) :=
  awaited_frame [] [] _ (by decide +kernel) s
theorem blit38 (s : List Char) : awaited (s) (lit "array_length_num_bits") = some (s) :=
  awaited_frame [] [] _ (by decide +kernel) s
theorem blit39 (s : List Char) : awaited (s) (lit "    pub ") = some (s) :=
  awaited_frame [] [] _ (by decide +kernel) s
theorem blit40 (s : List Char) : awaited (s) (lit ": ") = some (s) :=
  awaited_frame [] [] _ (by decide +kernel) s
theorem blit41 (s : List Char) : awaited (s) (lit "bit_packed::") = some (s) :=
  awaited_frame [] [] _ (by decide +kernel) s
theorem blit42 (s : List Char) : awaited (s) (lit "::Parse") = some (s) :=
  awaited_frame [] [] _ (by decide +kernel) s
theorem blit43 (s : List Char) : awaited (s) (lit "::ChoiceType::parse") = some (s) :=
  awaited_frame [] [] _ (by decide +kernel) s
theorem blit44 (s : List Char) : awaited (s) (lit "    pub value: i64,") = some (s) :=
  awaited_frame [] [] _ (by decide +kernel) s
theorem blit45 (s : List Char) : awaited (s) (lit "::IntType::Parse::") = some (s) :=
  awaited_frame [] [] _ (by decide +kernel) s
theorem blit46 (s : List Char) : awaited (s) (lit "PowExpr") = some (s) :=
  awaited_frame [] [] _ (by decide +kernel) s
theorem blit47 (s : List Char) : awaited (s) (lit "MinMaxConstraint") = some (s) :=
  awaited_frame [] [] _ (by decide +kernel) s
theorem blit48 (s : List Char) : awaited (s) (lit "    pub value: Vec<u8>,") = some (s) :=
  awaited_frame [] [] _ (by decide +kernel) s
theorem blit49 (s : List Char) : awaited (s) (lit "::BitArrayType::Parse") = some (s) :=
  awaited_frame [] [] _ (by decide +kernel) s
theorem blit50 (s : List Char) : awaited (s) (lit "    pub value: ") = some (s) :=
  awaited_frame [] [] _ (by decide +kernel) s
theorem blit51 (s : List Char) : awaited (s) (lit ",") = some (s) :=
  awaited_frame [] [] _ (by decide +kernel) s
theorem blit52 (s : List Char) : awaited (s) (lit "::UserType::Parse") = some (s) :=
  awaited_frame [] [] _ (by decide +kernel) s
theorem blit53 (s : List Char) : awaited (s) (lit "::BlobType::Parse") = some (s) :=
  awaited_frame [] [] _ (by decide +kernel) s
theorem blit54 (s : List Char) : awaited (s) (lit "::StringType::Parse") = some (s) :=
  awaited_frame [] [] _ (by decide +kernel) s
theorem blit55 (s : List Char) : awaited (s) (lit "    pub value: Vec<") = some (s) :=
  awaited_frame [] [] _ (by decide +kernel) s
theorem blit56 (s : List Char) : awaited (s) (lit ">,") = some (s) :=
  awaited_frame [] [] _ (by decide +kernel) s
theorem blit57 (s : List Char) : awaited (s) (lit "::ArrayType::Parse") = some (s) :=
  awaited_frame [] [] _ (by decide +kernel) s
theorem blit58 (s : List Char) : awaited (s) (lit "parse_bool") = some (s) :=
  awaited_frame [] [] _ (by decide +kernel) s
theorem blit59 (s : List Char) : awaited (s) (lit "take_null") = some (s) :=
  awaited_frame [] [] _ (by decide +kernel) s
theorem blit60 (s : List Char) : awaited (s) (lit "take_fourcc") = some (s) :=
  awaited_frame [] [] _ (by decide +kernel) s
theorem blit61 (s : List Char) : awaited (s) (lit "take_unaligned_byte") = some (s) :=
  awaited_frame [] [] _ (by decide +kernel) s
theorem blit62 (s : List Char) : awaited (s) (lit "{}") = some (s) :=
  awaited_frame [] [] _ (by decide +kernel) s
theorem blit63 (s : List Char) : awaited (s) (lit "parse_packed_int({})") = some (s) :=
  awaited_frame [] [] _ (by decide +kernel) s
theorem blit64 (s : List Char) : awaited (s) (lit "\"::parse") = some (s) :=
  awaited_frame [] [] _ (by decide +kernel) s
theorem blit65 (s : List Char) : awaited (s) (lit "::parse") = some (s) :=
  awaited_frame [] [] _ (by decide +kernel) s
theorem blit66 (s : List Char) : awaited (s) (lit "Self::parse_") = some (s) :=
  awaited_frame [] [] _ (by decide +kernel) s
theorem blit67 (s : List Char) : awaited (s) (lit " as usize") = some (s) :=
  awaited_frame [] [] _ (by decide +kernel) s
theorem blit68 (s : List Char) : awaited (s) (lit " as usize * 8usize") = some (s) :=
  awaited_frame [] [] _ (by decide +kernel) s
theorem blit69 (s : List Char) : awaited (s) (lit "parse_packed_int(") = some (')' :: s) :=
  awaited_frame [] [')'] _ (by decide +kernel) s
theorem blit70 (s : List Char) : awaited (s) (lit ", ") = some (s) :=
  awaited_frame [] [] _ (by decide +kernel) s
theorem blit71 (s : List Char) : awaited (s) (lit "take_n_bits_into_i64(") = some (')' :: s) :=
  awaited_frame [] [')'] _ (by decide +kernel) s
theorem blit72 (s : List Char) : awaited (s) (lit "take_bit_array(") = some (')' :: s) :=
  awaited_frame [] [')'] _ (by decide +kernel) s
theorem blit73 (s : List Char) : awaited (s) (lit "byte_align(") = some (')' :: s) :=
  awaited_frame [] [')'] _ (by decide +kernel) s
theorem blit74 (s : List Char) : awaited (s) (lit "nom::multi::count(") = some (')' :: s) :=
  awaited_frame [] [')'] _ (by decide +kernel) s
theorem blit75 (s : List Char) : awaited (s) (lit "let ") = some (s) :=
  awaited_frame [] [] _ (by decide +kernel) s
theorem blit76 (s : List Char) : awaited (s) (lit " = ") = some (s) :=
  awaited_frame [] [] _ (by decide +kernel) s
theorem blit77 (s : List Char) : awaited (s) (lit ";\n") = some (s) :=
  awaited_frame [] [] _ (by decide +kernel) s
theorem blit78 (s : List Char) : awaited (s) (lit "let offset = 0i64;\n") = some (s) :=
  awaited_frame [] [] _ (by decide +kernel) s
theorem blit79 (s : List Char) : awaited (s) (lit " as usize;\n") = some (s) :=
  awaited_frame [] [] _ (by decide +kernel) s
theorem blit80 (s : List Char) : awaited (s) (lit "let (") = some (')' :: s) :=
  awaited_frame [] [')'] _ (by decide +kernel) s
theorem blit81 (s : List Char) : awaited (s) (lit "mut ") = some (s) :=
  awaited_frame [] [] _ (by decide +kernel) s
theorem blit82 (s : List Char) : awaited (')' :: s) (lit ") = ") = some (s) :=
  awaited_frame [')'] [] _ (by decide +kernel) s
theorem blit83 (s : List Char) : awaited (s) (lit "?;\n") = some (s) :=
  awaited_frame [] [] _ (by decide +kernel) s
theorem blit84 (s : List Char) : awaited (s) (lit "let (tail, is_provided): ((&[u8], usize), bool) = parse_bool(") = some (')' :: s) :=
  awaited_frame [] [')'] _ (by decide +kernel) s
theorem blit85 (s : List Char) : awaited (')' :: s) (lit ")?;\n") = some (s) :=
  awaited_frame [')'] [] _ (by decide +kernel) s
theorem blit86 (s : List Char) : awaited (s) (lit "tail = input;\n") = some (s) :=
  awaited_frame [] [] _ (by decide +kernel) s
theorem blit87 (s : List Char) : awaited (s) (lit "tracing::debug!(\"") = some (')' :: s) :=
  awaited_frame [] [')'] _ (by decide +kernel) s
theorem blit88 (s : List Char) : awaited (')' :: s) (lit "\");\n") = some (s) :=
  awaited_frame [')'] [] _ (by decide +kernel) s
theorem blit89 (s : List Char) : awaited (s) (lit "// ") = some (s) :=
  awaited_frame [] [] _ (by decide +kernel) s
theorem blit90 (s : List Char) : awaited (s) (lit "\n") = some (s) :=
  awaited_frame [] [] _ (by decide +kernel) s
theorem blit91 (s : List Char) : awaited (s) (lit "let mut array = vec![];\n") = some (s) :=
  awaited_frame [] [] _ (by decide +kernel) s
theorem blit92 (s : List Char) : awaited (s) (lit "for _ in 0..array_length {\nlet (new_tail, data) = ") = some ('}' :: s) :=
  awaited_frame [] ['}'] _ (by decide +kernel) s
theorem blit93 (s : List Char) : awaited ('}' :: s) (lit "(tail)?;\ntail = new_tail;\narray.push(data);\n}\n") = some (s) :=
  awaited_frame ['}'] [] _ (by decide +kernel) s
theorem blit94 (s : List Char) : awaited (s) (lit "let mut ") = some (s) :=
  awaited_frame [] [] _ (by decide +kernel) s
theorem blit95 (s : List Char) : awaited (s) (lit ": Option<") = some (s) :=
  awaited_frame [] [] _ (by decide +kernel) s
theorem blit96 (s : List Char) : awaited (s) (lit "> = Some(None);\n") = some (s) :=
  awaited_frame [] [] _ (by decide +kernel) s
theorem blit97 (s : List Char) : awaited (s) (lit "> = None;\n") = some (s) :=
  awaited_frame [] [] _ (by decide +kernel) s
theorem blit98 (s : List Char) : awaited (s) (lit " if let Some(None) = ") = some (s) :=
  awaited_frame [] [] _ (by decide +kernel) s
theorem blit99 (s : List Char) : awaited (s) (lit " ") = some (s) :=
  awaited_frame [] [] _ (by decide +kernel) s
theorem blit100 (s : List Char) : awaited (s) (lit " if ") = some (s) :=
  awaited_frame [] [] _ (by decide +kernel) s
theorem blit101 (s : List Char) : awaited (s) (lit ".is_none()") = some (s) :=
  awaited_frame [] [] _ (by decide +kernel) s
theorem blit102 (s : List Char) : awaited (s) (lit " {\nlet (new_tail, parsed_") = some (')' :: '}' :: s) :=
  awaited_frame [] [')', '}'] _ (by decide +kernel) s
theorem blit103 (s : List Char) : awaited (')' :: s) (lit ") = Self::parse_") = some (s) :=
  awaited_frame [')'] [] _ (by decide +kernel) s
theorem blit104 (s : List Char) : awaited (s) (lit "(tail)?;\ntail = new_tail;\n") = some (s) :=
  awaited_frame [] [] _ (by decide +kernel) s
theorem blit105 (s : List Char) : awaited (s) (lit " = Some(parsed_") = some (')' :: s) :=
  awaited_frame [] [')'] _ (by decide +kernel) s
theorem blit106 (s : List Char) : awaited (')' :: '}' :: s) (lit ");\n}\n") = some (s) :=
  awaited_frame [')', '}'] [] _ (by decide +kernel) s
theorem blit107 (s : List Char) : awaited (s) (lit " => {\ntracing::debug!(\"Variant tagged '") = some (')' :: '}' :: s) :=
  awaited_frame [] [')', '}'] _ (by decide +kernel) s
theorem blit108 (s : List Char) : awaited (s) (lit "' for ") = some (s) :=
  awaited_frame [] [] _ (by decide +kernel) s
theorem blit109 (s : List Char) : awaited (s) (lit "let (tail, res) = ") = some (s) :=
  awaited_frame [] [] _ (by decide +kernel) s
theorem blit110 (s : List Char) : awaited (s) (lit "(tail)?;\n") = some (s) :=
  awaited_frame [] [] _ (by decide +kernel) s
theorem blit111 (s : List Char) : awaited (s) (lit "    Ok((tail, Self::") = some (')' :: ')' :: s) :=
  awaited_frame [] [')', ')'] _ (by decide +kernel) s
theorem blit112 (s : List Char) : awaited (')' :: ')' :: s) (lit "(res)))\n") = some (s) :=
  awaited_frame [')', ')'] [] _ (by decide +kernel) s
theorem blit113 (s : List Char) : awaited ('}' :: s) (lit "    },\n") = some (s) :=
  awaited_frame ['}'] [] _ (by decide +kernel) s
theorem blit114 (s : List Char) : awaited (s) (lit "let (tail, is_provided): ((&[u8], usize), bool) = parse_bool(tail)?;\nif is_provided {\nlet (tail, res) = ") = some ('}' :: s) :=
  awaited_frame [] ['}'] _ (by decide +kernel) s
theorem blit115 (s : List Char) : awaited (s) (lit "(tail)?;\n    Ok((tail, Self::") = some (')' :: ')' :: s) :=
  awaited_frame [] [')', ')'] _ (by decide +kernel) s
theorem blit116 (s : List Char) : awaited (')' :: ')' :: '}' :: s) (lit "(Some(res))))\n} else {\n    Ok((tail, Self::") = some (')' :: ')' :: '}' :: s) :=
  awaited_frame [')', ')', '}'] [')', ')', '}'] _ (by decide +kernel) s
theorem blit117 (s : List Char) : awaited (')' :: ')' :: '}' :: s) (lit "(None)))\n}\n") = some (s) :=
  awaited_frame [')', ')', '}'] [] _ (by decide +kernel) s
theorem blit118 (s : List Char) : awaited (s) (lit " => {\ntracing::debug!(\"Variant ") = some (')' :: '}' :: s) :=
  awaited_frame [] [')', '}'] _ (by decide +kernel) s
theorem blit119 (s : List Char) : awaited (s) (lit " for value '") = some (s) :=
  awaited_frame [] [] _ (by decide +kernel) s
theorem blit120 (s : List Char) : awaited (')' :: s) (lit "'\");\n") = some (s) :=
  awaited_frame [')'] [] _ (by decide +kernel) s
theorem blit121 (s : List Char) : awaited (s) (lit "Ok((tail, Self::") = some (')' :: ')' :: s) :=
  awaited_frame [] [')', ')'] _ (by decide +kernel) s
theorem blit122 (s : List Char) : awaited (')' :: ')' :: '}' :: s) (lit "))\n},\n") = some (s) :=
  awaited_frame [')', ')', '}'] [] _ (by decide +kernel) s
theorem blit123 (s : List Char) : awaited (s) (lit "        Ok((tail, ") = some (')' :: ')' :: s) :=
  awaited_frame [] [')', ')'] _ (by decide +kernel) s
theorem blit124 (s : List Char) : awaited (')' :: ')' :: s) (lit "))\n") = some (s) :=
  awaited_frame [')', ')'] [] _ (by decide +kernel) s
theorem blit125 (s : List Char) : awaited (s) (lit "Ok((tail, Self { value }))\n") = some (s) :=
  awaited_frame [] [] _ (by decide +kernel) s
theorem blit126 (s : List Char) : awaited (s) (lit "Ok((tail, Self { value: <_>::try_from(res)? }))\n") = some (s) :=
  awaited_frame [] [] _ (by decide +kernel) s
theorem blit127 (s : List Char) : awaited (s) (lit "Ok((tail, Self {") = some ('}' :: ')' :: ')' :: s) :=
  awaited_frame [] ['}', ')', ')'] _ (by decide +kernel) s
theorem blit128 (s : List Char) : awaited (s) (lit ": ok_or_return_missing_field_err!(") = some (')' :: s) :=
  awaited_frame [] [')'] _ (by decide +kernel) s
theorem blit129 (s : List Char) : awaited ('}' :: ')' :: ')' :: s) (lit "}))\n") = some (s) :=
  awaited_frame ['}', ')', ')'] [] _ (by decide +kernel) s
theorem blit130 (s : List Char) : awaited (s) (lit "let (tail, ") = some (')' :: s) :=
  awaited_frame [] [')'] _ (by decide +kernel) s
theorem blit131 (s : List Char) : awaited (')' :: s) (lit ") = if is_provided {\n") = some ('}' :: s) :=
  awaited_frame [')'] ['}'] _ (by decide +kernel) s
theorem blit132 (s : List Char) : awaited (s) (lit "(tail, Some(") = some (')' :: ')' :: s) :=
  awaited_frame [] [')', ')'] _ (by decide +kernel) s
theorem blit133 (s : List Char) : awaited (')' :: ')' :: s) (lit "))") = some (s) :=
  awaited_frame [')', ')'] [] _ (by decide +kernel) s
theorem blit134 (s : List Char) : awaited ('}' :: s) (lit "} else {\n    (tail, None)\n};\n") = some (s) :=
  awaited_frame ['}'] [] _ (by decide +kernel) s
theorem blit135 (s : List Char) : awaited (s) (lit "match variant_tag {\n") = some ('}' :: s) :=
  awaited_frame [] ['}'] _ (by decide +kernel) s
theorem blit136 (s : List Char) : awaited ('}' :: s) (lit "\n _ => {\ntracing::error!(\"Unknown variant for tag {variant_tag}\");\nErr(S2ProtocolError::UnknownTag(variant_tag))\n},\n}") = some (s) :=
  awaited_frame ['}'] [] _ (by decide +kernel) s
theorem blit137 (s : List Char) : awaited (s) (lit "#[tracing::instrument(level = \"trace\", skip(input), fields(peek = peek_bits(input)))]\npub fn parse_") = some (s) :=
  awaited_frame [] [] _ (by decide +kernel) s
theorem blit138 (s : List Char) : awaited (s) (lit "(input: (&[u8], usize)) -> S2ProtoResult<(&[u8], usize), ") = some (s) :=
  awaited_frame [] [] _ (by decide +kernel) s
theorem blit139 (s : List Char) : awaited (s) (lit "> {\n") = some ('}' :: s) :=
  awaited_frame [] ['}'] _ (by decide +kernel) s
theorem blit140 (s : List Char) : awaited ('}' :: s) (lit "}\n") = some (s) :=
  awaited_frame ['}'] [] _ (by decide +kernel) s
theorem blit141 (s : List Char) : awaited (s) (lit "\n#[derive(Debug, PartialEq, Clone)]\npub ") = some (s) :=
  awaited_frame [] [] _ (by decide +kernel) s
theorem blit142 (s : List Char) : awaited (s) (lit "enum") = some (s) :=
  awaited_frame [] [] _ (by decide +kernel) s
theorem blit143 (s : List Char) : awaited (s) (lit "struct") = some (s) :=
  awaited_frame [] [] _ (by decide +kernel) s
theorem blit144 (s : List Char) : awaited (s) (lit " {\n") = some ('}' :: s) :=
  awaited_frame [] ['}'] _ (by decide +kernel) s
theorem blit145 (s : List Char) : awaited (s) (lit "impl ") = some (s) :=
  awaited_frame [] [] _ (by decide +kernel) s
theorem blit146 (s : List Char) : awaited (s) (lit "#[tracing::instrument(name=\"") = some (')' :: ']' :: s) :=
  awaited_frame [] [')', ']'] _ (by decide +kernel) s
theorem blit147 (s : List Char) : awaited (s) (lit "::") = some (s) :=
  awaited_frame [] [] _ (by decide +kernel) s
theorem blit148 (s : List Char) : awaited (')' :: ']' :: s) (lit "\", level = \"trace\", skip(input), fields(peek = peek_bits(input)))]\npub fn parse(input: (&[u8], usize)) -> S2ProtoResult<(&[u8], usize), Self> {\n") = some ('}' :: s) :=
  awaited_frame [')', ']'] ['}'] _ (by decide +kernel) s
theorem blit149 (s : List Char) : awaited ('}' :: s) (lit "}") = some (s) :=
  awaited_frame ['}'] [] _ (by decide +kernel) s
theorem blit150 (s : List Char) : awaited (s) (lit "pub mod bit_packed {\n") = some ('}' :: s) :=
  awaited_frame [] ['}'] _ (by decide +kernel) s
theorem blit151 (s : List Char) : awaited (s) (lit "use crate::*;\n") = some (s) :=
  awaited_frame [] [] _ (by decide +kernel) s

/-- [proof device, no counterpart in /repo] -/
macro "read_bit" : tactic => `(tactic| first
  | exact blit0 _
  | exact blit1 _
  | exact blit2 _
  | exact blit3 _
  | exact blit4 _
  | exact blit5 _
  | exact blit6 _
  | exact blit7 _
  | exact blit8 _
  | exact blit9 _
  | exact blit10 _
  | exact blit11 _
  | exact blit12 _
  | exact blit13 _
  | exact blit14 _
  | exact blit15 _
  | exact blit16 _
  | exact blit17 _
  | exact blit18 _
  | exact blit19 _
  | exact blit20 _
  | exact blit21 _
  | exact blit22 _
  | exact blit23 _
  | exact blit24 _
  | exact blit25 _
  | exact blit26 _
  | exact blit27 _
  | exact blit28 _
  | exact blit29 _
  | exact blit30 _
  | exact blit31 _
  | exact blit32 _
  | exact blit33 _
  | exact blit34 _
  | exact blit35 _
  | exact blit36 _
  | exact blit37 _
  | exact blit38 _
  | exact blit39 _
  | exact blit40 _
  | exact blit41 _
  | exact blit42 _
  | exact blit43 _
  | exact blit44 _
  | exact blit45 _
  | exact blit46 _
  | exact blit47 _
  | exact blit48 _
  | exact blit49 _
  | exact blit50 _
  | exact blit51 _
  | exact blit52 _
  | exact blit53 _
  | exact blit54 _
  | exact blit55 _
  | exact blit56 _
  | exact blit57 _
  | exact blit58 _
  | exact blit59 _
  | exact blit60 _
  | exact blit61 _
  | exact blit62 _
  | exact blit63 _
  | exact blit64 _
  | exact blit65 _
  | exact blit66 _
  | exact blit67 _
  | exact blit68 _
  | exact blit69 _
  | exact blit70 _
  | exact blit71 _
  | exact blit72 _
  | exact blit73 _
  | exact blit74 _
  | exact blit75 _
  | exact blit76 _
  | exact blit77 _
  | exact blit78 _
  | exact blit79 _
  | exact blit80 _
  | exact blit81 _
  | exact blit82 _
  | exact blit83 _
  | exact blit84 _
  | exact blit85 _
  | exact blit86 _
  | exact blit87 _
  | exact blit88 _
  | exact blit89 _
  | exact blit90 _
  | exact blit91 _
  | exact blit92 _
  | exact blit93 _
  | exact blit94 _
  | exact blit95 _
  | exact blit96 _
  | exact blit97 _
  | exact blit98 _
  | exact blit99 _
  | exact blit100 _
  | exact blit101 _
  | exact blit102 _
  | exact blit103 _
  | exact blit104 _
  | exact blit105 _
  | exact blit106 _
  | exact blit107 _
  | exact blit108 _
  | exact blit109 _
  | exact blit110 _
  | exact blit111 _
  | exact blit112 _
  | exact blit113 _
  | exact blit114 _
  | exact blit115 _
  | exact blit116 _
  | exact blit117 _
  | exact blit118 _
  | exact blit119 _
  | exact blit120 _
  | exact blit121 _
  | exact blit122 _
  | exact blit123 _
  | exact blit124 _
  | exact blit125 _
  | exact blit126 _
  | exact blit127 _
  | exact blit128 _
  | exact blit129 _
  | exact blit130 _
  | exact blit131 _
  | exact blit132 _
  | exact blit133 _
  | exact blit134 _
  | exact blit135 _
  | exact blit136 _
  | exact blit137 _
  | exact blit138 _
  | exact blit139 _
  | exact blit140 _
  | exact blit141 _
  | exact blit142 _
  | exact blit143 _
  | exact blit144 _
  | exact blit145 _
  | exact blit146 _
  | exact blit147 _
  | exact blit148 _
  | exact blit149 _
  | exact blit150 _
  | exact blit151 _)

/-- [proof device, no counterpart in /repo] -/
macro "read_bits" "[" ts:term,* "]" : tactic => do
  let hs := ts.getElems
  `(tactic| repeat with_reducible first | apply awaited_step | apply awaited_ite | exact awaited_nil _ $[| exact $hs]* | read_bit)

end S2.Generator
