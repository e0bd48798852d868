import Verif.Spec.GenTextSpec
/-! # Delimiters of the pieces of generated text

For each literal piece of `Verif/Misc/GenText.lean` the delimiters it needs and leaves (written by a script, checked by the kernel). -/
namespace S2.Generator
open S2

theorem awaited_append : (a : Txt) → ∀ (s : List Char) (b : Txt), awaited s (a ++ b) = (awaited s a).bind (fun s' => awaited s' b)
  | [], s, b => rfl
  | c :: r, s, b => by
    rw [List.cons_append, awaited, awaited]
    cases await s c with
    | none => rfl
    | some s' => exact awaited_append r s' b

theorem await_frame (i o s : List Char) (c : Char) (h : await i c = some o) : await (i ++ s) c = some (o ++ s) := by
  unfold await at h ⊢
  cases hc : closer c with
  | some k => rw [hc] at h; cases h; rfl
  | none =>
    rw [hc] at h
    simp only at h ⊢
    by_cases hk : isCloser c = true
    · rw [if_pos hk] at h ⊢
      cases i with
      | nil => simp at h
      | cons k i => simpa using h
    · rw [if_neg hk] at h ⊢
      cases h; rfl

theorem awaited_frame_aux : (a : Txt) → ∀ (i o s : List Char), awaited i a = some o → awaited (i ++ s) a = some (o ++ s)
  | [], i, o, s, h => by rw [awaited] at h ⊢; cases h; rfl
  | c :: r, i, o, s, h => by
    rw [awaited] at h ⊢
    cases hc : await i c with
    | none => rw [hc] at h; cases h
    | some i' =>
      rw [hc] at h
      rw [await_frame i i' s c hc]
      exact awaited_frame_aux r i' o s h

theorem awaited_frame (i o : List Char) (a : Txt) (h : awaited i a = some o) (s : List Char) : awaited (i ++ s) a = some (o ++ s) :=
  awaited_frame_aux a i o s h

theorem lit0 (s : List Char) : awaited (s) (lit "#[tracing::instrument(name=\"") = some (')' :: ']' :: s) :=
  awaited_frame [] [')', ']'] _ (by decide +kernel) s
theorem lit1 (s : List Char) : awaited (s) (lit "::byte_aligned::") = some (s) :=
  awaited_frame [] [] _ (by decide +kernel) s
theorem lit2 (s : List Char) : awaited (')' :: ']' :: s) (lit "::Parse\", level = \"trace\", skip(input), fields(peek = peek_hex(input)))]\npub fn parse(input: &[u8]) -> S2ProtoResult<&[u8], Self> {\nlet (tail, _) = validate_struct_tag(input)?;\nlet (mut tail, struct_field_count) = parse_vlq_int(tail)?;\n") = some ('}' :: s) :=
  awaited_frame [')', ']'] ['}'] _ (by decide +kernel) s
theorem lit3 (s : List Char) : awaited (s) (lit "let mut ") = some (s) :=
  awaited_frame [] [] _ (by decide +kernel) s
theorem lit4 (s : List Char) : awaited (s) (lit ": Option<") = some (s) :=
  awaited_frame [] [] _ (by decide +kernel) s
theorem lit5 (s : List Char) : awaited (s) (lit "> = Some(None);\n") = some (s) :=
  awaited_frame [] [] _ (by decide +kernel) s
theorem lit6 (s : List Char) : awaited (s) (lit "> = None;\n") = some (s) :=
  awaited_frame [] [] _ (by decide +kernel) s
theorem lit7 (s : List Char) : awaited (s) (lit " if let Some(None) = ") = some (s) :=
  awaited_frame [] [] _ (by decide +kernel) s
theorem lit8 (s : List Char) : awaited (s) (lit " ") = some (s) :=
  awaited_frame [] [] _ (by decide +kernel) s
theorem lit9 (s : List Char) : awaited (s) (lit " if ") = some (s) :=
  awaited_frame [] [] _ (by decide +kernel) s
theorem lit10 (s : List Char) : awaited (s) (lit ".is_none()") = some (s) :=
  awaited_frame [] [] _ (by decide +kernel) s
theorem lit11 (s : List Char) : awaited (s) (lit " => {\ntracing::debug!(\"Field [{i}]: tagged '") = some (')' :: '}' :: s) :=
  awaited_frame [] [')', '}'] _ (by decide +kernel) s
theorem lit12 (s : List Char) : awaited (s) (lit "' for field ") = some (s) :=
  awaited_frame [] [] _ (by decide +kernel) s
theorem lit13 (s : List Char) : awaited (')' :: s) (lit "\");\n") = some (s) :=
  awaited_frame [')'] [] _ (by decide +kernel) s
theorem lit14 (s : List Char) : awaited (s) (lit " {\nlet (new_tail, parsed_") = some (')' :: '}' :: s) :=
  awaited_frame [] [')', '}'] _ (by decide +kernel) s
theorem lit15 (s : List Char) : awaited (')' :: s) (lit ") = Self::parse_") = some (s) :=
  awaited_frame [')'] [] _ (by decide +kernel) s
theorem lit16 (s : List Char) : awaited (s) (lit "(tail)?;\ntail = new_tail;\n") = some (s) :=
  awaited_frame [] [] _ (by decide +kernel) s
theorem lit17 (s : List Char) : awaited (s) (lit " = Some(parsed_") = some (')' :: s) :=
  awaited_frame [] [')'] _ (by decide +kernel) s
theorem lit18 (s : List Char) : awaited (')' :: '}' :: s) (lit ");\ncontinue;\n} else {\ntracing::error!(\"Field ") = some (')' :: '}' :: s) :=
  awaited_frame [')', '}'] [')', '}'] _ (by decide +kernel) s
theorem lit19 (s : List Char) : awaited (s) (lit " with tag ") = some (s) :=
  awaited_frame [] [] _ (by decide +kernel) s
theorem lit20 (s : List Char) : awaited (')' :: s) (lit " was already provided\");\nreturn Err(S2ProtocolError::DuplicateTag(String::from(\"") = some (')' :: ')' :: ')' :: s) :=
  awaited_frame [')'] [')', ')', ')'] _ (by decide +kernel) s
theorem lit21 (s : List Char) : awaited (')' :: ')' :: ')' :: '}' :: '}' :: s) (lit "\"), proto_field_tag));\n}\n},\n") = some (s) :=
  awaited_frame [')', ')', ')', '}', '}'] [] _ (by decide +kernel) s
theorem lit22 (s : List Char) : awaited (')' :: '}' :: s) (lit ");\n}\n") = some (s) :=
  awaited_frame [')', '}'] [] _ (by decide +kernel) s
theorem lit23 (s : List Char) : awaited (s) (lit "let (tail, _) = validate_array_tag(") = some (')' :: s) :=
  awaited_frame [] [')'] _ (by decide +kernel) s
theorem lit24 (s : List Char) : awaited (')' :: s) (lit ")?;\nlet (tail, array_length) = parse_vlq_int(tail)?;\ntracing::debug!(\"Reading array length: {array_length}\");\nlet (tail, array) = nom::multi::count(") = some (')' :: s) :=
  awaited_frame [')'] [')'] _ (by decide +kernel) s
theorem lit25 (s : List Char) : awaited (')' :: s) (lit ", array_length as usize)(tail)?;\n") = some (s) :=
  awaited_frame [')'] [] _ (by decide +kernel) s
theorem lit26 (s : List Char) : awaited (s) (lit "let array = array.iter().map(|val| <_>::try_from(*val)?).collect();\n") = some (s) :=
  awaited_frame [] [] _ (by decide +kernel) s
theorem lit27 (s : List Char) : awaited (s) (lit "#[tracing::instrument(level = \"trace\", skip(input), fields(peek = peek_hex(input)))]\npub fn parse_") = some (s) :=
  awaited_frame [] [] _ (by decide +kernel) s
theorem lit28 (s : List Char) : awaited (s) (lit "(input: &[u8]) -> S2ProtoResult<&[u8], ") = some (s) :=
  awaited_frame [] [] _ (by decide +kernel) s
theorem lit29 (s : List Char) : awaited (s) (lit "> {\n") = some ('}' :: s) :=
  awaited_frame [] ['}'] _ (by decide +kernel) s
theorem lit30 (s : List Char) : awaited (s) (lit "let (tail, _) = validate_opt_tag(input)?;\nlet (tail, is_provided) = nom::number::complete::u8(tail)?;\nlet (tail, ") = some (')' :: s) :=
  awaited_frame [] [')'] _ (by decide +kernel) s
theorem lit31 (s : List Char) : awaited (')' :: s) (lit ") = if is_provided != 0 {\n") = some ('}' :: s) :=
  awaited_frame [')'] ['}'] _ (by decide +kernel) s
theorem lit32 (s : List Char) : awaited (s) (lit "tail") = some (s) :=
  awaited_frame [] [] _ (by decide +kernel) s
theorem lit33 (s : List Char) : awaited (s) (lit "(tail, Some(array))") = some (s) :=
  awaited_frame [] [] _ (by decide +kernel) s
theorem lit34 (s : List Char) : awaited (s) (lit "let (tail, res) = ") = some (s) :=
  awaited_frame [] [] _ (by decide +kernel) s
theorem lit35 (s : List Char) : awaited (s) (lit "(tail)?;\n") = some (s) :=
  awaited_frame [] [] _ (by decide +kernel) s
theorem lit36 (s : List Char) : awaited (s) (lit "    (tail, Some(<_>::try_from(res)?))\n") = some (s) :=
  awaited_frame [] [] _ (by decide +kernel) s
theorem lit37 (s : List Char) : awaited (s) (lit "    (tail, Some(res))\n") = some (s) :=
  awaited_frame [] [] _ (by decide +kernel) s
theorem lit38 (s : List Char) : awaited ('}' :: s) (lit "} else {\n    (tail, None)\n};\n    tracing::debug!(\"") = some (')' :: s) :=
  awaited_frame ['}'] [')'] _ (by decide +kernel) s
theorem lit39 (s : List Char) : awaited (s) (lit ": {:?}\", ") = some (s) :=
  awaited_frame [] [] _ (by decide +kernel) s
theorem lit40 (s : List Char) : awaited (')' :: s) (lit ");\nOk((tail, ") = some (')' :: ')' :: s) :=
  awaited_frame [')'] [')', ')'] _ (by decide +kernel) s
theorem lit41 (s : List Char) : awaited (')' :: ')' :: s) (lit "))\n") = some (s) :=
  awaited_frame [')', ')'] [] _ (by decide +kernel) s
theorem lit42 (s : List Char) : awaited (s) (lit "input") = some (s) :=
  awaited_frame [] [] _ (by decide +kernel) s
theorem lit43 (s : List Char) : awaited (s) (lit "Ok((tail, array))\n") = some (s) :=
  awaited_frame [] [] _ (by decide +kernel) s
theorem lit44 (s : List Char) : awaited (s) (lit " let (tail, ") = some (')' :: s) :=
  awaited_frame [] [')'] _ (by decide +kernel) s
theorem lit45 (s : List Char) : awaited (')' :: s) (lit ") = ") = some (s) :=
  awaited_frame [')'] [] _ (by decide +kernel) s
theorem lit46 (s : List Char) : awaited (s) (lit "(input)?;\n") = some (s) :=
  awaited_frame [] [] _ (by decide +kernel) s
theorem lit47 (s : List Char) : awaited (s) (lit "        Ok((tail, ") = some (')' :: ')' :: s) :=
  awaited_frame [] [')', ')'] _ (by decide +kernel) s
theorem lit48 (s : List Char) : awaited (s) (lit "::try_from(") = some (')' :: s) :=
  awaited_frame [] [')'] _ (by decide +kernel) s
theorem lit49 (s : List Char) : awaited (')' :: ')' :: ')' :: s) (lit ")?))\n") = some (s) :=
  awaited_frame [')', ')', ')'] [] _ (by decide +kernel) s
theorem lit50 (s : List Char) : awaited ('}' :: s) (lit "}\n") = some (s) :=
  awaited_frame ['}'] [] _ (by decide +kernel) s
theorem lit51 (s : List Char) : awaited (s) (lit "    pub ") = some (s) :=
  awaited_frame [] [] _ (by decide +kernel) s
theorem lit52 (s : List Char) : awaited (s) (lit ": ") = some (s) :=
  awaited_frame [] [] _ (by decide +kernel) s
theorem lit53 (s : List Char) : awaited (s) (lit ",\n") = some (s) :=
  awaited_frame [] [] _ (by decide +kernel) s
theorem lit54 (s : List Char) : awaited (s) (lit ": ok_or_return_missing_field_err!(") = some (')' :: s) :=
  awaited_frame [] [')'] _ (by decide +kernel) s
theorem lit55 (s : List Char) : awaited (')' :: s) (lit "),\n") = some (s) :=
  awaited_frame [')'] [] _ (by decide +kernel) s
theorem lit56 (s : List Char) : awaited (s) (lit "for i in 0..(struct_field_count as usize) {\nlet (new_tail, field_tag) = parse_vlq_int(tail)?;\ntail = new_tail;\nmatch field_tag {\n") = some ('}' :: '}' :: s) :=
  awaited_frame [] ['}', '}'] _ (by decide +kernel) s
theorem lit57 (s : List Char) : awaited (s) (lit "Ok((tail, Self {") = some ('}' :: ')' :: ')' :: s) :=
  awaited_frame [] ['}', ')', ')'] _ (by decide +kernel) s
theorem lit58 (s : List Char) : awaited ('}' :: '}' :: s) (lit "\n _ => {\ntracing::error!(\"Unknown tag {field_tag}\");\nErr(S2ProtocolError::UnknownTag(variant_tag))\n},\n}\n}") = some (s) :=
  awaited_frame ['}', '}'] [] _ (by decide +kernel) s
theorem lit59 (s : List Char) : awaited ('}' :: ')' :: ')' :: s) (lit "}))\n") = some (s) :=
  awaited_frame ['}', ')', ')'] [] _ (by decide +kernel) s
theorem lit60 (s : List Char) : awaited (s) (lit "\"") = some (s) :=
  awaited_frame [] [] _ (by decide +kernel) s
theorem lit61 (s : List Char) : awaited (s) (lit " => {\ntracing::debug!(\"Variant tagged '") = some (')' :: '}' :: s) :=
  awaited_frame [] [')', '}'] _ (by decide +kernel) s
theorem lit62 (s : List Char) : awaited (s) (lit "' for ") = some (s) :=
  awaited_frame [] [] _ (by decide +kernel) s
theorem lit63 (s : List Char) : awaited (s) (lit "let (tail, _) = validate_opt_tag(tail)?;\nlet (tail, is_provided) = nom::number::complete::u8(tail)?;\nif is_provided != 0 {\nlet (tail, res) = ") = some ('}' :: s) :=
  awaited_frame [] ['}'] _ (by decide +kernel) s
theorem lit64 (s : List Char) : awaited (s) (lit "(tail)?;\n    Ok((tail, Self::") = some (')' :: ')' :: s) :=
  awaited_frame [] [')', ')'] _ (by decide +kernel) s
theorem lit65 (s : List Char) : awaited (')' :: ')' :: '}' :: s) (lit "(Some(res))))\n} else {\n    Ok((tail, Self::") = some (')' :: ')' :: '}' :: s) :=
  awaited_frame [')', ')', '}'] [')', ')', '}'] _ (by decide +kernel) s
theorem lit66 (s : List Char) : awaited (')' :: ')' :: '}' :: s) (lit "(None)))\n}\n") = some (s) :=
  awaited_frame [')', ')', '}'] [] _ (by decide +kernel) s
theorem lit67 (s : List Char) : awaited (s) (lit "    Ok((tail, Self::") = some (')' :: ')' :: s) :=
  awaited_frame [] [')', ')'] _ (by decide +kernel) s
theorem lit68 (s : List Char) : awaited (s) (lit "(") = some (')' :: s) :=
  awaited_frame [] [')'] _ (by decide +kernel) s
theorem lit69 (s : List Char) : awaited (')' :: ')' :: ')' :: s) (lit "::try_from(res)?)))\n") = some (s) :=
  awaited_frame [')', ')', ')'] [] _ (by decide +kernel) s
theorem lit70 (s : List Char) : awaited (')' :: ')' :: s) (lit "(res)))\n") = some (s) :=
  awaited_frame [')', ')'] [] _ (by decide +kernel) s
theorem lit71 (s : List Char) : awaited ('}' :: s) (lit "    },\n") = some (s) :=
  awaited_frame ['}'] [] _ (by decide +kernel) s
theorem lit72 (s : List Char) : awaited (s) (lit "    ") = some (s) :=
  awaited_frame [] [] _ (by decide +kernel) s
theorem lit73 (s : List Char) : awaited (s) (lit "::") = some (s) :=
  awaited_frame [] [] _ (by decide +kernel) s
theorem lit74 (s : List Char) : awaited (')' :: ']' :: s) (lit "::ChoiceType::parse\", level = \"trace\", skip(input), fields(peek = peek_hex(input)))]\npub fn parse(input: &[u8]) -> S2ProtoResult<&[u8], Self> {\nlet (tail, _) = validate_choice_tag(input)?;\nlet (tail, variant_tag) = parse_vlq_int(tail)?;\nmatch variant_tag {") = some ('}' :: '}' :: s) :=
  awaited_frame [')', ']'] ['}', '}'] _ (by decide +kernel) s
theorem lit75 (s : List Char) : awaited ('}' :: s) (lit "\n _ => {\ntracing::error!(\"Unknown variant for tag {variant_tag}\");\nErr(S2ProtocolError::UnknownTag(variant_tag))\n},\n}") = some (s) :=
  awaited_frame ['}'] [] _ (by decide +kernel) s
theorem lit76 (s : List Char) : awaited (s) (lit " => {\ntracing::debug!(\"Variant ") = some (')' :: '}' :: s) :=
  awaited_frame [] [')', '}'] _ (by decide +kernel) s
theorem lit77 (s : List Char) : awaited (s) (lit " for value '") = some (s) :=
  awaited_frame [] [] _ (by decide +kernel) s
theorem lit78 (s : List Char) : awaited (')' :: s) (lit "'\");\n") = some (s) :=
  awaited_frame [')'] [] _ (by decide +kernel) s
theorem lit79 (s : List Char) : awaited (s) (lit "Ok((tail, Self::") = some (')' :: ')' :: s) :=
  awaited_frame [] [')', ')'] _ (by decide +kernel) s
theorem lit80 (s : List Char) : awaited (')' :: ')' :: '}' :: s) (lit "))\n},\n") = some (s) :=
  awaited_frame [')', ')', '}'] [] _ (by decide +kernel) s
theorem lit81 (s : List Char) : awaited (')' :: s) (lit ")") = some (s) :=
  awaited_frame [')'] [] _ (by decide +kernel) s
theorem lit82 (s : List Char) : awaited (s) (lit "\n let (tail, res) = ") = some (s) :=
  awaited_frame [] [] _ (by decide +kernel) s
theorem lit83 (s : List Char) : awaited (s) (lit "::parse(tail)?;\n Ok((tail, Self::") = some (')' :: ')' :: s) :=
  awaited_frame [] [')', ')'] _ (by decide +kernel) s
theorem lit84 (s : List Char) : awaited (')' :: ')' :: '}' :: s) (lit "(res)))\n},\n") = some (s) :=
  awaited_frame [')', ')', '}'] [] _ (by decide +kernel) s
theorem lit85 (s : List Char) : awaited (')' :: ']' :: s) (lit "::Parse\", level = \"trace\", skip(input), fields(peek = peek_hex(input)))]\npub fn parse(input: &[u8]) -> S2ProtoResult<&[u8], Self> {\nlet (tail, _) = validate_int_tag(input)?;\nlet (tail, variant_tag) = parse_vlq_int(tail)?;\nmatch variant_tag {\n") = some ('}' :: '}' :: s) :=
  awaited_frame [')', ']'] ['}', '}'] _ (by decide +kernel) s
theorem lit86 (s : List Char) : awaited ('}' :: s) (lit "\n _ => {\ntracing::error!(\"Unknown variant value {variant_tag}\");\nErr(S2ProtocolError::UnknownTag(variant_tag))\n},\n\n }\n") = some (s) :=
  awaited_frame ['}'] [] _ (by decide +kernel) s
theorem lit87 (s : List Char) : awaited (s) (lit "    pub value: i64,") = some (s) :=
  awaited_frame [] [] _ (by decide +kernel) s
theorem lit88 (s : List Char) : awaited (')' :: ']' :: s) (lit "::IntType::Parse\", level = \"trace\", skip(input), fields(peek = peek_hex(input)))]\npub fn parse(input: &[u8]) -> S2ProtoResult<&[u8], Self> {\nlet (tail, _) = validate_int_tag(input)?;\nlet (tail, value) = parse_vlq_int(tail)?;\nOk((tail, Self { value }))\n") = some ('}' :: s) :=
  awaited_frame [')', ']'] ['}'] _ (by decide +kernel) s
theorem lit89 (s : List Char) : awaited (s) (lit "    pub value: Vec<") = some (s) :=
  awaited_frame [] [] _ (by decide +kernel) s
theorem lit90 (s : List Char) : awaited (s) (lit ">,") = some (s) :=
  awaited_frame [] [] _ (by decide +kernel) s
theorem lit91 (s : List Char) : awaited (')' :: ']' :: s) (lit "::ArrayType::Parse\", level = \"trace\", skip(input), fields(peek = peek_hex(input)))]\npub fn parse(input: &[u8]) -> S2ProtoResult<&[u8], Self> {\nlet (tail, _) = validate_array_tag(input)?;\nlet (tail, array_length) = parse_vlq_int(tail)?;\ntracing::debug!(\"Reading array length: {array_length}\");\nlet (tail, value) = nom::multi::count(") = some (')' :: '}' :: s) :=
  awaited_frame [')', ']'] [')', '}'] _ (by decide +kernel) s
theorem lit92 (s : List Char) : awaited (')' :: s) (lit "::parse, array_length as usize)(tail)?;\nOk((tail, Self { value }))\n") = some (s) :=
  awaited_frame [')'] [] _ (by decide +kernel) s
theorem lit93 (s : List Char) : awaited (s) (lit "enum") = some (s) :=
  awaited_frame [] [] _ (by decide +kernel) s
theorem lit94 (s : List Char) : awaited (s) (lit "struct") = some (s) :=
  awaited_frame [] [] _ (by decide +kernel) s
theorem lit95 (s : List Char) : awaited (s) (lit "\n#[derive(Debug, PartialEq, Clone)]\npub ") = some (s) :=
  awaited_frame [] [] _ (by decide +kernel) s
theorem lit96 (s : List Char) : awaited (s) (lit " {\n") = some ('}' :: s) :=
  awaited_frame [] ['}'] _ (by decide +kernel) s
theorem lit97 (s : List Char) : awaited (s) (lit "impl ") = some (s) :=
  awaited_frame [] [] _ (by decide +kernel) s
theorem lit98 (s : List Char) : awaited ('}' :: s) (lit "}") = some (s) :=
  awaited_frame ['}'] [] _ (by decide +kernel) s
theorem lit99 (s : List Char) : awaited (s) (lit "\n") = some (s) :=
  awaited_frame [] [] _ (by decide +kernel) s
theorem lit100 (s : List Char) : awaited (s) (lit "pub mod byte_aligned {\n") = some ('}' :: s) :=
  awaited_frame [] ['}'] _ (by decide +kernel) s
theorem lit101 (s : List Char) : awaited (s) (lit "use crate::*;\nuse nom_mpq::parser::peek_hex;\n") = some (s) :=
  awaited_frame [] [] _ (by decide +kernel) s
theorem lit102 (s : List Char) : awaited (s) (lit "Vec<") = some (s) :=
  awaited_frame [] [] _ (by decide +kernel) s
theorem lit103 (s : List Char) : awaited (s) (lit ">") = some (s) :=
  awaited_frame [] [] _ (by decide +kernel) s
theorem lit104 (s : List Char) : awaited (s) (lit "Option<") = some (s) :=
  awaited_frame [] [] _ (by decide +kernel) s

theorem awaited_nil (s : List Char) : awaited s [] = some s := rfl

theorem awaited_step {s s' : List Char} {r : Option (List Char)} {a b : Txt} (h : awaited s a = some s') (k : awaited s' b = r) : awaited s (a ++ b) = r := by
  rw [awaited_append, h]; exact k

theorem awaited_ite {c : Prop} [Decidable c] {s s' : List Char} {a b : Txt} (h : awaited s a = some s') (k : awaited s b = some s') :
    awaited s (if c then a else b) = some s' := by
  by_cases hc : c
  · rw [if_pos hc]; exact h
  · rw [if_neg hc]; exact k

/-- Reads one literal piece. [proof device, no counterpart in /repo] -/
macro "read_literal" : tactic => `(tactic| first
      | exact lit0 _
      | exact lit1 _
      | exact lit2 _
      | exact lit3 _
      | exact lit4 _
      | exact lit5 _
      | exact lit6 _
      | exact lit7 _
      | exact lit8 _
      | exact lit9 _
      | exact lit10 _
      | exact lit11 _
      | exact lit12 _
      | exact lit13 _
      | exact lit14 _
      | exact lit15 _
      | exact lit16 _
      | exact lit17 _
      | exact lit18 _
      | exact lit19 _
      | exact lit20 _
      | exact lit21 _
      | exact lit22 _
      | exact lit23 _
      | exact lit24 _
      | exact lit25 _
      | exact lit26 _
      | exact lit27 _
      | exact lit28 _
      | exact lit29 _
      | exact lit30 _
      | exact lit31 _
      | exact lit32 _
      | exact lit33 _
      | exact lit34 _
      | exact lit35 _
      | exact lit36 _
      | exact lit37 _
      | exact lit38 _
      | exact lit39 _
      | exact lit40 _
      | exact lit41 _
      | exact lit42 _
      | exact lit43 _
      | exact lit44 _
      | exact lit45 _
      | exact lit46 _
      | exact lit47 _
      | exact lit48 _
      | exact lit49 _
      | exact lit50 _
      | exact lit51 _
      | exact lit52 _
      | exact lit53 _
      | exact lit54 _
      | exact lit55 _
      | exact lit56 _
      | exact lit57 _
      | exact lit58 _
      | exact lit59 _
      | exact lit60 _
      | exact lit61 _
      | exact lit62 _
      | exact lit63 _
      | exact lit64 _
      | exact lit65 _
      | exact lit66 _
      | exact lit67 _
      | exact lit68 _
      | exact lit69 _
      | exact lit70 _
      | exact lit71 _
      | exact lit72 _
      | exact lit73 _
      | exact lit74 _
      | exact lit75 _
      | exact lit76 _
      | exact lit77 _
      | exact lit78 _
      | exact lit79 _
      | exact lit80 _
      | exact lit81 _
      | exact lit82 _
      | exact lit83 _
      | exact lit84 _
      | exact lit85 _
      | exact lit86 _
      | exact lit87 _
      | exact lit88 _
      | exact lit89 _
      | exact lit90 _
      | exact lit91 _
      | exact lit92 _
      | exact lit93 _
      | exact lit94 _
      | exact lit95 _
      | exact lit96 _
      | exact lit97 _
      | exact lit98 _
      | exact lit99 _
      | exact lit100 _
      | exact lit101 _
      | exact lit102 _
      | exact lit103 _
      | exact lit104 _)

/-- Reads a text piece by piece. [proof device, no counterpart in /repo] -/
macro "read_pieces" "[" ts:term,* "]" : tactic => do
  let hs := ts.getElems
  `(tactic| repeat with_reducible first | apply awaited_step | apply awaited_ite | exact awaited_nil _ $[| exact $hs]* | read_literal)

end S2.Generator
