import Verif.Props.GenText
/-! # C190: one line, one variable, one reader, one arm and one returned value for each member -/
namespace S2.Generator
open S2

/-- What the generator writes for one member. [specification] -/
structure Part where
  field : Txt
  ty : Txt
  optional : Bool
  body : Txt
  before : Txt
  after : Txt

/-- `pub f: T,` [specification] -/
def Part.typeLine (p : Part) : Txt := lit "    pub " ++ p.field ++ lit ": " ++ p.ty ++ lit ",\n"

/-- `let mut f: Option<T> = Some(None);` of an optional member, `= None;` of any other. [specification] -/
def Part.variable (p : Part) : Txt :=
  lit "let mut " ++ p.field ++ lit ": Option<" ++ p.ty ++ lit "> = " ++ (if p.optional then lit "Some(None)" else lit "None") ++ lit ";\n"

/-- `pub fn parse_f(input: &[u8]) -> S2ProtoResult<&[u8], T> { body }` [specification] -/
def Part.reader (p : Part) : Txt :=
  lit "#[tracing::instrument(level = \"trace\", skip(input), fields(peek = peek_hex(input)))]\npub fn parse_" ++ p.field ++
  lit "(input: &[u8]) -> S2ProtoResult<&[u8], " ++ p.ty ++ lit "> {\n" ++ p.body ++ lit "}\n"

/-- The test that the member has not been read: `if let Some(None) = f` of an optional member, `if f.is_none()` of any other.
[specification] -/
def Part.guard (p : Part) : Txt :=
  if p.optional then lit " if let Some(None) = " ++ p.field ++ lit " " else lit " if " ++ p.field ++ lit ".is_none()"

/-- What is done where the test succeeds: the reader of this member is called and its value kept in the variable of this member.
[specification] -/
def Part.kept (p : Part) : Txt :=
  lit " {\nlet (new_tail, parsed_" ++ p.field ++ lit ") = Self::parse_" ++ p.field ++ lit "(tail)?;\ntail = new_tail;\n" ++ p.field ++
  lit " = Some(parsed_" ++ p.field ++ lit ");\n"

/-- The test and what follows, between two texts. [specification] -/
def Part.arm (p : Part) : Txt := p.before ++ p.guard ++ p.kept ++ p.after

/-- `f: ok_or_return_missing_field_err!(f),` [specification] -/
def Part.returned (p : Part) : Txt := p.field ++ lit ": ok_or_return_missing_field_err!(" ++ p.field ++ lit "),\n"

/-- Is the member optional?  (A named type called `OptionalType` is taken for one.) [specification] -/
def optionalMember : VDesc → Bool
  | .optional _ => true
  | .named n _ => n == "OptionalType"
  | _ => false

/-- Is it the text of this member?  Its name, whether it is optional, `Option<..>` and `Vec<..>` in the type, and the tag of an
optional value read first if and only if the member is optional. [specification] -/
structure Part.Of (nm : Naming) (name : String) (t : VDesc) (p : Part) : Prop where
  field : p.field = nm.snake name
  optional : p.optional = optionalMember t
  option : ∀ e, t = .optional e → ∃ inner, p.ty = lit "Option<" ++ inner ++ lit ">"
  optionVec : ∀ e, t = .optional (.array e) → ∃ inner, p.ty = lit "Option<Vec<" ++ inner ++ lit ">>"
  vec : ∀ e, t = .array e → ∃ inner, p.ty = lit "Vec<" ++ inner ++ lit ">"
  tag : lit "let (tail, _) = validate_opt_tag(input)?;\n" <+: p.body ↔ optionalMember t = true

/-- One text for each member that is not a constant, in order; with tags, the arm begins with the tag of the member.
[specification] -/
inductive Parts (nm : Naming) (tagged : Bool) : VMembers → List Part → Prop
  | nil : Parts nm tagged .nil []
  | const {rest ps} : Parts nm tagged rest ps → Parts nm tagged (.const rest) ps
  | member {tag name t rest p ps} : p.Of nm name t →
      (if tagged = true then ∃ n more, tag = some n ∧ p.before = lit " " ++ nm.num n ++ lit " => {\n" ++ more else p.before = []) →
      Parts nm tagged rest ps → Parts nm tagged (.member tag name t rest) (p :: ps)

theorem table_optional (n : String) (m : Morph) (h : nnetMorph n = some m) : m.isOptional = (n == "OptionalType") := by
  have key : ∀ p ∈ morphTable, ∀ k ∈ p.1, p.2.isOptional = (k == "OptionalType") := by decide +kernel
  unfold nnetMorph at h
  rw [Option.map_eq_some_iff] at h
  obtain ⟨p, hp, rfl⟩ := h
  exact key p (List.mem_of_find?_eq_some hp) n (by simpa using List.find?_some hp)

theorem fieldMorph_optional (t : VDesc) (m : Morph) (h : fieldMorph t = some m) : m.isOptional = optionalMember t := by
  unfold fieldMorph at h
  cases hn : nnetMorph t.info with
  | none => rw [hn] at h; cases h
  | some m0 =>
    rw [hn] at h
    have ho := table_optional _ _ hn
    cases t with
    | optional e =>
      cases hi : enclosedMorph e with
      | none => simp only [hi, Option.bind_eq_bind, Option.bind_some, Option.bind_none] at h; cases h
      | some i => simp only [hi, Option.bind_eq_bind, Option.bind_some, Option.some.injEq] at h; rw [← h]; rfl
    | array e =>
      cases hi : e.elemMorph with
      | none => simp only [hi, Option.bind_eq_bind, Option.bind_some, Option.bind_none] at h; cases h
      | some i =>
        simp only [hi, Option.bind_eq_bind, Option.bind_some, Option.some.injEq] at h
        rw [← h]; exact ho.trans (by simp [VDesc.info, VDesc.kind, optionalMember])
    | named n d => cases h; exact ho
    | _ => cases h; exact ho.trans (by simp [VDesc.info, VDesc.kind, optionalMember])

theorem fieldMorph_option (e : VDesc) (m : Morph) (h : fieldMorph (.optional e) = some m) :
    ∃ i, enclosedMorph e = some i ∧ m.rustTy = lit "Option<" ++ i.rustTy ++ lit ">" := by
  unfold fieldMorph at h
  rw [show nnetMorph (VDesc.optional e).info = some ⟨lit "Option<{}>", lit "{}", false, true, false⟩ by rfl] at h
  cases hi : enclosedMorph e with
  | none => simp only [hi, Option.bind_eq_bind, Option.bind_some, Option.bind_none] at h; cases h
  | some i =>
    simp only [hi, Option.bind_eq_bind, Option.bind_some, Option.some.injEq] at h
    refine ⟨i, rfl, ?_⟩
    rw [← h]
    show replaceHole i.rustTy (lit "Option<{}>") = _
    rw [List.append_assoc]; rfl

theorem fieldMorph_vec (e : VDesc) (m : Morph) (h : fieldMorph (.array e) = some m) :
    ∃ i, m.rustTy = lit "Vec<" ++ i ++ lit ">" := by
  unfold fieldMorph at h
  rw [show nnetMorph (VDesc.array e).info = some ⟨lit "Vec<{}>", lit "{}", false, false, true⟩ by rfl] at h
  cases hi : e.elemMorph with
  | none => simp only [hi, Option.bind_eq_bind, Option.bind_some, Option.bind_none] at h; cases h
  | some i =>
    simp only [hi, Option.bind_eq_bind, Option.bind_some, Option.some.injEq] at h
    refine ⟨i.rustTy, ?_⟩
    rw [← h]
    show replaceHole i.rustTy (lit "Vec<{}>") = _
    rw [List.append_assoc]; rfl

theorem enclosed_vec (e : VDesc) (m : Morph) (h : enclosedMorph (.array e) = some m) :
    ∃ i, m.rustTy = lit "Vec<" ++ i ++ lit ">" := by
  rw [enclosedMorph] at h
  cases hi : e.elemMorph with
  | none => rw [hi] at h; cases h
  | some i =>
    rw [hi] at h
    cases h
    exact ⟨i.rustTy, rfl⟩

/-- The body of a reader. [proof device, no counterpart in /repo] -/
def bodyOf (f : Txt) (m : Morph) : Txt :=
  if m.isOptional then
    lit "let (tail, _) = validate_opt_tag(input)?;\nlet (tail, is_provided) = nom::number::complete::u8(tail)?;\nlet (tail, " ++ f ++
    lit ") = if is_provided != 0 {\n" ++
    (if m.isVec then arrayText (lit "tail") m ++ lit "(tail, Some(array))"
     else lit "let (tail, res) = " ++ m.parser ++ lit "(tail)?;\n" ++
      (if m.doTryFrom then lit "    (tail, Some(<_>::try_from(res)?))\n" else lit "    (tail, Some(res))\n")) ++
    lit "} else {\n    (tail, None)\n};\n    tracing::debug!(\"" ++ f ++ lit ": {:?}\", " ++ f ++ lit ");\nOk((tail, " ++ f ++ lit "))\n"
   else if m.isVec then arrayText (lit "input") m ++ lit "Ok((tail, array))\n"
   else
    lit " let (tail, " ++ f ++ lit ") = " ++ m.parser ++ lit "(input)?;\n" ++
    (if m.doTryFrom then lit "        Ok((tail, " ++ m.rustTy ++ lit "::try_from(" ++ f ++ lit ")?))\n"
     else lit "        Ok((tail, " ++ f ++ lit "))\n")

theorem not_prefix {a b x : Txt} (i : Nat) (ha : i < a.length) (hb : i < b.length) (h : a[i]? ≠ b[i]?) : ¬ a <+: b ++ x := by
  rintro ⟨z, hz⟩
  have := congrArg (fun l : Txt => l[i]?) hz
  simp only [List.getElem?_append_left ha, List.getElem?_append_left hb] at this
  exact h this

theorem bodyOf_tag (f : Txt) (m : Morph) : lit "let (tail, _) = validate_opt_tag(input)?;\n" <+: bodyOf f m ↔ m.isOptional = true := by
  unfold bodyOf
  cases ho : m.isOptional with
  | true =>
    simp only [if_true, iff_true]
    simp only [List.append_assoc]
    rw [show lit "let (tail, _) = validate_opt_tag(input)?;\nlet (tail, is_provided) = nom::number::complete::u8(tail)?;\nlet (tail, " =
      lit "let (tail, _) = validate_opt_tag(input)?;\n" ++ lit "let (tail, is_provided) = nom::number::complete::u8(tail)?;\nlet (tail, " by decide +kernel,
      List.append_assoc]
    exact List.prefix_append _ _
  | false =>
    simp only [Bool.false_eq_true, if_false, iff_false]
    cases hv : m.isVec with
    | true =>
      simp only [if_true]
      unfold arrayText
      simp only [List.append_assoc]
      exact not_prefix 25 (by decide +kernel) (by decide +kernel) (by decide +kernel)
    | false =>
      simp only [Bool.false_eq_true, if_false, List.append_assoc]
      exact not_prefix 0 (by decide +kernel) (by decide +kernel) (by decide +kernel)

/-- The text of a member. [proof device, no counterpart in /repo] -/
def partOf (nm : Naming) (tagged : Bool) (tag : Option Int) (name : String) (m : Morph) : Part where
  field := nm.snake name
  ty := m.rustTy
  optional := m.isOptional
  body := bodyOf (nm.snake name) m
  before := if tagged then lit " " ++ nm.num (tag.getD 0) ++ lit " => {\n" ++ (lit "tracing::debug!(\"Field [{i}]: tagged '" ++ nm.num (tag.getD 0) ++
    lit "' for field " ++ nm.snake name ++ lit "\");\n") else []
  after := if tagged then lit "continue;\n} else {\ntracing::error!(\"Field " ++ nm.snake name ++ lit " with tag " ++ nm.num (tag.getD 0) ++
    lit " was already provided\");\nreturn Err(S2ProtocolError::DuplicateTag(String::from(\"" ++ nm.snake name ++ lit "\"), proto_field_tag));\n}\n},\n" else lit "}\n"

theorem letText_part (nm : Naming) (tagged : Bool) (tag : Option Int) (name : String) (m : Morph) :
    letText (nm.snake name) m = (partOf nm tagged tag name m).variable := by
  have h1 : lit "> = Some(None);\n" = lit "> = " ++ (lit "Some(None)" ++ lit ";\n") := by decide +kernel
  have h2 : lit "> = None;\n" = lit "> = " ++ (lit "None" ++ lit ";\n") := by decide +kernel
  unfold letText Part.variable partOf
  cases m.isOptional <;> simp [h1, h2]

theorem fieldFn_part (nm : Naming) (tagged : Bool) (tag : Option Int) (name : String) (m : Morph) :
    fieldFn (nm.snake name) m = (partOf nm tagged tag name m).reader := rfl

theorem guard_part (nm : Naming) (tagged : Bool) (tag : Option Int) (name : String) (m : Morph) :
    guardText (nm.snake name) m = (partOf nm tagged tag name m).guard := rfl

theorem armText_part (nm : Naming) (tagged : Bool) (tag : Option Int) (name : String) (m : Morph) (arm : Txt)
    (h : armText nm tagged tag (nm.snake name) m = some arm) :
    arm = (partOf nm tagged tag name m).arm ∧ (tagged = true → ∃ n, tag = some n) := by
  cases tagged with
  | true =>
    cases tag with
    | none => exact absurd h (by simp [armText])
    | some n =>
      simp only [armText, if_true, Option.map_some, Option.some.injEq] at h
      refine ⟨?_, fun _ => ⟨n, rfl⟩⟩
      rw [← h]
      have h1 : lit " => {\ntracing::debug!(\"Field [{i}]: tagged '" = lit " => {\n" ++ lit "tracing::debug!(\"Field [{i}]: tagged '" := by decide +kernel
      have h2 : lit ");\ncontinue;\n} else {\ntracing::error!(\"Field " = lit ");\n" ++ lit "continue;\n} else {\ntracing::error!(\"Field " := by decide +kernel
      unfold taggedArm Part.arm Part.kept
      rw [guard_part nm true (some n) name m, h1, h2]
      simp only [partOf, if_true, Option.getD_some, List.append_assoc]
  | false =>
    simp only [armText, Bool.false_eq_true, if_false, Option.some.injEq] at h
    refine ⟨?_, fun hf => by cases hf⟩
    rw [← h]
    have h2 : lit ");\n}\n" = lit ");\n" ++ lit "}\n" := by decide +kernel
    unfold untaggedArm Part.arm Part.kept
    rw [guard_part nm false tag name m, h2]
    simp only [partOf, Bool.false_eq_true, if_false, List.append_assoc, List.nil_append]

theorem partOf_of (nm : Naming) (tagged : Bool) (tag : Option Int) (name : String) (t : VDesc) (m : Morph) (h : fieldMorph t = some m) :
    (partOf nm tagged tag name m).Of nm name t where
  field := rfl
  optional := fieldMorph_optional t m h
  option := by
    rintro e rfl
    obtain ⟨i, -, hi⟩ := fieldMorph_option e m h
    exact ⟨i.rustTy, hi⟩
  optionVec := by
    rintro e rfl
    obtain ⟨i, he, hi⟩ := fieldMorph_option _ m h
    obtain ⟨x, hx⟩ := enclosed_vec e i he
    refine ⟨x, ?_⟩
    rw [show (partOf nm tagged tag name m).ty = m.rustTy from rfl, hi, hx]
    have h1 : lit "Option<Vec<" = lit "Option<" ++ lit "Vec<" := by decide +kernel
    have h2 : lit ">>" = lit ">" ++ lit ">" := by decide +kernel
    rw [h1, h2]
    simp only [List.append_assoc]
  vec := by
    rintro e rfl
    exact fieldMorph_vec e m h
  tag := by
    rw [← fieldMorph_optional t m h]
    exact bodyOf_tag _ m

theorem membersText_parts (nm : Naming) (tagged : Bool) : ∀ (fs : VMembers) (a b : StructText), membersText nm tagged fs a = some b →
    ∃ ps, Parts nm tagged fs ps ∧ b.typeDef = a.typeDef ++ ps.flatMap Part.typeLine ∧ b.lets = a.lets ++ ps.flatMap Part.variable ∧
      b.fns = a.fns ++ ps.flatMap Part.reader ∧ b.arms = a.arms ++ ps.flatMap Part.arm ∧ b.ret = a.ret ++ ps.flatMap Part.returned
  | .nil, a, b, h => by
    cases h
    exact ⟨[], .nil, by simp⟩
  | .const rest, a, b, h => by
    obtain ⟨ps, hp, r⟩ := membersText_parts nm tagged rest a b h
    exact ⟨ps, .const hp, r⟩
  | .member tag name t rest, a, b, h => by
    rw [membersText] at h
    cases hm : fieldMorph t with
    | none => rw [hm] at h; cases h
    | some m =>
      rw [hm] at h
      simp only [Option.bind_eq_bind, Option.bind_some] at h
      cases ha : armText nm tagged tag (nm.snake name) m with
      | none => rw [ha] at h; cases h
      | some arm =>
        rw [ha] at h
        simp only [Option.bind_some] at h
        obtain ⟨ps, hp, h1, h2, h3, h4, h5⟩ := membersText_parts nm tagged rest _ b h
        obtain ⟨e, ht⟩ := armText_part nm tagged tag name m arm ha
        refine ⟨partOf nm tagged tag name m :: ps, .member (partOf_of nm tagged tag name t m hm) ?_ hp, ?_, ?_, ?_, ?_, ?_⟩
        · cases tagged with
          | true =>
            obtain ⟨n, rfl⟩ := ht rfl
            exact if_pos rfl ▸ ⟨n, _, rfl, rfl⟩
          | false => rfl
        · rw [h1, List.flatMap_cons, List.append_assoc]; rfl
        · rw [h2, List.flatMap_cons, List.append_assoc, letText_part nm tagged tag]
        · rw [h3, List.flatMap_cons, List.append_assoc, fieldFn_part nm tagged tag]
        · rw [h4, List.flatMap_cons, List.append_assoc, e]
        · rw [h5, List.flatMap_cons, List.append_assoc]; rfl

/-- With tags, the arms stand in a loop over the fields announced and a match on the tag. [specification] -/
def loopOpening (tagged : Bool) : Txt :=
  if tagged then lit "for i in 0..(struct_field_count as usize) {\nlet (new_tail, field_tag) = parse_vlq_int(tail)?;\ntail = new_tail;\nmatch field_tag {\n" else []

/-- The last arm: any other tag. [specification] -/
def loopClosing (tagged : Bool) : Txt :=
  if tagged then lit "\n _ => {\ntracing::error!(\"Unknown tag {field_tag}\");\nErr(S2ProtocolError::UnknownTag(variant_tag))\n},\n}\n}" else []

/-- **C190.** Where the generator writes a struct, it writes for each member that is not a constant, in the order of the description: one line of
the type, one reader, one variable, one test-and-read (after the tag of that member, if the struct has tags) and one returned value, all of the
same name and type; and the member is treated as optional throughout (`Option<..>`, `Some(None)`, `if let Some(None)`, the tag of an optional value)
if and only if it is described as optional. -/
theorem C190_member_text (nm : Naming) (proto name : Txt) (fs : VMembers) (ty code : Txt) (h : structText nm proto name fs = some (ty, code)) :
    ∃ ps, Parts nm fs.hasTags fs ps ∧ ty = ps.flatMap Part.typeLine ∧
      code = ps.flatMap Part.reader ++ (openStruct proto name ++ (ps.flatMap Part.variable ++ (loopOpening fs.hasTags ++ (ps.flatMap Part.arm ++
        (loopClosing fs.hasTags ++ (lit "Ok((tail, Self {" ++ (ps.flatMap Part.returned ++ lit "}))\n"))))))) := by
  unfold structText at h
  cases hb : membersText nm fs.hasTags fs
    { typeDef := [], lets := [], fns := []
      arms := if fs.hasTags then
        lit "for i in 0..(struct_field_count as usize) {\nlet (new_tail, field_tag) = parse_vlq_int(tail)?;\ntail = new_tail;\nmatch field_tag {\n" else []
      ret := lit "Ok((tail, Self {" } with
  | none => rw [hb] at h; cases h
  | some b =>
    rw [hb] at h
    simp only [Option.bind_eq_bind, Option.bind_some, Option.some.injEq, Prod.mk.injEq] at h
    obtain ⟨ps, hp, h1, h2, h3, h4, h5⟩ := membersText_parts nm _ fs _ b hb
    simp only [List.nil_append] at h1 h2 h3
    obtain ⟨e1, e2⟩ := h
    cases ht : fs.hasTags with
    | true =>
      rw [ht] at h4 e2 hp
      simp only [if_true] at h4 e2
      refine ⟨ps, hp, e1 ▸ h1, ?_⟩
      rw [← e2, h2, h3, h4, h5]
      simp only [List.append_assoc, loopOpening, loopClosing, if_true]
    | false =>
      rw [ht] at h4 e2 hp
      simp only [Bool.false_eq_true, if_false, List.nil_append] at h4 e2
      refine ⟨ps, hp, e1 ▸ h1, ?_⟩
      rw [← e2, h2, h3, h4, h5]
      simp only [List.append_assoc, List.nil_append, loopOpening, loopClosing, Bool.false_eq_true, if_false]

/-- A struct with a mandatory member, an optional array and a constant is written. -/
example : (structText { rust := String.toList, snake := String.toList, num := fun i => (toString i).toList } (lit "p") (lit "T")
    (.member (some 0) "m_a" .bool (.const (.member (some 3) "m_b" (.optional (.array (.named "NNet.Game.SColor" dVersion))) .nil)))).isSome = true := by
  decide +kernel

end S2.Generator
