import Verif.Props.GenTextLits
import Verif.Props.GenBytes
/-! # The text of the generated byte-aligned module (C168, C169) -/
namespace S2.Generator
open S2

/-- A text that leaves the awaited delimiters as they are. [proof device, no counterpart in /repo] -/
@[reducible] def Neutral (t : Txt) : Prop := ∀ s, awaited s t = some s

theorem neutral_of_plain : (t : Txt) → NoDelimiters t → Neutral t
  | [], _, s => rfl
  | c :: r, h, s => by
    rw [awaited]
    have hc := h c List.mem_cons_self
    have : await s c = some s := by
      unfold await
      rw [hc.1, hc.2]
      rfl
    rw [this]
    exact neutral_of_plain r (fun d hd => h d (List.mem_cons_of_mem _ hd)) s

/-- The texts of a table entry are neutral. [proof device, no counterpart in /repo] -/
@[reducible] def Morph.Neutral (m : Morph) : Prop := Generator.Neutral m.rustTy ∧ Generator.Neutral m.parser

theorem neutral_of_balanced {t : Txt} (h : awaited [] t = some []) : Neutral t := awaited_frame [] [] t h

theorem morphTable_balanced : ∀ p ∈ morphTable, awaited [] p.2.rustTy = some [] ∧ awaited [] p.2.parser = some [] := by decide +kernel

theorem nnetMorph_neutral (n : String) (m : Morph) (h : nnetMorph n = some m) : m.Neutral := by
  unfold nnetMorph at h
  rw [Option.map_eq_some_iff] at h
  obtain ⟨p, hp, rfl⟩ := h
  have := morphTable_balanced p (List.mem_of_find?_eq_some hp)
  exact ⟨neutral_of_balanced this.1, neutral_of_balanced this.2⟩

theorem nil_neutral : Neutral [] := fun _ => rfl

theorem append_neutral {a b : Txt} (ha : Neutral a) (hb : Neutral b) : Neutral (a ++ b) := by
  intro s
  rw [awaited_append, ha s]
  exact hb s

/-- Pairs of braces do not matter. -/
theorem hole_neutral (x : Txt) (hx : Neutral x) : Neutral (replaceHole x (lit "Option<{}>")) ∧ Neutral (replaceHole x (lit "Vec<{}>")) ∧
    Neutral (replaceHole x (lit "{}")) := by
  have h1 : replaceHole x (lit "Option<{}>") = lit "Option<" ++ (x ++ lit ">") := by rfl
  have h2 : replaceHole x (lit "Vec<{}>") = lit "Vec<" ++ (x ++ lit ">") := by rfl
  have h3 : replaceHole x (lit "{}") = x ++ [] := by rfl
  rw [h1, h2, h3]
  exact ⟨fun s => by read_pieces [hx s], fun s => by read_pieces [hx s], fun s => by rw [List.append_nil]; exact hx s⟩

theorem optional_entry (m : Morph) (h : nnetMorph "OptionalType" = some m) : m = ⟨lit "Option<{}>", lit "{}", false, true, false⟩ := by
  have : nnetMorph "OptionalType" = some ⟨lit "Option<{}>", lit "{}", false, true, false⟩ := by rfl
  rw [this] at h
  cases h; rfl

theorem array_entry (m : Morph) (h : nnetMorph "ArrayType" = some m) : m = ⟨lit "Vec<{}>", lit "{}", false, false, true⟩ := by
  have : nnetMorph "ArrayType" = some ⟨lit "Vec<{}>", lit "{}", false, false, true⟩ := by rfl
  rw [this] at h
  cases h; rfl

theorem elem_neutral (t : VDesc) (m : Morph) (h : t.elemMorph = some m) : m.Neutral := by
  cases t with
  | named n d => exact nnetMorph_neutral n m h
  | _ => cases h

theorem enclosed_neutral (t : VDesc) (m : Morph) (h : enclosedMorph t = some m) : m.Neutral := by
  cases t with
  | array e =>
    rw [enclosedMorph] at h
    cases he : e.elemMorph with
    | none => rw [he] at h; cases h
    | some m' =>
      rw [he] at h
      cases h
      obtain ⟨h1, h2⟩ := elem_neutral e m' he
      exact ⟨fun s => by read_pieces [h1 s], h2⟩
  | _ => exact nnetMorph_neutral _ m h

theorem fieldMorph_neutral (t : VDesc) (m : Morph) (h : fieldMorph t = some m) : m.Neutral := by
  unfold fieldMorph at h
  cases hn : nnetMorph t.info with
  | none => rw [hn] at h; cases h
  | some m0 =>
    rw [hn] at h
    cases t with
    | optional e =>
      have := optional_entry m0 hn
      subst this
      cases he : enclosedMorph e with
      | none => simp [he] at h
      | some i =>
        simp [he] at h
        subst h
        obtain ⟨h1, h2⟩ := enclosed_neutral e i he
        exact ⟨(hole_neutral _ h1).1, (hole_neutral _ h2).2.2⟩
    | array e =>
      have := array_entry m0 hn
      subst this
      cases he : e.elemMorph with
      | none => simp [he] at h
      | some i =>
        simp [he] at h
        subst h
        obtain ⟨h1, h2⟩ := elem_neutral e i he
        exact ⟨(hole_neutral _ h1).2.1, (hole_neutral _ h2).2.2⟩
    | _ =>
      cases h
      exact nnetMorph_neutral _ _ hn

theorem kind_neutral (t : VDesc) : Neutral (lit t.kind) := by
  have h : ∀ k ∈ ["UserType", "BoolType", "NullType", "FourCCType", "IntType", "BlobType", "StringType", "OptionalType", "ArrayType", "DynArrayType",
      "BitArrayType"], awaited [] (lit k) = some [] := by decide +kernel
  exact neutral_of_balanced (h _ (by cases t <;> simp [VDesc.kind]))

theorem variantMorph_neutral (t : VDesc) (m : Morph) (h : variantMorph t = some m) : m.Neutral := by
  unfold variantMorph at h
  cases hn : nnetMorph t.info with
  | none => rw [hn] at h; cases h
  | some m0 =>
    rw [hn] at h
    cases t with
    | optional e =>
      have := optional_entry m0 hn
      subst this
      cases h
      have hk := kind_neutral e
      have hq : Neutral (lit "\"" ++ lit e.kind ++ lit "\"") := fun s => by read_pieces [hk s]
      exact ⟨(hole_neutral _ hq).1, (hole_neutral _ hq).2.2⟩
    | _ =>
      cases h
      exact nnetMorph_neutral _ _ hn

/-! ## Structs -/

theorem guard_awaited (f : Txt) (m : Morph) (hf : Neutral f) (s : List Char) : awaited s (guardText f m) = some s := by
  unfold guardText
  read_pieces [hf _]

theorem let_neutral (f : Txt) (m : Morph) (hf : Neutral f) (hm : m.Neutral) : Neutral (letText f m) := by
  intro s
  unfold letText
  read_pieces [hf _, hm.1 _]

theorem tagged_neutral (f tag : Txt) (m : Morph) (hf : Neutral f) (ht : Neutral tag) : Neutral (taggedArm f tag m) := by
  intro s
  unfold taggedArm
  read_pieces [hf _, ht _, guard_awaited f m hf _]

theorem untagged_neutral (f : Txt) (m : Morph) (hf : Neutral f) : Neutral (untaggedArm f m) := by
  intro s
  unfold untaggedArm
  read_pieces [hf _, guard_awaited f m hf _]

theorem array_neutral (src : Txt) (m : Morph) (hs : Neutral src) (hm : m.Neutral) : Neutral (arrayText src m) := by
  intro s
  unfold arrayText
  read_pieces [hs _, hm.2 _]

theorem fieldFn_neutral (f : Txt) (m : Morph) (hf : Neutral f) (hm : m.Neutral) : Neutral (fieldFn f m) := by
  intro s
  have h1 := array_neutral (lit "tail") m (fun s => by read_pieces []) hm
  have h2 := array_neutral (lit "input") m (fun s => by read_pieces []) hm
  unfold fieldFn
  read_pieces [hf _, hm.1 _, hm.2 _, h1 _, h2 _]

theorem armText_neutral (nm : Naming) (hn : nm.Plain) (tagged : Bool) (tag : Option Int) (f : Txt) (m : Morph) (hf : Neutral f) (arm : Txt)
    (h : armText nm tagged tag f m = some arm) : Neutral arm := by
  cases tagged with
  | true =>
    cases tag with
    | none => exact absurd h (by simp [armText])
    | some t =>
      have : armText nm true (some t) f m = some (taggedArm f (nm.num t) m) := by simp only [armText, reduceIte, Option.map_some]
      rw [this] at h
      rw [← Option.some.inj h]
      exact tagged_neutral _ _ m hf (neutral_of_plain _ (hn.2.2 t))
  | false =>
    have : armText nm false tag f m = some (untaggedArm f m) := by simp only [armText, reduceIte, Bool.false_eq_true]
    rw [this] at h
    rw [← Option.some.inj h]
    exact untagged_neutral _ m hf

theorem typeLine_neutral (f : Txt) (m : Morph) (hf : Neutral f) (hm : m.Neutral) : Neutral (lit "    pub " ++ f ++ lit ": " ++ m.rustTy ++ lit ",\n") := by
  intro s
  read_pieces [hf _, hm.1 _]

theorem retLine_neutral (f : Txt) (hf : Neutral f) : Neutral (f ++ lit ": ok_or_return_missing_field_err!(" ++ f ++ lit "),\n") := by
  intro s
  read_pieces [hf _]

/-- [proof device, no counterpart in /repo] -/
@[reducible] def StructText.Closed (a : StructText) : Prop := Neutral a.typeDef ∧ Neutral a.lets ∧ Neutral a.fns

theorem membersText_spec (nm : Naming) (hn : nm.Plain) (tagged : Bool) : (fs : VMembers) → ∀ (a b : StructText), a.Closed →
    membersText nm tagged fs a = some b →
    b.Closed ∧ (∃ x, Neutral x ∧ b.arms = a.arms ++ x) ∧ (∃ x, Neutral x ∧ b.ret = a.ret ++ x)
  | .nil, a, b, ha, h => by
    rw [membersText] at h
    cases h
    exact ⟨ha, ⟨[], nil_neutral, by simp⟩, ⟨[], nil_neutral, by simp⟩⟩
  | .const rest, a, b, ha, h => by
    rw [membersText] at h
    exact membersText_spec nm hn tagged rest a b ha h
  | .member tag name t rest, a, b, ha, h => by
    rw [membersText] at h
    have hf := neutral_of_plain _ (hn.2.1 name)
    cases hm : fieldMorph t with
    | none => rw [hm] at h; cases h
    | some m =>
      rw [hm] at h
      have hmn := fieldMorph_neutral t m hm
      cases hx : armText nm tagged tag (nm.snake name) m with
      | none => simp [hx] at h
      | some arm =>
        simp only [hx, Option.bind_eq_bind, Option.bind_some] at h
        have harm : Neutral arm := armText_neutral nm hn tagged tag _ m hf arm hx
        obtain ⟨h1, ⟨x, hx1, hx2⟩, ⟨y, hy1, hy2⟩⟩ := membersText_spec nm hn tagged rest _ b ⟨append_neutral ha.1 (typeLine_neutral _ m hf hmn),
          append_neutral ha.2.1 (let_neutral _ m hf hmn), append_neutral ha.2.2 (fieldFn_neutral _ m hf hmn)⟩ h
        refine ⟨h1, ⟨_, append_neutral harm hx1, by rw [hx2, List.append_assoc]⟩, ⟨_, append_neutral (retLine_neutral _ hf) hy1, by rw [hy2, List.append_assoc]⟩⟩

theorem structText_spec (nm : Naming) (hn : nm.Plain) (proto name : Txt) (hp : Neutral proto) (hname : Neutral name) (fs : VMembers) (ty fns : Txt)
    (h : structText nm proto name fs = some (ty, fns)) : Neutral ty ∧ ∀ s, awaited s fns = some ('}' :: s) := by
  unfold structText at h
  cases hm : membersText nm fs.hasTags fs
    { typeDef := [], lets := [], fns := []
      arms := if fs.hasTags then
        lit "for i in 0..(struct_field_count as usize) {\nlet (new_tail, field_tag) = parse_vlq_int(tail)?;\ntail = new_tail;\nmatch field_tag {\n" else []
      ret := lit "Ok((tail, Self {" } with
  | none => rw [hm] at h; cases h
  | some a =>
    rw [hm] at h
    simp only [Option.bind_eq_bind, Option.bind_some, Option.some.injEq, Prod.mk.injEq] at h
    obtain ⟨⟨c1, c2, c3⟩, ⟨x, hx1, hx2⟩, ⟨y, hy1, hy2⟩⟩ := membersText_spec nm hn fs.hasTags fs _ a ⟨nil_neutral, nil_neutral, nil_neutral⟩ hm
    simp only at hx2 hy2
    obtain ⟨rfl, rfl⟩ := h
    refine ⟨c1, fun s => ?_⟩
    rw [hx2, hy2]
    unfold openStruct
    cases fs.hasTags <;> simp only [reduceIte, Bool.false_eq_true, List.nil_append] <;> read_pieces [c2 _, c3 _, hx1 _, hy1 _, hp _, hname _]

/-! ## Other declarations -/

theorem variantArm_neutral (tag v : Txt) (opt : Bool) (m : Morph) (ht : Neutral tag) (hv : Neutral v) (hm : m.Neutral) :
    Neutral (variantArm tag v opt m) := by
  intro s
  unfold variantArm
  read_pieces [ht _, hv _, hm.1 _, hm.2 _]

theorem variantsText_neutral (nm : Naming) (hn : nm.Plain) : (vs : VVariants) → ∀ ty arms, variantsText nm vs = some (ty, arms) →
    Neutral ty ∧ Neutral arms
  | .nil, ty, arms, h => by rw [variantsText] at h; cases h; exact ⟨nil_neutral, nil_neutral⟩
  | .cons tag name t rest, ty, arms, h => by
    by_cases ht : t = .null
    · subst ht
      rw [variantsText] at h
      exact variantsText_neutral nm hn rest ty arms h
    · rw [variantsText] at h
      · cases hm : variantMorph t with
        | none => rw [hm] at h; cases h
        | some m =>
          rw [hm] at h
          cases hr : variantsText nm rest with
          | none => simp [hr] at h
          | some p =>
            obtain ⟨ty', arms'⟩ := p
            simp only [hr, Option.bind_eq_bind, Option.bind_some, Option.some.injEq, Prod.mk.injEq] at h
            obtain ⟨rfl, rfl⟩ := h
            obtain ⟨i1, i2⟩ := variantsText_neutral nm hn rest ty' arms' hr
            have hmn := variantMorph_neutral t m hm
            have hv := neutral_of_plain _ (hn.1 name)
            exact ⟨fun s => by read_pieces [hv _, hmn.1 _, i1 _],
              append_neutral (variantArm_neutral _ _ _ m (neutral_of_plain _ (hn.2.2 tag)) hv hmn) i2⟩
      · exact ht

theorem valuesText_neutral (nm : Naming) (hn : nm.Plain) : (vs : VValues) → Neutral (valuesText nm vs).1 ∧ Neutral (valuesText nm vs).2
  | .nil => ⟨nil_neutral, nil_neutral⟩
  | .plain value name rest => by
    obtain ⟨i1, i2⟩ := valuesText_neutral nm hn rest
    have hv := neutral_of_plain _ (hn.1 name)
    have ht := neutral_of_plain _ (hn.2.2 value)
    rw [valuesText]
    exact ⟨fun s => by read_pieces [hv _, ht _, i1 _], fun s => by read_pieces [hv _, ht _, i2 _]⟩
  | .event value name struct _ rest => by
    obtain ⟨i1, i2⟩ := valuesText_neutral nm hn rest
    have hv := neutral_of_plain _ (hn.1 name)
    have hs := neutral_of_plain _ (hn.1 struct)
    have ht := neutral_of_plain _ (hn.2.2 value)
    rw [valuesText]
    exact ⟨fun s => by read_pieces [hv _, hs _, ht _, i1 _], fun s => by read_pieces [hv _, hs _, ht _, i2 _]⟩

theorem bodyText_spec (nm : Naming) (hn : nm.Plain) (proto name : Txt) (hp : Neutral proto) (hname : Neutral name) (d : VDecl) (ty fns : Txt)
    (h : bodyText nm proto name d = some (ty, fns)) : Neutral ty ∧ ∀ s, awaited s fns = some ('}' :: s) := by
  cases d with
  | struct fs => exact structText_spec nm hn proto name hp hname fs ty fns h
  | choice vs =>
    rw [bodyText, choiceText] at h
    cases hv : variantsText nm vs with
    | none => rw [hv] at h; cases h
    | some p =>
      obtain ⟨ty', arms⟩ := p
      rw [hv] at h
      cases h
      obtain ⟨i1, i2⟩ := variantsText_neutral nm hn vs _ _ hv
      exact ⟨i1, fun s => by read_pieces [hp _, hname _, i2 _]⟩
  | enum vs =>
    rw [bodyText, enumText] at h
    cases h
    obtain ⟨i1, i2⟩ := valuesText_neutral nm hn vs
    exact ⟨i1, fun s => by read_pieces [hp _, hname _, i2 _]⟩
  | int b =>
    rw [bodyText, intText] at h
    cases h
    exact ⟨fun s => by read_pieces [], fun s => by read_pieces [hp _, hname _]⟩
  | array t =>
    cases t with
    | named n d =>
      rw [bodyText, arrayDeclText] at h
      cases h
      have he := neutral_of_plain _ (hn.1 n)
      exact ⟨fun s => by read_pieces [he _], fun s => by read_pieces [hp _, hname _, he _]⟩
    | _ => cases h
  | _ => cases h

theorem keyword_neutral (d : VDecl) : Neutral d.keyword := by
  intro s
  cases d <;> (simp only [VDecl.keyword]; read_pieces [])

theorem declText_neutral (nm : Naming) (hn : nm.Plain) (proto : Txt) (hp : Neutral proto) (n : String) (d : VDecl) (t : Txt)
    (h : declText nm proto n d = some t) : Neutral t := by
  unfold declText at h
  cases hb : bodyText nm proto (nm.rust n) d with
  | none => rw [hb] at h; cases h
  | some p =>
    obtain ⟨ty, fns⟩ := p
    rw [hb] at h
    cases h
    have hname := neutral_of_plain _ (hn.1 n)
    obtain ⟨h1, h2⟩ := bodyText_spec nm hn proto _ hp hname d ty fns hb
    intro s
    read_pieces [hname _, h1 _, h2 _, keyword_neutral d _]

theorem declsText_neutral (nm : Naming) (hn : nm.Plain) (proto : Txt) (hp : Neutral proto) : (ds : List (String × VDecl)) → ∀ t,
    declsText nm proto ds = some t → Neutral t
  | [], t, h => by rw [declsText] at h; cases h; exact nil_neutral
  | (n, d) :: rest, t, h => by
    rw [declsText] at h
    by_cases he : emitted n = true
    · rw [if_pos he] at h
      cases h1 : declText nm proto n d with
      | none => rw [h1] at h; cases h
      | some t1 =>
        cases h2 : declsText nm proto rest with
        | none => simp [h1, h2] at h
        | some t2 =>
          simp only [h1, h2, Option.bind_eq_bind, Option.bind_some, Option.some.injEq] at h
          subst h
          exact append_neutral (declText_neutral nm hn proto hp n d t1 h1) (declsText_neutral nm hn proto hp rest t2 h2)
    · rw [if_neg he] at h
      exact declsText_neutral nm hn proto hp rest t h

/-! ## C168 -/

/-- **C168.** Whatever is described — any number of declarations, members, variants and values, of any types the generator does not refuse — the module it writes
closes every brace, bracket and parenthesis in order, if the names and numbers of the description contain none. -/
theorem C168_balanced (nm : Naming) (hn : nm.Plain) (proto : Txt) (hp : NoDelimiters proto) (ds : List (String × VDecl)) (t : Txt)
    (h : moduleText nm proto ds = some t) : Balanced t := by
  unfold moduleText at h
  cases hd : declsText nm proto ds with
  | none => rw [hd] at h; cases h
  | some ts =>
    rw [hd] at h
    cases h
    have hts := declsText_neutral nm hn proto (neutral_of_plain _ hp) ds ts hd
    unfold Balanced
    read_pieces [hts _]

/-- **C168.** Each declaration is closed by itself, so that leaving one out or adding one does not disturb the others. -/
theorem C168_each_item (nm : Naming) (hn : nm.Plain) (proto : Txt) (hp : NoDelimiters proto) (n : String) (d : VDecl) (t : Txt)
    (h : declText nm proto n d = some t) : Balanced t :=
  declText_neutral nm hn proto (neutral_of_plain _ hp) n d t h []

/-! ## C169 -/

theorem occur_after (ps : List Txt) (a b : Txt) (h : Occur ps b) : Occur ps (a ++ b) := by
  cases ps with
  | nil => trivial
  | cons p ps =>
    obtain ⟨x, y, rfl, h⟩ := h
    exact ⟨a ++ x, y, by rw [List.append_assoc], h⟩

theorem occur_before : (ps : List Txt) → (a b : Txt) → Occur ps a → Occur ps (a ++ b)
  | [], _, _, _ => trivial
  | p :: ps, _, b, ⟨x, y, rfl, h⟩ => ⟨x, y ++ b, by simp only [List.append_assoc], occur_before ps y b h⟩

theorem occur_append : (ps qs : List Txt) → (a b : Txt) → Occur ps a → Occur qs b → Occur (ps ++ qs) (a ++ b)
  | [], qs, a, b, _, h => occur_after qs a b h
  | p :: ps, qs, _, b, ⟨x, y, rfl, h⟩, h2 => ⟨x, y ++ b, by simp only [List.append_assoc], occur_append ps qs y b h h2⟩

theorem occur_one (p a b : Txt) : Occur [p] (a ++ (p ++ b)) := ⟨a, b, rfl, trivial⟩

theorem split_fn : lit "#[tracing::instrument(level = \"trace\", skip(input), fields(peek = peek_hex(input)))]\npub fn parse_" =
    lit "#[tracing::instrument(level = \"trace\", skip(input), fields(peek = peek_hex(input)))]\n" ++ lit "pub fn parse_" := by decide +kernel
theorem split_input : lit "(input: &[u8]) -> S2ProtoResult<&[u8], " = lit "(input: &[u8])" ++ lit " -> S2ProtoResult<&[u8], " := by decide +kernel
theorem split_call : lit ") = Self::parse_" = lit ") = " ++ lit "Self::parse_" := by decide +kernel
theorem split_tail : lit "(tail)?;\ntail = new_tail;\n" = lit "(tail)?" ++ lit ";\ntail = new_tail;\n" := by decide +kernel
theorem split_continue : lit ");\ncontinue;\n} else {\ntracing::error!(\"Field " = lit ");" ++ lit "\ncontinue;\n} else {\ntracing::error!(\"Field " := by decide +kernel
theorem split_end : lit ");\n}\n" = lit ");" ++ lit "\n}\n" := by decide +kernel
theorem split_ret : lit "),\n" = lit ")" ++ lit ",\n" := by decide +kernel
theorem split_pub : lit "    pub " = lit "    " ++ lit "pub " := by decide +kernel

theorem occur_fn (f : Txt) (m : Morph) : Occur [lit "pub fn parse_" ++ f ++ lit "(input: &[u8])"] (fieldFn f m) := by
  unfold fieldFn
  generalize (if m.isOptional = true then _ else _ : Txt) = x
  rw [split_fn, split_input]
  exact ⟨lit "#[tracing::instrument(level = \"trace\", skip(input), fields(peek = peek_hex(input)))]\n",
    lit " -> S2ProtoResult<&[u8], " ++ (m.rustTy ++ (lit "> {\n" ++ (x ++ lit "}\n"))), by simp only [List.append_assoc], trivial⟩

theorem occur_let (f : Txt) (m : Morph) : Occur [lit "let mut " ++ f ++ lit ": Option<"] (letText f m) := by
  unfold letText
  split
  · exact ⟨[], m.rustTy ++ lit "> = Some(None);\n", by simp only [List.append_assoc, List.nil_append], trivial⟩
  · exact ⟨[], m.rustTy ++ lit "> = None;\n", by simp only [List.append_assoc, List.nil_append], trivial⟩

theorem occur_tagged (f tag : Txt) (m : Morph) :
    Occur [lit "Self::parse_" ++ f ++ lit "(tail)?", f ++ lit " = Some(parsed_" ++ f ++ lit ");"] (taggedArm f tag m) := by
  unfold taggedArm
  generalize guardText f m = g
  rw [split_call, split_tail, split_continue]
  simp only [List.append_assoc]
  refine occur_after _ _ _ (occur_after _ _ _ (occur_after _ _ _ (occur_after _ _ _ (occur_after _ _ _ (occur_after _ _ _ (occur_after _ _ _ (occur_after _ _ _
    (occur_after _ _ _ (occur_after _ _ _ (occur_after _ _ _ ?_))))))))))
  exact ⟨[], _, by simp only [List.append_assoc, List.nil_append]; rfl, ⟨lit ";\ntail = new_tail;\n", _, by simp only [List.append_assoc]; rfl, trivial⟩⟩

theorem occur_untagged (f : Txt) (m : Morph) :
    Occur [lit "Self::parse_" ++ f ++ lit "(tail)?", f ++ lit " = Some(parsed_" ++ f ++ lit ");"] (untaggedArm f m) := by
  unfold untaggedArm
  generalize guardText f m = g
  rw [split_call, split_tail, split_end]
  simp only [List.append_assoc]
  refine occur_after _ _ _ (occur_after _ _ _ (occur_after _ _ _ (occur_after _ _ _ ?_)))
  exact ⟨[], _, by simp only [List.append_assoc, List.nil_append]; rfl, ⟨lit ";\ntail = new_tail;\n", _, by simp only [List.append_assoc]; rfl, trivial⟩⟩

theorem occur_arm (nm : Naming) (tagged : Bool) (tag : Option Int) (f : Txt) (m : Morph) (arm : Txt) (h : armText nm tagged tag f m = some arm) :
    Occur [lit "Self::parse_" ++ f ++ lit "(tail)?", f ++ lit " = Some(parsed_" ++ f ++ lit ");"] arm := by
  cases tagged with
  | true =>
    cases tag with
    | none => exact absurd h (by simp [armText])
    | some t =>
      have : armText nm true (some t) f m = some (taggedArm f (nm.num t) m) := by simp only [armText, reduceIte, Option.map_some]
      rw [this] at h
      rw [← Option.some.inj h]
      exact occur_tagged f _ m
  | false =>
    have : armText nm false tag f m = some (untaggedArm f m) := by simp only [armText, reduceIte, Bool.false_eq_true]
    rw [this] at h
    rw [← Option.some.inj h]
    exact occur_untagged f m

theorem occur_ret (f : Txt) : Occur [f ++ lit ": ok_or_return_missing_field_err!(" ++ f ++ lit ")"] (f ++ lit ": ok_or_return_missing_field_err!(" ++ f ++ lit "),\n") := by
  rw [split_ret]
  exact ⟨[], lit ",\n", by simp only [List.append_assoc, List.nil_append], trivial⟩

theorem occur_type (f ty : Txt) : Occur [lit "pub " ++ f ++ lit ": "] (lit "    pub " ++ f ++ lit ": " ++ ty ++ lit ",\n") := by
  rw [split_pub]
  exact ⟨lit "    ", ty ++ lit ",\n", by simp only [List.append_assoc], trivial⟩

/-- What has been written for a member. [proof device, no counterpart in /repo] -/
structure Written (f : Txt) (a : StructText) : Prop where
  ty : Occur [lit "pub " ++ f ++ lit ": "] a.typeDef
  fn : Occur [lit "pub fn parse_" ++ f ++ lit "(input: &[u8])"] a.fns
  letv : Occur [lit "let mut " ++ f ++ lit ": Option<"] a.lets
  arm : Occur [lit "Self::parse_" ++ f ++ lit "(tail)?", f ++ lit " = Some(parsed_" ++ f ++ lit ");"] a.arms
  ret : Occur [f ++ lit ": ok_or_return_missing_field_err!(" ++ f ++ lit ")"] a.ret

theorem membersText_written (nm : Naming) (tagged : Bool) : (fs : VMembers) → ∀ (a b : StructText), membersText nm tagged fs a = some b →
    (∀ f, Written f a → Written f b) ∧ ∀ n ∈ fs.names, Written (nm.snake n) b
  | .nil, a, b, h => by
    rw [membersText] at h
    cases h
    exact ⟨fun _ h => h, fun n hn => by cases hn⟩
  | .const rest, a, b, h => by
    rw [membersText] at h
    exact membersText_written nm tagged rest a b h
  | .member tag name t rest, a, b, h => by
    rw [membersText] at h
    cases hm : fieldMorph t with
    | none => rw [hm] at h; cases h
    | some m =>
      rw [hm] at h
      cases hx : armText nm tagged tag (nm.snake name) m with
      | none => simp [hx] at h
      | some arm =>
        simp only [hx, Option.bind_eq_bind, Option.bind_some] at h
        obtain ⟨h1, h2⟩ := membersText_written nm tagged rest _ b h
        refine ⟨fun f hf => h1 f ⟨occur_before _ _ _ hf.ty, occur_before _ _ _ hf.fn, occur_before _ _ _ hf.letv, occur_before _ _ _ hf.arm,
          occur_before _ _ _ hf.ret⟩, fun n hn => ?_⟩
        rw [VMembers.names, List.mem_cons] at hn
        rcases hn with rfl | hn
        · exact h1 _ ⟨occur_after _ _ _ (occur_type _ _), occur_after _ _ _ (occur_fn _ m), occur_after _ _ _ (occur_let _ m),
            occur_after _ _ _ (occur_arm nm tagged tag _ m arm hx), occur_after _ _ _ (occur_ret _)⟩
        · exact h2 n hn

/-- **C169.** What holds: for every member of every struct that is described, the text declares the field, defines its reader, declares its variable, and then calls
that reader, stores the result and returns it. -/
theorem C169_members_partial (nm : Naming) (proto name : Txt) (fs : VMembers) (ty fns : Txt) (h : structText nm proto name fs = some (ty, fns)) :
    ∀ n ∈ fs.names, DeclaredInText (nm.snake n) ty fns := by
  unfold structText at h
  cases hm : membersText nm fs.hasTags fs
    { typeDef := [], lets := [], fns := []
      arms := if fs.hasTags then
        lit "for i in 0..(struct_field_count as usize) {\nlet (new_tail, field_tag) = parse_vlq_int(tail)?;\ntail = new_tail;\nmatch field_tag {\n" else []
      ret := lit "Ok((tail, Self {" } with
  | none => rw [hm] at h; cases h
  | some a =>
    rw [hm] at h
    simp only [Option.bind_eq_bind, Option.bind_some, Option.some.injEq, Prod.mk.injEq] at h
    obtain ⟨rfl, rfl⟩ := h
    intro n hn
    have w := (membersText_written nm fs.hasTags fs _ a hm).2 n hn
    refine ⟨w.ty, occur_append [_] _ _ _ w.fn ?_⟩
    refine occur_append [_, _, _] [_] _ _ (occur_append [_] [_, _] _ _ (occur_after _ _ _ w.letv) ?_) (occur_before _ _ _ w.ret)
    split
    · exact occur_before _ _ _ w.arm
    · exact w.arm

/-- Names as they are in the description, numbers as digits. [sample data] -/
def plainNaming : Naming := ⟨fun n => (lit n).filter (fun c => isWordChar c), fun n => (lit n).filter (fun c => isWordChar c), fun i => (toString i.toNat).toList.filter (fun c => isWordChar c)⟩

theorem word_plain (t : Txt) : NoDelimiters (t.filter (fun c => isWordChar c)) := by
  intro c hc
  have h := (List.mem_filter.1 hc).2
  by_cases h1 : c ∈ ['{', '(', '[', '}', ')', ']']
  · simp only [List.mem_cons, List.not_mem_nil, or_false] at h1
    rcases h1 with rfl | rfl | rfl | rfl | rfl | rfl <;> exact absurd h (by decide)
  · simp only [List.mem_cons, List.not_mem_nil, or_false, not_or] at h1
    obtain ⟨h1, h2, h3, h4, h5, h6⟩ := h1
    constructor
    · unfold closer
      split <;> first | contradiction | rfl
    · simp [isCloser, h4, h5, h6]

theorem plainNaming_plain : plainNaming.Plain := ⟨fun n => word_plain _, fun n => word_plain _, fun i => word_plain _⟩

/-- A struct with one tagged member. [sample data] -/
def oneTaggedMember : VDecl := .struct (.member (some 0) "m_userId" (.named "NNet.uint8" (.int ⟨0, true, 256, false, some 8⟩)) .nil)

/-- Is the word followed by a closing parenthesis? [proof device, no counterpart in /repo] -/
def usesAsLast (w : Txt) : List Txt → Bool
  | [] => false
  | t :: r => (t == w && r.head? == some (lit ")")) || usesAsLast w r

theorem usesAsLast_spec (w : Txt) : (ts : List Txt) → usesAsLast w ts = true → ∃ pre post : List Txt, ts = pre ++ w :: lit ")" :: post
  | [], h => by cases h
  | t :: r, h => by
    rw [usesAsLast, Bool.or_eq_true, Bool.and_eq_true] at h
    rcases h with ⟨h1, h2⟩ | h
    · have h1 := beq_iff_eq.1 h1
      have h2 := beq_iff_eq.1 h2
      cases r with
      | nil => cases h2
      | cons a r => exact ⟨[], r, by rw [List.head?_cons] at h2; rw [h1, Option.some.inj h2]; rfl⟩
    · obtain ⟨pre, post, e⟩ := usesAsLast_spec w r h
      exact ⟨t :: pre, post, by rw [e]; rfl⟩

/-- **C169.** As it is, the generator does not always write code that compiles: for a struct with tags it uses two names that nothing binds. -/
theorem C169_names_refuted : ∃ t, declText plainNaming (lit "protocol87702") "NNet.Game.SColor" oneTaggedMember = some t ∧
    UsesUnbound t (lit "proto_field_tag") ∧ UsesUnbound t (lit "variant_tag") := by
  have hd : (declText plainNaming (lit "protocol87702") "NNet.Game.SColor" oneTaggedMember).isSome = true := by decide +kernel
  obtain ⟨t, ht⟩ := Option.isSome_iff_exists.1 hd
  have h : ∀ w ∈ [lit "proto_field_tag", lit "variant_tag"], ∀ t ∈ declText plainNaming (lit "protocol87702") "NNet.Game.SColor" oneTaggedMember,
      usesAsLast w (tokens t) = true ∧ w ∉ bindings (tokens t) := by
    intro w hw t ht'
    have : ((declText plainNaming (lit "protocol87702") "NNet.Game.SColor" oneTaggedMember).all fun t =>
        [lit "proto_field_tag", lit "variant_tag"].all fun w => usesAsLast w (tokens t) && !decide (w ∈ bindings (tokens t))) = true := by decide +kernel
    rw [Option.mem_def] at ht'
    rw [ht', Option.all_some, List.all_eq_true] at this
    have := this w hw
    rw [Bool.and_eq_true, Bool.not_eq_true', decide_eq_false_iff_not] at this
    exact this
  refine ⟨t, ht, ?_, ?_⟩
  · have := h (lit "proto_field_tag") (by simp) t ht
    exact ⟨usesAsLast_spec _ _ this.1, this.2⟩
  · have := h (lit "variant_tag") (by simp) t ht
    exact ⟨usesAsLast_spec _ _ this.1, this.2⟩

/-- The hypotheses of C168 and C169 are met (with `plainNaming_plain`). -/
example : (moduleText plainNaming (lit "protocol87702") [("NNet.SVersion", dVersion), ("NNet.SMD5", dHeader), ("NNet.Game.SColor", oneTaggedMember)]).isSome = true := by
  decide +kernel

/-! ## The two tables -/

/-- The names of the table. [proof device, no counterpart in /repo] -/
def tableNames : List String := morphTable.flatMap Prod.fst

instance (m : Morph) : (v : VMorph) → Decidable (Says m v)
  | .int _ => by unfold Says; infer_instance
  | .blob => by unfold Says; infer_instance
  | .bool => by unfold Says; infer_instance
  | .fourcc => by unfold Says; infer_instance
  | .user => by unfold Says; infer_instance
  | .blobs => by unfold Says; infer_instance
  | .players => by unfold Says; infer_instance
  | .optional => by unfold Says; infer_instance
  | .vec => by unfold Says; infer_instance

theorem nnetMorph_none (n : String) (h : n ∉ tableNames) : nnetMorph n = none := by
  unfold nnetMorph
  rw [Option.map_eq_none_iff, List.find?_eq_none]
  intro p hp hc
  exact h (List.mem_flatMap.2 ⟨p, hp, of_decide_eq_true hc⟩)

theorem byteTable_none (n : String) (h : n ∉ tableNames) : byteTable n = none := by
  have hs : ∀ l : List String, (∀ m ∈ l, m ∈ tableNames) → ¬ n ∈ l := fun l hl hn => h (hl n hn)
  have he : ∀ m : String, m ∈ tableNames → ¬ n = m := fun m hm e => h (e ▸ hm)
  have d : ∀ l ∈ [["NNet.uint8", "NNet.Replay.EReplayType", "NNet.uint6", "NNet.Game.TPlayerId", "NNet.Game.TControlId",
      "NNet.Game.TTeamId", "NNet.Replay.Tracker.TUIntMiniBits"], ["NNet.uint32", "NNet.uint14", "NNet.uint22", "NNet.Game.TDifficulty", "NNet.Game.THandicap"],
      ["NNet.int32", "NNet.Game.TFixedBits"], ["NNet.Game.TColorId", "NNet.int64"], ["BlobType", "NNet.Replay.CSignature", "StringType",
      "NNet.Replay.Tracker.CatalogName", "NNet.Game.CCacheHandle", "NNet.CFilePath", "NNet.CUserName"],
      ["ArrayType", "DynArrayType", "NNet.CUserArchiveDataArray", "NNet.CUserInitialDataArray"], ["NNet.SMD5", "NNet.EObserve", "NNet.Game.EResultDetails"],
      ["NNet.Game.EGameSpeed", "NNet.Game.SToonNameDetails", "NNet.Game.SColor"], ["NNet.SVersion", "NNet.uint64", "FourCCType", "BoolType", "OptionalType",
      "NNet.Game.CCacheHandles", "NNet.Replay.Tracker.SPlayerStats", "NNet.Game.CPlayerDetailsArray", "NNet.Game.SThumbnail", "NNet.Game.CModPaths"]],
      ∀ m ∈ l, m ∈ tableNames := by decide +kernel
  have d1 : ∀ m ∈ ["NNet.SVersion", "NNet.uint64", "FourCCType", "BoolType", "OptionalType", "NNet.Game.CCacheHandles",
      "NNet.Replay.Tracker.SPlayerStats", "NNet.Game.CPlayerDetailsArray", "NNet.Game.SThumbnail", "NNet.Game.CModPaths"],
      m ∈ tableNames := by decide +kernel
  unfold byteTable
  rw [if_neg (hs _ (d _ (by simp))), if_neg (hs _ (d _ (by simp))), if_neg (hs _ (d _ (by simp))), if_neg (he _ (d1 _ (by simp))),
    if_neg (hs _ (d _ (by simp))), if_neg (he _ (d1 _ (by simp))), if_neg (he _ (d1 _ (by simp))), if_neg (hs _ (d _ (by simp))),
    if_neg (he _ (d1 _ (by simp))), if_neg (he _ (d1 _ (by simp))), if_neg (hs _ (d _ (by simp))), if_neg (hs _ (d _ (by simp))),
    if_neg (he _ (d1 _ (by simp))), if_neg (he _ (d1 _ (by simp))), if_neg (he _ (d1 _ (by simp))),
    if_neg (he _ (d1 _ (by simp))), if_neg (he _ (d1 _ (by simp))), if_neg (hs _ (d _ (by simp)))]

/-- **C167.** The reader of a name is the one that is written into the text for it; a name without one has no text either. -/
theorem C167_text_agrees (n : String) :
    (byteTable n = none ∧ nnetMorph n = none) ∨ ∃ v m, byteTable n = some v ∧ nnetMorph n = some m ∧ Says m v := by
  by_cases h : n ∈ tableNames
  · right
    have all : ∀ n ∈ tableNames, (match byteTable n, nnetMorph n with
        | some v, some m => decide (Says m v)
        | _, _ => false) = true := by decide +kernel
    have := all n h
    cases hv : byteTable n with
    | none => rw [hv] at this; cases this
    | some v =>
      cases hm : nnetMorph n with
      | none => rw [hv, hm] at this; cases this
      | some m =>
        rw [hv, hm] at this
        exact ⟨v, m, rfl, rfl, of_decide_eq_true this⟩
  · exact .inl ⟨byteTable_none n h, nnetMorph_none n h⟩

end S2.Generator
