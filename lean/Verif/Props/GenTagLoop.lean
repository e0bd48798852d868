import Verif.Props.GenText
/-! When the code written for a struct reads tags (C169). -/
namespace S2.Generator

/-- The start of the loop that reads one tag per value. [specification] -/
def tagLoop : Txt := lit "for i in 0..(struct_field_count as usize) {\nlet (new_tail, field_tag) = parse_vlq_int(tail)?;\ntail = new_tail;\nmatch field_tag {\n"

/-- A struct with one field in all that has no tag of its own. [specification] -/
def Untagged (fs : VMembers) : Prop := fs = .const .nil ∨ ∃ n t, fs = .member none n t .nil

theorem length_nil : (fs : VMembers) → fs.length = 0 → fs = .nil
  | .nil, _ => rfl
  | .const _, h => by rw [VMembers.length] at h; omega
  | .member .., h => by rw [VMembers.length] at h; omega

theorem hasTags_iff (fs : VMembers) : fs.hasTags = false ↔ Untagged fs := by
  constructor
  · intro h
    have hl : fs.length = 1 ∧ fs.firstTagged = false := by
      unfold VMembers.hasTags at h
      simpa using h
    cases fs with
    | nil => exact absurd hl.1 (by decide)
    | const rest =>
      have := length_nil rest (by have := hl.1; rw [VMembers.length] at this; omega)
      exact .inl (by rw [this])
    | member tag n t rest =>
      have := length_nil rest (by have := hl.1; rw [VMembers.length] at this; omega)
      cases tag with
      | none => exact .inr ⟨n, t, by rw [this]⟩
      | some x => exact absurd hl.2 (by simp [VMembers.firstTagged])
  · rintro (rfl | ⟨n, t, rfl⟩) <;> rfl

theorem membersText_arms (nm : Naming) (tagged : Bool) : (fs : VMembers) → ∀ (a b : StructText), membersText nm tagged fs a = some b →
    ∃ more, b.arms = a.arms ++ more
  | .nil, a, b, h => by
    rw [membersText] at h
    cases h
    exact ⟨[], by simp⟩
  | .const rest, a, b, h => by
    rw [membersText] at h
    exact membersText_arms nm tagged rest a b h
  | .member tag name t rest, a, b, h => by
    rw [membersText] at h
    cases hm : fieldMorph t with
    | none => rw [hm] at h; cases h
    | some m =>
      rw [hm] at h
      cases hx : armText nm tagged tag (nm.snake name) m with
      | none => simp [hx] at h
      | some arm =>
        simp only [hx, Option.bind_eq_bind, Option.bind_some] at h
        obtain ⟨more, h1⟩ := membersText_arms nm tagged rest _ b h
        exact ⟨arm ++ more, by rw [h1]; simp⟩

/-- **C169.** The code of every struct reads one tag per value, except where the struct has one field in all and that field has no tag. -/
theorem C169_tag_loop (nm : Naming) (proto name : Txt) (fs : VMembers) (ty fns : Txt) (h : structText nm proto name fs = some (ty, fns))
    (hu : ¬ Untagged fs) : Occur [openStruct proto name, tagLoop] fns := by
  have ht : fs.hasTags = true := by
    cases hh : fs.hasTags with
    | true => rfl
    | false => exact absurd ((hasTags_iff fs).1 hh) hu
  unfold structText at h
  rw [ht] at h
  simp only [if_true] at h
  cases hm : membersText nm true fs
    { typeDef := [], lets := [], fns := []
      arms := lit "for i in 0..(struct_field_count as usize) {\nlet (new_tail, field_tag) = parse_vlq_int(tail)?;\ntail = new_tail;\nmatch field_tag {\n"
      ret := lit "Ok((tail, Self {" } with
  | none => rw [hm] at h; cases h
  | some a =>
    rw [hm] at h
    simp only [Option.bind_eq_bind, Option.bind_some, Option.some.injEq, Prod.mk.injEq] at h
    obtain ⟨rfl, rfl⟩ := h
    obtain ⟨more, ha⟩ := membersText_arms nm true fs _ a hm
    simp only at ha
    rw [ha]
    refine ⟨a.fns, a.lets ++ (tagLoop ++ (more ++ (lit "\n _ => {\ntracing::error!(\"Unknown tag {field_tag}\");\nErr(S2ProtocolError::UnknownTag(variant_tag))\n},\n}\n}" ++ (a.ret ++ lit "}))\n")))), ?_, a.lets, _, rfl, trivial⟩
    simp only [List.append_assoc]
    rfl

/-- **C169.** A struct whose only field is a constant: nothing is read after its head. -/
theorem C169_constant_only (nm : Naming) (proto name : Txt) :
    structText nm proto name (.const .nil) = some ([], openStruct proto name ++ lit "Ok((tail, Self {" ++ lit "}))\n") := by
  have h : VMembers.hasTags (.const .nil) = false := rfl
  unfold structText
  rw [h]
  simp [membersText]

/-- **C169.** A struct whose only field is a member without a tag: the member is read right after the head, no tag is read. -/
theorem C169_untagged_only (nm : Naming) (proto name : Txt) (n : String) (t : VDesc) (m : Morph) (hm : fieldMorph t = some m) :
    structText nm proto name (.member none n t .nil) =
      some (lit "    pub " ++ nm.snake n ++ lit ": " ++ m.rustTy ++ lit ",\n",
        fieldFn (nm.snake n) m ++ (openStruct proto name ++ letText (nm.snake n) m ++ untaggedArm (nm.snake n) m ++
          (lit "Ok((tail, Self {" ++ (nm.snake n ++ lit ": ok_or_return_missing_field_err!(" ++ nm.snake n ++ lit "),\n") ++ lit "}))\n"))) := by
  have h : VMembers.hasTags (.member none n t .nil) = false := rfl
  unfold structText
  rw [h]
  simp [membersText, hm, armText]

/-- Both cases exist: a struct with a tagged member has the loop, one with an untagged member has not. -/
example : ¬ Untagged (.member (some 0) "m_a" .bool .nil) ∧ Untagged (.member none "m_a" .bool .nil) ∧
    (structText plainNaming (lit "p") (lit "T") (.member (some 0) "m_a" .bool .nil)).isSome = true := by
  refine ⟨?_, .inr ⟨_, _, rfl⟩, by decide +kernel⟩
  rintro (h | ⟨_, _, h⟩) <;> cases h

end S2.Generator
