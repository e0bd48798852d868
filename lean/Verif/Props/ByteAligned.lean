import Verif.Gen.Facts
import Verif.Schema.ByteAlignedSize
/-!
# C14 – C21, C27 (versioned part), C28: versioned (byte-aligned) protocol types

Theorems over an arbitrary `t : VTy` hold in particular for each of the types extracted from
/repo/src/versions/protocol87702/mod.rs (`P87702.ByteAligned.all`).
-/
namespace S2

open P87702.ByteAligned in
/-- Running example: a `SVersion` value. -/
def sampleVersion : Val := .struct [.int 1, .int 5, .int 0, .int 9, .int 87702, .int 87702]
/-- Its wire form. -/
def sampleVersionBytes : List UInt8 :=
  [5, 12, 0, 9, 2, 2, 9, 10, 4, 9, 0, 6, 9, 18, 8, 9, 172, 218, 10, 10, 9, 172, 218, 10]

/-- **C14** parsing succeeds exactly on wire forms, whatever follows. -/
theorem C14_grammar (bld : Build) (t : VTy) (i tail : List UInt8) (v : Val) :
    vparse bld t i = .ok (tail, v) ↔ ∃ used, i = used ++ tail ∧ VEnc bld t v used :=
  vparse_iff bld t i tail v

/-- **C14** each extracted type reads back everything the reference encoder writes. -/
theorem C14_roundtrip (bld : Build) (p : String × VTy) (hp : p ∈ P87702.ByteAligned.all) (v : Val)
    (hv : VHas p.2 v) (tail : List UInt8) :
    vparse bld p.2 (venc p.2 v ++ tail) = .ok (tail, v) :=
  vparse_venc bld p.2 v (byteAligned_all_wf p hp) hv tail

/-- **C14** an input has at most one reading. -/
theorem C14_unambiguous (bld : Build) (t : VTy) (v v' : Val) (u u' r r' : List UInt8)
    (h : VEnc bld t v u) (h' : VEnc bld t v' u') (e : u ++ r = u' ++ r') : v = v' ∧ r = r' :=
  VEnc_det h h' e

example : venc P87702.ByteAligned.SVersion sampleVersion = sampleVersionBytes ∧
    vparse .debug P87702.ByteAligned.SVersion (sampleVersionBytes ++ [1, 2]) = .ok ([1, 2], sampleVersion) := by
  decide +kernel
example : VHas P87702.ByteAligned.SVersion sampleVersion := by
  refine ⟨_, rfl, _, _, rfl, ⟨1, rfl, by decide, by decide⟩, _, _, rfl, ⟨5, rfl, by decide, by decide⟩,
    _, _, rfl, ⟨0, rfl, by decide, by decide⟩, _, _, rfl, ⟨9, rfl, by decide, by decide⟩,
    _, _, rfl, ⟨87702, rfl, by decide, by decide⟩, _, _, rfl, ⟨87702, rfl, by decide, by decide⟩, rfl⟩

/-- **C15** reordering the entries of a struct with pairwise distinct tags changes neither the
decoded value nor the rest (nor whether it decodes at all). -/
theorem C15_field_order (bld : Build) (fs : VFields) (es es' : List Entry) (tail tail' : List UInt8) (v : Val)
    (hw : ∀ en ∈ es, EntryWf bld fs en) (hl : es.length < 2 ^ 63)
    (hd : (es.map Entry.tag).Nodup) (hp : es.Perm es') :
    vparse bld (.struct fs) (structBytes es ++ tail) = .ok (tail', v) ↔
    vparse bld (.struct fs) (structBytes es' ++ tail) = .ok (tail', v) := by
  rw [struct_decodes_iff bld fs es tail v hw hl,
    struct_decodes_iff bld fs es' tail v (fun en h => hw en (hp.mem_iff.mpr h)) (hp.length_eq ▸ hl)]
  have hd' : (es'.map Entry.tag).Nodup := (hp.map Entry.tag).nodup_iff.mp hd
  constructor
  · rintro ⟨h, vs, rfl, h2⟩; exact ⟨h, vs, rfl, structVals_perm fs es es' vs hp hd h2⟩
  · rintro ⟨h, vs, rfl, h2⟩; exact ⟨h, vs, rfl, structVals_perm fs es' es vs hp.symm hd' h2⟩

/-- Two entries of a `GameSThumbnail`-like two-field struct, for the examples below:
`m_data_deprecated = None` and `m_data = [7]` of `Smd5`. -/
def smd5A : Entry := ⟨0, .none, [0, 4, 0]⟩
def smd5B : Entry := ⟨1, .bytes [7], [2, 2, 2, 7]⟩
/-- `m_data_deprecated = Some([])` of `Smd5`. -/
def smd5C : Entry := ⟨0, .some (.list []), [0, 4, 1, 0, 0]⟩

/-- The field list of `Smd5`. -/
def smd5Fields : VFields :=
  .cons 0 "m_data_deprecated" 0 .optional (.opt (.arr (.int .u8))) <|
  .cons 1 "m_data" 1 .mandatory .blob .nil

example : P87702.ByteAligned.Smd5 = .struct smd5Fields := rfl

theorem smd5A_wf : EntryWf .debug smd5Fields smd5A :=
  ⟨[0], [4, 0], rfl, ⟨by decide, by decide, by decide, by decide⟩, .inl ⟨rfl, rfl⟩⟩
theorem smd5B_wf : EntryWf .debug smd5Fields smd5B :=
  ⟨[2], [2, 2, 7], rfl, ⟨by decide, by decide, by decide, by decide⟩, 1, [2], [7], rfl, rfl,
    ⟨by decide, by decide, by decide, by decide⟩, by decide⟩
theorem smd5C_wf : EntryWf .debug smd5Fields smd5C :=
  ⟨[0], [4, 1, 0, 0], rfl, ⟨by decide, by decide, by decide, by decide⟩,
    .inr ⟨1, .list [], [0, 0], by decide, rfl, rfl, 0, [0], [], ⟨by decide, by decide, by decide, by decide⟩,
      by decide, rfl, rfl, by simp⟩⟩

example : vparse .debug P87702.ByteAligned.Smd5 (structBytes [smd5A, smd5B] ++ [9]) =
      .ok ([9], .struct [.none, .bytes [7]]) ∧
    vparse .debug P87702.ByteAligned.Smd5 (structBytes [smd5B, smd5A] ++ [9]) =
      .ok ([9], .struct [.none, .bytes [7]]) := by
  have h : vparse .debug P87702.ByteAligned.Smd5 (structBytes [smd5A, smd5B] ++ [9]) =
      .ok ([9], .struct [.none, .bytes [7]]) := by decide +kernel
  refine ⟨h, ?_⟩
  refine (C15_field_order .debug smd5Fields [smd5A, smd5B] [smd5B, smd5A] [9] [9] _ ?_ (by decide) (by decide)
    (List.Perm.swap _ _ _)).1 h
  intro en hen
  rcases List.mem_cons.mp hen with rfl | hen
  · exact smd5A_wf
  · rcases List.mem_cons.mp hen with rfl | hen
    · exact smd5B_wf
    · simp at hen

/-- **C16 (refuted)** a struct that carries the same (optional) field twice is accepted when the
first occurrence was `None`; the second one wins. -/
theorem C16_refuted : ¬ ∀ (fs : VFields) (es : List Entry) (tail : List UInt8) (t : Int),
    (∀ en ∈ es, EntryWf .debug fs en) → 2 ≤ (es.filter (fun e => decide (e.tag = t))).length →
    (vparse .debug (.struct fs) (structBytes es ++ tail)).isOk = false := by
  intro h
  have := h smd5Fields [smd5A, smd5C, smd5B] [] 0 (by
    intro en hen
    simp only [List.mem_cons, List.not_mem_nil, or_false] at hen
    rcases hen with rfl | rfl | rfl
    · exact smd5A_wf
    · exact smd5C_wf
    · exact smd5B_wf) (by decide)
  revert this
  decide +kernel

/-- **C16 (partial)** a field that is not optional and occurs twice makes the parser return
`DuplicateTag`.  Missing: optional fields whose earlier occurrences were `None`, see `C16_refuted`. -/
theorem C16_partial (bld : Build) (fs : VFields) (es : List Entry) (tail : List UInt8) (t : Int) (k : FKind)
    (hw : ∀ en ∈ es, EntryWf bld fs en) (hl : es.length < 2 ^ 63) (hk : fs.kindOf t = some k)
    (ho : k ≠ .optional) (hd : 2 ≤ (es.filter (fun e => decide (e.tag = t))).length) :
    ∃ name tag, vparse bld (.struct fs) (structBytes es ++ tail) = .err (.duplicateTag name tag) := by
  rw [struct_run bld fs es tail hl]
  rcases iterN_run es (initSlots fs) tail hw (initSlots_length fs) with ⟨ss', h1, _⟩ | ⟨_, n, d, h2⟩
  · rw [foldO_none_dup fs es t k hk ho hd] at h1; simp at h1
  · exact ⟨n, d, by rw [h2]; rfl⟩

theorem foldO_slot1_full (kind : FKind) (hk : kind ≠ .optional) (s : Val) : ∀ (occ : List Val),
    foldO (slot1 kind) (some s) occ = none ↔ occ ≠ []
  | [] => by simp [foldO]
  | v :: occ => by cases kind <;> simp_all [foldO, slot1, vacant]

theorem foldO_slot1_some (s : Val) (hs : s ≠ .none) : ∀ (occ : List Val),
    foldO (slot1 .optional) (some s) occ = none ↔ occ ≠ []
  | [] => by simp [foldO]
  | v :: occ => by
    have : vacant .optional (some s) = false := by cases s <;> simp_all [vacant]
    simp [foldO, slot1, this]

theorem foldO_slot1_none_iff (kind : FKind) : ∀ (occ : List Val),
    foldO (slot1 kind) (init1 kind) occ = none ↔
      ∃ a x b y c, occ = a ++ x :: (b ++ y :: c) ∧ (kind = .optional → x ≠ .none)
  | [] => by simp [foldO]
  | v :: occ => by
    by_cases hk : kind = .optional
    · subst hk
      by_cases hv : v = .none
      · subst hv
        have e : foldO (slot1 .optional) (init1 .optional) (Val.none :: occ) = foldO (slot1 .optional) (init1 .optional) occ := by
          simp [foldO, slot1, init1, vacant]
        rw [e, foldO_slot1_none_iff .optional occ]
        constructor
        · rintro ⟨a, x, b, y, c, rfl, h⟩
          exact ⟨.none :: a, x, b, y, c, rfl, h⟩
        · rintro ⟨a, x, b, y, c, e, h⟩
          cases a with
          | nil =>
            simp only [List.nil_append, List.cons.injEq] at e
            exact absurd e.1.symm (h rfl)
          | cons z a =>
            simp only [List.cons_append, List.cons.injEq] at e
            exact ⟨a, x, b, y, c, e.2, h⟩
      · have e : foldO (slot1 .optional) (init1 .optional) (v :: occ) = foldO (slot1 .optional) (some v) occ := by
          simp [foldO, slot1, init1, vacant]
        rw [e, foldO_slot1_some v hv]
        constructor
        · intro h
          obtain ⟨y, c, rfl⟩ := List.exists_cons_of_ne_nil h
          exact ⟨[], v, [], y, c, rfl, fun _ => hv⟩
        · rintro ⟨a, x, b, y, c, e, _⟩ rfl
          have := congrArg List.length e
          simp at this
          omega
    · have e : foldO (slot1 kind) (init1 kind) (v :: occ) = foldO (slot1 kind) (some v) occ := by
        cases kind <;> simp_all [foldO, slot1, init1, vacant]
      rw [e, foldO_slot1_full kind hk v]
      constructor
      · intro h
        obtain ⟨y, c, rfl⟩ := List.exists_cons_of_ne_nil h
        exact ⟨[], v, [], y, c, rfl, fun h => absurd h hk⟩
      · rintro ⟨a, x, b, y, c, e, _⟩ rfl
        have := congrArg List.length e
        simp at this
        omega

/-- Two entries of one field, the earlier one not an absent option. [proof device, no counterpart in /repo] -/
def Repeats (fs : VFields) (es : List Entry) : Prop :=
  ∃ a x b y c, es = a ++ x :: (b ++ y :: c) ∧ x.tag = y.tag ∧ (fs.kindOf x.tag = some .optional → x.val ≠ .none)

theorem filter_split {es : List Entry} {t : Int} {a : List Val} {x : Val} {b : List Val} {y : Val} {c : List Val}
    (h : (es.filter (fun e => decide (e.tag = t))).map Entry.val = a ++ x :: (b ++ y :: c)) :
    ∃ a' x' b' y' c', es = a' ++ x' :: (b' ++ y' :: c') ∧ x'.tag = t ∧ y'.tag = t ∧ x'.val = x ∧ y'.val = y := by
  obtain ⟨l1, l2, h1, rfl, h2⟩ := List.map_eq_append_iff.1 h
  obtain ⟨x', l3, rfl, rfl, h3⟩ := List.map_eq_cons_iff.1 h2
  obtain ⟨l4, l5, rfl, rfl, h4⟩ := List.map_eq_append_iff.1 h3
  obtain ⟨y', l6, rfl, rfl, rfl⟩ := List.map_eq_cons_iff.1 h4
  obtain ⟨m1, m2, rfl, _, h5⟩ := List.filter_eq_append_iff.1 h1
  obtain ⟨m3, m4, rfl, _, h6, h7⟩ := List.filter_eq_cons_iff.1 h5
  obtain ⟨m5, m6, rfl, _, h8⟩ := List.filter_eq_append_iff.1 h7
  obtain ⟨m7, m8, rfl, _, h9, _⟩ := List.filter_eq_cons_iff.1 h8
  exact ⟨m1 ++ m3, x', m5 ++ m7, y', m8, by simp, by simpa using h6, by simpa using h9, rfl, rfl⟩

theorem split_filter {a : List Entry} {x : Entry} {b : List Entry} {y : Entry} {c : List Entry} (h : x.tag = y.tag) :
    ∃ a' b' c', ((a ++ x :: (b ++ y :: c)).filter (fun e => decide (e.tag = x.tag))).map Entry.val =
      a' ++ x.val :: (b' ++ y.val :: c') := by
  refine ⟨(a.filter (fun e => decide (e.tag = x.tag))).map Entry.val, (b.filter (fun e => decide (e.tag = x.tag))).map Entry.val,
    (c.filter (fun e => decide (e.tag = x.tag))).map Entry.val, ?_⟩
  rw [List.filter_append, List.filter_cons_of_pos (by simp), List.filter_append, List.filter_cons_of_pos (by simp [h])]
  simp

theorem foldO_none_iff : ∀ (fs : VFields) (es : List Entry), (∀ e ∈ es, e.tag ∈ fs.tags) →
    (foldO (fun ss e => slotSet fs e.tag ss e.val) (initSlots fs) es = none ↔ Repeats fs es)
  | .nil, es, hk => by
    cases es with
    | nil =>
      constructor
      · intro h; simp [foldO] at h
      · rintro ⟨a, x, b, y, c, e, _⟩; simp at e
    | cons e es => exact absurd (hk e (by simp)) (by simp [VFields.tags])
  | .cons t name dup kind ty rest, es, hk => by
    have hrest : ∀ e ∈ es.filter (fun e => decide (e.tag ≠ t)), e.tag ∈ rest.tags := by
      intro e he
      obtain ⟨h1, h2⟩ := List.mem_filter.1 he
      have := hk e h1
      simp only [VFields.tags, List.mem_cons] at this
      exact this.resolve_left (by simpa using h2)
    have ih := foldO_none_iff rest _ hrest
    have h1 := foldO_slot1_none_iff kind ((es.filter (fun e => decide (e.tag = t))).map Entry.val)
    have hcons := foldO_slotSet_cons t name dup kind ty rest es (init1 kind) (initSlots rest)
    rw [initSlots_cons]
    constructor
    · intro h
      by_cases hA : foldO (slot1 kind) (init1 kind) ((es.filter (fun e => decide (e.tag = t))).map Entry.val) = none
      · obtain ⟨a, x, b, y, c, e, hx⟩ := h1.1 hA
        obtain ⟨a', x', b', y', c', e', hx', hy', rfl, rfl⟩ := filter_split e
        refine ⟨a', x', b', y', c', e', by rw [hx', hy'], fun ho => hx ?_⟩
        simpa [VFields.kindOf, hx'] using ho
      · obtain ⟨s, hs⟩ := Option.ne_none_iff_exists'.1 hA
        by_cases hB : foldO (fun ss e => slotSet rest e.tag ss e.val) (initSlots rest) (es.filter (fun e => decide (e.tag ≠ t))) = none
        · obtain ⟨a, x, b, y, c, e, hxy, hx⟩ := ih.1 hB
          have hxt : x.tag ≠ t := by
            have : x ∈ es.filter (fun e => decide (e.tag ≠ t)) := by rw [e]; simp
            simpa using (List.mem_filter.1 this).2
          obtain ⟨a', b', c', e2⟩ := split_filter (a := a) (b := b) (c := c) hxy
          rw [← e, filter_ne_eq es hxt] at e2
          obtain ⟨a3, x3, b3, y3, c3, e3, hx3, hy3, hv3, _⟩ := filter_split e2
          refine ⟨a3, x3, b3, y3, c3, e3, by rw [hx3, hy3], fun ho => ?_⟩
          rw [hv3]
          refine hx ?_
          rw [hx3] at ho
          simpa [VFields.kindOf, hxt] using ho
        · obtain ⟨ss, hss⟩ := Option.ne_none_iff_exists'.1 hB
          rw [(hcons (s :: ss)).2 ⟨s, ss, rfl, hs, hss⟩] at h
          simp at h
    · rintro ⟨a, x, b, y, c, e, hxy, hx⟩
      cases hf : foldO (fun ss e => slotSet (.cons t name dup kind ty rest) e.tag ss e.val) (init1 kind :: initSlots rest) es with
      | none => rfl
      | some r =>
        exfalso
        obtain ⟨s', ss', rfl, hA, hB⟩ := (hcons r).1 hf
        obtain ⟨a', b', c', e2⟩ := split_filter (a := a) (b := b) (c := c) hxy
        rw [← e] at e2
        by_cases hxt : x.tag = t
        · rw [hxt] at e2
          rw [h1.2 ⟨_, _, _, _, _, e2, fun ho => hx (by simp [VFields.kindOf, hxt, ho])⟩] at hA
          simp at hA
        · rw [← filter_ne_eq es hxt] at e2
          obtain ⟨a3, x3, b3, y3, c3, e3, hx3, hy3, hv3, _⟩ := filter_split e2
          rw [ih.2 ⟨a3, x3, b3, y3, c3, e3, by rw [hx3, hy3], fun ho => by
            rw [hv3]; refine hx ?_; rw [hx3] at ho; simpa [VFields.kindOf, hxt] using ho⟩] at hB
          simp at hB

theorem foldO_length {fs : VFields} : ∀ (es : List Entry) (ss ss' : List (Option Val)),
    foldO (fun ss e => slotSet fs e.tag ss e.val) ss es = some ss' → ss'.length = ss.length
  | [], ss, ss', h => by simp only [foldO, Option.some.injEq] at h; rw [h]
  | e :: es, ss, ss', h => by
    simp only [foldO] at h
    cases hs : slotSet fs e.tag ss e.val with
    | none => rw [hs] at h; simp at h
    | some s1 =>
      rw [hs] at h
      rw [foldO_length es s1 ss' h, slotSet_length _ _ _ _ _ hs]

/-- **C16** exactly which repetitions are rejected: the parser answers `DuplicateTag` if and only if some field occurs again after
an occurrence that was not an absent option. -/
theorem C16_exactly (bld : Build) (fs : VFields) (es : List Entry) (tail : List UInt8)
    (hw : ∀ en ∈ es, EntryWf bld fs en) (hl : es.length < 2 ^ 63) :
    (∃ name tag, vparse bld (.struct fs) (structBytes es ++ tail) = .err (.duplicateTag name tag)) ↔
      ∃ a x b y c, es = a ++ x :: (b ++ y :: c) ∧ x.tag = y.tag ∧ (fs.kindOf x.tag = some .optional → x.val ≠ .none) := by
  have hk : ∀ e ∈ es, e.tag ∈ fs.tags := by
    intro e he
    obtain ⟨_, _, _, _, h⟩ := hw e he
    exact VFieldEnc_known h
  rw [struct_run bld fs es tail hl]
  refine Iff.trans ?_ (foldO_none_iff fs es hk)
  rcases iterN_run es (initSlots fs) tail hw (initSlots_length fs) with ⟨ss', h1, h2⟩ | ⟨h1, n, d, h2⟩
  · rw [h1, h2]
    simp only [reduceCtorEq, iff_false]
    rintro ⟨name, tag, h⟩
    have hlen : ss'.length = fs.len := by
      rw [← initSlots_length fs]; exact foldO_length _ _ _ h1
    rcases finishSlots_err fs ss' hlen with ⟨vs, h3⟩ | ⟨m, h3⟩
    · rw [Res.bind_ok, h3] at h; cases h
    · rw [Res.bind_ok, h3] at h; cases h
  · rw [h1, h2]
    simp only [iff_true]
    exact ⟨n, d, rfl⟩

/-- **C16** an optional field that decoded to `Some` and occurs again is rejected too. -/
theorem C16_optional_some (bld : Build) (fs : VFields) (es : List Entry) (tail tail' : List UInt8) (v : Val)
    (t : Int) (hw : ∀ en ∈ es, EntryWf bld fs en) (hl : es.length < 2 ^ 63)
    (hk : fs.kindOf t = some .optional) (a b : List Val) (w : Val) (hb : b ≠ [])
    (hocc : (es.filter (fun e => decide (e.tag = t))).map Entry.val = a ++ .some w :: b) :
    vparse bld (.struct fs) (structBytes es ++ tail) ≠ .ok (tail', v) := by
  intro h
  obtain ⟨_, vs, rfl, h2⟩ := (struct_decodes_iff bld fs es tail v hw hl tail').1 h
  obtain ⟨x, _, h3, _⟩ := StructVals_field fs es vs t .optional h2 hk
  rw [hocc] at h3
  have := h3 (.some w) (by
    rw [List.dropLast_append_of_ne_nil (by simp), List.dropLast_cons_of_ne_nil hb]; simp)
  simp at this

example : vparse .debug P87702.ByteAligned.Smd5 (structBytes [smd5B, smd5B]) = .err (.duplicateTag "m_data" 1) := by
  decide +kernel
example : smd5Fields.kindOf 1 = some .mandatory ∧
    2 ≤ ([smd5B, smd5B].filter (fun e => decide (e.tag = 1))).length := ⟨rfl, by decide⟩

/-- **C17** whatever decodes contains every mandatory field exactly once and only fields of the
schema. -/
theorem C17_complete (bld : Build) (fs : VFields) (i tail : List UInt8) (v : Val)
    (h : vparse bld (.struct fs) i = .ok (tail, v)) :
    ∃ (e : List UInt8) (n : Int) (es : List Entry), i = 5 :: (e ++ (es.flatMap Entry.bytes ++ tail)) ∧
      VlqEnc bld n e ∧ asUsize n = es.length ∧
      (∀ en ∈ es, EntryWf bld fs en ∧ en.tag ∈ fs.tags) ∧
      ∀ t, fs.kindOf t = some .mandatory → (es.filter (fun e => decide (e.tag = t))).length = 1 := by
  obtain ⟨u, hu, n, e, vs, es, h1, h2, rfl, rfl, h3, h4⟩ := (vparse_iff bld (.struct fs) i tail v).1 h
  refine ⟨e, n, es, by simp [hu, STRUCT_TAG], h1, h2, ?_, ?_⟩
  · intro en hen
    exact ⟨h3 en hen, StructVals_known fs es vs h4 en hen⟩
  · intro t ht
    obtain ⟨x, _, hx⟩ := StructVals_field fs es vs t .mandatory h4 ht
    simpa using congrArg List.length (show _ = [x] from hx)

/-- **C17** entries of the schema without some mandatory field never decode. -/
theorem C17_missing (bld : Build) (fs : VFields) (es : List Entry) (tail tail' : List UInt8) (v : Val) (t : Int)
    (hw : ∀ en ∈ es, EntryWf bld fs en) (hl : es.length < 2 ^ 63) (hk : fs.kindOf t = some .mandatory)
    (hno : ∀ en ∈ es, en.tag ≠ t) :
    vparse bld (.struct fs) (structBytes es ++ tail) ≠ .ok (tail', v) := by
  intro h
  obtain ⟨_, vs, rfl, h2⟩ := (struct_decodes_iff bld fs es tail v hw hl tail').1 h
  obtain ⟨x, _, h3⟩ := StructVals_field fs es vs t .mandatory h2 hk
  rw [List.filter_eq_nil_iff.mpr (by intro e he; simpa using hno e he)] at h3
  simp [FieldResult] at h3

/-- **C17** the error is `MissingField`, unless a repeated field was reported first. -/
theorem C17_missing_error (bld : Build) (fs : VFields) (es : List Entry) (tail : List UInt8) (t : Int)
    (hw : ∀ en ∈ es, EntryWf bld fs en) (hl : es.length < 2 ^ 63) (hk : fs.kindOf t = some .mandatory)
    (hno : ∀ en ∈ es, en.tag ≠ t) :
    (∃ name, vparse bld (.struct fs) (structBytes es ++ tail) = .err (.missingField name)) ∨
    (∃ name tag, vparse bld (.struct fs) (structBytes es ++ tail) = .err (.duplicateTag name tag)) := by
  have hne := fun tail' v => C17_missing bld fs es tail tail' v t hw hl hk hno
  rw [struct_run bld fs es tail hl] at hne ⊢
  rcases iterN_run es (initSlots fs) tail hw (initSlots_length fs) with ⟨ss', h1, h2⟩ | ⟨_, n, d, h2⟩
  · rw [h2] at hne ⊢
    simp only [Res.bind_ok] at hne ⊢
    have hlen : ss'.length = fs.len := by
      clear hne h2
      revert h1
      have gen : ∀ (es : List Entry) (ss : List (Option Val)), ss.length = fs.len →
          foldO (fun ss e => slotSet fs e.tag ss e.val) ss es = some ss' → ss'.length = fs.len := by
        intro es
        induction es with
        | nil => intro ss hs h; simp only [foldO, Option.some.injEq] at h; rw [← h]; exact hs
        | cons a es ih =>
          intro ss hs h
          simp only [foldO] at h
          split at h
          · rename_i s1 h1; exact ih s1 (by rw [slotSet_length _ _ _ _ _ h1, hs]) h
          · simp at h
      exact gen es _ (initSlots_length fs)
    rcases finishSlots_err fs ss' hlen with ⟨vs, h3⟩ | ⟨n, h3⟩
    · exfalso; exact hne tail (.struct vs) (by rw [h3]; rfl)
    · left; exact ⟨n, by rw [h3]; rfl⟩
  · right; exact ⟨n, d, by rw [h2]; rfl⟩

/-- **C17** a field tag outside the schema is an error at once, `UnknownTag`, whatever follows. -/
theorem C17_unknown (bld : Build) (fs : VFields) (tag : Int) (ss : List (Option Val)) (i : List UInt8)
    (hl : ss.length = fs.len) (ht : tag ∉ fs.tags) : vfield bld fs tag ss i = .err (.unknownTag tag) := by
  have gen : ∀ (fs : VFields) (ss : List (Option Val)), ss.length = fs.len → tag ∉ fs.tags →
      vfield bld fs tag ss i = .err (.unknownTag tag) := by
    intro fs
    exact VFields.rec (motive_1 := fun _ => True) (motive_2 := fun fs => ∀ (ss : List (Option Val)),
        ss.length = fs.len → tag ∉ fs.tags → vfield bld fs tag ss i = .err (.unknownTag tag))
      (motive_3 := fun _ => True)
      (fun _ => trivial) trivial trivial trivial trivial (fun _ _ => trivial) (fun _ _ => trivial)
      (fun _ _ => trivial) (fun _ _ _ => trivial)
      (fun ss _ _ => by simp [vfield])
      (fun t name dup kind ty rest _ ih ss hl ht => by
        cases ss with
        | nil => simp [VFields.len] at hl
        | cons s ss =>
          simp only [VFields.tags, List.mem_cons, not_or] at ht
          simp [vfield, ht.1, ih ss (by simpa [VFields.len] using hl) ht.2])
      trivial (fun _ _ _ _ _ => trivial) fs
  exact gen fs ss hl ht

/-- **C17** a struct announced with `n` fields whose first fields are of the schema and whose next field tag is not:
`UnknownTag` with that tag, or `DuplicateTag` for a repetition before it, whatever follows. -/
theorem C17_unknown_field (bld : Build) (fs : VFields) (es : List Entry) (t : Int) (te rest : List UInt8) (n : Nat)
    (hw : ∀ en ∈ es, EntryWf bld fs en) (hn : es.length < n) (hl : n < 2 ^ 63) (hte : VlqEnc bld t te) (ht : t ∉ fs.tags) :
    vparse bld (.struct fs) (5 :: (encVlq n ++ (es.flatMap Entry.bytes ++ (te ++ rest)))) = .err (.unknownTag t) ∨
    ∃ name tag, vparse bld (.struct fs) (5 :: (encVlq n ++ (es.flatMap Entry.bytes ++ (te ++ rest)))) =
      .err (.duplicateTag name tag) := by
  have hp := (parseVlq_iff bld (encVlq n ++ (es.flatMap Entry.bytes ++ (te ++ rest))) _ _).2
    ⟨_, rfl, encVlq_enc bld n (vlqable_natCast hl)⟩
  have hlen : ∀ (es : List Entry) (ss ss' : List (Option Val)), ss.length = fs.len →
      foldO (fun ss e => slotSet fs e.tag ss e.val) ss es = some ss' → ss'.length = fs.len := by
    intro es
    induction es with
    | nil => intro ss ss' hs h; simp only [foldO, Option.some.injEq] at h; rw [← h]; exact hs
    | cons a es ih =>
      intro ss ss' hs h
      simp only [foldO] at h
      split at h
      · rename_i s1 h1; exact ih s1 ss' (by rw [slotSet_length _ _ _ _ _ h1, hs]) h
      · simp at h
  have split : ∀ {σ : Type} (f : σ → List UInt8 → Res (List UInt8 × σ)) (a b : Nat) (s : σ) (i : List UInt8),
      iterN f (a + b) s i = (iterN f a s i >>= fun p => iterN f b p.2 p.1) := by
    intro σ f a
    induction a with
    | zero => intro b s i; simp [iterN]
    | succ a ih =>
      intro b s i
      rw [Nat.add_right_comm, iterN, iterN]
      cases f s i with
      | ok p => simp only [Res.bind_ok]; exact ih b p.2 p.1
      | err e => rfl
      | panic => rfl
  obtain ⟨b, rfl⟩ : ∃ b, n = es.length + (b + 1) := ⟨n - es.length - 1, by omega⟩
  have hv : vparse bld (.struct fs) (5 :: (encVlq (es.length + (b + 1) : Nat) ++ (es.flatMap Entry.bytes ++ (te ++ rest)))) =
      (iterN (fun s i => do let (i, tag) ← parseVlq bld i; vfield bld fs tag s i) (es.length + (b + 1)) (initSlots fs)
        (es.flatMap Entry.bytes ++ (te ++ rest)) >>= fun p => finishSlots fs p.2 >>= fun vs => .ok (p.1, .struct vs)) := by
    simp only [vparse]
    rw [show tagByte STRUCT_TAG (5 :: (encVlq (es.length + (b + 1) : Nat) ++ (es.flatMap Entry.bytes ++ (te ++ rest)))) =
      .ok (encVlq (es.length + (b + 1) : Nat) ++ (es.flatMap Entry.bytes ++ (te ++ rest)), ()) by
        simp [tagByte, STRUCT_TAG]]
    simp only [Res.bind_ok, hp, asUsize_natCast hl]
    rfl
  rw [hv, split]
  rcases iterN_run es (initSlots fs) (te ++ rest) hw (initSlots_length fs) with ⟨ss', h1, h2⟩ | ⟨_, m, d, h2⟩
  · left
    rw [h2]
    simp only [Res.bind_ok, iterN, (parseVlq_iff bld (te ++ rest) _ t).2 ⟨te, rfl, hte⟩,
      C17_unknown bld fs t ss' rest (hlen es _ _ (initSlots_length fs) h1) ht]
    rfl
  · right; exact ⟨m, d, by rw [h2]; rfl⟩

/-- `SMD5` with the field tags 0 (of the schema) and 7 (not of the schema). -/
example : vparse .debug P87702.ByteAligned.Smd5 (5 :: (encVlq 2 ++ ([smd5A].flatMap Entry.bytes ++ (encVlq 7 ++ [1, 2])))) =
    .err (.unknownTag 7) := by decide +kernel

example : vparse .debug P87702.ByteAligned.Smd5 (structBytes [smd5A]) = .err (.missingField "m_data") := by
  decide +kernel
example : smd5Fields.kindOf 1 = some .mandatory ∧ ∀ en ∈ [smd5A], en.tag ≠ 1 := ⟨rfl, by decide⟩
example : vparse .debug P87702.ByteAligned.Smd5 [5, 2, 4, 0, 0] = .err (.unknownTag 2) := by decide +kernel

/-- **C18** an optional field whose tag does not occur is `None` in the decoded struct. -/
theorem C18_none (bld : Build) (fs : VFields) (es : List Entry) (tail tail' : List UInt8) (vs : List Val) (t : Int)
    (hw : ∀ en ∈ es, EntryWf bld fs en) (hl : es.length < 2 ^ 63) (hk : fs.kindOf t = some .optional)
    (hno : ∀ en ∈ es, en.tag ≠ t)
    (h : vparse bld (.struct fs) (structBytes es ++ tail) = .ok (tail', .struct vs)) :
    fs.valueOf vs t = some .none := by
  obtain ⟨_, vs', he, h2⟩ := (struct_decodes_iff bld fs es tail _ hw hl tail').1 h
  simp only [Val.struct.injEq] at he
  subst he
  obtain ⟨x, h3, h4⟩ := StructVals_field fs es vs t .optional h2 hk
  rw [List.filter_eq_nil_iff.mpr (by intro e he; simpa using hno e he)] at h4
  simp [FieldResult] at h4
  rw [h3, h4]

/-- **C18** writing that `None` explicitly gives the very same struct. -/
theorem C18_explicit (bld : Build) (fs : VFields) (es : List Entry) (en : Entry) (tail tail' : List UInt8) (v : Val)
    (hw : ∀ e ∈ en :: es, EntryWf bld fs e) (hl : es.length + 1 < 2 ^ 63)
    (hk : fs.kindOf en.tag = some .optional) (hno : ∀ e ∈ es, e.tag ≠ en.tag) (hv : en.val = .none)
    (h : vparse bld (.struct fs) (structBytes es ++ tail) = .ok (tail', v)) :
    vparse bld (.struct fs) (structBytes (en :: es) ++ tail) = .ok (tail', v) := by
  obtain ⟨ht, vs, rfl, h2⟩ := (struct_decodes_iff bld fs es tail v (fun e he => hw e (by simp [he]))
    (by omega) tail').1 h
  exact (struct_decodes_iff bld fs (en :: es) tail _ hw (by simpa using hl) tail').2
    ⟨ht, vs, rfl, StructVals_add_none fs es vs en h2 hk hno hv⟩

example : vparse .debug P87702.ByteAligned.Smd5 (structBytes [smd5B]) = .ok ([], .struct [.none, .bytes [7]]) ∧
    vparse .debug P87702.ByteAligned.Smd5 (structBytes [smd5A, smd5B]) = .ok ([], .struct [.none, .bytes [7]]) := by
  have h : vparse .debug P87702.ByteAligned.Smd5 (structBytes [smd5B] ++ []) = .ok ([], .struct [.none, .bytes [7]]) := by
    decide +kernel
  refine ⟨h, ?_⟩
  exact C18_explicit .debug smd5Fields [smd5B] smd5A [] [] _ (by
    intro e he
    simp only [List.mem_cons, List.not_mem_nil, or_false] at he
    rcases he with rfl | rfl
    · exact smd5A_wf
    · exact smd5B_wf) (by decide) rfl (by decide) rfl h

/-- **C19** a decoded integer lies in the declared type and is exactly the wire integer. -/
theorem C19_exact (bld : Build) (k : IntKind) (i tail : List UInt8) (v : Val)
    (h : vparse bld (.int k) i = .ok (tail, v)) :
    ∃ x, v = .int x ∧ k.lo ≤ x ∧ x ≤ k.hi ∧ taggedVlq bld i = .ok (tail, x) := by
  obtain ⟨u, rfl, x, e, rfl, hr, rfl, he⟩ := (vparse_iff bld _ i tail v).1 h
  exact ⟨x, rfl, hr.1, hr.2, taggedVlq_ok.2 ⟨e, rfl, he⟩⟩

/-- **C19** a wire integer outside the declared type is an error. -/
theorem C19_out_of_range (bld : Build) (k : IntKind) (i tail : List UInt8) (x : Int)
    (h : taggedVlq bld i = .ok (tail, x)) (hx : x < k.lo ∨ k.hi < x) :
    vparse bld (.int k) i = .err .tryFromInt := by
  simp only [vparse, h, Res.bind_ok, tryFrom]
  rw [if_neg (by unfold IntKind.inRange; omega)]
  rfl

example : vparse .debug (.int .u8) [9, 0x80, 0x04] = .err .tryFromInt :=
  C19_out_of_range .debug .u8 _ [] 256 (by decide +kernel) (by decide)
example : vparse .debug (.int .u8) [9, 0xbe, 0x03] = .ok ([], .int 223) := by decide +kernel

/-- **C20** appending bytes changes nothing. -/
theorem C20_local (bld : Build) (t : VTy) (i tail extra : List UInt8) (v : Val)
    (h : vparse bld t i = .ok (tail, v)) : vparse bld t (i ++ extra) = .ok (tail ++ extra, v) := by
  obtain ⟨u, rfl, hu⟩ := (vparse_iff bld t i tail v).1 h
  exact (vparse_iff bld t _ _ v).2 ⟨u, by simp, hu⟩

/-- **C20** so a proper prefix of a wire form never decodes to anything. -/
theorem C20_prefix (bld : Build) (t : VTy) (v v' : Val) (p q tail : List UInt8) (h : VEnc bld t v (p ++ q))
    (hq : q ≠ []) : vparse bld t p ≠ .ok (tail, v') := by
  intro hp
  have h1 := C20_local bld t p tail q v' hp
  have h2 := (vparse_iff bld t (p ++ q) [] v).2 ⟨p ++ q, by simp, h⟩
  rw [h1] at h2
  simp only [Res.ok.injEq, Prod.mk.injEq, List.append_eq_nil_iff] at h2
  exact hq h2.1.2

example : vparse .debug P87702.ByteAligned.SVersion (sampleVersionBytes.take 23) = .err .eof := by decide +kernel

/-- **C21** release builds return `Ok` or `Err` on every input; on `Ok` the tail is a proper suffix;
a debug build returns the same or panics. -/
theorem C21_total (p : String × VTy) (hp : p ∈ P87702.ByteAligned.all) (i : List UInt8) :
    vparse .release p.2 i ≠ .panic ∧
    (∀ tail v, vparse .release p.2 i = .ok (tail, v) → ∃ used, used ≠ [] ∧ i = used ++ tail) ∧
    (vparse .debug p.2 i = .panic ∨ vparse .debug p.2 i = vparse .release p.2 i) := by
  refine ⟨vparse_release_ne_panic p.2 i, ?_, vparse_le p.2 i⟩
  intro tail v h
  obtain ⟨u, hu, he⟩ := (vparse_iff .release p.2 i tail v).1 h
  exact ⟨u, VEnc_ne_nil (byteAligned_all_sized p hp).2 he, hu⟩

example : ("SVersion", P87702.ByteAligned.SVersion) ∈ P87702.ByteAligned.all := by
  unfold P87702.ByteAligned.all; simp

/-- **C27** (versioned part) a variant tag outside the schema is `UnknownTag`. -/
theorem C27_versioned (bld : Build) (isInt : Bool) (alts : VAlts) (i rest : List UInt8) (tag : Int)
    (hi : i = (if isInt then 9 else 3) :: rest) (r : List UInt8) (ht : parseVlq bld rest = .ok (r, tag))
    (hno : tag ∉ alts.tags) : vparse bld (.choice isInt alts) i = .err (.unknownTag tag) := by
  have gen : valt bld alts tag r = .err (.unknownTag tag) := by
    revert hno
    exact VAlts.rec (motive_1 := fun _ => True) (motive_2 := fun _ => True)
      (motive_3 := fun alts => tag ∉ alts.tags → valt bld alts tag r = .err (.unknownTag tag))
      (fun _ => trivial) trivial trivial trivial trivial (fun _ _ => trivial) (fun _ _ => trivial)
      (fun _ _ => trivial) (fun _ _ _ => trivial)
      trivial (fun _ _ _ _ _ _ _ _ => trivial)
      (fun _ => by simp [valt])
      (fun t ty rest _ ih h => by
        simp only [VAlts.tags, List.mem_cons, not_or] at h
        simp [valt, h.1, ih h.2]) alts
  subst hi
  simp only [vparse]
  have : tagByte (if isInt then INT_TAG else CHOICE_TAG) ((if isInt then 9 else 3) :: rest) = .ok (rest, ()) := by
    cases isInt <;> simp [tagByte, INT_TAG, CHOICE_TAG]
  simp only [this, Res.bind_ok, ht, gen]
  rfl

example : vparse .debug P87702.ByteAligned.EObserve [9, 6] = .err (.unknownTag 3) := by decide +kernel

/-- **C28** no array inside a decoded value has more elements than bytes were consumed. -/
theorem C28_bounded (bld : Build) (p : String × VTy) (hp : p ∈ P87702.ByteAligned.all)
    (i tail : List UInt8) (v : Val) (h : vparse bld p.2 i = .ok (tail, v)) :
    v.listsLe (i.length - tail.length) := by
  obtain ⟨u, rfl, he⟩ := (vparse_iff bld p.2 i tail v).1 h
  have := VEnc_listsLe p.2 v u (byteAligned_all_sized p hp).1 he
  simpa using this

/-- a claimed length of `2^35` with no elements behind it -/
example : vparse .debug (.arr (.int .u8)) [0, 0x80, 0x80, 0x80, 0x80, 0x80, 0x01] = .err .tag := by
  rfl

end S2
