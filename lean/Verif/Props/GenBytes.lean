import Verif.Spec.GenBytesSpec
import Verif.Schema.ByteAlignedRoundTrip
import Verif.Gen.P87702ByteAligned
/-! # The generated byte-aligned module against the description (C167) -/
namespace S2.Generator
open S2

/-! ## Leaves -/

theorem enc_bounds : (d : VDecl) → ∀ (b : Bounds) (v : Val) (u : List UInt8), d.bounds? = some b → d.Enc v u →
    ∃ x, v = .int x ∧ b.lo ≤ x ∧ x ≤ b.hi ∧ u = INT_TAG :: encVlq x
  | .int b', b, v, u, h, he => by
    rw [VDecl.bounds?] at h
    cases h
    rwa [VDecl.Enc] at he
  | .user d, b, v, u, h, he => by
    rw [VDecl.bounds?] at h
    rw [VDecl.Enc] at he
    exact enc_bounds d b v u h he
  | .struct _, _, _, _, h, _ | .choice _, _, _, _, h, _ | .enum _, _, _, _, h, _ | .blob, _, _, _, h, _ | .string, _, _, _, h, _
  | .bitArray, _, _, _, h, _ | .array _, _, _, _, h, _ => by simp [VDecl.bounds?] at h

theorem enc_int (bld : Build) (k : IntKind) (d : VDecl) (h : ∃ b, d.bounds? = some b ∧ b.within k) (v : Val) (u : List UInt8)
    (he : d.Enc v u) : VEnc bld (.int k) v u := by
  obtain ⟨b, hb, h1, h2, h3, h4⟩ := h
  obtain ⟨x, rfl, a1, a2, rfl⟩ := enc_bounds d b v u hb he
  rw [VEnc]
  exact ⟨x, _, rfl, ⟨by omega, by omega⟩, rfl, encVlq_enc bld x ⟨by omega, by omega⟩⟩

theorem enc_bytes : (d : VDecl) → ∀ (v : Val) (u : List UInt8), d.isBytes = true → d.Enc v u →
    ∃ bs, v = .bytes bs ∧ bs.length < 2 ^ 63 ∧ u = BLOB_TAG :: (encVlq bs.length ++ bs)
  | .blob, v, u, _, he => by rwa [VDecl.Enc] at he
  | .string, v, u, _, he => by rwa [VDecl.Enc] at he
  | .user d, v, u, h, he => by
    rw [VDecl.isBytes] at h
    rw [VDecl.Enc] at he
    exact enc_bytes d v u h he
  | .struct _, _, _, h, _ | .choice _, _, _, h, _ | .enum _, _, _, h, _ | .int _, _, _, h, _
  | .bitArray, _, _, h, _ | .array _, _, _, h, _ => by simp [VDecl.isBytes] at h

theorem blob_of (bld : Build) (v : Val) (u : List UInt8)
    (h : ∃ bs, v = .bytes bs ∧ bs.length < 2 ^ 63 ∧ u = BLOB_TAG :: (encVlq bs.length ++ bs)) : VEnc bld .blob v u := by
  obtain ⟨bs, rfl, hl, rfl⟩ := h
  rw [VEnc]
  exact ⟨_, _, bs, rfl, rfl, encVlq_enc bld _ (vlqable_natCast hl), asUsize_natCast hl⟩

theorem enc_blob (bld : Build) (d : VDecl) (h : d.isBytes = true) (v : Val) (u : List UInt8) (he : d.Enc v u) : VEnc bld .blob v u :=
  blob_of bld v u (enc_bytes d v u h he)

theorem bool_of (bld : Build) (v : Val) (u : List UInt8) (h : VDesc.bool.Enc v u) : VEnc bld .bool v u := by
  rw [VDesc.Enc] at h
  obtain ⟨b, rfl, rfl⟩ := h
  rw [VEnc]
  cases b
  · exact ⟨0, rfl, rfl⟩
  · exact ⟨1, rfl, rfl⟩

theorem fourcc_of (bld : Build) (v : Val) (u : List UInt8) (h : VDesc.fourcc.Enc v u) : VEnc bld .fourcc v u := by
  rw [VDesc.Enc] at h
  obtain ⟨x, rfl, hx, rfl⟩ := h
  rw [VEnc]
  exact ⟨be4 x, rfl, by rw [beNat_be4 hx], rfl⟩

theorem descBytes_blob (bld : Build) (t : VDesc) (h : t.isBytes = true) (v : Val) (u : List UInt8) (he : t.Enc v u) : VEnc bld .blob v u := by
  cases t with
  | blob => rw [VDesc.Enc] at he; exact blob_of bld v u he
  | string => rw [VDesc.Enc] at he; exact blob_of bld v u he
  | named n d => rw [VDesc.Enc] at he; exact enc_blob bld d h v u he
  | _ => simp [VDesc.isBytes] at h

theorem arr_of (bld : Build) (ty : VTy) (P : Val → List UInt8 → Prop) (hP : ∀ v u, P v u → VEnc bld ty v u) (v : Val) (u : List UInt8)
    (h : ∃ items : List (Val × List UInt8), v = .list (items.map Prod.fst) ∧ items.length < 2 ^ 63 ∧
      u = ARRAY_TAG :: (encVlq items.length ++ items.flatMap Prod.snd) ∧ ∀ it ∈ items, P it.1 it.2) : VEnc bld (.arr ty) v u := by
  obtain ⟨items, rfl, hl, rfl, h⟩ := h
  rw [VEnc]
  exact ⟨_, _, items, encVlq_enc bld _ (vlqable_natCast hl), asUsize_natCast hl, rfl, rfl, fun it hi => hP _ _ (h it hi)⟩

theorem opt_of (bld : Build) (ty : VTy) (t : VDesc) (hP : ∀ v u, t.Enc v u → VEnc bld ty v u) (v : Val) (u : List UInt8)
    (h : (VDesc.optional t).Enc v u) : VEnc bld (.opt ty) v u := by
  rw [VDesc.Enc] at h
  rw [VEnc]
  rcases h with ⟨rfl, rfl⟩ | ⟨w, e, rfl, rfl, h⟩
  · exact .inl ⟨rfl, rfl⟩
  · exact .inr ⟨1, w, e, by decide, rfl, rfl, hP _ _ h⟩

theorem enc_blobs (bld : Build) : (d : VDecl) → d.isBlobs = true → ∀ (v : Val) (u : List UInt8), d.Enc v u → VEnc bld (.arr .blob) v u
  | .array t, h, v, u, he => by
    rw [VDecl.Enc] at he
    exact arr_of bld .blob _ (fun v u h' => descBytes_blob bld t h v u h') v u he
  | .user d, h, v, u, he => by
    rw [VDecl.isBlobs] at h
    rw [VDecl.Enc] at he
    exact enc_blobs bld d h v u he
  | .struct _, h, _, _, _ | .choice _, h, _, _, _ | .enum _, h, _, _, _ | .int _, h, _, _, _ | .blob, h, _, _, _ | .string, h, _, _, _
  | .bitArray, h, _, _, _ => by simp [VDecl.isBlobs] at h

/-! ## Structs -/

/-- The tags and optional members of the generated reader are those of the description. [proof device, no counterpart in /repo] -/
def Matches : VMembers → VFields → Prop
  | .nil, fs => fs = .nil
  | .const rest, fs => Matches rest fs
  | .member (some tag) _ t rest, .cons tag' _ _ kind _ fs =>
    tag' = tag ∧ kind = (if t.isOptional then .optional else .mandatory) ∧ Matches rest fs
  | _, _ => False

theorem enc_tag : (fs : VMembers) → ∀ tag v u, fs.Enc tag v u → tag ∈ fs.tags
  | .nil, tag, v, u, h => by rw [VMembers.Enc] at h; exact h.elim
  | .const rest, tag, v, u, h => by rw [VMembers.Enc] at h; rw [VMembers.tags]; exact enc_tag rest tag v u h
  | .member none _ t rest, tag, v, u, h => by
    rw [VMembers.Enc, if_neg (by simp)] at h
    rw [VMembers.tags]; exact enc_tag rest tag v u h
  | .member (some t') _ t rest, tag, v, u, h => by
    rw [VMembers.Enc] at h
    rw [VMembers.tags]
    by_cases e : t' = tag
    · subst e; exact List.mem_cons_self
    · rw [if_neg (by simpa using e)] at h
      exact List.mem_cons_of_mem _ (enc_tag rest tag v u h)

theorem good_tag : (fs : VMembers) → fs.Good → ∀ t ∈ fs.tags, vlqable t
  | .nil, _, t, h => by simp [VMembers.tags] at h
  | .const rest, hg, t, h => by rw [VMembers.Good] at hg; rw [VMembers.tags] at h; exact good_tag rest hg t h
  | .member none _ _ rest, hg, t, h => by rw [VMembers.Good] at hg; exact hg.elim
  | .member (some t') _ _ rest, hg, t, h => by
    rw [VMembers.Good] at hg
    rw [VMembers.tags, List.mem_cons] at h
    rcases h with rfl | h
    · exact hg.1
    · exact good_tag rest hg.2.2 t h

theorem valueAt_filter (es : List Entry) (t t' : Int) (h : t' ≠ t) :
    valueAt (es.filter (fun e => decide (e.tag ≠ t))) t' = valueAt es t' := by
  induction es with
  | nil => rfl
  | cons e es ih =>
    unfold valueAt at ih ⊢
    by_cases he : e.tag = t
    · rw [List.filter_cons_of_neg (by simpa using he), List.find?_cons_of_neg (by simp; omega)]
      exact ih
    · rw [List.filter_cons_of_pos (by simpa using he)]
      by_cases he' : e.tag = t'
      · rw [List.find?_cons_of_pos (by simpa using he'), List.find?_cons_of_pos (by simpa using he')]
      · rw [List.find?_cons_of_neg (by simpa using he'), List.find?_cons_of_neg (by simpa using he')]
        exact ih

theorem assembled_filter (es : List Entry) (t : Int) : (fs : VMembers) → ∀ vs, t ∉ fs.tags → fs.Assembled es vs →
    fs.Assembled (es.filter (fun e => decide (e.tag ≠ t))) vs
  | .nil, vs, _, h => h
  | .const rest, vs, hn, h => by
    rw [VMembers.Assembled] at h ⊢
    rw [VMembers.tags] at hn
    exact assembled_filter es t rest vs hn h
  | .member none _ _ rest, vs, _, h => by rw [VMembers.Assembled] at h; exact h.elim
  | .member (some tag) _ ty rest, vs, hn, h => by
    rw [VMembers.Assembled] at h ⊢
    rw [VMembers.tags, List.mem_cons, not_or] at hn
    obtain ⟨v, vs', rfl, h1, h2⟩ := h
    refine ⟨v, vs', rfl, ?_, assembled_filter es t rest vs' hn.2 h2⟩
    rw [valueAt_filter es t tag (fun e => hn.1 e.symm)]
    exact h1

theorem filter_valueAt (es : List Entry) (t : Int) (h : (es.map Entry.tag).Nodup) :
    (es.filter (fun e => decide (e.tag = t))).map Entry.val = (valueAt es t).toList := by
  induction es with
  | nil => rfl
  | cons e es ih =>
    rw [List.map_cons, List.nodup_cons] at h
    have ih := ih h.2
    by_cases he : e.tag = t
    · rw [List.filter_cons_of_pos (by simpa using he), List.filter_eq_nil_iff.mpr, valueAt, List.find?_cons_of_pos (by simpa using he)]
      · rfl
      · intro x hx
        simp only [decide_eq_true_eq]
        intro hxt
        exact h.1 (by rw [he, ← hxt]; exact List.mem_map_of_mem hx)
    · rw [List.filter_cons_of_neg (by simpa using he), valueAt, List.find?_cons_of_neg (by simpa using he)]
      exact ih

theorem structVals_of : (fs : VMembers) → ∀ (gs : VFields) (es : List Entry) (vs : List Val), Matches fs gs → fs.tags.Nodup →
    (es.map Entry.tag).Nodup → (∀ e ∈ es, e.tag ∈ fs.tags) → fs.Assembled es vs → StructVals gs es vs
  | .nil, gs, es, vs, hm, _, _, hs, h => by
    rw [Matches] at hm
    subst hm
    rw [VMembers.Assembled] at h
    rw [StructVals]
    refine ⟨?_, h⟩
    cases es with
    | nil => rfl
    | cons e es => exact absurd (hs e List.mem_cons_self) (by simp [VMembers.tags])
  | .const rest, gs, es, vs, hm, hn, he, hs, h => by
    rw [Matches] at hm
    rw [VMembers.Assembled] at h
    rw [VMembers.tags] at hn
    exact structVals_of rest gs es vs hm hn he (fun e hmem => by have := hs e hmem; rwa [VMembers.tags] at this) h
  | .member none _ _ rest, gs, es, vs, hm, _, _, _, h => by rw [VMembers.Assembled] at h; exact h.elim
  | .member (some tag) nm ty rest, gs, es, vs, hm, hn, he, hs, h => by
    cases gs with
    | nil => simp [Matches] at hm
    | cons tag' nm' dup kind gty gs =>
      rw [Matches] at hm
      obtain ⟨rfl, hk, hm⟩ := hm
      rw [VMembers.Assembled] at h
      obtain ⟨v, vs', rfl, h1, h2⟩ := h
      rw [VMembers.tags, List.nodup_cons] at hn
      rw [StructVals]
      refine ⟨v, vs', rfl, ?_, ?_⟩
      · rw [filter_valueAt es _ he]
        rcases h1 with h1 | ⟨h1, ho, rfl⟩
        · rw [h1]; exact FieldResult_single _ _
        · rw [h1, hk, ho]
          simp [FieldResult]
      · refine structVals_of rest gs _ vs' hm hn.2 (List.Nodup.sublist (List.filter_sublist.map _) he) ?_
          (assembled_filter es _ rest vs' hn.1 h2)
        intro e hmem
        rw [List.mem_filter] at hmem
        have := hs e hmem.1
        rw [VMembers.tags, List.mem_cons] at this
        exact this.resolve_left (by simpa using hmem.2)

/-! ## The generator -/

theorem byteTable_map {α : Type} {o : Option α} {f : α → VTy} {ty : α} (h : o = some ty) : o.map f = some (f ty) := by rw [h]; rfl

mutual
theorem vmember_right (bld : Build) : (t : VDesc) → t.Good → ∃ ty, vgenMember t = some ty ∧ ∀ v u, t.Enc v u → VEnc bld ty v u
  | .named n d, h => by
    rw [VDesc.Good] at h
    rw [vgenMember]
    simp only [VDesc.Enc]
    cases hn : byteTable n with
    | none => rw [hn] at h; exact h.elim
    | some m =>
      rw [hn] at h
      cases m with
      | int k => exact ⟨_, rfl, fun v u he => enc_int bld k d h v u he⟩
      | blob => exact ⟨_, rfl, fun v u he => enc_blob bld d h v u he⟩
      | user => exact vdecl_right' bld d h
      | blobs => exact ⟨_, rfl, fun v u he => enc_blobs bld d h v u he⟩
      | players =>
        obtain ⟨ty, h1, h2⟩ := vplayers_right bld d h
        exact ⟨_, byteTable_map h1, h2⟩
      | _ => exact h.elim
  | .bool, _ => ⟨_, rfl, bool_of bld⟩
  | .fourcc, _ => ⟨_, rfl, fourcc_of bld⟩
  | .blob, _ => ⟨_, rfl, fun v u h => by rw [VDesc.Enc] at h; exact blob_of bld v u h⟩
  | .string, _ => ⟨_, rfl, fun v u h => by rw [VDesc.Enc] at h; exact blob_of bld v u h⟩
  | .optional t, h => by
    rw [VDesc.Good] at h
    rw [vgenMember]
    obtain ⟨ty, h1, h2⟩ := voptional_right bld t h
    exact ⟨_, h1, fun v u he => opt_of bld ty t h2 v u he⟩
  | .array t, h => by
    rw [VDesc.Good] at h
    rw [vgenMember]
    obtain ⟨ty, h1, h2⟩ := velem_right bld t h
    exact ⟨_, h1, fun v u he => by rw [VDesc.Enc] at he; exact arr_of bld ty _ h2 v u he⟩
  | .null, h | .int _, h | .dynArray _, h | .other, h => by rw [VDesc.Good] at h <;> simp_all
theorem velem_right (bld : Build) : (t : VDesc) → t.GoodElem → ∃ ty, vgenElem t = some (.arr ty) ∧ ∀ v u, t.Enc v u → VEnc bld ty v u
  | .named n d, h => by
    rw [VDesc.GoodElem] at h
    rw [vgenElem]
    simp only [VDesc.Enc]
    cases hn : byteTable n with
    | none => rw [hn] at h; exact h.elim
    | some m =>
      rw [hn] at h
      cases m with
      | blob => exact ⟨_, rfl, fun v u he => enc_blob bld d h v u he⟩
      | user =>
        obtain ⟨ty, h1, h2⟩ := vdecl_right' bld d h
        exact ⟨ty, byteTable_map h1, h2⟩
      | _ => exact h.elim
  | .bool, h | .null, h | .fourcc, h | .int _, h | .blob, h | .string, h | .optional _, h | .array _, h | .dynArray _, h | .other, h => by
    rw [VDesc.GoodElem] at h <;> simp_all
theorem voptional_right (bld : Build) : (t : VDesc) → t.GoodOpt → ∃ ty, vgenOptional t = some (.opt ty) ∧ ∀ v u, t.Enc v u → VEnc bld ty v u
  | .named n d, h => by
    rw [VDesc.GoodOpt] at h
    rw [vgenOptional]
    simp only [VDesc.Enc]
    cases hn : byteTable n with
    | none => rw [hn] at h; exact h.elim
    | some m =>
      rw [hn] at h
      cases m with
      | int k => exact ⟨_, rfl, fun v u he => enc_int bld k d h v u he⟩
      | blob => exact ⟨_, rfl, fun v u he => enc_blob bld d h v u he⟩
      | user =>
        obtain ⟨ty, h1, h2⟩ := vdecl_right' bld d h
        exact ⟨ty, byteTable_map h1, h2⟩
      | blobs => exact ⟨_, rfl, fun v u he => enc_blobs bld d h v u he⟩
      | players =>
        obtain ⟨ty, h1, h2⟩ := vplayers_right bld d h
        exact ⟨_, byteTable_map h1, h2⟩
      | _ => exact h.elim
  | .bool, _ => ⟨_, rfl, bool_of bld⟩
  | .fourcc, _ => ⟨_, rfl, fourcc_of bld⟩
  | .blob, _ => ⟨_, rfl, fun v u h => by rw [VDesc.Enc] at h; exact blob_of bld v u h⟩
  | .string, _ => ⟨_, rfl, fun v u h => by rw [VDesc.Enc] at h; exact blob_of bld v u h⟩
  | .array t, h => by
    rw [VDesc.GoodOpt] at h
    rw [vgenOptional]
    obtain ⟨ty, h1, h2⟩ := velem_right bld t h
    exact ⟨_, byteTable_map h1, fun v u he => by rw [VDesc.Enc] at he; exact arr_of bld ty _ h2 v u he⟩
  | .null, h | .int _, h | .optional _, h | .dynArray _, h | .other, h => by rw [VDesc.GoodOpt] at h <;> simp_all
theorem vpayload_right (bld : Build) : (t : VDesc) → t.GoodPayload → ∃ ty, vgenPayload t = some ty ∧ ∀ v u, t.Enc v u → VEnc bld ty v u
  | .named n d, h => by
    rw [VDesc.GoodPayload] at h
    rw [vgenPayload]
    simp only [VDesc.Enc]
    cases hn : byteTable n with
    | none => rw [hn] at h; exact h.elim
    | some m =>
      rw [hn] at h
      cases m with
      | int k => exact ⟨_, rfl, fun v u he => enc_int bld k d h v u he⟩
      | blob => exact ⟨_, rfl, fun v u he => enc_blob bld d h v u he⟩
      | user => exact vdecl_right' bld d h
      | _ => exact h.elim
  | .bool, _ => ⟨_, rfl, bool_of bld⟩
  | .fourcc, _ => ⟨_, rfl, fourcc_of bld⟩
  | .blob, _ => ⟨_, rfl, fun v u h => by rw [VDesc.Enc] at h; exact blob_of bld v u h⟩
  | .string, _ => ⟨_, rfl, fun v u h => by rw [VDesc.Enc] at h; exact blob_of bld v u h⟩
  | .null, h | .int _, h | .optional _, h | .array _, h | .dynArray _, h | .other, h => by rw [VDesc.GoodPayload] at h <;> simp_all
theorem vplayers_right (bld : Build) : (d : VDecl) → d.GoodPlayers → ∃ ty, vgenPlayers d = some ty ∧ ∀ v u, d.Enc v u → VEnc bld (.arr ty) v u
  | .array t, h => by
    cases t with
    | named n d =>
      rw [VDecl.GoodPlayers] at h
      obtain ⟨rfl, h⟩ := h
      obtain ⟨ty, h1, h2⟩ := vdecl_right' bld d h
      refine ⟨ty, by rw [vgenPlayers, if_pos rfl, h1], fun v u he => ?_⟩
      rw [VDecl.Enc] at he
      exact arr_of bld ty _ (fun v u h' => h2 v u (by rwa [VDesc.Enc] at h')) v u he
    | _ => rw [VDecl.GoodPlayers] at h <;> simp_all
  | .struct _, h | .choice _, h | .enum _, h | .int _, h | .user _, h | .blob, h | .string, h | .bitArray, h => by
    rw [VDecl.GoodPlayers] at h <;> simp_all
theorem vdecl_right' (bld : Build) : (d : VDecl) → d.Good → ∃ ty, vgenDecl d = some ty ∧ ∀ v u, d.Enc v u → VEnc bld ty v u
  | .struct fs, h => by
    rw [VDecl.Good] at h
    obtain ⟨gs, h1, h2, h3⟩ := vmembers_right bld fs h.1
    refine ⟨.struct gs, by rw [vgenDecl, h1]; rfl, fun v u he => ?_⟩
    rw [VDecl.Enc] at he
    obtain ⟨vs, es, rfl, hl, hn, rfl, hes, ha⟩ := he
    rw [VEnc]
    refine ⟨_, _, vs, es, encVlq_enc bld _ (vlqable_natCast hl), asUsize_natCast hl, rfl, rfl, ?_,
      structVals_of fs gs es vs h2 h.2 hn ?_ ha⟩
    · intro en hen
      obtain ⟨e, he1, he2⟩ := hes en hen
      exact ⟨_, e, he1, encVlq_enc bld _ (good_tag fs h.1 _ (enc_tag fs _ _ _ he2)), h3 _ _ _ he2⟩
    · intro en hen
      obtain ⟨e, _, he2⟩ := hes en hen
      exact enc_tag fs _ _ _ he2
  | .choice vs, h => by
    rw [VDecl.Good] at h
    obtain ⟨alts, h1, h2⟩ := vvariants_right bld vs h
    refine ⟨.choice false alts, by rw [vgenDecl, h1]; rfl, fun v u he => ?_⟩
    rw [VDecl.Enc] at he
    obtain ⟨tag, w, e, rfl, rfl, he⟩ := he
    rw [VEnc]
    obtain ⟨a1, a2⟩ := h2 tag w e he
    exact ⟨tag, _, w, e, encVlq_enc bld tag a1, rfl, rfl, a2⟩
  | .enum vs, h => by
    rw [VDecl.Good] at h
    obtain ⟨alts, h1, h2⟩ := vvalues_right bld vs h
    refine ⟨.choice true alts, by rw [vgenDecl, h1]; rfl, fun v u he => ?_⟩
    rw [VDecl.Enc] at he
    obtain ⟨tag, w, e, rfl, rfl, he⟩ := he
    rw [VEnc]
    obtain ⟨a1, a2⟩ := h2 tag w e he
    exact ⟨tag, _, w, e, encVlq_enc bld tag a1, rfl, rfl, a2⟩
  | .int b, h => by
    rw [VDecl.Good] at h
    exact ⟨_, by rw [vgenDecl], fun v u he => enc_int bld .i64 (.int b) ⟨b, rfl, h⟩ v u he⟩
  | .array t, h => by
    cases t with
    | named n d =>
      rw [VDecl.Good] at h
      obtain ⟨he, h⟩ := h
      obtain ⟨ty, h1, h2⟩ := vdecl_right' bld d h
      refine ⟨.arr ty, by rw [vgenDecl, if_pos he, h1]; rfl, fun v u he => ?_⟩
      rw [VDecl.Enc] at he
      exact arr_of bld ty _ (fun v u h' => h2 v u (by rwa [VDesc.Enc] at h')) v u he
    | _ => rw [VDecl.Good] at h <;> simp_all
  | .user _, h | .blob, h | .string, h | .bitArray, h => by rw [VDecl.Good] at h <;> simp_all
theorem vmembers_right (bld : Build) : (fs : VMembers) → fs.Good → ∃ gs, vgenMembers fs = some gs ∧ Matches fs gs ∧
    ∀ tag v u, fs.Enc tag v u → VFieldEnc bld gs tag v u
  | .nil, _ => ⟨.nil, by rw [vgenMembers], by rw [Matches], fun tag v u h => by rw [VMembers.Enc] at h; exact h.elim⟩
  | .const rest, h => by
    rw [VMembers.Good] at h
    obtain ⟨gs, h1, h2, h3⟩ := vmembers_right bld rest h
    exact ⟨gs, by rw [vgenMembers, h1], by rw [Matches]; exact h2, fun tag v u h => by rw [VMembers.Enc] at h; exact h3 tag v u h⟩
  | .member none _ _ _, h => by rw [VMembers.Good] at h; exact h.elim
  | .member (some t) name ty rest, h => by
    rw [VMembers.Good] at h
    obtain ⟨_, hty, hr⟩ := h
    obtain ⟨gty, g1, g2⟩ := vmember_right bld ty hty
    obtain ⟨gs, h1, h2, h3⟩ := vmembers_right bld rest hr
    refine ⟨_, by rw [vgenMembers, g1, h1], ?_, fun tag v u h => ?_⟩
    · rw [Matches]
      refine ⟨rfl, ?_, h2⟩
      cases ty <;> simp [VDesc.isOptional, fieldKind]
    · rw [VMembers.Enc] at h
      rw [VFieldEnc]
      by_cases e : tag = t
      · subst e
        rw [if_pos rfl] at h ⊢
        exact g2 v u h
      · rw [if_neg (by simpa using fun e' => e e'.symm)] at h
        rw [if_neg e]
        exact h3 tag v u h
theorem vvariants_right (bld : Build) : (vs : VVariants) → vs.Good → ∃ alts, vgenVariants vs = some alts ∧
    ∀ tag v u, vs.Enc tag v u → vlqable tag ∧ VAltEnc bld alts tag v u
  | .nil, _ => ⟨.nil, by rw [vgenVariants], fun tag v u h => by rw [VVariants.Enc] at h; exact h.elim⟩
  | .cons t _ ty rest, h => by
    rw [VVariants.Good] at h
    obtain ⟨ht, hty, hr⟩ := h
    obtain ⟨gty, g1, g2⟩ := vpayload_right bld ty hty
    obtain ⟨alts, h1, h2⟩ := vvariants_right bld rest hr
    have hne : ty ≠ .null := by
      intro e
      subst e
      rw [VDesc.GoodPayload] at hty <;> simp_all
    refine ⟨_, by rw [vgenVariants, g1, h1]; exact hne, fun tag v u h => ?_⟩
    rw [VVariants.Enc] at h
    rw [VAltEnc]
    by_cases e : tag = t
    · subst e
      rw [if_pos rfl] at h ⊢
      exact ⟨ht, g2 v u h⟩
    · rw [if_neg e] at h ⊢
      exact h2 tag v u h
theorem vvalues_right (bld : Build) : (vs : VValues) → vs.Good → ∃ alts, vgenValues vs = some alts ∧
    ∀ tag v u, vs.Enc tag v u → vlqable tag ∧ VAltEnc bld alts tag v u
  | .nil, _ => ⟨.nil, by rw [vgenValues], fun tag v u h => by rw [VValues.Enc] at h; exact h.elim⟩
  | .plain t _ rest, h => by
    rw [VValues.Good] at h
    obtain ⟨alts, h1, h2⟩ := vvalues_right bld rest h.2
    refine ⟨_, by rw [vgenValues, h1]; rfl, fun tag v u h' => ?_⟩
    rw [VValues.Enc] at h'
    rw [VAltEnc]
    by_cases e : tag = t
    · subst e
      rw [if_pos rfl] at h' ⊢
      rw [VEnc]
      exact ⟨h.1, h'⟩
    · rw [if_neg e] at h' ⊢
      exact h2 tag v u h'
  | .event t _ _ d rest, h => by
    rw [VValues.Good] at h
    obtain ⟨gty, g1, g2⟩ := vdecl_right' bld d h.2.1
    obtain ⟨alts, h1, h2⟩ := vvalues_right bld rest h.2.2
    refine ⟨_, by rw [vgenValues, g1, h1], fun tag v u h' => ?_⟩
    rw [VValues.Enc] at h'
    rw [VAltEnc]
    by_cases e : tag = t
    · subst e
      rw [if_pos rfl] at h' ⊢
      exact ⟨h.1, g2 v u h'⟩
    · rw [if_neg e] at h' ⊢
      exact h2 tag v u h'
end

/-! ## C167 -/

/-- **C167, partial.** For every good description (of any size and depth) the generator writes a parser, and the parser reads every described
value back from each of its wire forms — the members of a struct in any order, at every level, and members of optional type
left out or not — whatever follows, and stops exactly at its end.  Missing: the other descriptions, see the refutations. -/
theorem C167_generated_partial (bld : Build) (d : VDecl) (h : d.Good) : ∃ ty, vgenDecl d = some ty ∧
    ∀ v u tail, d.Enc v u → vparse bld ty (u ++ tail) = .ok (tail, v) := by
  obtain ⟨ty, h1, h2⟩ := vdecl_right' bld d h
  exact ⟨ty, h1, fun v u tail he => (vparse_iff bld ty _ _ _).2 ⟨u, rfl, h2 v u he⟩⟩

/-! ### Descriptions like those of the protocol -/

/-- `NNet.uint8`. [sample data] -/
def tU8 : VDesc := .named "NNet.uint8" (.int ⟨0, true, 256, false, some 8⟩)
/-- `NNet.uint32`. [sample data] -/
def tU32 : VDesc := .named "NNet.uint32" (.int ⟨0, true, 4294967296, false, some 32⟩)
/-- `NNet.int32`. [sample data] -/
def tI32 : VDesc := .named "NNet.int32" (.int ⟨-2147483648, true, 2147483648, false, some 31⟩)
/-- `NNet.Game.TPlayerId`, a renaming. [sample data] -/
def tPlayer : VDesc := .named "NNet.Game.TPlayerId" (.user (.int ⟨0, true, 16, true, none⟩))
/-- `NNet.Replay.Tracker.CatalogName`. [sample data] -/
def tCatalog : VDesc := .named "NNet.Replay.Tracker.CatalogName" .string
/-- `NNet.SVersion`. [sample data] -/
def dVersion : VDecl := .struct (.member (some 0) "m_flags" tU8 (.member (some 1) "m_major" tU8 (.member (some 2) "m_minor" tU8
  (.member (some 3) "m_revision" tU8 (.member (some 4) "m_build" tU32 (.member (some 5) "m_base_build" tU32 .nil))))))
/-- `NNet.SVarUint32`. [sample data] -/
def dVarUint32 : VDecl := .choice (.cons 0 "m_uint6" (.named "NNet.uint6" (.int ⟨0, true, 64, false, some 6⟩))
  (.cons 1 "m_uint14" (.named "NNet.uint14" (.int ⟨0, true, 16384, false, some 14⟩)) (.cons 2 "m_uint22" (.named "NNet.uint22" (.int ⟨0, true, 4194304, false, some 22⟩))
    (.cons 3 "m_uint32" tU32 .nil))))
/-- `NNet.EObserve`. [sample data] -/
def dObserve : VDecl := .enum (.plain 0 "e_none" (.plain 1 "e_spectator" (.plain 2 "e_referee" .nil)))
/-- `NNet.Game.SColor`. [sample data] -/
def dColor : VDecl := .struct (.member (some 0) "m_a" tU8 (.member (some 1) "m_r" tU8 (.member (some 2) "m_g" tU8 (.member (some 3) "m_b" tU8 .nil))))
/-- `NNet.Game.SThumbnail`. [sample data] -/
def dThumbnail : VDecl := .struct (.member (some 0) "m_file" (.named "NNet.CFilePath" .string) .nil)
/-- `NNet.Replay.Tracker.SUpgradeEvent`. [sample data] -/
def dUpgrade : VDecl := .struct (.const (.member (some 0) "m_player_id" tPlayer (.member (some 1) "m_upgrade_type_name" tCatalog
  (.member (some 2) "m_count" tI32 .nil))))
/-- `NNet.Replay.Tracker.SUnitInitEvent`. [sample data] -/
def dUnitInit : VDecl := .struct (.const (.member (some 0) "m_unit_tag_index" tU32 (.member (some 1) "m_unit_tag_recycle" tU32
  (.member (some 2) "m_unit_type_name" tCatalog (.member (some 3) "m_control_player_id" tPlayer (.member (some 4) "m_upkeep_player_id" tPlayer
    (.member (some 5) "m_x" tU8 (.member (some 6) "m_y" tU8 .nil))))))))
/-- `NNet.Replay.Tracker.SUnitDoneEvent`. [sample data] -/
def dUnitDone : VDecl := .struct (.const (.member (some 0) "m_unit_tag_index" tU32 (.member (some 1) "m_unit_tag_recycle" tU32 .nil)))
/-- `NNet.Replay.Tracker.SPlayerSetupEvent`. [sample data] -/
def dSetup : VDecl := .struct (.const (.member (some 0) "m_player_id" tPlayer (.member (some 1) "m_type" tU32
  (.member (some 2) "m_user_id" (.optional tU32) (.member (some 3) "m_slot_id" (.optional tU32) .nil)))))

/-- **C167.** For descriptions as those of the bundled protocol the generator of the model writes the readers that the bundled module has. -/
theorem C167_bundled :
    vgenDecl dVersion = some P87702.ByteAligned.SVersion ∧ vgenDecl dVarUint32 = some P87702.ByteAligned.SVarUint32 ∧
    vgenDecl dObserve = some P87702.ByteAligned.EObserve ∧ vgenDecl dColor = some P87702.ByteAligned.GameSColor ∧
    vgenDecl dThumbnail = some P87702.ByteAligned.GameSThumbnail ∧ vgenDecl dUpgrade = some P87702.ByteAligned.ReplayTrackerSUpgradeEvent ∧
    vgenDecl dUnitInit = some P87702.ByteAligned.ReplayTrackerSUnitInitEvent ∧
    vgenDecl dUnitDone = some P87702.ByteAligned.ReplayTrackerSUnitDoneEvent ∧
    vgenDecl dSetup = some P87702.ByteAligned.ReplayTrackerSPlayerSetupEvent :=
  ⟨rfl, rfl, rfl, rfl, rfl, rfl, rfl, rfl, rfl⟩

/-- A header as in a replay: bytes, a struct, an optional list of names. [sample data] -/
def dHeader : VDecl := .struct (.member (some 0) "m_signature" (.named "NNet.Replay.CSignature" .blob)
  (.member (some 1) "m_version" (.named "NNet.SVersion" dVersion) (.member (some 9) "m_paths" (.optional (.named "NNet.Game.CModPaths" (.array (.named "NNet.CFilePath" .string)))) .nil)))

theorem dHeader_good : dHeader.Good := by
  simp only [dHeader, VDecl.Good, VMembers.Good, VDesc.Good, VDesc.GoodOpt, VMembers.tags]
  refine ⟨⟨by decide, (rfl : VDecl.isBytes .blob = true), by decide, ⟨?_, by decide⟩, by decide,
    (rfl : VDecl.isBlobs (.array (.named "NNet.CFilePath" .string)) = true), trivial⟩, by decide⟩
  have h8 : ∃ b, (VDecl.int ⟨0, true, 256, false, some 8⟩).bounds? = some b ∧ b.within .u8 := ⟨_, rfl, by decide, by decide, by decide, by decide⟩
  have h32 : ∃ b, (VDecl.int ⟨0, true, 4294967296, false, some 32⟩).bounds? = some b ∧ b.within .u32 := ⟨_, rfl, by decide, by decide, by decide, by decide⟩
  exact ⟨by decide, h8, by decide, h8, by decide, h8, by decide, h8, by decide, h32, by decide, h32, trivial⟩

/-- One entry: tag and value. [proof device, no counterpart in /repo] -/
def entry (tag : Int) (v : Val) (u : List UInt8) : Entry := ⟨tag, v, encVlq tag ++ u⟩

/-- A version written with its members in reverse order, and a header without its optional member. -/
example : dHeader.Enc (.struct [.bytes [0x48], .struct [.int 1, .int 5, .int 0, .int 11, .int 87702, .int 87702], .none])
    (STRUCT_TAG :: (encVlq (2 : Nat) ++
      [entry 1 (.struct [.int 1, .int 5, .int 0, .int 11, .int 87702, .int 87702])
        (STRUCT_TAG :: (encVlq (6 : Nat) ++ [entry 5 (.int 87702) (INT_TAG :: encVlq 87702), entry 4 (.int 87702) (INT_TAG :: encVlq 87702),
          entry 3 (.int 11) (INT_TAG :: encVlq 11), entry 2 (.int 0) (INT_TAG :: encVlq 0), entry 1 (.int 5) (INT_TAG :: encVlq 5),
          entry 0 (.int 1) (INT_TAG :: encVlq 1)].flatMap Entry.bytes)),
       entry 0 (.bytes [0x48]) (BLOB_TAG :: (encVlq (1 : Nat) ++ [0x48]))].flatMap Entry.bytes)) := by
  rw [dHeader, VDecl.Enc]
  refine ⟨_, [entry 1 _ _, entry 0 _ _], rfl, by decide, ?_, rfl, ?_, ?_⟩
  · simp [entry]
  · intro en hen
    simp only [List.mem_cons, List.not_mem_nil, or_false] at hen
    rcases hen with rfl | rfl
    · refine ⟨_, rfl, ?_⟩
      simp only [entry, VMembers.Enc, VDesc.Enc]
      simp only [Option.some.injEq]
      rw [if_neg (by decide), if_pos (by decide), dVersion, VDecl.Enc]
      refine ⟨_, [entry 5 _ _, entry 4 _ _, entry 3 _ _, entry 2 _ _, entry 1 _ _, entry 0 _ _], rfl, by decide, ?_, rfl, ?_, ?_⟩
      · simp [entry]
      · intro en hen
        simp only [List.mem_cons, List.not_mem_nil, or_false] at hen
        rcases hen with rfl | rfl | rfl | rfl | rfl | rfl <;>
        · refine ⟨_, rfl, ?_⟩
          simp [entry, VMembers.Enc, VDesc.Enc, tU8, tU32, VDecl.Enc, Bounds.lo, Bounds.hi]
      · refine ⟨_, _, rfl, .inl rfl, _, _, rfl, .inl rfl, _, _, rfl, .inl rfl, _, _, rfl, .inl rfl, _, _, rfl, .inl rfl, _, _, rfl, .inl rfl, rfl⟩
    · refine ⟨_, rfl, ?_⟩
      rw [VMembers.Enc, if_pos (by rfl), VDesc.Enc, VDecl.Enc]
      exact ⟨_, rfl, by decide, rfl⟩
  · exact ⟨_, _, rfl, .inl rfl, _, _, rfl, .inl rfl, _, _, rfl, .inr ⟨rfl, rfl, rfl⟩, rfl⟩

/-! ### Refutations -/

/-- The value stands in a described wire form, and there is no parser or the generated one does not return it. -/
def Lost (bld : Build) (d : VDecl) (v : Val) (u : List UInt8) : Prop :=
  d.Enc v u ∧ ∀ ty, vgenDecl d = some ty → ∀ tail, vparse bld ty u ≠ .ok (tail, v)

/-- The struct with the one member `m_x` of this type. -/
def oneTagged (t : VDesc) : VDecl := .struct (.member (some 0) "m_x" t .nil)

theorem oneTagged_enc (t : VDesc) (v : Val) (u : List UInt8) (h : t.Enc v u) :
    (oneTagged t).Enc (.struct [v]) (STRUCT_TAG :: (encVlq (1 : Nat) ++ (encVlq 0 ++ u))) := by
  rw [oneTagged, VDecl.Enc]
  refine ⟨[v], [entry 0 v u], rfl, by simp, by simp [entry], by simp [entry], ?_, ?_⟩
  · intro en hen
    rw [List.mem_singleton] at hen
    subst hen
    exact ⟨u, rfl, by rw [VMembers.Enc, if_pos (by rfl)]; exact h⟩
  · exact ⟨_, _, rfl, .inl rfl, rfl⟩

theorem lost_of_none (bld : Build) (t : VDesc) (v : Val) (u : List UInt8) (h : t.Enc v u) (hg : vgenMember t = none) :
    ∃ u', Lost bld (oneTagged t) (.struct [v]) u' := by
  refine ⟨_, oneTagged_enc t v u h, fun ty hty => ?_⟩
  rw [oneTagged, vgenDecl, vgenMembers, hg] at hty
  cases hty

/-- **C167.** In general not, in either build.  (1) A choice with an empty variant: the variant is skipped and its tag rejected.  There is no parser for
(2) a member that is an integer with bounds of its own, (3) one that is an array of integers (which the bundled protocol has), (4) one that is a dynamic array,
(5) one that is optional twice, (6) a member of a declared type whose name is not in the table.
(7) A 64-bit unsigned number above the signed range is rejected. -/
theorem C167_generated_refuted (bld : Build) :
    Lost bld (.choice (.cons 0 "m_none" .null (.cons 1 "m_flag" .bool .nil))) (.choice 0 .unit) [CHOICE_TAG, 0] ∧
    (∃ v u, Lost bld (oneTagged (.int ⟨0, true, 255, true, none⟩)) v u) ∧
    (∃ v u, Lost bld (oneTagged (.array tU8)) v u) ∧
    (∃ v u, Lost bld (oneTagged (.dynArray (.named "NNet.SVersion" dVersion))) v u) ∧
    (∃ v u, Lost bld (oneTagged (.optional (.optional .bool))) v u) ∧
    (∃ v u, Lost bld (oneTagged (.named "NNet.uint16" (.int ⟨0, true, 65536, false, some 16⟩))) v u) ∧
    (∃ u, Lost bld (oneTagged (.named "NNet.uint64" (.int ⟨0, true, 2 ^ 64, false, some 64⟩))) (.struct [.int (2 ^ 63)]) u) := by
  refine ⟨⟨?_, ?_⟩, ?_, ?_, ?_, ?_, ?_, ?_⟩
  · rw [VDecl.Enc]
    exact ⟨0, .unit, [], rfl, rfl, by rw [VVariants.Enc, if_pos rfl, VDesc.Enc]; exact ⟨rfl, rfl⟩⟩
  · intro ty hty tail
    cases hty
    cases bld
    · have : vparse .debug (.choice false (.cons 1 .bool .nil)) [CHOICE_TAG, 0] = .err (.unknownTag 0) := by decide +kernel
      rw [this]; intro c; cases c
    · have : vparse .release (.choice false (.cons 1 .bool .nil)) [CHOICE_TAG, 0] = .err (.unknownTag 0) := by decide +kernel
      rw [this]; intro c; cases c
  · exact ⟨_, lost_of_none bld _ (.int 7) _ (by rw [VDesc.Enc]; exact ⟨7, rfl, by decide, by decide, rfl⟩) rfl⟩
  · exact ⟨_, lost_of_none bld _ (.list []) _ (by rw [VDesc.Enc]; exact ⟨[], rfl, by decide, rfl, by simp⟩) rfl⟩
  · exact ⟨_, lost_of_none bld _ (.list []) _ (by rw [VDesc.Enc]; exact ⟨[], rfl, by decide, rfl, by simp⟩) rfl⟩
  · exact ⟨_, lost_of_none bld _ .none _ (by rw [VDesc.Enc]; exact .inl ⟨rfl, rfl⟩) rfl⟩
  · exact ⟨_, lost_of_none bld _ (.int 7) _ (by rw [VDesc.Enc, VDecl.Enc]; exact ⟨7, rfl, by decide, by decide, rfl⟩) rfl⟩
  · refine ⟨_, oneTagged_enc _ (.int (2 ^ 63)) (INT_TAG :: encVlq (2 ^ 63)) (by
      rw [VDesc.Enc, VDecl.Enc]; exact ⟨2 ^ 63, rfl, by decide, by decide, rfl⟩), fun ty hty tail => ?_⟩
    cases hty
    have hb : (STRUCT_TAG :: (encVlq (1 : Nat) ++ (encVlq 0 ++ INT_TAG :: encVlq (2 ^ 63)))) =
        [5, 2, 0, 9, 128, 128, 128, 128, 128, 128, 128, 128, 128, 2] := by decide +kernel
    rw [hb]
    cases bld
    · have : (vparse .debug (.struct (.cons 0 "m_x" 0 .mandatory (.int .u64) .nil)) [5, 2, 0, 9, 128, 128, 128, 128, 128, 128, 128, 128, 128, 2]).isOk = false := by decide +kernel
      intro c
      rw [show (VTy.struct (.cons 0 "m_x" 0 (fieldKind (.named "NNet.uint64" (.int ⟨0, true, 2 ^ 64, false, some 64⟩))) (.int .u64) .nil)) = .struct (.cons 0 "m_x" 0 .mandatory (.int .u64) .nil) from rfl] at c
      rw [c] at this; cases this
    · have : (vparse .release (.struct (.cons 0 "m_x" 0 .mandatory (.int .u64) .nil)) [5, 2, 0, 9, 128, 128, 128, 128, 128, 128, 128, 128, 128, 2]).isOk = false := by decide +kernel
      intro c
      rw [show (VTy.struct (.cons 0 "m_x" 0 (fieldKind (.named "NNet.uint64" (.int ⟨0, true, 2 ^ 64, false, some 64⟩))) (.int .u64) .nil)) = .struct (.cons 0 "m_x" 0 .mandatory (.int .u64) .nil) from rfl] at c
      rw [c] at this; cases this

end S2.Generator
