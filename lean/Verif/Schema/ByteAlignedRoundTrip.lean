import Verif.VlqLemmas
import Verif.Spec.ByteAlignedEnc
import Verif.Schema.ByteAlignedLemmas
import Verif.BitsLemmas2
/-! # The byte-aligned parser inverts the reference encoder -/
namespace S2

theorem beNat_be4 {x : Nat} (h : x < 2 ^ 32) : beNat (be4 x) = x := by
  simp only [be4, beNat, List.foldl_cons, List.foldl_nil, UInt8.toNat_ofNat']
  omega

theorem asUsize_natCast {n : Nat} (h : n < 2 ^ 63) : asUsize (n : Int) = n := by
  unfold asUsize; omega

theorem vlqable_natCast {n : Nat} (h : n < 2 ^ 63) : vlqable (n : Int) := by
  unfold vlqable i64Min i64Max; omega

theorem vencFields_length : ∀ (fs : VFields) (vs : List Val), VFieldsHas fs vs →
    (vencFields fs vs).length = vs.length ∧ (vencFields fs vs).map Entry.tag = fs.tags
  | .nil, vs, h => by subst h; exact ⟨rfl, rfl⟩
  | .cons t name dup kind ty rest, vs, h => by
    obtain ⟨v, vs', rfl, h1, h2⟩ := h
    obtain ⟨ih1, ih2⟩ := vencFields_length rest vs' h2
    refine ⟨?_, ?_⟩
    · rw [vencFields, List.length_cons, ih1, List.length_cons]
    · rw [vencFields, List.map_cons, ih2, VFields.tags]

theorem FieldResult_single (kind : FKind) (v : Val) : FieldResult kind [v] v := by
  cases kind with
  | mandatory => rfl
  | dflt d => exact Or.inr rfl
  | optional => simp [FieldResult]

theorem structVals_venc : ∀ (fs : VFields) (vs : List Val), fs.tags.Nodup → VFieldsHas fs vs →
    StructVals fs (vencFields fs vs) vs
  | .nil, vs, _, h => by subst h; exact ⟨rfl, rfl⟩
  | .cons t name dup kind ty rest, vs, hn, h => by
    obtain ⟨v, vs', rfl, h1, h2⟩ := h
    rw [VFields.tags, List.nodup_cons] at hn
    have ih := structVals_venc rest vs' hn.2 h2
    have hne : ∀ e ∈ vencFields rest vs', e.tag ≠ t := by
      intro e he hte
      apply hn.1
      rw [← (vencFields_length rest vs' h2).2, ← hte]
      exact List.mem_map_of_mem he
    refine ⟨v, vs', rfl, ?_, ?_⟩
    · rw [vencFields, List.filter_cons_of_pos (by simp)]
      rw [List.filter_eq_nil_iff.mpr (by intro e he; simpa using hne e he)]
      exact FieldResult_single kind v
    · rw [vencFields, List.filter_cons_of_neg (by simp), List.filter_eq_self.mpr (by
        intro e he; simpa using hne e he)]
      exact ih

mutual
theorem venc_enc (bld : Build) : ∀ (t : VTy) (v : Val), t.wf = true → VHas t v → VEnc bld t v (venc t v)
  | .int k, v, hw, h => by
    obtain ⟨x, rfl, h1, h2⟩ := h
    exact ⟨x, _, rfl, h1, rfl, encVlq_enc bld x h2⟩
  | .blob, v, hw, h => by
    obtain ⟨bs, rfl, h⟩ := h
    exact ⟨_, _, bs, rfl, rfl, encVlq_enc bld _ (vlqable_natCast h), asUsize_natCast h⟩
  | .bool, v, hw, h => by
    obtain ⟨b, rfl⟩ := h
    cases b
    · exact ⟨0, rfl, rfl⟩
    · exact ⟨1, rfl, rfl⟩
  | .fourcc, v, hw, h => by
    obtain ⟨x, rfl, h⟩ := h
    exact ⟨be4 x, rfl, by rw [beNat_be4 h], rfl⟩
  | .null, v, hw, h => by subst h; exact ⟨rfl, rfl⟩
  | .opt t, v, hw, h => by
    rcases h with rfl | ⟨w, rfl, h⟩
    · exact Or.inl ⟨rfl, rfl⟩
    · exact Or.inr ⟨1, w, _, by decide, rfl, rfl, venc_enc bld t w (by simpa [VTy.wf] using hw) h⟩
  | .arr t, v, hw, h => by
    obtain ⟨vs, rfl, hl, h⟩ := h
    refine ⟨_, _, vs.map (fun v => (v, venc t v)), encVlq_enc bld _ (vlqable_natCast hl), ?_, ?_, ?_, ?_⟩
    · rw [asUsize_natCast hl]; simp
    · simp [List.map_map, Function.comp_def]
    · simp [venc, List.flatMap_map]
    · intro it hit
      rw [List.mem_map] at hit
      obtain ⟨w, hw', rfl⟩ := hit
      exact venc_enc bld t w (by simpa [VTy.wf] using hw) (h w hw')
  | .struct fs, v, hw, h => by
    obtain ⟨vs, rfl, h⟩ := h
    simp only [VTy.wf, Bool.and_eq_true, decide_eq_true_eq] at hw
    obtain ⟨⟨hw1, hw2⟩, hw3⟩ := hw
    obtain ⟨hl1, hl2⟩ := vencFields_length fs vs h
    have hl : vs.length < 2 ^ 63 := by
      rw [← hl1, ← List.length_map (f := Entry.tag), hl2]; exact hw3
    refine ⟨_, _, vs, vencFields fs vs, encVlq_enc bld _ (vlqable_natCast hl), ?_, rfl, rfl, ?_,
      structVals_venc fs vs hw2 h⟩
    · rw [asUsize_natCast hl, hl1]
    · exact vencFields_enc bld fs vs hw1 hw2 h
  | .choice isInt alts, v, hw, h => by
    obtain ⟨tag, w, rfl, h⟩ := h
    obtain ⟨h1, h2⟩ := vencAlt_enc bld alts tag w (by simpa [VTy.wf] using hw) h
    exact ⟨tag, _, w, _, encVlq_enc bld tag h1, rfl, rfl, h2⟩
theorem vencFields_enc (bld : Build) : ∀ (fs : VFields) (vs : List Val), fs.wf = true → fs.tags.Nodup →
    VFieldsHas fs vs → ∀ en ∈ vencFields fs vs, ∃ te fe, en.bytes = te ++ fe ∧ VlqEnc bld en.tag te ∧
      VFieldEnc bld fs en.tag en.val fe
  | .nil, vs, _, _, h, en, hen => by subst h; simp [vencFields] at hen
  | .cons t name dup kind ty rest, vs, hw, hn, h, en, hen => by
    obtain ⟨v, vs', rfl, h1, h2⟩ := h
    rw [VFields.tags, List.nodup_cons] at hn
    simp only [VFields.wf, Bool.and_eq_true, decide_eq_true_eq] at hw
    rw [vencFields, List.mem_cons] at hen
    rcases hen with rfl | hen
    · exact ⟨_, _, rfl, encVlq_enc bld t hw.1.1, by
        rw [VFieldEnc, if_pos rfl]; exact venc_enc bld ty v hw.1.2 h1⟩
    · obtain ⟨te, fe, e1, e2, e3⟩ := vencFields_enc bld rest vs' hw.2 hn.2 h2 en hen
      refine ⟨te, fe, e1, e2, ?_⟩
      rw [VFieldEnc, if_neg]
      · exact e3
      · intro hte
        apply hn.1
        rw [← (vencFields_length rest vs' h2).2, ← hte]
        exact List.mem_map_of_mem hen
theorem vencAlt_enc (bld : Build) : ∀ (alts : VAlts) (tag : Int) (v : Val), alts.wf = true → VAltHas alts tag v →
    vlqable tag ∧ VAltEnc bld alts tag v (vencAlt alts tag v)
  | .nil, tag, v, _, h => h.elim
  | .cons t ty rest, tag, v, hw, h => by
    simp only [VAlts.wf, Bool.and_eq_true, decide_eq_true_eq] at hw
    rw [VAltHas] at h
    rw [VAltEnc, vencAlt]
    by_cases e : tag = t
    · subst e
      rw [if_pos rfl] at h
      rw [if_pos rfl, if_pos rfl]
      exact ⟨hw.1.1, venc_enc bld ty v hw.1.2 h⟩
    · rw [if_neg e] at h
      rw [if_neg e, if_neg e]
      exact vencAlt_enc bld rest tag v hw.2 h
end

/-- Decoding an encoded value gives it back, whatever follows it. -/
theorem vparse_venc (bld : Build) (t : VTy) (v : Val) (hw : t.wf = true) (hv : VHas t v) (tail : List UInt8) :
    vparse bld t (venc t v ++ tail) = .ok (tail, v) :=
  (vparse_iff bld t _ _ _).2 ⟨_, rfl, venc_enc bld t v hw hv⟩

/-! ## Field order -/

theorem perm_filter_single {α : Type} {l l' : List α} (p : α → Bool) (h : l.Perm l')
    (h1 : (l.filter p).length ≤ 1) : l'.filter p = l.filter p := by
  have hp := h.filter p
  match hl : l.filter p, h1 with
  | [], _ => rw [hl] at hp; simpa using hp.symm.eq_nil
  | [x], _ => rw [hl] at hp; exact List.perm_singleton.mp hp.symm
  | _ :: _ :: _, h1 => simp [hl] at h1

theorem nodup_filter_le_one {es : List Entry} (t : Int) (h : (es.map Entry.tag).Nodup) :
    (es.filter (fun e => decide (e.tag = t))).length ≤ 1 := by
  induction es with
  | nil => simp
  | cons e es ih =>
    rw [List.map_cons, List.nodup_cons] at h
    have ih := ih h.2
    by_cases he : e.tag = t
    · rw [List.filter_cons_of_pos (by simpa using he)]
      rw [List.filter_eq_nil_iff.mpr]
      · simp
      · intro x hx
        simp only [decide_eq_true_eq]
        intro hxt
        apply h.1
        rw [he, ← hxt]
        exact List.mem_map_of_mem hx
    · rw [List.filter_cons_of_neg (by simpa using he)]; exact ih

/-- Field order does not matter. -/
theorem structVals_perm : ∀ (fs : VFields) (es es' : List Entry) (vs : List Val), es.Perm es' →
    (es.map Entry.tag).Nodup → StructVals fs es vs → StructVals fs es' vs
  | .nil, es, es', vs, hp, hn, h => by
    obtain ⟨rfl, rfl⟩ := h
    exact ⟨hp.symm.eq_nil, rfl⟩
  | .cons t name dup kind ty rest, es, es', vs, hp, hn, h => by
    obtain ⟨v, vs', rfl, h1, h2⟩ := h
    refine ⟨v, vs', rfl, ?_, ?_⟩
    · rw [perm_filter_single _ hp (nodup_filter_le_one t hn)]; exact h1
    · refine structVals_perm rest _ _ vs' (hp.filter _) ?_ h2
      exact List.Nodup.sublist (List.filter_sublist.map _) hn

end S2
