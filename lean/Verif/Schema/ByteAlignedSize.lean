import Verif.Schema.ByteAlignedStruct
import Verif.Spec.ValSpec
/-! # Sizes of byte-aligned values -/
namespace S2

/-- Is it the payload-less template? [proof device, no counterpart in /repo] -/
def VTy.isNull : VTy → Bool
  | .null => true
  | _ => false

/-- Default of a field, when it has one, has no parts. [proof device, no counterpart in /repo] -/
def FKind.leafDefault : FKind → Bool
  | .dflt d => d.isLeaf
  | _ => true

mutual
/-- Array elements take at least one byte and defaults are leaves.  Decided for every
extracted type. [proof device, no counterpart in /repo] -/
def VTy.sized : VTy → Bool
  | .opt t => t.sized
  | .arr t => !t.isNull && t.sized
  | .struct fs => fs.sized
  | .choice _ alts => alts.sized
  | _ => true
/-- [proof device, no counterpart in /repo] -/
def VFields.sized : VFields → Bool
  | .nil => true
  | .cons _ _ _ kind ty rest => kind.leafDefault && ty.sized && rest.sized
/-- [proof device, no counterpart in /repo] -/
def VAlts.sized : VAlts → Bool
  | .nil => true
  | .cons _ ty rest => ty.sized && rest.sized
end

theorem VEnc_ne_nil {bld : Build} {t : VTy} {v : Val} {u : List UInt8} (ht : t.isNull = false)
    (h : VEnc bld t v u) : u ≠ [] := by
  cases t with
  | int k => obtain ⟨x, e, _, _, rfl, _⟩ := h; simp
  | blob => obtain ⟨x, e, bs, _, rfl, _⟩ := h; simp
  | bool => obtain ⟨b, _, rfl⟩ := h; simp
  | fourcc => obtain ⟨b, _, _, rfl⟩ := h; simp
  | null => simp [VTy.isNull] at ht
  | opt t =>
    rcases h with ⟨_, rfl⟩ | ⟨p, w, e, _, _, rfl, _⟩ <;> simp
  | arr t => obtain ⟨n, e, items, _, _, _, rfl, _⟩ := h; simp
  | struct fs => obtain ⟨n, e, vs, es, _, _, _, rfl, _⟩ := h; simp
  | choice i alts => obtain ⟨tag, e, w, r, _, rfl, _⟩ := h; simp

theorem length_flatMap_ge {α : Type} (f : α → List UInt8) : ∀ (l : List α), (∀ a ∈ l, f a ≠ []) →
    l.length ≤ (l.flatMap f).length
  | [], _ => by simp
  | a :: l, h => by
    have h1 := length_flatMap_ge f l (fun b hb => h b (by simp [hb]))
    have h2 : 0 < (f a).length := List.length_pos_iff.mpr (h a (by simp))
    simp only [List.flatMap_cons, List.length_append, List.length_cons]
    omega

theorem length_le_flatMap {α : Type} (f : α → List UInt8) (l : List α) (a : α) (h : a ∈ l) :
    (f a).length ≤ (l.flatMap f).length := by
  induction l with
  | nil => simp at h
  | cons b l ih =>
    simp only [List.flatMap_cons, List.length_append]
    rcases List.mem_cons.mp h with rfl | h
    · omega
    · have := ih h; omega

theorem FieldResult_mem {k : FKind} {occ : List Val} {v : Val} (h : FieldResult k occ v)
    (hk : k.leafDefault = true) : v ∈ occ ∨ v.isLeaf = true := by
  cases k with
  | mandatory => left; rw [show occ = [v] from h]; simp
  | dflt d =>
    rcases h with ⟨_, rfl⟩ | h
    · right; exact hk
    · left; rw [h]; simp
  | optional =>
    obtain ⟨_, rfl⟩ := h
    cases hl : occ.getLast? with
    | none => right; rfl
    | some w => left; simpa using List.mem_of_getLast? hl

theorem StructVals_mem : ∀ (fs : VFields) (es : List Entry) (vs : List Val), fs.sized = true →
    StructVals fs es vs → ∀ v ∈ vs, (∃ e ∈ es, e.val = v) ∨ v.isLeaf = true
  | .nil, es, vs, _, h, v, hv => by obtain ⟨_, rfl⟩ := h; simp at hv
  | .cons t _ _ kind ty rest, es, vs, hs, h, v, hv => by
    obtain ⟨w, vs', rfl, h1, h2⟩ := h
    simp only [VFields.sized, Bool.and_eq_true] at hs
    rcases List.mem_cons.mp hv with rfl | hv
    · rcases FieldResult_mem h1 hs.1.1 with h | h
      · left
        obtain ⟨e, he, rfl⟩ := List.mem_map.mp h
        exact ⟨e, (List.mem_filter.mp he).1, rfl⟩
      · exact .inr h
    · rcases StructVals_mem rest _ vs' hs.2 h2 v hv with ⟨e, he, rfl⟩ | h
      · left; exact ⟨e, (List.mem_filter.mp he).1, rfl⟩
      · exact .inr h

mutual
/-- Every list inside a decoded value is no longer than the wire form. -/
theorem VEnc_listsLe {bld : Build} : ∀ (t : VTy) (v : Val) (u : List UInt8), t.sized = true →
    VEnc bld t v u → v.listsLe u.length
  | .int k, v, u, _, h => by obtain ⟨x, e, rfl, _⟩ := h; simp [Val.listsLe]
  | .blob, v, u, _, h => by obtain ⟨x, e, bs, rfl, _⟩ := h; simp [Val.listsLe]
  | .bool, v, u, _, h => by obtain ⟨b, rfl, _⟩ := h; simp [Val.listsLe]
  | .fourcc, v, u, _, h => by obtain ⟨b, _, rfl, _⟩ := h; simp [Val.listsLe]
  | .null, v, u, _, h => by obtain ⟨rfl, _⟩ := h; simp [Val.listsLe]
  | .opt t, v, u, hs, h => by
    rcases h with ⟨rfl, rfl⟩ | ⟨p, w, e, _, rfl, rfl, h⟩
    · simp [Val.listsLe]
    · simp only [Val.listsLe]
      exact Val.listsLe_mono (by simp; omega) w (VEnc_listsLe t w e (by simpa [VTy.sized] using hs) h)
  | .arr t, v, u, hs, h => by
    simp only [VTy.sized, Bool.and_eq_true, Bool.not_eq_true'] at hs
    obtain ⟨n, e, items, _, _, rfl, rfl, h⟩ := h
    simp only [Val.listsLe, Val.allListsLe_iff]
    have h1 := length_flatMap_ge Prod.snd items (fun a ha => VEnc_ne_nil hs.1 (h a ha))
    refine ⟨by simp only [List.length_map, List.length_cons, List.length_append]; omega, ?_⟩
    intro w hw
    obtain ⟨it, hit, rfl⟩ := List.mem_map.mp hw
    refine Val.listsLe_mono ?_ _ (VEnc_listsLe t it.1 it.2 hs.2 (h it hit))
    have := length_le_flatMap Prod.snd items it hit
    simp only [List.length_cons, List.length_append]; omega
  | .struct fs, v, u, hs, h => by
    obtain ⟨n, e, vs, es, _, _, rfl, rfl, h1, h2⟩ := h
    simp only [VTy.sized] at hs
    simp only [Val.listsLe, Val.allListsLe_iff]
    intro w hw
    rcases StructVals_mem fs es vs hs h2 w hw with ⟨en, hen, rfl⟩ | hl
    · obtain ⟨te, fe, hb, _, h3⟩ := h1 en hen
      refine Val.listsLe_mono ?_ _ (VFieldEnc_listsLe fs en.tag en.val fe hs h3)
      have := length_le_flatMap Entry.bytes es en hen
      rw [hb] at this
      simp only [List.length_cons, List.length_append] at this ⊢
      omega
    · exact Val.isLeaf_listsLe hl _
  | .choice i alts, v, u, hs, h => by
    obtain ⟨tag, e, w, r, _, rfl, rfl, h⟩ := h
    simp only [Val.listsLe]
    exact Val.listsLe_mono (by simp; omega) _ (VAltEnc_listsLe alts tag w r (by simpa [VTy.sized] using hs) h)
theorem VFieldEnc_listsLe {bld : Build} : ∀ (fs : VFields) (tag : Int) (v : Val) (u : List UInt8),
    fs.sized = true → VFieldEnc bld fs tag v u → v.listsLe u.length
  | .nil, _, _, _, _, h => by simp [VFieldEnc] at h
  | .cons t _ _ kind ty rest, tag, v, u, hs, h => by
    simp only [VFields.sized, Bool.and_eq_true] at hs
    simp only [VFieldEnc] at h
    by_cases ht : tag = t
    · rw [if_pos ht] at h; exact VEnc_listsLe ty v u hs.1.2 h
    · rw [if_neg ht] at h; exact VFieldEnc_listsLe rest tag v u hs.2 h
theorem VAltEnc_listsLe {bld : Build} : ∀ (alts : VAlts) (tag : Int) (v : Val) (u : List UInt8),
    alts.sized = true → VAltEnc bld alts tag v u → v.listsLe u.length
  | .nil, _, _, _, _, h => by simp [VAltEnc] at h
  | .cons t ty rest, tag, v, u, hs, h => by
    simp only [VAlts.sized, Bool.and_eq_true] at hs
    simp only [VAltEnc] at h
    by_cases ht : tag = t
    · rw [if_pos ht] at h; exact VEnc_listsLe ty v u hs.1 h
    · rw [if_neg ht] at h; exact VAltEnc_listsLe rest tag v u hs.2 h
end

end S2
