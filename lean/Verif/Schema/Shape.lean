import Verif.Schema.BitPackedLemmas
import Verif.Schema.ByteAlignedLemmas
/-!
# Decoded values have the shape of their schema type
-/
namespace S2

mutual
/-- `v` is a value of the Rust type generated for the byte-aligned type `t`. [the types declared in /repo/src/versions/protocol87702/mod.rs] -/
def VShape : VTy → Val → Prop
  | .int k, v => ∃ x, v = .int x ∧ k.inRange x
  | .blob, v => ∃ bs, v = .bytes bs
  | .bool, v => ∃ b, v = .bool b
  | .fourcc, v => ∃ x, v = .int x
  | .null, v => v = .unit
  | .opt t, v => v = .none ∨ ∃ w, v = .some w ∧ VShape t w
  | .arr t, v => ∃ vs, v = .list vs ∧ ∀ w ∈ vs, VShape t w
  | .struct fs, v => ∃ vs, v = .struct vs ∧ VFieldsShape fs vs
  | .choice _ alts, v => ∃ tag w, v = .choice tag w ∧ VAltShape alts tag w
/-- Field lists. [the structs declared in /repo/src/versions/protocol87702/mod.rs] -/
def VFieldsShape : VFields → List Val → Prop
  | .nil, vs => vs = []
  | .cons _ _ _ kind ty rest, vs => ∃ v vs', vs = v :: vs' ∧
      (VShape ty v ∨ match kind with | .mandatory => False | .optional => v = .none | .dflt d => v = d) ∧
      VFieldsShape rest vs'
/-- Payload of variant `tag`. [the enums declared in /repo/src/versions/protocol87702/mod.rs] -/
def VAltShape : VAlts → Int → Val → Prop
  | .nil, _, _ => False
  | .cons t ty rest, tag, v => if tag = t then VShape ty v else VAltShape rest tag v
end

mutual
theorem VEnc_shape {bld : Build} : ∀ (t : VTy) (v : Val) (u : List UInt8), VEnc bld t v u → VShape t v
  | .int k, v, u, h => by obtain ⟨x, e, rfl, hx, _⟩ := h; exact ⟨x, rfl, hx⟩
  | .blob, v, u, h => by obtain ⟨x, e, bs, rfl, _⟩ := h; exact ⟨bs, rfl⟩
  | .bool, v, u, h => by obtain ⟨b, rfl, _⟩ := h; exact ⟨_, rfl⟩
  | .fourcc, v, u, h => by obtain ⟨b, _, rfl, _⟩ := h; exact ⟨_, rfl⟩
  | .null, v, u, h => h.1
  | .opt t, v, u, h => by
    rcases h with ⟨rfl, rfl⟩ | ⟨p, w, e, _, rfl, rfl, h⟩
    · exact .inl rfl
    · exact .inr ⟨w, rfl, VEnc_shape t w e h⟩
  | .arr t, v, u, h => by
    obtain ⟨n, e, items, _, _, rfl, rfl, h⟩ := h
    refine ⟨_, rfl, ?_⟩
    intro w hw
    obtain ⟨it, hit, rfl⟩ := List.mem_map.mp hw
    exact VEnc_shape t it.1 it.2 (h it hit)
  | .struct fs, v, u, h => by
    obtain ⟨n, e, vs, es, _, _, rfl, rfl, h1, h2⟩ := h
    refine ⟨vs, rfl, VFieldsEnc_shape (bld := bld) fs es vs (fun en hen => ?_) h2⟩
    obtain ⟨te, fe, _, _, h3⟩ := h1 en hen
    exact ⟨fe, h3⟩
  | .choice i alts, v, u, h => by
    obtain ⟨tag, e, w, r, _, rfl, rfl, h⟩ := h
    exact ⟨tag, w, rfl, VAltEnc_shape alts tag w r h⟩
theorem VFieldsEnc_shape {bld : Build} : ∀ (fs : VFields) (es : List Entry) (vs : List Val),
    (∀ en ∈ es, ∃ fe, VFieldEnc bld fs en.tag en.val fe) → StructVals fs es vs → VFieldsShape fs vs
  | .nil, es, vs, _, h => h.2
  | .cons t _ _ kind ty rest, es, vs, he, h => by
    obtain ⟨w, vs', rfl, h1, h2⟩ := h
    refine ⟨w, vs', rfl, ?_, VFieldsEnc_shape (bld := bld) rest _ vs' ?_ h2⟩
    · have hocc : ∀ v ∈ (es.filter (fun e => decide (e.tag = t))).map Entry.val, VShape ty v := by
        intro v hv
        obtain ⟨en, hen, rfl⟩ := List.mem_map.mp hv
        obtain ⟨hen, ht⟩ := List.mem_filter.mp hen
        obtain ⟨fe, hf⟩ := he en hen
        rw [VFieldEnc, if_pos (by simpa using ht)] at hf
        exact VEnc_shape ty en.val fe hf
      cases kind with
      | mandatory => left; apply hocc; rw [show _ = [w] from h1]; simp
      | dflt d =>
        rcases h1 with ⟨_, rfl⟩ | h1
        · right; rfl
        · left; apply hocc; rw [h1]; simp
      | optional =>
        obtain ⟨_, rfl⟩ := h1
        cases hl : ((es.filter (fun e => decide (e.tag = t))).map Entry.val).getLast? with
        | none => right; rfl
        | some x => left; exact hocc _ (by simpa using List.mem_of_getLast? hl)
    · intro en hen
      obtain ⟨hen, ht⟩ := List.mem_filter.mp hen
      obtain ⟨fe, hf⟩ := he en hen
      rw [VFieldEnc, if_neg (by simpa using ht)] at hf
      exact ⟨fe, hf⟩
theorem VAltEnc_shape {bld : Build} : ∀ (alts : VAlts) (tag : Int) (v : Val) (u : List UInt8),
    VAltEnc bld alts tag v u → VAltShape alts tag v
  | .nil, _, _, _, h => by simp [VAltEnc] at h
  | .cons t ty rest, tag, v, u, h => by
    simp only [VAltEnc] at h
    simp only [VAltShape]
    by_cases ht : tag = t
    · rw [if_pos ht] at h ⊢; exact VEnc_shape ty v u h
    · rw [if_neg ht] at h ⊢; exact VAltEnc_shape rest tag v u h
end

mutual
/-- `v` is a value of the Rust type generated for the bit-packed type `t`. [the types declared in /repo/src/versions/protocol87702/mod.rs] -/
def BShape : BTy → Val → Prop
  | .int _ _, v => ∃ x, v = .int x
  | .bool, v => ∃ b, v = .bool b
  | .null, v => v = .unit
  | .fourcc, v => ∃ bs, v = .bytes bs
  | .blob _, v => ∃ bs, v = .bytes bs
  | .aligned _, v => ∃ bs, v = .bytes bs
  | .bitsI64 _, v => ∃ x, v = .int x
  | .bitsVec _, v => ∃ bs, v = .bytes bs
  | .byteArr _, v => ∃ bs, v = .bytes bs
  | .arr _ t, v => ∃ vs, v = .list vs ∧ ∀ w ∈ vs, BShape t w
  | .opt t, v => v = .none ∨ ∃ w, v = .some w ∧ BShape t w
  | .optRewind t, v => v = .none ∨ ∃ w, v = .some w ∧ BShape t w
  | .struct fs, v => ∃ vs, v = .struct vs ∧ BFieldsShape fs vs
  | .choice _ alts, v => ∃ tag w, v = .choice tag w ∧ BAltShape alts tag w
/-- Field lists. [the structs declared in /repo/src/versions/protocol87702/mod.rs] -/
def BFieldsShape : BFields → List Val → Prop
  | .nil, vs => vs = []
  | .cons _ ty rest, vs => ∃ v vs', vs = v :: vs' ∧ BShape ty v ∧ BFieldsShape rest vs'
/-- Payload of variant `tag`. [the enums declared in /repo/src/versions/protocol87702/mod.rs] -/
def BAltShape : BAlts → Int → Val → Prop
  | .nil, _, _ => False
  | .cons t ty rest, tag, v => if tag = t then BShape ty v else BAltShape rest tag v
end

theorem SeqEnc_mem {α : Type} {R : Nat → α → List Bool → Prop} : ∀ (vs : List α) (off : Nat) (u : List Bool),
    SeqEnc R off vs u → ∀ v ∈ vs, ∃ o d, R o v d
  | [], _, _, _, v, hv => by simp at hv
  | w :: ws, off, u, h, v, hv => by
    obtain ⟨u1, u2, _, h1, h2⟩ := h
    rcases List.mem_cons.mp hv with rfl | hv
    · exact ⟨_, _, h1⟩
    · exact SeqEnc_mem ws _ _ h2 v hv

mutual
theorem BEnc_shape {bld : Build} : ∀ (t : BTy) (off : Nat) (v : Val) (u : List Bool),
    BEnc bld t off v u → BShape t v
  | .int k n, _, v, u, h => by obtain ⟨_, _, x, rfl, _⟩ := h; exact ⟨x, rfl⟩
  | .bool, _, v, u, h => by obtain ⟨b, rfl, _⟩ := h; exact ⟨_, rfl⟩
  | .null, _, v, u, h => h.1
  | .fourcc, _, v, u, h => by obtain ⟨b, _, rfl, _⟩ := h; exact ⟨_, rfl⟩
  | .blob _, _, v, u, h => by obtain ⟨_, _, bs, _, _, _, _, _, rfl⟩ := h; exact ⟨_, rfl⟩
  | .aligned _, _, v, u, h => by obtain ⟨_, bs, _, _, _, rfl⟩ := h; exact ⟨_, rfl⟩
  | .bitsI64 _, _, v, u, h => by obtain ⟨_, _, _, _, _, _, _, rfl⟩ := h; exact ⟨_, rfl⟩
  | .bitsVec _, _, v, u, h => by obtain ⟨_, _, _, _, _, _, rfl⟩ := h; exact ⟨_, rfl⟩
  | .byteArr _, _, v, u, h => by obtain ⟨_, bs, _, _, _, _, rfl⟩ := h; exact ⟨_, rfl⟩
  | .arr n t, off, v, u, h => by
    obtain ⟨l, d, vs, _, _, _, _, rfl, h⟩ := h
    refine ⟨vs, rfl, fun w hw => ?_⟩
    obtain ⟨o, d', h'⟩ := SeqEnc_mem vs _ _ h w hw
    exact BEnc_shape t o w d' h'
  | .opt t, off, v, u, h => by
    rcases h with ⟨rfl, _⟩ | ⟨w, d, rfl, _, h⟩
    · exact .inl rfl
    · exact .inr ⟨w, rfl, BEnc_shape t _ w d h⟩
  | .optRewind t, off, v, u, h => by
    rcases h with ⟨rfl, _⟩ | ⟨w, d, rfl, _, h⟩
    · exact .inl rfl
    · exact .inr ⟨w, rfl, BEnc_shape t _ w u h⟩
  | .struct fs, off, v, u, h => by
    obtain ⟨vs, rfl, h⟩ := h
    exact ⟨vs, rfl, BFieldsEnc_shape fs off vs u h⟩
  | .choice n alts, off, v, u, h => by
    obtain ⟨l, d, w, _, _, _, rfl, h⟩ := h
    exact ⟨_, w, rfl, BAltEnc_shape alts _ _ w d h⟩
theorem BFieldsEnc_shape {bld : Build} : ∀ (fs : BFields) (off : Nat) (vs : List Val) (u : List Bool),
    BFieldsEnc bld fs off vs u → BFieldsShape fs vs
  | .nil, _, _, _, h => h.1
  | .cons _ ty rest, off, vs, u, h => by
    obtain ⟨v, vs', u1, u2, rfl, _, h1, h2⟩ := h
    exact ⟨v, vs', rfl, BEnc_shape ty off v u1 h1, BFieldsEnc_shape rest _ vs' u2 h2⟩
theorem BAltEnc_shape {bld : Build} : ∀ (alts : BAlts) (tag : Int) (off : Nat) (v : Val) (u : List Bool),
    BAltEnc bld alts tag off v u → BAltShape alts tag v
  | .nil, _, _, _, _, h => by simp [BAltEnc] at h
  | .cons t ty rest, tag, off, v, u, h => by
    simp only [BAltEnc] at h
    simp only [BAltShape]
    by_cases ht : tag = t
    · rw [if_pos ht] at h ⊢; exact BEnc_shape ty off v u h
    · rw [if_neg ht] at h ⊢; exact BAltEnc_shape rest tag off v u h
end

end S2
