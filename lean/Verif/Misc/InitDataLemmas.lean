import Verif.Spec.InitDataSpec
import Verif.Misc.DetailsLemmas
import Verif.Schema.Ranged
/-! # Lemmas about the conversion of `replay.initData` -/
namespace S2

/-- `r` is `ok a` if `p` holds and the UTF-8 error otherwise. -/
def Utf8Is {α : Type} (p : Bool) (r : Res α) (a : α) : Prop := r = if p then .ok a else .err .utf8

theorem Utf8Is.fromUtf8 (b : List UInt8) : Utf8Is (utf8Ok b) (fromUtf8 b) b := by
  unfold Utf8Is S2.fromUtf8; split <;> simp

theorem Utf8Is.pure {α : Type} (a : α) : Utf8Is true (.ok a) a := by simp [Utf8Is]

theorem Utf8Is.bind {α β : Type} {p q : Bool} {r : Res α} {f : α → Res β} {a : α} {b : β} (h : Utf8Is p r a)
    (hf : Utf8Is q (f a) b) : Utf8Is (p && q) (r >>= f) b := by
  unfold Utf8Is at *; subst h; cases p <;> simp [hf]

theorem Utf8Is.bindOk {α β : Type} {q : Bool} {r : Res α} {f : α → Res β} {a : α} {b : β} (h : r = .ok a)
    (hf : Utf8Is q (f a) b) : Utf8Is q (r >>= f) b := by
  subst h; exact hf

theorem Utf8Is.ok {α : Type} {p : Bool} {r : Res α} {a b : α} (h : Utf8Is p r a) :
    r = .ok b ↔ b = a ∧ p = true := by
  unfold Utf8Is at h; subst h; cases p <;> simp [eq_comm]

theorem Utf8Is.cast {α : Type} {p q : Bool} {r : Res α} {a : α} (h : Utf8Is p r a) (e : p = q) : Utf8Is q r a :=
  e ▸ h

theorem asU_id {n : Nat} {x : Int} (h : 0 ≤ x ∧ x < 0 + 2 ^ n) : asU n x = x :=
  Int.emod_eq_of_lt h.1 (by simpa using h.2)

theorem asI32_id {x : Int} (h : -(2147483648) ≤ x ∧ x < -(2147483648) + 2 ^ 32) : asI32 x = x := by
  unfold asI32
  have h1 : -(2147483648) ≤ x := h.1
  have h2 : x < 2147483648 := by have := h.2; omega
  split <;> omega

theorem optIntVal_optInt (o : Option Int) : (optIntVal o).optInt = .ok o := optInt_ok.mpr rfl

/-- Map of a function that is the identity on the members. -/
theorem optMap_id {f : Int → Int} {o : Option Int} (h : ∀ x, o = some x → f x = x) : o.map f = o := by
  cases o <;> simp_all

theorem rng_opt {v : Val} {k : Int} {n : Nat} (h : BRng (.opt (.int k n)) v) :
    ∃ o, v = optIntVal o ∧ ∀ x, o = some x → -(2 ^ 32) ≤ k → k ≤ 2 ^ 32 → n ≤ 32 → k ≤ x ∧ x < k + 2 ^ n := by
  rcases h with rfl | ⟨w, rfl, ⟨x, rfl, hx⟩⟩
  · exact ⟨none, rfl, by simp⟩
  · exact ⟨some x, rfl, by rintro y h; cases h; exact hx⟩

theorem rng_optBlob {v : Val} {n : Nat} (h : BRng (.opt (.blob n)) v) : ∃ o, v = optBytesVal o := by
  rcases h with rfl | ⟨w, rfl, ⟨x, rfl⟩⟩
  · exact ⟨none, rfl⟩
  · exact ⟨some x, rfl⟩

theorem rng_optAligned {v : Val} {n : Nat} (h : BRng (.opt (.aligned n)) v) : ∃ o, v = optBytesVal o := by
  rcases h with rfl | ⟨w, rfl, ⟨x, rfl⟩⟩
  · exact ⟨none, rfl⟩
  · exact ⟨some x, rfl⟩

theorem optBytesVal_optBytes (o : Option (List UInt8)) : (optBytesVal o).optBytes = .ok o := by cases o <;> rfl

theorem rng_u32s {v : Val} {n : Nat} (h : BRng (.arr n (.int 0 32)) v) : ∃ xs, v = intsVal xs ∧ convU32s v = .ok xs := by
  obtain ⟨vs, rfl, h⟩ := h
  have key : ∃ xs : List Int, vs = xs.map Val.int ∧ Val.ints vs = .ok xs ∧ xs.map (asU 32) = xs := by
    induction vs with
    | nil => exact ⟨[], rfl, rfl, rfl⟩
    | cons v vs ih =>
      obtain ⟨x, rfl, hx⟩ := h v (by simp)
      obtain ⟨xs, h1, h2, h3⟩ := ih (fun w hw => h w (by simp [hw]))
      refine ⟨x :: xs, by simp [h1], by simp [Val.ints, h2], ?_⟩
      simp only [List.map_cons, h3, asU_id (hx (by decide) (by decide) (by decide))]
  obtain ⟨xs, rfl, h2, h3⟩ := key
  exact ⟨xs, rfl, by simp [convU32s, h2, h3]⟩

theorem convAll_spec {α : Type} {f : Val → Res α} {w : α → Val} {t : α → Bool} : ∀ {vs : List Val},
    (∀ v ∈ vs, ∃ a, v = w a ∧ Utf8Is (t a) (f v) a) →
    ∃ as, vs = as.map w ∧ Utf8Is (as.all t) (convAll f vs) as
  | [], _ => ⟨[], rfl, .pure _⟩
  | v :: vs, h => by
    obtain ⟨a, h1, h2⟩ := h v (by simp)
    obtain ⟨as, h3, h4⟩ := convAll_spec (vs := vs) (fun x hx => h x (by simp [hx]))
    refine ⟨a :: as, by simp [← h1, h3], ?_⟩
    simp only [convAll, List.all_cons]
    have := Utf8Is.bind h2 (f := fun a => convAll f vs >>= fun as => .ok (a :: as))
      (Utf8Is.bind h4 (f := fun as => .ok (a :: as)) (Utf8Is.pure (a :: as)))
    simpa only [Bool.and_true, Res.pure_eq] using this

theorem convOptText_spec (o : Option (List UInt8)) : Utf8Is (o.toList.all utf8Ok) (convOptText o) o := by
  cases o with
  | none => exact .pure _
  | some b =>
    have := Utf8Is.bind (Utf8Is.fromUtf8 b) (f := fun s => .ok (some s)) (Utf8Is.pure (some b))
    simpa [convOptText] using this

theorem convText_spec {n : Nat} {v : Val} (h : BRng (.blob n) v) : ∃ b, v = Val.bytes b ∧ Utf8Is (utf8Ok b) (convText v) b := by
  obtain ⟨b, rfl⟩ := h
  exact ⟨b, rfl, .fromUtf8 b⟩

/-- The alternatives `i, i+1, …, m-1`, all without payload. -/
def BAlts.nulls : Nat → Nat → BAlts → Bool
  | i, m, .nil => i == m
  | i, m, .cons t .null rest => t == (i : Int) && BAlts.nulls (i + 1) m rest
  | _, _, _ => false

theorem nulls_le : ∀ (r : BAlts) (j m : Nat), r.nulls j m = true → j ≤ m
  | .nil, j, m, h => by simp [BAlts.nulls] at h; omega
  | .cons t ty rest, j, m, h => by
    cases ty <;> simp only [BAlts.nulls, Bool.and_eq_true, Bool.false_eq_true] at h
    have := nulls_le rest _ m h.2
    omega

theorem nulls_spec : ∀ (alts : BAlts) (i m : Nat) (tag : Int) (w : Val), alts.nulls i m = true →
    BAltRng alts tag w → w = .unit ∧ (i : Int) ≤ tag ∧ tag < m
  | .nil, _, _, _, _, _, h => h.elim
  | .cons t ty rest, i, m, tag, w, hn, h => by
    cases ty <;> simp only [BAlts.nulls, Bool.and_eq_true, beq_iff_eq, Bool.false_eq_true] at hn
    obtain ⟨rfl, hn⟩ := hn
    simp only [BAltRng] at h
    have hm := nulls_le _ _ _ hn
    split at h
    · subst tag
      exact ⟨h, by omega, by omega⟩
    · have := nulls_spec rest (i + 1) m tag w hn h
      refine ⟨this.1, ?_, this.2.2⟩
      have := this.2.1
      omega

theorem convEnum_spec {n m : Nat} {alts : BAlts} {v : Val} (hn : alts.nulls 0 m = true) (h : BRng (.choice n alts) v) :
    ∃ t, v = .choice t .unit ∧ convEnum m v = .ok t := by
  obtain ⟨t, w, rfl, h⟩ := h
  obtain ⟨rfl, h1, h2⟩ := nulls_spec alts 0 m t w hn h
  exact ⟨t, rfl, by simp only [convEnum]; rw [if_pos ⟨by simpa using h1, h2⟩]⟩

theorem convUser_spec {v : Val} (h : BRng P87702.BitPacked.SUserInitialData v) :
    ∃ u, v = wireUser u ∧ Utf8Is (u.texts.all utf8Ok) (convUser v) u := by
  obtain ⟨vs, rfl, v0, _, rfl, ⟨x0, rfl⟩, v1, _, rfl, h1, v2, _, rfl, h2, v3, _, rfl, h3, v4, _, rfl, h4,
    v5, _, rfl, ⟨x5, rfl, h5⟩, v6, _, rfl, ⟨_, rfl, v6, _, rfl, h6, rfl⟩, v7, _, rfl, ⟨_, rfl, v7, _, rfl, h7, rfl⟩,
    v8, _, rfl, ⟨x8, rfl⟩, v9, _, rfl, ⟨x9, rfl⟩, v10, _, rfl, ⟨x10, rfl⟩, v11, _, rfl, ⟨x11, rfl⟩,
    v12, _, rfl, ⟨x12, rfl, h12⟩, v13, _, rfl, h13, v14, _, rfl, ⟨x14, rfl⟩, v15, _, rfl, ⟨x15, rfl⟩,
    v16, _, rfl, ⟨x16, rfl⟩, v17, _, rfl, ⟨x17, rfl⟩, v18, _, rfl, h18, rfl⟩ := h
  obtain ⟨o1, rfl⟩ := rng_optBlob h1
  obtain ⟨o2, rfl⟩ := rng_optAligned h2
  obtain ⟨o3, rfl, r3⟩ := rng_opt h3
  obtain ⟨o4, rfl, r4⟩ := rng_opt h4
  obtain ⟨o6, rfl, r6⟩ := rng_opt h6
  obtain ⟨o7, rfl, r7⟩ := rng_opt h7
  obtain ⟨o18, rfl, r18⟩ := rng_opt h18
  obtain ⟨e13, rfl, h13⟩ := convEnum_spec (m := 3) rfl h13
  refine ⟨⟨x0, o1, o2, o3, o4, x5, o6, o7, x8, x9, x10, x11, x12, e13, x14, x15, x16, x17, o18⟩, rfl, ?_⟩
  have m3 : o3.map (asU 8) = o3 := optMap_id fun x hx => asU_id (r3 x hx (by decide) (by decide) (by decide))
  have m4 : o4.map (asU 32) = o4 := optMap_id fun x hx => asU_id (r4 x hx (by decide) (by decide) (by decide))
  have m7 : o7.map (asU 8) = o7 := optMap_id fun x hx => asU_id (r7 x hx (by decide) (by decide) (by decide))
  have m18 : o18.map asI32 = o18 := optMap_id fun x hx => asI32_id (r18 x hx (by decide) (by decide) (by decide))
  have m5 := asU_id (h5 (by decide) (by decide) (by decide))
  have m12 := asU_id (h12 (by decide) (by decide) (by decide))
  simp only [convUser, convPref, optIntVal_optInt, optBytesVal_optBytes, h13, Res.bind_ok, m3, m4, m7, m18, m5, m12,
    UserInit.texts, List.all_cons, List.all_append, List.all_nil]
  exact Utf8Is.bind (.fromUtf8 _) <| .bind (convOptText_spec _) <| .bind (.fromUtf8 _) <| .bind (.fromUtf8 _) <|
    .bind (.fromUtf8 _) <| .bind (.fromUtf8 _) <| .pure _

theorem convOptions_spec {v : Val} (h : BRng P87702.BitPacked.GameSGameOptions v) :
    ∃ o, v = wireOptions o ∧ convOptions v = .ok o := by
  obtain ⟨vs, rfl, v0, _, rfl, ⟨x0, rfl⟩, v1, _, rfl, ⟨x1, rfl⟩, v2, _, rfl, ⟨x2, rfl⟩, v3, _, rfl, ⟨x3, rfl⟩,
    v4, _, rfl, ⟨x4, rfl⟩, v5, _, rfl, ⟨x5, rfl⟩, v6, _, rfl, ⟨x6, rfl⟩, v7, _, rfl, ⟨x7, rfl⟩, v8, _, rfl, ⟨x8, rfl⟩,
    v9, _, rfl, ⟨x9, rfl⟩, v10, _, rfl, ⟨x10, rfl⟩, v11, _, rfl, h11, v12, _, rfl, h12, v13, _, rfl, h13,
    v14, _, rfl, ⟨x14, rfl, _⟩, v15, _, rfl, ⟨x15, rfl⟩, rfl⟩ := h
  obtain ⟨e11, rfl, h11⟩ := convEnum_spec (m := 4) rfl h11
  obtain ⟨e12, rfl, h12⟩ := convEnum_spec (m := 4) rfl h12
  obtain ⟨e13, rfl, h13⟩ := convEnum_spec (m := 3) rfl h13
  refine ⟨⟨x0, x1, x2, x3, x4, x5, x6, x7, x8, x9, x10, e11, e12, e13, x14, x15⟩, rfl, ?_⟩
  simp only [convOptions, h11, h12, h13, Res.bind_ok, Res.pure_eq]

theorem convSlotDescription_spec {v : Val} (h : BRng P87702.BitPacked.GameSSlotDescription v) :
    ∃ s, v = wireSlotDescription s ∧ Utf8Is true (convSlotDescription v) s := by
  obtain ⟨vs, rfl, v0, _, rfl, ⟨x0, rfl⟩, v1, _, rfl, ⟨x1, rfl⟩, v2, _, rfl, ⟨x2, rfl⟩, v3, _, rfl, ⟨x3, rfl⟩,
    v4, _, rfl, ⟨x4, rfl⟩, v5, _, rfl, ⟨x5, rfl⟩, rfl⟩ := h
  exact ⟨⟨x0, x1, x2, x3, x4, x5⟩, rfl, .pure _⟩

theorem aligned_blobs {n : Nat} : ∀ {vs : List Val}, (∀ w ∈ vs, BRng (.aligned n) w) →
    ∃ bs : List (List UInt8), vs = bs.map Val.bytes
  | [], _ => ⟨[], rfl⟩
  | v :: vs, h => by
    obtain ⟨b, rfl⟩ := h v (by simp)
    obtain ⟨bs, rfl⟩ := aligned_blobs (vs := vs) (fun w hw => h w (by simp [hw]))
    exact ⟨b :: bs, rfl⟩

theorem all_true {α : Type} (l : List α) : (l.all fun _ => true) = true := by simp

theorem convDescription_spec {v : Val} (h : BRng P87702.BitPacked.GameSGameDescription v) :
    ∃ d hs, v = wireDescription d hs ∧ d.cacheHandles = hs.map hexText ∧
      Utf8Is ([d.gameCacheName, d.mapFileName, d.mapAuthorName].all utf8Ok) (convDescription v) d := by
  obtain ⟨vs, rfl, v0, _, rfl, ⟨x0, rfl, h0⟩, v1, _, rfl, ⟨x1, rfl⟩, v2, _, rfl, h2, v3, _, rfl, h3,
    v4, _, rfl, h4, v5, _, rfl, ⟨x5, rfl, _⟩, v6, _, rfl, ⟨x6, rfl, _⟩, v7, _, rfl, ⟨x7, rfl, _⟩,
    v8, _, rfl, ⟨x8, rfl, _⟩, v9, _, rfl, ⟨x9, rfl, _⟩, v10, _, rfl, ⟨x10, rfl, _⟩, v11, _, rfl, ⟨x11, rfl, _⟩,
    v12, _, rfl, ⟨x12, rfl, h12⟩, v13, _, rfl, ⟨x13, rfl, h13⟩, v14, _, rfl, ⟨x14, rfl, h14⟩, v15, _, rfl, ⟨x15, rfl⟩,
    v16, _, rfl, ⟨x16, rfl⟩, v17, _, rfl, ⟨x17, rfl, h17⟩, v18, _, rfl, ⟨x18, rfl, h18⟩, v19, _, rfl, ⟨x19, rfl, _⟩,
    v20, _, rfl, ⟨x20, rfl, _⟩, v21, _, rfl, ⟨x21, rfl, h21⟩, v22, _, rfl, ⟨x22, rfl⟩, v23, _, rfl, ⟨x23, rfl⟩,
    v24, _, rfl, ⟨x24, rfl⟩, v25, _, rfl, ⟨x25, rfl⟩, v26, _, rfl, ⟨x26, rfl⟩, v27, _, rfl, ⟨x27, rfl⟩, rfl⟩ := h
  obtain ⟨o2, rfl, h2⟩ := convOptions_spec h2
  obtain ⟨e3, rfl, h3⟩ := convEnum_spec (m := 5) rfl h3
  obtain ⟨e4, rfl, h4⟩ := convEnum_spec (m := 7) rfl h4
  obtain ⟨sds, rfl, h18⟩ := convAll_spec (w := wireSlotDescription) (t := fun _ => true)
    (fun v hv => convSlotDescription_spec (h18 v hv))
  obtain ⟨hs, rfl⟩ := aligned_blobs h21
  refine ⟨⟨x0, x1, o2, e3, e4, x5, x6, x7, x8, x9, x10, x11, x12, x13, x14, x15, x16, x17, sds, x19, x20,
    hs.map hexText, x22, x23, x24, x25, x26, x27⟩, hs, rfl, rfl, ?_⟩
  have m0 := asU_id (h0 (by decide) (by decide) (by decide))
  have m12 := asU_id (h12 (by decide) (by decide) (by decide))
  have m13 := asU_id (h13 (by decide) (by decide) (by decide))
  have m14 := asU_id (h14 (by decide) (by decide) (by decide))
  have m17 := asU_id (h17 (by decide) (by decide) (by decide))
  have hb : Val.blobs (hs.map Val.bytes) = .ok hs := blobs_ok.mpr rfl
  have h18 := h18
  rw [all_true] at h18
  simp only [Utf8Is, if_true] at h18
  simp only [convDescription, h2, h3, h4, h18, hb, m0, m12, m13, m14, m17, Res.bind_ok, List.all_cons, List.all_nil]
  exact Utf8Is.bind (.fromUtf8 _) <| .bind (.fromUtf8 _) <| .bind (.fromUtf8 _) <| .pure _

theorem convOverride_spec {v : Val} (h : BRng P87702.BitPacked.GameCRewardOverride v) :
    ∃ s, v = wireOverride s ∧ Utf8Is true (convOverride v) s := by
  obtain ⟨vs, rfl, v0, _, rfl, ⟨x0, rfl, h0⟩, v1, _, rfl, h1, rfl⟩ := h
  obtain ⟨xs, rfl, h1⟩ := rng_u32s h1
  refine ⟨⟨x0, xs⟩, rfl, ?_⟩
  simp only [convOverride, h1, asU_id (h0 (by decide) (by decide) (by decide)), Res.bind_ok]
  exact .pure _

theorem convSlot_spec {v : Val} (h : BRng P87702.BitPacked.GameSLobbySlot v) :
    ∃ s, v = wireSlot s ∧ Utf8Is (s.texts.all utf8Ok) (convSlot v) s := by
  obtain ⟨vs, rfl, v0, _, rfl, ⟨x0, rfl, _⟩, v1, _, rfl, h1, v2, _, rfl, ⟨x2, rfl, _⟩,
    v3, _, rfl, ⟨_, rfl, v3, _, rfl, h3, rfl⟩, v4, _, rfl, ⟨_, rfl, v4, _, rfl, h4, rfl⟩, v5, _, rfl, ⟨x5, rfl, _⟩,
    v6, _, rfl, ⟨x6, rfl, _⟩, v7, _, rfl, ⟨x7, rfl, h7⟩, v8, _, rfl, h8, v9, _, rfl, ⟨x9, rfl, h9⟩,
    v10, _, rfl, ⟨x10, rfl⟩, v11, _, rfl, ⟨x11, rfl⟩, v12, _, rfl, ⟨x12, rfl⟩, v13, _, rfl, ⟨x13, rfl, h13⟩,
    v14, _, rfl, h14, v15, _, rfl, h15, v16, _, rfl, ⟨x16, rfl⟩, v17, _, rfl, h17, v18, _, rfl, h18,
    v19, _, rfl, ⟨x19, rfl⟩, v20, _, rfl, ⟨x20, rfl, h20⟩, v21, _, rfl, ⟨x21, rfl⟩, v22, _, rfl, h22,
    v23, _, rfl, ⟨x23, rfl, h23⟩, v24, _, rfl, h24, v25, _, rfl, ⟨x25, rfl, h25⟩, v26, _, rfl, ⟨x26, rfl, h26⟩,
    v27, _, rfl, ⟨x27, rfl, h27⟩, v28, _, rfl, h28, v29, _, rfl, ⟨x29, rfl, h29⟩, v30, _, rfl, ⟨x30, rfl, h30⟩,
    v31, _, rfl, ⟨x31, rfl, h31⟩, rfl⟩ := h
  obtain ⟨o1, rfl, _⟩ := rng_opt h1
  obtain ⟨o3, rfl, _⟩ := rng_opt h3
  obtain ⟨o4, rfl, _⟩ := rng_opt h4
  obtain ⟨e8, rfl, h8⟩ := convEnum_spec (m := 3) rfl h8
  obtain ⟨arts, rfl, h13⟩ := convAll_spec (w := Val.bytes) (t := utf8Ok) (fun v hv => convText_spec (h13 v hv))
  obtain ⟨o14, rfl, r14⟩ := rng_opt h14
  obtain ⟨l15, rfl, h15⟩ := rng_u32s h15
  obtain ⟨l17, rfl, h17⟩ := rng_u32s h17
  obtain ⟨o18, rfl, _⟩ := rng_opt h18
  obtain ⟨o22, rfl, _⟩ := rng_opt h22
  obtain ⟨l24, rfl, h24⟩ := rng_u32s h24
  obtain ⟨ovs, rfl, h26⟩ := convAll_spec (w := wireOverride) (t := fun _ => true)
    (fun v hv => convOverride_spec (h26 v hv))
  obtain ⟨l28, rfl, h28⟩ := rng_u32s h28
  refine ⟨⟨x0, o1, x2, o3, o4, x5, x6, x7, e8, x9, x10, x11, x12, arts, o14, l15, x16, l17, o18, x19, x20, x21, o22,
    x23, l24, x25, ovs, x27, l28, x29, x30, x31⟩, rfl, ?_⟩
  have m7 := asU_id (h7 (by decide) (by decide) (by decide))
  have m9 := asU_id (h9 (by decide) (by decide) (by decide))
  have m14 : o14.map (asU 8) = o14 := optMap_id fun x hx => asU_id (r14 x hx (by decide) (by decide) (by decide))
  have m20 := asU_id (h20 (by decide) (by decide) (by decide))
  have m23 := asU_id (h23 (by decide) (by decide) (by decide))
  have m25 := asU_id (h25 (by decide) (by decide) (by decide))
  have m27 := asU_id (h27 (by decide) (by decide) (by decide))
  have m29 := asU_id (h29 (by decide) (by decide) (by decide))
  have m30 := asU_id (h30 (by decide) (by decide) (by decide))
  have m31 := asU_id (h31 (by decide) (by decide) (by decide))
  rw [all_true] at h26
  simp only [Utf8Is, if_true] at h26
  simp only [convSlot, convPref, optIntVal_optInt, h8, h15, h17, h24, h26, h28, m7, m9, m14, m20, m23, m25, m27, m29,
    m30, m31, Res.bind_ok, LobbySlot.texts, List.all_cons, List.all_append, List.all_nil, Bool.and_true, Bool.and_assoc]
  refine Utf8Is.cast (Utf8Is.bind (.fromUtf8 _) <| .bind (.fromUtf8 _) <| .bind (.fromUtf8 _) <| .bind h13 <|
    .bind (.fromUtf8 _) <| .bind (.fromUtf8 _) <| .pure _) ?_
  simp only [Bool.and_true]

theorem convLobby_spec {v : Val} (h : BRng P87702.BitPacked.GameSLobbyState v) :
    ∃ s, v = wireLobby s ∧ Utf8Is ((s.slots.flatMap LobbySlot.texts).all utf8Ok) (convLobby v) s := by
  obtain ⟨vs, rfl, v0, _, rfl, h0, v1, _, rfl, ⟨x1, rfl, _⟩, v2, _, rfl, ⟨x2, rfl, _⟩, v3, _, rfl, ⟨x3, rfl, h3⟩,
    v4, _, rfl, ⟨x4, rfl, h4⟩, v5, _, rfl, h5, v6, _, rfl, ⟨x6, rfl⟩, v7, _, rfl, ⟨x7, rfl, h7⟩,
    v8, _, rfl, ⟨x8, rfl, h8⟩, v9, _, rfl, ⟨x9, rfl, _⟩, v10, _, rfl, ⟨x10, rfl, _⟩, rfl⟩ := h
  obtain ⟨e0, rfl, h0⟩ := convEnum_spec (m := 6) rfl h0
  obtain ⟨slots, rfl, h3⟩ := convAll_spec (w := wireSlot) (t := fun s => s.texts.all utf8Ok)
    (fun v hv => convSlot_spec (h3 v hv))
  obtain ⟨o5, rfl, _⟩ := rng_opt h5
  refine ⟨⟨e0, x1, x2, slots, x4, o5, x6, x7, x8, x9, x10⟩, rfl, ?_⟩
  have m4 := asU_id (h4 (by decide) (by decide) (by decide))
  have m7 := asU_id (h7 (by decide) (by decide) (by decide))
  have m8 := asU_id (h8 (by decide) (by decide) (by decide))
  simp only [convLobby, h0, optIntVal_optInt, m4, m7, m8, Res.bind_ok, List.all_flatMap]
  exact Utf8Is.cast (Utf8Is.bind h3 <| .pure _) (by simp only [Bool.and_true])

theorem convInit_spec {v : Val} (h : BRng P87702.BitPacked.ReplaySInitData v) :
    ∃ d hs, v = wireInit d hs ∧ d.description.cacheHandles = hs.map hexText ∧
      Utf8Is (d.texts.all utf8Ok) (convInit v) d := by
  obtain ⟨vs, rfl, v0, _, rfl, ⟨_, rfl, w0, _, rfl, ⟨us, rfl, h0⟩, w1, _, rfl, h1, w2, _, rfl, h2, rfl⟩, rfl⟩ := h
  obtain ⟨users, rfl, h0⟩ := convAll_spec (w := wireUser) (t := fun s => s.texts.all utf8Ok)
    (fun v hv => convUser_spec (h0 v hv))
  obtain ⟨d, hs, rfl, hh, h1⟩ := convDescription_spec h1
  obtain ⟨l, rfl, h2⟩ := convLobby_spec h2
  refine ⟨⟨users, d, l⟩, hs, rfl, hh, ?_⟩
  refine Utf8Is.cast (Utf8Is.bind h0 <| .bind h1 <| .bind h2 <| .pure _) ?_
  simp only [Bool.and_true, LobbySync.texts, List.all_append, List.all_flatMap]

/-! ## Nothing is lost -/

@[simp] theorem optIntVal_inj {a b : Option Int} : optIntVal a = optIntVal b ↔ a = b := by
  cases a <;> cases b <;> simp [optIntVal]

@[simp] theorem optBytesVal_inj {a b : Option (List UInt8)} : optBytesVal a = optBytesVal b ↔ a = b := by
  cases a <;> cases b <;> simp [optBytesVal]

theorem map_inj {α β : Type} {f : α → β} (hf : ∀ a b, f a = f b → a = b) : ∀ {l m : List α}, l.map f = m.map f → l = m
  | [], [], _ => rfl
  | [], _ :: _, h => by simp at h
  | _ :: _, [], h => by simp at h
  | a :: l, b :: m, h => by
    simp only [List.map_cons, List.cons.injEq] at h
    rw [hf _ _ h.1, map_inj hf h.2]

@[simp] theorem intsVal_inj {a b : List Int} : intsVal a = intsVal b ↔ a = b := by
  constructor
  · intro h
    simp only [intsVal, Val.list.injEq] at h
    exact map_inj (by simp) h
  · rintro rfl; rfl

theorem wireUser_inj (a b : UserInit) (h : wireUser a = wireUser b) : a = b := by
  cases a; cases b; simpa [wireUser] using h

theorem wireOptions_inj (a b : GameOptions) (h : wireOptions a = wireOptions b) : a = b := by
  cases a; cases b; simpa [wireOptions] using h

theorem wireSlotDescription_inj (a b : SlotDescription) (h : wireSlotDescription a = wireSlotDescription b) : a = b := by
  cases a; cases b; simpa [wireSlotDescription] using h

theorem wireOverride_inj (a b : RewardOverride) (h : wireOverride a = wireOverride b) : a = b := by
  cases a; cases b; simpa [wireOverride] using h

theorem wireSlot_inj (a b : LobbySlot) (h : wireSlot a = wireSlot b) : a = b := by
  obtain ⟨⟩ := a; obtain ⟨⟩ := b
  simp only [wireSlot, Val.struct.injEq, List.cons.injEq, Val.int.injEq, optIntVal_inj, Val.choice.injEq, Val.bytes.injEq,
    Val.list.injEq, intsVal_inj, Val.bool.injEq, and_true] at h
  simp only [LobbySlot.mk.injEq]
  obtain ⟨h0, h1, h2, h3, h4, h5, h6, h7, h8, h9, h10, h11, h12, h13, h14, h15, h16, h17, h18, h19, h20, h21, h22, h23,
    h24, h25, h26, h27, h28, h29, h30, h31⟩ := h
  exact ⟨h0, h1, h2, h3, h4, h5, h6, h7, h8, h9, h10, h11, h12, map_inj (by simp) h13, h14, h15, h16, h17, h18, h19, h20,
    h21, h22, h23, h24, h25, map_inj wireOverride_inj h26, h27, h28, h29, h30, h31⟩

theorem wireDescription_inj {a b : GameDescription} {ha hb : List (List UInt8)} (ea : a.cacheHandles = ha.map hexText)
    (eb : b.cacheHandles = hb.map hexText) (h : wireDescription a ha = wireDescription b hb) : a = b := by
  obtain ⟨⟩ := a; obtain ⟨⟩ := b
  simp only [wireDescription, Val.struct.injEq, List.cons.injEq, Val.int.injEq, Val.choice.injEq, Val.bytes.injEq,
    Val.list.injEq, Val.bool.injEq, and_true] at h
  simp only [GameDescription.mk.injEq]
  obtain ⟨h0, h1, h2, h3, h4, h5, h6, h7, h8, h9, h10, h11, h12, h13, h14, h15, h16, h17, h18, h19, h20, h21, h22, h23,
    h24, h25, h26, h27⟩ := h
  have hh : ha = hb := map_inj (by simp) h21
  subst hh
  exact ⟨h0, h1, wireOptions_inj _ _ h2, h3, h4, h5, h6, h7, h8, h9, h10, h11, h12, h13, h14, h15, h16, h17,
    map_inj wireSlotDescription_inj h18, h19, h20, ea.trans eb.symm, h22, h23, h24, h25, h26, h27⟩

theorem wireLobby_inj (a b : LobbyState) (h : wireLobby a = wireLobby b) : a = b := by
  obtain ⟨⟩ := a; obtain ⟨⟩ := b
  simp only [wireLobby, Val.struct.injEq, List.cons.injEq, Val.int.injEq, Val.choice.injEq, optIntVal_inj,
    Val.list.injEq, Val.bool.injEq, and_true] at h
  simp only [LobbyState.mk.injEq]
  obtain ⟨h0, h1, h2, h3, h4, h5, h6, h7, h8, h9, h10⟩ := h
  exact ⟨h0, h1, h2, map_inj wireSlot_inj h3, h4, h5, h6, h7, h8, h9, h10⟩

theorem wireInit_inj {a b : LobbySync} {ha hb : List (List UInt8)} (h : wireInit a ha = wireInit b hb)
    (ea : a.description.cacheHandles = ha.map hexText) (eb : b.description.cacheHandles = hb.map hexText) : a = b := by
  obtain ⟨⟩ := a; obtain ⟨⟩ := b
  simp only [wireInit, Val.struct.injEq, List.cons.injEq, Val.list.injEq, and_true] at h
  simp only [LobbySync.mk.injEq]
  exact ⟨map_inj wireUser_inj h.1, wireDescription_inj ea eb h.2.1, wireLobby_inj _ _ h.2.2⟩

end S2
