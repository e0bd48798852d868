import Verif.Schema.ByteAlignedSafe
import Verif.Schema.ByteAlignedRoundTrip
/-! # Decoding of versioned structs given as lists of entries -/
namespace S2

theorem VlqEnc_det {bld : Build} {x x' : Int} {u u' r r' : List UInt8} (h : VlqEnc bld x u)
    (h' : VlqEnc bld x' u') (e : u ++ r = u' ++ r') : x = x' ∧ r = r' := by
  have h1 := (parseVlq_iff bld (u ++ r) r x).2 ⟨u, rfl, h⟩
  have h2 := (parseVlq_iff bld (u ++ r) r' x').2 ⟨u', e, h'⟩
  rw [h1] at h2
  simp only [Res.ok.injEq, Prod.mk.injEq] at h2
  exact ⟨h2.2, h2.1⟩

theorem VEnc_det {bld : Build} {t : VTy} {v v' : Val} {u u' r r' : List UInt8} (h : VEnc bld t v u)
    (h' : VEnc bld t v' u') (e : u ++ r = u' ++ r') : v = v' ∧ r = r' := by
  have h1 := (vparse_iff bld t (u ++ r) r v).2 ⟨u, rfl, h⟩
  have h2 := (vparse_iff bld t (u ++ r) r' v').2 ⟨u', e, h'⟩
  rw [h1] at h2
  simp only [Res.ok.injEq, Prod.mk.injEq] at h2
  exact ⟨h2.2, h2.1⟩

theorem VFieldEnc_det {bld : Build} : ∀ {fs : VFields} {tag : Int} {v v' : Val} {u u' r r' : List UInt8},
    VFieldEnc bld fs tag v u → VFieldEnc bld fs tag v' u' → u ++ r = u' ++ r' → v = v' ∧ r = r'
  | .nil, _, _, _, _, _, _, _, h, _, _ => by simp [VFieldEnc] at h
  | .cons t _ _ _ ty rest, tag, v, v', u, u', r, r', h, h', e => by
    simp only [VFieldEnc] at h h'
    split at h
    · rename_i ht; rw [if_pos ht] at h'; exact VEnc_det h h' e
    · rename_i ht; rw [if_neg ht] at h'; exact VFieldEnc_det h h' e

/-- A struct entry: its field tag followed by a wire form of a value of that field's type. [proof device, no counterpart in /repo] -/
def EntryWf (bld : Build) (fs : VFields) (en : Entry) : Prop :=
  ∃ te fe, en.bytes = te ++ fe ∧ VlqEnc bld en.tag te ∧ VFieldEnc bld fs en.tag en.val fe

theorem entries_det {bld : Build} {fs : VFields} : ∀ {es es' : List Entry} {r r' : List UInt8},
    (∀ en ∈ es, EntryWf bld fs en) → (∀ en ∈ es', EntryWf bld fs en) → es.length = es'.length →
    es.flatMap Entry.bytes ++ r = es'.flatMap Entry.bytes ++ r' →
    es.map (fun e => (e.tag, e.val)) = es'.map (fun e => (e.tag, e.val)) ∧ r = r'
  | [], [], r, r', _, _, _, e => by simpa using e
  | [], _ :: _, _, _, _, _, hl, _ => by simp at hl
  | _ :: _, [], _, _, _, _, hl, _ => by simp at hl
  | a :: es, b :: es', r, r', h, h', hl, e => by
    obtain ⟨te, fe, h1, h2, h3⟩ := h a (by simp)
    obtain ⟨te', fe', h1', h2', h3'⟩ := h' b (by simp)
    simp only [List.flatMap_cons, h1, h1', List.append_assoc] at e
    obtain ⟨ht, e⟩ := VlqEnc_det h2 h2' e
    rw [← ht] at h3'
    obtain ⟨hv, e⟩ := VFieldEnc_det h3 h3' e
    obtain ⟨ih, er⟩ := entries_det (fun en hen => h en (by simp [hen])) (fun en hen => h' en (by simp [hen]))
      (by simpa using hl) e
    exact ⟨by simp [ht, hv, ih], er⟩

/-- `StructVals` only looks at tags and values. -/
theorem StructVals_congr : ∀ (fs : VFields) (es es' : List Entry) (vs : List Val),
    es.map (fun e => (e.tag, e.val)) = es'.map (fun e => (e.tag, e.val)) →
    StructVals fs es vs → StructVals fs es' vs
  | .nil, es, es', vs, h, hs => by
    obtain ⟨rfl, rfl⟩ := hs
    cases es' with
    | nil => exact ⟨rfl, rfl⟩
    | cons _ _ => simp at h
  | .cons t _ _ kind ty rest, es, es', vs, h, hs => by
    obtain ⟨v, vs', rfl, h1, h2⟩ := hs
    have key : ∀ (p : Int → Bool) (l l' : List Entry),
        l.map (fun e => (e.tag, e.val)) = l'.map (fun e => (e.tag, e.val)) →
        (l.filter (fun e => p e.tag)).map (fun e => (e.tag, e.val)) =
          (l'.filter (fun e => p e.tag)).map (fun e => (e.tag, e.val)) := by
      intro p l
      induction l with
      | nil => intro l' h; cases l' with
        | nil => rfl
        | cons _ _ => simp at h
      | cons a l ih =>
        intro l' h
        cases l' with
        | nil => simp at h
        | cons b l' =>
          simp only [List.map_cons, List.cons.injEq, Prod.mk.injEq] at h
          obtain ⟨⟨ht, hv⟩, h⟩ := h
          have ih := ih l' h
          by_cases hp : p a.tag = true
          · rw [List.filter_cons_of_pos (by simpa using hp), List.filter_cons_of_pos (by rw [← ht]; exact hp)]
            simp [ht, hv, ih]
          · rw [List.filter_cons_of_neg (by simpa using hp), List.filter_cons_of_neg (by rw [← ht]; simpa using hp)]
            exact ih
    refine ⟨v, vs', rfl, ?_, ?_⟩
    · have := congrArg (List.map Prod.snd) (key (fun x => decide (x = t)) es es' h)
      simp only [List.map_map] at this
      rw [show (Entry.val : Entry → Val) = Prod.snd ∘ (fun e : Entry => (e.tag, e.val)) from rfl] at h1 ⊢
      rw [← this]; exact h1
    · exact StructVals_congr rest _ _ vs' (key (fun x => decide (x ≠ t)) es es' h) h2

/-- Wire bytes of a struct with the given entries: struct tag, number of entries, entries. [proof device, no counterpart in /repo] -/
def structBytes (es : List Entry) : List UInt8 :=
  5 :: (encVlq es.length ++ es.flatMap Entry.bytes)

theorem struct_decodes_iff (bld : Build) (fs : VFields) (es : List Entry) (tail : List UInt8) (v : Val)
    (hw : ∀ en ∈ es, EntryWf bld fs en) (hl : es.length < 2 ^ 63) (tail' : List UInt8) :
    vparse bld (.struct fs) (structBytes es ++ tail) = .ok (tail', v) ↔
      tail' = tail ∧ ∃ vs, v = .struct vs ∧ StructVals fs es vs := by
  rw [vparse_iff]
  have hn := encVlq_enc bld es.length (vlqable_natCast hl)
  constructor
  · rintro ⟨u, hu, n, e, vs, es', h1, h2, rfl, rfl, h3, h4⟩
    simp only [structBytes, List.cons_append, List.append_assoc, List.cons.injEq] at hu
    obtain ⟨_, hu⟩ := hu
    obtain ⟨hx, hu⟩ := VlqEnc_det hn h1 hu
    rw [← hx, asUsize_natCast hl] at h2
    obtain ⟨h5, h6⟩ := entries_det hw h3 h2 hu
    exact ⟨h6.symm, vs, rfl, StructVals_congr fs _ _ vs h5.symm h4⟩
  · rintro ⟨rfl, vs, rfl, h⟩
    exact ⟨structBytes es, rfl, es.length, _, vs, es, hn, asUsize_natCast hl, rfl, rfl, hw, h⟩

/-! ## Consequences of `StructVals` -/

/-- Kind of the field with the given tag. [proof device, no counterpart in /repo] -/
def VFields.kindOf : VFields → Int → Option FKind
  | .nil, _ => none
  | .cons t _ _ kind _ rest, tag => if tag = t then some kind else rest.kindOf tag

/-- Value of the field with the given tag in a decoded struct. [proof device, no counterpart in /repo] -/
def VFields.valueOf : VFields → List Val → Int → Option Val
  | .cons t _ _ _ _ rest, v :: vs, tag => if tag = t then some v else rest.valueOf vs tag
  | _, _, _ => none

theorem filter_ne_eq (es : List Entry) {t t' : Int} (h : t' ≠ t) :
    (es.filter (fun e => decide (e.tag ≠ t))).filter (fun e => decide (e.tag = t')) =
      es.filter (fun e => decide (e.tag = t')) := by
  rw [List.filter_filter]
  congr 1
  funext e
  by_cases h1 : e.tag = t'
  · simp [h1, h]
  · simp [h1]

/-- Each field's value is the result of the occurrences of its own tag. -/
theorem StructVals_field : ∀ (fs : VFields) (es : List Entry) (vs : List Val) (tag : Int) (k : FKind),
    StructVals fs es vs → fs.kindOf tag = some k →
    ∃ v, fs.valueOf vs tag = some v ∧
      FieldResult k ((es.filter (fun e => decide (e.tag = tag))).map Entry.val) v
  | .nil, _, _, _, _, _, hk => by simp [VFields.kindOf] at hk
  | .cons t _ _ kind ty rest, es, vs, tag, k, hs, hk => by
    obtain ⟨v, vs', rfl, h1, h2⟩ := hs
    simp only [VFields.kindOf] at hk
    split at hk
    · rename_i ht
      subst ht
      simp only [Option.some.injEq] at hk
      subst hk
      exact ⟨v, by simp [VFields.valueOf], h1⟩
    · rename_i ht
      obtain ⟨w, h3, h4⟩ := StructVals_field rest _ vs' tag k h2 hk
      rw [filter_ne_eq es ht] at h4
      exact ⟨w, by simp [VFields.valueOf, ht, h3], h4⟩

theorem StructVals_known : ∀ (fs : VFields) (es : List Entry) (vs : List Val), StructVals fs es vs →
    ∀ e ∈ es, e.tag ∈ fs.tags
  | .nil, es, vs, h, e, he => by obtain ⟨rfl, _⟩ := h; simp at he
  | .cons t _ _ kind ty rest, es, vs, h, e, he => by
    obtain ⟨v, vs', rfl, h1, h2⟩ := h
    by_cases ht : e.tag = t
    · simp [VFields.tags, ht]
    · have := StructVals_known rest _ vs' h2 e (List.mem_filter.mpr ⟨he, by simpa using ht⟩)
      simp [VFields.tags, this]

theorem VFieldEnc_known {bld : Build} : ∀ {fs : VFields} {tag : Int} {v : Val} {u : List UInt8},
    VFieldEnc bld fs tag v u → tag ∈ fs.tags
  | .nil, _, _, _, h => by simp [VFieldEnc] at h
  | .cons t _ _ _ ty rest, tag, v, u, h => by
    simp only [VFieldEnc] at h
    split at h
    · rename_i ht; simp [VFields.tags, ht]
    · simp [VFields.tags, VFieldEnc_known h]

/-- Adding an explicit `None` for an optional field that does not occur changes nothing. -/
theorem StructVals_add_none : ∀ (fs : VFields) (es : List Entry) (vs : List Val) (en : Entry),
    StructVals fs es vs → fs.kindOf en.tag = some .optional → (∀ e ∈ es, e.tag ≠ en.tag) → en.val = .none →
    StructVals fs (en :: es) vs
  | .nil, _, _, _, _, hk, _, _ => by simp [VFields.kindOf] at hk
  | .cons t _ _ kind ty rest, es, vs, en, hs, hk, hno, hv => by
    obtain ⟨v, vs', rfl, h1, h2⟩ := hs
    simp only [VFields.kindOf] at hk
    split at hk
    · rename_i ht
      simp only [Option.some.injEq] at hk
      subst hk ht
      have h0 : es.filter (fun e => decide (e.tag = en.tag)) = [] := by
        rw [List.filter_eq_nil_iff]; intro e he; simpa using hno e he
      refine ⟨v, vs', rfl, ?_, ?_⟩
      · rw [h0] at h1
        rw [List.filter_cons_of_pos (by simp), h0]
        simp [FieldResult] at h1 ⊢
        rw [h1, hv]
      · rw [List.filter_cons_of_neg (by simp)]; exact h2
    · rename_i ht
      refine ⟨v, vs', rfl, ?_, ?_⟩
      · rw [List.filter_cons_of_neg (by simpa using ht)]; exact h1
      · rw [List.filter_cons_of_pos (by simpa using ht)]
        refine StructVals_add_none rest _ vs' en h2 hk ?_ hv
        intro e he; exact hno e (List.mem_filter.mp he).1

/-! ## Which error -/

theorem vfield_run {bld : Build} : ∀ (fs : VFields) (tag : Int) (v : Val) (u r : List UInt8)
    (ss : List (Option Val)), VFieldEnc bld fs tag v u → ss.length = fs.len →
    (∃ ss', slotSet fs tag ss v = some ss' ∧ vfield bld fs tag ss (u ++ r) = .ok (r, ss')) ∨
    (slotSet fs tag ss v = none ∧ ∃ n d, vfield bld fs tag ss (u ++ r) = .err (.duplicateTag n d))
  | .nil, _, _, _, _, _, h, _ => by simp [VFieldEnc] at h
  | .cons t name dup kind ty rest, tag, v, u, r, [], h, hl => by simp [VFields.len] at hl
  | .cons t name dup kind ty rest, tag, v, u, r, s :: ss, h, hl => by
    simp only [VFieldEnc] at h
    by_cases ht : tag = t
    · rw [if_pos ht] at h
      have hp := (vparse_iff bld ty (u ++ r) r v).2 ⟨u, rfl, h⟩
      by_cases hv : vacant kind s = true
      · left
        refine ⟨some v :: ss, ?_, ?_⟩
        · simp [slotSet, ht, hv]
        · simp [vfield, ht, hv, hp]
      · right
        refine ⟨?_, name, dup, ?_⟩
        · simp [slotSet, ht, hv]
        · simp [vfield, ht, hv]
    · rw [if_neg ht] at h
      rcases vfield_run rest tag v u r ss h (by simpa [VFields.len] using hl) with ⟨ss', h1, h2⟩ | ⟨h1, n, d, h2⟩
      · left; exact ⟨s :: ss', by simp [slotSet, ht, h1], by simp [vfield, ht, h2]⟩
      · right; exact ⟨by simp [slotSet, ht, h1], n, d, by simp [vfield, ht, h2]⟩

theorem iterN_run {bld : Build} {fs : VFields} : ∀ (es : List Entry) (ss : List (Option Val)) (r : List UInt8),
    (∀ en ∈ es, EntryWf bld fs en) → ss.length = fs.len →
    (∃ ss', foldO (fun ss e => slotSet fs e.tag ss e.val) ss es = some ss' ∧
      iterN (fun s i => do let (i, tag) ← parseVlq bld i; vfield bld fs tag s i) es.length ss
        (es.flatMap Entry.bytes ++ r) = .ok (r, ss')) ∨
    (foldO (fun ss e => slotSet fs e.tag ss e.val) ss es = none ∧ ∃ n d,
      iterN (fun s i => do let (i, tag) ← parseVlq bld i; vfield bld fs tag s i) es.length ss
        (es.flatMap Entry.bytes ++ r) = .err (.duplicateTag n d))
  | [], ss, r, _, _ => by left; exact ⟨ss, rfl, rfl⟩
  | a :: es, ss, r, hw, hl => by
    obtain ⟨te, fe, h1, h2, h3⟩ := hw a (by simp)
    have hp := (parseVlq_iff bld (te ++ (fe ++ (es.flatMap Entry.bytes ++ r))) _ a.tag).2 ⟨te, rfl, h2⟩
    have hb : (a :: es).flatMap Entry.bytes ++ r = te ++ (fe ++ (es.flatMap Entry.bytes ++ r)) := by
      simp [h1]
    rw [hb, List.length_cons, iterN]
    simp only [hp, Res.bind_ok]
    rcases vfield_run fs a.tag a.val fe (es.flatMap Entry.bytes ++ r) ss h3 hl with ⟨ss', h4, h5⟩ | ⟨h4, n, d, h5⟩
    · simp only [h5, Res.bind_ok, foldO, h4]
      exact iterN_run es ss' r (fun en he => hw en (by simp [he])) (by rw [slotSet_length _ _ _ _ _ h4, hl])
    · right
      simp only [h5, Res.bind_err, foldO, h4]
      exact ⟨trivial, n, d, rfl⟩

theorem finishSlots_err : ∀ (fs : VFields) (ss : List (Option Val)), ss.length = fs.len →
    (∃ vs, finishSlots fs ss = .ok vs) ∨ ∃ n, finishSlots fs ss = .err (.missingField n)
  | .nil, ss, _ => by left; exact ⟨[], by simp [finishSlots]⟩
  | .cons t name dup kind ty rest, [], h => by simp [VFields.len] at h
  | .cons t name dup kind ty rest, s :: ss, h => by
    rcases finishSlots_err rest ss (by simpa [VFields.len] using h) with ⟨vs, h1⟩ | ⟨n, h1⟩
    · cases s with
      | some v => left; exact ⟨v :: vs, by simp [finishSlots, h1]⟩
      | none =>
        cases kind with
        | dflt d => left; exact ⟨d :: vs, by simp [finishSlots, h1]⟩
        | mandatory => right; exact ⟨name, by simp [finishSlots]⟩
        | optional => right; exact ⟨name, by simp [finishSlots]⟩
    · right
      cases s with
      | some v => exact ⟨n, by simp [finishSlots, h1]⟩
      | none =>
        cases kind with
        | dflt d => exact ⟨n, by simp [finishSlots, h1]⟩
        | mandatory => exact ⟨name, by simp [finishSlots]⟩
        | optional => exact ⟨name, by simp [finishSlots]⟩

/-- The accumulators of a field that occurs twice. -/
theorem foldO_slot1_dup (kind : FKind) (hk : kind ≠ .optional) (occ : List Val) (h : 2 ≤ occ.length) :
    foldO (slot1 kind) (init1 kind) occ = none := by
  match occ, h with
  | a :: b :: occ, _ => cases kind <;> simp_all [foldO, slot1, init1, vacant]

theorem foldO_none_dup : ∀ (fs : VFields) (es : List Entry) (tag : Int) (k : FKind),
    fs.kindOf tag = some k → k ≠ .optional →
    2 ≤ (es.filter (fun e => decide (e.tag = tag))).length →
    foldO (fun ss e => slotSet fs e.tag ss e.val) (initSlots fs) es = none
  | .nil, _, _, _, hk, _, _ => by simp [VFields.kindOf] at hk
  | .cons t name dup kind ty rest, es, tag, k, hk, ho, hd => by
    simp only [VFields.kindOf] at hk
    cases hf : foldO (fun ss e => slotSet (.cons t name dup kind ty rest) e.tag ss e.val)
        (initSlots (.cons t name dup kind ty rest)) es with
    | none => rfl
    | some r =>
      exfalso
      rw [initSlots_cons, foldO_slotSet_cons] at hf
      obtain ⟨s', ss', rfl, h1, h2⟩ := hf
      split at hk
      · rename_i ht
        subst ht
        simp only [Option.some.injEq] at hk
        subst hk
        rw [foldO_slot1_dup kind ho _ (by simpa using hd)] at h1
        simp at h1
      · rename_i ht
        have := foldO_none_dup rest (es.filter (fun e => decide (e.tag ≠ t))) tag k hk ho (by
          rw [filter_ne_eq es ht]; exact hd)
        rw [this] at h2
        simp at h2

theorem struct_run (bld : Build) (fs : VFields) (es : List Entry) (tail : List UInt8)
    (hl : es.length < 2 ^ 63) :
    vparse bld (.struct fs) (structBytes es ++ tail) =
      (iterN (fun s i => do let (i, tag) ← parseVlq bld i; vfield bld fs tag s i) es.length (initSlots fs)
        (es.flatMap Entry.bytes ++ tail) >>= fun p => finishSlots fs p.2 >>= fun vs => .ok (p.1, .struct vs)) := by
  have hn := (parseVlq_iff bld (encVlq es.length ++ (es.flatMap Entry.bytes ++ tail)) _ _).2
    ⟨_, rfl, encVlq_enc bld es.length (vlqable_natCast hl)⟩
  simp only [vparse, structBytes]
  rw [show tagByte STRUCT_TAG ((5 :: (encVlq ↑es.length ++ List.flatMap Entry.bytes es)) ++ tail) =
    .ok (encVlq ↑es.length ++ (List.flatMap Entry.bytes es ++ tail), ()) by
      simp [tagByte, STRUCT_TAG]]
  simp only [Res.bind_ok, hn, asUsize_natCast hl]
  rfl

end S2
