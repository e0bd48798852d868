import Verif.VlqLemmas
import Verif.Spec.ByteAlignedSpec
/-! # Helper lemmas: byte-aligned parsers against the wire grammar -/
namespace S2

theorem tagByte_ok {t : UInt8} {i tail : List UInt8} {u : Unit} :
    tagByte t i = .ok (tail, u) ↔ i = t :: tail := by
  cases i with
  | nil => simp [tagByte]
  | cons b bs =>
    simp only [tagByte]
    split
    · rename_i h; subst h; simp
    · rename_i h; simp [h]

theorem takeBytes_ok {n : Nat} {i tail bs : List UInt8} :
    takeBytes n i = .ok (tail, bs) ↔ i = bs ++ tail ∧ bs.length = n := by
  unfold takeBytes
  split
  · rename_i h
    simp
    rintro rfl h2
    simp at h; omega
  · rename_i h
    simp only [Res.ok.injEq, Prod.mk.injEq]
    constructor
    · rintro ⟨rfl, rfl⟩; simp; omega
    · rintro ⟨rfl, rfl⟩; simp

theorem takeU8_ok {i tail : List UInt8} {b : UInt8} :
    takeU8 i = .ok (tail, b) ↔ i = b :: tail := by
  cases i with
  | nil => simp [takeU8]
  | cons c bs => simp [takeU8]; exact And.comm

theorem tryFrom_ok {k : IntKind} {x y : Int} : tryFrom k x = .ok y ↔ y = x ∧ k.inRange x := by
  unfold tryFrom
  split
  · rename_i h; simp [h, eq_comm]
  · rename_i h; simp [h]

theorem taggedVlq_ok {bld : Build} {i tail : List UInt8} {x : Int} :
    taggedVlq bld i = .ok (tail, x) ↔ ∃ e, i = INT_TAG :: (e ++ tail) ∧ VlqEnc bld x e := by
  unfold taggedVlq
  rw [Res.bind_eq_ok]
  constructor
  · rintro ⟨⟨t, u⟩, h1, h2⟩
    rw [tagByte_ok] at h1
    rw [parseVlq_iff] at h2
    obtain ⟨e, rfl, he⟩ := h2
    exact ⟨e, h1, he⟩
  · rintro ⟨e, rfl, he⟩
    exact ⟨(e ++ tail, ()), tagByte_ok.mpr rfl, (parseVlq_iff _ _ _ _).mpr ⟨e, rfl, he⟩⟩

theorem taggedBlob_ok {bld : Build} {i tail bs : List UInt8} :
    taggedBlob bld i = .ok (tail, bs) ↔
      ∃ n e, i = BLOB_TAG :: (e ++ (bs ++ tail)) ∧ VlqEnc bld n e ∧ asUsize n = bs.length := by
  unfold taggedBlob
  simp only [Res.bind_eq_ok]
  constructor
  · rintro ⟨⟨t, u⟩, h1, ⟨t2, n⟩, h2, h3⟩
    rw [tagByte_ok] at h1
    rw [parseVlq_iff] at h2
    rw [takeBytes_ok] at h3
    obtain ⟨e, rfl, he⟩ := h2
    obtain ⟨rfl, h3⟩ := h3
    exact ⟨n, e, h1, he, h3.symm⟩
  · rintro ⟨n, e, rfl, he, hn⟩
    exact ⟨(e ++ (bs ++ tail), ()), tagByte_ok.mpr rfl, (bs ++ tail, n),
      (parseVlq_iff _ _ _ _).mpr ⟨e, rfl, he⟩, takeBytes_ok.mpr ⟨rfl, hn.symm⟩⟩

theorem taggedBitarray_ok {bld : Build} {i tail bs : List UInt8} :
    taggedBitarray bld i = .ok (tail, bs) ↔
      ∃ n e, i = BIT_ARRAY_TAG :: (e ++ (bs ++ tail)) ∧ VlqEnc bld n e ∧
        (asUsize n + 7) / 8 = bs.length := by
  unfold taggedBitarray
  simp only [Res.bind_eq_ok]
  constructor
  · rintro ⟨⟨t, u⟩, h1, ⟨t2, n⟩, h2, h3⟩
    rw [tagByte_ok] at h1
    rw [parseVlq_iff] at h2
    rw [takeBytes_ok] at h3
    obtain ⟨e, rfl, he⟩ := h2
    obtain ⟨rfl, h3⟩ := h3
    exact ⟨n, e, h1, he, h3.symm⟩
  · rintro ⟨n, e, rfl, he, hn⟩
    exact ⟨(e ++ (bs ++ tail), ()), tagByte_ok.mpr rfl, (bs ++ tail, n),
      (parseVlq_iff _ _ _ _).mpr ⟨e, rfl, he⟩, takeBytes_ok.mpr ⟨rfl, hn.symm⟩⟩

theorem taggedBool_ok {i tail : List UInt8} {b : Bool} :
    taggedBool i = .ok (tail, b) ↔ ∃ x : UInt8, i = BOOL_TAG :: x :: tail ∧ b = (x != 0) := by
  unfold taggedBool
  simp only [Res.bind_eq_ok]
  constructor
  · rintro ⟨⟨t, u⟩, h1, ⟨t2, x⟩, h2, h3⟩
    rw [tagByte_ok] at h1
    rw [takeU8_ok] at h2
    simp only [Res.pure_eq, Res.ok.injEq, Prod.mk.injEq] at h3
    obtain ⟨rfl, rfl⟩ := h3
    subst h2
    exact ⟨x, h1, rfl⟩
  · rintro ⟨x, rfl, rfl⟩
    exact ⟨(x :: tail, ()), tagByte_ok.mpr rfl, (tail, x), takeU8_ok.mpr rfl, rfl⟩

theorem taggedFourcc_ok {i tail : List UInt8} {x : Nat} :
    taggedFourcc i = .ok (tail, x) ↔ ∃ bs, i = FOURCC_TAG :: (bs ++ tail) ∧ bs.length = 4 ∧ x = beNat bs := by
  unfold taggedFourcc
  simp only [Res.bind_eq_ok]
  constructor
  · rintro ⟨⟨t, u⟩, h1, ⟨t2, bs⟩, h2, h3⟩
    rw [tagByte_ok] at h1
    rw [takeBytes_ok] at h2
    simp only [Res.pure_eq, Res.ok.injEq, Prod.mk.injEq] at h3
    obtain ⟨rfl, rfl⟩ := h3
    obtain ⟨rfl, h2⟩ := h2
    exact ⟨bs, h1, h2, rfl⟩
  · rintro ⟨bs, rfl, hl, rfl⟩
    exact ⟨(bs ++ tail, ()), tagByte_ok.mpr rfl, (tail, bs), takeBytes_ok.mpr ⟨rfl, hl⟩, rfl⟩

/-- Lifting an element characterisation to `repeatN`. -/
theorem repeatN_ok {α : Type} (f : List UInt8 → Res (List UInt8 × α)) (R : α → List UInt8 → Prop)
    (hf : ∀ i tail a, f i = .ok (tail, a) ↔ ∃ u, i = u ++ tail ∧ R a u) (n : Nat) :
    ∀ i tail as, repeatN f n i = .ok (tail, as) ↔
      ∃ items : List (α × List UInt8), items.length = n ∧ as = items.map Prod.fst ∧
        i = items.flatMap Prod.snd ++ tail ∧ ∀ it ∈ items, R it.1 it.2 := by
  induction n with
  | zero =>
    intro i tail as
    simp only [repeatN, Res.ok.injEq, Prod.mk.injEq]
    constructor
    · rintro ⟨rfl, rfl⟩; exact ⟨[], by simp⟩
    · rintro ⟨items, hl, rfl, rfl, _⟩
      have := List.length_eq_zero_iff.mp hl
      subst this; simp
  | succ n ih =>
    intro i tail as
    simp only [repeatN, Res.bind_eq_ok]
    constructor
    · rintro ⟨⟨i1, a⟩, h1, ⟨i2, as'⟩, h2, h3⟩
      rw [hf] at h1
      rw [ih] at h2
      simp only [Res.pure_eq, Res.ok.injEq, Prod.mk.injEq] at h3
      obtain ⟨rfl, rfl⟩ := h3
      obtain ⟨u, rfl, hu⟩ := h1
      obtain ⟨items, hl, rfl, rfl, hr⟩ := h2
      refine ⟨(a, u) :: items, by simp [hl], by simp, by simp, ?_⟩
      intro it hit
      rcases List.mem_cons.mp hit with rfl | hit
      · exact hu
      · exact hr it hit
    · rintro ⟨items, hl, rfl, rfl, hr⟩
      cases items with
      | nil => simp at hl
      | cons it items =>
        refine ⟨(items.flatMap Prod.snd ++ tail, it.1), (hf _ _ _).mpr ⟨it.2, by simp, hr it (by simp)⟩,
          (tail, items.map Prod.fst), (ih _ _ _).mpr ⟨items, by simpa using hl, rfl, rfl,
            fun x hx => hr x (by simp [hx])⟩, by simp⟩

/-- Fold with failure. -/
def foldO {σ α : Type} (f : σ → α → Option σ) : σ → List α → Option σ
  | s, [] => some s
  | s, a :: as => match f s a with
    | some s' => foldO f s' as
    | none => none

/-- Storing a value in the accumulator of the field with the given tag. -/
def slotSet : VFields → Int → List (Option Val) → Val → Option (List (Option Val))
  | .nil, _, _, _ => none
  | .cons t _ _ kind _ rest, tag, s :: ss, v =>
    if tag = t then (if vacant kind s then some (some v :: ss) else none)
    else (slotSet rest tag ss v).map (s :: ·)
  | .cons .., _, [], _ => none

theorem iterN_ok {σ : Type} (f : σ → List UInt8 → Res (List UInt8 × σ)) (g : σ → Entry → Option σ)
    (R : Entry → Prop)
    (hf : ∀ s i tail s', f s i = .ok (tail, s') ↔ ∃ e, i = e.bytes ++ tail ∧ R e ∧ g s e = some s')
    (n : Nat) : ∀ s i tail s', iterN f n s i = .ok (tail, s') ↔
      ∃ es : List Entry, es.length = n ∧ i = es.flatMap Entry.bytes ++ tail ∧ (∀ e ∈ es, R e) ∧
        foldO g s es = some s' := by
  induction n with
  | zero =>
    intro s i tail s'
    simp only [iterN, Res.ok.injEq, Prod.mk.injEq]
    constructor
    · rintro ⟨rfl, rfl⟩; exact ⟨[], by simp [foldO]⟩
    · rintro ⟨es, hl, rfl, _, h⟩
      have := List.length_eq_zero_iff.mp hl
      subst this; simp [foldO] at h; simp [h]
  | succ n ih =>
    intro s i tail s'
    simp only [iterN, Res.bind_eq_ok]
    constructor
    · rintro ⟨⟨i1, s1⟩, h1, h2⟩
      rw [hf] at h1
      rw [ih] at h2
      obtain ⟨e, rfl, he, hg⟩ := h1
      obtain ⟨es, hl, rfl, hr, hfo⟩ := h2
      refine ⟨e :: es, by simp [hl], by simp, ?_, by simp [foldO, hg, hfo]⟩
      intro x hx
      rcases List.mem_cons.mp hx with rfl | hx
      · exact he
      · exact hr x hx
    · rintro ⟨es, hl, rfl, hr, hfo⟩
      cases es with
      | nil => simp at hl
      | cons e es =>
        simp only [foldO] at hfo
        cases hg : g s e with
        | none => rw [hg] at hfo; simp at hfo
        | some s1 =>
          rw [hg] at hfo
          exact ⟨(es.flatMap Entry.bytes ++ tail, s1), (hf _ _ _ _).mpr ⟨e, by simp, hr e (by simp), hg⟩,
            (ih _ _ _ _).mpr ⟨es, by simpa using hl, rfl, fun x hx => hr x (by simp [hx]), hfo⟩⟩

/-- Slot update of a single field. -/
def slot1 (kind : FKind) (s : Option Val) (v : Val) : Option (Option Val) :=
  if vacant kind s then some (some v) else none

theorem foldO_slotSet_cons (t : Int) (name : String) (dup : Int) (kind : FKind) (ty : VTy)
    (rest : VFields) (es : List Entry) : ∀ (s : Option Val) (ss : List (Option Val)) (r : List (Option Val)),
    foldO (fun ss e => slotSet (.cons t name dup kind ty rest) e.tag ss e.val) (s :: ss) es = some r ↔
      ∃ s' ss', r = s' :: ss' ∧
        foldO (slot1 kind) s ((es.filter (fun e => decide (e.tag = t))).map Entry.val) = some s' ∧
        foldO (fun ss e => slotSet rest e.tag ss e.val) ss
          (es.filter (fun e => decide (e.tag ≠ t))) = some ss' := by
  induction es with
  | nil => intro s ss r; simp [foldO, eq_comm]
  | cons e es ih =>
    intro s ss r
    by_cases ht : e.tag = t
    · simp only [foldO, slotSet, if_pos ht]
      rw [List.filter_cons_of_pos (by simpa using ht), List.filter_cons_of_neg (by simpa using ht)]
      simp only [List.map_cons, foldO, slot1]
      by_cases hv : vacant kind s
      · simp only [hv, if_true]
        rw [ih]
      · simp [hv]
    · simp only [foldO, slotSet, if_neg ht]
      rw [List.filter_cons_of_neg (by simpa using ht), List.filter_cons_of_pos (by simpa using ht)]
      simp only [foldO]
      cases hs : slotSet rest e.tag ss e.val with
      | none => simp
      | some ss1 => simp only [Option.map_some]; rw [ih]

/-- Final value of one field. -/
def finish1 (kind : FKind) (s : Option Val) : Option Val :=
  match kind, s with
  | _, some v => some v
  | .dflt d, none => some d
  | _, none => none

/-- Initial slot of one field. -/
def init1 (kind : FKind) : Option Val :=
  match kind with
  | .optional => some Val.none
  | _ => none

theorem foldO_slot1_optional (occ : List Val) : ∀ (v : Val),
    (∃ s', foldO (slot1 .optional) (some Val.none) occ = some s' ∧ finish1 .optional s' = some v) ↔
      FieldResult .optional occ v := by
  induction occ with
  | nil => intro v; simp [foldO, finish1, FieldResult, eq_comm]
  | cons w occ ih =>
    intro v
    simp only [foldO, slot1, vacant, if_true]
    by_cases hw : w = Val.none
    · subst hw
      rw [ih]
      cases occ with
      | nil => simp [FieldResult]
      | cons w2 occ => simp [FieldResult]
    · cases occ with
      | nil => simp [FieldResult, foldO, finish1, eq_comm]
      | cons w2 occ =>
        have hvac : vacant .optional (some w) = false := by
          cases w <;> simp_all [vacant]
        simp only [foldO, slot1, hvac]
        simp [FieldResult, hw]

theorem foldO_slot1 (kind : FKind) (occ : List Val) (v : Val) :
    (∃ s', foldO (slot1 kind) (init1 kind) occ = some s' ∧ finish1 kind s' = some v) ↔
      FieldResult kind occ v := by
  cases kind with
  | optional => exact foldO_slot1_optional occ v
  | mandatory =>
    cases occ with
    | nil => simp [foldO, init1, finish1, FieldResult]
    | cons w occ =>
      cases occ with
      | nil => simp [foldO, init1, finish1, FieldResult, slot1, vacant]
      | cons w2 occ => simp [foldO, init1, FieldResult, slot1, vacant]
  | dflt d =>
    cases occ with
    | nil => simp [foldO, init1, finish1, FieldResult, eq_comm]
    | cons w occ =>
      cases occ with
      | nil => simp [foldO, init1, finish1, FieldResult, slot1, vacant]
      | cons w2 occ => simp [foldO, init1, FieldResult, slot1, vacant]

theorem initSlots_cons (t : Int) (name : String) (dup : Int) (kind : FKind) (ty : VTy) (rest : VFields) :
    initSlots (.cons t name dup kind ty rest) = init1 kind :: initSlots rest := by
  simp only [initSlots, init1]
  cases kind <;> rfl

theorem finishSlots_cons (t : Int) (name : String) (dup : Int) (kind : FKind) (ty : VTy) (rest : VFields)
    (s : Option Val) (ss : List (Option Val)) (vs : List Val) :
    finishSlots (.cons t name dup kind ty rest) (s :: ss) = .ok vs ↔
      ∃ v vs', vs = v :: vs' ∧ finish1 kind s = some v ∧ finishSlots rest ss = .ok vs' := by
  cases s with
  | some v0 =>
    cases kind <;> simp only [finishSlots, finish1, Res.bind_ok, Res.bind_eq_ok, Res.pure_eq,
      Res.ok.injEq, Option.some.injEq] <;> constructor
    all_goals first
      | (rintro ⟨vs', h, rfl⟩; exact ⟨_, _, rfl, rfl, h⟩)
      | (rintro ⟨v, vs', rfl, rfl, h⟩; exact ⟨_, h, rfl⟩)
  | none =>
    cases kind with
    | dflt d =>
      simp only [finishSlots, finish1, Res.bind_ok, Res.bind_eq_ok, Res.pure_eq, Res.ok.injEq,
        Option.some.injEq]
      constructor
      · rintro ⟨vs', h, rfl⟩; exact ⟨_, _, rfl, rfl, h⟩
      · rintro ⟨v, vs', rfl, rfl, h⟩; exact ⟨_, h, rfl⟩
    | mandatory => simp [finishSlots, finish1]
    | optional => simp [finishSlots, finish1]

theorem structVals_iff : (fs : VFields) → ∀ (es : List Entry) (vs : List Val),
    (∃ r, foldO (fun ss e => slotSet fs e.tag ss e.val) (initSlots fs) es = some r ∧
      finishSlots fs r = .ok vs) ↔ StructVals fs es vs
  | .nil => by
    intro es vs
    cases es with
    | nil => simp [foldO, initSlots, finishSlots, StructVals, eq_comm]
    | cons e es => simp [foldO, slotSet, StructVals]
  | .cons t name dup kind ty rest => by
    intro es vs
    have ih := structVals_iff rest
    rw [initSlots_cons]
    simp only [foldO_slotSet_cons, StructVals]
    constructor
    · rintro ⟨r, ⟨s', ss', rfl, h1, h2⟩, h3⟩
      rw [finishSlots_cons] at h3
      obtain ⟨v, vs', rfl, h4, h5⟩ := h3
      exact ⟨v, vs', rfl, (foldO_slot1 _ _ _).mp ⟨s', h1, h4⟩, (ih _ _).mp ⟨ss', h2, h5⟩⟩
    · rintro ⟨v, vs', rfl, h1, h2⟩
      obtain ⟨s', h1, h4⟩ := (foldO_slot1 _ _ _).mpr h1
      obtain ⟨ss', h2, h5⟩ := (ih _ _).mpr h2
      exact ⟨s' :: ss', ⟨s', ss', rfl, h1, h2⟩, (finishSlots_cons ..).mpr ⟨v, vs', rfl, h4, h5⟩⟩

mutual
/-- A byte-aligned parser accepts exactly the wire forms of its type. -/
theorem vparse_iff (bld : Build) : (t : VTy) → ∀ (i tail : List UInt8) (v : Val),
    vparse bld t i = .ok (tail, v) ↔ ∃ u, i = u ++ tail ∧ VEnc bld t v u
  | .int k => by
    intro i tail v
    simp only [vparse, Res.bind_eq_ok, VEnc]
    constructor
    · rintro ⟨⟨t, x⟩, h1, y, h2, h3⟩
      rw [taggedVlq_ok] at h1
      rw [tryFrom_ok] at h2
      simp only [Res.pure_eq, Res.ok.injEq, Prod.mk.injEq] at h3
      obtain ⟨rfl, rfl⟩ := h3
      obtain ⟨e, rfl, he⟩ := h1
      obtain ⟨rfl, hr⟩ := h2
      exact ⟨INT_TAG :: e, rfl, y, e, rfl, hr, rfl, he⟩
    · rintro ⟨u, rfl, x, e, rfl, hr, rfl, he⟩
      exact ⟨(tail, x), taggedVlq_ok.mpr ⟨e, rfl, he⟩, x, tryFrom_ok.mpr ⟨rfl, hr⟩, rfl⟩
  | .blob => by
    intro i tail v
    simp only [vparse, Res.bind_eq_ok, VEnc]
    constructor
    · rintro ⟨⟨t, bs⟩, h1, h3⟩
      rw [taggedBlob_ok] at h1
      simp only [Res.pure_eq, Res.ok.injEq, Prod.mk.injEq] at h3
      obtain ⟨rfl, rfl⟩ := h3
      obtain ⟨n, e, rfl, he, hn⟩ := h1
      exact ⟨BLOB_TAG :: (e ++ bs), by simp, n, e, bs, rfl, rfl, he, hn⟩
    · rintro ⟨u, rfl, n, e, bs, rfl, rfl, he, hn⟩
      exact ⟨(tail, bs), taggedBlob_ok.mpr ⟨n, e, by simp, he, hn⟩, rfl⟩
  | .bool => by
    intro i tail v
    simp only [vparse, Res.bind_eq_ok, VEnc]
    constructor
    · rintro ⟨⟨t, b⟩, h1, h3⟩
      rw [taggedBool_ok] at h1
      simp only [Res.pure_eq, Res.ok.injEq, Prod.mk.injEq] at h3
      obtain ⟨rfl, rfl⟩ := h3
      obtain ⟨x, rfl, rfl⟩ := h1
      exact ⟨[BOOL_TAG, x], rfl, x, rfl, rfl⟩
    · rintro ⟨u, rfl, x, rfl, rfl⟩
      exact ⟨(tail, x != 0), taggedBool_ok.mpr ⟨x, rfl, rfl⟩, rfl⟩
  | .fourcc => by
    intro i tail v
    simp only [vparse, Res.bind_eq_ok, VEnc]
    constructor
    · rintro ⟨⟨t, x⟩, h1, h3⟩
      rw [taggedFourcc_ok] at h1
      simp only [Res.pure_eq, Res.ok.injEq, Prod.mk.injEq] at h3
      obtain ⟨rfl, rfl⟩ := h3
      obtain ⟨bs, rfl, hl, rfl⟩ := h1
      exact ⟨FOURCC_TAG :: bs, by simp, bs, hl, rfl, rfl⟩
    · rintro ⟨u, rfl, bs, hl, rfl, rfl⟩
      exact ⟨(tail, beNat bs), taggedFourcc_ok.mpr ⟨bs, by simp, hl, rfl⟩, rfl⟩
  | .null => by
    intro i tail v
    simp only [vparse, VEnc, Res.ok.injEq, Prod.mk.injEq]
    constructor
    · rintro ⟨rfl, rfl⟩; exact ⟨[], rfl, rfl, rfl⟩
    · rintro ⟨u, rfl, rfl, rfl⟩; exact ⟨rfl, rfl⟩
  | .opt t => by
    intro i tail v
    have ih := vparse_iff bld t
    simp only [vparse, Res.bind_eq_ok, VEnc]
    constructor
    · rintro ⟨⟨t1, u1⟩, h1, ⟨t2, p⟩, h2, h3⟩
      rw [tagByte_ok] at h1
      rw [takeU8_ok] at h2
      subst h2 h1
      by_cases hp : p = 0
      · subst hp
        simp at h3
        obtain ⟨rfl, rfl⟩ := h3
        exact ⟨[OPT_TAG, 0], rfl, Or.inl ⟨rfl, rfl⟩⟩
      · rw [if_pos hp, Res.bind_eq_ok] at h3
        obtain ⟨⟨t3, w⟩, h4, h5⟩ := h3
        simp only [Res.pure_eq, Res.ok.injEq, Prod.mk.injEq] at h5
        obtain ⟨rfl, rfl⟩ := h5
        rw [ih] at h4
        obtain ⟨u, rfl, hu⟩ := h4
        exact ⟨OPT_TAG :: p :: u, rfl, Or.inr ⟨p, w, u, hp, rfl, rfl, hu⟩⟩
    · rintro ⟨u, rfl, h⟩
      rcases h with ⟨rfl, rfl⟩ | ⟨p, w, e, hp, rfl, rfl, hu⟩
      · exact ⟨(0 :: tail, ()), tagByte_ok.mpr rfl, (tail, 0), takeU8_ok.mpr rfl, by simp⟩
      · refine ⟨(p :: e ++ tail, ()), tagByte_ok.mpr rfl, (e ++ tail, p), takeU8_ok.mpr rfl, ?_⟩
        rw [if_pos hp, Res.bind_eq_ok]
        exact ⟨(tail, w), (ih _ _ _).mpr ⟨e, rfl, hu⟩, rfl⟩
  | .arr t => by
    intro i tail v
    have ih := vparse_iff bld t
    simp only [vparse, Res.bind_eq_ok, VEnc]
    constructor
    · rintro ⟨⟨t1, u1⟩, h1, ⟨t2, n⟩, h2, ⟨t3, vs⟩, h3, h4⟩
      rw [tagByte_ok] at h1
      rw [parseVlq_iff] at h2
      rw [repeatN_ok _ _ ih] at h3
      simp only [Res.pure_eq, Res.ok.injEq, Prod.mk.injEq] at h4
      obtain ⟨rfl, rfl⟩ := h4
      obtain ⟨e, rfl, he⟩ := h2
      obtain ⟨items, hl, rfl, rfl, hit⟩ := h3
      exact ⟨ARRAY_TAG :: (e ++ items.flatMap Prod.snd), by simpa using h1, n, e, items, he, hl.symm,
        rfl, rfl, hit⟩
    · rintro ⟨u, rfl, n, e, items, he, hl, rfl, rfl, hit⟩
      refine ⟨(e ++ (items.flatMap Prod.snd ++ tail), ()), tagByte_ok.mpr (by simp),
        (items.flatMap Prod.snd ++ tail, n), (parseVlq_iff _ _ _ _).mpr ⟨e, rfl, he⟩,
        (tail, items.map Prod.fst), ?_, rfl⟩
      rw [repeatN_ok _ _ ih]
      exact ⟨items, hl.symm, rfl, rfl, hit⟩
  | .struct fs => by
    intro i tail v
    have ihf := vfield_iff bld fs
    have hstep : ∀ (s : List (Option Val)) (i tail : List UInt8) (s' : List (Option Val)),
        ((do let (i, tag) ← parseVlq bld i
             vfield bld fs tag s i) = Res.ok (tail, s')) ↔
        ∃ e : Entry, i = e.bytes ++ tail ∧ (∃ te fe, e.bytes = te ++ fe ∧ VlqEnc bld e.tag te ∧
          VFieldEnc bld fs e.tag e.val fe) ∧ slotSet fs e.tag s e.val = some s' := by
      intro s i tail s'
      rw [Res.bind_eq_ok]
      constructor
      · rintro ⟨⟨i1, tag⟩, h1, h2⟩
        rw [parseVlq_iff] at h1
        dsimp only at h2
        rw [ihf] at h2
        obtain ⟨te, rfl, hte⟩ := h1
        obtain ⟨u, v, rfl, hu, hs⟩ := h2
        exact ⟨⟨tag, v, te ++ u⟩, by simp, ⟨te, u, rfl, hte, hu⟩, hs⟩
      · rintro ⟨e, rfl, ⟨te, fe, hb, hte, hfe⟩, hs⟩
        refine ⟨(fe ++ tail, e.tag), (parseVlq_iff _ _ _ _).mpr ⟨te, by simp [hb], hte⟩, ?_⟩
        exact (ihf _ _ _ _ _).mpr ⟨fe, e.val, rfl, hfe, hs⟩
    simp only [vparse, Res.bind_eq_ok, VEnc]
    constructor
    · rintro ⟨⟨t1, u1⟩, h1, ⟨t2, n⟩, h2, ⟨t3, slots⟩, h3, vs, h4, h5⟩
      rw [tagByte_ok] at h1
      rw [parseVlq_iff] at h2
      rw [iterN_ok _ (fun ss e => slotSet fs e.tag ss e.val) _ hstep] at h3
      simp only [Res.pure_eq, Res.ok.injEq, Prod.mk.injEq] at h5
      obtain ⟨rfl, rfl⟩ := h5
      obtain ⟨e, rfl, he⟩ := h2
      obtain ⟨es, hl, rfl, hes, hfold⟩ := h3
      exact ⟨STRUCT_TAG :: (e ++ es.flatMap Entry.bytes), by simpa using h1, n, e, vs, es, he, hl.symm,
        rfl, rfl, hes, (structVals_iff fs es vs).mp ⟨slots, hfold, h4⟩⟩
    · rintro ⟨u, rfl, n, e, vs, es, he, hl, rfl, rfl, hes, hsv⟩
      obtain ⟨slots, hfold, hfin⟩ := (structVals_iff fs es vs).mpr hsv
      refine ⟨(e ++ (es.flatMap Entry.bytes ++ tail), ()), tagByte_ok.mpr (by simp),
        (es.flatMap Entry.bytes ++ tail, n), (parseVlq_iff _ _ _ _).mpr ⟨e, rfl, he⟩,
        (tail, slots), ?_, vs, hfin, rfl⟩
      rw [iterN_ok _ (fun ss e => slotSet fs e.tag ss e.val) _ hstep]
      exact ⟨es, hl.symm, rfl, hes, hfold⟩
  | .choice isInt alts => by
    intro i tail v
    have iha := valt_iff bld alts
    simp only [vparse, Res.bind_eq_ok, VEnc]
    constructor
    · rintro ⟨⟨t1, u1⟩, h1, ⟨t2, tag⟩, h2, ⟨t3, w⟩, h3, h4⟩
      rw [tagByte_ok] at h1
      rw [parseVlq_iff] at h2
      rw [iha] at h3
      simp only [Res.pure_eq, Res.ok.injEq, Prod.mk.injEq] at h4
      obtain ⟨rfl, rfl⟩ := h4
      obtain ⟨e, rfl, he⟩ := h2
      obtain ⟨u, rfl, hu⟩ := h3
      exact ⟨(if isInt then INT_TAG else CHOICE_TAG) :: (e ++ u), by simpa using h1, tag, e, w, u, he,
        rfl, rfl, hu⟩
    · rintro ⟨u, rfl, tag, e, w, r, he, rfl, rfl, hr⟩
      exact ⟨(e ++ (r ++ tail), ()), tagByte_ok.mpr (by simp), (r ++ tail, tag),
        (parseVlq_iff _ _ _ _).mpr ⟨e, rfl, he⟩, (tail, w), (iha _ _ _ _).mpr ⟨r, rfl, hr⟩, rfl⟩

theorem vfield_iff (bld : Build) : (fs : VFields) → ∀ (tag : Int) (ss : List (Option Val))
    (i tail : List UInt8) (ss' : List (Option Val)),
    vfield bld fs tag ss i = .ok (tail, ss') ↔
      ∃ u v, i = u ++ tail ∧ VFieldEnc bld fs tag v u ∧ slotSet fs tag ss v = some ss'
  | .nil => by intro tag ss i tail ss'; simp [vfield, VFieldEnc]
  | .cons t name dup kind ty rest => by
    intro tag ss i tail ss'
    have ih1 := vparse_iff bld ty
    have ih2 := vfield_iff bld rest
    cases ss with
    | nil => simp [vfield, slotSet]
    | cons s ss =>
      simp only [vfield, VFieldEnc, slotSet]
      by_cases ht : tag = t
      · simp only [if_pos ht]
        by_cases hv : vacant kind s
        · simp only [hv, if_true, Res.bind_eq_ok]
          constructor
          · rintro ⟨⟨t1, v⟩, h1, h2⟩
            rw [ih1] at h1
            simp only [Res.pure_eq, Res.ok.injEq, Prod.mk.injEq] at h2
            obtain ⟨rfl, rfl⟩ := h2
            obtain ⟨u, rfl, hu⟩ := h1
            exact ⟨u, v, rfl, hu, rfl⟩
          · rintro ⟨u, v, rfl, hu, h⟩
            simp only [Option.some.injEq] at h
            subst h
            exact ⟨(tail, v), (ih1 _ _ _).mpr ⟨u, rfl, hu⟩, rfl⟩
        · simp [hv]
      · simp only [if_neg ht, Res.bind_eq_ok]
        constructor
        · rintro ⟨⟨t1, ss1⟩, h1, h2⟩
          rw [ih2] at h1
          simp only [Res.pure_eq, Res.ok.injEq, Prod.mk.injEq] at h2
          obtain ⟨rfl, rfl⟩ := h2
          obtain ⟨u, v, rfl, hu, hs⟩ := h1
          exact ⟨u, v, rfl, hu, by simp [hs]⟩
        · rintro ⟨u, v, rfl, hu, h⟩
          cases hs : slotSet rest tag ss v with
          | none => rw [hs] at h; simp at h
          | some ss1 =>
            rw [hs] at h
            simp only [Option.map_some, Option.some.injEq] at h
            subst h
            exact ⟨(tail, ss1), (ih2 _ _ _ _ _).mpr ⟨u, v, rfl, hu, hs⟩, rfl⟩

theorem valt_iff (bld : Build) : (alts : VAlts) → ∀ (tag : Int) (i tail : List UInt8) (v : Val),
    valt bld alts tag i = .ok (tail, v) ↔ ∃ u, i = u ++ tail ∧ VAltEnc bld alts tag v u
  | .nil => by intro tag i tail v; simp [valt, VAltEnc]
  | .cons t ty rest => by
    intro tag i tail v
    have ih1 := vparse_iff bld ty
    have ih2 := valt_iff bld rest
    simp only [valt, VAltEnc]
    by_cases ht : tag = t
    · simp only [if_pos ht]; exact ih1 i tail v
    · simp only [if_neg ht]; exact ih2 tag i tail v
end

end S2
