import Verif.Events.ReadLemmas
/-! # Event loops and iterators over streams -/
namespace S2

theorem Stream_append {α : Type} {W : α → List UInt8 → Prop} : ∀ (xs ys : List α) (d e : List UInt8),
    Stream W xs d → Stream W ys e → Stream W (xs ++ ys) (d ++ e)
  | [], ys, d, e, h1, h2 => by
    have h1 : d = [] := h1
    subst h1; exact h2
  | x :: xs, ys, d, e, h1, h2 => by
    obtain ⟨u, d', rfl, hw, h1⟩ := h1
    exact ⟨u, d' ++ e, by simp, hw, Stream_append xs ys d' e h1 h2⟩

theorem Stream_single {α : Type} {W : α → List UInt8 → Prop} {a : α} {u : List UInt8} (h : W a u) :
    Stream W [a] u := ⟨u, [], by simp, h, rfl⟩

theorem Stream_length {α : Type} {W : α → List UInt8 → Prop} (hp : ∀ a u, W a u → u ≠ []) :
    ∀ (xs : List α) (d : List UInt8), Stream W xs d → xs.length ≤ d.length
  | [], d, _ => by simp
  | x :: xs, d, h => by
    obtain ⟨u, d', rfl, hw, h⟩ := h
    have := Stream_length hp xs d' h
    have := List.length_pos_iff.mpr (hp x u hw)
    simp; omega

/-- What the loops need to know about the parser of one event: `emb` is the cursor at a byte
boundary. -/
structure StepSpec {σ α : Type} (step : σ → Res (σ × α)) (emb : List UInt8 → σ) (W : α → List UInt8 → Prop) : Prop where
  ok : ∀ i s' a, step (emb i) = .ok (s', a) ↔ ∃ u r, i = u ++ r ∧ s' = emb r ∧ W a u
  pos : ∀ a u, W a u → u ≠ []
  inj : ∀ i j, emb i = emb j → i = j

namespace StepSpec
variable {σ α β : Type} {step : σ → Res (σ × α)} {emb : List UInt8 → σ} {W : α → List UInt8 → Prop}

theorem unique (h : StepSpec step emb W) {a b : α} {u v r s : List UInt8} (hu : W a u) (hv : W b v)
    (he : u ++ r = v ++ s) : a = b ∧ u = v ∧ r = s := by
  have h1 := (h.ok (u ++ r) (emb r) a).2 ⟨u, r, rfl, rfl, hu⟩
  have h2 := (h.ok (v ++ s) (emb s) b).2 ⟨v, s, rfl, rfl, hv⟩
  rw [he, h2] at h1
  simp only [Res.ok.injEq, Prod.mk.injEq] at h1
  obtain ⟨h1, rfl⟩ := h1
  have := h.inj _ _ h1
  subst this
  exact ⟨rfl, List.append_cancel_right he, rfl⟩

theorem nil_not_ok (h : StepSpec step emb W) (p : σ × α) : step (emb []) ≠ .ok p := by
  intro hs
  obtain ⟨u, r, he, _, hw⟩ := (h.ok [] p.1 p.2).1 hs
  have := h.pos _ _ hw
  simp at he
  exact this he.1

/-- A stream decomposes in at most one way. -/
theorem stream_unique (h : StepSpec step emb W) : ∀ (xs ys : List α) (d : List UInt8),
    Stream W xs d → Stream W ys d → xs = ys
  | [], [], _, _, _ => rfl
  | [], y :: ys, d, h1, h2 => by
    have h1 : d = [] := h1
    subst h1
    obtain ⟨u, d', he, hw, _⟩ := h2
    have := h.pos _ _ hw
    simp at he; exact absurd he.1 this
  | x :: xs, [], d, h1, h2 => by
    have h2 : d = [] := h2
    subst h2
    obtain ⟨u, d', he, hw, _⟩ := h1
    have := h.pos _ _ hw
    simp at he; exact absurd he.1 this
  | x :: xs, y :: ys, d, h1, h2 => by
    obtain ⟨u, d1, rfl, hw1, h1⟩ := h1
    obtain ⟨v, d2, he, hw2, h2⟩ := h2
    obtain ⟨rfl, rfl, rfl⟩ := h.unique hw1 hw2 he
    rw [h.stream_unique xs ys d1 h1 h2]

/-- The loop ends within one round per byte (and at least one round). -/
theorem readLoop_terminates (h : StepSpec step emb W) (conv : α → Res β) (empty : σ → Bool)
    (hempty : ∀ i, empty (emb i) = true ↔ i = []) :
    ∀ (n : Nat) (i : List UInt8) (acc : List β), i.length < n → readLoop step conv empty n (emb i) acc ≠ none
  | 0, i, acc, hn => by omega
  | n + 1, i, acc, hn => by
    simp only [readLoop]
    cases hs : step (emb i) with
    | err e => simp
    | panic => simp
    | ok p =>
      obtain ⟨s', a⟩ := p
      obtain ⟨u, r, rfl, rfl, hw⟩ := (h.ok i s' a).1 hs
      have := List.length_pos_iff.mpr (h.pos _ _ hw)
      simp only [List.length_append] at hn
      have ih := fun acc => readLoop_terminates h conv empty hempty n r acc (by omega)
      simp only
      cases conv a with
      | panic => simp
      | ok b => simp only; split <;> simp [ih]
      | err e => simp only; split <;> simp [ih]

/-- A successful run has decoded a whole stream. -/
theorem readLoop_ok (h : StepSpec step emb W) (conv : α → Res β) (empty : σ → Bool)
    (hempty : ∀ i, empty (emb i) = true ↔ i = []) (hc : ∀ a u, W a u → conv a ≠ .panic) :
    ∀ (n : Nat) (i : List UInt8) (acc out : List β),
      readLoop step conv empty n (emb i) acc = some (.ok out) ↔
        ∃ items, items ≠ [] ∧ items.length ≤ n ∧ Stream W items i ∧
          out = acc ++ items.filterMap (fun a => (conv a).toOpt)
  | 0, i, acc, out => by
    simp only [readLoop]
    constructor
    · intro h; cases h
    · rintro ⟨items, h1, h2, _⟩
      have := List.length_pos_iff.mpr h1
      omega
  | n + 1, i, acc, out => by
    have ih := fun i acc => readLoop_ok h conv empty hempty hc n i acc out
    simp only [readLoop]
    cases hs : step (emb i) with
    | err e =>
      simp only [Option.some.injEq, reduceCtorEq, false_iff]
      rintro ⟨items, h1, h2, h3, _⟩
      cases items with
      | nil => exact h1 rfl
      | cons x xs =>
        obtain ⟨u, d, rfl, hw, _⟩ := h3
        have := (h.ok _ _ _).2 ⟨u, d, rfl, rfl, hw⟩
        rw [this] at hs; cases hs
    | panic =>
      simp only [Option.some.injEq, reduceCtorEq, false_iff]
      rintro ⟨items, h1, h2, h3, _⟩
      cases items with
      | nil => exact h1 rfl
      | cons x xs =>
        obtain ⟨u, d, rfl, hw, _⟩ := h3
        have := (h.ok _ _ _).2 ⟨u, d, rfl, rfl, hw⟩
        rw [this] at hs; cases hs
    | ok p =>
      obtain ⟨s', a⟩ := p
      obtain ⟨u, r, rfl, rfl, hw⟩ := (h.ok i s' a).1 hs
      have hnp := hc a u hw
      have hcons : ∀ items : List α, Stream W items (u ++ r) → items ≠ [] → ∃ xs, items = a :: xs ∧ Stream W xs r := by
        intro items hst hne
        cases items with
        | nil => exact absurd rfl hne
        | cons x xs =>
          obtain ⟨v, d, he, hw2, hst⟩ := hst
          obtain ⟨rfl, rfl, rfl⟩ := h.unique hw hw2 he
          exact ⟨xs, rfl, hst⟩
      have main : ∀ acc' : List β, acc' = acc ++ [a].filterMap (fun a => (conv a).toOpt) →
          ((if empty (emb r) = true then some (Res.ok acc') else readLoop step conv empty n (emb r) acc') = some (.ok out) ↔
          ∃ items, items ≠ [] ∧ items.length ≤ n + 1 ∧ Stream W items (u ++ r) ∧
            out = acc ++ items.filterMap (fun a => (conv a).toOpt)) := by
        intro acc' hacc
        by_cases he : r = []
        · rw [if_pos ((hempty r).2 he)]
          simp only [Option.some.injEq, Res.ok.injEq]
          constructor
          · rintro rfl
            refine ⟨[a], by simp, by simp, ?_, hacc⟩
            subst he; simpa using Stream_single hw
          · rintro ⟨items, h1, h2, h3, rfl⟩
            obtain ⟨xs, rfl, hxs⟩ := hcons items h3 h1
            subst he
            have : xs = [] := h.stream_unique xs [] [] hxs rfl
            subst this; rw [hacc]
        · rw [if_neg (by rw [hempty]; exact he), ih]
          constructor
          · rintro ⟨items, h1, h2, h3, rfl⟩
            refine ⟨a :: items, by simp, by simp; omega, ⟨u, r, rfl, hw, h3⟩, ?_⟩
            rw [hacc, List.append_assoc, ← List.filterMap_append]; rfl
          · rintro ⟨items, h1, h2, h3, rfl⟩
            obtain ⟨xs, rfl, hxs⟩ := hcons items h3 h1
            refine ⟨xs, ?_, by simp at h2; omega, hxs, ?_⟩
            · rintro rfl; exact he hxs
            · rw [hacc, List.append_assoc, ← List.filterMap_append]; rfl
      simp only
      cases hcv : conv a with
      | panic => exact absurd hcv hnp
      | ok b => exact main _ (by simp [hcv, Res.toOpt])
      | err e => exact main _ (by simp [hcv, Res.toOpt])

/-- A failing run has met a malformed event: after the events `items`, the parser of one event
fails on the rest. -/
theorem readLoop_err (h : StepSpec step emb W) (conv : α → Res β) (empty : σ → Bool)
    (hempty : ∀ i, empty (emb i) = true ↔ i = []) (hc : ∀ a u, W a u → conv a ≠ .panic) (e : Err) :
    ∀ (n : Nat) (i : List UInt8) (acc : List β),
      readLoop step conv empty n (emb i) acc = some (.err e) ↔
        ∃ items d rest, i = d ++ rest ∧ items.length < n ∧ Stream W items d ∧ (items = [] ∨ rest ≠ []) ∧
          step (emb rest) = .err e
  | 0, i, acc => by
    simp only [readLoop]
    constructor
    · intro h; cases h
    · rintro ⟨items, d, rest, _, h2, _⟩; omega
  | n + 1, i, acc => by
    have ih := fun i acc => readLoop_err h conv empty hempty hc e n i acc
    simp only [readLoop]
    have herr : ∀ r : Res (σ × α), step (emb i) = r → (∀ p, r ≠ .ok p) → (∃ items d rest, i = d ++ rest ∧ items.length < n + 1 ∧
        Stream W items d ∧ (items = [] ∨ rest ≠ []) ∧ step (emb rest) = .err e) → step (emb i) = .err e := by
      rintro r hr hn ⟨items, d, rest, rfl, h2, h3, _, h5⟩
      cases items with
      | nil =>
        have h3 : d = [] := h3
        subst h3; exact h5
      | cons x xs =>
        obtain ⟨u, d', rfl, hw, _⟩ := h3
        have := (h.ok (u ++ d' ++ rest) (emb (d' ++ rest)) x).2 ⟨u, _, by simp, rfl, hw⟩
        exact absurd (this.symm.trans hr).symm (hn _)
    cases hs : step (emb i) with
    | err e' =>
      simp only [Option.some.injEq, Res.err.injEq]
      constructor
      · rintro rfl; exact ⟨[], [], i, by simp, by simp, rfl, .inl rfl, hs⟩
      · intro hx
        have := herr _ hs (by simp) hx
        rw [hs] at this; simpa using this
    | panic =>
      simp only [Option.some.injEq, reduceCtorEq, false_iff]
      intro hx
      have := herr _ hs (by simp) hx
      rw [hs] at this; cases this
    | ok p =>
      obtain ⟨s', a⟩ := p
      obtain ⟨u, r, rfl, rfl, hw⟩ := (h.ok i s' a).1 hs
      have hnp := hc a u hw
      have main : ∀ acc' : List β,
          ((if empty (emb r) = true then some (Res.ok acc') else readLoop step conv empty n (emb r) acc') = some (.err e) ↔
          ∃ items d rest, u ++ r = d ++ rest ∧ items.length < n + 1 ∧ Stream W items d ∧ (items = [] ∨ rest ≠ []) ∧
            step (emb rest) = .err e) := by
        intro acc'
        have hback : (∃ items d rest, u ++ r = d ++ rest ∧ items.length < n + 1 ∧ Stream W items d ∧ (items = [] ∨ rest ≠ []) ∧
            step (emb rest) = .err e) → r ≠ [] ∧ ∃ items d rest, r = d ++ rest ∧ items.length < n ∧ Stream W items d ∧ (items = [] ∨ rest ≠ []) ∧
            step (emb rest) = .err e := by
          rintro ⟨items, d, rest, he, h2, h3, h4, h5⟩
          cases items with
          | nil =>
            have h3 : d = [] := h3
            subst h3
            simp only [List.nil_append] at he
            rw [← he, hs] at h5; cases h5
          | cons x xs =>
            obtain ⟨v, d', rfl, hw2, h3⟩ := h3
            rw [List.append_assoc] at he
            obtain ⟨rfl, rfl, rfl⟩ := h.unique hw hw2 he
            have hr : rest ≠ [] := by simpa using h4
            exact ⟨by simp [hr], xs, d', rest, rfl, by simpa using h2, h3, .inr hr, h5⟩
        by_cases he : r = []
        · rw [if_pos ((hempty r).2 he)]
          constructor
          · intro h; cases h
          · intro hx; exact absurd he (hback hx).1
        · rw [if_neg (by rw [hempty]; exact he), ih]
          constructor
          · rintro ⟨items, d, rest, hr, h2, h3, h4, h5⟩
            refine ⟨a :: items, u ++ d, rest, by rw [List.append_assoc, ← hr], by simpa using h2, ⟨u, d, rfl, hw, h3⟩, ?_, h5⟩
            rcases h4 with rfl | h4
            · have h3 : d = [] := h3
              subst h3
              right; rintro rfl; exact he (by simpa using hr)
            · exact .inr h4
          · intro hx; exact (hback hx).2
      simp only
      cases hcv : conv a with
      | panic => exact absurd hcv hnp
      | ok b => exact main _
      | err e => exact main _

end StepSpec

theorem pairSpec (bld : Build) : StepSpec (parsePair bld) id (TrackerWire bld) where
  ok := by
    intro i s' a
    rw [show id i = i from rfl, parsePair_iff]
    constructor
    · rintro ⟨u, h1, h2⟩; exact ⟨u, s', h1, rfl, h2⟩
    · rintro ⟨u, r, h1, rfl, h2⟩; exact ⟨u, h1, h2⟩
  pos := fun _ _ => TrackerWire_ne_nil
  inj := fun _ _ h => h

theorem tripletSpec (bld : Build) (ty : BTy) (hw : ty.wf = true) :
    StepSpec (parseTriplet bld ty) (fun i => ⟨i, 0⟩) (TripletWire bld ty) where
  ok := fun i s' a => parseTriplet_iff bld ty hw i s' a
  pos := fun _ _ => TripletWire_ne_nil
  inj := by intro i j h; cases h; rfl

end S2
