import Verif.Events.LoopLemmas
import Verif.Schema.NoUnsup
/-! # Lazy event iterators over streams -/
namespace S2

theorem parsePair_sup (bld : Build) (i : List UInt8) : (parsePair bld i).Sup := by
  unfold parsePair
  refine (vparse_sup _ _ _).bind fun _ => (vparse_sup _ _ _).bind fun _ => Res.Sup.bind ?_ fun _ => Res.Sup.pure _
  unfold deltaOf; split <;> simp [Res.Sup]

theorem parseTriplet_sup (bld : Build) (ty : BTy) (c : Cur) : (parseTriplet bld ty c).Sup := by
  unfold parseTriplet
  refine (bparse_sup _ _ _).bind fun _ => (bparse_sup _ _ _).bind fun _ => (bparse_sup _ _ _).bind fun _ =>
    Res.Sup.bind ?_ fun _ => (byteAlign_sup _).bind fun _ => Res.Sup.bind ?_ fun _ => Res.Sup.pure _
  · unfold deltaOf; split <;> simp [Res.Sup]
  · unfold userIdOf; split <;> simp [Res.Sup]

/-- The state after consuming an event of `k` bytes with delta `d`. -/
def IterState.adv (st : IterState) (k : Nat) (d : Int) : IterState :=
  { st with byteIndex := st.byteIndex + k, eventLoop := st.eventLoop + d }

/-- What the iterators need to know about fetching one event. -/
structure IterSpec {α β : Type} (step : IterState → Res β × IterState) (conv : α → Res β) (delta : α → Int)
    (W : α → List UInt8 → Prop) : Prop where
  ok : ∀ st a u r, st.bitIndex = 0 → st.slice = u ++ r → W a u → step st = (conv a, st.adv u.length (delta a))
  bad : ∀ st, st.bitIndex = 0 → (∀ a u r, st.slice = u ++ r → ¬ W a u) →
    ∃ x, step st = (x, st) ∧ x ≠ .err .unsupportedEvent ∧ ∀ b, x ≠ .ok b
  pos : ∀ a u, W a u → u ≠ []

theorem trackerIterSpec (bld : Build) :
    IterSpec (readVersionedTrackerEvent bld) (fun p : Int × Val => convTracker p.2) Prod.fst (TrackerWire bld) where
  ok := by
    intro st a u r _ hs hw
    have := (parsePair_iff bld st.slice r a).2 ⟨u, hs, hw⟩
    simp only [readVersionedTrackerEvent, this, IterState.adv]
    rw [hs]; simp
  bad := by
    intro st _ hn
    have hsup := parsePair_sup bld st.slice
    cases h : parsePair bld st.slice with
    | ok p =>
      obtain ⟨u, h1, h2⟩ := (parsePair_iff bld st.slice p.1 p.2).1 h
      exact absurd h2 (hn _ _ _ h1)
    | err e => rw [h] at hsup; exact ⟨.err e, by simp [readVersionedTrackerEvent, h], by simpa [Res.Sup] using hsup, by simp⟩
    | panic => exact ⟨.panic, by simp [readVersionedTrackerEvent, h], by simp, by simp⟩
  pos := fun _ _ => TrackerWire_ne_nil

theorem gameIterSpec (bld : Build) (version : Nat) :
    IterSpec (readVersionedGameEvent bld version)
      (fun p : Int × Int × Val => (do let e ← convGame p.2.2; pure (p.2.1, e) : Res (Int × GameEvt))) Prod.fst
      (TripletWire bld (gameEventTy version)) where
  ok := by
    intro st a u r h0 hs hw
    have := (parseTriplet_iff bld _ (gameEventTy_wf version) st.slice ⟨r, 0⟩ a).2 ⟨u, r, hs, rfl, hw⟩
    simp only [readVersionedGameEvent, IterState.adv]
    rw [h0, this, hs]; simp [h0]
  bad := by
    intro st h0 hn
    have hsup := parseTriplet_sup bld (gameEventTy version) ⟨st.slice, st.bitIndex⟩
    cases h : parseTriplet bld (gameEventTy version) ⟨st.slice, st.bitIndex⟩ with
    | ok p =>
      have h' := h
      rw [h0] at h'
      obtain ⟨u, r, h1, _, h2⟩ := (parseTriplet_iff bld _ (gameEventTy_wf version) st.slice p.1 p.2).1 h'
      exact absurd h2 (hn _ _ _ h1)
    | err e => rw [h] at hsup; exact ⟨.err e, by simp [readVersionedGameEvent, h], by simpa [Res.Sup] using hsup, by simp⟩
    | panic => exact ⟨.panic, by simp [readVersionedGameEvent, h], by simp, by simp⟩
  pos := fun _ _ => TripletWire_ne_nil

theorem adv_slice {st : IterState} {u r : List UInt8} (h : st.slice = u ++ r) (d : Int) :
    (st.adv u.length d).slice = r := by
  unfold IterState.slice IterState.adv at *
  simp only
  rw [← List.drop_drop, h, List.drop_left' rfl]

/-- Each event with its game loop, starting from loop `l`. -/
def withLoops {α : Type} (delta : α → Int) : Int → List α → List (Int × α)
  | _, [] => []
  | l, a :: rest => (l + delta a, a) :: withLoops delta (l + delta a) rest

/-- Sum of the deltas. -/
def sumDelta {α : Type} (delta : α → Int) (xs : List α) : Int := (xs.map delta).sum

theorem withLoops_append {α : Type} (delta : α → Int) : ∀ (xs ys : List α) (l : Int),
    withLoops delta l (xs ++ ys) = withLoops delta l xs ++ withLoops delta (l + sumDelta delta xs) ys
  | [], ys, l => by simp [withLoops, sumDelta]
  | x :: xs, ys, l => by
    simp only [List.cons_append, withLoops, withLoops_append delta xs ys, sumDelta, List.map_cons, List.sum_cons]
    rw [show l + delta x + (xs.map delta).sum = l + (delta x + (xs.map delta).sum) by omega]

/-- The converted events with their loops. -/
def loopOut {α β : Type} (conv : α → Res β) (delta : α → Int) (l : Int) (items : List α) : List (Int × β) :=
  (withLoops delta l items).filterMap (fun p => (conv p.2).toOpt.map (fun b => (p.1, b)))

theorem loopOut_append {α β : Type} (conv : α → Res β) (delta : α → Int) (l : Int) (xs ys : List α) :
    loopOut conv delta l (xs ++ ys) = loopOut conv delta l xs ++ loopOut conv delta (l + sumDelta delta xs) ys := by
  simp [loopOut, withLoops_append]

theorem loopOut_single {α β : Type} (conv : α → Res β) (delta : α → Int) (l : Int) (a : α) :
    loopOut conv delta l [a] = ((conv a).toOpt.map (fun b => (l + delta a, b))).toList := by
  simp only [loopOut, withLoops, List.filterMap]
  cases (conv a).toOpt <;> rfl

namespace IterSpec
variable {α β : Type} {step : IterState → Res β × IterState} {conv : α → Res β} {delta : α → Int}
  {W : α → List UInt8 → Prop}

/-- One call consumes a whole number of events and yields those of them that convert. -/
theorem nextLoop_spec (h : IterSpec step conv delta W) : ∀ (n : Nat) (st st' : IterState) (r : Res (Option (Int × β))),
    st.bitIndex = 0 → nextLoop step n st = some (r, st') →
    ∃ items d rest, st.slice = d ++ rest ∧ Stream W items d ∧ st' = st.adv d.length (sumDelta delta items) ∧
      yielded r = loopOut conv delta st.eventLoop items
  | 0, st, st', r, _, hn => by simp [nextLoop] at hn
  | n + 1, st, st', r, h0, hn => by
    simp only [nextLoop] at hn
    have triv : ∀ x : Res (Option (Int × β)), yielded x = [] → some (x, st) = some (r, st') →
        ∃ items d rest, st.slice = d ++ rest ∧ Stream W items d ∧ st' = st.adv d.length (sumDelta delta items) ∧
          yielded r = loopOut conv delta st.eventLoop items := by
      intro x hx he
      simp only [Option.some.injEq, Prod.mk.injEq] at he
      obtain ⟨rfl, rfl⟩ := he
      exact ⟨[], [], st.slice, by simp, rfl, by simp [IterState.adv, sumDelta], by simp [hx, loopOut, withLoops]⟩
    split at hn
    · exact triv _ rfl hn
    · by_cases hex : ∃ a u r, st.slice = u ++ r ∧ W a u
      · obtain ⟨a, u, r0, hs, hw⟩ := hex
        rw [h.ok st a u r0 h0 hs hw] at hn
        have hfin : ∀ x : Res (Option (Int × β)), yielded x = loopOut conv delta st.eventLoop [a] →
            some (x, st.adv u.length (delta a)) = some (r, st') →
            ∃ items d rest, st.slice = d ++ rest ∧ Stream W items d ∧ st' = st.adv d.length (sumDelta delta items) ∧
              yielded r = loopOut conv delta st.eventLoop items := by
          intro x hx he
          simp only [Option.some.injEq, Prod.mk.injEq] at he
          obtain ⟨rfl, rfl⟩ := he
          exact ⟨[a], u, r0, hs, Stream_single hw, by simp [sumDelta], hx⟩
        cases hc : conv a with
        | ok b => rw [hc] at hn; exact hfin _ (by rw [loopOut_single, hc]; rfl) hn
        | panic => rw [hc] at hn; exact hfin _ (by rw [loopOut_single, hc]; rfl) hn
        | err e =>
          rw [hc] at hn
          by_cases he : e = .unsupportedEvent
          · subst he
            simp only at hn
            obtain ⟨items, d, rest, h1, h2, h3, h4⟩ := nextLoop_spec h n (st.adv u.length (delta a)) st' r h0 hn
            rw [adv_slice hs] at h1
            refine ⟨a :: items, u ++ d, rest, by rw [hs, h1, List.append_assoc], ⟨u, d, rfl, hw, h2⟩, ?_, ?_⟩
            · rw [h3]; simp only [IterState.adv, sumDelta, List.map_cons, List.sum_cons, List.length_append]
              congr 1 <;> omega
            · rw [h4, show a :: items = [a] ++ items from rfl, loopOut_append, loopOut_single, hc]
              simp [IterState.adv, sumDelta, Res.toOpt]
          · have hn' : some (Res.ok none, st.adv u.length (delta a)) = some (r, st') := by
              cases e <;> first | exact hn | exact absurd rfl he
            exact hfin _ (by rw [loopOut_single, hc]; rfl) hn'
      · obtain ⟨x, hx1, hx2, hx3⟩ := h.bad st h0 (fun a u r hs hw => hex ⟨a, u, r, hs, hw⟩)
        rw [hx1] at hn
        cases x with
        | ok b => exact absurd rfl (hx3 b)
        | panic => exact triv _ rfl hn
        | err e =>
          have hn' : some (Res.ok none, st) = some (r, st') := by
            cases e <;> first | exact hn | exact absurd rfl hx2
          exact triv _ rfl hn'

/-- Every call returns. -/
theorem nextLoop_terminates (h : IterSpec step conv delta W) : ∀ (n : Nat) (st : IterState), st.bitIndex = 0 →
    st.slice.length < n → nextLoop step n st ≠ none
  | 0, st, _, hn => by omega
  | n + 1, st, h0, hn => by
    simp only [nextLoop]
    split
    · simp
    · by_cases hex : ∃ a u r, st.slice = u ++ r ∧ W a u
      · obtain ⟨a, u, r0, hs, hw⟩ := hex
        rw [h.ok st a u r0 h0 hs hw]
        have hlen : (st.adv u.length (delta a)).slice.length < n := by
          rw [adv_slice hs]
          have := List.length_pos_iff.mpr (h.pos _ _ hw)
          rw [hs] at hn; simp at hn; omega
        have ih := nextLoop_terminates h n (st.adv u.length (delta a)) h0 hlen
        cases conv a with
        | ok b => simp
        | panic => simp
        | err e => cases e <;> simp [ih]
      · obtain ⟨x, hx1, hx2, hx3⟩ := h.bad st h0 (fun a u r hs hw => hex ⟨a, u, r, hs, hw⟩)
        rw [hx1]
        cases x with
        | ok b => exact absurd rfl (hx3 b)
        | panic => simp
        | err e => cases e <;> first | exact absurd rfl hx2 | simp

/-- On a well-formed stream a call skips the unsupported events and yields the first other one, or
`None` at the end. -/
theorem nextLoop_stream (h : IterSpec step conv delta W) : ∀ (n : Nat) (st : IterState) (items : List α)
    (r : Res (Option (Int × β))) (st' : IterState), st.bitIndex = 0 → Stream W items st.slice →
    (∀ a ∈ items, Conv.okOr .unsupportedEvent (conv a)) → nextLoop step n st = some (r, st') →
    (r = .ok none ∧ st'.slice = [] ∧ loopOut conv delta st.eventLoop items = [] ∧ st'.bitIndex = 0) ∨
    ∃ x items', r = .ok (some x) ∧ Stream W items' st'.slice ∧ st'.bitIndex = 0 ∧ (∀ a ∈ items', a ∈ items) ∧
      loopOut conv delta st.eventLoop items = x :: loopOut conv delta st'.eventLoop items'
  | 0, st, items, r, st', _, _, _, hn => by simp [nextLoop] at hn
  | n + 1, st, [], r, st', h0, hst, hc, hn => by
    have hst : st.slice = [] := hst
    simp only [nextLoop, hst, List.isEmpty_nil, if_true, Option.some.injEq, Prod.mk.injEq] at hn
    obtain ⟨rfl, rfl⟩ := hn
    exact .inl ⟨rfl, hst, rfl, h0⟩
  | n + 1, st, a :: items, r, st', h0, hst, hc, hn => by
    obtain ⟨u, d, hs, hw, hst⟩ := hst
    have hne : st.slice.isEmpty = false := by
      have := h.pos _ _ hw
      rw [hs]; cases u <;> simp_all
    simp only [nextLoop, hne, h.ok st a u d h0 hs hw] at hn
    have hsl := adv_slice hs (delta a)
    have hlo : loopOut conv delta st.eventLoop (a :: items) =
        ((conv a).toOpt.map (fun b => (st.eventLoop + delta a, b))).toList ++
          loopOut conv delta (st.adv u.length (delta a)).eventLoop items := by
      rw [show a :: items = [a] ++ items from rfl, loopOut_append, loopOut_single]
      simp [IterState.adv, sumDelta]
    rcases hc a (by simp) with ⟨b, hb⟩ | hb
    · rw [hb] at hn
      simp only [Bool.false_eq_true, if_false, Option.some.injEq, Prod.mk.injEq] at hn
      obtain ⟨rfl, rfl⟩ := hn
      refine .inr ⟨_, items, rfl, by rw [hsl]; exact hst, h0, fun x hx => by simp [hx], ?_⟩
      rw [hlo, hb]; rfl
    · rw [hb] at hn
      simp only [Bool.false_eq_true, if_false] at hn
      have ih := nextLoop_stream h n (st.adv u.length (delta a)) items r st' h0 (by rw [hsl]; exact hst) (fun x hx => hc x (by simp [hx])) hn
      rw [hlo, hb]
      rcases ih with ⟨h1, h2, h3, h4⟩ | ⟨x, items', h1, h2, h3, h4, h5⟩
      · exact .inl ⟨h1, h2, by rw [h3]; rfl, h4⟩
      · exact .inr ⟨x, items', h1, h2, h3, fun y hy => by simp [h4 y hy], by rw [h5]; rfl⟩

end IterSpec

theorem sumDelta_append {α : Type} (delta : α → Int) (xs ys : List α) :
    sumDelta delta (xs ++ ys) = sumDelta delta xs + sumDelta delta ys := by simp [sumDelta]

namespace IterSpec
variable {α β : Type} {step : IterState → Res β × IterState} {conv : α → Res β} {delta : α → Int}
  {W : α → List UInt8 → Prop}

theorem calls_spec (h : IterSpec step conv delta W) {st st' : IterState} {rs : List (Res (Option (Int × β)))}
    (hc : Calls (nextLoop step) st rs st') : st.bitIndex = 0 →
    ∃ items d rest, st.slice = d ++ rest ∧ Stream W items d ∧ st' = st.adv d.length (sumDelta delta items) ∧
      rs.flatMap yielded = loopOut conv delta st.eventLoop items := by
  induction hc with
  | nil st => intro _; exact ⟨[], [], st.slice, by simp, rfl, by simp [IterState.adv, sumDelta], by simp [loopOut, withLoops]⟩
  | cons hn _ ih =>
    intro h0
    obtain ⟨items1, d1, rest1, e1, s1, rfl, y1⟩ := h.nextLoop_spec _ _ _ _ h0 hn
    obtain ⟨items2, d2, rest2, e2, s2, rfl, y2⟩ := ih h0
    rw [adv_slice e1] at e2
    refine ⟨items1 ++ items2, d1 ++ d2, rest2, by rw [e1, e2, List.append_assoc], Stream_append _ _ _ _ s1 s2, ?_, ?_⟩
    · simp only [IterState.adv, sumDelta_append, List.length_append]; congr 1 <;> omega
    · rw [List.flatMap_cons, y1, y2, loopOut_append]; rfl

theorem calls_stream (h : IterSpec step conv delta W) {st st' : IterState} {rs : List (Res (Option (Int × β)))}
    (hc : Calls (nextLoop step) st rs st') : ∀ (items : List α), st.bitIndex = 0 → Stream W items st.slice →
    (∀ a ∈ items, Conv.okOr .unsupportedEvent (conv a)) →
    rs = ((loopOut conv delta st.eventLoop items).map (fun x => Res.ok (some x))).take rs.length ++
      List.replicate (rs.length - (loopOut conv delta st.eventLoop items).length) (Res.ok none) := by
  induction hc with
  | nil st => intros; simp
  | cons hn _ ih =>
    intro items h0 hst hcv
    rcases h.nextLoop_stream _ _ items _ _ h0 hst hcv hn with ⟨rfl, h2, h3, h4⟩ | ⟨x, items', rfl, h2, h3, h4, h5⟩
    · have := ih [] h4 h2 (by simp)
      rw [h3]
      simp only [loopOut, withLoops, List.filterMap_nil, List.map_nil, List.take_nil, List.nil_append,
        List.length_nil, Nat.sub_zero] at this ⊢
      rw [this]
      simp [List.replicate_succ]
    · have := ih items' h3 h2 (fun a ha => hcv a (h4 a ha))
      rw [h5]
      simp only [List.length_cons, List.map_cons, List.take_succ_cons, List.cons_append, List.cons.injEq, true_and]
      rw [show ∀ a b : Nat, a + 1 - (b + 1) = a - b by omega]
      exact this

end IterSpec

theorem stamped_eq {α : Type} (delta : α → Int) (items : List α) : stamped delta items = withLoops delta 0 items := by
  have gen : ∀ (items : List α) (l : Int) (k : Nat) (pre : List α), pre.length = k → sumDelta delta pre = l →
      (items.zipIdx k).map (fun p => ((((pre ++ items).take (p.2 + 1)).map delta).sum, p.1)) = withLoops delta l items := by
    intro items
    induction items with
    | nil => intros; rfl
    | cons a items ih =>
      intro l k pre hk hl
      simp only [List.zipIdx_cons, List.map_cons, withLoops]
      congr 1
      · rw [show (pre ++ a :: items).take (k + 1) = pre ++ [a] by
          rw [List.take_append, hk, show k + 1 - k = 1 by omega, List.take_of_length_le (by omega)]; simp]
        simp only [sumDelta] at hl
        simp [hl]
      · have := ih (l + delta a) (k + 1) (pre ++ [a]) (by simp [hk]) (by rw [sumDelta_append, hl]; simp [sumDelta])
        simpa using this
  have := gen items 0 0 [] rfl rfl
  simpa [stamped] using this

theorem loopOut_eq {α β : Type} (conv : α → Res β) (delta : α → Int) (items : List α) :
    loopOut conv delta 0 items = (stamped delta items).filterMap (fun p => (conv p.2).toOpt.map (fun b => (p.1, b))) := by
  rw [stamped_eq]; rfl

theorem withLoops_sorted {α : Type} (delta : α → Int) : ∀ (items : List α) (l : Int), (∀ a ∈ items, 0 ≤ delta a) →
    (withLoops delta l items).Pairwise (fun p q => p.1 ≤ q.1) ∧ ∀ p ∈ withLoops delta l items, l ≤ p.1
  | [], l, _ => by simp [withLoops]
  | a :: items, l, h => by
    have ha := h a (by simp)
    obtain ⟨h1, h2⟩ := withLoops_sorted delta items (l + delta a) (fun x hx => h x (by simp [hx]))
    refine ⟨List.pairwise_cons.mpr ⟨fun q hq => h2 q hq, h1⟩, ?_⟩
    intro p hp
    simp only [withLoops, List.mem_cons] at hp
    rcases hp with rfl | hp
    · show l ≤ l + delta a; omega
    · have := h2 p hp; omega

theorem stream_forall {α : Type} {W : α → List UInt8 → Prop} {P : α → Prop} (hP : ∀ a u, W a u → P a) :
    ∀ (items : List α) (d : List UInt8), Stream W items d → ∀ a ∈ items, P a
  | [], _, _, a, ha => by simp at ha
  | x :: xs, d, h, a, ha => by
    obtain ⟨u, d', _, hw, h⟩ := h
    rcases List.mem_cons.mp ha with rfl | ha
    · exact hP _ _ hw
    · exact stream_forall hP xs d' h a ha

theorem sumDelta_le {α : Type} {W : α → List UInt8 → Prop} {delta : α → Int} (hp : ∀ a u, W a u → u ≠ [])
    (hd : ∀ a u, W a u → 0 ≤ delta a ∧ delta a < 2 ^ 32) (items : List α) (d : List UInt8) (h : Stream W items d) :
    0 ≤ sumDelta delta items ∧ sumDelta delta items ≤ (2 ^ 32 - 1) * (d.length : Int) := by
  have hb := stream_forall hd items d h
  have hl := Stream_length hp items d h
  have : 0 ≤ sumDelta delta items ∧ sumDelta delta items ≤ (2 ^ 32 - 1) * (items.length : Int) := by
    clear hl h
    induction items with
    | nil => simp [sumDelta]
    | cons a items ih =>
      have h1 := ih (fun x hx => hb x (by simp [hx]))
      have h2 := hb a (by simp)
      simp only [sumDelta, List.map_cons, List.sum_cons, List.length_cons] at h1 ⊢
      omega
  omega

/-- No further event can be fetched. -/
def Stuck {α : Type} (W : α → List UInt8 → Prop) (st : IterState) : Prop :=
  st.bitIndex = 0 ∧ (st.slice = [] ∨ ∀ a u r, st.slice = u ++ r → ¬ W a u)

namespace IterSpec
variable {α β : Type} {step : IterState → Res β × IterState} {conv : α → Res β} {delta : α → Int}
  {W : α → List UInt8 → Prop}

theorem stuck_next (h : IterSpec step conv delta W) {n : Nat} {st st' : IterState} {r : Res (Option (Int × β))}
    (hs : Stuck W st) (hn : nextLoop step n st = some (r, st')) : st' = st ∧ yielded r = [] := by
  obtain ⟨h0, hs⟩ := hs
  obtain ⟨items, d, rest, h1, h2, rfl, h4⟩ := h.nextLoop_spec _ _ _ _ h0 hn
  have : items = [] := by
    cases items with
    | nil => rfl
    | cons a items =>
      obtain ⟨u, d', rfl, hw, _⟩ := h2
      rcases hs with hs | hs
      · rw [hs] at h1
        have := h.pos _ _ hw
        simp at h1; exact absurd h1.1 this
      · exact absurd hw (hs a u (d' ++ rest) (by rw [h1, List.append_assoc]))
  subst this
  have h2 : d = [] := h2
  subst h2
  exact ⟨by simp [IterState.adv, sumDelta], by rw [h4]; rfl⟩

theorem next_progress (h : IterSpec step conv delta W) {n : Nat} {st st' : IterState} {r : Res (Option (Int × β))}
    (h0 : st.bitIndex = 0) (hs : ¬ Stuck W st) (hn : nextLoop step n st = some (r, st')) :
    st.byteIndex < st'.byteIndex := by
  cases n with
  | zero => simp [nextLoop] at hn
  | succ n =>
    have hex : st.slice ≠ [] ∧ ∃ a u r, st.slice = u ++ r ∧ W a u := by
      refine ⟨fun he => hs ⟨h0, .inl he⟩, Classical.byContradiction fun hne => hs ⟨h0, .inr ?_⟩⟩
      intro a u r he hw; exact hne ⟨a, u, r, he, hw⟩
    obtain ⟨hne, a, u, r0, hsl, hw⟩ := hex
    have hpos := List.length_pos_iff.mpr (h.pos _ _ hw)
    have hemp : st.slice.isEmpty = false := by cases hh : st.slice <;> simp_all
    simp only [nextLoop, hemp, h.ok st a u r0 h0 hsl hw] at hn
    have hstep : ∀ x : Res (Option (Int × β)), some (x, st.adv u.length (delta a)) = some (r, st') →
        st.byteIndex < st'.byteIndex := by
      intro x hx
      simp only [Option.some.injEq, Prod.mk.injEq] at hx
      rw [← hx.2]; simp only [IterState.adv]; omega
    cases hc : conv a with
    | ok b => rw [hc] at hn; exact hstep _ hn
    | panic => rw [hc] at hn; exact hstep _ hn
    | err e =>
      rw [hc] at hn
      by_cases he : e = .unsupportedEvent
      · subst he
        simp only [Bool.false_eq_true, if_false] at hn
        obtain ⟨_, d, _, _, _, rfl, _⟩ := h.nextLoop_spec n (st.adv u.length (delta a)) st' r h0 hn
        simp only [IterState.adv]; omega
      · have hn' : some (Res.ok none, st.adv u.length (delta a)) = some (r, st') := by
          cases e <;> first | exact absurd rfl he | exact hn
        exact hstep _ hn'

/-- After more calls than consumed events the iterator is exhausted. -/
theorem calls_exhausted (h : IterSpec step conv delta W) {st st' : IterState} {rs : List (Res (Option (Int × β)))}
    (hc : Calls (nextLoop step) st rs st') : st.bitIndex = 0 →
    ∃ items d rest, st.slice = d ++ rest ∧ Stream W items d ∧ (rs.length ≤ items.length ∨ Stuck W st') := by
  induction hc with
  | nil st => intro _; exact ⟨[], [], st.slice, by simp, rfl, .inl (by simp)⟩
  | @cons st st1 st2 n r rs hn hcs ih =>
    intro h0
    obtain ⟨items1, d1, rest1, e1, s1, hst1, y1⟩ := h.nextLoop_spec _ _ _ _ h0 hn
    have h01 : st1.bitIndex = 0 := by rw [hst1]; exact h0
    obtain ⟨items2, d2, rest2, e2, s2, hor⟩ := ih h01
    rw [hst1, adv_slice e1] at e2
    refine ⟨items1 ++ items2, d1 ++ d2, rest2, by rw [e1, e2, List.append_assoc], Stream_append _ _ _ _ s1 s2, ?_⟩
    rcases hor with hor | hor
    · by_cases hs : Stuck W st
      · right
        obtain ⟨he, _⟩ := h.stuck_next hs hn
        rw [he] at hcs
        clear ih hn e1 e2 s1 s2 hst1 y1 h01 hor he h0
        induction hcs with
        | nil => exact hs
        | cons hn _ ih => exact ih (by obtain ⟨he, _⟩ := h.stuck_next hs hn; rw [he]; exact hs)
      · left
        have := h.next_progress h0 hs hn
        cases items1 with
        | nil =>
          have s1 : d1 = [] := s1
          subst s1
          rw [hst1] at this
          simp [IterState.adv] at this
        | cons a items1 => simp only [List.length_cons, List.length_append]; omega
    · exact .inr hor

/-- If no conversion fails otherwise than by `UnsupportedEventType`, `None` means exhausted. -/
theorem none_stuck (h : IterSpec step conv delta W) (hcv : ∀ a u, W a u → Conv.okOr .unsupportedEvent (conv a)) :
    ∀ (n : Nat) (st st' : IterState), st.bitIndex = 0 → nextLoop step n st = some (.ok none, st') → Stuck W st'
  | 0, st, st', _, hn => by simp [nextLoop] at hn
  | n + 1, st, st', h0, hn => by
    simp only [nextLoop] at hn
    split at hn
    · rename_i he
      simp only [Option.some.injEq, Prod.mk.injEq, true_and] at hn
      subst hn
      exact ⟨h0, .inl (by simpa using he)⟩
    · by_cases hex : ∃ a u r, st.slice = u ++ r ∧ W a u
      · obtain ⟨a, u, r0, hs, hw⟩ := hex
        rw [h.ok st a u r0 h0 hs hw] at hn
        rcases hcv a u hw with ⟨b, hb⟩ | hb
        · rw [hb] at hn; simp at hn
        · rw [hb] at hn
          exact none_stuck h hcv n (st.adv u.length (delta a)) st' h0 hn
      · have hst : Stuck W st := ⟨h0, .inr fun a u r hs hw => hex ⟨a, u, r, hs, hw⟩⟩
        obtain ⟨x, hx1, hx2, hx3⟩ := h.bad st h0 (fun a u r hs hw => hex ⟨a, u, r, hs, hw⟩)
        rw [hx1] at hn
        cases x with
        | ok b => exact absurd rfl (hx3 b)
        | panic => simp at hn
        | err e =>
          have hn' : some (Res.ok (none : Option (Int × β)), st) = some (Res.ok none, st') := by
            cases e <;> first | exact absurd rfl hx2 | exact hn
          simp only [Option.some.injEq, Prod.mk.injEq, true_and] at hn'
          exact hn' ▸ hst

theorem stuck_calls (h : IterSpec step conv delta W) {st st' : IterState} {rs : List (Res (Option (Int × β)))}
    (hs : Stuck W st) (hc : Calls (nextLoop step) st rs st') : st' = st ∧ ∀ r ∈ rs, yielded r = [] := by
  induction hc with
  | nil => simp
  | cons hn _ ih =>
    obtain ⟨he, hy⟩ := h.stuck_next hs hn
    subst he
    obtain ⟨h1, h2⟩ := ih hs
    refine ⟨h1, ?_⟩
    intro r hr
    rcases List.mem_cons.mp hr with rfl | hr
    · exact hy
    · exact h2 r hr

end IterSpec
end S2
