import Verif.Props.LoopOrder
import Verif.Props.Time
import Verif.Props.Commands
/-!
# C36 and C157 without a bound on the loops

The comparison of the two streams rounds the loop of the game event to an `f32`.  Here the order that results is given for
every loop, with the distance it can be from the order of the loops.
-/
namespace S2

/-- [specification] The loop by which an event is sorted: that of a tracker event is taken as it is, that of a game event is
first rounded to 24 significant bits (and stays within the range of `i64`). -/
def roundedLoop (e : SEvent) : Int := if e.isTracker then e.time else f32ToI64 (f32OfInt e.time)

/-- [specification] In order of the rounded loops, and of a game event and a tracker event at the same rounded loop the game
event first. -/
def InRoundedOrder (a b : SEvent) : Prop :=
  roundedLoop a ≤ roundedLoop b ∧ (a.isTracker = true → b.isTracker = false → roundedLoop a < roundedLoop b)

/-- [specification] In order up to rounding: within a stream the loops do not decrease; a tracker event comes before a game event
only if its loop is smaller, up to one part in `2^24` of the loop; a game event comes before a tracker event only if its loop is
not larger, up to one part in `2^24`. -/
def NearlyInOrder (a b : SEvent) : Prop :=
  (a.isTracker = b.isTracker → a.time ≤ b.time) ∧
  (a.isTracker = true → b.isTracker = false → 2 ^ 24 * (a.time + 1 - b.time) ≤ b.time) ∧
  (a.isTracker = false → b.isTracker = true → 2 ^ 24 * (a.time - b.time) ≤ a.time)

theorem f32ToI64_mono {a b : Int} (h : a ≤ b) : f32ToI64 a ≤ f32ToI64 b := by
  unfold f32ToI64
  have : i64Min ≤ i64Max := by decide
  split <;> split <;> (try split) <;> (try split) <;> omega

theorem rounded_mono {a b : Int} (h : a ≤ b) : f32ToI64 (f32OfInt a) ≤ f32ToI64 (f32OfInt b) :=
  f32ToI64_mono (Time.f32OfInt_mono h)

theorem rounded_error {x : Int} (h0 : 0 ≤ x) (h1 : x ≤ i64Max) : 2 ^ 24 * (f32ToI64 (f32OfInt x) - x).natAbs ≤ x.natAbs := by
  have he := f32OfInt_error x
  unfold f32ToI64
  have : i64Min < 0 := by decide
  split
  · omega
  · split <;> omega

theorem mergeEvents_rounded (s : SState) (ts : List (Int × TrackerEvt)) (gs : List (Int × (Int × GameEvt)))
    (ht : ts.Pairwise (fun p q => p.1 ≤ q.1)) (hg : gs.Pairwise (fun p q => p.1 ≤ q.1)) :
    (mergeEvents s ts gs).Pairwise InRoundedOrder := by
  fun_induction mergeEvents s ts gs with
  | case1 gs =>
    refine List.Pairwise.map _ ?_ hg
    intro a b h
    exact ⟨rounded_mono h, by simp [gameSEvent, SEvent.isTracker]⟩
  | case2 t ts =>
    refine List.Pairwise.map _ ?_ ht
    intro a b h
    exact ⟨h, by simp [trackerSEvent, SEvent.isTracker]⟩
  | case3 t ts g gs h ih =>
    obtain ⟨ht1, ht2⟩ := List.pairwise_cons.1 ht
    obtain ⟨hg1, hg2⟩ := List.pairwise_cons.1 hg
    refine List.pairwise_cons.2 ⟨?_, ih ht2 hg⟩
    intro e he
    rcases (mem_interleaving (mergeEvents_interleaving s ts (g :: gs))).1 he with he | he
    · obtain ⟨p, hp, rfl⟩ := List.mem_map.1 he
      exact ⟨ht1 p hp, by simp [trackerSEvent, SEvent.isTracker]⟩
    · obtain ⟨p, hp, rfl⟩ := List.mem_map.1 he
      have : t.1 < f32ToI64 (f32OfInt p.1) := by
        rcases List.mem_cons.1 hp with rfl | hp
        · exact h
        · exact Int.lt_of_lt_of_le h (rounded_mono (hg1 p hp))
      exact ⟨Int.le_of_lt this, fun _ _ => this⟩
  | case4 t ts g gs h ih =>
    obtain ⟨ht1, ht2⟩ := List.pairwise_cons.1 ht
    obtain ⟨hg1, hg2⟩ := List.pairwise_cons.1 hg
    refine List.pairwise_cons.2 ⟨?_, ih ht hg2⟩
    intro e he
    have hg' : (gameSEvent s g).isTracker = true → e.isTracker = false → roundedLoop (gameSEvent s g) < roundedLoop e := by
      simp [gameSEvent, SEvent.isTracker]
    refine ⟨?_, hg'⟩
    rcases (mem_interleaving (mergeEvents_interleaving s (t :: ts) gs)).1 he with he | he
    · obtain ⟨p, hp, rfl⟩ := List.mem_map.1 he
      have : f32ToI64 (f32OfInt g.1) ≤ p.1 := by
        rcases List.mem_cons.1 hp with rfl | hp
        · omega
        · have := ht1 p hp; omega
      exact this
    · obtain ⟨p, hp, rfl⟩ := List.mem_map.1 he
      exact rounded_mono (hg1 p hp)

theorem interleaving_pairwise {α : Type} {R : α → α → Prop} {a b c : List α} (h : Interleaving a b c)
    (ha : a.Pairwise R) (hb : b.Pairwise R) (hab : ∀ x ∈ a, ∀ y ∈ b, R x y ∧ R y x) : c.Pairwise R := by
  induction h with
  | nil => exact .nil
  | @left x a b c h ih =>
    obtain ⟨h1, h2⟩ := List.pairwise_cons.1 ha
    refine List.pairwise_cons.2 ⟨?_, ih h2 hb (fun x hx y hy => hab x (by simp [hx]) y hy)⟩
    intro e he
    rcases (mem_interleaving h).1 he with he | he
    · exact h1 e he
    · exact (hab x (by simp) e he).1
  | @right x a b c h ih =>
    obtain ⟨h1, h2⟩ := List.pairwise_cons.1 hb
    refine List.pairwise_cons.2 ⟨?_, ih ha h2 (fun x hx y hy => hab x hx y (by simp [hy]))⟩
    intro e he
    rcases (mem_interleaving h).1 he with he | he
    · exact (hab e he x (by simp)).2
    · exact h1 e he

/-- Within each stream the loops do not decrease. -/
theorem mergeEvents_streams (s : SState) (ts : List (Int × TrackerEvt)) (gs : List (Int × (Int × GameEvt)))
    (ht : ts.Pairwise (fun p q => p.1 ≤ q.1)) (hg : gs.Pairwise (fun p q => p.1 ≤ q.1)) :
    (mergeEvents s ts gs).Pairwise (fun a b => a.isTracker = b.isTracker → a.time ≤ b.time) := by
  refine interleaving_pairwise (mergeEvents_interleaving s ts gs) (List.Pairwise.map _ (fun a b h _ => h) ht)
    (List.Pairwise.map _ (fun a b h _ => h) hg) ?_
  intro x hx y hy
  obtain ⟨p, hp, rfl⟩ := List.mem_map.1 hx
  obtain ⟨q, hq, rfl⟩ := List.mem_map.1 hy
  simp [trackerSEvent, gameSEvent, SEvent.isTracker]

theorem nearly_of_rounded {a b : SEvent} (ha : a.isTracker = false → 0 ≤ a.time ∧ a.time ≤ i64Max)
    (hb : b.isTracker = false → 0 ≤ b.time ∧ b.time ≤ i64Max) (h : InRoundedOrder a b)
    (hs : a.isTracker = b.isTracker → a.time ≤ b.time) : NearlyInOrder a b := by
  refine ⟨hs, ?_, ?_⟩
  · intro h1 h2
    have := h.2 h1 h2
    simp only [roundedLoop, h1, h2, if_true, Bool.false_eq_true, if_false] at this
    have e := rounded_error (hb h2).1 (hb h2).2
    have := (hb h2).1
    generalize f32ToI64 (f32OfInt b.time) = k at *
    omega
  · intro h1 h2
    have := h.1
    simp only [roundedLoop, h1, h2, if_true, Bool.false_eq_true, if_false] at this
    have e := rounded_error (ha h1).1 (ha h1).2
    have := (ha h1).1
    generalize f32ToI64 (f32OfInt a.time) = k at *
    omega

theorem pairwise_of_events {R : SEvent → SEvent → Prop} {R' : Int × Bool → Int × Bool → Prop}
    (hR : ∀ a b : SEvent, R a b ↔ R' (a.time, a.isTracker) (b.time, b.isTracker)) {items : List Item} {es : List SEvent}
    (h : es.Pairwise R)
    (he : items.map (fun it => (it.event.time, it.event.isTracker)) = es.map (fun e => (e.time, e.isTracker))) :
    (items.map Item.event).Pairwise R := by
  have h1 : (es.map (fun e => (e.time, e.isTracker))).Pairwise R' := List.Pairwise.map _ (fun a b h => (hR a b).1 h) h
  rw [← he] at h1
  rw [List.pairwise_map] at h1 ⊢
  exact h1.imp (fun h => (hR _ _).2 h)

theorem delivered_sublist (bld : Build) (version : Nat) (s : SState) (titems : List (Int × Val)) (gitems : List (Int × Int × Val))
    (trk game : List UInt8) (ht : Stream (TrackerWire bld) titems trk) (hutf : ∀ p ∈ titems, convTracker p.2 ≠ .err .utf8)
    (hg : Stream (TripletWire bld (gameEventTy version)) gitems game)
    (o : Option Filters) (rs : List (Res (Option Item))) (m : MState)
    (hc : Calls (mnext bld version) (MState.new s trk game o) rs m) (hok : ∀ r ∈ rs, ∃ x, r = .ok x) :
    ∃ items k s2, runItems bld s ((mergeEvents s (trackerTimeline titems) (gameTimeline gitems)).take k) = .ok (items, s2) ∧
      (rs.flatMap yielded).Sublist items := by
  obtain ⟨xs, hp, _, hy⟩ := calls_pulls hc hok
  obtain ⟨items, h1, h2⟩ := rep_pulls hp _ _ (rep_new o ht hutf hg)
  have hxi : xs.filterMap id = items := by
    rw [h2, List.filterMap_append]
    have : (List.replicate (xs.length - (mergeEvents s (trackerTimeline titems) (gameTimeline gitems)).length)
        (none : Option Item)).filterMap id = [] := by
      rw [List.filterMap_eq_nil_iff]
      intro a ha
      rw [(List.mem_replicate.1 ha).2]; rfl
    rw [this]; simp
  have hsub : (rs.flatMap yielded).Sublist items := by
    rw [hy, hxi]
    unfold quota
    split
    · exact List.filter_sublist
    · split
      · exact List.filter_sublist
      · exact (List.take_sublist _ _).trans List.filter_sublist
  exact ⟨items, _, _, h1, hsub⟩

/-- **C36 (any loops)** whatever the loops and the filters, the events delivered by any successful calls are in order of the
rounded loops, game events first at equal rounded loops. -/
theorem C36_rounded_order (bld : Build) (version : Nat) (s : SState) (titems : List (Int × Val)) (gitems : List (Int × Int × Val))
    (trk game : List UInt8) (ht : Stream (TrackerWire bld) titems trk) (hutf : ∀ p ∈ titems, convTracker p.2 ≠ .err .utf8)
    (hg : Stream (TripletWire bld (gameEventTy version)) gitems game)
    (o : Option Filters) (rs : List (Res (Option Item))) (m : MState)
    (hc : Calls (mnext bld version) (MState.new s trk game o) rs m) (hok : ∀ r ∈ rs, ∃ x, r = .ok x) :
    ((rs.flatMap yielded).map Item.event).Pairwise InRoundedOrder := by
  obtain ⟨items, k, s2, h1, hsub⟩ := delivered_sublist bld version s titems gitems trk game ht hutf hg o rs m hc hok
  have hgs := gameTimeline_sorted hg
  have hsorted := mergeEvents_rounded s _ _ (trackerTimeline_sorted ht) hgs.1
  refine (pairwise_of_events (R' := fun a b : Int × Bool =>
    (if a.2 then a.1 else f32ToI64 (f32OfInt a.1)) ≤ (if b.2 then b.1 else f32ToI64 (f32OfInt b.1)) ∧
    (a.2 = true → b.2 = false → (if a.2 then a.1 else f32ToI64 (f32OfInt a.1)) < (if b.2 then b.1 else f32ToI64 (f32OfInt b.1))))
    (fun a b => Iff.rfl) ?_ (runItems_events h1)).sublist (hsub.map _)
  exact hsorted.sublist (List.take_sublist _ _)

/-- **C36 (any loops, distance)** so with loops that fit an `i64` a delivered event is ahead of an earlier one by at most one part
in `2^24` of its loop, and never ahead of an earlier one of its own stream.  Below loop `2^24` this is the order of the loops. -/
theorem C36_nearly_ordered (bld : Build) (version : Nat) (s : SState) (titems : List (Int × Val)) (gitems : List (Int × Int × Val))
    (trk game : List UInt8) (ht : Stream (TrackerWire bld) titems trk) (hutf : ∀ p ∈ titems, convTracker p.2 ≠ .err .utf8)
    (hg : Stream (TripletWire bld (gameEventTy version)) gitems game) (hb : ∀ g ∈ gameTimeline gitems, g.1 ≤ i64Max)
    (o : Option Filters) (rs : List (Res (Option Item))) (m : MState)
    (hc : Calls (mnext bld version) (MState.new s trk game o) rs m) (hok : ∀ r ∈ rs, ∃ x, r = .ok x) :
    ((rs.flatMap yielded).map Item.event).Pairwise NearlyInOrder := by
  obtain ⟨items, k, s2, h1, hsub⟩ := delivered_sublist bld version s titems gitems trk game ht hutf hg o rs m hc hok
  have hgs := gameTimeline_sorted hg
  have hts := trackerTimeline_sorted ht
  have hrange : ∀ e ∈ mergeEvents s (trackerTimeline titems) (gameTimeline gitems),
      e.isTracker = false → 0 ≤ e.time ∧ e.time ≤ i64Max := by
    intro e he hf
    rcases (mem_interleaving (mergeEvents_interleaving s _ _)).1 he with he | he
    · obtain ⟨p, hp, rfl⟩ := List.mem_map.1 he
      cases hf
    · obtain ⟨p, hp, rfl⟩ := List.mem_map.1 he
      exact ⟨hgs.2 p hp, hb p hp⟩
  have hsorted : (mergeEvents s (trackerTimeline titems) (gameTimeline gitems)).Pairwise NearlyInOrder :=
    ((mergeEvents_rounded s _ _ hts hgs.1).and (mergeEvents_streams s _ _ hts hgs.1)).imp_of_mem
      (fun ha hb h => nearly_of_rounded (hrange _ ha) (hrange _ hb) h.1 h.2)
  refine (pairwise_of_events (R' := fun a b : Int × Bool => (a.2 = b.2 → a.1 ≤ b.1) ∧
    (a.2 = true → b.2 = false → 2 ^ 24 * (a.1 + 1 - b.1) ≤ b.1) ∧ (a.2 = false → b.2 = true → 2 ^ 24 * (a.1 - b.1) ≤ a.1))
    (fun a b => Iff.rfl) ?_ (runItems_events h1)).sublist (hsub.map _)
  exact hsorted.sublist (List.take_sublist _ _)

/-- Below loop `2^24` the two orders are the order of the loops. -/
theorem nearly_below {a b : SEvent} (ha : 0 ≤ a.time ∧ a.time < 2 ^ 24) (hb : 0 ≤ b.time ∧ b.time < 2 ^ 24) :
    NearlyInOrder a b ↔ InOrder a b := by
  unfold NearlyInOrder InOrder
  cases a.isTracker <;> cases b.isTracker <;> simp <;> omega

/-- The sectors of `C36_ordered_refuted` meet the hypotheses, and the two events delivered are one loop out of order. -/
example (bld : Build) : (delivers bld demoState wLate wCameraLate none 3).map (List.map (fun e => (e.time, e.isTracker))) =
      some [(2 ^ 24 + 1, false), (2 ^ 24, true)] ∧ (∀ g ∈ gameTimeline [vCameraLate], g.1 ≤ i64Max) := by
  cases bld <;> decide +kernel

/-- **C157 (any loops, the order)** there is only one way to put the tracker events and the game events together in which each
stream keeps its order and the rounded loops are in order. -/
theorem C157_only_rounded_order {ts gs es es' : List SEvent} (ht : ∀ t ∈ ts, t.isTracker = true)
    (hg : ∀ g ∈ gs, g.isTracker = false) (h : Interleaving ts gs es) (hp : es.Pairwise InRoundedOrder)
    (h' : Interleaving ts gs es') (hp' : es'.Pairwise InRoundedOrder) : es = es' := by
  induction h generalizing es' with
  | nil => rw [interleaving_nil_left h']
  | @left t ts gs es h ih =>
    obtain ⟨h1, h2⟩ := List.pairwise_cons.1 hp
    cases h' with
    | left h'' => rw [ih (fun x hx => ht x (by simp [hx])) hg h2 h'' (List.pairwise_cons.1 hp').2]
    | @right g _ gs es'' h'' =>
      have a := (h1 g ((mem_interleaving h).2 (.inr (by simp)))).2 (ht t (by simp)) (hg g (by simp))
      have b := ((List.pairwise_cons.1 hp').1 t ((mem_interleaving h'').2 (.inl (by simp)))).1
      omega
  | @right g ts gs es h ih =>
    obtain ⟨h1, h2⟩ := List.pairwise_cons.1 hp
    cases h' with
    | right h'' => rw [ih ht (fun x hx => hg x (by simp [hx])) h2 h'' (List.pairwise_cons.1 hp').2]
    | @left t ts _ es'' h'' =>
      have a := ((List.pairwise_cons.1 hp').1 g ((mem_interleaving h'').2 (.inr (by simp)))).2 (ht t (by simp)) (hg g (by simp))
      have b := (h1 t ((mem_interleaving h).2 (.inl (by simp)))).1
      omega

/-- **C157 (any loops)** whatever the loops: the events of a replay are processed in the one order in which each stream keeps
its order and the rounded loops are in order, game events first.  `k` calls without filters deliver the first `k` of them, each in
the state the earlier ones leave, then nothing; and every table has the rows of the events processed in that order (`rows` is
what a table takes from one delivered event, `f` the rows of an event in a state). -/
theorem C157_any_loops (bld : Build) (version : Nat) (s : SState) (titems : List (Int × Val))
    (gitems : List (Int × Int × Val)) (trk game : List UInt8) (ht : Stream (TrackerWire bld) titems trk)
    (hutf : ∀ p ∈ titems, convTracker p.2 ≠ .err .utf8) (hg : Stream (TripletWire bld (gameEventTy version)) gitems game) :
    ∃ es, Interleaving ((trackerTimeline titems).map trackerSEvent) ((gameTimeline gitems).map (gameSEvent s)) es ∧
      es.Pairwise InRoundedOrder ∧
      (∀ rs m, Calls (mnext bld version) (MState.new s trk game none) rs m → (∀ r ∈ rs, ∃ x, r = .ok x) →
        ∃ items, runItems bld s (es.take rs.length) = .ok (items, m.sc2) ∧
          rs = items.map (fun it => .ok (some it)) ++ List.replicate (rs.length - es.length) (.ok none)) ∧
      (∀ (ρ : Type) (rows : Item → List ρ) (f : SState → SEvent → List ρ),
        (∀ s e s' it, transition bld s e = .ok (s', it) → rows it = f s e) →
        ∀ n out, collectRows rows bld version n (MState.new s trk game none) = some (.ok out) → out = rowsAlong bld f s es) :=
  ⟨mergeEvents s (trackerTimeline titems) (gameTimeline gitems), mergeEvents_interleaving s _ _,
    mergeEvents_rounded s _ _ (trackerTimeline_sorted ht) (gameTimeline_sorted hg).1,
    fun rs m hc hok => merged_exact bld version s titems gitems trk game ht hutf hg rs m hc hok,
    fun _ _ _ hf _ _ h => collectRows_exact hf ht hutf hg h⟩

/-- Its hypotheses hold of the replay of `C157_point_table_refuted`. -/
example (bld : Build) : Stream (TrackerWire bld) [vLate, vScv] wTrackLate ∧
    (∀ p ∈ [vLate, vScv], convTracker p.2 ≠ .err .utf8) ∧
    Stream (TripletWire bld (gameEventTy 90000)) [vCameraLate, vSelectNow, vOrderPoint] wGameLate := late_streams bld

end S2
