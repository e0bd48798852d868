import Verif.Props.Merged
import Verif.Spec.FilterSpec
/-!
# Filters of the combined iterator (C36–C40, C73, C82–C84)
-/
namespace S2

/-! ## Running the iterator on concrete data -/

/-- `k` calls of up to `n` rounds each; `none` if one of them panics or does not return. -/
def runCalls (bld : Build) (version n : Nat) : Nat → MState → Option (List (Option Item) × MState)
  | 0, m => some ([], m)
  | k + 1, m =>
    match mnext bld version n m with
    | some (.ok x, m1) => (runCalls bld version n k m1).map (fun p => (x :: p.1, p.2))
    | _ => none

theorem runCalls_calls {bld : Build} {version n : Nat} : ∀ {k : Nat} {m m' : MState} {xs : List (Option Item)},
    runCalls bld version n k m = some (xs, m') → Calls (mnext bld version) m (xs.map .ok) m'
  | 0, m, m', xs, h => by
    simp only [runCalls, Option.some.injEq, Prod.mk.injEq] at h
    obtain ⟨rfl, rfl⟩ := h
    exact .nil _
  | k + 1, m, m', xs, h => by
    simp only [runCalls] at h
    split at h
    · rename_i x m1 hn
      obtain ⟨⟨ys, m2⟩, h1, h2⟩ := Option.map_eq_some_iff.1 h
      simp only [Prod.mk.injEq] at h2
      obtain ⟨rfl, rfl⟩ := h2
      exact .cons hn (runCalls_calls h1)
    · cases h

/-- The events `k` calls deliver over the two sectors. -/
def delivers (bld : Build) (s : SState) (trk game : List UInt8) (o : Option Filters) (k : Nat) : Option (List SEvent) :=
  (runCalls bld 90000 20 k (MState.new s trk game o)).map (fun p => (p.1.filterMap id).map Item.event)

theorem delivers_calls {bld : Build} {s : SState} {trk game : List UInt8} {o : Option Filters} {k : Nat} {es : List SEvent}
    (h : delivers bld s trk game o k = some es) :
    ∃ rs m, Calls (mnext bld 90000) (MState.new s trk game o) rs m ∧ (∀ r ∈ rs, ∃ x, r = .ok x) ∧
      (rs.flatMap yielded).map Item.event = es := by
  unfold delivers at h
  obtain ⟨⟨xs, m⟩, h1, h2⟩ := Option.map_eq_some_iff.1 h
  refine ⟨_, _, runCalls_calls h1, ?_, ?_⟩
  · intro r hr
    obtain ⟨x, _, rfl⟩ := List.mem_map.1 hr
    exact ⟨x, rfl⟩
  · rw [← h2]
    congr 1
    clear h1 h2 h
    induction xs with
    | nil => rfl
    | cons x xs ih => cases x <;> simp [yielded, ih]

/-- The unit-done event 14 bytes of `wDone`, 2^24 loops after the start. -/
def wLate : List UInt8 := [3, 6, 9, 0x80, 0x80, 0x80, 0x10, 9, 14, 5, 4, 0, 9, 2, 2, 9, 4]
def vLate : Int × Val := (2 ^ 24, vDone.2)
/-- The camera update of `wCamera`, 2^24 + 1 loops after the start. -/
def wCameraLate : List UInt8 := [3, 0x40, 0, 0, 13, 0x31, 0x08]
def vCameraLate : Int × Int × Val := (2 ^ 24 + 1, vCamera.2)

theorem wLate_wire (bld : Build) : TrackerWire bld vLate wLate := by
  have h : parsePair bld wLate = .ok ([], vLate) := by cases bld <;> decide +kernel
  obtain ⟨u, h1, h2⟩ := (parsePair_iff ..).1 h
  simp at h1; exact h1 ▸ h2

theorem wCameraLate_wire (bld : Build) : TripletWire bld (gameEventTy 90000) vCameraLate wCameraLate :=
  tripletWire_of_parse (gameEventTy_wf _) (by cases bld <;> decide +kernel)


/-- With a game loop above `2^24` the full claim fails: the comparison rounds 2^24 + 1 to 2^24, and the game
event is delivered before the earlier tracker event, for well-formed sectors. -/
theorem C36_ordered_refuted (bld : Build) :
    Stream (TrackerWire bld) [vLate] wLate ∧ Stream (TripletWire bld (gameEventTy 90000)) [vCameraLate] wCameraLate ∧
    (∀ p ∈ [vLate], convTracker p.2 ≠ .err .utf8) ∧
    ∃ rs m, Calls (mnext bld 90000) (MState.new demoState wLate wCameraLate none) rs m ∧ (∀ r ∈ rs, ∃ x, r = .ok x) ∧
      (rs.flatMap yielded).map (fun it => (it.event.time, it.event.isTracker)) = [(2 ^ 24 + 1, false), (2 ^ 24, true)] := by
  refine ⟨⟨_, [], by simp, wLate_wire bld, rfl⟩, ⟨_, [], by simp, wCameraLate_wire bld, rfl⟩, by decide +kernel, ?_⟩
  have hd : (delivers bld demoState wLate wCameraLate none 3).map (List.map (fun e => (e.time, e.isTracker))) =
      some [(2 ^ 24 + 1, false), (2 ^ 24, true)] := by cases bld <;> decide +kernel
  obtain ⟨es, h1, h2⟩ := Option.map_eq_some_iff.1 hd
  obtain ⟨rs, m, h3, h4, h5⟩ := delivers_calls h1
  refine ⟨rs, m, h3, h4, ?_⟩
  rw [← h2, ← h5, List.map_map]
  rfl

/-- A merged run: two tracker events (loops 5 and 10) and two game events (loops 5 and 10, both of user 3);
the game events come first at equal loops. -/
example (bld : Build) : (delivers bld demoState (wDone ++ wDone) (wCamera ++ wCamera) none 6).map
    (List.map (fun e => (e.time, e.isTracker))) = some [(5, false), (5, true), (10, false), (10, true)] := by
  cases bld <;> decide +kernel

/-- `C35_merged` and `C36_ordered_partial` apply to it. -/
example (bld : Build) : Stream (TrackerWire bld) [vDone, vDone] (wDone ++ wDone) ∧
    Stream (TripletWire bld (gameEventTy 90000)) [vCamera, vCamera] (wCamera ++ wCamera) ∧
    (∀ p ∈ [vDone, vDone], convTracker p.2 ≠ .err .utf8) ∧ (∀ g ∈ gameTimeline [vCamera, vCamera], g.1 ≤ 2 ^ 24) :=
  ⟨⟨_, _, rfl, wDone_wire bld, _, [], by simp, wDone_wire bld, rfl⟩,
   ⟨_, _, rfl, wCamera_wire bld, _, [], by simp, wCamera_wire bld, rfl⟩, by decide +kernel, by decide +kernel⟩

/-! ## The `should_skip` functions implement the specification -/

theorem differs_iff {α : Type} [DecidableEq α] (o : Option α) (v : α) : differs o v = false ↔ ∀ x, o = some x → v = x := by
  cases o <;> simp [differs]

theorem wanted_iff (f : Filters) (e : SEvent) : (!shouldSkipEvent f e) = true ↔ Wanted f e := by
  obtain ⟨pid, tag, mn, mx, ty, un, me, st⟩ := f
  simp only [Bool.not_eq_true', shouldSkipEvent, Bool.or_eq_false_iff, Wanted]
  apply and_congr
  · cases e with
    | game => cases mn <;> cases mx <;> simp [InWindow]
    | tracker l te => cases mn <;> cases mx <;> simp [InWindow]
  · cases e with
    | game l u n ge =>
      simp only [SEvent.shouldSkip, differs_iff, OfPlayer, OfUnitType]
      simp [asU]
    | tracker l te =>
      cases te <;> simp only [SEvent.shouldSkip, TrackerEvt.shouldSkip, Bool.or_eq_false_iff, differs_iff, OfPlayer, OfUnitType] <;>
        try simp
      cases pid <;> simp

/-! ## Every delivered item passed the filters -/

theorem delivered_accepted {bld : Build} {version : Nat} {s : SState} {trk game : List UInt8} {o : Option Filters}
    {rs : List (Res (Option Item))} {m : MState}
    (hc : Calls (mnext bld version) (MState.new s trk game o) rs m) (hok : ∀ r ∈ rs, ∃ x, r = .ok x)
    {it : Item} (hit : it ∈ rs.flatMap yielded) : accepts o it = true := by
  obtain ⟨xs, _, _, hy⟩ := calls_pulls hc hok
  rw [hy] at hit
  have : it ∈ (xs.filterMap id).filter (accepts o) := by
    unfold quota at hit
    split at hit
    · exact hit
    · split at hit
      · exact hit
      · exact List.mem_of_mem_take hit
  exact (List.mem_filter.1 this).2

/-! ## C37 -/

/-- Well-formed sectors, and processing the whole merged sequence `es` succeeds with items `all`: with
`max_events = N` as many calls as there are events deliver exactly the first `N - 1` of the items the other
filters accept — the full claim would be the first `N`. -/
theorem C37_max_events_partial (bld : Build) (version : Nat) (s : SState) (titems : List (Int × Val)) (gitems : List (Int × Int × Val))
    (trk game : List UInt8) (ht : Stream (TrackerWire bld) titems trk) (hutf : ∀ p ∈ titems, convTracker p.2 ≠ .err .utf8)
    (hg : Stream (TripletWire bld (gameEventTy version)) gitems game) :
    ∃ es, Interleaving ((trackerTimeline titems).map trackerSEvent) ((gameTimeline gitems).map (gameSEvent s)) es ∧
      ∀ all s', runItems bld s es = .ok (all, s') → ∀ (f : Filters) (N : Nat), f.maxEvents = some N → ∀ rs m,
        Calls (mnext bld version) (MState.new s trk game (some f)) rs m → (∀ r ∈ rs, ∃ x, r = .ok x) → es.length ≤ rs.length →
        ∃ wanted : Item → Bool, (∀ it, wanted it = true ↔ Wanted f it.event) ∧
          rs.flatMap yielded = (all.filter wanted).take (N - 1) := by
  refine ⟨mergeEvents s (trackerTimeline titems) (gameTimeline gitems), mergeEvents_interleaving _ _ _, ?_⟩
  intro all s' hall f N hN rs m hc hok hlen
  obtain ⟨xs, hp, hxl, hy⟩ := calls_pulls hc hok
  obtain ⟨items, h1, h2⟩ := rep_pulls hp _ _ (rep_new (some f) ht hutf hg)
  have hf : (MState.new s trk game (some f)).sc2 = s := rfl
  rw [hf, List.take_of_length_le (by omega), hall] at h1
  simp only [Res.ok.injEq, Prod.mk.injEq] at h1
  have hxi : xs.filterMap id = all := by
    rw [h2, List.filterMap_append, ← h1.1]
    have : (List.replicate (xs.length - (mergeEvents s (trackerTimeline titems) (gameTimeline gitems)).length)
        (none : Option Item)).filterMap id = [] := by
      rw [List.filterMap_eq_nil_iff]
      intro a ha
      rw [(List.mem_replicate.1 ha).2]; rfl
    rw [this]; simp
  refine ⟨_, fun it => wanted_iff f it.event, ?_⟩
  rw [hy, hxi]
  simp only [MState.new, quota, hN]
  rfl

/-- `max_events = 1` delivers nothing although there is an acceptable event; `max_events = 2` delivers one
of the two. -/
theorem C37_max_events_refuted (bld : Build) :
    (delivers bld demoState (wDone ++ wDone) [] (some { Filters.default with maxEvents := some 1 }) 6).map List.length = some 0 ∧
    (delivers bld demoState (wDone ++ wDone) [] (some { Filters.default with maxEvents := some 2 }) 6).map List.length = some 1 ∧
    (delivers bld demoState (wDone ++ wDone) [] (some Filters.default) 6).map List.length = some 2 := by
  cases bld <;> decide +kernel

/-! ## C38 -/

/-- Any bytes: every delivered tracker event lies in the window `[min_loop, max_loop]`. -/
theorem C38_tracker_window_partial (bld : Build) (version : Nat) (s : SState) (trk game : List UInt8) (f : Filters)
    (rs : List (Res (Option Item))) (m : MState)
    (hc : Calls (mnext bld version) (MState.new s trk game (some f)) rs m) (hok : ∀ r ∈ rs, ∃ x, r = .ok x)
    (it : Item) (hit : it ∈ rs.flatMap yielded) (l : Int) (e : TrackerEvt) (he : it.event = .tracker l e) :
    (∀ a, f.minLoop = some a → a ≤ l) ∧ (∀ b, f.maxLoop = some b → l ≤ b) := by
  have := delivered_accepted hc hok hit
  simp only [accepts, he, shouldSkipEvent, Bool.not_eq_true', Bool.or_eq_false_iff] at this
  refine ⟨fun a ha => ?_, fun b hb => ?_⟩
  · have h1 := this.1.1
    rw [ha] at h1
    simp only [decide_eq_false_iff_not] at h1
    omega
  · have h1 := this.1.2
    rw [hb] at h1
    simp only [decide_eq_false_iff_not] at h1
    omega

/-- Game events are delivered outside the window: window `[7, 8]`, events at loop 5 and 10. -/
theorem C38_game_window_refuted (bld : Build) :
    delivers bld demoState (wDone ++ wDone) (wCamera ++ wCamera)
      (some { Filters.default with minLoop := some 7, maxLoop := some 8 }) 6 =
      some [.game 5 3 none (.cameraUpdate none ⟨none, none, none, none, true⟩),
        .game 10 3 none (.cameraUpdate none ⟨none, none, none, none, true⟩)] := by
  cases bld <;> decide +kernel

/-! ## C39 -/

theorem pulls_calls {bld : Build} {version : Nat} {m m' : MState} {xs : List (Option Item)}
    (h : Pulls bld version m xs m') : m.filters = none → Calls (mnext bld version) m (xs.map .ok) m' := by
  induction h with
  | nil m => intro _; exact .nil _
  | @cons m m1 m2 x xs hp _ ih =>
    intro hf
    have hf1 := (pull_keeps_filters hp).trans hf
    refine .cons (n := 1) (st1 := m1) ?_ (ih hf1)
    simp only [mnext, hp]
    cases x with
    | none => rfl
    | some it => simp only [hf1]

theorem flatMap_yielded (xs : List (Option Item)) : (xs.map Res.ok).flatMap yielded = xs.filterMap id := by
  induction xs with
  | nil => rfl
  | cons x xs ih => cases x <;> simp [yielded, ih]

/-- Any bytes, any filters: a run with filters that does not panic is matched by a run without filters that
ends in the same replay state (and with the same events still to come); what the filtered run delivers is a
subsequence of what the unfiltered run delivers, item by item. -/
theorem C39_filters_only_hide (bld : Build) (version : Nat) (s : SState) (trk game : List UInt8) (o : Option Filters)
    (rs : List (Res (Option Item))) (m : MState)
    (hc : Calls (mnext bld version) (MState.new s trk game o) rs m) (hok : ∀ r ∈ rs, ∃ x, r = .ok x) :
    ∃ rs0 m0, Calls (mnext bld version) (MState.new s trk game none) rs0 m0 ∧ (∀ r ∈ rs0, ∃ x, r = .ok x) ∧
      m0.sc2 = m.sc2 ∧ m0 = { m with filters := none } ∧ (rs.flatMap yielded).Sublist (rs0.flatMap yielded) := by
  obtain ⟨xs, hp, _, hy⟩ := calls_pulls hc hok
  have h0 := pulls_calls (hp.change_filters none) rfl
  refine ⟨_, _, h0, ?_, rfl, rfl, ?_⟩
  · intro r hr
    obtain ⟨x, _, rfl⟩ := List.mem_map.1 hr
    exact ⟨x, rfl⟩
  · rw [flatMap_yielded, hy]
    unfold quota
    split
    · exact List.filter_sublist
    · split
      · exact List.filter_sublist
      · exact (List.take_sublist _ _).trans List.filter_sublist

/-- Without a counter the filters hide exactly what they reject: the same number of rounds, without and with
filters. -/
theorem C39_hides_rejected (bld : Build) (version : Nat) (s : SState) (trk game : List UInt8) (f : Filters)
    (hN : f.maxEvents = none) (rs : List (Res (Option Item))) (m : MState)
    (hc : Calls (mnext bld version) (MState.new s trk game (some f)) rs m) (hok : ∀ r ∈ rs, ∃ x, r = .ok x) :
    ∃ rs0, Calls (mnext bld version) (MState.new s trk game none) rs0 { m with filters := none } ∧
      ∃ wanted : Item → Bool, (∀ it, wanted it = true ↔ Wanted f it.event) ∧
        rs.flatMap yielded = (rs0.flatMap yielded).filter wanted := by
  obtain ⟨xs, hp, _, hy⟩ := calls_pulls hc hok
  have h0 := pulls_calls (hp.change_filters none) rfl
  refine ⟨_, h0, _, fun it => wanted_iff f it.event, ?_⟩
  rw [flatMap_yielded, hy]
  simp only [MState.new, quota, hN]
  rfl

example (bld : Build) : (delivers bld demoState (wDone ++ wDone) (wCamera ++ wCamera) (some { Filters.default with playerId := some 2 }) 6).map
    (List.map (fun e => (e.time, e.isTracker))) = some [(5, true), (10, true)] := by
  cases bld <;> decide +kernel

/-! ## C40 -/

/-- The player (or user) number an event names. -/
def playerNamed : SEvent → Option Int
  | .tracker _ (.playerStats p _) => some p
  | .tracker _ (.unitBorn e) => some e.controlPlayerId
  | .tracker _ (.unitInit e) => some e.controlPlayerId
  | .tracker _ (.unitOwnerChange e) => some e.controlPlayerId
  | .tracker _ (.unitDied e) => e.killerPlayerId
  | .tracker _ (.upgrade e) => some e.playerId
  | .tracker _ (.playerSetup e) => some e.playerId
  | .tracker _ (.unitTypeChange _) => none
  | .tracker _ (.unitDone _) => none
  | .tracker _ (.unitPosition _) => none
  | .game _ u _ _ => some u

theorem runItems_mem {bld : Build} : ∀ {es : List SEvent} {s s2 : SState} {items : List Item},
    runItems bld s es = .ok (items, s2) → ∀ it ∈ items, ∃ e ∈ es, ∃ s1 s1', transition bld s1 e = .ok (s1', it)
  | [], s, s2, items, h, it, hit => by
    simp only [runItems, Res.ok.injEq, Prod.mk.injEq] at h; rw [← h.1] at hit; cases hit
  | e :: es, s, s2, items, h, it, hit => by
    simp only [runItems] at h
    split at h
    · rename_i s' it' ht
      split at h
      · rename_i its s'' hr
        simp only [Res.ok.injEq, Prod.mk.injEq] at h
        rw [← h.1] at hit
        rcases List.mem_cons.1 hit with rfl | hit
        · exact ⟨e, by simp, s, s', ht⟩
        · obtain ⟨e', he', r⟩ := runItems_mem hr it hit
          exact ⟨e', by simp [he'], r⟩
      · cases h
      · cases h
    · cases h
    · cases h

/-- Game events delivered by the combined iterator have user ids below 32, whatever the bytes. -/
theorem delivered_user {bld : Build} {version : Nat} {s : SState} {trk game : List UInt8} {o : Option Filters}
    {rs : List (Res (Option Item))} {m : MState}
    (hc : Calls (mnext bld version) (MState.new s trk game o) rs m) (hok : ∀ r ∈ rs, ∃ x, r = .ok x)
    {it : Item} (hit : it ∈ rs.flatMap yielded) {l u : Int} {n : Option Str} {e : GameEvt} (he : it.event = .game l u n e) :
    0 ≤ u ∧ u < 32 := by
  obtain ⟨rt, st, rg, sg, tr, ga, wt, wg, es, items, _, _, _, h4, h5, _, h7, h8, h9⟩ := C35_any_bytes bld version s trk game o rs m hc hok
  obtain ⟨e0, he0, s1, s1', htr⟩ := runItems_mem h8 it (h9.subset hit)
  have hev : ∃ e0', e0 = .game l u n e0' := by
    cases e0 with
    | tracker l' te =>
      simp only [transition] at htr
      obtain ⟨⟨s2, e2, hh2⟩, hh, hk⟩ := Res.bind_eq_ok.1 htr
      simp only [Res.pure_eq, Res.ok.injEq, Prod.mk.injEq] at hk
      rw [← hk.2] at he; cases he
    | game l' u' n' ge =>
      simp only [transition] at htr
      obtain ⟨⟨s2, e2, hh2⟩, hh, hk⟩ := Res.bind_eq_ok.1 htr
      simp only [Res.pure_eq, Res.ok.injEq, Prod.mk.injEq] at hk
      rw [← hk.2] at he
      simp only [SEvent.game.injEq] at he
      exact ⟨ge, by rw [he.1, he.2.1, he.2.2.1]⟩
  obtain ⟨e0', rfl⟩ := hev
  rcases (mem_interleaving h7).1 he0 with hm | hm
  · obtain ⟨p, _, hp⟩ := List.mem_map.1 hm; cases hp
  · obtain ⟨p, hp, hpe⟩ := List.mem_map.1 hm
    have hpu : p.2.1 = u := by simp only [gameSEvent, SEvent.game.injEq] at hpe; exact hpe.2.1
    obtain ⟨items', d, rest, _, hst, _, _, _, hy⟩ := C32_game_loops bld version game rg sg h4
    have : p ∈ gameTimeline items' := by rw [← hy, h5]; simp [hp]
    unfold gameTimeline at this
    obtain ⟨q, hq, hq2⟩ := List.mem_filterMap.1 this
    have hmem : q.2 ∈ items' := by
      unfold stamped at hq
      obtain ⟨z, hz, rfl⟩ := List.mem_map.1 hq
      exact List.mem_of_getElem? (List.mem_zipIdx_iff_getElem?.1 hz)
    have := stream_forall (P := fun a : Int × Int × Val => 0 ≤ a.2.1 ∧ a.2.1 < 32) (fun _ _ h => TripletWire_user h) items' d hst _ hmem
    cases hcv : convGame q.2.2.2 with
    | ok x =>
      rw [hcv] at hq2
      simp only [Res.toOpt, Option.map_some, Option.some.injEq] at hq2
      rw [← hpu, ← hq2]; exact this
    | err x => rw [hcv] at hq2; simp [Res.toOpt] at hq2
    | panic => rw [hcv] at hq2; simp [Res.toOpt] at hq2

/-- Any bytes: with `player_id` set, every delivered event that names a player names that one. -/
theorem C40_player_filter (bld : Build) (version : Nat) (s : SState) (trk game : List UInt8) (f : Filters) (p : Int)
    (hp : f.playerId = some p) (rs : List (Res (Option Item))) (m : MState)
    (hc : Calls (mnext bld version) (MState.new s trk game (some f)) rs m) (hok : ∀ r ∈ rs, ∃ x, r = .ok x)
    (it : Item) (hit : it ∈ rs.flatMap yielded) (q : Int) (hq : playerNamed it.event = some q) : q = p := by
  have hacc := delivered_accepted hc hok hit
  simp only [accepts, shouldSkipEvent, Bool.not_eq_true', Bool.or_eq_false_iff] at hacc
  have h2 := hacc.2
  cases he : it.event with
  | game l u n e =>
    have hu := delivered_user hc hok hit he
    rw [he] at h2 hq
    simp only [playerNamed, Option.some.injEq] at hq
    simp only [SEvent.shouldSkip, differs, hp, decide_eq_false_iff_not, Decidable.not_not] at h2
    rw [← hq, ← h2]
    exact (Int.emod_eq_of_lt hu.1 (by omega)).symm
  | tracker l e =>
    rw [he] at h2 hq
    cases e <;>
      simp only [playerNamed, Option.some.injEq, reduceCtorEq] at hq <;>
      simp only [SEvent.shouldSkip, TrackerEvt.shouldSkip, differs, hp, Bool.or_eq_false_iff, decide_eq_false_iff_not,
        Decidable.not_not] at h2 <;>
      first
      | (rw [← hq]; exact h2.1)
      | (rw [← hq]; exact h2)
      | (rw [hq] at h2; simpa using h2)

end S2
