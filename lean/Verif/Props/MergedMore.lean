import Verif.Props.MergedFilters
/-!
# The combined iterator, continued: unread filters, persons, statistics and names, termination (C73, C82–C84)
-/
namespace S2

/-! ## C73: two filter fields are never read -/

/-- The filters with other values of the fields `unit_tag` and `event_type`. -/
def Filters.other (tag : Option Int) (ty : Option Str) (f : Filters) : Filters := { f with unitTag := tag, eventType := ty }

theorem other_decrease (tag : Option Int) (ty : Option Str) (f : Filters) :
    (f.other tag ty).decrease = f.decrease.other tag ty := by
  unfold Filters.decrease Filters.other
  simp only
  split
  · split <;> rfl
  · rfl

theorem shouldSkip_other (tag : Option Int) (ty : Option Str) (f : Filters) (e : SEvent) :
    shouldSkipEvent (f.other tag ty) e = shouldSkipEvent f e := by
  cases e with
  | game l u n e => rfl
  | tracker l e => cases e <;> rfl

theorem mnext_other (bld : Build) (version : Nat) (tag : Option Int) (ty : Option Str) : ∀ (n : Nat) (m : MState),
    mnext bld version n { m with filters := m.filters.map (Filters.other tag ty) } =
      (mnext bld version n m).map (fun p => (p.1, { p.2 with filters := p.2.filters.map (Filters.other tag ty) }))
  | 0, m => rfl
  | n + 1, m => by
    simp only [mnext]
    rw [pull_filters]
    cases hp : pull bld version m with
    | err e => rfl
    | panic => rfl
    | ok p =>
      obtain ⟨x, m'⟩ := p
      have hk := pull_keeps_filters hp
      cases x with
      | none => simp only [Res.bind_ok, Option.map_some]; rw [hk]
      | some it =>
        simp only [Res.bind_ok]
        cases hf : m.filters with
        | none =>
          rw [hf] at hk
          simp only [Option.map_none, hk, Option.map_some]
        | some f =>
          rw [hf] at hk
          simp only [Option.map_some, hk, shouldSkip_other]
          by_cases hs : shouldSkipEvent f it.event = true
          · rw [if_pos hs, if_pos hs]
            have := mnext_other bld version tag ty n m'
            rw [hk] at this
            exact this
          · rw [if_neg hs, if_neg hs]
            rw [other_decrease]
            have : (f.decrease.other tag ty).maxReached = f.decrease.maxReached := rfl
            rw [this]
            split <;> rfl

/-- Any bytes, any filters: setting, changing or clearing `unit_tag` and `event_type` changes no result of any
call and no state. -/
theorem C73_tag_and_type_ignored (bld : Build) (version : Nat) (s : SState) (trk game : List UInt8) (f : Filters)
    (tag : Option Int) (ty : Option Str) (rs : List (Res (Option Item))) (m : MState)
    (hc : Calls (mnext bld version) (MState.new s trk game (some f)) rs m) :
    ∃ m', Calls (mnext bld version) (MState.new s trk game (some { f with unitTag := tag, eventType := ty })) rs m' ∧
      m'.sc2 = m.sc2 := by
  have gen : ∀ {a b : MState} {rs : List (Res (Option Item))}, Calls (mnext bld version) a rs b →
      Calls (mnext bld version) { a with filters := a.filters.map (Filters.other tag ty) } rs
        { b with filters := b.filters.map (Filters.other tag ty) } := by
    intro a b rs h
    induction h with
    | nil m => exact .nil _
    | cons hn _ ih =>
      have h2 := congrArg (Option.map fun p : Res (Option Item) × MState =>
        (p.1, { p.2 with filters := p.2.filters.map (Filters.other tag ty) })) hn
      rw [← mnext_other] at h2
      exact .cons h2 ih
  exact ⟨_, gen hc, rfl⟩

/-- Unit-done events of unit (1, 2) are delivered although another unit tag and another type is asked for. -/
theorem C73_tag_filter_refuted (bld : Build) :
    delivers bld demoState (wDone ++ wDone) [] (some { Filters.default with unitTag := some 99, eventType := some (str "UnitBorn") }) 6 =
      some [.tracker 5 (.unitDone ⟨1, 2⟩), .tracker 10 (.unitDone ⟨1, 2⟩)] := by
  cases bld <;> decide +kernel

/-! ## C82: players and users are numbered differently -/

/-- User `w` is the one the event is about: the issuing user of a game event, and for a tracker event the user
who was set up with the player number the event names. -/
def concerns (s : SState) (e : SEvent) (w : Int) : Prop :=
  match e with
  | .game _ u _ _ => u = w
  | .tracker _ _ => ∃ q x, playerNamed e = some q ∧ getUser s.users w = some x ∧ x.setupPlayerId = some q

/-- Any bytes: if users and players carry the same numbers, the player filter delivers events about that person
only.  Missing from the full claim: any other numbering (`C82_one_person_refuted`), which is the usual one. -/
theorem C82_one_person_partial (bld : Build) (version : Nat) (s : SState) (trk game : List UInt8) (f : Filters) (p : Int)
    (hp : f.playerId = some p) (rs : List (Res (Option Item))) (m : MState)
    (hc : Calls (mnext bld version) (MState.new s trk game (some f)) rs m) (hok : ∀ r ∈ rs, ∃ x, r = .ok x)
    (hsame : ∀ w x q, getUser m.sc2.users w = some x → x.setupPlayerId = some q → q = w)
    (it : Item) (hit : it ∈ rs.flatMap yielded) (w : Int) (hw : concerns m.sc2 it.event w) : w = p := by
  cases he : it.event with
  | game l u n e =>
    rw [he] at hw
    have : u = w := hw
    exact C40_player_filter bld version s trk game f p hp rs m hc hok it hit w (by rw [he]; simp [playerNamed, this])
  | tracker l e =>
    rw [he] at hw
    obtain ⟨q, x, h1, h2, h3⟩ := hw
    have hq := C40_player_filter bld version s trk game f p hp rs m hc hok it hit q (by rw [he]; exact h1)
    rw [← hsame w x q h2 h3, hq]

/-- A player-setup event: player `p` is user `u`. -/
def wSetup (p u : UInt8) : List UInt8 := [3, 0, 9, 0, 9, 18, 5, 8, 0, 9, 2 * p, 2, 9, 2, 4, 4, 1, 9, 2 * u, 6, 4, 1, 9, 2 * u]
/-- A camera update of user `u`, delta 5. -/
def wCameraOf (u : UInt8) : List UInt8 := [0x14, 0x60 + u, 1, 0x12]

/-- The usual numbering: users 0 and 1 are players 1 and 2.  The filter `player_id = 1` delivers the set-up of
user 0 and the camera of user 1. -/
theorem C82_one_person_refuted (bld : Build) : ∃ xs m,
    runCalls bld 90000 20 6 (MState.new demoState (wSetup 1 0 ++ wSetup 2 1) (wCameraOf 0 ++ wCameraOf 1)
      (some { Filters.default with playerId := some 1 })) = some (xs, m) ∧
    (∃ a b : Item, xs.filterMap id = [a, b] ∧ concerns m.sc2 a.event 0 ∧ concerns m.sc2 b.event 1) := by
  have key : (runCalls bld 90000 20 6 (MState.new demoState (wSetup 1 0 ++ wSetup 2 1) (wCameraOf 0 ++ wCameraOf 1)
      (some { Filters.default with playerId := some 1 }))).map (fun p => ((p.1.filterMap id).map Item.event,
        (getUser p.2.sc2.users 0).map UserState.setupPlayerId)) =
      some ([.tracker 0 (.playerSetup ⟨1, 1, some 0, some 0⟩),
        .game 10 1 (some (str "B")) (.cameraUpdate none ⟨none, none, none, none, true⟩)], some (some 1)) := by
    cases bld <;> decide +kernel
  obtain ⟨⟨xs, m⟩, h1, h2⟩ := Option.map_eq_some_iff.1 key
  simp only [Prod.mk.injEq] at h2
  refine ⟨xs, m, h1, ?_⟩
  obtain ⟨h3, h4⟩ := h2
  obtain ⟨a, l, ha, h5, h6⟩ := List.map_eq_cons_iff.1 h3
  obtain ⟨b, l', hb, h7, h8⟩ := List.map_eq_cons_iff.1 h6
  rw [List.map_eq_nil_iff.1 h8] at hb
  refine ⟨a, b, by rw [ha, hb], ?_, ?_⟩
  · rw [h5]
    obtain ⟨x, hx1, hx2⟩ := Option.map_eq_some_iff.1 h4
    exact ⟨1, x, rfl, hx1, hx2⟩
  · rw [h7]; rfl

/-! ## C83: statistics and unit names -/

/-- The unit type name an event carries. -/
def unitNameOf : SEvent → Option Str
  | .tracker _ (.unitBorn e) => some e.unitTypeName
  | .tracker _ (.unitInit e) => some e.unitTypeName
  | .tracker _ (.unitTypeChange e) => some e.unitTypeName
  | _ => none

/-- Any bytes: player statistics are delivered only on request, and with `unit_name` set every delivered event
that carries a unit type name carries that one. -/
theorem C83_names_and_stats (bld : Build) (version : Nat) (s : SState) (trk game : List UInt8) (f : Filters)
    (rs : List (Res (Option Item))) (m : MState)
    (hc : Calls (mnext bld version) (MState.new s trk game (some f)) rs m) (hok : ∀ r ∈ rs, ∃ x, r = .ok x)
    (it : Item) (hit : it ∈ rs.flatMap yielded) :
    (∀ l p st, it.event = .tracker l (.playerStats p st) → f.includeStats = true) ∧
    (∀ name n, f.unitName = some name → unitNameOf it.event = some n → n = name) := by
  have hacc := delivered_accepted hc hok hit
  simp only [accepts, shouldSkipEvent, Bool.not_eq_true', Bool.or_eq_false_iff] at hacc
  have h2 := hacc.2
  refine ⟨?_, ?_⟩
  · intro l p st he
    rw [he] at h2
    simp only [SEvent.shouldSkip, TrackerEvt.shouldSkip, Bool.or_eq_false_iff, Bool.not_eq_false'] at h2
    exact h2.2
  · intro name n hn hu
    cases he : it.event with
    | game l u n e => rw [he] at hu; cases hu
    | tracker l e =>
      rw [he] at h2 hu
      cases e <;> simp only [unitNameOf, Option.some.injEq, reduceCtorEq] at hu <;>
        simp only [SEvent.shouldSkip, TrackerEvt.shouldSkip, differs, hn, Bool.or_eq_false_iff, decide_eq_false_iff_not,
          Decidable.not_not] at h2 <;>
        first
        | (rw [← hu]; exact h2.2)
        | (rw [← hu]; exact h2)

/-- A type change of unit 1 to "Lair" and one to "Hive", delta 7 each. -/
def wLair : List UInt8 := [3, 0, 9, 14, 9, 8, 5, 6, 0, 9, 2, 2, 9, 4, 4, 2, 8, 76, 97, 105, 114]
def wHive : List UInt8 := [3, 0, 9, 14, 9, 8, 5, 6, 0, 9, 2, 2, 9, 4, 4, 2, 8, 72, 105, 118, 101]

example (bld : Build) : (delivers bld demoState (wLair ++ wHive) [] (some { Filters.default with unitName := some (str "Hive") }) 4).map
    (List.map (fun e => (e.time, unitNameOf e))) = some [(14, some (str "Hive"))] := by
  cases bld <;> decide +kernel

/-! ## C84: every call returns -/

theorem withLoops_length {α : Type} (delta : α → Int) : ∀ (items : List α) (l : Int), (withLoops delta l items).length = items.length
  | [], l => rfl
  | a :: items, l => by simp [withLoops, withLoops_length delta items]

/-- One call of a stream iterator consumes at least one byte per event it returns. -/
theorem IterSpec.next_measure {α β : Type} {step : IterState → Res β × IterState} {conv : α → Res β} {delta : α → Int}
    {W : α → List UInt8 → Prop} (h : IterSpec step conv delta W) {n : Nat} {st st' : IterState} {r : Res (Option (Int × β))}
    (h0 : st.bitIndex = 0) (hn : nextLoop step n st = some (r, st')) :
    st'.bitIndex = 0 ∧ st'.slice.length + (yielded r).length ≤ st.slice.length := by
  obtain ⟨items, d, rest, h1, h2, h3, h4⟩ := h.nextLoop_spec n st st' r h0 hn
  refine ⟨by rw [h3]; exact h0, ?_⟩
  have h5 : st'.slice = rest := by rw [h3]; exact adv_slice h1 _
  have h6 := Stream_length h.pos items d h2
  have h7 : (yielded r).length ≤ items.length := by
    rw [h4]; unfold loopOut
    exact Nat.le_trans (List.length_filterMap_le _ _) (by rw [withLoops_length]; omega)
  rw [h5, h1]; simp; omega

/-- Bytes not yet read plus events fetched and not yet delivered. -/
def MState.pending (m : MState) : Nat :=
  m.trk.slice.length + m.game.slice.length + m.nextT.toList.length + m.nextG.toList.length

/-- Both stream iterators stand at a byte boundary. -/
def MState.Aligned (m : MState) : Prop := m.trk.bitIndex = 0 ∧ m.game.bitIndex = 0

theorem fillT_measure {bld : Build} {m m1 : MState} (ha : m.Aligned) (h : fillT bld m = .ok m1) :
    m1.Aligned ∧ m1.pending ≤ m.pending := by
  unfold fillT at h
  split at h
  · simp only [Res.ok.injEq] at h; rw [← h]; exact ⟨ha, Nat.le_refl _⟩
  · rename_i hnone
    split at h
    · rename_i x st hn
      simp only [Res.ok.injEq] at h
      obtain ⟨h1, h2⟩ := (trackerIterSpec bld).next_measure ha.1 hn
      rw [← h]
      refine ⟨⟨h1, ha.2⟩, ?_⟩
      have : (yielded (Res.ok x)).length = x.toList.length := by cases x <;> rfl
      simp only [MState.pending, hnone, Option.toList_none, List.length_nil] at *
      omega
    · cases h
    · cases h
    · cases h

theorem fillG_measure {bld : Build} {version : Nat} {m m1 : MState} (ha : m.Aligned) (h : fillG bld version m = .ok m1) :
    m1.Aligned ∧ m1.pending ≤ m.pending := by
  unfold fillG at h
  split at h
  · simp only [Res.ok.injEq] at h; rw [← h]; exact ⟨ha, Nat.le_refl _⟩
  · rename_i hnone
    split at h
    · rename_i st hn
      simp only [Res.ok.injEq] at h
      obtain ⟨h1, h2⟩ := (gameIterSpec bld version).next_measure ha.2 hn
      rw [← h]
      refine ⟨⟨ha.1, h1⟩, ?_⟩
      simp only [MState.pending, hnone, Option.toList_none, List.length_nil, yielded] at *
      omega
    · rename_i l user e st hn
      simp only [Res.ok.injEq] at h
      obtain ⟨h1, h2⟩ := (gameIterSpec bld version).next_measure ha.2 hn
      rw [← h]
      refine ⟨⟨ha.1, h1⟩, ?_⟩
      simp only [MState.pending, hnone, Option.toList_none, Option.toList_some, List.length_nil, List.length_cons, yielded] at *
      omega
    · cases h
    · cases h
    · cases h

theorem pick_measure {m m' : MState} {e : SEvent} (h : pick m = some (e, m')) :
    m'.pending + 1 = m.pending ∧ (m.Aligned → m'.Aligned) := by
  unfold pick at h
  split at h
  · rename_i h1 h2
    split at h <;>
    · simp only [Option.some.injEq, Prod.mk.injEq] at h
      rw [← h.2]
      refine ⟨?_, fun ha => ha⟩
      simp only [MState.pending, h1, h2, Option.toList_some, Option.toList_none, List.length_cons, List.length_nil]
  · rename_i h1 h2
    simp only [Option.some.injEq, Prod.mk.injEq] at h
    rw [← h.2]
    refine ⟨?_, fun ha => ha⟩
    simp only [MState.pending, h1, h2, Option.toList_some, Option.toList_none, List.length_cons, List.length_nil]
  · rename_i h1 h2
    simp only [Option.some.injEq, Prod.mk.injEq] at h
    rw [← h.2]
    refine ⟨?_, fun ha => ha⟩
    simp only [MState.pending, h1, h2, Option.toList_some, Option.toList_none, List.length_cons, List.length_nil]
  · cases h

theorem pull_measure {bld : Build} {version : Nat} {m m' : MState} {x : Option Item} (ha : m.Aligned)
    (h : pull bld version m = .ok (x, m')) : m'.Aligned ∧ m'.pending + x.toList.length ≤ m.pending := by
  unfold pull at h
  obtain ⟨m1, h1, h⟩ := Res.bind_eq_ok.1 h
  obtain ⟨m2, h2, h⟩ := Res.bind_eq_ok.1 h
  obtain ⟨a1, p1⟩ := fillT_measure ha h1
  obtain ⟨a2, p2⟩ := fillG_measure a1 h2
  split at h
  · simp only [Res.pure_eq, Res.ok.injEq, Prod.mk.injEq] at h
    obtain ⟨rfl, rfl⟩ := h
    exact ⟨a2, by simp; omega⟩
  · rename_i e m3 hp
    obtain ⟨⟨s', it⟩, ht, h⟩ := Res.bind_eq_ok.1 h
    simp only [Res.pure_eq, Res.ok.injEq, Prod.mk.injEq] at h
    obtain ⟨rfl, rfl⟩ := h
    obtain ⟨p3, a3⟩ := pick_measure hp
    refine ⟨a3 a2, ?_⟩
    have : ({ m3 with sc2 := s' } : MState).pending = m3.pending := rfl
    rw [this]; simp; omega

theorem mnext_returns {bld : Build} {version : Nat} : ∀ (n : Nat) (m : MState), m.Aligned → m.pending < n →
    mnext bld version n m ≠ none
  | 0, m, _, h => by omega
  | n + 1, m, ha, h => by
    simp only [mnext]
    cases hp : pull bld version m with
    | err e => simp
    | panic => simp
    | ok p =>
      obtain ⟨x, m'⟩ := p
      obtain ⟨a1, p1⟩ := pull_measure ha hp
      cases x with
      | none => simp
      | some it =>
        simp only
        cases m'.filters with
        | none => simp
        | some f =>
          simp only
          split
          · refine mnext_returns n m' a1 ?_
            simp at p1; omega
          · split <;> simp

theorem mnext_measure {bld : Build} {version : Nat} : ∀ (n : Nat) (m m' : MState) (r : Res (Option Item)), m.Aligned →
    mnext bld version n m = some (r, m') → m'.Aligned ∧ m'.pending + (yielded r).length ≤ m.pending
  | 0, m, m', r, _, h => by cases h
  | n + 1, m, m', r, ha, h => by
    simp only [mnext] at h
    cases hp : pull bld version m with
    | err e =>
      rw [hp] at h; simp only [Option.some.injEq, Prod.mk.injEq] at h
      obtain ⟨rfl, rfl⟩ := h; exact ⟨ha, by simp [yielded]⟩
    | panic =>
      rw [hp] at h; simp only [Option.some.injEq, Prod.mk.injEq] at h
      obtain ⟨rfl, rfl⟩ := h; exact ⟨ha, by simp [yielded]⟩
    | ok p =>
      obtain ⟨x, m1⟩ := p
      obtain ⟨a1, p1⟩ := pull_measure ha hp
      rw [hp] at h
      cases x with
      | none =>
        simp only [Option.some.injEq, Prod.mk.injEq] at h
        obtain ⟨rfl, rfl⟩ := h; exact ⟨a1, by simpa [yielded] using p1⟩
      | some it =>
        simp only [Option.toList_some, List.length_cons, List.length_nil] at p1 h
        cases hf : m1.filters with
        | none =>
          rw [hf] at h
          simp only [Option.some.injEq, Prod.mk.injEq] at h
          obtain ⟨rfl, rfl⟩ := h; exact ⟨a1, by simpa [yielded] using p1⟩
        | some f =>
          rw [hf] at h
          simp only at h
          split at h
          · obtain ⟨a2, p2⟩ := mnext_measure n m1 m' r a1 h
            exact ⟨a2, by omega⟩
          · split at h <;>
            · simp only [Option.some.injEq, Prod.mk.injEq] at h
              obtain ⟨rfl, rfl⟩ := h
              exact ⟨a1, by simp only [yielded, List.length_cons, List.length_nil]; exact Nat.le_trans (by simp [MState.pending]) p1⟩

theorem calls_measure {bld : Build} {version : Nat} {m m' : MState} {rs : List (Res (Option Item))}
    (h : Calls (mnext bld version) m rs m') : m.Aligned → m'.Aligned ∧ m'.pending + (rs.flatMap yielded).length ≤ m.pending := by
  induction h with
  | nil m => intro ha; exact ⟨ha, by simp⟩
  | cons hn _ ih =>
    intro ha
    obtain ⟨a1, p1⟩ := mnext_measure _ _ _ _ ha hn
    obtain ⟨a2, p2⟩ := ih a1
    refine ⟨a2, ?_⟩
    simp only [List.flatMap_cons, List.length_append]; omega

theorem new_pending (s : SState) (trk game : List UInt8) (o : Option Filters) :
    (MState.new s trk game o).pending = trk.length + game.length := by
  simp [MState.new, MState.pending, IterState.new, IterState.slice]

/-- Any bytes in both sectors, any filters, any earlier calls: the next call returns, after at most one round of
its loop per byte of the sectors (and one more). -/
theorem C84_every_call_returns (bld : Build) (version : Nat) (s : SState) (trk game : List UInt8) (o : Option Filters)
    (rs : List (Res (Option Item))) (m : MState) (hc : Calls (mnext bld version) (MState.new s trk game o) rs m)
    (n : Nat) (hn : trk.length + game.length < n) : ∃ r, mnext bld version n m = some r := by
  obtain ⟨ha, hp⟩ := calls_measure hc ⟨rfl, rfl⟩
  rw [new_pending] at hp
  exact Option.ne_none_iff_exists'.mp (mnext_returns n m ha (by omega))

/-- However often it is called, the iterator delivers at most one event per byte of its sectors. -/
theorem C84_bounded_events (bld : Build) (version : Nat) (s : SState) (trk game : List UInt8) (o : Option Filters)
    (rs : List (Res (Option Item))) (m : MState) (hc : Calls (mnext bld version) (MState.new s trk game o) rs m) :
    (rs.flatMap yielded).length ≤ trk.length + game.length := by
  obtain ⟨_, hp⟩ := calls_measure hc ⟨rfl, rfl⟩
  rw [new_pending] at hp
  omega

/-- In every state the iterator gets into, fetching from either stream returns: the last branch of `fillT` and of
`fillG`, which no code corresponds to, is never taken. -/
theorem C84_fetches_return (bld : Build) (version : Nat) (s : SState) (trk game : List UInt8) (o : Option Filters)
    (rs : List (Res (Option Item))) (m : MState) (hc : Calls (mnext bld version) (MState.new s trk game o) rs m) :
    (∃ r, trackerNext bld (m.trk.data.length + 1) m.trk = some r) ∧
    (∃ r, gameNext bld version (m.game.data.length + 1) m.game = some r) := by
  obtain ⟨ha, _⟩ := calls_measure hc ⟨rfl, rfl⟩
  refine ⟨Option.ne_none_iff_exists'.mp ((trackerIterSpec bld).nextLoop_terminates _ _ ha.1 ?_),
    Option.ne_none_iff_exists'.mp ((gameIterSpec bld version).nextLoop_terminates _ _ ha.2 ?_)⟩ <;>
  · simp [IterState.slice]; omega

/-- A malformed tracker sector and a truncated game sector: the calls return. -/
example (bld : Build) : delivers bld demoState [3, 9, 9] (wCamera ++ [0x14]) none 4 =
    some [.game 5 3 none (.cameraUpdate none ⟨none, none, none, none, true⟩)] := by
  cases bld <;> decide +kernel

end S2
