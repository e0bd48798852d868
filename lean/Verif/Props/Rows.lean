import Verif.Spec.RowSpec
import Verif.Props.Merged
import Verif.Props.MergedMore
import Verif.Props.MergedPanic
import Verif.Props.Groups
import Verif.Props.Ability
import Verif.Props.Lobby
/-! # Flat rows -/
namespace S2

/-! ## The collectors see every item -/

theorem collectItems_calls {bld : Build} {version : Nat} : ∀ {n : Nat} {m : MState} {its : List Item},
    collectItems bld version n m = some (.ok its) →
    ∃ m', Calls (mnext bld version) m (its.map (fun it => .ok (some it)) ++ [.ok none]) m'
  | 0, m, its, h => by simp [collectItems] at h
  | n + 1, m, its, h => by
    rw [collectItems] at h
    split at h
    · cases h
    · cases h
    · cases h
    · rename_i m' hn
      simp only [Option.some.injEq, Res.ok.injEq] at h
      subst h
      exact ⟨m', .cons hn (.nil m')⟩
    · rename_i it m' hn
      split at h
      · rename_i its' hr
        simp only [Option.some.injEq, Res.ok.injEq] at h
        subst h
        obtain ⟨m2, hc⟩ := collectItems_calls hr
        exact ⟨m2, .cons hn hc⟩
      · rename_i r hr
        exact absurd h (hr _)

theorem rowsAlong_cons {ρ : Type} {bld : Build} (f : SState → SEvent → List ρ) {s s' : SState} {e : SEvent} {it : Item} (es : List SEvent)
    (h : transition bld s e = .ok (s', it)) : rowsAlong bld f s (e :: es) = f s e ++ rowsAlong bld f s' es := by
  unfold rowsAlong
  rw [List.length_cons, List.range_succ_eq_map, List.flatMap_cons, List.flatMap_map]
  have : (fun i => rowsAt bld f s (e :: es) (Nat.succ i)) = rowsAt bld f s' es := by
    funext i
    simp only [rowsAt, Nat.succ_eq_add_one, List.getElem?_cons_succ, List.take_succ_cons, runEvents, h]
  rw [this]
  rfl

/-- Rows that each item gives according to the state before it are the rows of the history. -/
theorem runItems_rows {ρ : Type} {bld : Build} {rows : Item → List ρ} {f : SState → SEvent → List ρ}
    (hf : ∀ s e s' it, transition bld s e = .ok (s', it) → rows it = f s e) : ∀ {es : List SEvent} {s s2 : SState} {items : List Item},
    runItems bld s es = .ok (items, s2) → items.flatMap rows = rowsAlong bld f s es
  | [], s, s2, items, h => by
    simp only [runItems, Res.ok.injEq, Prod.mk.injEq] at h
    rw [← h.1]
    rfl
  | e :: es, s, s2, items, h => by
    rw [runItems] at h
    split at h
    · rename_i s' it ht
      split at h
      · rename_i its s'' hr
        simp only [Res.ok.injEq, Prod.mk.injEq] at h
        obtain ⟨rfl, rfl⟩ := h
        rw [List.flatMap_cons, rowsAlong_cons f es ht, hf _ _ _ _ ht, runItems_rows hf hr]
      · cases h
      · cases h
    · cases h
    · cases h

/-- What a collector sees of a file: all the events, merged, each in the state its predecessors leave. -/
theorem collect_exact {bld : Build} {version n : Nat} {s : SState} {titems : List (Int × Val)} {gitems : List (Int × Int × Val)}
    {trk game : List UInt8} (ht : Stream (TrackerWire bld) titems trk) (hutf : ∀ p ∈ titems, convTracker p.2 ≠ .err .utf8)
    (hg : Stream (TripletWire bld (gameEventTy version)) gitems game) {its : List Item}
    (h : collectItems bld version n (MState.new s trk game none) = some (.ok its)) :
    ∃ s2, runItems bld s (mergeEvents s (trackerTimeline titems) (gameTimeline gitems)) = .ok (its, s2) := by
  obtain ⟨m', hc⟩ := collectItems_calls h
  obtain ⟨items, hr, he⟩ := merged_exact bld version s titems gitems trk game ht hutf hg _ _ hc (by
    intro r hr
    rcases List.mem_append.1 hr with hr | hr
    · obtain ⟨it, _, rfl⟩ := List.mem_map.1 hr
      exact ⟨_, rfl⟩
    · exact ⟨none, by simpa using hr⟩)
  have hlen : (its.map (fun it => (Res.ok (some it) : Res (Option Item))) ++ [Res.ok none]).length = its.length + 1 := by simp
  rw [hlen] at hr he
  have hey := congrArg (List.flatMap yielded) he
  have y1 : ∀ l : List Item, (l.map (fun it => (Res.ok (some it) : Res (Option Item)))).flatMap yielded = l := by
    intro l
    induction l with
    | nil => rfl
    | cons a l ih => simp [List.flatMap_cons, yielded, ih]
  have y2 : ∀ k : Nat, (List.replicate k (Res.ok none : Res (Option Item))).flatMap yielded = [] := by
    intro k
    induction k with
    | zero => rfl
    | succ k ih => simp [List.replicate_succ, List.flatMap_cons, yielded, ih]
  rw [List.flatMap_append, List.flatMap_append, y1, y1, y2] at hey
  simp only [List.flatMap_cons, yielded, List.flatMap_nil, List.append_nil] at hey
  subst hey
  have hl := congrArg List.length he
  simp only [List.length_append, List.length_map, List.length_singleton, List.length_replicate] at hl
  rw [List.take_of_length_le (by omega)] at hr
  exact ⟨_, hr⟩

theorem collect_spec {bld : Build} {version n : Nat} {s : SState} {titems : List (Int × Val)} {gitems : List (Int × Int × Val)}
    {trk game : List UInt8} (ht : Stream (TrackerWire bld) titems trk) (hutf : ∀ p ∈ titems, convTracker p.2 ≠ .err .utf8)
    (hg : Stream (TripletWire bld (gameEventTy version)) gitems game) {its : List Item}
    (h : collectItems bld version n (MState.new s trk game none) = some (.ok its)) :
    ∃ es s2, Interleaving ((trackerTimeline titems).map trackerSEvent) ((gameTimeline gitems).map (gameSEvent s)) es ∧
      runItems bld s es = .ok (its, s2) := by
  obtain ⟨s2, hr⟩ := collect_exact ht hutf hg h
  exact ⟨_, s2, mergeEvents_interleaving _ _ _, hr⟩

theorem runItems_runEvents {bld : Build} : ∀ {es : List SEvent} {s s2 : SState} {items : List Item},
    runItems bld s es = .ok (items, s2) → runEvents bld s es = .ok s2
  | [], s, s2, items, h => by simp only [runItems, Res.ok.injEq, Prod.mk.injEq] at h; rw [← h.2]; rfl
  | e :: es, s, s2, items, h => by
    simp only [runItems] at h
    split at h
    · rename_i s' it ht
      split at h
      · rename_i its s'' hr
        simp only [Res.ok.injEq, Prod.mk.injEq] at h
        rw [← h.2]
        simp only [runEvents, ht, runItems_runEvents hr]
      · cases h
      · cases h
    · cases h
    · cases h

/-- A collector on a file whose names are UTF-8. -/
theorem collectRows_spec {ρ : Type} {rows : Item → List ρ} {f : SState → SEvent → List ρ} {bld : Build}
    (hf : ∀ s e s' it, transition bld s e = .ok (s', it) → rows it = f s e)
    {version n : Nat} {s : SState} {titems : List (Int × Val)} {gitems : List (Int × Int × Val)}
    {trk game : List UInt8} (ht : Stream (TrackerWire bld) titems trk) (hutf : ∀ p ∈ titems, convTracker p.2 ≠ .err .utf8)
    (hg : Stream (TripletWire bld (gameEventTy version)) gitems game) {out : List ρ}
    (h : collectRows rows bld version n (MState.new s trk game none) = some (.ok out)) :
    ∃ es, Interleaving ((trackerTimeline titems).map trackerSEvent) ((gameTimeline gitems).map (gameSEvent s)) es ∧
      (∃ s2, runEvents bld s es = .ok s2) ∧ out = rowsAlong bld f s es := by
  unfold collectRows at h
  split at h
  · rename_i its hc
    simp only [Option.some.injEq, Res.ok.injEq] at h
    obtain ⟨es, s2, hi, hr⟩ := collect_spec ht hutf hg hc
    exact ⟨es, hi, ⟨s2, runItems_runEvents hr⟩, by rw [← h, runItems_rows hf hr]⟩
  · cases h
  · cases h
  · cases h

/-- Rows that do not depend on the state. -/
theorem rowsAlong_const {ρ : Type} {bld : Build} {f : SEvent → List ρ} : ∀ {es : List SEvent} {s s2 : SState},
    runEvents bld s es = .ok s2 → rowsAlong bld (fun _ => f) s es = es.flatMap f
  | [], s, s2, h => rfl
  | e :: es, s, s2, h => by
    rw [runEvents] at h
    split at h
    · rename_i s' it ht
      rw [rowsAlong_cons _ es ht, List.flatMap_cons, rowsAlong_const h]
    · cases h
    · cases h

theorem interleaving_flatMap {α ρ : Type} {f : α → List ρ} {a b c : List α} (h : Interleaving a b c)
    (hb : ∀ x ∈ b, f x = []) : c.flatMap f = a.flatMap f := by
  induction h with
  | nil => rfl
  | left _ ih => rw [List.flatMap_cons, List.flatMap_cons, ih hb]
  | right _ ih => rw [List.flatMap_cons, hb _ (by simp), ih (fun x hx => hb x (by simp [hx]))]; rfl

/-! ## C104: statistics and upgrades -/

/-- What the stats collector makes of an event. -/
def statsRows (fsId : Nat) : SEvent → List StatsRow
  | .tracker l (.playerStats p st) => [StatsRow.new fsId p st l]
  | _ => []

/-- The event reported for an event: an upgrade gets its player's name. -/
def reported (s : SState) : TrackerEvt → TrackerEvt
  | .upgrade u => .upgrade { u with playerName := playerNameByTrackerId s.users u.playerId }
  | e => e

theorem handleTracker_event {bld : Build} {s s' : SState} {l : Int} {e e' : TrackerEvt} {hint : Hint}
    (h : handleTracker bld s l e = .ok (s', e', hint)) :
    e' = reported s e := by
  cases e <;> simp only [handleTracker, Res.ok.injEq] at h
  case unitDied x =>
    obtain ⟨users, _, h⟩ := Res.bind_eq_ok.1 h
    split at h <;> simp only [Res.pure_eq, Res.ok.injEq, Prod.mk.injEq] at h <;> exact h.2.1.symm
  case unitPosition x =>
    obtain ⟨ps, _, h⟩ := Res.bind_eq_ok.1 h
    simp only [Res.pure_eq, Res.ok.injEq, Prod.mk.injEq] at h
    exact h.2.1.symm
  case unitBorn x =>
    unfold handleUnitBorn at h
    dsimp only at h
    split at h <;> simp only [Prod.mk.injEq] at h <;> exact h.2.1.symm
  case unitTypeChange x =>
    unfold handleUnitTypeChange at h
    split at h <;> simp only [Prod.mk.injEq] at h <;> exact h.2.1.symm
  case unitInit x =>
    unfold handleUnitInit at h
    simp only [Prod.mk.injEq] at h
    exact h.2.1.symm
  case unitDone x =>
    unfold handleUnitDone at h
    split at h <;> simp only [Prod.mk.injEq] at h <;> exact h.2.1.symm
  case playerSetup x =>
    unfold handlePlayerSetup at h
    repeat' split at h
    all_goals simp only [Prod.mk.injEq] at h; exact h.2.1.symm
  all_goals simp only [Prod.mk.injEq] at h; exact h.2.1.symm

theorem transition_tracker {bld : Build} {s s' : SState} {l : Int} {e : TrackerEvt} {it : Item}
    (h : transition bld s (.tracker l e) = .ok (s', it)) :
    ∃ e' hint, handleTracker bld s l e = .ok (s', e', hint) ∧ it = ⟨.tracker l e', hint⟩ := by
  simp only [transition] at h
  obtain ⟨⟨s2, e2, h2⟩, hh, hk⟩ := Res.bind_eq_ok.1 h
  simp only [Res.pure_eq, Res.ok.injEq, Prod.mk.injEq] at hk
  obtain ⟨rfl, rfl⟩ := hk
  exact ⟨e2, h2, hh, rfl⟩

theorem transition_game {bld : Build} {s s' : SState} {l user : Int} {name : Option Str} {e : GameEvt} {it : Item}
    (h : transition bld s (.game l user name e) = .ok (s', it)) :
    ∃ e' hint, handleGame s l user e = .ok (s', e', hint) ∧ it = ⟨.game l user name e', hint⟩ := by
  simp only [transition] at h
  obtain ⟨⟨s2, e2, h2⟩, hh, hk⟩ := Res.bind_eq_ok.1 h
  simp only [Res.pure_eq, Res.ok.injEq, Prod.mk.injEq] at hk
  obtain ⟨rfl, rfl⟩ := hk
  exact ⟨e2, h2, hh, rfl⟩

theorem stats_item {bld : Build} (fsId : Nat) (s : SState) (e : SEvent) (s' : SState) (it : Item)
    (h : transition bld s e = .ok (s', it)) : (statsRowOf fsId it).toList = statsRows fsId e := by
  cases e with
  | game l u nm g =>
    obtain ⟨e', hint, _, rfl⟩ := transition_game h
    rfl
  | tracker l e =>
    obtain ⟨e', hint, hh, rfl⟩ := transition_tracker h
    rw [handleTracker_event hh]
    cases e <;> rfl

/-- What the upgrade collector makes of an event. -/
def upgradeRows (fsId : Nat) : SEvent → List UpgradeRow
  | .tracker l te => (upgradeRow fsId (l, te)).toList
  | _ => []

theorem upgrade_item {bld : Build} (fsId : Nat) (s : SState) (e : SEvent) (s' : SState) (it : Item)
    (h : transition bld s e = .ok (s', it)) : (upgradeRowOf fsId it).toList = upgradeRows fsId e := by
  cases e with
  | game l u nm g =>
    obtain ⟨e', hint, _, rfl⟩ := transition_game h
    rfl
  | tracker l e =>
    obtain ⟨e', hint, hh, rfl⟩ := transition_tracker h
    rw [handleTracker_event hh]
    cases e <;> rfl

theorem flatMap_toList {α β : Type} (f : α → Option β) (l : List α) : l.flatMap (fun x => (f x).toList) = l.filterMap f := by
  induction l with
  | nil => rfl
  | cons a l ih => rw [List.flatMap_cons, ih, List.filterMap_cons]; cases f a <;> rfl

theorem statsRow_is (fsId : Nat) (l p : Int) (st : PlayerStats) : IsStatsRow fsId (StatsRow.new fsId p st l) (l, (p, st)) :=
  ⟨rfl, rfl, rfl, rfl, rfl⟩

/-- The statistics table of a replay has one row per statistics event of the file, in file order; every
column has the statistic of that name, with the true loop of the event. -/
theorem C104_stats_rows_partial (fsId : Nat) (bld : Build) (version n : Nat) (s : SState) (titems : List (Int × Val))
    (gitems : List (Int × Int × Val)) (trk game : List UInt8) (ht : Stream (TrackerWire bld) titems trk)
    (hutf : ∀ p ∈ titems, convTracker p.2 ≠ .err .utf8) (hg : Stream (TripletWire bld (gameEventTy version)) gitems game)
    (rows : List StatsRow) (h : collectStats fsId bld version n (MState.new s trk game none) = some (.ok rows)) :
    rows.length = ((trackerTimeline titems).filterMap statsOf).length ∧
    ∀ (i : Nat) (r : StatsRow) (p : Int × (Int × PlayerStats)), rows[i]? = some r →
      ((trackerTimeline titems).filterMap statsOf)[i]? = some p → IsStatsRow fsId r p := by
  obtain ⟨es, hi, ⟨s2, hr⟩, rfl⟩ := collectRows_spec (fun s e s' it => stats_item fsId s e s' it) ht hutf hg h
  have : rowsAlong bld (fun _ => statsRows fsId) s es =
      ((trackerTimeline titems).filterMap statsOf).map (fun p => StatsRow.new fsId p.2.1 p.2.2 p.1) := by
    rw [rowsAlong_const hr, interleaving_flatMap hi (by
      intro x hx
      obtain ⟨y, _, rfl⟩ := List.mem_map.1 hx
      rfl), List.flatMap_map, List.map_filterMap, ← flatMap_toList]
    congr 1
    funext p
    obtain ⟨l, e⟩ := p
    cases e <;> rfl
  rw [this]
  refine ⟨by simp, ?_⟩
  intro i r p h1 h2
  rw [List.getElem?_map, h2] at h1
  simp only [Option.map_some, Option.some.injEq] at h1
  rw [← h1]
  exact statsRow_is fsId p.1 p.2.1 p.2.2

/-- The upgrade table of a replay: one row per upgrade event of the file, in file order. -/
theorem C104_upgrade_rows_partial (fsId : Nat) (bld : Build) (version n : Nat) (s : SState) (titems : List (Int × Val))
    (gitems : List (Int × Int × Val)) (trk game : List UInt8) (ht : Stream (TrackerWire bld) titems trk)
    (hutf : ∀ p ∈ titems, convTracker p.2 ≠ .err .utf8) (hg : Stream (TripletWire bld (gameEventTy version)) gitems game)
    (rows : List UpgradeRow) (h : collectUpgrades fsId bld version n (MState.new s trk game none) = some (.ok rows)) :
    rows = (trackerTimeline titems).filterMap (upgradeRow fsId) := by
  obtain ⟨es, hi, ⟨s2, hr⟩, rfl⟩ := collectRows_spec (fun s e s' it => upgrade_item fsId s e s' it) ht hutf hg h
  rw [rowsAlong_const hr, interleaving_flatMap hi (by
    intro x hx
    obtain ⟨y, _, rfl⟩ := List.mem_map.1 hx
    rfl), List.flatMap_map, ← flatMap_toList]
  rfl

/-! ## C105, C106: births and deaths -/

theorem playerName_find (s : SState) (id : Int) : playerNameByTrackerId s.users id = trackerPlayer s id := by
  unfold trackerPlayer
  induction s.users with
  | nil => rfl
  | cons p us ih =>
    obtain ⟨k, u⟩ := p
    rw [playerNameByTrackerId, List.find?_cons]
    by_cases h : u.setupPlayerId = some id
    · simp [h]
    · simp [h, ih]

theorem setProps_keeps (u : SUnit) (b : BalUnits) : (u.setProps b).name = u.name ∧ (u.setProps b).userId = u.userId ∧
    (u.setProps b).pos = u.pos ∧ (u.setProps b).creatorAbilityName = u.creatorAbilityName ∧
    (u.setProps b).playerName = u.playerName := ⟨rfl, rfl, rfl, rfl, rfl⟩

theorem born_item {bld : Build} (fsId : Nat) (s : SState) (e : SEvent) (s' : SState) (it : Item)
    (h : transition bld s e = .ok (s', it)) : (bornRowOf fsId it).toList = bornRows fsId s e := by
  cases e with
  | game l u nm g =>
    obtain ⟨e', hint, _, rfl⟩ := transition_game h
    rfl
  | tracker l e =>
    obtain ⟨e', hint, hh, rfl⟩ := transition_tracker h
    have he := handleTracker_event hh
    cases e with
    | unitBorn x =>
      simp only [reported] at he
      subst he
      simp only [handleTracker, Res.ok.injEq, handleUnitBorn] at hh
      have hc : ∀ c : Option Int, (touchCreator s l c).2.map SUnit.name = (c.bind s.units).map SUnit.name ∧
          (∀ k, ((touchCreator s l c).1 k).map SUnit.playerName = (s.units k).map SUnit.playerName) := by
        intro c
        cases c with
        | none => exact ⟨rfl, fun _ => rfl⟩
        | some c =>
          simp only [touchCreator, Option.bind_some]
          cases hu : s.units c with
          | none => exact ⟨rfl, fun _ => rfl⟩
          | some u =>
            refine ⟨rfl, fun k => ?_⟩
            by_cases hk : k = c
            · subst hk; simp [Units.set, hu]
            · simp [Units.set, hk]
      obtain ⟨h1, h2⟩ := hc x.creatorUnitTagIndex
      have h2 := h2 x.unitTagIndex
      split at hh
      · rename_i u hu
        rw [hu] at h2
        simp only [Prod.mk.injEq] at hh
        rw [← hh.2.2]
        simp only [bornRowOf, BornRow.fromUnitBorn, bornRows, Option.toList_some, h1]
        cases hs : s.units x.unitTagIndex with
        | none => rw [hs] at h2; simp at h2
        | some u0 =>
          rw [hs] at h2
          simp only [Option.map_some, Option.some.injEq] at h2
          rw [h2]
      · rename_i hu
        rw [hu] at h2
        simp only [Prod.mk.injEq] at hh
        rw [← hh.2.2]
        simp only [bornRowOf, BornRow.fromUnitBorn, bornRows, Option.toList_some, h1, SUnit.setProps]
        cases hs : s.units x.unitTagIndex with
        | none => rw [playerName_find]
        | some u0 => rw [hs] at h2; simp at h2
    | unitDone x =>
      simp only [reported] at he
      subst he
      simp only [handleTracker, Res.ok.injEq, handleUnitDone] at hh
      cases hs : s.units x.unitTagIndex with
      | none =>
        simp only [hs, Prod.mk.injEq] at hh
        rw [← hh.2.2]
        simp only [bornRows, hs]
        rfl
      | some u =>
        simp only [hs, Prod.mk.injEq] at hh
        rw [← hh.2.2]
        simp only [bornRows, hs]
        rfl
    | unitTypeChange x =>
      simp only [reported] at he
      subst he
      simp only [handleTracker, Res.ok.injEq, handleUnitTypeChange] at hh
      cases hs : s.units x.unitTagIndex with
      | none =>
        simp only [hs, Prod.mk.injEq] at hh
        rw [← hh.2.2]
        simp only [bornRows, hs]
        rfl
      | some u =>
        simp only [hs, Prod.mk.injEq] at hh
        rw [← hh.2.2]
        simp only [bornRows, hs]
        rfl
    | _ => simp only [reported] at he; subst he; rfl

theorem died_item {bld : Build} (fsId : Nat) (s : SState) (e : SEvent) (s' : SState) (it : Item)
    (h : transition bld s e = .ok (s', it)) : (diedRowOf fsId it).toList = diedRows fsId s e := by
  cases e with
  | game l u nm g =>
    obtain ⟨e', hint, _, rfl⟩ := transition_game h
    rfl
  | tracker l e =>
    obtain ⟨e', hint, hh, rfl⟩ := transition_tracker h
    have he := handleTracker_event hh
    cases e with
    | unitDied x =>
      simp only [reported] at he
      subst he
      simp only [handleTracker, handleUnitDied] at hh
      obtain ⟨users, _, hh⟩ := Res.bind_eq_ok.1 hh
      cases hs : s.units x.unitTagIndex with
      | none =>
        simp only [hs, Res.pure_eq, Res.ok.injEq, Prod.mk.injEq] at hh
        rw [← hh.2.2]
        simp only [diedRows, hs]
        rfl
      | some u =>
        simp only [hs, Res.pure_eq, Res.ok.injEq, Prod.mk.injEq] at hh
        rw [← hh.2.2]
        simp only [diedRows, hs, diedRowOf, DiedRow.new, Option.toList_some]
        cases hk : x.killerUnitTagIndex with
        | none => rfl
        | some k =>
          by_cases hkk : k = x.unitTagIndex
          · simp [Units.remove, hkk]
          · simp only [Units.remove, hkk, if_false]
            cases s.units k <;> rfl
    | _ => simp only [reported] at he; subst he; rfl

/-- The unit table of a replay: rows of exactly the births, and of the completions and type changes of units known
at that time, in the order in which the two event streams are merged. -/
theorem C105_born_rows (fsId : Nat) (bld : Build) (version n : Nat) (s : SState) (titems : List (Int × Val))
    (gitems : List (Int × Int × Val)) (trk game : List UInt8) (ht : Stream (TrackerWire bld) titems trk)
    (hutf : ∀ p ∈ titems, convTracker p.2 ≠ .err .utf8) (hg : Stream (TripletWire bld (gameEventTy version)) gitems game)
    (rows : List BornRow) (h : collectBorn fsId bld version n (MState.new s trk game none) = some (.ok rows)) :
    ∃ es, Interleaving ((trackerTimeline titems).map trackerSEvent) ((gameTimeline gitems).map (gameSEvent s)) es ∧
      (∃ s2, runEvents bld s es = .ok s2) ∧ rows = rowsAlong bld (bornRows fsId) s es :=
  collectRows_spec (fun s e s' it => born_item fsId s e s' it) ht hutf hg h

/-- The death table of a replay: rows of exactly the deaths of units known at that time, in the order in which
the two event streams are merged. -/
theorem C106_died_rows (fsId : Nat) (bld : Build) (version n : Nat) (s : SState) (titems : List (Int × Val))
    (gitems : List (Int × Int × Val)) (trk game : List UInt8) (ht : Stream (TrackerWire bld) titems trk)
    (hutf : ∀ p ∈ titems, convTracker p.2 ≠ .err .utf8) (hg : Stream (TripletWire bld (gameEventTy version)) gitems game)
    (rows : List DiedRow) (h : collectDied fsId bld version n (MState.new s trk game none) = some (.ok rows)) :
    ∃ es, Interleaving ((trackerTimeline titems).map trackerSEvent) ((gameTimeline gitems).map (gameSEvent s)) es ∧
      (∃ s2, runEvents bld s es = .ok s2) ∧ rows = rowsAlong bld (diedRows fsId) s es :=
  collectRows_spec (fun s e s' it => died_item fsId s e s' it) ht hutf hg h

/-! ## C107: commands -/

/-- The loop over the selection: one unit per selected known unit, named as before; the shared command ends up
with the ability of the last of them. -/
theorem cmdLoop_units (bal : BalUnits) (loop : Int) (target : Option SUnit) : ∀ (ids : List Int) (us : Units) (cmd : CmdEvent) (a : CmdAbil),
    cmd.abil = some a →
    ∃ a', (cmdLoop bal loop target ids us cmd).2.1 = { cmd with abil := some a' } ∧ a'.abilLink = a.abilLink ∧
      a'.abilCmdIndex = a.abilCmdIndex ∧
      (a'.ability = match (ids.filterMap (fun t => us (tagIndex t))).getLast? with
        | some u => abilityName bal u.name a.abilLink a.abilCmdIndex
        | none => a.ability) ∧
      (cmdLoop bal loop target ids us cmd).2.2.map (fun u => (u.name, u.cmd.otherUnitName)) =
        (ids.filterMap (fun t => us (tagIndex t))).map (fun u => (u.name, target.map SUnit.name)) := by
  intro ids
  induction ids with
  | nil => intro us cmd a ha; exact ⟨a, by rw [cmdLoop, ← ha], rfl, rfl, rfl, rfl⟩
  | cons sel rest ih =>
    intro us cmd a ha
    rw [cmdLoop]
    cases hu : us (tagIndex sel) with
    | none =>
      simp only [List.filterMap_cons, hu]
      exact ih us cmd a ha
    | some u =>
      simp only [ha, List.filterMap_cons, hu]
      generalize hu' : ({ u with cmd := _, lastGameLoop := loop } : SUnit) = u'
      obtain ⟨a', h1, h2, h3, h4, h5⟩ := ih (us.set (tagIndex sel) u')
        { cmd with abil := some { a with ability := abilityName bal u.name a.abilLink a.abilCmdIndex } } _ rfl
      have hn : u'.name = u.name := by rw [← hu']
      have ho : u'.cmd.otherUnitName = target.map SUnit.name := by rw [← hu']
      have hnames : (rest.filterMap (fun t => (us.set (tagIndex sel) u') (tagIndex t))).map SUnit.name =
          (rest.filterMap (fun t => us (tagIndex t))).map SUnit.name := by
        clear h1 h2 h3 h4 h5 ih
        induction rest with
        | nil => rfl
        | cons t rest ih =>
          simp only [List.filterMap_cons]
          by_cases ht : tagIndex t = tagIndex sel
          · have e1 : (us.set (tagIndex sel) u') (tagIndex t) = some u' := by simp [Units.set, ht]
            have e2 : us (tagIndex t) = some u := by rw [ht, hu]
            simp only [e1, e2, List.map_cons, ih, hn]
          · have e1 : (us.set (tagIndex sel) u') (tagIndex t) = us (tagIndex t) := by simp [Units.set, ht]
            rw [e1]
            cases us (tagIndex t) with
            | none => exact ih
            | some v => simp only [List.map_cons, ih]
      refine ⟨a', h1, h2, h3, ?_, ?_⟩
      · rw [h4, List.getLast?_cons]
        have hl := congrArg List.getLast? hnames
        rw [List.getLast?_map, List.getLast?_map] at hl
        generalize (rest.filterMap (fun t => (us.set (tagIndex sel) u') (tagIndex t))).getLast? = o1 at hl
        generalize (rest.filterMap (fun t => us (tagIndex t))).getLast? = o2 at hl
        cases o1 <;> cases o2 <;> simp_all
      · simp only [List.map_cons, h5, hn, ho]
        congr 1
        have := congrArg (List.map (fun n => (n, target.map SUnit.name))) hnames
        simpa [List.map_map, Function.comp_def] using this

theorem selectedIds_group {s : SState} {user : Int} {ids : List Int} (h : selectedIds s user = .ok ids) :
    ids = (groupOf s user 10).getD [] := by
  unfold selectedIds at h
  unfold groupOf
  cases hu : getUser s.users user with
  | none => rw [hu] at h; simp only [Res.ok.injEq] at h; rw [← h]; rfl
  | some u =>
    rw [hu] at h
    simp only [indexGroup, activeGroup] at h
    split at h
    · rename_i g hg
      simp only [Res.ok.injEq] at h
      simp only [Option.bind_some]
      rw [show (10 : Int).toNat = 10 from rfl] at hg
      rw [hg, ← h]
      rfl
    · cases h

theorem cmdLoop_noAbil (bal : BalUnits) (loop : Int) (target : Option SUnit) : ∀ (ids : List Int) (us : Units) (cmd : CmdEvent),
    cmd.abil = none → cmdLoop bal loop target ids us cmd = (us, cmd, [])
  | [], us, cmd, _ => rfl
  | sel :: rest, us, cmd, h => by
    rw [cmdLoop]
    cases us (tagIndex sel) with
    | none => exact cmdLoop_noAbil bal loop target rest us cmd h
    | some u => simp only [h]; exact cmdLoop_noAbil bal loop target rest us cmd h

/-- The unit a command is recorded as aimed at. -/
def cmdTarget (s : SState) (e : CmdEvent) : Option SUnit :=
  match e.data with
  | .targetUnit tu => s.units tu.tag
  | _ => none

theorem handleCmd_eq (s : SState) (l user : Int) (e : CmdEvent) : handleCmd s l user e = (do
    let ids ← selectedIds s user
    pure ({ s with units := (cmdLoop s.balance l (cmdTarget s e) ids s.units e).1 },
      .cmd (cmdLoop s.balance l (cmdTarget s e) ids s.units e).2.1,
      .abilities (cmdLoop s.balance l (cmdTarget s e) ids s.units e).2.2
        (cmdLoop s.balance l (cmdTarget s e) ids s.units e).2.1 (cmdTarget s e))) := by
  unfold handleCmd cmdTarget
  cases e.data <;> rfl

theorem handleGame_same {s s' : SState} {l user : Int} {e e' : GameEvt} {hint : Hint} (hc : ∀ x, e ≠ .cmd x)
    (h : handleGame s l user e = .ok (s', e', hint)) : e' = e := by
  cases e <;> simp only [handleGame] at h
  case cmd x => exact absurd rfl (hc x)
  case cmdUpdateTargetPoint x =>
    obtain ⟨_, _, h⟩ := Res.bind_eq_ok.1 h
    simp only [Res.pure_eq, Res.ok.injEq, Prod.mk.injEq] at h
    exact h.2.1.symm
  case cmdUpdateTargetUnit x =>
    unfold handleTargetUnit at h
    dsimp only at h
    split at h
    · simp only [Res.ok.injEq, Prod.mk.injEq] at h
      exact h.2.1.symm
    · obtain ⟨_, _, h⟩ := Res.bind_eq_ok.1 h
      simp only [Res.pure_eq, Res.ok.injEq, Prod.mk.injEq] at h
      exact h.2.1.symm
  case selectionDelta x =>
    obtain ⟨⟨_, _⟩, _, h⟩ := Res.bind_eq_ok.1 h
    obtain ⟨_, _, h⟩ := Res.bind_eq_ok.1 h
    simp only [Res.pure_eq, Res.ok.injEq, Prod.mk.injEq] at h
    exact h.2.1.symm
  case controlGroupUpdate x =>
    obtain ⟨⟨_, _⟩, _, h⟩ := Res.bind_eq_ok.1 h
    obtain ⟨_, _, h⟩ := Res.bind_eq_ok.1 h
    obtain ⟨⟨_, _⟩, _, h⟩ := Res.bind_eq_ok.1 h
    simp only [Res.pure_eq, Res.ok.injEq, Prod.mk.injEq] at h
    exact h.2.1.symm
  all_goals simp only [Res.ok.injEq, Prod.mk.injEq] at h; exact h.2.1.symm

/-- What the hint of a command contains. -/
theorem cmd_item {s s' : SState} {l user : Int} {e : CmdEvent} {e' : GameEvt} {hint : Hint}
    (h : handleGame s l user (.cmd e) = .ok (s', e', hint)) :
    (e.abil = none ∧ e' = .cmd e ∧ ∃ t, hint = .abilities [] e t) ∨
    ∃ a a' us t, e.abil = some a ∧ e' = .cmd { e with abil := some a' } ∧ hint = .abilities us { e with abil := some a' } t ∧
      a'.abilLink = a.abilLink ∧ a'.abilCmdIndex = a.abilCmdIndex ∧
      ((selectedUnits s user) ≠ [] → ∀ u, a'.ability = lastAbility s (selectedUnits s user) u a) ∧
      us.map (fun u => (u.name, u.cmd.otherUnitName)) = (selectedUnits s user).map (fun u => (u.name, t.map SUnit.name)) ∧
      t = cmdTarget s e := by
  simp only [handleGame, handleCmd_eq] at h
  obtain ⟨ids, hids, h⟩ := Res.bind_eq_ok.1 h
  simp only [Res.pure_eq, Res.ok.injEq, Prod.mk.injEq] at h
  obtain ⟨_, h2, h3⟩ := h
  cases ha : e.abil with
  | none =>
    rw [cmdLoop_noAbil _ _ _ _ _ _ ha] at h2 h3
    exact Or.inl ⟨rfl, h2.symm, _, h3.symm⟩
  | some a =>
    refine Or.inr ?_
    have hsel : selectedUnits s user = ids.filterMap (fun t => s.units (tagIndex t)) := by
      rw [selectedIds_group hids]; rfl
    obtain ⟨a', h4, h5, h6, h7, h8⟩ := cmdLoop_units s.balance l (cmdTarget s e) ids s.units e a ha
    rw [h4] at h2 h3
    refine ⟨a, a', _, cmdTarget s e, rfl, h2.symm, h3.symm, h5, h6, ?_, ?_, ?_⟩
    · intro hne u
      rw [hsel] at hne ⊢
      rw [h7]
      unfold lastAbility
      cases hg : (ids.filterMap (fun t => s.units (tagIndex t))).getLast? with
      | none => exact absurd (List.getLast?_eq_none_iff.1 hg) hne
      | some v => rfl
    · rw [hsel]; exact h8
    · rfl

/-- Equal lists of names give equal lists of rows. -/
theorem map_of_map_eq {α β γ ρ : Type} {f : α → γ} {g : β → γ} {l : List α} {l' : List β} (h : l.map f = l'.map g)
    (r : γ → ρ) : l.map (fun x => r (f x)) = l'.map (fun x => r (g x)) := by
  have := congrArg (List.map r) h
  simpa [List.map_map, Function.comp_def] using this

theorem cmdPoint_item {bld : Build} (fsId : Nat) (s : SState) (e : SEvent) (s' : SState) (it : Item)
    (h : transition bld s e = .ok (s', it)) : cmdPointRowsOf fsId it = cmdPointRows fsId lastAbility s e := by
  cases e with
  | tracker l e =>
    obtain ⟨e', hint, _, rfl⟩ := transition_tracker h
    rfl
  | game l user nm g =>
    obtain ⟨e', hint, hh, rfl⟩ := transition_game h
    cases g with
    | cmd e =>
      rcases cmd_item hh with ⟨ha, rfl, t, rfl⟩ | ⟨a, a', us, t, ha, rfl, rfl, h1, h2, h3, h4, h5⟩
      · simp only [cmdPointRowsOf, CmdPointRow.new, cmdPointRows, ha, List.map_nil]
        cases e.data <;> rfl
      · simp only [cmdPointRowsOf, CmdPointRow.new, cmdPointRows, ha]
        cases e.data with
        | targetPoint p =>
          simp only [Option.map_some, CmdEvent.abilityText, h1, h2]
          cases hsel : selectedUnits s user with
          | nil => rw [hsel] at h4; simp only [List.map_nil, List.map_eq_nil_iff] at h4; rw [h4]; rfl
          | cons u0 us0 =>
            rw [← hsel]
            rw [hsel] at h3
            have h3 := h3 (by simp)
            rw [← hsel] at h3
            have key := map_of_map_eq h4 (fun q => CmdPointRow.mk user nm e.cmdFlags (some a.abilLink) (some a.abilCmdIndex)
              a'.ability p.x p.y p.z e.sequence e.unitGroup q.1 l (Time.gameLoopToSeconds l) fsId)
            rw [key]
            apply List.map_congr_left
            intro u _
            rw [h3 u]
        | _ => rfl
    | _ =>
      rw [handleGame_same (by intro x hx; cases hx) hh]
      rfl

theorem cmdUnit_item {bld : Build} (fsId : Nat) (s : SState) (e : SEvent) (s' : SState) (it : Item)
    (h : transition bld s e = .ok (s', it)) : cmdUnitRowsOf fsId it = cmdUnitRows fsId lastAbility wholeTagName s e := by
  cases e with
  | tracker l e =>
    obtain ⟨e', hint, _, rfl⟩ := transition_tracker h
    rfl
  | game l user nm g =>
    obtain ⟨e', hint, hh, rfl⟩ := transition_game h
    cases g with
    | cmd e =>
      rcases cmd_item hh with ⟨ha, rfl, t, rfl⟩ | ⟨a, a', us, t, ha, rfl, rfl, h1, h2, h3, h4, h5⟩
      · simp only [cmdUnitRowsOf, CmdUnitRow.new, cmdUnitRows, ha, List.map_nil]
        cases e.data <;> rfl
      · simp only [cmdUnitRowsOf, CmdUnitRow.new, cmdUnitRows, ha]
        unfold cmdTarget at h5
        cases hd : e.data with
        | targetUnit p =>
          rw [hd] at h5
          simp only [Option.map_some, CmdEvent.abilityText, h1, h2]
          cases hsel : selectedUnits s user with
          | nil => rw [hsel] at h4; simp only [List.map_nil, List.map_eq_nil_iff] at h4; rw [h4]; rfl
          | cons u0 us0 =>
            rw [← hsel]
            rw [hsel] at h3
            have h3 := h3 (by simp)
            rw [← hsel] at h3
            have key := map_of_map_eq h4 (fun q => CmdUnitRow.mk user nm e.cmdFlags (some a.abilLink) (some a.abilCmdIndex)
              a'.ability p.targetUnitFlags p.tag p.snapshotUnitLink p.snapshotControlPlayerId p.snapshotUpkeepPlayerId
              p.snapshotPoint.x p.snapshotPoint.y p.snapshotPoint.z e.sequence q.1 (match q.2 with
                | some n => n
                | none => []) l (Time.gameLoopToSeconds l) fsId)
            refine Eq.trans key ?_
            apply List.map_congr_left
            intro u _
            rw [h3 u, h5]
            simp only [wholeTagName]
            cases s.units p.tag <;> rfl
        | _ => rfl
    | _ =>
      rw [handleGame_same (by intro x hx; cases hx) hh]
      rfl

/-- The command tables of a replay: one row per selected known unit for each command with an ability aimed at a
point (at a unit), in merged order, with the command's own fields and the unit's name.  Nothing is said here
about the two looked-up columns, the ability's name (`ab`) and the target's name (`tg`). -/
theorem C107_point_rows (fsId : Nat) (bld : Build) (version n : Nat) (s : SState) (titems : List (Int × Val))
    (gitems : List (Int × Int × Val)) (trk game : List UInt8) (ht : Stream (TrackerWire bld) titems trk)
    (hutf : ∀ p ∈ titems, convTracker p.2 ≠ .err .utf8) (hg : Stream (TripletWire bld (gameEventTy version)) gitems game)
    (rows : List CmdPointRow) (h : collectCmdPoints fsId bld version n (MState.new s trk game none) = some (.ok rows)) :
    ∃ es ab, Interleaving ((trackerTimeline titems).map trackerSEvent) ((gameTimeline gitems).map (gameSEvent s)) es ∧
      (∃ s2, runEvents bld s es = .ok s2) ∧ rows = rowsAlong bld (cmdPointRows fsId ab) s es := by
  obtain ⟨es, h1, h2, h3⟩ := collectRows_spec (fun s e s' it => cmdPoint_item fsId s e s' it) ht hutf hg h
  exact ⟨es, _, h1, h2, h3⟩

theorem C107_unit_rows (fsId : Nat) (bld : Build) (version n : Nat) (s : SState) (titems : List (Int × Val))
    (gitems : List (Int × Int × Val)) (trk game : List UInt8) (ht : Stream (TrackerWire bld) titems trk)
    (hutf : ∀ p ∈ titems, convTracker p.2 ≠ .err .utf8) (hg : Stream (TripletWire bld (gameEventTy version)) gitems game)
    (rows : List CmdUnitRow) (h : collectCmdUnits fsId bld version n (MState.new s trk game none) = some (.ok rows)) :
    ∃ es ab tg, Interleaving ((trackerTimeline titems).map trackerSEvent) ((gameTimeline gitems).map (gameSEvent s)) es ∧
      (∃ s2, runEvents bld s es = .ok s2) ∧ rows = rowsAlong bld (cmdUnitRows fsId ab tg) s es := by
  obtain ⟨es, h1, h2, h3⟩ := collectRows_spec (fun s e s' it => cmdUnit_item fsId s e s' it) ht hutf hg h
  exact ⟨es, _, _, h1, h2, h3⟩

/-! ## C108: ability names in rows -/

theorem rowsAlong_congr {ρ : Type} {bld : Build} {f g : SState → SEvent → List ρ} {s : SState} {es : List SEvent}
    (h : ∀ k s' e, runEvents bld s (es.take k) = .ok s' → es[k]? = some e → f s' e = g s' e) :
    rowsAlong bld f s es = rowsAlong bld g s es := by
  unfold rowsAlong
  congr 1
  funext k
  unfold rowsAt
  split
  · rename_i e s' h1 h2
    exact h k s' e h2 h1
  · rfl

/-- If all units in a selection are of one type, the last unit's ability is everybody's. -/
theorem lastAbility_own {s : SState} {us : List SUnit} (h : ∀ u ∈ us, ∀ v ∈ us, u.name = v.name) {u : SUnit} (hu : u ∈ us) (a : CmdAbil) :
    lastAbility s us u a = ownAbility s us u a := by
  unfold lastAbility ownAbility
  cases hl : us.getLast? with
  | none => rw [List.getLast?_eq_none_iff.1 hl] at hu; cases hu
  | some v =>
    have hv : v ∈ us := List.mem_of_getLast? hl
    rw [h u hu v hv]

/-- As long as no command is given to a mixed selection, every row of the point-command table shows the ability
of its own unit. -/
theorem C108_own_ability_partial (fsId : Nat) (bld : Build) (version n : Nat) (s : SState) (titems : List (Int × Val))
    (gitems : List (Int × Int × Val)) (trk game : List UInt8) (ht : Stream (TrackerWire bld) titems trk)
    (hutf : ∀ p ∈ titems, convTracker p.2 ≠ .err .utf8) (hg : Stream (TripletWire bld (gameEventTy version)) gitems game)
    (rows : List CmdPointRow) (h : collectCmdPoints fsId bld version n (MState.new s trk game none) = some (.ok rows)) :
    ∃ es, Interleaving ((trackerTimeline titems).map trackerSEvent) ((gameTimeline gitems).map (gameSEvent s)) es ∧
      ((∀ k s' l user nm e, runEvents bld s (es.take k) = .ok s' → es[k]? = some (.game l user nm (.cmd e)) →
          ∀ u ∈ selectedUnits s' user, ∀ v ∈ selectedUnits s' user, u.name = v.name) →
        rows = rowsAlong bld (cmdPointRows fsId ownAbility) s es) := by
  obtain ⟨es, h1, h2, h3⟩ := collectRows_spec (fun s e s' it => cmdPoint_item fsId s e s' it) ht hutf hg h
  refine ⟨es, h1, fun hsame => ?_⟩
  rw [h3]
  apply rowsAlong_congr
  intro k s' e hk he
  cases e with
  | tracker l e => rfl
  | game l user nm g =>
    cases g with
    | cmd e =>
      have hs := hsame k s' l user nm e hk he
      unfold cmdPointRows
      dsimp only
      split
      · apply List.map_congr_left
        intro u hu
        rw [lastAbility_own hs hu]
      · rfl
    | _ => rfl

/-! ### A concrete file -/

/-- An SCV (index 1) and a marine (index 2) of player 1 are born; an upgrade; statistics; the SCV becomes a MULE; later the
marine kills it. -/
def wScv : List UInt8 := [3, 0, 9, 0, 9, 2, 5, 20, 0, 9, 2, 2, 9, 2, 4, 2, 6, 83, 67, 86, 6, 9, 2, 8, 9, 2, 10, 9, 20, 12, 9, 40, 14, 4, 0, 16, 4, 0, 18, 4, 0]
def wMarine : List UInt8 := [3, 0, 9, 0, 9, 2, 5, 20, 0, 9, 4, 2, 9, 2, 4, 2, 12, 77, 97, 114, 105, 110, 101, 6, 9, 2, 8, 9, 2, 10, 9, 20, 12, 9,
  40, 14, 4, 0, 16, 4, 0, 18, 4, 0]
def wMule : List UInt8 := [3, 0, 9, 18, 9, 8, 5, 6, 0, 9, 2, 2, 9, 2, 4, 2, 8, 77, 85, 76, 69]
def wKilled : List UInt8 := [3, 0, 9, 18, 9, 4, 5, 14, 0, 9, 2, 2, 9, 2, 4, 4, 1, 9, 2, 6, 9, 20, 8, 9, 40, 10, 4, 1, 9, 4, 12, 4, 1, 9, 2]
def wStim : List UInt8 := [3, 0, 9, 0, 9, 10, 5, 6, 0, 9, 2, 2, 2, 8, 83, 116, 105, 109, 4, 9, 2]
def wStats : List UInt8 := [3, 0, 9, 0, 9, 0, 5, 4, 0, 9, 2, 2, 5, 78, 0, 9, 0, 2, 9, 2, 4, 9, 4, 6, 9, 6, 8, 9, 8, 10, 9, 10, 12, 9, 12, 14, 9,
 14, 16, 9, 16, 18, 9, 18, 20, 9, 20, 22, 9, 22, 24, 9, 24, 26, 9, 26, 28, 9, 28, 30, 9, 30, 32, 9, 32, 34, 9, 34, 36,
 9, 36, 38, 9, 38, 40, 9, 40, 42, 9, 42, 44, 9, 44, 46, 9, 46, 48, 9, 48, 50, 9, 50, 52, 9, 52, 54, 9, 54, 56, 9, 56,
 58, 9, 128, 192, 14, 60, 9, 128, 128, 15, 62, 9, 62, 64, 9, 64, 66, 9, 66, 68, 9, 68, 70, 9, 70, 72, 9, 72, 74, 9, 74,
 76, 9, 76]
def wTrack : List UInt8 := wScv ++ (wMarine ++ (wStim ++ (wStats ++ (wMule ++ wKilled))))
/-- User 0 selects both units, orders them to a point, then at the SCV (tag 1 * 2^18 + 1). -/
def wSelectBoth : List UInt8 := [20, 32, 172, 0, 0, 0, 2, 0, 32, 0, 1, 0, 64, 0, 1]
def wOrderPoint : List UInt8 := [0, 32, 11, 0, 0, 128, 0, 3, 65, 1, 0, 0, 32, 0, 128, 0, 0, 0, 0, 0, 0, 6, 0]
def wOrderUnit : List UInt8 := [0, 32, 11, 0, 0, 128, 0, 3, 129, 0, 0, 0, 0, 4, 0, 1, 0, 5, 3, 4, 0, 0, 128, 128, 0, 0, 0, 0, 0, 0, 0, 7]
def wGame : List UInt8 := wSelectBoth ++ (wOrderPoint ++ wOrderUnit)

def rowsState : SState := SState.initial [(0, str "A"), (1, str "B")] exBalance
def rowsFile : MState := MState.new rowsState wTrack wGame none

/-- One tracker event, convertible. -/
theorem good_tracker {bld : Build} {w : List UInt8}
    (h : (match parsePair bld w with
      | .ok ([], v) => (match convTracker v.2 with
        | .ok _ => true
        | _ => false)
      | _ => false) = true) : ∃ v, TrackerWire bld v w ∧ convTracker v.2 ≠ .err .utf8 := by
  split at h
  · rename_i v hp
    obtain ⟨u, h1, h2⟩ := (parsePair_iff ..).1 hp
    refine ⟨v, by simp at h1; exact h1 ▸ h2, ?_⟩
    intro c
    rw [c] at h
    cases h
  · cases h

theorem stream_cons {bld : Build} {w d : List UInt8} (h : ∃ v, TrackerWire bld v w ∧ convTracker v.2 ≠ .err .utf8)
    (ht : ∃ items, Stream (TrackerWire bld) items d ∧ ∀ p ∈ items, convTracker p.2 ≠ .err .utf8) :
    ∃ items, Stream (TrackerWire bld) items (w ++ d) ∧ ∀ p ∈ items, convTracker p.2 ≠ .err .utf8 := by
  obtain ⟨v, h1, h2⟩ := h
  obtain ⟨items, h3, h4⟩ := ht
  refine ⟨v :: items, ⟨_, _, rfl, h1, h3⟩, ?_⟩
  intro p hp
  rcases List.mem_cons.1 hp with rfl | hp
  · exact h2
  · exact h4 p hp

/-- The hypotheses of the theorems above are met by this file. -/
theorem rowsFile_streams (bld : Build) : ∃ titems gitems, Stream (TrackerWire bld) titems wTrack ∧
    (∀ p ∈ titems, convTracker p.2 ≠ .err .utf8) ∧ Stream (TripletWire bld (gameEventTy 90000)) gitems wGame := by
  have ht : ∃ items, Stream (TrackerWire bld) items wTrack ∧ ∀ p ∈ items, convTracker p.2 ≠ .err .utf8 := by
    refine stream_cons (good_tracker (by cases bld <;> decide +kernel)) (stream_cons (good_tracker (by cases bld <;> decide +kernel))
      (stream_cons (good_tracker (by cases bld <;> decide +kernel)) (stream_cons (good_tracker (by cases bld <;> decide +kernel))
      (stream_cons (good_tracker (by cases bld <;> decide +kernel)) ?_))))
    rw [← List.append_nil wKilled]
    exact stream_cons (good_tracker (by cases bld <;> decide +kernel)) ⟨[], rfl, by simp⟩
  obtain ⟨titems, h1, h2⟩ := ht
  have hg : ∃ out, readGameEvents bld 90000 100 wGame = some (.ok out) := by
    have hb : (match readGameEvents bld 90000 100 wGame with
      | some (.ok _) => true
      | _ => false) = true := by cases bld <;> decide +kernel
    generalize readGameEvents bld 90000 100 wGame = r at hb ⊢
    match r, hb with
    | some (.ok out), _ => exact ⟨out, rfl⟩
  obtain ⟨out, hg⟩ := hg
  obtain ⟨gitems, _, h3, _⟩ := C30_game_only_streams _ _ _ _ _ hg
  exact ⟨titems, gitems, h1, h2, h3⟩


example (bld : Build) : (collectUpgrades 7 bld 90000 100 rowsFile) = some (.ok [⟨1, str "Stim", 1, 0, 0, 7⟩]) := by
  cases bld <;> decide +kernel

example (bld : Build) : ∃ rows, collectStats 7 bld 90000 100 rowsFile = some (.ok rows) ∧ rows.length = 1 ∧
    rows.map (fun r => (r.player_id, r.workers_active_count, r.vespene_friendly_fire_technology)) = [(1, 4, 38)] := by
  have h : (collectStats 7 bld 90000 100 rowsFile).map (fun r => match r with
      | .ok rows => some (rows.length, rows.map (fun r => (r.player_id, r.workers_active_count, r.vespene_friendly_fire_technology)))
      | _ => none) = some (some (1, [(1, 4, 38)])) := by cases bld <;> decide +kernel
  generalize collectStats 7 bld 90000 100 rowsFile = r at h ⊢
  match r, h with
  | some (.ok rows), h =>
    simp only [Option.map_some, Option.some.injEq, Prod.mk.injEq] at h
    exact ⟨rows, rfl, h.1, h.2⟩

example (bld : Build) : collectBorn 7 bld 90000 100 rowsFile = some (.ok
    [⟨1, 1, str "SCV", some 1, some 1, 10, 20, none, none, none, none, 0, 0, 7, none⟩,
     ⟨2, 1, str "Marine", some 1, some 1, 10, 20, none, none, none, none, 0, 0, 7, none⟩,
     ⟨1, 1, str "MULE", some 1, some 1, 10, 20, none, none, some (str "SCV"), none, 9, 0, 7, none⟩]) := by
  cases bld <;> decide +kernel

example (bld : Build) : collectDied 7 bld 90000 100 rowsFile = some (.ok
    [⟨str "MULE", 1, 1, some 1, 10, 20, str "Marine", some 2, some 1, 18, 1, 7⟩]) := by
  cases bld <;> decide +kernel

theorem rowsFile_points (bld : Build) : collectCmdPoints 7 bld 90000 100 rowsFile = some (.ok
    [⟨0, some (str "A"), 0, some 3, some 1, [], 4096, 8192, 0, 7, none, str "SCV", 5, 0, 7⟩,
     ⟨0, some (str "A"), 0, some 3, some 1, [], 4096, 8192, 0, 7, none, str "Marine", 5, 0, 7⟩]) := by
  cases bld <;> decide +kernel

theorem rowsFile_units (bld : Build) : collectCmdUnits 7 bld 90000 100 rowsFile = some (.ok
    [⟨0, some (str "A"), 0, some 3, some 1, [], 0, 262145, 5, some 1, none, 4096, 8192, 0, 8, str "SCV", [], 5, 0, 7⟩,
     ⟨0, some (str "A"), 0, some 3, some 1, [], 0, 262145, 5, some 1, none, 4096, 8192, 0, 8, str "Marine", [], 5, 0, 7⟩]) := by
  cases bld <;> decide +kernel

/-! ### Refutations -/

/-- A name that is not UTF-8 in an unrelated event hides the statistics events after it, when no game event is
left to bridge the gap: the sector is a stream whose last event is a statistics event, and the table is empty. -/
theorem C104_stats_rows_refuted (bld : Build) : ∃ v, Stream (TrackerWire bld) [vBadName, v] (wBadName ++ wStats) ∧
    (∃ player st, convTracker v.2 = .ok (.playerStats player st)) ∧
    collectStats 7 bld 90000 200 (MState.new rowsState (wBadName ++ wStats) [] none) = some (.ok []) := by
  have hw : ∃ v, parsePair bld wStats = .ok ([], v) ∧ ∃ player st, convTracker v.2 = .ok (.playerStats player st) := by
    have hb : (match parsePair bld wStats with
      | .ok ([], v) => (match convTracker v.2 with
        | .ok (.playerStats _ _) => true
        | _ => false)
      | _ => false) = true := by cases bld <;> decide +kernel
    generalize parsePair bld wStats = r at hb ⊢
    match r, hb with
    | .ok ([], v), hb =>
      refine ⟨v, rfl, ?_⟩
      dsimp only at hb
      split at hb
      · exact ⟨_, _, by assumption⟩
      · cases hb
  obtain ⟨v, h1, h2⟩ := hw
  obtain ⟨u, h3, h4⟩ := (parsePair_iff ..).1 h1
  simp only [List.append_nil] at h3
  subst h3
  refine ⟨v, ⟨_, _, rfl, wBadName_wire bld, _, [], by simp, h4, rfl⟩, h2, ?_⟩
  cases bld <;> decide +kernel

/-- In `rowsFile` the row of the SCV shows the (absent) ability of the marine selected with it, not its own
"attack.Go". -/
theorem C108_own_ability_refuted (bld : Build) : ∃ rows r link cmd, collectCmdPoints 7 bld 90000 100 rowsFile = some (.ok rows) ∧
    r ∈ rows ∧ r.abilLink = some link ∧ r.abilCmdIndex = some cmd ∧
    r.ability = [] ∧ abilityName exBalance r.unitName link cmd = str "attack.Go" :=
  ⟨_, _, 3, 1, rowsFile_points bld, List.mem_cons_self, rfl, rfl, rfl, by decide +kernel⟩

/-- The unit-command table, exactly: `ability` is that of the last selected unit, `target_unit_name` is the name
of the unit registered under the whole tag taken as an index. -/
theorem C109_exact_rows_partial (fsId : Nat) (bld : Build) (version n : Nat) (s : SState) (titems : List (Int × Val))
    (gitems : List (Int × Int × Val)) (trk game : List UInt8) (ht : Stream (TrackerWire bld) titems trk)
    (hutf : ∀ p ∈ titems, convTracker p.2 ≠ .err .utf8) (hg : Stream (TripletWire bld (gameEventTy version)) gitems game)
    (rows : List CmdUnitRow) (h : collectCmdUnits fsId bld version n (MState.new s trk game none) = some (.ok rows)) :
    ∃ es, Interleaving ((trackerTimeline titems).map trackerSEvent) ((gameTimeline gitems).map (gameSEvent s)) es ∧
      rows = rowsAlong bld (cmdUnitRows fsId lastAbility wholeTagName) s es := by
  obtain ⟨es, h1, h2, h3⟩ := collectRows_spec (fun s e s' it => cmdUnit_item fsId s e s' it) ht hutf hg h
  exact ⟨es, h1, h3⟩

/-- The two looked-up columns are right as long as commands go to selections of one type of units and aim at units
that are not known (any more). -/
theorem C109_target_name_partial (fsId : Nat) (bld : Build) (version n : Nat) (s : SState) (titems : List (Int × Val))
    (gitems : List (Int × Int × Val)) (trk game : List UInt8) (ht : Stream (TrackerWire bld) titems trk)
    (hutf : ∀ p ∈ titems, convTracker p.2 ≠ .err .utf8) (hg : Stream (TripletWire bld (gameEventTy version)) gitems game)
    (rows : List CmdUnitRow) (h : collectCmdUnits fsId bld version n (MState.new s trk game none) = some (.ok rows)) :
    ∃ es, Interleaving ((trackerTimeline titems).map trackerSEvent) ((gameTimeline gitems).map (gameSEvent s)) es ∧
      ((∀ k s' l user nm e, runEvents bld s (es.take k) = .ok s' → es[k]? = some (.game l user nm (.cmd e)) →
          (∀ u ∈ selectedUnits s' user, ∀ v ∈ selectedUnits s' user, u.name = v.name) ∧
          (∀ t, e.data = .targetUnit t → s'.units t.tag = none ∧ s'.units (tagIndex t.tag) = none)) →
        rows = rowsAlong bld (cmdUnitRows fsId ownAbility taggedName) s es) := by
  obtain ⟨es, h1, h3⟩ := C109_exact_rows_partial fsId bld version n s titems gitems trk game ht hutf hg rows h
  refine ⟨es, h1, fun hsame => ?_⟩
  rw [h3]
  apply rowsAlong_congr
  intro k s' e hk he
  cases e with
  | tracker l e => rfl
  | game l user nm g =>
    cases g with
    | cmd e =>
      obtain ⟨hs, hu⟩ := hsame k s' l user nm e hk he
      unfold cmdUnitRows
      dsimp only
      split
      · rename_i t a hd ha
        apply List.map_congr_left
        intro u hm
        rw [lastAbility_own hs hm]
        obtain ⟨h4, h5⟩ := hu t hd
        simp only [taggedName, wholeTagName, h4, h5]
      · rfl
    | _ => rfl

/-- In `rowsFile` the second order is aimed at the SCV (index 1, tag 1 * 2^18 + 1), which the first two rows of the
unit table show as known and alive at that time; the rows of the order name no target. -/
theorem C109_target_name_refuted (bld : Build) : ∃ rows r, collectCmdUnits 7 bld 90000 100 rowsFile = some (.ok rows) ∧
    r ∈ rows ∧ r.targetUnitName = [] ∧
    (∃ born b, collectBorn 7 bld 90000 100 rowsFile = some (.ok born) ∧ b ∈ born ∧ b.replayLoop < r.replayLoop ∧
      b.unitTagIndex * 2 ^ 18 + b.unitTagRecycle = r.tag ∧ b.unitTypeName = str "SCV") ∧
    (∃ died, collectDied 7 bld 90000 100 rowsFile = some (.ok died) ∧ ∀ d ∈ died, r.replayLoop < d.replayLoop) := by
  refine ⟨_, _, rowsFile_units bld, List.mem_cons_self, rfl, ⟨
    [⟨1, 1, str "SCV", some 1, some 1, 10, 20, none, none, none, none, 0, 0, 7, none⟩,
     ⟨2, 1, str "Marine", some 1, some 1, 10, 20, none, none, none, none, 0, 0, 7, none⟩,
     ⟨1, 1, str "MULE", some 1, some 1, 10, 20, none, none, some (str "SCV"), none, 9, 0, 7, none⟩],
    _, by cases bld <;> decide +kernel, List.mem_cons_self, by decide, by decide, rfl⟩,
    [⟨str "MULE", 1, 1, some 1, 10, 20, str "Marine", some 2, some 1, 18, 1, 7⟩], by cases bld <;> decide +kernel, ?_⟩
  intro d hd
  simp only [List.mem_singleton] at hd
  subst hd
  decide

/-! ## C110: the collectors return -/

theorem collectItems_returns {bld : Build} {version : Nat} : ∀ (n : Nat) (m : MState), m.Aligned → m.pending < n →
    collectItems bld version n m ≠ none
  | 0, m, _, h => by omega
  | n + 1, m, ha, h => by
    rw [collectItems]
    cases hm : mnext bld version (n + 1) m with
    | none => exact absurd hm (mnext_returns _ _ ha h)
    | some p =>
      obtain ⟨r, m'⟩ := p
      obtain ⟨h1, h2⟩ := mnext_measure _ _ _ _ ha hm
      match r, h2 with
      | .panic, _ => simp
      | .err e, _ => simp
      | .ok none, _ => simp
      | .ok (some it), h2 =>
        have h2 : m'.pending + 1 ≤ m.pending := h2
        dsimp only
        cases hr : collectItems bld version n m' with
        | none => exact absurd hr (collectItems_returns n m' h1 (by omega))
        | some r => cases r <;> simp

/-- Whatever is in the two sectors, a collector returns, after at most one round per byte. -/
theorem C110_collectors_return {ρ : Type} (rows : Item → List ρ) (bld : Build) (version : Nat) (s : SState) (trk game : List UInt8)
    (o : Option Filters) (n : Nat) (hn : trk.length + game.length < n) :
    ∃ r, collectRows rows bld version n (MState.new s trk game o) = some r := by
  have h := collectItems_returns (bld := bld) (version := version) n (MState.new s trk game o) ⟨rfl, rfl⟩
    (by rw [new_pending]; exact hn)
  unfold collectRows
  cases hc : collectItems bld version n (MState.new s trk game o) with
  | none => exact absurd hc h
  | some r => cases r <;> exact ⟨_, rfl⟩

theorem collectItems_bad {bld : Build} {version : Nat} : ∀ {n : Nat} {m : MState} {r : Res (List Item)},
    collectItems bld version n m = some r → (∀ its, r ≠ .ok its) →
    ∃ rs m1 k x m2, Calls (mnext bld version) m rs m1 ∧ (∀ r ∈ rs, ∃ x, r = .ok x) ∧ mnext bld version k m1 = some (x, m2) ∧
      ∀ y, x ≠ .ok y
  | 0, m, r, h, _ => by simp [collectItems] at h
  | n + 1, m, r, h, hb => by
    rw [collectItems] at h
    split at h
    · cases h
    · rename_i m' hn
      exact ⟨[], m, n + 1, .panic, m', .nil m, by simp, hn, by simp⟩
    · rename_i e m' hn
      exact ⟨[], m, n + 1, .err e, m', .nil m, by simp, hn, by simp⟩
    · simp only [Option.some.injEq] at h
      exact absurd h.symm (hb _)
    · rename_i it m' hn
      split at h
      · simp only [Option.some.injEq] at h
        exact absurd h.symm (hb _)
      · obtain ⟨rs, m1, k, x, m2, h1, h2, h3, h4⟩ := collectItems_bad h hb
        refine ⟨.ok (some it) :: rs, m1, k, x, m2, .cons hn h1, ?_, h3, h4⟩
        intro r hr
        rcases List.mem_cons.1 hr with rfl | hr
        · exact ⟨_, rfl⟩
        · exact h2 r hr

/-- In a release build, every table of every file is produced without a panic, unless a known user of the file uses
control group 11 to 15. -/
theorem C110_release_total {ρ : Type} (rows : Item → List ρ) (version : Nat) (players : List (Int × Str)) (bal : BalUnits)
    (hp : (players.map Prod.fst).Nodup) (trk game : List UInt8) (o : Option Filters) (n : Nat)
    (hn : trk.length + game.length < n) :
    (∃ out, collectRows rows .release version n (MState.new (SState.initial players bal) trk game o) = some (.ok out)) ∨
    ∃ rg sg l u e i, Calls (gameNext .release version) (IterState.new game) rg sg ∧ (l, u, e) ∈ rg.flatMap yielded ∧
      (getUser (SState.initial players bal).users u).isSome ∧ groupIndexOf e = some i ∧ 11 ≤ i ∧ i ≤ 15 := by
  obtain ⟨r, hr⟩ := Option.ne_none_iff_exists'.mp (collectItems_returns (bld := .release) (version := version) n
    (MState.new (SState.initial players bal) trk game o) ⟨rfl, rfl⟩ (by rw [new_pending]; exact hn))
  by_cases hok : ∃ its, r = .ok its
  · obtain ⟨its, rfl⟩ := hok
    left
    exact ⟨its.flatMap rows, by unfold collectRows; rw [hr]⟩
  · right
    obtain ⟨rs, m1, k, x, m2, h1, h2, h3, h4⟩ := collectItems_bad hr (fun its h => hok ⟨its, h⟩)
    rcases C85_release_total version _ (initial_wf players bal hp) trk game o rs m1 h1 h2 k x m2 h3 with ⟨y, hy⟩ | h
    · exact absurd hy (h4 y)
    · exact h

/-! ## C111: the lobby table -/

/-- The user table of a replay has one row per user slot, in slot order, with that slot's index, name, clan tag (empty
if there is none) and rating. -/
theorem C111_user_rows (d : InitFile) (h : d.sync.users.length ≤ 2 ^ 32) :
    (UserInitRow.ofInit d).length = d.sync.users.length ∧
    ∀ (i : Nat) (u : UserInit), d.sync.users[i]? = some u → ∃ r, (UserInitRow.ofInit d)[i]? = some r ∧ r.userIndex = i ∧ r.name = u.name ∧
      (∀ t, u.clanTag = some t → r.clanTag = t) ∧ (u.clanTag = none → r.clanTag = []) ∧ r.scaledRating = u.scaledRating ∧
      r.fsId = d.fsId ∧ r.sha256 = d.sha256 ∧ r.fileName = d.fileName := by
  refine ⟨by simp [UserInitRow.ofInit], ?_⟩
  intro i u hi
  have hlt : i < d.sync.users.length := (List.getElem?_eq_some_iff.1 hi).1
  refine ⟨UserInitRow.mk d.fsId d.sha256 d.fileName (asU 32 i) u.name (u.clanTag.getD []) u.scaledRating,
    by simp [UserInitRow.ofInit, List.getElem?_zipIdx, hi], ?_, rfl, ?_, ?_, rfl, rfl, rfl, rfl⟩
  · simp only [asU]
    omega
  · intro t ht; simp [ht]
  · intro ht; simp [ht]

/-- Concretely, for the lobby of `exLobby`. -/
example : (exInitFile exLobby).sync.users.length ≤ 2 ^ 32 ∧ (UserInitRow.ofInit (exInitFile exLobby)).length = (exInitFile exLobby).sync.users.length ∧
    0 < (exInitFile exLobby).sync.users.length := by decide +kernel

end S2
