import Verif.Props.WholeReplay
import Verif.Props.LoopOrder
import Verif.Props.Rows
/-! # The tables of a replay written by the published description (C186) -/
namespace S2
open Published

/-- The tracker events of a replay with the sums of their deltas. [specification] -/
def Published.Replay.trackerTimes (r : Replay) : List (Int × TrackerEvt) := (stamped Prod.fst r.tracker).map (fun p => (p.1, p.2.2))

theorem replay_hutf (r : Replay) (hf : r.Fits) :
    ∀ p ∈ r.tracker.map (fun p => (p.1, trackerVal p.2)), convTracker p.2 ≠ .err .utf8 := by
  intro p hp
  obtain ⟨q, hq, rfl⟩ := List.mem_map.1 hp
  simp only
  rw [trackerVal_conv q.2 (hf.tracker.2 q hq).2]
  exact fun h => nomatch h

/-- **C186.** The statistics table of a replay has one row for each of its statistics events, in order, each with the sum of the deltas up to the event, its player
and all of its numbers, and nothing else. -/
theorem C186_statistics (fsId : Nat) (bld : Build) (r : Replay) (hf : r.Fits) (s : SState) (n : Nat) (rows : List StatsRow)
    (h : collectStats fsId bld r.version n (MState.new s (r.tracker.flatMap trackerItem) (r.game.flatMap (gameItem r.version)) none) = some (.ok rows)) :
    rows.length = (r.trackerTimes.filterMap statsOf).length ∧
    ∀ (i : Nat) (row : StatsRow) (p : Int × (Int × PlayerStats)), rows[i]? = some row →
      (r.trackerTimes.filterMap statsOf)[i]? = some p → IsStatsRow fsId row p := by
  have := C104_stats_rows_partial fsId bld r.version n s _ _ _ _ (trackerItems_stream bld _ hf.tracker.2) (replay_hutf r hf)
    (heardItems_game_stream bld r.version _ hf.game.2) rows h
  rwa [tracker_timeline _ hf.tracker.2] at this

/-- **C186.** The upgrade table is the list of the upgrade events. -/
theorem C186_upgrades (fsId : Nat) (bld : Build) (r : Replay) (hf : r.Fits) (s : SState) (n : Nat) (rows : List UpgradeRow)
    (h : collectUpgrades fsId bld r.version n (MState.new s (r.tracker.flatMap trackerItem) (r.game.flatMap (gameItem r.version)) none) = some (.ok rows)) :
    rows = r.trackerTimes.filterMap (upgradeRow fsId) := by
  have := C104_upgrade_rows_partial fsId bld r.version n s _ _ _ _ (trackerItems_stream bld _ hf.tracker.2) (replay_hutf r hf)
    (heardItems_game_stream bld r.version _ hf.game.2) rows h
  rwa [tracker_timeline _ hf.tracker.2] at this

/-- **C186.** The other four tables have the rows of one interleaving of the tracker and the game events of the replay, the same for all four (and in the order of
the times, if the game takes at most 2²⁴ loops). -/
theorem C186_tables (fsId : Nat) (bld : Build) (r : Replay) (hf : r.Fits) (s : SState) :
    let m := MState.new s (r.tracker.flatMap trackerItem) (r.game.flatMap (gameItem r.version)) none
    ∃ es, Interleaving r.trackerEvents (r.gameEvents s) es ∧
      ((∀ i ≤ r.game.length, ((r.game.take i).map Prod.fst).sum ≤ 2 ^ 24) → es = loopOrder r.trackerEvents (r.gameEvents s)) ∧
      (∀ n rows, collectBorn fsId bld r.version n m = some (.ok rows) → rows = rowsAlong bld (bornRows fsId) s es) ∧
      (∀ n rows, collectDied fsId bld r.version n m = some (.ok rows) → rows = rowsAlong bld (diedRows fsId) s es) ∧
      (∀ n rows, collectCmdPoints fsId bld r.version n m = some (.ok rows) → rows = rowsAlong bld (cmdPointRows fsId lastAbility) s es) ∧
      (∀ n rows, collectCmdUnits fsId bld r.version n m = some (.ok rows) → rows = rowsAlong bld (cmdUnitRows fsId lastAbility wholeTagName) s es) := by
  have ht := trackerItems_stream bld _ hf.tracker.2
  have hu := replay_hutf r hf
  have hg := heardItems_game_stream bld r.version _ hf.game.2
  have e1 : r.trackerEvents = (r.trackerTimes).map trackerSEvent := by
    unfold Replay.trackerEvents Replay.trackerTimes
    rw [List.map_map]
    rfl
  have e2 : r.gameEvents s = ((stamped Prod.fst r.game).map (fun p => (p.1, (heardItem p.2).2))).map (gameSEvent s) := by
    unfold Replay.gameEvents
    rw [List.map_map]
    rfl
  have t1 := tracker_timeline _ hf.tracker.2
  have t2 := game_timeline r.version _ hf.game.2
  refine ⟨mergeEvents s r.trackerTimes ((stamped Prod.fst r.game).map (fun p => (p.1, (heardItem p.2).2))), ?_, ?_, ?_, ?_, ?_, ?_⟩
  · rw [e1, e2]
    exact mergeEvents_interleaving _ _ _
  · intro hb
    rw [e1, e2]
    refine mergeEvents_loopOrder s _ _ (fun g hm => ⟨(gameTimeline_sorted hg).2 g (by rw [t2]; exact hm), ?_⟩)
    obtain ⟨p, hp, rfl⟩ := List.mem_map.1 hm
    unfold stamped at hp
    obtain ⟨q, hq, rfl⟩ := List.mem_map.1 hp
    obtain ⟨x, i⟩ := q
    have hi := (List.mem_zipIdx' hq).1
    exact hb (i + 1) (by omega)
  · intro n rows h
    have := collectRows_exact (fun s e s' it => born_item fsId s e s' it) ht hu hg h
    rwa [t1, t2] at this
  · intro n rows h
    have := collectRows_exact (fun s e s' it => died_item fsId s e s' it) ht hu hg h
    rwa [t1, t2] at this
  · intro n rows h
    have := collectRows_exact (fun s e s' it => cmdPoint_item fsId s e s' it) ht hu hg h
    rwa [t1, t2] at this
  · intro n rows h
    have := collectRows_exact (fun s e s' it => cmdUnit_item fsId s e s' it) ht hu hg h
    rwa [t1, t2] at this

theorem heard_group (off : Nat) (e : GameEvt) : groupIndexOf (heardGame off e) = groupIndexOf e := by
  cases e with
  | other o =>
    cases o with
    | commandManagerState st x => cases x <;> rfl
    | _ => rfl
  | _ => rfl

theorem initial_known (players : List (Int × Str)) (bal : BalUnits) (u : Int) (h : (getUser (SState.initial players bal).users u).isSome) :
    ∃ name, (u, name) ∈ players := by
  suffices H : ∀ l : List (Int × Str), (getUser (l.map (fun p => (p.1, UserState.new p.2))) u).isSome → ∃ name, (u, name) ∈ l from H players h
  intro l
  induction l with
  | nil => intro h; exact absurd h (by simp [getUser])
  | cons p l ih =>
    intro h
    rw [List.map_cons, getUser] at h
    split at h
    · rename_i he
      exact ⟨p.2, by rw [← he]; exact List.mem_cons_self⟩
    · obtain ⟨name, hm⟩ := ih h
      exact ⟨name, List.mem_cons_of_mem _ hm⟩

/-- **C186.** With the default build settings of a release, every table of a replay is made, unless one of the players has an event for a control group from 11 to 15
(which the layout can express, and no keyboard has). -/
theorem C186_made {ρ : Type} (rows : Item → List ρ) (r : Replay) (hf : r.Fits) (players : List (Int × Str)) (bal : BalUnits)
    (hp : (players.map Prod.fst).Nodup)
    (hg : ∀ p ∈ r.game, ∀ name, (p.2.1, name) ∈ players → ∀ i, groupIndexOf p.2.2 = some i → i ≤ 10)
    (o : Option Filters) (n : Nat) (hn : (r.tracker.flatMap trackerItem).length + (r.game.flatMap (gameItem r.version)).length < n) :
    ∃ out, collectRows rows .release r.version n
      (MState.new (SState.initial players bal) (r.tracker.flatMap trackerItem) (r.game.flatMap (gameItem r.version)) o) = some (.ok out) := by
  rcases C110_release_total rows r.version players bal hp (r.tracker.flatMap trackerItem) (r.game.flatMap (gameItem r.version)) o n
    hn with h | ⟨rg, sg, l, u, e, i, hc, hm, hu, hi, h11, _⟩
  · exact h
  · exfalso
    have h := C33_game_exact .release r.version _ _ rg sg (heardItems_game_stream .release r.version _ hf.game.2) hc
    rw [game_timeline r.version _ hf.game.2] at h
    obtain ⟨x, hx, hy⟩ := List.mem_flatMap.1 hm
    rw [h] at hx
    rcases List.mem_append.1 hx with hx | hx
    · obtain ⟨y, hy1, rfl⟩ := List.mem_map.1 (List.mem_of_mem_take hx)
      simp only [yielded, List.mem_singleton] at hy
      subst hy
      obtain ⟨p, hp1, he⟩ := List.mem_map.1 hy1
      unfold stamped at hp1
      obtain ⟨q, hq, rfl⟩ := List.mem_map.1 hp1
      obtain ⟨q, j⟩ := q
      have hq' : q ∈ r.game := (List.mem_zipIdx' hq).2 ▸ List.getElem_mem _
      simp only [heardItem, Prod.mk.injEq] at he
      obtain ⟨_, rfl, rfl⟩ := he
      obtain ⟨name, hn'⟩ := initial_known players bal _ hu
      rw [heard_group] at hi
      exact absurd (hg q hq' name hn' i hi) (by omega)
    · rw [(List.mem_replicate.1 hx).2] at hy
      simp [yielded] at hy

/-- The sample's players: the users of its game events. [sample data] -/
def wholePlayers : List (Int × Str) := [(0, str "a"), (1, str "b"), (2, str "c"), (3, str "d")]

/-- No event of the sample is for a group above 10. -/
theorem wholeSample_groups : ∀ p ∈ wholeSample.game, ∀ name, (p.2.1, name) ∈ wholePlayers → ∀ i, groupIndexOf p.2.2 = some i → i ≤ 10 := by
  have h : (wholeSample.game.all (fun p => match groupIndexOf p.2.2 with | some i => decide (i ≤ 10) | none => true)) = true := by decide +kernel
  intro p hp name _ i hi
  have h1 := List.all_eq_true.1 h p hp
  simp only [hi, decide_eq_true_eq] at h1
  exact h1

/-- All tables of the sample are made; the unit table has its unit. -/
example (fsId n : Nat) (hn : wholeSample.eventBytes < n) : ∃ out, collectBorn fsId .release wholeSample.version n
    (MState.new (SState.initial wholePlayers (fun _ => none)) (wholeSample.tracker.flatMap trackerItem) (wholeSample.game.flatMap (gameItem wholeSample.version)) none) =
      some (.ok out) :=
  C186_made _ wholeSample wholeSample_fits wholePlayers (fun _ => none) (by decide +kernel) wholeSample_groups none n (by unfold Replay.eventBytes at hn; omega)


end S2
