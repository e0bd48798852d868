import Verif.Props.WholeOpen
import Verif.Props.Export
/-! # Exporting tables of files that hold written replays (C188) -/
namespace S2
open Published

/-- A source of an export: the number it gets, its path and the replay in it. [specification] -/
structure Written where
  fsId : Nat
  path : Str
  replay : Replay

/-- The file at the path holds the replay, which is in the published ranges and has no event for a control group above 10. [specification] -/
def Written.On {D : Type} (s : Written) (w : World D) : Prop :=
  s.replay.Fits ∧ utf8Ok s.path = true ∧
  (∃ content a, w.file s.path = .ok content ∧ w.mpq content = .ok a ∧ s.replay.In a) ∧
  ∀ p ∈ s.replay.game, ∀ i, groupIndexOf p.2.2 = some i → i ≤ 10

theorem written_batch {ρ D : Type} (rows : Nat → Item → List ρ) (arrow : List ρ → Bool) (harrow : ∀ l, arrow l = true) (w : World D) (src : Written)
    (hs : src.On w) (table : BalTable) (init : InitFile) (hinit : InitFile.read w .release src.path src.fsId = .ok init) :
    ∃ players : List (Int × Str), ∃ out, (players.map Prod.fst).Nodup ∧ tableWork w .release table rows arrow init = .batch out ∧
      ∃ n, collectRows (rows src.fsId) .release src.replay.version n (MState.new (SState.initial players (balanceOf src.replay.header.version.baseBuild table))
        (src.replay.tracker.flatMap trackerItem) (src.replay.game.flatMap (gameItem src.replay.version)) none) = some (.ok out) := by
  obtain ⟨hf, hp, ⟨content, a, hc, ha, hi⟩, hg⟩ := hs
  obtain ⟨init', m, h1, h2, h3, _, hbal, _⟩ := C187_opens .release w src.replay hf src.path content a hp hc ha hi src.fsId table none
  rw [hinit] at h1; cases h1
  obtain ⟨init', h1', hv, _⟩ := C185_opened .release w src.replay hf src.path content a hp hc ha hi src.fsId
  rw [hinit] at h1'; cases h1'
  obtain ⟨players, hn, hs, _⟩ := C96_is_initial w .release init table none m h2
  have hb2 : balanceOf init.version table = balanceOf src.replay.header.version.baseBuild table := by
    rw [← hbal, hs]; rfl
  have hid : init.fsId = src.fsId := by
    unfold InitFile.read InitFile.new at hinit
    simp only [Res.bind_eq_ok, Res.pure_eq, Res.ok.injEq] at hinit
    obtain ⟨_, _, _, _, _, _, rfl⟩ := hinit
    rfl
  obtain ⟨out, ho⟩ := C186_made (rows src.fsId) src.replay hf players (balanceOf src.replay.header.version.baseBuild table) hn
    (fun p hp _ _ i hi => hg p hp i hi) none (m.trk.data.length + m.game.data.length + 1)
    (by rw [h3]; simp only [MState.new, IterState.new]; omega)
  refine ⟨players, out, hn, (tableWork_batch w .release table rows arrow init out).2 ⟨m, h2, harrow _, ?_⟩, _, ho⟩
  rw [hv, hid]
  rw [← ho]
  congr 1
  rw [h3, hs, hb2]

/-- **C188.** The files of written replays are all read, and whatever the schedule, an export of any table from them ends well; its file holds exactly the rows of
the tables of the replays. -/
theorem C188_export {ρ D : Type} (rows : Nat → Item → List ρ) (arrow : List ρ → Bool) (harrow : ∀ l, arrow l = true) (w : World D)
    (table : BalTable) (srcs : List Written) (hs : ∀ s ∈ srcs, s.On w) :
    ∃ inits : List InitFile, srcs.map (fun s => InitFile.read w .release s.path s.fsId) = inits.map .ok ∧
      ∀ acts s, Run (inits.map (tableWork w .release table rows arrow)) acts s → Action.fail ∉ acts → s.finished →
        s.result (.ok ()) = .ok () ∧
        ∃ tables : List (List ρ), s.writer.blocks.flatten.Perm tables.flatten ∧ tables.length = srcs.length ∧
          ∀ (i : Nat) src out, srcs[i]? = some src → tables[i]? = some out →
            ∃ players : List (Int × Str), (players.map Prod.fst).Nodup ∧ ∃ n, collectRows (rows src.fsId) .release src.replay.version n
              (MState.new (SState.initial players (balanceOf src.replay.header.version.baseBuild table))
                (src.replay.tracker.flatMap trackerItem) (src.replay.game.flatMap (gameItem src.replay.version)) none) = some (.ok out) := by
  have key : ∃ (inits : List InitFile) (tables : List (List ρ)), srcs.map (fun s => InitFile.read w .release s.path s.fsId) = inits.map .ok ∧
      inits.map (tableWork w .release table rows arrow) = tables.map .batch ∧ tables.length = srcs.length ∧
      ∀ (i : Nat) src out, srcs[i]? = some src → tables[i]? = some out →
            ∃ players : List (Int × Str), (players.map Prod.fst).Nodup ∧ ∃ n, collectRows (rows src.fsId) .release src.replay.version n
              (MState.new (SState.initial players (balanceOf src.replay.header.version.baseBuild table))
                (src.replay.tracker.flatMap trackerItem) (src.replay.game.flatMap (gameItem src.replay.version)) none) = some (.ok out) := by
    induction srcs with
    | nil => exact ⟨[], [], rfl, rfl, rfl, fun i src out h => by simp at h⟩
    | cons src srcs ih =>
      obtain ⟨inits, tables, h1, h2, h3, h4⟩ := ih (fun s hm => hs s (List.mem_cons_of_mem _ hm))
      have hsrc := hs src List.mem_cons_self
      obtain ⟨hf, hp, ⟨content, a, hc, ha, hi⟩, hg⟩ := hsrc
      obtain ⟨init, hr, _⟩ := C185_opened .release w src.replay hf src.path content a hp hc ha hi src.fsId
      obtain ⟨players, out, hn, hw, n, ho⟩ := written_batch rows arrow harrow w src (hs src List.mem_cons_self) table init hr
      refine ⟨init :: inits, out :: tables, ?_, ?_, by simp [h3], ?_⟩
      · rw [List.map_cons, List.map_cons, h1, hr]
      · rw [List.map_cons, List.map_cons, h2, hw]
      · intro i s' o' hi1 hi2
        cases i with
        | zero =>
          simp only [List.getElem?_cons_zero, Option.some.injEq] at hi1 hi2
          subst hi1 hi2
          exact ⟨players, hn, n, ho⟩
        | succ i =>
          simp only [List.getElem?_cons_succ] at hi1 hi2
          exact h4 i s' o' hi1 hi2
  obtain ⟨inits, tables, h1, h2, h3, h4⟩ := key
  refine ⟨inits, h1, fun acts s hrun hf hd => ?_⟩
  rw [h2] at hrun
  obtain ⟨hr, hb⟩ := C113_errors_are_skipped_partial _ acts s hrun hf hd (by
    intro hm
    obtain ⟨_, _, h⟩ := List.mem_map.1 hm
    cases h)
  refine ⟨hr, tables, ?_, h3, h4⟩
  have := hb.flatten
  rw [batches_flatten, List.flatMap_map] at this
  have e : tables.flatMap (fun l => (Work.batch l).rows) = tables.flatten := by
    simp [Work.rows, List.flatMap_def]
  rwa [e] at this

/-- **C188.** The exported upgrade table of written replays has exactly their upgrade events. -/
theorem C188_upgrades {D : Type} (arrow : List UpgradeRow → Bool) (harrow : ∀ l, arrow l = true) (w : World D)
    (table : BalTable) (srcs : List Written) (hs : ∀ s ∈ srcs, s.On w) :
    ∃ inits : List InitFile, srcs.map (fun s => InitFile.read w .release s.path s.fsId) = inits.map .ok ∧
      ∀ acts s, Run (inits.map (tableWork w .release table (fun fsId it => (upgradeRowOf fsId it).toList) arrow)) acts s → Action.fail ∉ acts → s.finished →
        s.result (.ok ()) = .ok () ∧
        s.writer.blocks.flatten.Perm (srcs.flatMap (fun src => src.replay.trackerTimes.filterMap (upgradeRow src.fsId))) := by
  obtain ⟨inits, h1, h2⟩ := C188_export (fun fsId it => (upgradeRowOf fsId it).toList) arrow harrow w table srcs hs
  refine ⟨inits, h1, fun acts s hrun hf hd => ?_⟩
  obtain ⟨hr, tables, hp, hlen, ht⟩ := h2 acts s hrun hf hd
  refine ⟨hr, ?_⟩
  have : tables = srcs.map (fun src => src.replay.trackerTimes.filterMap (upgradeRow src.fsId)) := by
    apply List.ext_getElem?
    intro i
    rw [List.getElem?_map]
    cases hsi : srcs[i]? with
    | none =>
      rw [List.getElem?_eq_none_iff] at hsi
      rw [Option.map_none, List.getElem?_eq_none_iff]
      omega
    | some src =>
      have hi : i < tables.length := by
        have := (List.getElem?_eq_some_iff.1 hsi).1
        omega
      obtain ⟨players, _, n, ho⟩ := ht i src tables[i] hsi (List.getElem?_eq_getElem hi)
      rw [List.getElem?_eq_getElem hi, Option.map_some, Option.some.injEq]
      exact C186_upgrades src.fsId .release src.replay (hs src (List.mem_of_getElem? hsi)).1 _ n _ ho
  rw [List.flatMap_def, ← this]
  exact hp

theorem stats_list (fsId : Nat) (bld : Build) (r : Replay) (hf : r.Fits) (s : SState) (n : Nat) (rows : List StatsRow)
    (h : collectStats fsId bld r.version n (MState.new s (r.tracker.flatMap trackerItem) (r.game.flatMap (gameItem r.version)) none) = some (.ok rows)) :
    rows = (r.trackerTimes.filterMap statsOf).map (fun p => StatsRow.new fsId p.2.1 p.2.2 p.1) := by
  obtain ⟨es, hi, ⟨s2, hr⟩, rfl⟩ := collectRows_spec (fun s e s' it => stats_item fsId s e s' it) (trackerItems_stream bld _ hf.tracker.2)
    (replay_hutf r hf) (heardItems_game_stream bld r.version _ hf.game.2) h
  rw [tracker_timeline _ hf.tracker.2] at hi
  rw [rowsAlong_const hr, interleaving_flatMap hi (by
    intro x hx
    obtain ⟨y, _, rfl⟩ := List.mem_map.1 hx
    rfl), List.flatMap_map, List.map_filterMap, ← flatMap_toList]
  unfold Replay.trackerTimes
  congr 1
  funext p
  obtain ⟨l, e⟩ := p
  cases e <;> rfl

/-- **C188.** The exported statistics table of written replays has exactly one row per statistics event, with all of its numbers. -/
theorem C188_statistics {D : Type} (arrow : List StatsRow → Bool) (harrow : ∀ l, arrow l = true) (w : World D)
    (table : BalTable) (srcs : List Written) (hs : ∀ s ∈ srcs, s.On w) :
    ∃ inits : List InitFile, srcs.map (fun s => InitFile.read w .release s.path s.fsId) = inits.map .ok ∧
      ∃ row : Nat → Int × (Int × PlayerStats) → StatsRow, (∀ fsId p, IsStatsRow fsId (row fsId p) p) ∧
      ∀ acts s, Run (inits.map (tableWork w .release table (fun fsId it => (statsRowOf fsId it).toList) arrow)) acts s → Action.fail ∉ acts → s.finished →
        s.result (.ok ()) = .ok () ∧
        s.writer.blocks.flatten.Perm (srcs.flatMap (fun src => (src.replay.trackerTimes.filterMap statsOf).map (row src.fsId))) := by
  obtain ⟨inits, h1, h2⟩ := C188_export (fun fsId it => (statsRowOf fsId it).toList) arrow harrow w table srcs hs
  refine ⟨inits, h1, fun fsId p => StatsRow.new fsId p.2.1 p.2.2 p.1, fun fsId p => statsRow_is fsId p.1 p.2.1 p.2.2, fun acts s hrun hf hd => ?_⟩
  obtain ⟨hr, tables, hp, hlen, ht⟩ := h2 acts s hrun hf hd
  refine ⟨hr, ?_⟩
  have : tables = srcs.map (fun src => (src.replay.trackerTimes.filterMap statsOf).map (fun p => StatsRow.new src.fsId p.2.1 p.2.2 p.1)) := by
    apply List.ext_getElem?
    intro i
    rw [List.getElem?_map]
    cases hsi : srcs[i]? with
    | none =>
      rw [List.getElem?_eq_none_iff] at hsi
      rw [Option.map_none, List.getElem?_eq_none_iff]
      omega
    | some src =>
      have hi : i < tables.length := by
        have := (List.getElem?_eq_some_iff.1 hsi).1
        omega
      obtain ⟨players, _, n, ho⟩ := ht i src tables[i] hsi (List.getElem?_eq_getElem hi)
      rw [List.getElem?_eq_getElem hi, Option.map_some, Option.some.injEq]
      exact stats_list src.fsId .release src.replay (hs src (List.mem_of_getElem? hsi)).1 _ n _ ho
  rw [List.flatMap_def, ← this]
  exact hp

/-- Two files of the sample disk, and a schedule to the end in which no write fails. -/
example : ∀ s ∈ [Written.mk 0 (str "a.SC2Replay") wholeSample, Written.mk 1 (str "b.SC2Replay") wholeSample], s.On wholeWorld := by
  have hg : ∀ p ∈ wholeSample.game, ∀ i, groupIndexOf p.2.2 = some i → i ≤ 10 := by
    have h : (wholeSample.game.all (fun p => match groupIndexOf p.2.2 with | some i => decide (i ≤ 10) | none => true)) = true := by decide +kernel
    intro p hp i hi
    have h1 := List.all_eq_true.1 h p hp
    simp only [hi, decide_eq_true_eq] at h1
    exact h1
  simp only [List.forall_mem_cons]
  exact ⟨⟨wholeSample_fits, by decide +kernel, ⟨[1], wholeArchive, rfl, rfl, wholeArchive_in⟩, hg⟩,
    ⟨wholeSample_fits, by decide +kernel, ⟨[1], wholeArchive, rfl, rfl, wholeArchive_in⟩, hg⟩, fun _ h => nomatch h⟩

example {ρ : Type} (works : List (Work ρ)) : ∃ acts s, Run works acts s ∧ Action.fail ∉ acts ∧ s.finished := run_complete works

end S2
