import Verif.Props.Rows
/-!
# Tables of arbitrary files (C104–C107)

The theorems of `Verif.Props.Rows` speak of files whose sectors are streams of events with UTF-8 names.  Here the
sectors hold any bytes: the rows are those of the events which the tracker iterator and the game iterator, each on its
own sector, yield until both report the end.
-/
namespace S2

/-- `es` merges what the tracker iterator and the game iterator yield on the two sectors, in their order, up to a point
where both have said that there is nothing more. -/
def Merges (bld : Build) (version : Nat) (s : SState) (trk game : List UInt8) (es : List SEvent) : Prop :=
  ∃ rt st rg sg, Calls (trackerNext bld) (IterState.new trk) rt st ∧ Calls (gameNext bld version) (IterState.new game) rg sg ∧
    rt.getLast? = some (.ok none) ∧ rg.getLast? = some (.ok none) ∧
    Interleaving ((rt.flatMap yielded).map trackerSEvent) ((rg.flatMap yielded).map (gameSEvent s)) es

theorem pick_none {m : MState} (h : pick m = none) : m.nextT = none ∧ m.nextG = none := by
  unfold pick at h
  split at h
  · split at h <;> cases h
  · cases h
  · cases h
  · rename_i h1 h2; exact ⟨h1, h2⟩

theorem fillT_none {bld : Build} {m m' : MState} (h : fillT bld m = .ok m') (hn : m'.nextT = none) :
    m.nextT = none ∧ m'.nextG = m.nextG ∧ m'.game = m.game ∧ m'.sc2 = m.sc2 ∧
      ∃ n, trackerNext bld n m.trk = some (.ok none, m'.trk) := by
  unfold fillT at h
  split at h
  · rename_i x hx
    simp only [Res.ok.injEq] at h
    subst h
    rw [hx] at hn; cases hn
  · rename_i hx
    split at h
    · rename_i y st hy
      simp only [Res.ok.injEq] at h
      subst h
      simp only at hn
      subst hn
      exact ⟨hx, rfl, rfl, rfl, _, hy⟩
    · cases h
    · cases h
    · cases h

theorem fillG_none {bld : Build} {version : Nat} {m m' : MState} (h : fillG bld version m = .ok m') (hn : m'.nextG = none) :
    m.nextG = none ∧ m'.nextT = m.nextT ∧ m'.trk = m.trk ∧ m'.sc2 = m.sc2 ∧
      ∃ n, gameNext bld version n m.game = some (.ok none, m'.game) := by
  unfold fillG at h
  split at h
  · rename_i x hx
    simp only [Res.ok.injEq] at h
    subst h
    rw [hx] at hn; cases hn
  · rename_i hx
    split at h
    · rename_i st hy
      simp only [Res.ok.injEq] at h
      subst h
      exact ⟨hx, rfl, rfl, rfl, _, hy⟩
    · simp only [Res.ok.injEq] at h
      subst h
      cases hn
    · cases h
    · cases h
    · cases h

/-- A round that ends the iteration: nothing is held back, and both iterators have just said that they are done. -/
theorem pull_none {bld : Build} {version : Nat} {m m' : MState} (h : pull bld version m = .ok (none, m')) :
    m.nextT = none ∧ m.nextG = none ∧ m'.sc2 = m.sc2 ∧ (∃ n, trackerNext bld n m.trk = some (.ok none, m'.trk)) ∧
      ∃ n, gameNext bld version n m.game = some (.ok none, m'.game) := by
  unfold pull at h
  obtain ⟨m1, h1, h⟩ := Res.bind_eq_ok.1 h
  obtain ⟨m2, h2, h⟩ := Res.bind_eq_ok.1 h
  split at h
  · rename_i hp
    simp only [Res.pure_eq, Res.ok.injEq, Prod.mk.injEq, true_and] at h
    subst h
    obtain ⟨hT, hG⟩ := pick_none hp
    obtain ⟨g1, g2, g3, g4, n, g5⟩ := fillG_none h2 hG
    rw [g2] at hT
    obtain ⟨t1, t2, t3, t4, k, t5⟩ := fillT_none h1 hT
    rw [g1] at t2
    rw [← g3] at t5
    rw [t3] at g5
    exact ⟨t1, t2.symm, g4.trans t4, ⟨k, t5⟩, ⟨n, g5⟩⟩
  · obtain ⟨⟨s', it⟩, _, h⟩ := Res.bind_eq_ok.1 h
    simp only [Res.pure_eq, Res.ok.injEq, Prod.mk.injEq] at h
    exact absurd h.1 (by simp)

theorem collectItems_pulls {bld : Build} {version : Nat} : ∀ {n : Nat} {m : MState} {its : List Item}, m.filters = none →
    collectItems bld version n m = some (.ok its) →
    ∃ m1 m', Pulls bld version m (its.map some) m1 ∧ pull bld version m1 = .ok (none, m')
  | 0, m, its, _, h => by simp [collectItems] at h
  | n + 1, m, its, hf, h => by
    rw [collectItems] at h
    cases hp : pull bld version m with
    | err e => simp only [mnext, hp] at h; cases h
    | panic => simp only [mnext, hp] at h; cases h
    | ok p =>
      obtain ⟨x, m1⟩ := p
      cases x with
      | none =>
        simp only [mnext, hp, Option.some.injEq, Res.ok.injEq] at h
        subst h
        exact ⟨m, m1, .nil m, hp⟩
      | some it =>
        have hf1 : m1.filters = none := (pull_keeps_filters hp).trans hf
        simp only [mnext, hp, hf1] at h
        split at h
        · rename_i its' hr
          simp only [Option.some.injEq, Res.ok.injEq] at h
          subst h
          obtain ⟨m2, m3, hps, h1⟩ := collectItems_pulls hf1 hr
          exact ⟨m2, m3, .cons hp hps, h1⟩
        · rename_i r hr
          exact absurd h (hr _)

/-- What a collector sees of any two sectors. -/
theorem collect_any {bld : Build} {version n : Nat} {s : SState} {trk game : List UInt8} {its : List Item}
    (h : collectItems bld version n (MState.new s trk game none) = some (.ok its)) :
    ∃ es s2, Merges bld version s trk game es ∧ runItems bld s es = .ok (its, s2) := by
  obtain ⟨m1, m', hp, hn⟩ := collectItems_pulls rfl h
  obtain ⟨hT, hG, hs, ⟨k, ht⟩, ⟨k', hg⟩⟩ := pull_none hn
  obtain ⟨rt, rg, tr, ga, es, h1, h2, h3, h4, h5, h6⟩ := pulls_any (s0 := s) hp ⟨fun _ => rfl, fun g hg => by cases hg⟩
  rw [hT] at h3
  rw [hG] at h4
  simp only [MState.new, Option.toList_none, List.nil_append, List.append_nil, List.map_nil] at h3 h4
  rw [← h3, ← h4] at h5
  refine ⟨es, m1.sc2, ⟨rt ++ [.ok none], _, rg ++ [.ok none], _, h1.append (.cons ht (.nil _)), h2.append (.cons hg (.nil _)),
    by simp, by simp, ?_⟩, ?_⟩
  · simp only [List.flatMap_append, List.flatMap_cons, List.flatMap_nil, yielded, List.append_nil]
    exact h5
  · rw [show s = (MState.new s trk game none).sc2 from rfl, h6]
    simp

theorem collectRows_any {ρ : Type} {rows : Item → List ρ} {f : SState → SEvent → List ρ} {bld : Build}
    (hf : ∀ s e s' it, transition bld s e = .ok (s', it) → rows it = f s e)
    {version n : Nat} {s : SState} {trk game : List UInt8} {out : List ρ}
    (h : collectRows rows bld version n (MState.new s trk game none) = some (.ok out)) :
    ∃ es, Merges bld version s trk game es ∧ (∃ s2, runEvents bld s es = .ok s2) ∧ out = rowsAlong bld f s es := by
  unfold collectRows at h
  split at h
  · rename_i its hc
    simp only [Option.some.injEq, Res.ok.injEq] at h
    obtain ⟨es, s2, hi, hr⟩ := collect_any hc
    exact ⟨es, hi, ⟨s2, runItems_runEvents hr⟩, by rw [← h, runItems_rows hf hr]⟩
  · cases h
  · cases h
  · cases h

/-- Any bytes: the unit table has rows of exactly the births, and of the completions and type changes of units known at
that time, among the events which the two iterators yield. -/
theorem C105_born_rows_any_bytes (fsId : Nat) (bld : Build) (version n : Nat) (s : SState) (trk game : List UInt8)
    (rows : List BornRow) (h : collectBorn fsId bld version n (MState.new s trk game none) = some (.ok rows)) :
    ∃ es, Merges bld version s trk game es ∧ (∃ s2, runEvents bld s es = .ok s2) ∧ rows = rowsAlong bld (bornRows fsId) s es :=
  collectRows_any (fun s e s' it => born_item fsId s e s' it) h

/-- Any bytes: the death table has rows of exactly the deaths of units known at that time. -/
theorem C106_died_rows_any_bytes (fsId : Nat) (bld : Build) (version n : Nat) (s : SState) (trk game : List UInt8)
    (rows : List DiedRow) (h : collectDied fsId bld version n (MState.new s trk game none) = some (.ok rows)) :
    ∃ es, Merges bld version s trk game es ∧ (∃ s2, runEvents bld s es = .ok s2) ∧ rows = rowsAlong bld (diedRows fsId) s es :=
  collectRows_any (fun s e s' it => died_item fsId s e s' it) h

/-- Any bytes: the point-command table; the ability shown is that of the last selected unit. -/
theorem C107_point_rows_any_bytes (fsId : Nat) (bld : Build) (version n : Nat) (s : SState) (trk game : List UInt8)
    (rows : List CmdPointRow) (h : collectCmdPoints fsId bld version n (MState.new s trk game none) = some (.ok rows)) :
    ∃ es, Merges bld version s trk game es ∧ (∃ s2, runEvents bld s es = .ok s2) ∧
      rows = rowsAlong bld (cmdPointRows fsId lastAbility) s es :=
  collectRows_any (fun s e s' it => cmdPoint_item fsId s e s' it) h

/-- Any bytes: the unit-command table. -/
theorem C107_unit_rows_any_bytes (fsId : Nat) (bld : Build) (version n : Nat) (s : SState) (trk game : List UInt8)
    (rows : List CmdUnitRow) (h : collectCmdUnits fsId bld version n (MState.new s trk game none) = some (.ok rows)) :
    ∃ es, Merges bld version s trk game es ∧ (∃ s2, runEvents bld s es = .ok s2) ∧
      rows = rowsAlong bld (cmdUnitRows fsId lastAbility wholeTagName) s es :=
  collectRows_any (fun s e s' it => cmdUnit_item fsId s e s' it) h

/-- Any bytes: the statistics table has one row per statistics event which the tracker iterator yields until the end,
in that order, with the statistics of that name.  Missing: the events after a name that is not UTF-8, which the
iterator may not yield (`C104_stats_rows_refuted`). -/
theorem C104_stats_rows_any_bytes_partial (fsId : Nat) (bld : Build) (version n : Nat) (s : SState) (trk game : List UInt8)
    (rows : List StatsRow) (h : collectStats fsId bld version n (MState.new s trk game none) = some (.ok rows)) :
    ∃ rt st, Calls (trackerNext bld) (IterState.new trk) rt st ∧ rt.getLast? = some (.ok none) ∧
      rows.length = ((rt.flatMap yielded).filterMap statsOf).length ∧
      ∀ (i : Nat) (r : StatsRow) (p : Int × (Int × PlayerStats)), rows[i]? = some r →
        ((rt.flatMap yielded).filterMap statsOf)[i]? = some p → IsStatsRow fsId r p := by
  obtain ⟨es, ⟨rt, st, rg, sg, h1, _, h3, _, hi⟩, ⟨s2, hr⟩, rfl⟩ := collectRows_any (fun s e s' it => stats_item fsId s e s' it) h
  have : rowsAlong bld (fun _ => statsRows fsId) s es =
      ((rt.flatMap yielded).filterMap statsOf).map (fun p => StatsRow.new fsId p.2.1 p.2.2 p.1) := by
    rw [rowsAlong_const hr, interleaving_flatMap hi (by
      intro x hx
      obtain ⟨y, _, rfl⟩ := List.mem_map.1 hx
      rfl), List.flatMap_map, List.map_filterMap, ← flatMap_toList]
    congr 1
    funext p
    obtain ⟨l, e⟩ := p
    cases e <;> rfl
  rw [this]
  refine ⟨rt, st, h1, h3, by simp, ?_⟩
  intro i r p h1 h2
  rw [List.getElem?_map, h2] at h1
  simp only [Option.map_some, Option.some.injEq] at h1
  rw [← h1]
  exact statsRow_is fsId p.1 p.2.1 p.2.2

/-- Any bytes: the upgrade table, likewise. -/
theorem C104_upgrade_rows_any_bytes_partial (fsId : Nat) (bld : Build) (version n : Nat) (s : SState) (trk game : List UInt8)
    (rows : List UpgradeRow) (h : collectUpgrades fsId bld version n (MState.new s trk game none) = some (.ok rows)) :
    ∃ rt st, Calls (trackerNext bld) (IterState.new trk) rt st ∧ rt.getLast? = some (.ok none) ∧
      rows = (rt.flatMap yielded).filterMap (upgradeRow fsId) := by
  obtain ⟨es, ⟨rt, st, rg, sg, h1, _, h3, _, hi⟩, ⟨s2, hr⟩, rfl⟩ := collectRows_any (fun s e s' it => upgrade_item fsId s e s' it) h
  refine ⟨rt, st, h1, h3, ?_⟩
  rw [rowsAlong_const hr, interleaving_flatMap hi (by
    intro x hx
    obtain ⟨y, _, rfl⟩ := List.mem_map.1 hx
    rfl), List.flatMap_map, ← flatMap_toList]
  rfl

/-- As long as no command is given to a mixed selection, every row of the unit-command table shows the ability of its
own unit (any bytes in the sectors). -/
theorem C108_own_ability_unit_rows_partial (fsId : Nat) (bld : Build) (version n : Nat) (s : SState) (trk game : List UInt8)
    (rows : List CmdUnitRow) (h : collectCmdUnits fsId bld version n (MState.new s trk game none) = some (.ok rows)) :
    ∃ es, Merges bld version s trk game es ∧
      ((∀ k s' l user nm e, runEvents bld s (es.take k) = .ok s' → es[k]? = some (.game l user nm (.cmd e)) →
          ∀ u ∈ selectedUnits s' user, ∀ v ∈ selectedUnits s' user, u.name = v.name) →
        rows = rowsAlong bld (cmdUnitRows fsId ownAbility wholeTagName) s es) := by
  obtain ⟨es, h1, h2, h3⟩ := C107_unit_rows_any_bytes fsId bld version n s trk game rows h
  refine ⟨es, h1, fun hsame => ?_⟩
  rw [h3]
  apply rowsAlong_congr
  intro k s' e hk he
  cases e with
  | tracker l e => rfl
  | game l user nm g =>
    cases g with
    | cmd e =>
      have hs := hsame k s' l user nm e hk he
      unfold cmdUnitRows
      dsimp only
      split
      · apply List.map_congr_left
        intro u hu
        rw [lastAbility_own hs hu]
      · rfl
    | _ => rfl

/-- Concretely: a tracker sector with an upgrade, a name that is not UTF-8, and garbage. -/
example (bld : Build) : ∃ es, Merges bld 90000 rowsState (wScv ++ wBadName ++ [1, 2, 3]) wGame es ∧
    rowsAlong bld (bornRows 7) rowsState es = [⟨1, 1, str "SCV", some 1, some 1, 10, 20, none, none, none, none, 0, 0, 7, none⟩] := by
  obtain ⟨es, h1, _, h3⟩ := C105_born_rows_any_bytes 7 bld 90000 200 rowsState (wScv ++ wBadName ++ [1, 2, 3]) wGame
    [⟨1, 1, str "SCV", some 1, some 1, 10, 20, none, none, none, none, 0, 0, 7, none⟩] (by cases bld <;> decide +kernel)
  exact ⟨es, h1, h3.symm⟩

end S2
