import Verif.Props.Selection
/-!
# The units map over histories (C42, C66, C67, C76, C80, C81)
-/
namespace S2

/-! ## C42: life cycle -/

theorem lastLife_cons_some {k : Int} {e : SEvent} {es : List SEvent} {k' : Int} {b : Bool} (he : lifeCycle e = some (k', b)) :
    lastLife k (e :: es) = (lastLife k es).or (if k' = k then some b else none) := by
  unfold lastLife
  simp only [List.filterMap_cons, he, List.filter_cons]
  by_cases h : k' = k
  · simp only [h, decide_true, if_true, List.getLast?_cons]
    cases ((es.filterMap lifeCycle).filter fun p => decide (p.1 = k)).getLast? <;> simp
  · simp [h]

theorem lastLife_cons_none {k : Int} {e : SEvent} {es : List SEvent} (he : lifeCycle e = none) :
    lastLife k (e :: es) = lastLife k es := by
  unfold lastLife; simp [List.filterMap_cons, he]

/-- After any history of tracker and game events, of any length and order: a unit index is in the state
iff the last life-cycle event about it was not a death; an index without one is as it was before. -/
theorem C42_present_from (bld : Build) (es : List SEvent) (s s' : SState) (k : Int) (h : runEvents bld s es = .ok s') :
    (s'.units k).isSome = (lastLife k es).getD (s.units k).isSome := by
  induction es generalizing s with
  | nil => simp only [runEvents, Res.ok.injEq] at h; subst h; rfl
  | cons e es ih =>
    simp only [runEvents] at h
    split at h
    · rename_i s1 it h1
      rw [ih s1 h]
      have hp := transition_present h1 k
      cases hl : lifeCycle e with
      | none => rw [lastLife_cons_none hl, hp, hl]
      | some p =>
        obtain ⟨k', b⟩ := p
        rw [lastLife_cons_some hl, hp, hl]
        cases lastLife k es with
        | some x => rfl
        | none => by_cases hk : k' = k <;> simp [hk]
    · cases h
    · cases h

theorem C42_present (bld : Build) (players : List (Int × Str)) (bal : BalUnits) (es : List SEvent) (s : SState) (k : Int)
    (h : runEvents bld (SState.initial players bal) es = .ok s) :
    (s.units k).isSome = true ↔ lastLife k es = some true := by
  rw [C42_present_from bld es _ s k h]
  cases lastLife k es with
  | none => simp [SState.initial]
  | some b => simp

/-- The unit indexes a tracker event is about, other than the creator of a new unit: the unit named, or
all units of a position report. -/
def aboutUnits (bld : Build) : TrackerEvt → List Int
  | .unitBorn e => [e.unitTagIndex]
  | .unitInit e => [e.unitTagIndex]
  | .unitTypeChange e => [e.unitTagIndex]
  | .unitDone e => [e.unitTagIndex]
  | .unitDied e => [e.unitTagIndex]
  | .unitPosition e => match toUnitPositions bld e with
    | .ok ps => ps.map Prod.fst
    | _ => []
  | _ => []

/-- The creator named by a birth. -/
def creatorOf : TrackerEvt → Option Int
  | .unitBorn e => e.creatorUnitTagIndex
  | _ => none

/-- A tracker event leaves every unit it is not about exactly as it was, but for the time stamp of the
creator of a new unit. -/
theorem C42_other_units (bld : Build) (s s' : SState) (loop : Int) (e e' : TrackerEvt) (hint : Hint)
    (h : handleTracker bld s loop e = .ok (s', e', hint)) (k : Int) (hk : k ∉ aboutUnits bld e) :
    s'.units k = if creatorOf e = some k then (s.units k).map (fun u => { u with lastGameLoop := loop }) else s.units k := by
  cases e with
  | playerStats p st =>
    simp only [handleTracker, Res.ok.injEq, Prod.mk.injEq] at h
    simp [← h.1, creatorOf]
  | unitOwnerChange e =>
    simp only [handleTracker, Res.ok.injEq, Prod.mk.injEq] at h
    simp [← h.1, creatorOf]
  | upgrade e =>
    simp only [handleTracker, Res.ok.injEq, Prod.mk.injEq] at h
    simp [← h.1, creatorOf]
  | playerSetup e =>
    simp only [handleTracker, Res.ok.injEq] at h
    have : (handlePlayerSetup s e).1.units = s.units := by
      unfold handlePlayerSetup; split
      · rfl
      · split <;> rfl
    rw [h] at this
    simp only at this
    simp [this, creatorOf]
  | unitPosition e =>
    simp only [handleTracker, handleUnitPosition] at h
    obtain ⟨ps, hps, h2⟩ := Res.bind_eq_ok.1 h
    simp only [Res.pure_eq, Res.ok.injEq, Prod.mk.injEq] at h2
    simp only [aboutUnits, hps] at hk
    rw [← h2.1]
    simp only [creatorOf, reduceCtorEq, if_false]
    exact positionsUpdate_frame loop k ps s.units hk
  | unitDone e =>
    simp only [aboutUnits, List.mem_singleton] at hk
    simp only [handleTracker, Res.ok.injEq, handleUnitDone] at h
    split at h <;> simp only [Prod.mk.injEq] at h <;> simp [← h.1, creatorOf, Units.set_ne _ _ hk]
  | unitInit e =>
    simp only [aboutUnits, List.mem_singleton] at hk
    simp only [handleTracker, Res.ok.injEq, handleUnitInit, Prod.mk.injEq] at h
    rw [← h.1]
    simp only [creatorOf, reduceCtorEq, if_false]
    split <;> rw [Units.set_ne _ _ hk]
  | unitTypeChange e =>
    simp only [aboutUnits, List.mem_singleton] at hk
    simp only [handleTracker, Res.ok.injEq, handleUnitTypeChange] at h
    split at h <;> simp only [Prod.mk.injEq] at h <;> simp [← h.1, creatorOf, Units.set_ne _ _ hk]
  | unitBorn e =>
    simp only [aboutUnits, List.mem_singleton] at hk
    have ht : (touchCreator s loop e.creatorUnitTagIndex).1 k = if e.creatorUnitTagIndex = some k then
        (s.units k).map (fun u => { u with lastGameLoop := loop }) else s.units k := by
      unfold touchCreator
      cases e.creatorUnitTagIndex with
      | none => simp
      | some c =>
        simp only [Option.some.injEq]
        by_cases hck : c = k
        · subst hck
          cases hs : s.units c <;> simp [hs]
        · cases hs : s.units c <;> simp [hck, Units.set_ne _ _ (Ne.symm hck)]
    simp only [handleTracker, Res.ok.injEq, handleUnitBorn] at h
    split at h <;> simp only [Prod.mk.injEq] at h <;> rw [← h.1] <;> simp only [Units.set_ne _ _ hk, ht, creatorOf] <;> rfl
  | unitDied e =>
    simp only [aboutUnits, List.mem_singleton] at hk
    simp only [handleTracker, handleUnitDied] at h
    obtain ⟨users, _, h2⟩ := Res.bind_eq_ok.1 h
    split at h2 <;> simp only [Res.pure_eq, Res.ok.injEq, Prod.mk.injEq] at h2 <;>
      simp [← h2.1, creatorOf, Units.remove_ne _ hk]

/-- The named fields after a birth at a free index, an init, a type change, a completion. -/
theorem C42_born_fields (bld : Build) (s : SState) (loop : Int) (e : UnitBornEvent) (hfree : s.units e.unitTagIndex = none) :
    ∃ s' hint u, handleTracker bld s loop (.unitBorn e) = .ok (s', .unitBorn e, hint) ∧
      s'.units e.unitTagIndex = some u ∧ u.name = e.unitTypeName ∧ u.userId = some e.controlPlayerId ∧
      u.pos = ⟨e.x, e.y, 0⟩ ∧ u.initGameLoop = loop ∧ u.lastGameLoop = loop ∧ u.isInit = false ∧ u.isSelected = false := by
  have ht : (touchCreator s loop e.creatorUnitTagIndex).1 e.unitTagIndex = none := by
    have := touchCreator_some s loop e.creatorUnitTagIndex e.unitTagIndex
    rw [hfree] at this
    simpa using this
  simp only [handleTracker, handleUnitBorn, ht]
  exact ⟨_, _, _, rfl, Units.set_self _ _ _, rfl, rfl, rfl, rfl, rfl, rfl, rfl⟩

/-! ## C66: game events and units -/

/-- Whatever a game event does, every unit keeps its existence, index, owner, player name, type, position,
birth time, creator ability, colour and construction flag; only the command, the time stamp, the mark and
the radius can change. -/
theorem C66_game_events_keep_units (s s' : SState) (loop user : Int) (e e' : GameEvt) (hint : Hint)
    (h : handleGame s loop user e = .ok (s', e', hint)) (k : Int) :
    (s.units k = none ∧ s'.units k = none) ∨ ∃ u u', s.units k = some u ∧ s'.units k = some u' ∧
      u' = { u with cmd := u'.cmd, lastGameLoop := u'.lastGameLoop, radius := u'.radius, isSelected := u'.isSelected } := by
  have hc := handleGame_core h k
  cases hs : s.units k with
  | none =>
    cases hs' : s'.units k with
    | none => exact .inl ⟨rfl, rfl⟩
    | some u' => rw [hs, hs'] at hc; cases hc
  | some u =>
    cases hs' : s'.units k with
    | none => rw [hs, hs'] at hc; cases hc
    | some u' =>
      rw [hs, hs'] at hc
      simp only [Option.map_some, Option.some.injEq, SUnit.core, SUnit.mk.injEq] at hc
      refine .inr ⟨u, u', rfl, rfl, ?_⟩
      cases u; cases u'
      simp_all

/-- … and a unit that is neither in the acting user's old selection nor in the new one is not changed at
all. -/
theorem C66_unselected_untouched (s s' : SState) (hw : s.Wf) (loop user : Int) (e e' : GameEvt) (hint : Hint)
    (h : handleGame s loop user e = .ok (s', e', hint)) (k : Int)
    (hold : k ∉ ((groupOf s user 10).getD []).map tagIndex)
    (hnew : k ∉ ((groupOf s' user 10).getD []).map tagIndex)
    (hknown : (getUser s.users user).isSome) : s'.units k = s.units k := by
  have hcam : ∀ x y, (setCamera s user x y).units = s.units := by
    intro x y; unfold setCamera; split <;> rfl
  cases e with
  | cameraSave w x y =>
    simp only [handleGame, Res.ok.injEq, Prod.mk.injEq] at h
    rw [← h.1, hcam]
  | cameraUpdate t r =>
    simp only [handleGame, Res.ok.injEq, Prod.mk.injEq] at h
    rw [← h.1]
    split
    · rw [hcam]
    · rfl
  | cmd e =>
    simp only [handleGame, handleCmd, selectedIds_eq hw, Res.bind_ok, Res.pure_eq, Res.ok.injEq, Prod.mk.injEq] at h
    rw [← h.1]; exact cmdLoop_frame _ _ _ _ _ _ _ hold
  | cmdUpdateTargetPoint t =>
    simp only [handleGame, handleTargetPoint, selectedIds_eq hw, Res.bind_ok, Res.pure_eq, Res.ok.injEq, Prod.mk.injEq] at h
    rw [← h.1]; exact retarget_frame _ _ _ _ _ hold
  | cmdUpdateTargetUnit t =>
    simp only [handleGame, handleTargetUnit] at h
    split at h
    · simp only [Res.ok.injEq, Prod.mk.injEq] at h; rw [← h.1]
    · simp only [selectedIds_eq hw, Res.bind_ok, Res.pure_eq, Res.ok.injEq, Prod.mk.injEq] at h
      rw [← h.1]; exact retarget_frame _ _ _ _ _ hold
  | selectionDelta e =>
    by_cases h10 : e.controlGroupId = 10
    · obtain ⟨s2, e2, h2, g1, g2⟩ := C44_group_step s hw loop user (.selectionDelta e) hknown 10
        (by simp [groupIndexOf, h10]) (by omega)
      rw [h] at g1
      simp only [Res.ok.injEq, Prod.mk.injEq] at g1
      rw [← g1.1] at g2
      have hg := g2 user 10
      simp only [h10, true_and, Int.cast_ofNat_Int, if_true] at hg
      rw [hg, Option.getD_some] at hnew
      rw [select_units hw h10 h, markLoop_frame _ _ _ _ hnew, unmarkLoop_frame _ _ _ _ hold]
    · rw [select_other_units h10 h]
  | controlGroupUpdate e =>
    rw [group_units hw h]
    split
    · rw [markLoop_frame _ _ _ _ hnew, unmarkLoop_frame _ _ _ _ hold]
    · rw [unmarkLoop_frame _ _ _ _ hold]
  | other o =>
    simp only [handleGame, Res.ok.injEq, Prod.mk.injEq] at h
    rw [← h.1]

end S2
