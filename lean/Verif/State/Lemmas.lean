import Verif.Spec.StateSpec
import Verif.ResLemmas
/-! # Lemmas about the handlers -/
namespace S2

@[simp] theorem Units.set_self (us : Units) (k : Int) (u : SUnit) : us.set k u k = some u := by simp [Units.set]
theorem Units.set_ne (us : Units) {k i : Int} (u : SUnit) (h : i ≠ k) : us.set k u i = us i := by simp [Units.set, h]
@[simp] theorem Units.remove_self (us : Units) (k : Int) : us.remove k k = none := by simp [Units.remove]
theorem Units.remove_ne (us : Units) {k i : Int} (h : i ≠ k) : us.remove k i = us i := by simp [Units.remove, h]

/-- What game events leave alone in a unit. -/
def SUnit.core (u : SUnit) : SUnit :=
  { u with cmd := UnitCmd.default, lastGameLoop := 0, radius := 0, isSelected := false }

theorem core_set {us : Units} {k i : Int} {u u' : SUnit} (hu : us k = some u) (hc : u'.core = u.core) :
    (us.set k u' i).map SUnit.core = (us i).map SUnit.core := by
  by_cases h : i = k
  · subst h; simp [hu, hc]
  · rw [Units.set_ne _ _ h]

theorem cmdLoop_core (bal : BalUnits) (loop : Int) (target : Option SUnit) (k : Int) :
    ∀ (ids : List Int) (us : Units) (cmd : CmdEvent),
      ((cmdLoop bal loop target ids us cmd).1 k).map SUnit.core = (us k).map SUnit.core
  | [], us, cmd => rfl
  | t :: ids, us, cmd => by
    simp only [cmdLoop]
    split
    · exact cmdLoop_core bal loop target k ids us cmd
    · rename_i u hu
      split
      · exact cmdLoop_core bal loop target k ids us cmd
      · rw [cmdLoop_core bal loop target k ids]
        exact core_set hu rfl

theorem retarget_core (f : UnitCmd → UnitCmd) (loop k : Int) : ∀ (ids : List Int) (us : Units),
    ((retarget f loop ids us).1 k).map SUnit.core = (us k).map SUnit.core
  | [], us => rfl
  | t :: ids, us => by
    simp only [retarget]
    split
    · exact retarget_core f loop k ids us
    · rename_i u hu
      rw [retarget_core f loop k ids]
      exact core_set hu rfl

theorem unmarkLoop_core (loop k : Int) : ∀ (ids : List Int) (us : Units),
    ((unmarkLoop loop ids us).1 k).map SUnit.core = (us k).map SUnit.core
  | [], us => rfl
  | t :: ids, us => by
    simp only [unmarkLoop]
    split
    · exact unmarkLoop_core loop k ids us
    · rename_i u hu
      split
      · rw [unmarkLoop_core loop k ids]; exact core_set hu rfl
      · rw [unmarkLoop_core loop k ids]; exact core_set hu rfl

theorem markLoop_core (loop k : Int) : ∀ (ids : List Int) (us : Units),
    ((markLoop loop ids us).1 k).map SUnit.core = (us k).map SUnit.core
  | [], us => rfl
  | t :: ids, us => by
    simp only [markLoop]
    split
    · exact markLoop_core loop k ids us
    · rename_i u hu
      split
      · rw [markLoop_core loop k ids]; exact core_set hu rfl
      · rw [markLoop_core loop k ids]; exact core_set hu rfl

/-! The loops touch only the listed units. -/

theorem cmdLoop_frame (bal : BalUnits) (loop : Int) (target : Option SUnit) (k : Int) :
    ∀ (ids : List Int) (us : Units) (cmd : CmdEvent), k ∉ ids.map tagIndex →
      (cmdLoop bal loop target ids us cmd).1 k = us k
  | [], us, cmd, _ => rfl
  | t :: ids, us, cmd, h => by
    simp only [List.map_cons, List.mem_cons, not_or] at h
    simp only [cmdLoop]
    split
    · exact cmdLoop_frame bal loop target k ids us cmd h.2
    · split
      · exact cmdLoop_frame bal loop target k ids us cmd h.2
      · rw [cmdLoop_frame bal loop target k ids _ _ h.2, Units.set_ne _ _ h.1]

theorem retarget_frame (f : UnitCmd → UnitCmd) (loop k : Int) : ∀ (ids : List Int) (us : Units), k ∉ ids.map tagIndex →
    (retarget f loop ids us).1 k = us k
  | [], us, _ => rfl
  | t :: ids, us, h => by
    simp only [List.map_cons, List.mem_cons, not_or] at h
    simp only [retarget]
    split
    · exact retarget_frame f loop k ids us h.2
    · rw [retarget_frame f loop k ids _ h.2, Units.set_ne _ _ h.1]

theorem unmarkLoop_frame (loop k : Int) : ∀ (ids : List Int) (us : Units), k ∉ ids.map tagIndex →
    (unmarkLoop loop ids us).1 k = us k
  | [], us, _ => rfl
  | t :: ids, us, h => by
    simp only [List.map_cons, List.mem_cons, not_or] at h
    simp only [unmarkLoop]
    split
    · exact unmarkLoop_frame loop k ids us h.2
    · split
      · rw [unmarkLoop_frame loop k ids _ h.2, Units.set_ne _ _ h.1]
      · rw [unmarkLoop_frame loop k ids _ h.2, Units.set_ne _ _ h.1]

theorem markLoop_frame (loop k : Int) : ∀ (ids : List Int) (us : Units), k ∉ ids.map tagIndex →
    (markLoop loop ids us).1 k = us k
  | [], us, _ => rfl
  | t :: ids, us, h => by
    simp only [List.map_cons, List.mem_cons, not_or] at h
    simp only [markLoop]
    split
    · exact markLoop_frame loop k ids us h.2
    · split
      · rw [markLoop_frame loop k ids _ h.2, Units.set_ne _ _ h.1]
      · rw [markLoop_frame loop k ids _ h.2, Units.set_ne _ _ h.1]

/-! `unmarkSelected` and friends as equations. -/

theorem unmarkSelected_ok {s s' : SState} {loop user : Int} {us : List SUnit}
    (h : unmarkSelected s loop user = .ok (s', us)) :
    ∃ ids, selectedIds s user = .ok ids ∧ s' = { s with units := (unmarkLoop loop ids s.units).1 } ∧
      us = (unmarkLoop loop ids s.units).2.filterMap (unmarkLoop loop ids s.units).1 := by
  unfold unmarkSelected at h
  obtain ⟨ids, h1, h2⟩ := Res.bind_eq_ok.1 h
  simp only [Res.pure_eq, Res.ok.injEq, Prod.mk.injEq] at h2
  exact ⟨ids, h1, h2.1.symm, h2.2.symm⟩

theorem handleGame_core {s s' : SState} {loop user : Int} {e e' : GameEvt} {hint : Hint}
    (h : handleGame s loop user e = .ok (s', e', hint)) (k : Int) :
    (s'.units k).map SUnit.core = (s.units k).map SUnit.core := by
  have hcam : ∀ x y, (setCamera s user x y).units = s.units := by
    intro x y; unfold setCamera; split <;> rfl
  cases e with
  | cameraSave w x y =>
    simp only [handleGame, Res.ok.injEq, Prod.mk.injEq] at h
    rw [← h.1, hcam]
  | cameraUpdate t r =>
    simp only [handleGame, Res.ok.injEq, Prod.mk.injEq] at h
    rw [← h.1]
    split
    · rw [hcam]
    · rfl
  | cmd e =>
    simp only [handleGame, handleCmd] at h
    obtain ⟨ids, _, h2⟩ := Res.bind_eq_ok.1 h
    simp only [Res.pure_eq, Res.ok.injEq, Prod.mk.injEq] at h2
    rw [← h2.1]; exact cmdLoop_core ..
  | cmdUpdateTargetPoint t =>
    simp only [handleGame, handleTargetPoint] at h
    obtain ⟨ids, _, h2⟩ := Res.bind_eq_ok.1 h
    simp only [Res.pure_eq, Res.ok.injEq, Prod.mk.injEq] at h2
    rw [← h2.1]; exact retarget_core ..
  | cmdUpdateTargetUnit t =>
    simp only [handleGame, handleTargetUnit] at h
    split at h
    · simp only [Res.ok.injEq, Prod.mk.injEq] at h; rw [← h.1]
    · obtain ⟨ids, _, h2⟩ := Res.bind_eq_ok.1 h
      simp only [Res.pure_eq, Res.ok.injEq, Prod.mk.injEq] at h2
      rw [← h2.1]; exact retarget_core ..
  | selectionDelta e =>
    simp only [handleGame, handleSelectionDelta] at h
    obtain ⟨⟨s1, upd⟩, h1, h2⟩ := Res.bind_eq_ok.1 h
    obtain ⟨users, _, h3⟩ := Res.bind_eq_ok.1 h2
    simp only [Res.pure_eq, Res.ok.injEq, Prod.mk.injEq] at h3
    rw [← h3.1]
    show (s1.units k).map SUnit.core = _
    unfold selectionMarks at h1
    split at h1
    · obtain ⟨⟨s2, un⟩, h4, h5⟩ := Res.bind_eq_ok.1 h1
      obtain ⟨ids, _, rfl, _⟩ := unmarkSelected_ok h4
      simp only [markSelected, Res.pure_eq, Res.ok.injEq, Prod.mk.injEq] at h5
      rw [← h5.1]
      simp only [markLoop_core, unmarkLoop_core]
    · simp only [Res.ok.injEq, Prod.mk.injEq] at h1
      rw [← h1.1]
  | controlGroupUpdate e =>
    simp only [handleGame, updateControlGroup] at h
    obtain ⟨⟨s1, un⟩, h1, h2⟩ := Res.bind_eq_ok.1 h
    obtain ⟨ids, _, rfl, _⟩ := unmarkSelected_ok h1
    obtain ⟨users, _, h3⟩ := Res.bind_eq_ok.1 h2
    obtain ⟨⟨s2, mk⟩, h4, h5⟩ := Res.bind_eq_ok.1 h3
    simp only [Res.pure_eq, Res.ok.injEq, Prod.mk.injEq] at h5
    rw [← h5.1]
    unfold recallMarks at h4
    split at h4
    · obtain ⟨ids', _, h6⟩ := Res.bind_eq_ok.1 h4
      simp only [markSelected, Res.pure_eq, Res.ok.injEq, Prod.mk.injEq] at h6
      rw [← h6.1]
      simp only [markLoop_core, unmarkLoop_core]
    · simp only [Res.ok.injEq, Prod.mk.injEq] at h4
      rw [← h4.1]
      simp only [unmarkLoop_core]
  | other o =>
    simp only [handleGame, Res.ok.injEq, Prod.mk.injEq] at h
    rw [← h.1]

theorem positionsUpdate_some (loop k : Int) : ∀ (ps : List (Int × Int × Int)) (us : Units),
    ((positionsUpdate loop ps us).1 k).isSome = (us k).isSome
  | [], us => rfl
  | (t, x, y) :: ps, us => by
    simp only [positionsUpdate]
    split
    · rename_i u hu
      rw [positionsUpdate_some loop k ps]
      by_cases h : k = t
      · subst h; simp [hu]
      · rw [Units.set_ne _ _ h]
    · exact positionsUpdate_some loop k ps us

theorem positionsUpdate_frame (loop k : Int) : ∀ (ps : List (Int × Int × Int)) (us : Units), k ∉ ps.map Prod.fst →
    (positionsUpdate loop ps us).1 k = us k
  | [], us, _ => rfl
  | (t, x, y) :: ps, us, h => by
    simp only [List.map_cons, List.mem_cons, not_or] at h
    simp only [positionsUpdate]
    split
    · rw [positionsUpdate_frame loop k ps _ h.2, Units.set_ne _ _ h.1]
    · exact positionsUpdate_frame loop k ps us h.2

theorem touchCreator_some (s : SState) (loop : Int) (c : Option Int) (k : Int) :
    ((touchCreator s loop c).1 k).isSome = (s.units k).isSome := by
  unfold touchCreator
  split
  · rfl
  · split
    · rfl
    · rename_i c _ u hu
      by_cases h : k = c
      · subst h; simp [hu]
      · simp only [Units.set_ne _ _ h]

/-- Presence of a unit after one event. -/
theorem transition_present {bld : Build} {s s' : SState} {e : SEvent} {it : Item}
    (h : transition bld s e = .ok (s', it)) (k : Int) :
    (s'.units k).isSome = match lifeCycle e with
      | some (k', b) => if k' = k then b else (s.units k).isSome
      | none => (s.units k).isSome := by
  cases e with
  | game l user nm ge =>
    simp only [transition] at h
    obtain ⟨⟨s1, e1, h1⟩, hh, hk⟩ := Res.bind_eq_ok.1 h
    simp only [Res.pure_eq, Res.ok.injEq, Prod.mk.injEq] at hk
    have := handleGame_core hh k
    rw [← hk.1]
    simp only [lifeCycle]
    rw [← Option.isSome_map (f := SUnit.core), this, Option.isSome_map]
  | tracker l te =>
    simp only [transition] at h
    obtain ⟨⟨s1, e1, h1⟩, hh, hk⟩ := Res.bind_eq_ok.1 h
    simp only [Res.pure_eq, Res.ok.injEq, Prod.mk.injEq] at hk
    rw [← hk.1]
    cases te with
    | playerStats p st =>
      simp only [handleTracker, Res.ok.injEq, Prod.mk.injEq] at hh
      rw [← hh.1]; rfl
    | unitOwnerChange e =>
      simp only [handleTracker, Res.ok.injEq, Prod.mk.injEq] at hh
      rw [← hh.1]; rfl
    | upgrade e =>
      simp only [handleTracker, Res.ok.injEq, Prod.mk.injEq] at hh
      rw [← hh.1]; rfl
    | playerSetup e =>
      simp only [handleTracker, Res.ok.injEq] at hh
      have : (handlePlayerSetup s e).1.units = s.units := by
        unfold handlePlayerSetup; split
        · rfl
        · split <;> rfl
      rw [hh] at this
      simp only at this
      rw [this]; rfl
    | unitPosition e =>
      simp only [handleTracker, handleUnitPosition] at hh
      obtain ⟨ps, _, h2⟩ := Res.bind_eq_ok.1 hh
      simp only [Res.pure_eq, Res.ok.injEq, Prod.mk.injEq] at h2
      rw [← h2.1]
      exact positionsUpdate_some ..
    | unitDone e =>
      simp only [handleTracker, Res.ok.injEq, handleUnitDone] at hh
      split at hh
      · rename_i u hu
        simp only [Prod.mk.injEq] at hh
        rw [← hh.1]
        simp only [lifeCycle]
        by_cases hke : k = e.unitTagIndex
        · subst hke; simp [hu]
        · rw [Units.set_ne _ _ hke]
      · simp only [Prod.mk.injEq] at hh
        rw [← hh.1]; rfl
    | unitInit e =>
      simp only [handleTracker, Res.ok.injEq, handleUnitInit, Prod.mk.injEq] at hh
      rw [← hh.1]
      simp only [lifeCycle]
      by_cases hke : k = e.unitTagIndex
      · subst hke
        simp only [if_true]
        split <;> simp
      · rw [if_neg (Ne.symm hke)]
        split <;> rw [Units.set_ne _ _ hke]
    | unitTypeChange e =>
      simp only [handleTracker, Res.ok.injEq, handleUnitTypeChange] at hh
      split at hh <;> simp only [Prod.mk.injEq] at hh <;> rw [← hh.1] <;> simp only [lifeCycle] <;>
        by_cases hke : k = e.unitTagIndex
      · subst hke; simp
      · rw [if_neg (Ne.symm hke), Units.set_ne _ _ hke]
      · subst hke; simp
      · rw [if_neg (Ne.symm hke), Units.set_ne _ _ hke]
    | unitBorn e =>
      simp only [handleTracker, Res.ok.injEq, handleUnitBorn] at hh
      split at hh <;> simp only [Prod.mk.injEq] at hh <;> rw [← hh.1] <;> simp only [lifeCycle] <;>
        by_cases hke : k = e.unitTagIndex
      · subst hke; simp
      · rw [if_neg (Ne.symm hke), Units.set_ne _ _ hke, touchCreator_some]
      · subst hke; simp
      · rw [if_neg (Ne.symm hke), Units.set_ne _ _ hke, touchCreator_some]
    | unitDied e =>
      simp only [handleTracker, handleUnitDied] at hh
      obtain ⟨users, _, h2⟩ := Res.bind_eq_ok.1 hh
      have key : ((s.units.remove e.unitTagIndex) k).isSome = if e.unitTagIndex = k then false else (s.units k).isSome := by
        by_cases hke : k = e.unitTagIndex
        · subst hke; simp
        · rw [if_neg (Ne.symm hke), Units.remove_ne _ hke]
      split at h2 <;> simp only [Res.pure_eq, Res.ok.injEq, Prod.mk.injEq] at h2 <;> rw [← h2.1] <;>
        simpa [lifeCycle] using key

end S2
