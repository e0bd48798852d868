import Verif.State.GroupLemmas
/-! # How one event changes one unit -/
namespace S2

/-- The loop an event is stamped with. -/
def SEvent.loop : SEvent → Int
  | .tracker l _ => l
  | .game l _ _ _ => l

/-- Every unit after was there before, with the same time stamp or with `loop`. -/
def Touch (loop : Int) (us us' : Units) : Prop :=
  ∀ k u', us' k = some u' → ∃ u, us k = some u ∧ (u'.lastGameLoop = u.lastGameLoop ∨ u'.lastGameLoop = loop)

theorem Touch.refl (loop : Int) (us : Units) : Touch loop us us := fun _ u' h => ⟨u', h, .inl rfl⟩

theorem Touch.trans {loop : Int} {a b c : Units} (h1 : Touch loop a b) (h2 : Touch loop b c) : Touch loop a c := by
  intro k u'' h
  obtain ⟨u', hu', ht⟩ := h2 k u'' h
  obtain ⟨u, hu, ht'⟩ := h1 k u' hu'
  refine ⟨u, hu, ?_⟩
  rcases ht with ht | ht
  · rw [ht]; exact ht'
  · exact .inr ht

theorem Touch.set {loop : Int} {us : Units} {k : Int} {u u' : SUnit} (hu : us k = some u) (h : u'.lastGameLoop = loop) :
    Touch loop us (us.set k u') := by
  intro i v hv
  by_cases hi : i = k
  · subst hi
    simp only [Units.set_self, Option.some.injEq] at hv
    exact ⟨u, hu, .inr (hv ▸ h)⟩
  · rw [Units.set_ne _ _ hi] at hv; exact ⟨v, hv, .inl rfl⟩

theorem cmdLoop_touch (bal : BalUnits) (loop : Int) (target : Option SUnit) :
    ∀ (ids : List Int) (us : Units) (cmd : CmdEvent), Touch loop us (cmdLoop bal loop target ids us cmd).1
  | [], us, cmd => Touch.refl _ _
  | t :: ids, us, cmd => by
    simp only [cmdLoop]
    split
    · exact cmdLoop_touch bal loop target ids us cmd
    · rename_i u hu
      split
      · exact cmdLoop_touch bal loop target ids us cmd
      · refine Touch.trans ?_ (cmdLoop_touch bal loop target ids _ _)
        exact Touch.set hu rfl

theorem retarget_touch (f : UnitCmd → UnitCmd) (loop : Int) : ∀ (ids : List Int) (us : Units),
    Touch loop us (retarget f loop ids us).1
  | [], us => Touch.refl _ _
  | t :: ids, us => by
    simp only [retarget]
    split
    · exact retarget_touch f loop ids us
    · rename_i u hu
      refine Touch.trans ?_ (retarget_touch f loop ids _)
      exact Touch.set hu rfl

theorem unmark_touch (loop : Int) (ids : List Int) (us : Units) : Touch loop us (unmarkLoop loop ids us).1 := by
  intro k u' h
  rw [unmarkLoop_spec] at h
  split at h
  · cases hu : us k with
    | none => rw [hu] at h; cases h
    | some u => rw [hu] at h; simp only [Option.map_some, Option.some.injEq] at h; exact ⟨u, rfl, .inr (h ▸ rfl)⟩
  · exact ⟨u', h, .inl rfl⟩

theorem mark_touch (loop : Int) (ids : List Int) (us : Units) : Touch loop us (markLoop loop ids us).1 := by
  intro k u' h
  rw [markLoop_spec] at h
  split at h
  · cases hu : us k with
    | none => rw [hu] at h; cases h
    | some u => rw [hu] at h; simp only [Option.map_some, Option.some.injEq] at h; exact ⟨u, rfl, .inr (h ▸ rfl)⟩
  · exact ⟨u', h, .inl rfl⟩

theorem handleGame_touch {s s' : SState} {loop user : Int} {e e' : GameEvt} {hint : Hint}
    (h : handleGame s loop user e = .ok (s', e', hint)) : Touch loop s.units s'.units := by
  have hcam : ∀ x y, (setCamera s user x y).units = s.units := by
    intro x y; unfold setCamera; split <;> rfl
  cases e with
  | cameraSave w x y =>
    simp only [handleGame, Res.ok.injEq, Prod.mk.injEq] at h
    rw [← h.1, hcam]; exact Touch.refl _ _
  | cameraUpdate t r =>
    simp only [handleGame, Res.ok.injEq, Prod.mk.injEq] at h
    rw [← h.1]
    split
    · rw [hcam]; exact Touch.refl _ _
    · exact Touch.refl _ _
  | cmd e =>
    simp only [handleGame, handleCmd] at h
    obtain ⟨ids, _, h2⟩ := Res.bind_eq_ok.1 h
    simp only [Res.pure_eq, Res.ok.injEq, Prod.mk.injEq] at h2
    rw [← h2.1]; exact cmdLoop_touch _ _ _ _ _ _
  | cmdUpdateTargetPoint t =>
    simp only [handleGame, handleTargetPoint] at h
    obtain ⟨ids, _, h2⟩ := Res.bind_eq_ok.1 h
    simp only [Res.pure_eq, Res.ok.injEq, Prod.mk.injEq] at h2
    rw [← h2.1]; exact retarget_touch _ _ _ _
  | cmdUpdateTargetUnit t =>
    simp only [handleGame, handleTargetUnit] at h
    split at h
    · simp only [Res.ok.injEq, Prod.mk.injEq] at h; rw [← h.1]; exact Touch.refl _ _
    · obtain ⟨ids, _, h2⟩ := Res.bind_eq_ok.1 h
      simp only [Res.pure_eq, Res.ok.injEq, Prod.mk.injEq] at h2
      rw [← h2.1]; exact retarget_touch _ _ _ _
  | selectionDelta e =>
    simp only [handleGame, handleSelectionDelta] at h
    obtain ⟨⟨s1, upd⟩, h1, h2⟩ := Res.bind_eq_ok.1 h
    obtain ⟨users, _, h3⟩ := Res.bind_eq_ok.1 h2
    simp only [Res.pure_eq, Res.ok.injEq, Prod.mk.injEq] at h3
    rw [← h3.1]
    show Touch loop s.units s1.units
    unfold selectionMarks at h1
    split at h1
    · obtain ⟨⟨s2, un⟩, h4, h5⟩ := Res.bind_eq_ok.1 h1
      obtain ⟨ids, _, rfl, _⟩ := unmarkSelected_ok h4
      simp only [markSelected, Res.pure_eq, Res.ok.injEq, Prod.mk.injEq] at h5
      rw [← h5.1]
      exact (unmark_touch loop ids s.units).trans (mark_touch _ _ _)
    · simp only [Res.ok.injEq, Prod.mk.injEq] at h1
      rw [← h1.1]; exact Touch.refl _ _
  | controlGroupUpdate e =>
    simp only [handleGame, updateControlGroup] at h
    obtain ⟨⟨s1, un⟩, h1, h2⟩ := Res.bind_eq_ok.1 h
    obtain ⟨ids, _, rfl, _⟩ := unmarkSelected_ok h1
    obtain ⟨users, _, h3⟩ := Res.bind_eq_ok.1 h2
    obtain ⟨⟨s2, mk⟩, h4, h5⟩ := Res.bind_eq_ok.1 h3
    simp only [Res.pure_eq, Res.ok.injEq, Prod.mk.injEq] at h5
    rw [← h5.1]
    unfold recallMarks at h4
    split at h4
    · obtain ⟨ids', _, h6⟩ := Res.bind_eq_ok.1 h4
      simp only [markSelected, Res.pure_eq, Res.ok.injEq, Prod.mk.injEq] at h6
      rw [← h6.1]
      exact (unmark_touch loop ids s.units).trans (mark_touch _ _ _)
    · simp only [Res.ok.injEq, Prod.mk.injEq] at h4
      rw [← h4.1]; exact unmark_touch _ _ _
  | other o =>
    simp only [handleGame, Res.ok.injEq, Prod.mk.injEq] at h
    rw [← h.1]; exact Touch.refl _ _

/-- A unit after an event: kept with index and birth time, stamped with the old time or the event's; or
new, with its own index and the event's time. -/
def Evolves (loop : Int) (us us' : Units) : Prop :=
  ∀ k u', us' k = some u' →
    (∃ u, us k = some u ∧ u'.tagIndex = u.tagIndex ∧ u'.initGameLoop = u.initGameLoop ∧
      (u'.lastGameLoop = u.lastGameLoop ∨ u'.lastGameLoop = loop)) ∨
    (us k = none ∧ u'.tagIndex = k ∧ u'.initGameLoop = loop ∧ u'.lastGameLoop = loop)

theorem Evolves.refl (loop : Int) (us : Units) : Evolves loop us us :=
  fun _ u' h => .inl ⟨u', h, rfl, rfl, .inl rfl⟩

theorem Evolves.set {loop : Int} {us : Units} {k : Int} {u u' : SUnit} (hu : us k = some u)
    (h1 : u'.tagIndex = u.tagIndex) (h2 : u'.initGameLoop = u.initGameLoop) (h3 : u'.lastGameLoop = loop) :
    Evolves loop us (us.set k u') := by
  intro i v hv
  by_cases hi : i = k
  · subst hi
    simp only [Units.set_self, Option.some.injEq] at hv
    subst hv
    exact .inl ⟨u, hu, h1, h2, .inr h3⟩
  · rw [Units.set_ne _ _ hi] at hv; exact .inl ⟨v, hv, rfl, rfl, .inl rfl⟩

theorem Evolves.new {loop : Int} {us : Units} {k : Int} {u' : SUnit} (hu : us k = none)
    (h1 : u'.tagIndex = k) (h2 : u'.initGameLoop = loop) (h3 : u'.lastGameLoop = loop) :
    Evolves loop us (us.set k u') := by
  intro i v hv
  by_cases hi : i = k
  · subst hi
    simp only [Units.set_self, Option.some.injEq] at hv
    subst hv
    exact .inr ⟨hu, h1, h2, h3⟩
  · rw [Units.set_ne _ _ hi] at hv; exact .inl ⟨v, hv, rfl, rfl, .inl rfl⟩

/-- Composition, when the first step creates nothing. -/
theorem Evolves.trans {loop : Int} {a b c : Units} (h1 : Evolves loop a b) (h2 : Evolves loop b c)
    (hp : ∀ k, (b k).isSome = (a k).isSome) : Evolves loop a c := by
  intro k u'' h
  rcases h2 k u'' h with ⟨u', hu', e1, e2, e3⟩ | ⟨hn, e1, e2, e3⟩
  · rcases h1 k u' hu' with ⟨u, hu, f1, f2, f3⟩ | ⟨hn, _⟩
    · refine .inl ⟨u, hu, e1.trans f1, e2.trans f2, ?_⟩
      rcases e3 with e3 | e3
      · rw [e3]; exact f3
      · exact .inr e3
    · have := hp k; rw [hn, hu'] at this; cases this
  · have := hp k
    rw [hn] at this
    exact .inr ⟨by simpa using this.symm, e1, e2, e3⟩

theorem positionsUpdate_evolves (loop : Int) : ∀ (ps : List (Int × Int × Int)) (us : Units),
    Evolves loop us (positionsUpdate loop ps us).1
  | [], us => Evolves.refl _ _
  | (t, x, y) :: ps, us => by
    simp only [positionsUpdate]
    split
    · rename_i u hu
      refine (Evolves.set (u' := { u with pos := ⟨(f32OfInt x : Rat) / 4, (f32OfInt y : Rat) / 4, 0⟩, lastGameLoop := loop })
        hu rfl rfl rfl).trans (positionsUpdate_evolves loop ps _) ?_
      intro k
      by_cases h : k = t
      · subst h; simp [hu]
      · rw [Units.set_ne _ _ h]
    · exact positionsUpdate_evolves loop ps us

theorem touchCreator_evolves (s : SState) (loop : Int) (c : Option Int) : Evolves loop s.units (touchCreator s loop c).1 := by
  unfold touchCreator
  split
  · exact Evolves.refl _ _
  · split
    · exact Evolves.refl _ _
    · rename_i u hu
      exact Evolves.set hu rfl rfl rfl

theorem transition_evolves {bld : Build} {s s' : SState} {e : SEvent} {it : Item}
    (h : transition bld s e = .ok (s', it)) : Evolves e.loop s.units s'.units := by
  cases e with
  | game l user nm ge =>
    simp only [transition] at h
    obtain ⟨⟨s1, e1, h1⟩, hh, hk⟩ := Res.bind_eq_ok.1 h
    simp only [Res.pure_eq, Res.ok.injEq, Prod.mk.injEq] at hk
    rw [← hk.1]
    intro k u' hu'
    obtain ⟨u, hu, ht⟩ := handleGame_touch hh k u' hu'
    have hc := handleGame_core hh k
    rw [hu, hu'] at hc
    simp only [Option.map_some, Option.some.injEq, SUnit.core, SUnit.mk.injEq] at hc
    exact .inl ⟨u, hu, hc.1, hc.2.2.2.2.2.2.1, ht⟩
  | tracker l te =>
    simp only [transition] at h
    obtain ⟨⟨s1, e1, h1⟩, hh, hk⟩ := Res.bind_eq_ok.1 h
    simp only [Res.pure_eq, Res.ok.injEq, Prod.mk.injEq] at hk
    rw [← hk.1]
    have same : s1.units = s.units → Evolves l s.units s1.units := fun e => e ▸ Evolves.refl _ _
    show Evolves l s.units s1.units
    cases te with
    | playerStats p st =>
      simp only [handleTracker, Res.ok.injEq, Prod.mk.injEq] at hh
      exact same (by rw [← hh.1])
    | unitOwnerChange e =>
      simp only [handleTracker, Res.ok.injEq, Prod.mk.injEq] at hh
      exact same (by rw [← hh.1])
    | upgrade e =>
      simp only [handleTracker, Res.ok.injEq, Prod.mk.injEq] at hh
      exact same (by rw [← hh.1])
    | playerSetup e =>
      simp only [handleTracker, Res.ok.injEq] at hh
      have : (handlePlayerSetup s e).1.units = s.units := by
        unfold handlePlayerSetup; split
        · rfl
        · split <;> rfl
      rw [hh] at this
      exact same this
    | unitPosition e =>
      simp only [handleTracker, handleUnitPosition] at hh
      obtain ⟨ps, _, h2⟩ := Res.bind_eq_ok.1 hh
      simp only [Res.pure_eq, Res.ok.injEq, Prod.mk.injEq] at h2
      rw [← h2.1]
      exact positionsUpdate_evolves _ _ _
    | unitDone e =>
      simp only [handleTracker, Res.ok.injEq, handleUnitDone] at hh
      split at hh
      · rename_i u hu
        simp only [Prod.mk.injEq] at hh
        rw [← hh.1]
        exact Evolves.set hu rfl rfl rfl
      · simp only [Prod.mk.injEq] at hh
        exact same (by rw [← hh.1])
    | unitInit e =>
      simp only [handleTracker, Res.ok.injEq, handleUnitInit, Prod.mk.injEq] at hh
      rw [← hh.1]
      cases hu : s.units e.unitTagIndex with
      | none => exact Evolves.new hu rfl rfl rfl
      | some u => exact Evolves.set hu rfl rfl rfl
    | unitTypeChange e =>
      simp only [handleTracker, Res.ok.injEq, handleUnitTypeChange] at hh
      split at hh <;> rename_i hu <;> simp only [Prod.mk.injEq] at hh <;> rw [← hh.1]
      · exact Evolves.set hu rfl rfl rfl
      · exact Evolves.new hu rfl rfl rfl
    | unitBorn e =>
      simp only [handleTracker, Res.ok.injEq, handleUnitBorn] at hh
      split at hh <;> rename_i hu <;> simp only [Prod.mk.injEq] at hh <;> rw [← hh.1] <;>
        refine (touchCreator_evolves s l e.creatorUnitTagIndex).trans ?_ (fun k => touchCreator_some s l _ k)
      · exact Evolves.set hu rfl rfl rfl
      · exact Evolves.new hu rfl rfl rfl
    | unitDied e =>
      simp only [handleTracker, handleUnitDied] at hh
      obtain ⟨users, _, h2⟩ := Res.bind_eq_ok.1 hh
      have key : Evolves l s.units (s.units.remove e.unitTagIndex) := by
        intro k u' hu'
        by_cases hke : k = e.unitTagIndex
        · subst hke; simp at hu'
        · rw [Units.remove_ne _ hke] at hu'; exact .inl ⟨u', hu', rfl, rfl, .inl rfl⟩
      split at h2 <;> simp only [Res.pure_eq, Res.ok.injEq, Prod.mk.injEq] at h2 <;> rw [← h2.1] <;> exact key

end S2
