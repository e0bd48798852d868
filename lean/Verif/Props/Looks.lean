import Verif.Props.Histories
/-! # Size and colour of units over whole histories (C71, C118) -/
namespace S2

/-! ## Specification -/

/-- The colours of unit types that have one of their own (RGBA). -/
def typeColours : List (String × List Nat) :=
  [("VespeneGeyser", [110, 194, 156, 255]), ("SpacePlatformGeyser", [110, 194, 156, 255]),
   ("LabMineralField", [114, 197, 221, 255]), ("LabMineralField750", [114, 197, 221, 255]),
   ("MineralField", [114, 197, 221, 255]), ("MineralField450", [114, 197, 221, 255]),
   ("MineralField750", [114, 197, 221, 255]), ("XelNagaTower", [250, 248, 251, 255]),
   ("RichMineralField", [234, 158, 54, 255]), ("RichMineralField750", [235, 121, 7, 255]),
   ("DestructibleRockEx1DiagonalHugeBLUR", [178, 197, 197, 255]), ("DestructibleDebris6x6", [178, 197, 197, 255]),
   ("UnbuildablePlatesDestructible", [244, 245, 248, 255]),
   ("Overlord", [247, 212, 84, 255]), ("Pylon", [247, 212, 84, 255]), ("SupplyDepot", [247, 212, 84, 255]),
   ("SCV", [244, 245, 248, 255]), ("Drone", [244, 245, 248, 255]), ("Probe", [244, 245, 248, 255]),
   ("Larva", [244, 245, 248, 255]), ("Egg", [244, 245, 248, 255]),
   ("Hatchery", [234, 164, 131, 255]), ("CommandCenter", [234, 164, 131, 255]), ("Nexus", [234, 164, 131, 255]),
   ("Broodling", [244, 245, 248, 255]), ("Infestor", [164, 1, 237, 255])]

/-- The colours of the owners 0, 1, 2, 3; every other owner is white. -/
def ownerColour (p : Int) : List Nat :=
  if p = 0 then [110, 194, 156, 255] else if p = 1 then [114, 197, 221, 255] else if p = 2 then [244, 245, 248, 255]
  else if p = 3 then [235, 121, 7, 255] else [250, 248, 251, 255]

/-- The colour of a unit of a type: the type's own, or its owner's (no owner counts as 0). -/
def colourOf (name : Str) (owner : Option Int) : List Nat :=
  match typeColours.find? (fun p => decide (str p.1 = name)) with
  | some p => p.2
  | none => ownerColour (owner.getD 0)

/-- The radius of a unit type: that of the balance data, else `0.45f32`. -/
def radiusOf (bal : BalUnits) (name : Str) : Rat :=
  match bal name with
  | some u => u.radius.getD (15099494 / 33554432)
  | none => 15099494 / 33554432

/-- In the history, no construction starts at an index whose unit is alive. -/
def NoInitOnLiving (es : List SEvent) : Prop :=
  ∀ a l e b, es = a ++ .tracker l (.unitInit e) :: b → lastLife e.unitTagIndex a ≠ some true

/-- In the history, no unit is completed or changes its type while it is marked as selected. -/
def NoMorphWhileSelected (bld : Build) (s0 : SState) (es : List SEvent) : Prop :=
  ∀ a l k b s u,
    ((∃ e, es = a ++ .tracker l (.unitDone e) :: b ∧ k = e.unitTagIndex) ∨
     (∃ e, es = a ++ .tracker l (.unitTypeChange e) :: b ∧ k = e.unitTagIndex)) →
    runEvents bld s0 a = .ok s → s.units k = some u → u.isSelected = false

/-! ## One event -/

theorem colourOf_eq (name : Str) (owner : Option Int) (bal : BalUnits) :
    (unitSizedColor name (owner.getD 0) bal).2 = colourOf name owner := by
  by_cases hm : name ∈ typeColours.map (fun p => str p.1)
  · simp only [typeColours, List.map_cons, List.map_nil, List.mem_cons, List.not_mem_nil, or_false] at hm
    rcases hm with h | h | h | h | h | h | h | h | h | h | h | h | h | h | h | h | h | h | h | h | h | h | h | h | h | h <;>
      subst h <;> rfl
  · have hf : typeColours.find? (fun p => decide (str p.1 = name)) = none := by
      rw [List.find?_eq_none]
      intro p hp hc
      exact hm (List.mem_map.2 ⟨p, hp, of_decide_eq_true hc⟩)
    simp only [typeColours, List.map_cons, List.map_nil, List.mem_cons, List.not_mem_nil, or_false, not_or] at hm
    unfold colourOf
    rw [hf]
    simp only [unitSizedColor, hm, or_self, if_false]
    rfl

theorem radiusOf_eq (name : Str) (p : Int) (bal : BalUnits) : (unitSizedColor name p bal).1 = radiusOf bal name := by
  unfold unitSizedColor radiusOf
  cases bal name with
  | none => rfl
  | some u => cases h : u.radius <;> simp [h]


theorem transition_balance {bld : Build} {s s' : SState} {e : SEvent} {it : Item} (h : transition bld s e = .ok (s', it)) :
    s'.balance = s.balance := by
  cases e with
  | game l user nm ge =>
    simp only [transition] at h
    obtain ⟨⟨s1, e1, h1⟩, hh, hk⟩ := Res.bind_eq_ok.1 h
    simp only [Res.pure_eq, Res.ok.injEq, Prod.mk.injEq] at hk
    rw [← hk.1]
    have hcam : ∀ x y, (setCamera s user x y).balance = s.balance := by
      intro x y; unfold setCamera; split <;> rfl
    cases ge with
    | cameraSave w x y =>
      simp only [handleGame, Res.ok.injEq, Prod.mk.injEq] at hh
      rw [← hh.1, hcam]
    | cameraUpdate t r =>
      simp only [handleGame, Res.ok.injEq, Prod.mk.injEq] at hh
      rw [← hh.1]
      split
      · rw [hcam]
      · rfl
    | cmd e =>
      simp only [handleGame, handleCmd] at hh
      obtain ⟨ids, _, h2⟩ := Res.bind_eq_ok.1 hh
      simp only [Res.pure_eq, Res.ok.injEq, Prod.mk.injEq] at h2
      rw [← h2.1]
    | cmdUpdateTargetPoint t =>
      simp only [handleGame, handleTargetPoint] at hh
      obtain ⟨ids, _, h2⟩ := Res.bind_eq_ok.1 hh
      simp only [Res.pure_eq, Res.ok.injEq, Prod.mk.injEq] at h2
      rw [← h2.1]
    | cmdUpdateTargetUnit t =>
      simp only [handleGame, handleTargetUnit] at hh
      split at hh
      · simp only [Res.ok.injEq, Prod.mk.injEq] at hh; rw [← hh.1]
      · obtain ⟨ids, _, h2⟩ := Res.bind_eq_ok.1 hh
        simp only [Res.pure_eq, Res.ok.injEq, Prod.mk.injEq] at h2
        rw [← h2.1]
    | selectionDelta e =>
      simp only [handleGame, handleSelectionDelta] at hh
      obtain ⟨⟨s1, upd⟩, h1, h2⟩ := Res.bind_eq_ok.1 hh
      obtain ⟨users, _, h3⟩ := Res.bind_eq_ok.1 h2
      simp only [Res.pure_eq, Res.ok.injEq, Prod.mk.injEq] at h3
      rw [← h3.1]
      unfold selectionMarks at h1
      split at h1
      · obtain ⟨⟨s2, un⟩, h4, h5⟩ := Res.bind_eq_ok.1 h1
        obtain ⟨ids, _, rfl, _⟩ := unmarkSelected_ok h4
        simp only [markSelected, Res.pure_eq, Res.ok.injEq, Prod.mk.injEq] at h5
        rw [← h5.1]
      · simp only [Res.ok.injEq, Prod.mk.injEq] at h1
        rw [← h1.1]
    | controlGroupUpdate e =>
      simp only [handleGame, updateControlGroup] at hh
      obtain ⟨⟨s1, un⟩, h1, h2⟩ := Res.bind_eq_ok.1 hh
      obtain ⟨ids, _, rfl, _⟩ := unmarkSelected_ok h1
      obtain ⟨users, _, h3⟩ := Res.bind_eq_ok.1 h2
      obtain ⟨⟨s2, mk⟩, h4, h5⟩ := Res.bind_eq_ok.1 h3
      simp only [Res.pure_eq, Res.ok.injEq, Prod.mk.injEq] at h5
      rw [← h5.1]
      unfold recallMarks at h4
      split at h4
      · obtain ⟨ids', _, h6⟩ := Res.bind_eq_ok.1 h4
        simp only [markSelected, Res.pure_eq, Res.ok.injEq, Prod.mk.injEq] at h6
        rw [← h6.1]
      · simp only [Res.ok.injEq, Prod.mk.injEq] at h4
        rw [← h4.1]
    | other o =>
      simp only [handleGame, Res.ok.injEq, Prod.mk.injEq] at hh
      rw [← hh.1]
  | tracker l te =>
    simp only [transition] at h
    obtain ⟨⟨s1, e1, h1⟩, hh, hk⟩ := Res.bind_eq_ok.1 h
    simp only [Res.pure_eq, Res.ok.injEq, Prod.mk.injEq] at hk
    rw [← hk.1]
    cases te with
    | playerStats p st => simp only [handleTracker, Res.ok.injEq, Prod.mk.injEq] at hh; rw [← hh.1]
    | unitOwnerChange e => simp only [handleTracker, Res.ok.injEq, Prod.mk.injEq] at hh; rw [← hh.1]
    | upgrade e => simp only [handleTracker, Res.ok.injEq, Prod.mk.injEq] at hh; rw [← hh.1]
    | playerSetup e =>
      simp only [handleTracker, Res.ok.injEq] at hh
      have : (handlePlayerSetup s e).1.balance = s.balance := by
        unfold handlePlayerSetup; split
        · rfl
        · split <;> rfl
      rw [hh] at this
      exact this
    | unitPosition e =>
      simp only [handleTracker, handleUnitPosition] at hh
      obtain ⟨ps, _, h2⟩ := Res.bind_eq_ok.1 hh
      simp only [Res.pure_eq, Res.ok.injEq, Prod.mk.injEq] at h2
      rw [← h2.1]
    | unitDone e =>
      simp only [handleTracker, Res.ok.injEq, handleUnitDone] at hh
      split at hh <;> simp only [Prod.mk.injEq] at hh <;> rw [← hh.1]
    | unitInit e =>
      simp only [handleTracker, Res.ok.injEq, handleUnitInit, Prod.mk.injEq] at hh
      rw [← hh.1]
    | unitTypeChange e =>
      simp only [handleTracker, Res.ok.injEq, handleUnitTypeChange] at hh
      split at hh <;> simp only [Prod.mk.injEq] at hh <;> rw [← hh.1]
    | unitBorn e =>
      simp only [handleTracker, Res.ok.injEq, handleUnitBorn] at hh
      split at hh <;> simp only [Prod.mk.injEq] at hh <;> rw [← hh.1]
    | unitDied e =>
      simp only [handleTracker, handleUnitDied] at hh
      obtain ⟨users, _, h2⟩ := Res.bind_eq_ok.1 hh
      split at h2 <;> simp only [Res.pure_eq, Res.ok.injEq, Prod.mk.injEq] at h2 <;> rw [← h2.1]

/-- A unit keeps type, owner, colour and size. -/
def SameLook (u u' : SUnit) : Prop :=
  u'.name = u.name ∧ u'.userId = u.userId ∧ u'.color = u.color ∧ baseRadius u' = baseRadius u

/-- Size and colour were just set from the balance data `bal`. -/
def Repainted (bal : BalUnits) (u' : SUnit) : Prop :=
  u'.color = colourOf u'.name u'.userId ∧ u'.radius = radiusOf bal u'.name

theorem setProps_repainted (u : SUnit) (bal : BalUnits) : Repainted bal (u.setProps bal) :=
  ⟨colourOf_eq u.name u.userId bal, radiusOf_eq u.name (u.userId.getD 0) bal⟩

theorem positionsUpdate_look (loop k : Int) : ∀ (ps : List (Int × Int × Int)) (us : Units) (u' : SUnit),
    (positionsUpdate loop ps us).1 k = some u' → ∃ u, us k = some u ∧ SameLook u u'
  | [], us, u', h => ⟨u', h, rfl, rfl, rfl, rfl⟩
  | (t, x, y) :: ps, us, u', h => by
    simp only [positionsUpdate] at h
    split at h
    · rename_i u hu
      obtain ⟨v, hv, hs⟩ := positionsUpdate_look loop k ps _ u' h
      by_cases hk : k = t
      · subst hk
        rw [Units.set_self, Option.some.injEq] at hv
        subst hv
        exact ⟨u, hu, hs⟩
      · rw [Units.set_ne _ _ hk] at hv
        exact ⟨v, hv, hs⟩
    · exact positionsUpdate_look loop k ps us u' h

theorem touchCreator_look (s : SState) (loop : Int) (c : Option Int) (k : Int) (u' : SUnit)
    (h : (touchCreator s loop c).1 k = some u') : ∃ u, s.units k = some u ∧ SameLook u u' := by
  unfold touchCreator at h
  split at h
  · exact ⟨u', h, rfl, rfl, rfl, rfl⟩
  · split at h
    · exact ⟨u', h, rfl, rfl, rfl, rfl⟩
    · rename_i c _ u hu
      by_cases hk : k = c
      · subst hk
        simp only [Units.set_self, Option.some.injEq] at h
        subst h
        exact ⟨u, hu, rfl, rfl, rfl, rfl⟩
      · simp only [Units.set_ne _ _ hk] at h
        exact ⟨u', h, rfl, rfl, rfl, rfl⟩

/-- What one event does to the look of the unit at an index. -/
theorem transition_look {bld : Build} {s s' : SState} {e : SEvent} {it : Item} (hw : s.Wf)
    (h : transition bld s e = .ok (s', it)) (k : Int) (u' : SUnit) (hu' : s'.units k = some u') :
    (∃ u, s.units k = some u ∧ SameLook u u') ∨
    (Repainted s.balance u' ∧ (u'.isSelected = false ∨ ∃ u l, s.units k = some u ∧ u.isSelected = true ∧
      ((∃ d, e = .tracker l (.unitDone d) ∧ k = d.unitTagIndex) ∨ (∃ d, e = .tracker l (.unitTypeChange d) ∧ k = d.unitTagIndex)))) ∨
    (∃ l d, e = .tracker l (.unitInit d) ∧ d.unitTagIndex = k ∧ (s.units k).isSome = true) := by
  cases e with
  | game l user nm ge =>
    simp only [transition] at h
    obtain ⟨⟨s1, e1, h1⟩, hh, hk⟩ := Res.bind_eq_ok.1 h
    simp only [Res.pure_eq, Res.ok.injEq, Prod.mk.injEq] at hk
    rw [← hk.1] at hu'
    have hb := C47_base_preserved s s1 hw l user ge e1 h1 hh k
    have hc := handleGame_core hh k
    rw [hu'] at hb hc
    cases hs : s.units k with
    | none => rw [hs] at hc; cases hc
    | some u =>
      rw [hs] at hb hc
      simp only [Option.map_some, Option.some.injEq] at hb hc
      refine .inl ⟨u, rfl, ?_, ?_, ?_, hb⟩
      · have := congrArg SUnit.name hc; exact this
      · have := congrArg SUnit.userId hc; exact this
      · have := congrArg SUnit.color hc; exact this
  | tracker l te =>
    simp only [transition] at h
    obtain ⟨⟨s1, e1, h1⟩, hh, hk⟩ := Res.bind_eq_ok.1 h
    simp only [Res.pure_eq, Res.ok.injEq, Prod.mk.injEq] at hk
    rw [← hk.1] at hu'
    have same : s1.units k = s.units k → (∃ u, s.units k = some u ∧ SameLook u u') := by
      intro hc
      exact ⟨u', by rw [← hc]; exact hu', rfl, rfl, rfl, rfl⟩
    cases te with
    | playerStats p st => simp only [handleTracker, Res.ok.injEq, Prod.mk.injEq] at hh; exact .inl (same (by rw [← hh.1]))
    | unitOwnerChange e => simp only [handleTracker, Res.ok.injEq, Prod.mk.injEq] at hh; exact .inl (same (by rw [← hh.1]))
    | upgrade e => simp only [handleTracker, Res.ok.injEq, Prod.mk.injEq] at hh; exact .inl (same (by rw [← hh.1]))
    | playerSetup e =>
      simp only [handleTracker, Res.ok.injEq] at hh
      have : (handlePlayerSetup s e).1.units = s.units := by
        unfold handlePlayerSetup; split
        · rfl
        · split <;> rfl
      rw [hh] at this
      exact .inl (same (congrFun this k))
    | unitPosition e =>
      simp only [handleTracker, handleUnitPosition] at hh
      obtain ⟨ps, _, h2⟩ := Res.bind_eq_ok.1 hh
      simp only [Res.pure_eq, Res.ok.injEq, Prod.mk.injEq] at h2
      rw [← h2.1] at hu'
      exact .inl (positionsUpdate_look _ _ _ _ _ hu')
    | unitDone e =>
      simp only [handleTracker, Res.ok.injEq, handleUnitDone] at hh
      split at hh
      · rename_i u hu
        simp only [Prod.mk.injEq] at hh
        by_cases hke : k = e.unitTagIndex
        · subst hke
          rw [← hh.1] at hu'
          simp only [Units.set_self, Option.some.injEq] at hu'
          subst hu'
          refine .inr (.inl ⟨setProps_repainted _ _, ?_⟩)
          cases hsel : u.isSelected with
          | false => exact .inl rfl
          | true => exact .inr ⟨u, l, hu, hsel, .inl ⟨e, rfl, rfl⟩⟩
        · exact .inl (same (by rw [← hh.1]; exact Units.set_ne _ _ hke))
      · simp only [Prod.mk.injEq] at hh
        exact .inl (same (by rw [← hh.1]))
    | unitInit e =>
      simp only [handleTracker, Res.ok.injEq, handleUnitInit, Prod.mk.injEq] at hh
      by_cases hke : k = e.unitTagIndex
      · subst hke
        cases hu : s.units e.unitTagIndex with
        | some u => exact .inr (.inr ⟨l, e, rfl, rfl, rfl⟩)
        | none =>
          rw [← hh.1] at hu'
          simp only [hu, Units.set_self, Option.some.injEq] at hu'
          subst hu'
          exact .inr (.inl ⟨setProps_repainted _ _, .inl rfl⟩)
      · refine .inl (same ?_)
        rw [← hh.1]
        simp only
        split <;> exact Units.set_ne _ _ hke
    | unitTypeChange e =>
      simp only [handleTracker, Res.ok.injEq, handleUnitTypeChange] at hh
      split at hh
      · rename_i u hu
        simp only [Prod.mk.injEq] at hh
        by_cases hke : k = e.unitTagIndex
        · subst hke
          rw [← hh.1] at hu'
          simp only [Units.set_self, Option.some.injEq] at hu'
          subst hu'
          refine .inr (.inl ⟨setProps_repainted _ _, ?_⟩)
          cases hsel : u.isSelected with
          | false => exact .inl rfl
          | true => exact .inr ⟨u, l, hu, hsel, .inr ⟨e, rfl, rfl⟩⟩
        · exact .inl (same (by rw [← hh.1]; exact Units.set_ne _ _ hke))
      · simp only [Prod.mk.injEq] at hh
        by_cases hke : k = e.unitTagIndex
        · subst hke
          rw [← hh.1] at hu'
          simp only [Units.set_self, Option.some.injEq] at hu'
          subst hu'
          exact .inr (.inl ⟨setProps_repainted _ _, .inl rfl⟩)
        · exact .inl (same (by rw [← hh.1]; exact Units.set_ne _ _ hke))
    | unitBorn e =>
      simp only [handleTracker, Res.ok.injEq, handleUnitBorn] at hh
      split at hh
      · rename_i u hu
        simp only [Prod.mk.injEq] at hh
        rw [← hh.1] at hu'
        by_cases hke : k = e.unitTagIndex
        · subst hke
          simp only [Units.set_self, Option.some.injEq] at hu'
          subst hu'
          obtain ⟨v, hv, hl⟩ := touchCreator_look _ _ _ _ _ hu
          exact .inl ⟨v, hv, hl⟩
        · simp only [Units.set_ne _ _ hke] at hu'
          exact .inl (touchCreator_look _ _ _ _ _ hu')
      · simp only [Prod.mk.injEq] at hh
        rw [← hh.1] at hu'
        by_cases hke : k = e.unitTagIndex
        · subst hke
          simp only [Units.set_self, Option.some.injEq] at hu'
          subst hu'
          exact .inr (.inl ⟨setProps_repainted _ _, .inl rfl⟩)
        · simp only [Units.set_ne _ _ hke] at hu'
          exact .inl (touchCreator_look _ _ _ _ _ hu')
    | unitDied e =>
      simp only [handleTracker, handleUnitDied] at hh
      obtain ⟨users, _, h2⟩ := Res.bind_eq_ok.1 hh
      have key : s1.units = s.units.remove e.unitTagIndex := by
        split at h2 <;> simp only [Res.pure_eq, Res.ok.injEq, Prod.mk.injEq] at h2 <;> rw [← h2.1]
      by_cases hke : k = e.unitTagIndex
      · subst hke; rw [key, Units.remove_self] at hu'; cases hu'
      · exact .inl (same (by rw [key, Units.remove_ne _ hke]))

/-! ## Histories -/

/-- A history split before its last event. -/
theorem runEvents_split (bld : Build) : ∀ (a : List SEvent) (e : SEvent) (s s' : SState),
    runEvents bld s (a ++ [e]) = .ok s' → ∃ s1 it, runEvents bld s a = .ok s1 ∧ transition bld s1 e = .ok (s', it)
  | [], e, s, s', h => by
    simp only [List.nil_append, runEvents] at h
    split at h
    · rename_i s1 it h1
      simp only [Res.ok.injEq] at h; subst h
      exact ⟨s, it, rfl, h1⟩
    · cases h
    · cases h
  | x :: a, e, s, s', h => by
    simp only [List.cons_append, runEvents] at h ⊢
    split at h
    · rename_i s1 it h1
      obtain ⟨s2, it', h2, h3⟩ := runEvents_split bld a e s1 s' h
      exact ⟨s2, it', h2, h3⟩
    · cases h
    · cases h

theorem runEvents_balance (bld : Build) : ∀ (es : List SEvent) (s s' : SState), runEvents bld s es = .ok s' → s'.balance = s.balance
  | [], s, s', h => by simp only [runEvents, Res.ok.injEq] at h; rw [h]
  | e :: es, s, s', h => by
    simp only [runEvents] at h
    split at h
    · rename_i s1 it h1
      rw [runEvents_balance bld es s1 s' h, transition_balance h1]
    · cases h
    · cases h

theorem NoInitOnLiving.prefix {a : List SEvent} {e : SEvent} (h : NoInitOnLiving (a ++ [e])) : NoInitOnLiving a := by
  intro c l d b hc
  exact h c l d (b ++ [e]) (by rw [hc]; simp)

theorem NoMorphWhileSelected.prefix {bld : Build} {s0 : SState} {a : List SEvent} {e : SEvent}
    (h : NoMorphWhileSelected bld s0 (a ++ [e])) : NoMorphWhileSelected bld s0 a := by
  intro c l k b s u hc
  refine h c l k (b ++ [e]) s u ?_
  rcases hc with ⟨d, hc, hk⟩ | ⟨d, hc, hk⟩
  · exact .inl ⟨d, by rw [hc]; simp, hk⟩
  · exact .inr ⟨d, by rw [hc]; simp, hk⟩

/-- Induction on a list from its end. -/
@[elab_as_elim] theorem list_snoc_induction {α : Type} {p : List α → Prop} (h0 : p []) (h1 : ∀ a x, p a → p (a ++ [x])) (l : List α) : p l := by
  have : ∀ r : List α, p r.reverse := by
    intro r
    induction r with
    | nil => exact h0
    | cons x r ih => rw [List.reverse_cons]; exact h1 _ _ ih
  have := this l.reverse
  rwa [List.reverse_reverse] at this

/-- After every history in which no construction starts on an index in use, every unit has the colour of
its current type and owner.  Missing: histories with such a construction (`C118_colour_refuted`). -/
theorem C118_colour_partial (bld : Build) (players : List (Int × Str)) (bal : BalUnits)
    (hp : (players.map Prod.fst).Nodup) (es : List SEvent) (s : SState)
    (h : runEvents bld (SState.initial players bal) es = .ok s) (hi : NoInitOnLiving es) (k : Int) (u : SUnit)
    (hu : s.units k = some u) : u.color = colourOf u.name u.userId := by
  revert s h hi k u
  induction es using list_snoc_induction
  · intro s h _ k u hu
    simp only [runEvents, Res.ok.injEq] at h
    subst h
    cases hu
  · rename_i a e ih
    intro s h hi k u hu
    obtain ⟨s1, it, h1, h2⟩ := runEvents_split bld a e _ s h
    rcases transition_look (runEvents_wf (initial_wf players bal hp) h1) h2 k u hu with ⟨v, hv, hn, ho, hc, _⟩ | ⟨hr, _⟩ | ⟨l, d, rfl, hk, hs⟩
    · rw [hn, ho, hc]; exact ih s1 h1 hi.prefix k v hv
    · exact hr.1
    · have := hi a l d [] rfl
      rw [hk] at this
      exact absurd ((C42_present bld players bal a s1 k h1).1 hs) this

/-- A marine's index is reused by a supply depot without a death in between: the depot keeps the colour of the
marine's owner. -/
theorem C118_colour_refuted :
    (match runEvents .debug (SState.initial [(0, str "A")] (fun _ => none))
        [demoBorn 1 1 1 "Marine", .tracker 2 (.unitInit ⟨1, 2, str "SupplyDepot", 1, 1, 0, 0⟩)] with
      | .ok s => (s.units 1).map (fun u => (u.name, u.color, colourOf u.name u.userId))
      | _ => none) = some (str "SupplyDepot", [114, 197, 221, 255], [247, 212, 84, 255]) := by
  decide +kernel

/-- After every history in which no construction starts on an index in use and no unit morphs or is completed
while marked, every unit has the radius of its current type, doubled exactly when it is marked. -/
theorem C71_history_partial (bld : Build) (players : List (Int × Str)) (bal : BalUnits)
    (hp : (players.map Prod.fst).Nodup) (es : List SEvent) (s : SState)
    (h : runEvents bld (SState.initial players bal) es = .ok s) (hi : NoInitOnLiving es)
    (hm : NoMorphWhileSelected bld (SState.initial players bal) es) (k : Int) (u : SUnit)
    (hu : s.units k = some u) :
    u.radius = if u.isSelected then radiusOf bal u.name * 2 else radiusOf bal u.name := by
  have key : baseRadius u = radiusOf bal u.name := by
    revert s h hi hm k u
    induction es using list_snoc_induction
    · intro s h _ _ k u hu
      simp only [runEvents, Res.ok.injEq] at h
      subst h
      cases hu
    · rename_i a e ih
      intro s h hi hm k u hu
      obtain ⟨s1, it, h1, h2⟩ := runEvents_split bld a e _ s h
      have hb : s1.balance = bal := runEvents_balance bld a _ s1 h1
      rcases transition_look (runEvents_wf (initial_wf players bal hp) h1) h2 k u hu with ⟨v, hv, hn, _, _, hbr⟩ | ⟨hr, hs⟩ | ⟨l, d, rfl, hk, hs⟩
      · rw [hn, hbr]; exact ih s1 h1 hi.prefix hm.prefix k v hv
      · rcases hs with hs | ⟨v, l, hv, hsel, hd⟩
        · rw [← hb, ← hr.2]; simp [baseRadius, hs]
        · have := hm a l k [] s1 v (by
            rcases hd with ⟨d, rfl, hk⟩ | ⟨d, rfl, hk⟩
            · exact .inl ⟨d, rfl, hk⟩
            · exact .inr ⟨d, rfl, hk⟩) h1 hv
          rw [hsel] at this; cases this
      · have := hi a l d [] rfl
        rw [hk] at this
        exact absurd ((C42_present bld players bal a s1 k h1).1 hs) this
  unfold baseRadius at key
  split <;> rename_i hsel
  · rw [if_pos hsel] at key
    rw [← key, Rat.mul_assoc, show (1 / 2 : Rat) * 2 = 1 by decide +kernel, Rat.mul_one]
  · rw [if_neg hsel] at key; exact key

/-- The demonstration history meets the hypotheses. -/
example : NoInitOnLiving demoHistory := by
  intro a l e b h
  have : a = [] ∨ a ≠ [] := by cases a <;> simp
  rcases this with rfl | ha
  · simp only [List.nil_append, demoHistory, List.cons.injEq, SEvent.tracker.injEq, TrackerEvt.unitInit.injEq] at h
    exact fun c => by cases c
  · cases a with
    | nil => exact absurd rfl ha
    | cons x a =>
      simp only [List.cons_append, demoHistory, List.cons.injEq] at h
      have hmem : SEvent.tracker l (.unitInit e) ∈ (demoHistory.drop 1) := by
        rw [show demoHistory.drop 1 = _ from h.2]; simp
      exfalso
      simp [demoHistory, demoBorn, demoDied, demoSel] at hmem

example : (demoFinal.units 1).map (fun u => (u.name, u.userId, u.color)) = some (str "Gateway", some 1, [114, 197, 221, 255]) := by
  decide +kernel

/-- A calm history: a pylon is started, completed and then selected. -/
def calmHistory : List SEvent :=
  [.tracker 1 (.unitInit ⟨1, 1, str "Pylon", 1, 1, 0, 0⟩), .tracker 3 (.unitDone ⟨1, 1⟩), .game 4 0 none (demoSel 10 [demoTag])]

theorem calm_runs : ∃ s u, runEvents .debug (SState.initial [(0, str "A")] (fun _ => none)) calmHistory = .ok s ∧
    s.units 1 = some u ∧ u.isSelected = true := by
  have hb : (match runEvents .debug (SState.initial [(0, str "A")] (fun _ => none)) calmHistory with
      | .ok s => (match s.units 1 with
        | some u => u.isSelected
        | none => false)
      | _ => false) = true := by decide +kernel
  generalize runEvents .debug (SState.initial [(0, str "A")] (fun _ => none)) calmHistory = r at hb ⊢
  cases r with
  | ok s =>
    cases hu : s.units 1 with
    | none => simp only [hu] at hb; cases hb
    | some u => simp only [hu] at hb; exact ⟨s, u, rfl, hu, hb⟩
  | err e => cases hb
  | panic => cases hb

theorem calm_morphs : NoMorphWhileSelected .debug (SState.initial [(0, str "A")] (fun _ => none)) calmHistory := by
  intro a l k b s u hc hr hu
  match a, hc, hr with
  | [], hc, _ => rcases hc with ⟨e, h, _⟩ | ⟨e, h, _⟩ <;> simp [calmHistory] at h
  | [x], hc, hr =>
    rcases hc with ⟨e, h, hk⟩ | ⟨e, h, _⟩
    · simp only [calmHistory, List.cons_append, List.nil_append, List.cons.injEq, SEvent.tracker.injEq,
        TrackerEvt.unitDone.injEq] at h
      obtain ⟨rfl, ⟨_, rfl⟩, _⟩ := h
      subst hk
      have hb : (match runEvents .debug (SState.initial [(0, str "A")] (fun _ => none))
            [.tracker 1 (.unitInit ⟨1, 1, str "Pylon", 1, 1, 0, 0⟩)] with
          | .ok s => (s.units 1).map SUnit.isSelected
          | _ => none) = some false := by decide +kernel
      rw [hr] at hb
      simp only [hu, Option.map_some, Option.some.injEq] at hb
      exact hb
    · simp [calmHistory] at h
  | [x, y], hc, _ => rcases hc with ⟨e, h, _⟩ | ⟨e, h, _⟩ <;> simp [calmHistory, demoSel] at h
  | x :: y :: z :: a, hc, _ => rcases hc with ⟨e, h, _⟩ | ⟨e, h, _⟩ <;> simp [calmHistory, demoSel] at h

theorem calm_inits : NoInitOnLiving calmHistory := by
  intro a l e b h
  match a, h with
  | [], _ => exact fun c => by cases c
  | [x], h => simp [calmHistory] at h
  | [x, y], h => simp [calmHistory, demoSel] at h
  | x :: y :: z :: a, h => simp [calmHistory, demoSel] at h

example : ∃ s u, runEvents .debug (SState.initial [(0, str "A")] (fun _ => none)) calmHistory = .ok s ∧ s.units 1 = some u ∧
    u.radius = radiusOf (fun _ => none) u.name * 2 ∧ u.color = colourOf u.name u.userId := by
  obtain ⟨s, u, h, hu, hs⟩ := calm_runs
  refine ⟨s, u, h, hu, ?_, C118_colour_partial .debug _ _ (by decide) calmHistory s h calm_inits 1 u hu⟩
  have := C71_history_partial .debug _ _ (by decide) calmHistory s h calm_inits calm_morphs 1 u hu
  rwa [if_pos hs] at this

end S2
