import Verif.Props.Looks
import Verif.Props.Histories
/-!
# Selection marks over whole histories (C70)

`C70_marks_refuted` shows that a unit's mark and the users' active selections part ways when a control group
is saved, when two users share a unit, and when an index is reused.  Without these, they agree after every
history.
-/
namespace S2

/-- The unit at index `k` is in user `w`'s active selection. -/
def Selects (s : SState) (w k : Int) : Prop :=
  ∃ g t, groupOf s w 10 = some g ∧ t ∈ g ∧ tagIndex t = k

/-- A history in which selections are used in an orderly way. -/
structure Orderly (bld : Build) (s0 : SState) (es : List SEvent) : Prop where
  /-- selection and group events come from players of the game and name one of the eleven groups -/
  known : ∀ l w n ge i, SEvent.game l w n ge ∈ es → groupIndexOf ge = some i →
    (getUser s0.users w).isSome ∧ 0 ≤ i ∧ i ≤ 10
  /-- control groups are recalled, never saved -/
  recalls : ∀ l w n e, SEvent.game l w n (.controlGroupUpdate e) ∈ es → e.update = .recall
  /-- at no time do two users select the same unit -/
  apart : ∀ a b s w w' k, es = a ++ b → runEvents bld s0 a = .ok s → Selects s w k → Selects s w' k → w = w'
  /-- no unit appears at an index that is selected -/
  fresh : ∀ a x b s w k, es = a ++ x :: b → runEvents bld s0 a = .ok s → lifeCycle x = some (k, true) →
    s.units k = none → ¬ Selects s w k
  /-- the index of a dying unit is not, read as a tag, in a selection -/
  deaths : ∀ a l d b s w g, es = a ++ .tracker l (.unitDied d) :: b → runEvents bld s0 a = .ok s →
    groupOf s w 10 = some g → d.unitTagIndex ∉ g

theorem Orderly.init {bld : Build} {s0 : SState} {a : List SEvent} {x : SEvent} (h : Orderly bld s0 (a ++ [x])) :
    Orderly bld s0 a where
  known := fun l w n ge i hm => h.known l w n ge i (by simp [hm])
  recalls := fun l w n e hm => h.recalls l w n e (by simp [hm])
  apart := fun c d s w w' k hc => h.apart c (d ++ [x]) s w w' k (by rw [hc]; simp)
  fresh := fun c y d s w k hc => h.fresh c y (d ++ [x]) s w k (by rw [hc]; simp)
  deaths := fun c l y d s w g hc => h.deaths c l y (d ++ [x]) s w g (by rw [hc]; simp)

theorem positionsUpdate_sel (loop k : Int) : ∀ (ps : List (Int × Int × Int)) (us : Units),
    ((positionsUpdate loop ps us).1 k).map SUnit.isSelected = (us k).map SUnit.isSelected
  | [], us => rfl
  | (t, x, y) :: ps, us => by
    simp only [positionsUpdate]
    split
    · rename_i u hu
      simp only
      rw [positionsUpdate_sel loop k ps]
      by_cases h : k = t
      · subst h; simp [hu]
      · rw [Units.set_ne _ _ h]
    · exact positionsUpdate_sel loop k ps us

theorem touchCreator_sel (s : SState) (loop : Int) (c : Option Int) (k : Int) :
    ((touchCreator s loop c).1 k).map SUnit.isSelected = (s.units k).map SUnit.isSelected := by
  unfold touchCreator
  split
  · rfl
  · split
    · rfl
    · rename_i c _ u hu
      by_cases h : k = c
      · subst h; simp [hu]
      · simp only [Units.set_ne _ _ h]

/-- What a tracker event does to the mark of a unit: nothing, or the unit is new and unmarked. -/
theorem tracker_sel {bld : Build} {s s' : SState} {l : Int} {e e' : TrackerEvt} {hint : Hint}
    (h : handleTracker bld s l e = .ok (s', e', hint)) (k : Int) (u' : SUnit) (hu' : s'.units k = some u') :
    (∃ u, s.units k = some u ∧ u'.isSelected = u.isSelected) ∨
    (s.units k = none ∧ u'.isSelected = false ∧ lifeCycle (.tracker l e) = some (k, true)) := by
  have same : s'.units k = s.units k → (∃ u, s.units k = some u ∧ u'.isSelected = u.isSelected) := by
    intro hc
    exact ⟨u', by rw [← hc]; exact hu', rfl⟩
  have mapped : (s'.units k).map SUnit.isSelected = (s.units k).map SUnit.isSelected →
      (∃ u, s.units k = some u ∧ u'.isSelected = u.isSelected) := by
    intro hc
    rw [hu'] at hc
    cases hs : s.units k with
    | none => rw [hs] at hc; cases hc
    | some u => rw [hs] at hc; exact ⟨u, rfl, by simpa using hc⟩
  cases e with
  | playerStats p st => simp only [handleTracker, Res.ok.injEq, Prod.mk.injEq] at h; exact .inl (same (by rw [← h.1]))
  | unitOwnerChange e => simp only [handleTracker, Res.ok.injEq, Prod.mk.injEq] at h; exact .inl (same (by rw [← h.1]))
  | upgrade e => simp only [handleTracker, Res.ok.injEq, Prod.mk.injEq] at h; exact .inl (same (by rw [← h.1]))
  | playerSetup e =>
    simp only [handleTracker, Res.ok.injEq] at h
    have : (handlePlayerSetup s e).1.units = s.units := by
      unfold handlePlayerSetup; split
      · rfl
      · split <;> rfl
    rw [h] at this
    exact .inl (same (congrFun this k))
  | unitPosition e =>
    simp only [handleTracker, handleUnitPosition] at h
    obtain ⟨ps, _, h2⟩ := Res.bind_eq_ok.1 h
    simp only [Res.pure_eq, Res.ok.injEq, Prod.mk.injEq] at h2
    refine .inl (mapped ?_)
    rw [← h2.1]
    exact positionsUpdate_sel _ _ _ _
  | unitDone e =>
    simp only [handleTracker, Res.ok.injEq, handleUnitDone] at h
    split at h
    · rename_i u hu
      simp only [Prod.mk.injEq] at h
      refine .inl (mapped ?_)
      rw [← h.1]
      by_cases hke : k = e.unitTagIndex
      · subst hke; simp [hu, SUnit.setProps]
      · simp only [Units.set_ne _ _ hke]
    · simp only [Prod.mk.injEq] at h
      exact .inl (same (by rw [← h.1]))
  | unitInit e =>
    simp only [handleTracker, Res.ok.injEq, handleUnitInit, Prod.mk.injEq] at h
    rw [← h.1] at hu'
    by_cases hke : k = e.unitTagIndex
    · subst hke
      cases hu : s.units e.unitTagIndex with
      | some u =>
        simp only [hu, Units.set_self, Option.some.injEq] at hu'
        exact .inl ⟨u, rfl, by rw [← hu']⟩
      | none =>
        simp only [hu, Units.set_self, Option.some.injEq] at hu'
        exact .inr ⟨rfl, by rw [← hu']; rfl, rfl⟩
    · refine .inl (same ?_)
      rw [← h.1]
      simp only
      split <;> exact Units.set_ne _ _ hke
  | unitTypeChange e =>
    simp only [handleTracker, Res.ok.injEq, handleUnitTypeChange] at h
    split at h
    · rename_i u hu
      simp only [Prod.mk.injEq] at h
      refine .inl (mapped ?_)
      rw [← h.1]
      by_cases hke : k = e.unitTagIndex
      · subst hke; simp [hu, SUnit.setProps]
      · simp only [Units.set_ne _ _ hke]
    · rename_i hu
      simp only [Prod.mk.injEq] at h
      by_cases hke : k = e.unitTagIndex
      · subst hke
        rw [← h.1] at hu'
        simp only [Units.set_self, Option.some.injEq] at hu'
        exact .inr ⟨hu, by rw [← hu']; rfl, rfl⟩
      · exact .inl (same (by rw [← h.1]; exact Units.set_ne _ _ hke))
  | unitBorn e =>
    have htc := touchCreator_sel s l e.creatorUnitTagIndex
    simp only [handleTracker, Res.ok.injEq, handleUnitBorn] at h
    split at h
    · rename_i u hu
      simp only [Prod.mk.injEq] at h
      refine .inl (mapped ?_)
      rw [← h.1, ← htc k]
      by_cases hke : k = e.unitTagIndex
      · subst hke; simp [hu]
      · simp only [Units.set_ne _ _ hke]
    · rename_i hu
      simp only [Prod.mk.injEq] at h
      by_cases hke : k = e.unitTagIndex
      · subst hke
        rw [← h.1] at hu'
        simp only [Units.set_self, Option.some.injEq] at hu'
        have hn := htc e.unitTagIndex
        rw [hu] at hn
        exact .inr ⟨by simpa using hn.symm, by rw [← hu']; rfl, rfl⟩
      · refine .inl (mapped ?_)
        rw [← h.1, ← htc k]
        simp only [Units.set_ne _ _ hke]
  | unitDied e =>
    simp only [handleTracker, handleUnitDied] at h
    obtain ⟨users, _, h2⟩ := Res.bind_eq_ok.1 h
    have key : s'.units = s.units.remove e.unitTagIndex := by
      split at h2 <;> simp only [Res.pure_eq, Res.ok.injEq, Prod.mk.injEq] at h2 <;> rw [← h2.1]
    by_cases hke : k = e.unitTagIndex
    · subst hke; rw [key, Units.remove_self] at hu'; cases hu'
    · exact .inl (same (by rw [key, Units.remove_ne _ hke]))

theorem known_iff {s : SState} (hw : s.Wf) (w : Int) : (getUser s.users w).isSome ↔ (groupOf s w 10).isSome := by
  cases h : getUser s.users w with
  | none => simp [groupOf, h]
  | some u => simp [(groupOf_lt hw h 10).2.symm]

/-- After every orderly history a unit is marked exactly when it is in the active selection of some user.
Missing: histories in which a control group is saved, two users select the same unit, or an index is
reused while selected (`C70_marks_refuted`). -/
theorem C70_history_partial (bld : Build) (players : List (Int × Str)) (bal : BalUnits)
    (hp : (players.map Prod.fst).Nodup) (es : List SEvent) (s : SState)
    (h : runEvents bld (SState.initial players bal) es = .ok s) (ho : Orderly bld (SState.initial players bal) es)
    (k : Int) (u : SUnit) (hu : s.units k = some u) :
    u.isSelected = true ↔ ∃ w g t, groupOf s w 10 = some g ∧ t ∈ g ∧ tagIndex t = k := by
  suffices H : (∀ w, (getUser (SState.initial players bal).users w).isSome → (groupOf s w 10).isSome) ∧
      ∀ k u, s.units k = some u → (u.isSelected = true ↔ ∃ w, Selects s w k) from H.2 k u hu
  clear hu
  revert s h ho
  induction es using list_snoc_induction
  · intro s h _
    simp only [runEvents, Res.ok.injEq] at h
    subst h
    refine ⟨fun w hw => (known_iff (initial_wf players bal hp) w).1 hw, ?_⟩
    intro k u hu
    cases hu
  · rename_i a e ih
    intro s h ho
    obtain ⟨s1, it, h1, h2⟩ := runEvents_split bld a e _ s h
    have hw1 : s1.Wf := runEvents_wf (initial_wf players bal hp) h1
    obtain ⟨hkn, hinv⟩ := ih s1 h1 ho.init
    cases e with
    | tracker l te =>
      simp only [transition] at h2
      obtain ⟨⟨s2, e1, hint⟩, hh, hk⟩ := Res.bind_eq_ok.1 h2
      simp only [Res.pure_eq, Res.ok.injEq, Prod.mk.injEq] at hk
      obtain ⟨rfl, _⟩ := hk
      have hg : ∀ w, groupOf s2 w 10 = groupOf s1 w 10 := by
        intro w
        by_cases hd : ∃ d, te = .unitDied d
        · obtain ⟨d, rfl⟩ := hd
          obtain ⟨s', hint', hs', hgr⟩ := C43_death_groups_partial bld s1 hw1 l d
          rw [hs'] at hh
          simp only [Res.ok.injEq, Prod.mk.injEq] at hh
          obtain ⟨rfl, _⟩ := hh
          rw [hgr w 10]
          cases hgw : groupOf s1 w 10 with
          | none => rfl
          | some g =>
            have hn := ho.deaths a l d [] s1 w g rfl h1 hgw
            simp only [Option.map_some, Option.some.injEq]
            refine List.filter_eq_self.2 ?_
            intro t ht
            simp only [decide_eq_true_eq, ne_eq]
            rintro rfl
            exact hn ht
        · rw [C44_tracker_events bld s1 s2 l te e1 hint (fun d hd' => hd ⟨d, hd'⟩) hh]
      have hsel : ∀ w k, Selects s2 w k ↔ Selects s1 w k := by
        intro w k; unfold Selects; rw [hg w]
      refine ⟨fun w hw => by rw [hg w]; exact hkn w hw, ?_⟩
      intro k u' hu'
      simp only [hsel]
      rcases tracker_sel hh k u' hu' with ⟨u, hu, he⟩ | ⟨hn, hf, hl⟩
      · rw [he]; exact hinv k u hu
      · rw [hf]
        constructor
        · intro c; cases c
        · rintro ⟨w, hs⟩
          exact absurd hs (ho.fresh a _ [] s1 w k rfl h1 hl hn)
    | game l user nm ge =>
      simp only [transition] at h2
      obtain ⟨⟨s2, e1, hint⟩, hh, hk⟩ := Res.bind_eq_ok.1 h2
      simp only [Res.pure_eq, Res.ok.injEq, Prod.mk.injEq] at hk
      obtain ⟨rfl, _⟩ := hk
      have hmem : SEvent.game l user nm ge ∈ a ++ [SEvent.game l user nm ge] := by simp
      have hold : ∀ k w, w ≠ user → Selects s2 w k → Selects s2 user k → False := by
        intro k w hne hs hs'
        exact hne (ho.apart _ [] s2 w user k (by simp) h hs hs')
      have hold1 : ∀ k w, w ≠ user → Selects s1 w k → Selects s1 user k → False := by
        intro k w hne hs hs'
        exact hne (ho.apart a _ s1 w user k rfl h1 hs hs')
      have memSel : ∀ (st : SState) k, k ∈ ((groupOf st user 10).getD []).map tagIndex ↔ Selects st user k := by
        intro st k
        unfold Selects
        cases hgu : groupOf st user 10 with
        | none => simp
        | some g => simp
      -- the common argument: the user's new selection is marked, the old one unmarked, the rest kept
      have finish : (∀ w, w ≠ user → groupOf s2 w 10 = groupOf s1 w 10) → (groupOf s2 user 10).isSome →
          (∀ k, (s2.units k).map look = (s1.units k).map (fun u =>
            if k ∈ ((groupOf s2 user 10).getD []).map tagIndex then (true, baseRadius u * 2)
            else if k ∈ ((groupOf s1 user 10).getD []).map tagIndex then (false, baseRadius u) else look u)) →
          (∀ w, (getUser (SState.initial players bal).users w).isSome → (groupOf s2 w 10).isSome) ∧
          ∀ k u, s2.units k = some u → (u.isSelected = true ↔ ∃ w, Selects s2 w k) := by
        intro hothers hus hlook
        refine ⟨?_, ?_⟩
        · intro w hw
          by_cases hwu : w = user
          · rw [hwu]; exact hus
          · rw [hothers w hwu]; exact hkn w hw
        · intro k u' hu'
          have hl := hlook k
          rw [hu'] at hl
          cases hs1 : s1.units k with
          | none => rw [hs1] at hl; cases hl
          | some u =>
            rw [hs1] at hl
            simp only [Option.map_some, Option.some.injEq] at hl
            have hsw : ∀ w, w ≠ user → (Selects s2 w k ↔ Selects s1 w k) := by
              intro w hwu; unfold Selects; rw [hothers w hwu]
            by_cases c1 : Selects s2 user k
            · rw [if_pos ((memSel _ _).2 c1)] at hl
              have : u'.isSelected = true := congrArg Prod.fst hl
              exact ⟨fun _ => ⟨user, c1⟩, fun _ => this⟩
            · rw [if_neg (fun c => c1 ((memSel _ _).1 c))] at hl
              by_cases c2 : Selects s1 user k
              · rw [if_pos ((memSel _ _).2 c2)] at hl
                have : u'.isSelected = false := congrArg Prod.fst hl
                rw [this]
                constructor
                · intro c; cases c
                · rintro ⟨w, hs⟩
                  by_cases hwu : w = user
                  · rw [hwu] at hs; exact absurd hs c1
                  · exact absurd c2 (fun c2 => hold1 k w hwu ((hsw w hwu).1 hs) c2)
              · rw [if_neg (fun c => c2 ((memSel _ _).1 c))] at hl
                have : u'.isSelected = u.isSelected := congrArg Prod.fst hl
                rw [this, hinv k u hs1]
                constructor
                · rintro ⟨w, hs⟩
                  by_cases hwu : w = user
                  · rw [hwu] at hs; exact absurd hs c2
                  · exact ⟨w, (hsw w hwu).2 hs⟩
                · rintro ⟨w, hs⟩
                  by_cases hwu : w = user
                  · rw [hwu] at hs; exact absurd hs c1
                  · exact ⟨w, (hsw w hwu).1 hs⟩
      -- events that change neither marks nor active selections
      have quiet : (∀ w, groupOf s2 w 10 = groupOf s1 w 10) → (∀ k, (s2.units k).map look = (s1.units k).map look) →
          (∀ w, (getUser (SState.initial players bal).users w).isSome → (groupOf s2 w 10).isSome) ∧
          ∀ k u, s2.units k = some u → (u.isSelected = true ↔ ∃ w, Selects s2 w k) := by
        intro hg hl
        refine ⟨fun w hw => by rw [hg w]; exact hkn w hw, ?_⟩
        intro k u' hu'
        have hsel : ∀ w, Selects s2 w k ↔ Selects s1 w k := by
          intro w; unfold Selects; rw [hg w]
        have hl := hl k
        rw [hu'] at hl
        cases hs1 : s1.units k with
        | none => rw [hs1] at hl; cases hl
        | some u =>
          rw [hs1] at hl
          simp only [Option.map_some, Option.some.injEq] at hl
          have : u'.isSelected = u.isSelected := congrArg Prod.fst hl
          rw [this, hinv k u hs1]
          simp only [hsel]
      cases hgi : groupIndexOf ge with
      | none =>
        have hg := C44_other_game_events s1 s2 l user ge e1 hint hgi hh
        refine quiet (fun w => by rw [hg]) ?_
        intro k
        have hcam : ∀ x y, (setCamera s1 user x y).units = s1.units := by
          intro x y; unfold setCamera; split <;> rfl
        cases ge with
        | cameraSave w x y =>
          simp only [handleGame, Res.ok.injEq, Prod.mk.injEq] at hh
          rw [← hh.1, hcam]
        | cameraUpdate t r =>
          simp only [handleGame, Res.ok.injEq, Prod.mk.injEq] at hh
          rw [← hh.1]
          split
          · rw [hcam]
          · rfl
        | cmd e =>
          simp only [handleGame, handleCmd] at hh
          obtain ⟨ids, _, h2⟩ := Res.bind_eq_ok.1 hh
          simp only [Res.pure_eq, Res.ok.injEq, Prod.mk.injEq] at h2
          rw [← h2.1]
          exact cmdLoop_base _ _ _ _ _ _ _
        | cmdUpdateTargetPoint t =>
          simp only [handleGame, handleTargetPoint] at hh
          obtain ⟨ids, _, h2⟩ := Res.bind_eq_ok.1 hh
          simp only [Res.pure_eq, Res.ok.injEq, Prod.mk.injEq] at h2
          rw [← h2.1]
          exact retarget_base _ _ _ _ _
        | cmdUpdateTargetUnit t =>
          simp only [handleGame, handleTargetUnit] at hh
          split at hh
          · simp only [Res.ok.injEq, Prod.mk.injEq] at hh; rw [← hh.1]
          · obtain ⟨ids, _, h2⟩ := Res.bind_eq_ok.1 hh
            simp only [Res.pure_eq, Res.ok.injEq, Prod.mk.injEq] at h2
            rw [← h2.1]
            exact retarget_base _ _ _ _ _
        | selectionDelta e => cases hgi
        | controlGroupUpdate e => cases hgi
        | other o =>
          simp only [handleGame, Res.ok.injEq, Prod.mk.injEq] at hh
          rw [← hh.1]
      | some i =>
        obtain ⟨hku, hi0, hi10⟩ := ho.known l user nm ge i hmem hgi
        have hus1 : (getUser s1.users user).isSome := (known_iff hw1 user).2 (hkn user hku)
        obtain ⟨s', e', hint', hs', hgs⟩ := C44_group_step s1 hw1 l user ge hus1 i hgi ⟨hi0, hi10⟩
        rw [hs'] at hh
        simp only [Res.ok.injEq, Prod.mk.injEq] at hh
        obtain ⟨rfl, _⟩ := hh
        cases ge with
        | selectionDelta e =>
          simp only [GroupStep] at hgs
          by_cases h10 : e.controlGroupId = 10
          · have hnew : groupOf s' user 10 = some e.addUnitTags := by rw [hgs user 10]; simp [h10]
            refine finish ?_ (by rw [hnew]; rfl) ?_
            · intro w hwu
              rw [hgs w 10]; simp [hwu]
            · intro k
              rw [hnew]
              exact C47_select s1 s' hw1 l user e e' hint' h10 hs' k
          · refine quiet ?_ ?_
            · intro w
              rw [hgs w 10, if_neg]
              rintro ⟨_, c⟩
              exact h10 c.symm
            · intro k
              rw [select_other_units h10 hs']
        | controlGroupUpdate e =>
          have hr := ho.recalls l user nm e hmem
          simp only [GroupStep, hr] at hgs
          simp only [groupIndexOf, Option.some.injEq] at hgi
          subst hgi
          refine finish ?_ ?_ ?_
          · intro w hwu
            rw [hgs w 10]; simp [hwu]
          · rw [hgs user 10]
            simp only [and_self, if_true]
            obtain ⟨v, hv⟩ := Option.isSome_iff_exists.1 hus1
            exact (groupOf_lt hw1 hv _).2.1 (by omega)
          · intro k
            exact C47_recall s1 s' hw1 l user e e' hint' hr hs' k
        | _ => cases hgi

/-! A checkable sufficient condition, and a history that meets it -/

/-- The tags an event selects, and for whom. -/
def selectedBy : SEvent → List (Int × Int)
  | .game _ w _ (.selectionDelta e) => e.addUnitTags.map (fun t => (w, t))
  | _ => []

theorem Selects.source {bld : Build} {players : List (Int × Str)} {bal : BalUnits} {es : List SEvent} {s : SState}
    (hd : (players.map Prod.fst).Nodup)
    (hnn : ∀ l w n ge j, SEvent.game l w n ge ∈ es → groupIndexOf ge = some j → 0 ≤ j)
    (h : runEvents bld (SState.initial players bal) es = .ok s) {w : Int} {g : List Int} {t : Int}
    (hg : groupOf s w 10 = some g) (ht : t ∈ g) : (w, t) ∈ es.flatMap selectedBy := by
  obtain ⟨l, n, e, hm, hte⟩ := C77_groups_only_selected bld players bal es s hd hnn h w 10 g t hg ht
  exact List.mem_flatMap.2 ⟨_, hm, List.mem_map.2 ⟨t, hte, rfl⟩⟩

/-- Each user selects units of its own, units appear before they are selected, and groups are only recalled. -/
theorem orderly_of_static {bld : Build} {players : List (Int × Str)} {bal : BalUnits} {es : List SEvent}
    (hd : (players.map Prod.fst).Nodup)
    (known : ∀ l w n ge i, SEvent.game l w n ge ∈ es → groupIndexOf ge = some i →
      (getUser (SState.initial players bal).users w).isSome ∧ 0 ≤ i ∧ i ≤ 10)
    (recalls : ∀ l w n e, SEvent.game l w n (.controlGroupUpdate e) ∈ es → e.update = .recall)
    (apart : ∀ p ∈ es.flatMap selectedBy, ∀ q ∈ es.flatMap selectedBy, tagIndex p.2 = tagIndex q.2 → p.1 = q.1)
    (fresh : es.Pairwise (fun x y => ∀ p ∈ selectedBy x, lifeCycle y ≠ some (tagIndex p.2, true)))
    (deaths : ∀ l d, SEvent.tracker l (.unitDied d) ∈ es → ∀ p ∈ es.flatMap selectedBy, p.2 ≠ d.unitTagIndex) :
    Orderly bld (SState.initial players bal) es := by
  have nn : ∀ a b, es = a ++ b → ∀ l w n ge j, SEvent.game l w n ge ∈ a → groupIndexOf ge = some j → 0 ≤ j :=
    fun a b he l w n ge j hm hg => (known l w n ge j (by rw [he]; simp [hm]) hg).2.1
  have sub : ∀ a b, es = a ++ b → ∀ p ∈ a.flatMap selectedBy, p ∈ es.flatMap selectedBy := by
    intro a b he p hp
    rw [he, List.flatMap_append]; simp [hp]
  refine ⟨known, recalls, ?_, ?_, ?_⟩
  · intro a b s w w' k he hr ⟨g, t, hg, ht, hk⟩ ⟨g', t', hg', ht', hk'⟩
    exact apart (w, t) (sub a b he _ (Selects.source hd (nn a b he) hr hg ht)) (w', t')
      (sub a b he _ (Selects.source hd (nn a b he) hr hg' ht')) (hk.trans hk'.symm)
  · intro a x b s w k he hr hl _ ⟨g, t, hg, ht, hk⟩
    have hm := Selects.source hd (nn a (x :: b) he) hr hg ht
    obtain ⟨y, hy, hyp⟩ := List.mem_flatMap.1 hm
    rw [he] at fresh
    exact (List.pairwise_append.1 fresh).2.2 y hy x (by simp) (w, t) hyp (by rw [hl, ← hk])
  · intro a l d b s w g he hr hg ht
    exact deaths l d (by rw [he]; simp) _ (sub a _ he _ (Selects.source hd (nn a _ he) hr hg ht)) rfl

/-- Two players with a unit each; player 0 puts unit 1 in group 3, drops it, and recalls group 3. -/
def orderlyHistory : List SEvent :=
  [demoBorn 1 1 1 "Marine", demoBorn 2 2 1 "Zergling", .game 3 0 none (demoSel 3 [demoTag]), .game 4 0 none (demoSel 10 [demoTag]),
   .game 5 1 none (demoSel 10 [2 * 2 ^ 18 + 1]), .game 6 0 none (demoSel 10 []), .game 7 0 none (demoGrp 3 .recall),
   demoDied 8 2 1]

theorem orderlyHistory_orderly : Orderly .debug demoState orderlyHistory := by
  refine orderly_of_static (by decide) ?_ ?_ (by decide +kernel) (by decide +kernel) ?_
  · intro l w n ge i hm hg
    simp only [orderlyHistory, List.mem_cons, SEvent.game.injEq, List.not_mem_nil, or_false, demoBorn, demoDied] at hm
    simp only [reduceCtorEq, false_or, or_false] at hm
    rcases hm with ⟨_, rfl, _, rfl⟩ | ⟨_, rfl, _, rfl⟩ | ⟨_, rfl, _, rfl⟩ | ⟨_, rfl, _, rfl⟩ | ⟨_, rfl, _, rfl⟩ <;>
      simp only [demoSel, demoGrp, groupIndexOf, Option.some.injEq] at hg <;> subst hg <;> decide
  · intro l w n e hm
    simp only [orderlyHistory, List.mem_cons, SEvent.game.injEq, List.not_mem_nil, or_false, demoBorn, demoDied,
      demoSel, demoGrp, reduceCtorEq, and_false, false_or, GameEvt.controlGroupUpdate.injEq] at hm
    rw [hm.2.2.2]
  · intro l d hm p hp
    simp only [orderlyHistory, List.mem_cons, List.not_mem_nil, or_false, demoBorn, demoDied,
      reduceCtorEq, false_or, SEvent.tracker.injEq, and_false, TrackerEvt.unitDied.injEq] at hm
    rw [hm.2]
    revert p
    decide +kernel

example : ∀ s k u, runEvents .debug demoState orderlyHistory = .ok s → s.units k = some u →
    (u.isSelected = true ↔ ∃ w g t, groupOf s w 10 = some g ∧ t ∈ g ∧ tagIndex t = k) :=
  fun s k u h hu => C70_history_partial .debug _ _ (by decide) _ s h orderlyHistory_orderly k u hu

example : (match runEvents .debug demoState orderlyHistory with
    | .ok s => some ((s.units 1).map SUnit.isSelected, groupOf s 0 10)
    | _ => none) = some (some true, some [demoTag]) := by decide +kernel

end S2
