import Verif.State.GroupLemmas
import Verif.Props.Iter
/-!
# Control groups and selections (C43–C47)

`groupOf s user i` is control group `i` of a user (`none` for an unknown user or `i > 10`); group 10 is the
active selection.  `SState.Wf` holds of every state reachable from `SState.initial` with distinct user ids
(`C44_reachable_wf`).
-/
namespace S2

/-- Every state reached by any history of events from a new replay state has, for every user, exactly the
eleven groups. -/
theorem C44_reachable_wf (bld : Build) (players : List (Int × Str)) (bal : BalUnits) (es : List SEvent) (s : SState)
    (hd : (players.map Prod.fst).Nodup) (h : runEvents bld (SState.initial players bal) es = .ok s) : s.Wf :=
  runEvents_wf (initial_wf players bal hd) h

/-- What one control-group or selection event of `user` should do to everybody's groups: `before` and
`after` give group `i` of a user. -/
def GroupStep (before after : Int → Nat → Option (List Int)) (user : Int) : GameEvt → Prop
  | .selectionDelta e =>
    ∀ w i, after w i = if w = user ∧ (i : Int) = e.controlGroupId then some e.addUnitTags else before w i
  | .controlGroupUpdate e =>
    match e.update with
    | .set => ∀ w i, after w i = if w = user ∧ (i : Int) = e.controlGroupIndex then before w 10 else before w i
    | .clear => ∀ w i, after w i = if w = user ∧ (i : Int) = e.controlGroupIndex then some [] else before w i
    | .recall =>
      ∀ w i, after w i = if w = user ∧ i = 10 then before w e.controlGroupIndex.toNat else before w i
    | .append => ∀ w (i : Nat),
      if w = user ∧ (i : Int) = e.controlGroupIndex then
        ∃ old sel new, before w i = some old ∧ before w 10 = some sel ∧ after w i = some new ∧
          new.Pairwise (· < ·) ∧ ∀ t, t ∈ new ↔ t ∈ old ∨ t ∈ sel
      else after w i = before w i
    | .setAndSteal => ∀ sel, before user 10 = some sel → ∀ w (i : Nat),
      after w i = if w = user ∧ (i : Int) = e.controlGroupIndex then some sel
        else if w = user ∧ i < 9 then (before w i).map (fun g => g.filter (fun t => t ∉ sel)) else before w i
    | .appendAndSteal => ∀ sel, before user 10 = some sel → ∀ w (i : Nat),
      if w = user ∧ (i : Int) = e.controlGroupIndex then
        ∃ old new, before w i = some old ∧ after w i = some new ∧
          new.Pairwise (· < ·) ∧ ∀ t, t ∈ new ↔ t ∈ old ∨ t ∈ sel
      else after w i = if w = user ∧ i < 9 then (before w i).map (fun g => g.filter (fun t => t ∉ sel)) else before w i
  | _ => after = before

/-- The group an event addresses. -/
def groupIndexOf : GameEvt → Option Int
  | .selectionDelta e => some e.controlGroupId
  | .controlGroupUpdate e => some e.controlGroupIndex
  | _ => none

theorem groupOf_setUser {s s' : SState} {user : Int} {u v : UserState} (hu : getUser s.users user = some u)
    (h : s'.users = setUser s.users user v) (w : Int) (i : Nat) :
    groupOf s' w i = if w = user then v.groups[i]? else groupOf s w i := by
  unfold groupOf
  rw [h]
  by_cases hw : w = user
  · subst hw; rw [getUser_setUser_self v hu]; simp
  · rw [getUser_setUser_ne v hw]; simp [hw]

theorem set_groupOf {g : List (List Int)} {i : Nat} {x : List Int} (hi : i < g.length) (j : Nat) :
    (g.set i x)[j]? = if j = i then some x else g[j]? := by
  rw [List.getElem?_set]
  by_cases h : i = j
  · subst h; simp [hi]
  · simp [h, Ne.symm h]

/-- The groups of the acting user after `groupsAfter`, group by group. -/
theorem groupsAfter_ok {g : List (List Int)} (hl : g.length = 11) {i : Int} (hi : 0 ≤ i) (hi' : i ≤ 10) (u : GroupUpdate) :
    ∃ g', groupsAfter g i u = .ok g' ∧ g'.length = 11 ∧
      match u with
      | .set => g' = g.set i.toNat (g[10])
      | .clear => g' = g.set i.toNat []
      | .recall => g' = g.set 10 (g[i.toNat]'(by omega))
      | .append => g' = g.set i.toNat (union (g[i.toNat]'(by omega)) (g[10]))
      | .setAndSteal => g' = (stolen (g[10]) g).set i.toNat (g[10])
      | .appendAndSteal => g' = (stolen (g[10]) g).set i.toNat
          (union ((stolen (g[10]) g)[i.toNat]'(by simp; omega)) (g[10])) := by
  have ha : indexGroup g activeGroup = .ok g[10] := indexGroup_eq (i := activeGroup) (by simp [activeGroup, hl])
  have hx : indexGroup g i = .ok (g[i.toNat]'(by omega)) := indexGroup_eq (by omega)
  have h10 : (stolen (g[10]) g)[10]'(by simp [hl]) = g[10] := by simp [stolen]
  have ha' : indexGroup (stolen (g[10]) g) activeGroup = .ok g[10] := by
    rw [indexGroup_eq (i := activeGroup) (by simp [activeGroup, hl])]; exact congrArg Res.ok h10
  have hx' : indexGroup (stolen (g[10]) g) i = .ok ((stolen (g[10]) g)[i.toNat]'(by simp; omega)) :=
    indexGroup_eq (by simp; omega)
  cases u with
  | set => exact ⟨_, by simp only [groupsAfter, ha, Res.bind_ok]; exact assignGroup_eq _ (by omega), by simp [hl], rfl⟩
  | clear => exact ⟨_, by simp only [groupsAfter]; exact assignGroup_eq _ (by omega), by simp [hl], rfl⟩
  | recall =>
    exact ⟨_, by simp only [groupsAfter, hx, Res.bind_ok]; exact assignGroup_eq (i := activeGroup) _ (by simp [activeGroup, hl]),
      by simp [hl], rfl⟩
  | append =>
    exact ⟨_, by simp only [groupsAfter, ha, hx, Res.bind_ok]; exact assignGroup_eq _ (by omega), by simp [hl], rfl⟩
  | setAndSteal =>
    refine ⟨_, ?_, ?_, rfl⟩
    · simp only [groupsAfter, ha, Res.bind_ok, stealLoop_eq (show 9 ≤ g.length by omega), ha']
      exact assignGroup_eq _ (by simp; omega)
    · simp [hl]
  | appendAndSteal =>
    refine ⟨_, ?_, ?_, rfl⟩
    · simp only [groupsAfter, ha, Res.bind_ok, stealLoop_eq (show 9 ≤ g.length by omega), hx']
      exact assignGroup_eq _ (by simp; omega)
    · simp [hl]

theorem selectionMarks_ok {s : SState} (hw : s.Wf) (loop user : Int) (e : SelectionDeltaEvent) :
    ∃ s1 upd, selectionMarks s loop user e = .ok (s1, upd) ∧ s1.users = s.users ∧ s1.balance = s.balance := by
  unfold selectionMarks
  split
  · simp only [unmarkSelected, selectedIds_eq hw, Res.bind_ok, Res.pure_eq, markSelected]
    exact ⟨_, _, rfl, rfl, rfl⟩
  · exact ⟨_, _, rfl, rfl, rfl⟩

theorem recallMarks_ok {s : SState} (hw : s.Wf) (loop user : Int) (u : GroupUpdate) :
    ∃ s1 upd, recallMarks s loop user u = .ok (s1, upd) ∧ s1.users = s.users ∧ s1.balance = s.balance := by
  unfold recallMarks
  split
  · simp only [selectedIds_eq hw, Res.bind_ok, Res.pure_eq, markSelected]
    exact ⟨_, _, rfl, rfl, rfl⟩
  · exact ⟨_, _, rfl, rfl, rfl⟩

/-- Every control-group and selection event of a known user, with a group id up to 10, in every state with
eleven groups per user: the event is processed and every group of every user is as `GroupStep` says. -/
theorem C44_group_step (s : SState) (hw : s.Wf) (loop user : Int) (e : GameEvt) (hu : (getUser s.users user).isSome)
    (i : Int) (hg : groupIndexOf e = some i) (hi : 0 ≤ i ∧ i ≤ 10) :
    ∃ s' e' hint, handleGame s loop user e = .ok (s', e', hint) ∧ GroupStep (groupOf s) (groupOf s') user e := by
  obtain ⟨u, hu⟩ := Option.isSome_iff_exists.1 hu
  have hl : u.groups.length = 11 := hw.2 _ (getUser_mem hu)
  cases e with
  | selectionDelta e =>
    simp only [groupIndexOf, Option.some.injEq] at hg
    subst hg
    obtain ⟨s1, upd, h1, hus, _⟩ := selectionMarks_ok hw loop user e
    have ha : assignGroup u.groups e.controlGroupId e.addUnitTags = .ok _ := assignGroup_eq _ (by omega)
    simp only [handleGame, handleSelectionDelta, h1, Res.bind_ok, updGroups, hus, hu, ha, Res.pure_eq]
    refine ⟨_, _, _, rfl, ?_⟩
    intro w i
    rw [groupOf_setUser hu rfl]
    by_cases hwu : w = user
    · subst hwu
      simp only [if_true, true_and, set_groupOf (show e.controlGroupId.toNat < u.groups.length by omega)]
      rw [(groupOf_lt hw hu i).1]
      by_cases hj : i = e.controlGroupId.toNat
      · rw [if_pos hj, if_pos (by omega)]
      · rw [if_neg hj, if_neg (by omega)]
    · simp [hwu]
  | controlGroupUpdate e =>
    simp only [groupIndexOf, Option.some.injEq] at hg
    subst hg
    obtain ⟨g', hg1, hg2, hg3⟩ := groupsAfter_ok hl hi.1 hi.2 e.update
    simp only [handleGame, updateControlGroup, unmarkSelected, selectedIds_eq hw, Res.bind_ok, Res.pure_eq, updGroups, hu, hg1]
    obtain ⟨s2, mk, hr, hru, _⟩ := recallMarks_ok
      (s := ⟨(unmarkLoop loop ((groupOf s user 10).getD []) s.units).1, setUser s.users user { u with groups := g' }, s.balance⟩)
      (Wf_setUser hw hu (v := { u with groups := g' }) (by rw [hl]; exact hg2) rfl) loop user e.update
    simp only [hr, Res.bind_ok]
    refine ⟨_, _, _, rfl, ?_⟩
    have key : ∀ w i, groupOf s2 w i = if w = user then g'[i]? else groupOf s w i := fun w i => groupOf_setUser hu hru w i
    have hgo : ∀ i, groupOf s user i = u.groups[i]? := fun i => (groupOf_lt hw hu i).1
    have h10 : groupOf s user 10 = some (u.groups[10]) := by rw [hgo]; simp [hl]
    simp only [GroupStep]
    cases hup : e.update with
    | set =>
      simp only [hup] at hg3
      intro w i
      rw [key]
      by_cases hwu : w = user
      · subst hwu
        simp only [if_true, true_and, hg3, set_groupOf (show e.controlGroupIndex.toNat < u.groups.length by omega), hgo, h10]
        by_cases hj : i = e.controlGroupIndex.toNat
        · rw [if_pos hj, if_pos (by omega)]; simp [hl]
        · rw [if_neg hj, if_neg (by omega)]
      · simp [hwu]
    | clear =>
      simp only [hup] at hg3
      intro w i
      rw [key]
      by_cases hwu : w = user
      · subst hwu
        simp only [if_true, true_and, hg3, set_groupOf (show e.controlGroupIndex.toNat < u.groups.length by omega), hgo]
        by_cases hj : i = e.controlGroupIndex.toNat
        · rw [if_pos hj, if_pos (by omega)]
        · rw [if_neg hj, if_neg (by omega)]
      · simp [hwu]
    | recall =>
      simp only [hup] at hg3
      intro w i
      rw [key]
      by_cases hwu : w = user
      · subst hwu
        simp only [if_true, true_and, hg3, set_groupOf (show 10 < u.groups.length by omega), hgo]
        by_cases hj : i = 10
        · rw [if_pos hj, if_pos hj]; simp
        · rw [if_neg hj, if_neg hj]
      · simp [hwu]
    | append =>
      simp only [hup] at hg3
      intro w i
      by_cases hwu : w = user
      · subst hwu
        simp only [true_and]
        split
        · rename_i hj
          have hj' : i = e.controlGroupIndex.toNat := by omega
          refine ⟨u.groups[i]'(by omega), u.groups[10], union (u.groups[i]'(by omega)) (u.groups[10]), ?_, h10, ?_,
            union_strict _ _, fun t => mem_union⟩
          · rw [hgo]; simp
          · rw [key, if_pos rfl, hg3, set_groupOf (by omega), if_pos hj']
            subst hj'; rfl
        · rename_i hj
          rw [key, if_pos rfl, hg3, set_groupOf (by omega), if_neg (by omega), hgo]
      · rw [if_neg (fun h => hwu h.1), key, if_neg hwu]
    | setAndSteal =>
      simp only [hup] at hg3
      intro sel hsel w i
      rw [h10] at hsel
      simp only [Option.some.injEq] at hsel
      subst hsel
      rw [key]
      by_cases hwu : w = user
      · subst hwu
        simp only [if_true, true_and, hg3,
          set_groupOf (g := stolen u.groups[10] u.groups) (show e.controlGroupIndex.toNat < _ by simp; omega), hgo]
        by_cases hj : i = e.controlGroupIndex.toNat
        · rw [if_pos hj, if_pos (by omega)]
        · rw [if_neg hj, if_neg (by omega)]
          simp only [stolen, List.getElem?_mapIdx]
          by_cases h9 : i < 9
          · simp [h9]
          · cases u.groups[i]? <;> simp [h9]
      · simp [hwu]
    | appendAndSteal =>
      simp only [hup] at hg3
      intro sel hsel w i
      rw [h10] at hsel
      simp only [Option.some.injEq] at hsel
      subst hsel
      by_cases hwu : w = user
      · subst hwu
        simp only [true_and]
        split
        · rename_i hj
          have hj' : i = e.controlGroupIndex.toNat := by omega
          refine ⟨u.groups[i]'(by omega), union ((stolen u.groups[10] u.groups)[i]'(by simp; omega)) u.groups[10], ?_, ?_,
            union_strict _ _, fun t => ?_⟩
          · rw [hgo]; simp
          · rw [key, if_pos rfl, hg3, set_groupOf (by simp; omega), if_pos hj']
            subst hj'; rfl
          · rw [mem_union]
            simp only [stolen, List.getElem_mapIdx]
            split
            · simp only [List.mem_filter, decide_eq_true_eq]
              by_cases hts : t ∈ u.groups[10] <;> simp [hts]
            · rfl
        · rename_i hj
          rw [key, if_pos rfl, hg3, set_groupOf (by simp; omega), if_neg (by omega), hgo]
          simp only [stolen, List.getElem?_mapIdx]
          by_cases h9 : i < 9
          · simp [h9]
          · cases u.groups[i]? <;> simp [h9]
      · rw [if_neg (fun h => hwu h.1), key, if_neg hwu, if_neg (fun h => hwu h.1)]
  | _ => simp [groupIndexOf] at hg

/-- No other game event touches any control group. -/
theorem C44_other_game_events (s s' : SState) (loop user : Int) (e e' : GameEvt) (hint : Hint)
    (hg : groupIndexOf e = none) (h : handleGame s loop user e = .ok (s', e', hint)) : groupOf s' = groupOf s := by
  have hcam : ∀ x y, groupOf (setCamera s user x y) = groupOf s := by
    intro x y
    funext w i
    unfold setCamera
    split
    · rfl
    · rename_i u hu
      rw [groupOf_setUser hu rfl]
      by_cases hw : w = user
      · subst hw; simp [groupOf, hu]
      · simp [hw]
  have husers : s'.users = s.users → groupOf s' = groupOf s := by
    intro hu; funext w i; unfold groupOf; rw [hu]
  cases e with
  | cameraSave w x y =>
    simp only [handleGame, Res.ok.injEq, Prod.mk.injEq] at h
    rw [← h.1]; exact hcam x y
  | cameraUpdate t r =>
    simp only [handleGame, Res.ok.injEq, Prod.mk.injEq] at h
    rw [← h.1]
    split
    · exact hcam _ _
    · rfl
  | cmd e =>
    simp only [handleGame, handleCmd] at h
    obtain ⟨ids, _, h2⟩ := Res.bind_eq_ok.1 h
    simp only [Res.pure_eq, Res.ok.injEq, Prod.mk.injEq] at h2
    exact husers (by rw [← h2.1])
  | cmdUpdateTargetPoint t =>
    simp only [handleGame, handleTargetPoint] at h
    obtain ⟨ids, _, h2⟩ := Res.bind_eq_ok.1 h
    simp only [Res.pure_eq, Res.ok.injEq, Prod.mk.injEq] at h2
    exact husers (by rw [← h2.1])
  | cmdUpdateTargetUnit t =>
    simp only [handleGame, handleTargetUnit] at h
    split at h
    · simp only [Res.ok.injEq, Prod.mk.injEq] at h; exact husers (by rw [← h.1])
    · obtain ⟨ids, _, h2⟩ := Res.bind_eq_ok.1 h
      simp only [Res.pure_eq, Res.ok.injEq, Prod.mk.injEq] at h2
      exact husers (by rw [← h2.1])
  | selectionDelta e => simp [groupIndexOf] at hg
  | controlGroupUpdate e => simp [groupIndexOf] at hg
  | other o =>
    simp only [handleGame, Res.ok.injEq, Prod.mk.injEq] at h
    rw [← h.1]

/-- No tracker event but a death touches any control group. -/
theorem C44_tracker_events (bld : Build) (s s' : SState) (loop : Int) (e e' : TrackerEvt) (hint : Hint)
    (hd : ∀ d, e ≠ .unitDied d) (h : handleTracker bld s loop e = .ok (s', e', hint)) : groupOf s' = groupOf s := by
  have husers : s'.users = s.users → groupOf s' = groupOf s := by
    intro hu; funext w i; unfold groupOf; rw [hu]
  cases e with
  | playerStats p st =>
    simp only [handleTracker, Res.ok.injEq, Prod.mk.injEq] at h
    exact husers (by rw [← h.1])
  | unitOwnerChange e =>
    simp only [handleTracker, Res.ok.injEq, Prod.mk.injEq] at h
    exact husers (by rw [← h.1])
  | upgrade e =>
    simp only [handleTracker, Res.ok.injEq, Prod.mk.injEq] at h
    exact husers (by rw [← h.1])
  | playerSetup e =>
    simp only [handleTracker, Res.ok.injEq, handlePlayerSetup] at h
    split at h
    · simp only [Prod.mk.injEq] at h; exact husers (by rw [← h.1])
    · split at h
      · simp only [Prod.mk.injEq] at h; exact husers (by rw [← h.1])
      · rename_i id _ _ u hu
        simp only [Prod.mk.injEq] at h
        rw [← h.1]
        funext w i
        rw [groupOf_setUser hu rfl]
        by_cases hw : w = id
        · subst hw; simp [groupOf, hu]
        · simp [hw]
  | unitPosition e =>
    simp only [handleTracker, handleUnitPosition] at h
    obtain ⟨ps, _, h2⟩ := Res.bind_eq_ok.1 h
    simp only [Res.pure_eq, Res.ok.injEq, Prod.mk.injEq] at h2
    exact husers (by rw [← h2.1])
  | unitDone e =>
    simp only [handleTracker, Res.ok.injEq, handleUnitDone] at h
    split at h <;> simp only [Prod.mk.injEq] at h <;> exact husers (by rw [← h.1])
  | unitInit e =>
    simp only [handleTracker, Res.ok.injEq, handleUnitInit, Prod.mk.injEq] at h
    exact husers (by rw [← h.1])
  | unitTypeChange e =>
    simp only [handleTracker, Res.ok.injEq, handleUnitTypeChange] at h
    split at h <;> simp only [Prod.mk.injEq] at h <;> exact husers (by rw [← h.1])
  | unitBorn e =>
    simp only [handleTracker, Res.ok.injEq, handleUnitBorn] at h
    split at h <;> simp only [Prod.mk.injEq] at h <;> exact husers (by rw [← h.1])
  | unitDied e => exact absurd rfl (hd e)

/-! ## A concrete history -/

def demoSel (group : Int) (tags : List Int) : GameEvt := .selectionDelta ⟨group, 0, .none, [], tags⟩
def demoGrp (group : Int) (u : GroupUpdate) : GameEvt := .controlGroupUpdate ⟨group, u, .none⟩

/-- Two users, 0 and 1, no units, no balance data. -/
def demoState : SState := SState.initial [(0, str "A"), (1, str "B")] (fun _ => none)

theorem demoState_wf : demoState.Wf := initial_wf _ _ (by decide)

/-- Groups 0, 1, 9 and 10 of user 0 after a history. -/
def demoGroups (es : List SEvent) : Option (List (Option (List Int))) :=
  match runEvents .debug demoState es with
  | .ok s => some [groupOf s 0 0, groupOf s 0 1, groupOf s 0 9, groupOf s 0 10]
  | _ => none

example : demoGroups [.game 1 0 none (demoSel 10 [7, 3]), .game 2 0 none (demoGrp 0 .set),
    .game 3 0 none (demoSel 10 [5, 3]), .game 4 0 none (demoGrp 0 .append), .game 5 0 none (demoGrp 1 .set),
    .game 6 0 none (demoGrp 0 .recall), .game 7 1 none (demoSel 10 [9]), .game 8 1 none (demoGrp 1 .setAndSteal)] =
    some [some [3, 5, 7], some [5, 3], some [], some [3, 5, 7]] := by decide +kernel

/-! ## C45: the steal variants -/

/-- After a steal the stolen units are gone from the acting user's groups 0 to 8, except the group they
were put in; the acting group holds the whole selection.  Missing from the full claim: group 9, which the
loop `0..9` leaves out (`C45_steal_refuted`). -/
theorem C45_steal_partial (s : SState) (hw : s.Wf) (loop user : Int) (e : ControlGroupUpdateEvent)
    (hu : (getUser s.users user).isSome) (hi : 0 ≤ e.controlGroupIndex ∧ e.controlGroupIndex ≤ 10)
    (he : e.update = .setAndSteal ∨ e.update = .appendAndSteal) :
    ∃ s' e' hint sel, handleGame s loop user (.controlGroupUpdate e) = .ok (s', e', hint) ∧ groupOf s user 10 = some sel ∧
      (∃ g, groupOf s' user e.controlGroupIndex.toNat = some g ∧ ∀ t ∈ sel, t ∈ g) ∧
      ∀ i : Nat, i < 9 → (i : Int) ≠ e.controlGroupIndex → ∃ old new, groupOf s user i = some old ∧
        groupOf s' user i = some new ∧ ∀ t, t ∈ new ↔ t ∈ old ∧ t ∉ sel := by
  obtain ⟨s', e', hint, h1, h2⟩ := C44_group_step s hw loop user (.controlGroupUpdate e) hu e.controlGroupIndex rfl hi
  obtain ⟨u, hu⟩ := Option.isSome_iff_exists.1 hu
  obtain ⟨sel, hsel⟩ := Option.isSome_iff_exists.1 ((groupOf_lt hw hu 10).2.1 (by omega))
  refine ⟨s', e', hint, sel, h1, hsel, ?_⟩
  have old : ∀ i : Nat, i < 9 → ∃ old, groupOf s user i = some old := fun i hi =>
    Option.isSome_iff_exists.1 ((groupOf_lt hw hu i).2.1 (by omega))
  unfold GroupStep at h2
  rcases he with he | he <;> simp only [he] at h2
  · have h3 := h2 sel hsel
    refine ⟨⟨sel, ?_, fun t ht => ht⟩, ?_⟩
    · rw [h3, if_pos ⟨rfl, by omega⟩]
    · intro i hi9 hne
      obtain ⟨o, ho⟩ := old i hi9
      refine ⟨o, o.filter (fun t => t ∉ sel), ho, ?_, by simp⟩
      rw [h3, if_neg (fun h => hne h.2), if_pos ⟨rfl, hi9⟩, ho]; rfl
  · have h3 := h2 sel hsel
    refine ⟨?_, ?_⟩
    · have := h3 user e.controlGroupIndex.toNat
      rw [if_pos ⟨rfl, by omega⟩] at this
      obtain ⟨_, new, _, hn, _, hm⟩ := this
      exact ⟨new, hn, fun t ht => (hm t).2 (.inr ht)⟩
    · intro i hi9 hne
      obtain ⟨o, ho⟩ := old i hi9
      refine ⟨o, o.filter (fun t => t ∉ sel), ho, ?_, by simp⟩
      have := h3 user i
      rw [if_neg (fun h => hne h.2), if_pos ⟨rfl, hi9⟩, ho] at this
      exact this

/-- Group 9 keeps stolen units: unit 7 is put in group 9, then stolen into group 0, and is in both. -/
theorem C45_steal_refuted :
    demoGroups [.game 1 0 none (demoSel 10 [7]), .game 2 0 none (demoGrp 9 .set),
      .game 3 0 none (demoGrp 0 .setAndSteal)] = some [some [7], some [], some [7], some [7]] ∧
    demoGroups [.game 1 0 none (demoSel 10 [7]), .game 2 0 none (demoGrp 9 .set),
      .game 3 0 none (demoGrp 0 .appendAndSteal)] = some [some [7], some [], some [7], some [7]] := by
  decide +kernel

example : ∃ s' e' hint sel, handleGame demoState 1 0 (demoGrp 3 .setAndSteal) = .ok (s', e', hint) ∧
    groupOf demoState 0 10 = some sel := by
  obtain ⟨s', e', hint, sel, h1, h2, _⟩ := C45_steal_partial demoState demoState_wf 1 0 ⟨3, .setAndSteal, .none⟩
    (by decide +kernel) (by decide) (.inl rfl)
  exact ⟨s', e', hint, sel, h1, h2⟩

/-! ## C46: group ids out of range -/

theorem game_events_ok {s : SState} (hw : s.Wf) (loop user : Int) (e : GameEvt) (hg : groupIndexOf e = none) :
    ∃ r, handleGame s loop user e = .ok r := by
  cases e with
  | cameraSave w x y => exact ⟨_, rfl⟩
  | cameraUpdate t r => exact ⟨_, rfl⟩
  | cmd e =>
    simp only [handleGame, handleCmd, selectedIds_eq hw, Res.bind_ok]
    exact ⟨_, rfl⟩
  | cmdUpdateTargetPoint t =>
    simp only [handleGame, handleTargetPoint, selectedIds_eq hw, Res.bind_ok]
    exact ⟨_, rfl⟩
  | cmdUpdateTargetUnit t =>
    simp only [handleGame, handleTargetUnit]
    split
    · exact ⟨_, rfl⟩
    · simp only [selectedIds_eq hw, Res.bind_ok]
      exact ⟨_, rfl⟩
  | selectionDelta e => simp [groupIndexOf] at hg
  | controlGroupUpdate e => simp [groupIndexOf] at hg
  | other o => exact ⟨_, rfl⟩

theorem groupsAfter_panic {g : List (List Int)} (hl : g.length = 11) {i : Int} (hi : 10 < i) (u : GroupUpdate) :
    groupsAfter g i u = .panic := by
  have ha : indexGroup g activeGroup = .ok g[10] := indexGroup_eq (i := activeGroup) (by simp [activeGroup, hl])
  have hx : ∀ g' : List (List Int), g'.length = 11 → indexGroup g' i = .panic := by
    intro g' hg'
    unfold indexGroup
    rw [List.getElem?_eq_none (by omega)]
  have hs : ∀ (g' : List (List Int)) x, g'.length = 11 → assignGroup g' i x = .panic := by
    intro g' x hg'
    unfold assignGroup
    rw [if_neg (by omega)]
  have hl' : (stolen g[10] g).length = 11 := by simp [hl]
  have h10 : (stolen (g[10]) g)[10]'(by simp [hl]) = g[10] := by simp [stolen]
  have ha' : indexGroup (stolen (g[10]) g) activeGroup = .ok g[10] := by
    rw [indexGroup_eq (i := activeGroup) (by simp [activeGroup, hl])]; exact congrArg Res.ok h10
  cases u with
  | set => simp only [groupsAfter, ha, Res.bind_ok, hs g _ hl]
  | clear => simp only [groupsAfter, hs g _ hl]
  | recall => simp only [groupsAfter, hx g hl]; rfl
  | append => simp only [groupsAfter, ha, hx g hl, Res.bind_ok]; rfl
  | setAndSteal =>
    simp only [groupsAfter, ha, Res.bind_ok, stealLoop_eq (show 9 ≤ g.length by omega), ha', hs _ _ hl']
  | appendAndSteal =>
    simp only [groupsAfter, ha, Res.bind_ok, stealLoop_eq (show 9 ≤ g.length by omega), hx _ hl']; rfl

/-- Exactly which game events are fatal: those of a known user that address a group above 10.  In
particular no event with group ids 0..=10, and no event of an unknown user, panics.  Missing from the full
claim: the group ids 11..=15, which the wire format allows (`C46_group_id_refuted`). -/
theorem C46_panic_iff_partial (s : SState) (hw : s.Wf) (loop user : Int) (e : GameEvt)
    (hnn : ∀ i, groupIndexOf e = some i → 0 ≤ i) :
    handleGame s loop user e = .panic ↔ (getUser s.users user).isSome ∧ ∃ i, groupIndexOf e = some i ∧ 10 < i := by
  cases hg : groupIndexOf e with
  | none =>
    obtain ⟨r, hr⟩ := game_events_ok hw loop user e hg
    simp [hr]
  | some i =>
    have h0 := hnn i hg
    cases hu : getUser s.users user with
    | none =>
      simp only [Option.isSome_none, Bool.false_eq_true, false_and, iff_false]
      cases e with
      | selectionDelta e =>
        obtain ⟨s1, upd, h1, hus, _⟩ := selectionMarks_ok hw loop user e
        simp [handleGame, handleSelectionDelta, h1, updGroups, hus, hu]
      | controlGroupUpdate e =>
        simp only [handleGame, updateControlGroup, unmarkSelected, selectedIds_eq hw, Res.bind_ok, Res.pure_eq, updGroups, hu]
        obtain ⟨s2, mk, hr, _⟩ := recallMarks_ok
          (s := ⟨(unmarkLoop loop ((groupOf s user 10).getD []) s.units).1, s.users, s.balance⟩) ⟨hw.1, hw.2⟩ loop user e.update
        simp [hr]
      | _ => simp [groupIndexOf] at hg
    | some u =>
      have hl : u.groups.length = 11 := hw.2 _ (getUser_mem hu)
      simp only [Option.isSome_some, Option.some.injEq, exists_eq_left', true_and]
      constructor
      · intro hp
        refine Int.not_le.1 (fun hle => ?_)
        obtain ⟨s', e', hint, h1, _⟩ := C44_group_step s hw loop user e (by simp [hu]) i hg ⟨h0, hle⟩
        rw [h1] at hp; cases hp
      · intro hi
        cases e with
        | selectionDelta e =>
          simp only [groupIndexOf, Option.some.injEq] at hg
          subst hg
          obtain ⟨s1, upd, h1, hus, _⟩ := selectionMarks_ok hw loop user e
          simp only [handleGame, handleSelectionDelta, h1, Res.bind_ok, updGroups, hus, hu, assignGroup]
          rw [if_neg (by omega)]; rfl
        | controlGroupUpdate e =>
          simp only [groupIndexOf, Option.some.injEq] at hg
          subst hg
          simp only [handleGame, updateControlGroup, unmarkSelected, selectedIds_eq hw, Res.bind_ok, Res.pure_eq, updGroups, hu,
            groupsAfter_panic hl hi]
          rfl
        | _ => simp [groupIndexOf] at hg

/-- Does a call of the combined iterator panic? -/
def callPanics (r : Option (Res (Option Item) × MState)) : Bool :=
  match r with
  | some (.panic, _) => true
  | _ => false

/-- `(delta 5, user 0, ControlGroupUpdate { group 11, Set, no mask })` and
`(delta 5, user 0, SelectionDelta { group 11, nothing added })`. -/
def wGroup11 : List UInt8 := [0x14, 0x20, 0xBD, 0x00]
def wSelect11 : List UInt8 := [0x14, 0x20, 0xBC, 0x00, 0, 0, 0]

/-- Both are well-formed wire events, and the game iterator decodes both; stepping the replay state over
either panics, in debug and release builds. -/
theorem C46_group_id_refuted (bld : Build) :
    TripletWire bld (gameEventTy 90000) (5, 0, .choice 29 (.struct [.int 11, .choice 0 .unit, .choice 0 .unit])) wGroup11 ∧
    TripletWire bld (gameEventTy 90000)
      (5, 0, .choice 28 (.struct [.int 11, .struct [.int 0, .choice 0 .unit, .list [], .list []]])) wSelect11 ∧
    readGameEvents bld 90000 100 (wGroup11 ++ wSelect11) =
      some (.ok [(5, 0, .controlGroupUpdate ⟨11, .set, .none⟩),
        (5, 0, .selectionDelta ⟨11, 0, .none, [], []⟩)]) ∧
    callPanics (mnext bld 90000 10 (MState.new demoState [] wGroup11 none)) = true ∧
    callPanics (mnext bld 90000 10 (MState.new demoState [] wSelect11 none)) = true := by
  refine ⟨?_, ?_, ?_, ?_, ?_⟩
  · exact tripletWire_of_parse (gameEventTy_wf _) (by cases bld <;> decide +kernel)
  · exact tripletWire_of_parse (gameEventTy_wf _) (by cases bld <;> decide +kernel)
  · cases bld <;> decide +kernel
  · cases bld <;> decide +kernel
  · cases bld <;> decide +kernel

example : handleGame demoState 5 0 (demoGrp 10 .recall) ≠ .panic := by
  intro h
  have := (C46_panic_iff_partial demoState demoState_wf 5 0 (demoGrp 10 .recall) (by simp [demoGrp, groupIndexOf])).1 h
  simp [demoGrp, groupIndexOf] at this

/-! ## C43: death and control groups -/

/-- What a death does to the groups: from every group of every user exactly the entries equal to the
numeric unit index of the event are removed, the others staying in order.  This is the claim for groups
whose entries are unit indexes; missing is that group entries are full tags
(`C43_dead_unit_in_group_refuted`). -/
theorem C43_death_groups_partial (bld : Build) (s : SState) (hw : s.Wf) (loop : Int) (e : UnitDiedEvent) :
    ∃ s' hint, handleTracker bld s loop (.unitDied e) = .ok (s', .unitDied e, hint) ∧
      ∀ w i, groupOf s' w i = (groupOf s w i).map (fun g => g.filter (fun t => t ≠ e.unitTagIndex)) := by
  have hr := removeFromUsers_eq e.unitTagIndex s.users hw.2
  have key : ∀ s' : SState, s'.users = s.users.map (fun p => (p.1, { p.2 with groups := p.2.groups.map (fun g =>
      g.filter (fun x => x ≠ e.unitTagIndex)) })) →
      ∀ w i, groupOf s' w i = (groupOf s w i).map (fun g => g.filter (fun t => t ≠ e.unitTagIndex)) := by
    intro s' h w i
    unfold groupOf
    rw [h, getUser_map (f := fun u => { u with groups := u.groups.map (fun g => g.filter (fun x => x ≠ e.unitTagIndex)) })]
    cases getUser s.users w with
    | none => rfl
    | some u => simp
  simp only [handleTracker, handleUnitDied, hr, Res.bind_ok]
  cases hu : s.units e.unitTagIndex with
  | none => exact ⟨_, _, rfl, key _ rfl⟩
  | some u => exact ⟨_, _, rfl, key _ rfl⟩

/-- The tag of unit index 1, recycle count 1, as the game's selection events carry it. -/
def demoTag : Int := 2 ^ 18 + 1

def demoBorn (loop idx recycle : Int) (name : String) : SEvent :=
  .tracker loop (.unitBorn ⟨idx, recycle, str name, 1, 1, 0, 0, none, none, none⟩)
def demoDied (loop idx recycle : Int) : SEvent :=
  .tracker loop (.unitDied ⟨idx, recycle, none, 0, 0, none, none⟩)

/-- A unit of index 1 is born, selected with its real tag, put in group 0, and dies: it stays in the active
selection and in group 0.  Conversely the live unit with index 0 and recycle count 5 (tag 5) is thrown out
of the selection when unit index 5 dies. -/
theorem C43_dead_unit_in_group_refuted :
    tagIndex demoTag = 1 ∧
    demoGroups [demoBorn 1 1 1 "Marine", .game 2 0 none (demoSel 10 [demoTag]), .game 3 0 none (demoGrp 0 .set),
      demoDied 4 1 1] = some [some [demoTag], some [], some [], some [demoTag]] ∧
    tagIndex 5 = 0 ∧
    demoGroups [demoBorn 1 0 5 "Marine", demoBorn 1 5 1 "Marine", .game 2 0 none (demoSel 10 [5]), demoDied 4 5 1] =
      some [some [], some [], some [], some []] := by
  decide +kernel

/-- What the leftover tag causes: the next unit to reuse the index is marked selected by a recall of the
group, although it never was in it. -/
theorem C43_stale_tag_selects_new_unit_refuted :
    (match runEvents .debug demoState [demoBorn 1 1 1 "Marine", .game 2 0 none (demoSel 10 [demoTag]),
        .game 3 0 none (demoGrp 0 .set), demoDied 4 1 1, demoBorn 5 1 2 "Zergling", .game 6 0 none (demoGrp 0 .recall)] with
      | .ok s => (s.units 1).map (fun u => (u.name, u.isSelected))
      | _ => none) = some (str "Zergling", true) := by
  decide +kernel

end S2
