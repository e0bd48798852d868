import Verif.Props.Groups
/-!
# Selection marks (C47)

Selecting a unit sets its flag and doubles its drawn radius; `baseRadius` is the radius with that undone.
-/
namespace S2

/-- The radius a unit has when it is not marked. -/
def baseRadius (u : SUnit) : Rat := if u.isSelected then u.radius * (1 / 2) else u.radius

/-- Flag and drawn radius. -/
def look (u : SUnit) : Bool × Rat := (u.isSelected, u.radius)

theorem half_double (r : Rat) : r * (1 / 2) * 2 = r := by
  rw [Rat.mul_assoc, show ((1 : Rat) / 2) * 2 = 1 by decide +kernel, Rat.mul_one]
theorem double_half (r : Rat) : r * 2 * (1 / 2) = r := by
  rw [Rat.mul_assoc, show (2 : Rat) * (1 / 2) = 1 by decide +kernel, Rat.mul_one]

theorem base_marked (loop : Int) (u : SUnit) : baseRadius (marked loop u) = baseRadius u := by
  unfold baseRadius marked
  cases u.isSelected <;> simp [double_half]

theorem base_unmarked (loop : Int) (u : SUnit) : baseRadius (unmarked loop u) = baseRadius u := by
  unfold baseRadius unmarked
  cases u.isSelected <;> simp

theorem look_marked (loop : Int) (u : SUnit) : look (marked loop u) = (true, baseRadius u * 2) := by
  unfold look marked baseRadius
  cases u.isSelected <;> simp [half_double]

theorem look_unmarked (loop : Int) (u : SUnit) : look (unmarked loop u) = (false, baseRadius u) := by
  unfold look unmarked baseRadius
  cases u.isSelected <;> simp

theorem cmdLoop_base (bal : BalUnits) (loop : Int) (target : Option SUnit) (k : Int) :
    ∀ (ids : List Int) (us : Units) (cmd : CmdEvent),
      ((cmdLoop bal loop target ids us cmd).1 k).map look = (us k).map look
  | [], us, cmd => rfl
  | t :: ids, us, cmd => by
    simp only [cmdLoop]
    split
    · exact cmdLoop_base bal loop target k ids us cmd
    · rename_i u hu
      split
      · exact cmdLoop_base bal loop target k ids us cmd
      · rw [cmdLoop_base bal loop target k ids]
        by_cases h : k = tagIndex t
        · subst h; simp [hu, look]
        · rw [Units.set_ne _ _ h]

theorem retarget_base (f : UnitCmd → UnitCmd) (loop k : Int) : ∀ (ids : List Int) (us : Units),
    ((retarget f loop ids us).1 k).map look = (us k).map look
  | [], us => rfl
  | t :: ids, us => by
    simp only [retarget]
    split
    · exact retarget_base f loop k ids us
    · rename_i u hu
      rw [retarget_base f loop k ids]
      by_cases h : k = tagIndex t
      · subst h; simp [hu, look]
      · rw [Units.set_ne _ _ h]

theorem unmark_base (loop k : Int) (ids : List Int) (us : Units) :
    ((unmarkLoop loop ids us).1 k).map baseRadius = (us k).map baseRadius := by
  rw [unmarkLoop_spec]; split
  · cases us k <;> simp [base_unmarked]
  · rfl

theorem mark_base (loop k : Int) (ids : List Int) (us : Units) :
    ((markLoop loop ids us).1 k).map baseRadius = (us k).map baseRadius := by
  rw [markLoop_spec]; split
  · cases us k <;> simp [base_marked]
  · rfl

theorem base_of_look {a b : Option SUnit} (h : a.map look = b.map look) : a.map baseRadius = b.map baseRadius := by
  cases a <;> cases b <;> simp_all [look, baseRadius]

/-- The units after an active-selection event. -/
theorem select_units {s s' : SState} (hw : s.Wf) {loop user : Int} {e : SelectionDeltaEvent} {e' : GameEvt} {hint : Hint}
    (h10 : e.controlGroupId = 10) (h : handleGame s loop user (.selectionDelta e) = .ok (s', e', hint)) :
    s'.units = (markLoop loop e.addUnitTags (unmarkLoop loop ((groupOf s user 10).getD []) s.units).1).1 := by
  simp only [handleGame, handleSelectionDelta] at h
  obtain ⟨⟨s1, upd⟩, h1, h2⟩ := Res.bind_eq_ok.1 h
  obtain ⟨users, hu, h3⟩ := Res.bind_eq_ok.1 h2
  simp only [Res.pure_eq, Res.ok.injEq, Prod.mk.injEq] at h3
  rw [← h3.1]
  unfold selectionMarks at h1
  rw [if_pos (show e.controlGroupId = activeGroup from h10)] at h1
  simp only [unmarkSelected, selectedIds_eq hw, Res.bind_ok, Res.pure_eq, markSelected, Res.ok.injEq, Prod.mk.injEq] at h1
  rw [← h1.1]

/-- The units after a selection event on a group other than the active one. -/
theorem select_other_units {s s' : SState} {loop user : Int} {e : SelectionDeltaEvent} {e' : GameEvt} {hint : Hint}
    (h10 : e.controlGroupId ≠ 10) (h : handleGame s loop user (.selectionDelta e) = .ok (s', e', hint)) :
    s'.units = s.units := by
  simp only [handleGame, handleSelectionDelta] at h
  obtain ⟨⟨s1, upd⟩, h1, h2⟩ := Res.bind_eq_ok.1 h
  obtain ⟨users, hu, h3⟩ := Res.bind_eq_ok.1 h2
  simp only [Res.pure_eq, Res.ok.injEq, Prod.mk.injEq] at h3
  rw [← h3.1]
  unfold selectionMarks at h1
  rw [if_neg (show ¬ e.controlGroupId = activeGroup from h10)] at h1
  simp only [Res.ok.injEq, Prod.mk.injEq] at h1
  rw [← h1.1]

/-- The units after a control group event: the old selection is unmarked; a recall marks the new one. -/
theorem group_units {s s' : SState} (hw : s.Wf) {loop user : Int} {e : ControlGroupUpdateEvent} {e' : GameEvt} {hint : Hint}
    (h : handleGame s loop user (.controlGroupUpdate e) = .ok (s', e', hint)) :
    s'.units = if e.update = .recall then
        (markLoop loop ((groupOf s' user 10).getD []) (unmarkLoop loop ((groupOf s user 10).getD []) s.units).1).1
      else (unmarkLoop loop ((groupOf s user 10).getD []) s.units).1 := by
  simp only [handleGame, updateControlGroup, unmarkSelected, selectedIds_eq hw, Res.bind_ok, Res.pure_eq] at h
  obtain ⟨users, hu, h3⟩ := Res.bind_eq_ok.1 h
  obtain ⟨⟨s2, mk⟩, h4, h5⟩ := Res.bind_eq_ok.1 h3
  simp only [Res.pure_eq, Res.ok.injEq, Prod.mk.injEq] at h5
  have hw1 : SState.Wf ⟨(unmarkLoop loop ((groupOf s user 10).getD []) s.units).1, users, s.balance⟩ := by
    rcases updGroups_ok hu with ⟨_, h6⟩ | ⟨u, g, h6, h7, h8⟩
    · exact ⟨by rw [h6]; exact hw.1, by rw [h6]; exact hw.2⟩
    · exact Wf_setUser hw (v := { u with groups := g }) h6 (groupsAfter_len h7) h8
  rw [← h5.1]
  unfold recallMarks at h4
  by_cases hr : e.update = .recall
  · rw [if_pos hr] at h4 ⊢
    rw [selectedIds_eq hw1] at h4
    simp only [Res.bind_ok, Res.pure_eq, markSelected, Res.ok.injEq, Prod.mk.injEq] at h4
    rw [← h4.1]
    rfl
  · rw [if_neg hr] at h4 ⊢
    simp only [Res.ok.injEq, Prod.mk.injEq] at h4
    rw [← h4.1]

/-- Selecting `tags` (in any multiplicity and order): the units named are marked with twice their base
radius, those of the previous selection not named any more have flag and radius as if never selected, and
all others keep theirs. -/
theorem C47_select (s s' : SState) (hw : s.Wf) (loop user : Int) (e : SelectionDeltaEvent) (e' : GameEvt) (hint : Hint)
    (h10 : e.controlGroupId = 10) (h : handleGame s loop user (.selectionDelta e) = .ok (s', e', hint)) (k : Int) :
    (s'.units k).map look = (s.units k).map (fun u =>
      if k ∈ e.addUnitTags.map tagIndex then (true, baseRadius u * 2)
      else if k ∈ ((groupOf s user 10).getD []).map tagIndex then (false, baseRadius u)
      else look u) := by
  rw [select_units hw h10 h, markLoop_spec, unmarkLoop_spec]
  cases s.units k with
  | none => split <;> split <;> rfl
  | some u =>
    by_cases h1 : k ∈ e.addUnitTags.map tagIndex <;> by_cases h2 : k ∈ ((groupOf s user 10).getD []).map tagIndex <;>
      simp only [h1, h2, if_true, if_false, Option.map_some, look_marked, look_unmarked, base_unmarked]

/-- Recalling a group marks its units and unmarks the rest of the previous selection. -/
theorem C47_recall (s s' : SState) (hw : s.Wf) (loop user : Int) (e : ControlGroupUpdateEvent) (e' : GameEvt) (hint : Hint)
    (hr : e.update = .recall) (h : handleGame s loop user (.controlGroupUpdate e) = .ok (s', e', hint)) (k : Int) :
    (s'.units k).map look = (s.units k).map (fun u =>
      if k ∈ ((groupOf s' user 10).getD []).map tagIndex then (true, baseRadius u * 2)
      else if k ∈ ((groupOf s user 10).getD []).map tagIndex then (false, baseRadius u)
      else look u) := by
  rw [group_units hw h, if_pos hr, markLoop_spec, unmarkLoop_spec]
  cases s.units k with
  | none => split <;> split <;> rfl
  | some u =>
    by_cases h1 : k ∈ ((groupOf s' user 10).getD []).map tagIndex <;>
      by_cases h2 : k ∈ ((groupOf s user 10).getD []).map tagIndex <;>
      simp only [h1, h2, if_true, if_false, Option.map_some, look_marked, look_unmarked, base_unmarked]

/-- Selecting and then selecting nothing restores flag and radius of every unit that was not marked. -/
theorem C47_select_deselect (s s1 s2 : SState) (hw : s.Wf) (l1 l2 user : Int) (a b : SelectionDeltaEvent)
    (e1 e2 : GameEvt) (h1 h2 : Hint) (hu : (getUser s.users user).isSome)
    (ha : a.controlGroupId = 10) (hb : b.controlGroupId = 10) (hbt : b.addUnitTags = [])
    (hs1 : handleGame s l1 user (.selectionDelta a) = .ok (s1, e1, h1))
    (hs2 : handleGame s1 l2 user (.selectionDelta b) = .ok (s2, e2, h2))
    (k : Int) (u : SUnit) (hk : s.units k = some u) (hnot : u.isSelected = false) :
    (s2.units k).map look = some (look u) := by
  have hw1 : s1.Wf := by
    have : transition .debug s (.game l1 user none (.selectionDelta a)) = .ok (s1, ⟨.game l1 user none e1, h1⟩) := by
      simp only [transition, hs1, Res.bind_ok]; rfl
    exact transition_wf hw this
  have hb1 : baseRadius u = u.radius := by simp [baseRadius, hnot]
  have hg : groupOf s1 user 10 = some a.addUnitTags := by
    obtain ⟨s', e', h', g1, g2⟩ := C44_group_step s hw l1 user (.selectionDelta a) hu 10 (by simp [groupIndexOf, ha]) (by omega)
    rw [hs1] at g1
    simp only [Res.ok.injEq, Prod.mk.injEq] at g1
    rw [← g1.1] at g2
    have := g2 user 10
    simpa [ha] using this
  rw [C47_select s1 s2 hw1 l2 user b e2 h2 hb hs2 k]
  have h1 := C47_select s s1 hw l1 user a e1 h1 ha hs1 k
  simp only [hbt, List.map_nil, List.not_mem_nil, if_false, hg, Option.getD_some]
  rw [hk] at h1
  simp only [Option.map_some] at h1
  cases hu1 : s1.units k with
  | none => rw [hu1] at h1; cases h1
  | some u1 =>
    rw [hu1] at h1
    simp only [Option.map_some, Option.some.injEq] at h1 ⊢
    by_cases hin : k ∈ a.addUnitTags.map tagIndex
    · rw [if_pos hin] at h1 ⊢
      simp only [look, Prod.mk.injEq] at h1 ⊢
      simp [baseRadius, h1.1, h1.2, hnot, double_half]
    · rw [if_neg hin] at h1 ⊢
      split at h1
      · rw [h1, hb1]; simp [look, hnot]
      · exact h1

/-- No game event of any kind changes the base radius of any unit … -/
theorem C47_base_preserved (s s' : SState) (hw : s.Wf) (loop user : Int) (e e' : GameEvt) (hint : Hint)
    (h : handleGame s loop user e = .ok (s', e', hint)) (k : Int) :
    (s'.units k).map baseRadius = (s.units k).map baseRadius := by
  have hcam : ∀ x y, (setCamera s user x y).units = s.units := by
    intro x y; unfold setCamera; split <;> rfl
  cases e with
  | cameraSave w x y =>
    simp only [handleGame, Res.ok.injEq, Prod.mk.injEq] at h
    rw [← h.1, hcam]
  | cameraUpdate t r =>
    simp only [handleGame, Res.ok.injEq, Prod.mk.injEq] at h
    rw [← h.1]
    split
    · rw [hcam]
    · rfl
  | cmd e =>
    simp only [handleGame, handleCmd] at h
    obtain ⟨ids, _, h2⟩ := Res.bind_eq_ok.1 h
    simp only [Res.pure_eq, Res.ok.injEq, Prod.mk.injEq] at h2
    rw [← h2.1]; exact base_of_look (cmdLoop_base ..)
  | cmdUpdateTargetPoint t =>
    simp only [handleGame, handleTargetPoint] at h
    obtain ⟨ids, _, h2⟩ := Res.bind_eq_ok.1 h
    simp only [Res.pure_eq, Res.ok.injEq, Prod.mk.injEq] at h2
    rw [← h2.1]; exact base_of_look (retarget_base ..)
  | cmdUpdateTargetUnit t =>
    simp only [handleGame, handleTargetUnit] at h
    split at h
    · simp only [Res.ok.injEq, Prod.mk.injEq] at h; rw [← h.1]
    · obtain ⟨ids, _, h2⟩ := Res.bind_eq_ok.1 h
      simp only [Res.pure_eq, Res.ok.injEq, Prod.mk.injEq] at h2
      rw [← h2.1]; exact base_of_look (retarget_base ..)
  | selectionDelta e =>
    by_cases h10 : e.controlGroupId = 10
    · rw [select_units hw h10 h, mark_base, unmark_base]
    · rw [select_other_units h10 h]
  | controlGroupUpdate e =>
    rw [group_units hw h]
    split
    · rw [mark_base, unmark_base]
    · rw [unmark_base]
  | other o =>
    simp only [handleGame, Res.ok.injEq, Prod.mk.injEq] at h
    rw [← h.1]

/-- … so over any history of game events by any users the radius of a unit is its initial base radius,
doubled exactly when it is marked: selections never compound. -/
theorem C47_never_compounds (bld : Build) (s s' : SState) (hw : s.Wf) (es : List SEvent)
    (hg : ∀ e ∈ es, ∃ l u n ge, e = .game l u n ge) (h : runEvents bld s es = .ok s') (k : Int) (u u' : SUnit)
    (hk : s.units k = some u) (hk' : s'.units k = some u') :
    u'.radius = if u'.isSelected then baseRadius u * 2 else baseRadius u := by
  have hb : (s'.units k).map baseRadius = (s.units k).map baseRadius := by
    clear hk hk'
    induction es generalizing s with
    | nil => simp only [runEvents, Res.ok.injEq] at h; rw [h]
    | cons e es ih =>
      simp only [runEvents] at h
      split at h
      · rename_i s1 it h1
        rw [ih s1 (transition_wf hw h1) (fun e he => hg e (by simp [he])) h]
        obtain ⟨l, w, n, ge, rfl⟩ := hg e (by simp)
        simp only [transition] at h1
        obtain ⟨⟨s2, e2, hh⟩, h2, h3⟩ := Res.bind_eq_ok.1 h1
        simp only [Res.pure_eq, Res.ok.injEq, Prod.mk.injEq] at h3
        rw [← h3.1]
        exact C47_base_preserved s s2 hw l w ge e2 hh h2 k
      · cases h
      · cases h
  rw [hk, hk'] at hb
  simp only [Option.map_some, Option.some.injEq] at hb
  rw [← hb]
  unfold baseRadius
  split <;> simp [*, half_double]

/-- Unit 1 selected three times in a row and deselected: radius doubled once, then back. -/
example :
    (match runEvents .debug demoState [demoBorn 1 1 1 "Marine", .game 2 0 none (demoSel 10 [demoTag, demoTag]),
        .game 3 0 none (demoSel 10 [demoTag]), .game 3 1 none (demoSel 10 [demoTag])] with
      | .ok s => (s.units 1).map look
      | _ => none) = some (true, 15099494 / 16777216) ∧
    (match runEvents .debug demoState [demoBorn 1 1 1 "Marine", .game 2 0 none (demoSel 10 [demoTag, demoTag]),
        .game 3 0 none (demoSel 10 [])] with
      | .ok s => (s.units 1).map look
      | _ => none) = some (false, 15099494 / 33554432) := by
  decide +kernel

end S2
