import Verif.Props.Hints
/-!
# Change hints (C72)
-/
namespace S2

/-- The changed units a hint reports (the killed unit of a death is gone and treated separately). -/
def changedUnits : Hint → List SUnit
  | .registered u _ => [u]
  | .positions us => us
  | .targetPoints us => us
  | .targetUnits us _ => us
  | .abilities us _ _ => us
  | .selection us => us
  | .unregistered _ _ => []
  | .none => []

/-- The tags an event newly marks as selected: those it adds to the active selection, or for a recall the
active selection afterwards. -/
def newSelection (s' : SState) (user : Int) : GameEvt → List Int
  | .selectionDelta e => if e.controlGroupId = 10 then e.addUnitTags else []
  | .controlGroupUpdate e => if e.update = .recall then (groupOf s' user 10).getD [] else []
  | _ => []

/-- The case the claim is false for: an init at an occupied index, or an event that re-selects a unit
that was selected. -/
def HintStale (s s' : SState) : SEvent → Prop
  | .tracker _ (.unitInit e) => (s.units e.unitTagIndex).isSome
  | .game _ user _ ge => ∃ t ∈ newSelection s' user ge, tagIndex t ∈ ((groupOf s user 10).getD []).map tagIndex
  | _ => False

/-- Every unit is stored under its own index (`C67_units_keyed_by_index`). -/
def Keyed (us : Units) : Prop := ∀ k u, us k = some u → u.tagIndex = k

theorem keyed_filterMap {us : Units} (hk : Keyed us) {ids : List Int} {u : SUnit} (h : u ∈ ids.filterMap us) :
    us u.tagIndex = some u := by
  obtain ⟨i, _, hi⟩ := List.mem_filterMap.1 h
  rw [hk i u hi]; exact hi

theorem retarget_spec (f : UnitCmd → UnitCmd) (hf : ∀ c, f (f c) = f c) (loop : Int) : ∀ (ids : List Int) (us : Units),
    (∀ k, (retarget f loop ids us).1 k = if k ∈ ids.map tagIndex then
        (us k).map (fun u => { u with cmd := f u.cmd, lastGameLoop := loop }) else us k) ∧
    (∀ u ∈ (retarget f loop ids us).2, ∃ k ∈ ids.map tagIndex, ∃ v, us k = some v ∧
        u = { v with cmd := f v.cmd, lastGameLoop := loop })
  | [], us => by simp [retarget]
  | t :: ids, us => by
    simp only [retarget]
    split
    · rename_i hn
      obtain ⟨h1, h2⟩ := retarget_spec f hf loop ids us
      refine ⟨fun k => ?_, fun u hu => ?_⟩
      · rw [h1 k]
        by_cases hk : k = tagIndex t
        · subst hk; simp [hn]
        · simp [hk]
      · obtain ⟨k, hk, v, hv, e⟩ := h2 u hu
        exact ⟨k, by simp only [List.map_cons, List.mem_cons]; exact .inr hk, v, hv, e⟩
    · rename_i u hu
      obtain ⟨h1, h2⟩ := retarget_spec f hf loop ids (us.set (tagIndex t) { u with cmd := f u.cmd, lastGameLoop := loop })
      refine ⟨fun k => ?_, fun w hw => ?_⟩
      · simp only
        rw [h1 k]
        by_cases hk : k = tagIndex t
        · subst hk
          simp only [Units.set_self, Option.map_some, List.map_cons, List.mem_cons, true_or, if_true, hu, hf]
          split <;> rfl
        · simp only [List.map_cons, List.mem_cons, hk, false_or, Units.set_ne _ _ hk]
      · simp only [List.mem_cons] at hw
        rcases hw with rfl | hw
        · exact ⟨tagIndex t, by simp, u, hu, rfl⟩
        · obtain ⟨k, hk, v, hv, e⟩ := h2 w hw
          by_cases hkt : k = tagIndex t
          · subst hkt
            rw [Units.set_self] at hv
            simp only [Option.some.injEq] at hv
            refine ⟨tagIndex t, by simp, u, hu, ?_⟩
            rw [e, ← hv]
            simp only [hf]
          · rw [Units.set_ne _ _ hkt] at hv
            exact ⟨k, by simp only [List.map_cons, List.mem_cons]; exact .inr hk, v, hv, e⟩

theorem retarget_hint {f : UnitCmd → UnitCmd} (hf : ∀ c, f (f c) = f c) {loop : Int} {ids : List Int} {us : Units}
    (hk : Keyed us) {u : SUnit} (hu : u ∈ (retarget f loop ids us).2) : (retarget f loop ids us).1 u.tagIndex = some u := by
  obtain ⟨h1, h2⟩ := retarget_spec f hf loop ids us
  obtain ⟨k, hki, v, hv, rfl⟩ := h2 u hu
  have e1 : (retarget f loop ids us).1 v.tagIndex = (us v.tagIndex).map (fun u => { u with cmd := f u.cmd, lastGameLoop := loop }) := by
    rw [h1, hk k v hv, if_pos hki]
  refine e1.trans ?_
  have : us v.tagIndex = some v := by rw [hk k v hv, hv]
  rw [this]; rfl

/-- The unit after receiving the command `c` with ability `a`. -/
def commanded (bal : BalUnits) (loop : Int) (target : Option SUnit) (c : CmdEvent) (a : CmdAbil) (u : SUnit) : SUnit :=
  { u with
    cmd := { ({ c with abil := some { a with ability := abilityName bal u.name a.abilLink a.abilCmdIndex } } : CmdEvent).toUnitCmd with
      otherUnitName := target.map SUnit.name }, lastGameLoop := loop }

theorem cmdLoop_spec (bal : BalUnits) (loop : Int) (target : Option SUnit) (c : CmdEvent) (a : CmdAbil) :
    ∀ (ids : List Int) (us : Units) (x : Str),
    (∀ k, (cmdLoop bal loop target ids us { c with abil := some { a with ability := x } }).1 k = if k ∈ ids.map tagIndex then
        (us k).map (commanded bal loop target c a) else us k) ∧
    (∀ u ∈ (cmdLoop bal loop target ids us { c with abil := some { a with ability := x } }).2.2,
      ∃ k ∈ ids.map tagIndex, ∃ v, us k = some v ∧ u = commanded bal loop target c a v)
  | [], us, x => by simp [cmdLoop]
  | t :: ids, us, x => by
    simp only [cmdLoop]
    split
    · rename_i hn
      obtain ⟨h1, h2⟩ := cmdLoop_spec bal loop target c a ids us x
      refine ⟨fun k => ?_, fun u hu => ?_⟩
      · rw [h1 k]
        by_cases hk : k = tagIndex t
        · subst hk; simp [hn]
        · simp [hk]
      · obtain ⟨k, hk, v, hv, e⟩ := h2 u hu
        exact ⟨k, by simp only [List.map_cons, List.mem_cons]; exact .inr hk, v, hv, e⟩
    · rename_i u hu
      obtain ⟨h1, h2⟩ := cmdLoop_spec bal loop target c a ids
        (us.set (tagIndex t) (commanded bal loop target c a u)) (abilityName bal u.name a.abilLink a.abilCmdIndex)
      refine ⟨fun k => ?_, fun w hw => ?_⟩
      · refine (h1 k).trans ?_
        by_cases hk : k = tagIndex t
        · subst hk
          simp only [Units.set_self, Option.map_some, List.map_cons, List.mem_cons, true_or, if_true, hu]
          split <;> rfl
        · simp only [List.map_cons, List.mem_cons, hk, false_or, Units.set_ne _ _ hk]
      · simp only [List.mem_cons] at hw
        rcases hw with rfl | hw
        · exact ⟨tagIndex t, by simp, u, hu, rfl⟩
        · obtain ⟨k, hk, v, hv, e⟩ := h2 w hw
          by_cases hkt : k = tagIndex t
          · subst hkt
            rw [Units.set_self] at hv
            simp only [Option.some.injEq] at hv
            refine ⟨tagIndex t, by simp, u, hu, ?_⟩
            rw [e, ← hv]
            rfl
          · rw [Units.set_ne _ _ hkt] at hv
            exact ⟨k, by simp only [List.map_cons, List.mem_cons]; exact .inr hk, v, hv, e⟩

theorem cmdLoop_none (bal : BalUnits) (loop : Int) (target : Option SUnit) (c : CmdEvent) (hc : c.abil = none) :
    ∀ (ids : List Int) (us : Units), (cmdLoop bal loop target ids us c).2.2 = []
  | [], us => rfl
  | t :: ids, us => by
    simp only [cmdLoop, hc]
    split <;> exact cmdLoop_none bal loop target c hc ids us

theorem cmdLoop_hint {bal : BalUnits} {loop : Int} {target : Option SUnit} {c : CmdEvent} {ids : List Int} {us : Units}
    (hk : Keyed us) {u : SUnit} (hu : u ∈ (cmdLoop bal loop target ids us c).2.2) :
    (cmdLoop bal loop target ids us c).1 u.tagIndex = some u := by
  cases hc : c.abil with
  | none => rw [cmdLoop_none _ _ _ _ hc] at hu; cases hu
  | some a =>
    have hcc : c = { c with abil := some { a with ability := a.ability } } := by rw [← hc]
    obtain ⟨h1, h2⟩ := cmdLoop_spec bal loop target c a ids us a.ability
    rw [← hcc] at h1 h2
    obtain ⟨k, hki, v, hv, rfl⟩ := h2 u hu
    have : (commanded bal loop target c a v).tagIndex = v.tagIndex := rfl
    rw [this, hk k v hv, h1 k, if_pos hki, hv]
    rfl

theorem unmark_ids (loop : Int) : ∀ (ids : List Int) (us : Units), ∀ i ∈ (unmarkLoop loop ids us).2, i ∈ ids.map tagIndex
  | [], us => by simp [unmarkLoop]
  | t :: ids, us => by
    simp only [unmarkLoop]
    split
    · intro i hi; simp only [List.map_cons, List.mem_cons]; exact .inr (unmark_ids loop ids _ i hi)
    · split
      · intro i hi
        simp only [List.mem_cons] at hi
        simp only [List.map_cons, List.mem_cons]
        rcases hi with rfl | hi
        · exact .inl rfl
        · exact .inr (unmark_ids loop ids _ i hi)
      · intro i hi; simp only [List.map_cons, List.mem_cons]; exact .inr (unmark_ids loop ids _ i hi)

theorem mem_dedupFrom_sub {α : Type} {eq : α → α → Bool} {x : α} : ∀ {l : List α} {last : α},
    x ∈ dedupFrom eq last l → x ∈ l
  | [], _, h => by simp [dedupFrom] at h
  | b :: bs, last, h => by
    unfold dedupFrom at h
    split at h
    · exact List.mem_cons_of_mem _ (mem_dedupFrom_sub h)
    · rcases List.mem_cons.1 h with rfl | h
      · simp
      · exact List.mem_cons_of_mem _ (mem_dedupFrom_sub h)

theorem mem_dedupBy_sub {α : Type} {eq : α → α → Bool} {x : α} {l : List α} (h : x ∈ dedupBy eq l) : x ∈ l := by
  cases l with
  | nil => simp [dedupBy] at h
  | cons a as =>
    rcases List.mem_cons.1 h with rfl | h
    · simp
    · exact List.mem_cons_of_mem _ (mem_dedupFrom_sub h)

/-- Snapshots taken after unmarking the old selection and after marking the new one are the final units, if
the two do not overlap. -/
theorem marks_hint {loop : Int} {old new : List Int} {us : Units}
    (hk : Keyed (markLoop loop new (unmarkLoop loop old us).1).1)
    (hk1 : Keyed (unmarkLoop loop old us).1)
    (hd : ∀ t ∈ new, tagIndex t ∉ old.map tagIndex) {u : SUnit}
    (hu : u ∈ (unmarkLoop loop old us).2.filterMap (unmarkLoop loop old us).1 ++
      (markLoop loop new (unmarkLoop loop old us).1).2.filterMap (markLoop loop new (unmarkLoop loop old us).1).1) :
    (markLoop loop new (unmarkLoop loop old us).1).1 u.tagIndex = some u := by
  rcases List.mem_append.1 hu with hu | hu
  · obtain ⟨i, hi, hiu⟩ := List.mem_filterMap.1 hu
    have hold := unmark_ids loop old us i hi
    rw [hk1 i u hiu, markLoop_frame loop i new _ ?_]
    · exact hiu
    · intro hn
      obtain ⟨t, ht, rfl⟩ := List.mem_map.1 hn
      exact hd t ht hold
  · exact keyed_filterMap hk hu

theorem handleGame_tag {s s' : SState} {loop user : Int} {e e' : GameEvt} {hint : Hint} (hk : Keyed s.units)
    (h : handleGame s loop user e = .ok (s', e', hint)) : Keyed s'.units := by
  intro k u hu
  have := handleGame_core h k
  rw [hu] at this
  cases hs : s.units k with
  | none => rw [hs] at this; cases this
  | some v =>
    rw [hs] at this
    simp only [Option.map_some, Option.some.injEq] at this
    have e1 := congrArg SUnit.tagIndex this
    exact e1.trans (hk k v hs)

theorem keyed_of_core {a b : Units} (h : ∀ k, (b k).map SUnit.core = (a k).map SUnit.core) (hk : Keyed a) : Keyed b := by
  intro k u hu
  have := h k
  rw [hu] at this
  cases hs : a k with
  | none => rw [hs] at this; cases this
  | some v =>
    rw [hs] at this
    simp only [Option.map_some, Option.some.injEq] at this
    exact (congrArg SUnit.tagIndex this).trans (hk k v hs)

theorem game_hint {s s' : SState} {loop user : Int} {e e' : GameEvt} {hint : Hint} (hk : Keyed s.units) (hw : s.Wf)
    (h : handleGame s loop user e = .ok (s', e', hint))
    (hd : ∀ t ∈ newSelection s' user e, tagIndex t ∉ ((groupOf s user 10).getD []).map tagIndex)
    (u : SUnit) (hu : u ∈ changedUnits hint) : s'.units u.tagIndex = some u := by
  have hk' := handleGame_tag hk h
  have hku : ∀ ids, Keyed (unmarkLoop loop ids s.units).1 := fun ids => keyed_of_core (fun k => unmarkLoop_core loop k ids _) hk
  cases e with
  | cameraSave w x y =>
    simp only [handleGame, Res.ok.injEq, Prod.mk.injEq] at h
    rw [← h.2.2] at hu; cases hu
  | cameraUpdate t r =>
    simp only [handleGame, Res.ok.injEq, Prod.mk.injEq] at h
    rw [← h.2.2] at hu; cases hu
  | other o =>
    simp only [handleGame, Res.ok.injEq, Prod.mk.injEq] at h
    rw [← h.2.2] at hu; cases hu
  | cmd c =>
    simp only [handleGame, handleCmd] at h
    obtain ⟨ids, _, h2⟩ := Res.bind_eq_ok.1 h
    simp only [Res.pure_eq, Res.ok.injEq, Prod.mk.injEq] at h2
    rw [← h2.2.2] at hu
    rw [← h2.1]
    exact cmdLoop_hint hk hu
  | cmdUpdateTargetPoint t =>
    simp only [handleGame, handleTargetPoint] at h
    obtain ⟨ids, _, h2⟩ := Res.bind_eq_ok.1 h
    simp only [Res.pure_eq, Res.ok.injEq, Prod.mk.injEq] at h2
    rw [← h2.2.2] at hu
    rw [← h2.1]
    simp only [changedUnits] at hu
    refine retarget_hint ?_ hk hu
    intro c; rfl
  | cmdUpdateTargetUnit t =>
    simp only [handleGame, handleTargetUnit] at h
    split at h
    · simp only [Res.ok.injEq, Prod.mk.injEq] at h; rw [← h.2.2] at hu; cases hu
    · obtain ⟨ids, _, h2⟩ := Res.bind_eq_ok.1 h
      simp only [Res.pure_eq, Res.ok.injEq, Prod.mk.injEq] at h2
      rw [← h2.2.2] at hu
      rw [← h2.1]
      simp only [changedUnits] at hu
      refine retarget_hint ?_ hk hu
      intro c; rfl
  | selectionDelta e =>
    by_cases h10 : e.controlGroupId = 10
    · simp only [newSelection, if_pos h10] at hd
      have hs := select_units hw h10 h
      rw [hs] at hk' ⊢
      simp only [handleGame, handleSelectionDelta] at h
      obtain ⟨⟨s1, upd⟩, h1, h2⟩ := Res.bind_eq_ok.1 h
      obtain ⟨users, _, h3⟩ := Res.bind_eq_ok.1 h2
      simp only [Res.pure_eq, Res.ok.injEq, Prod.mk.injEq] at h3
      rw [← h3.2.2] at hu
      simp only [changedUnits] at hu
      have hu := mem_sortBy.1 (mem_dedupBy_sub hu)
      unfold selectionMarks at h1
      rw [if_pos (show e.controlGroupId = activeGroup from h10)] at h1
      simp only [unmarkSelected, selectedIds_eq hw, Res.bind_ok, Res.pure_eq, markSelected, Res.ok.injEq, Prod.mk.injEq] at h1
      rw [← h1.2] at hu
      exact marks_hint hk' (hku _) hd hu
    · simp only [handleGame, handleSelectionDelta, selectionMarks,
        if_neg (show ¬ e.controlGroupId = activeGroup from h10), Res.bind_ok] at h
      obtain ⟨users, _, h3⟩ := Res.bind_eq_ok.1 h
      simp only [Res.pure_eq, Res.ok.injEq, Prod.mk.injEq] at h3
      rw [← h3.2.2] at hu
      simp [changedUnits, sortBy, dedupBy] at hu
  | controlGroupUpdate e =>
    have hs := group_units hw h
    simp only [handleGame, updateControlGroup, unmarkSelected, selectedIds_eq hw, Res.bind_ok, Res.pure_eq] at h
    obtain ⟨users, hus, h3⟩ := Res.bind_eq_ok.1 h
    obtain ⟨⟨s2, mk⟩, h4, h5⟩ := Res.bind_eq_ok.1 h3
    simp only [Res.pure_eq, Res.ok.injEq, Prod.mk.injEq] at h5
    rw [← h5.2.2] at hu
    simp only [changedUnits] at hu
    have hw1 : SState.Wf ⟨(unmarkLoop loop ((groupOf s user 10).getD []) s.units).1, users, s.balance⟩ := by
      rcases updGroups_ok hus with ⟨_, h6⟩ | ⟨u, g, h6, h7, h8⟩
      · exact ⟨by rw [h6]; exact hw.1, by rw [h6]; exact hw.2⟩
      · exact Wf_setUser hw (v := { u with groups := g }) h6 (groupsAfter_len h7) h8
    unfold recallMarks at h4
    by_cases hr : e.update = .recall
    · simp only [newSelection, if_pos hr] at hd
      rw [if_pos hr] at hs h4
      rw [hs] at hk' ⊢
      rw [selectedIds_eq hw1] at h4
      simp only [Res.bind_ok, Res.pure_eq, markSelected, Res.ok.injEq, Prod.mk.injEq] at h4
      have hg : groupOf ⟨(unmarkLoop loop ((groupOf s user 10).getD []) s.units).1, users, s.balance⟩ user 10 = groupOf s' user 10 := by
        rw [← h5.1, ← h4.1]; rfl
      rw [hg] at h4
      rw [← h4.2] at hu
      exact marks_hint hk' (hku _) hd hu
    · rw [if_neg hr] at hs h4
      rw [hs] at hk' ⊢
      simp only [Res.ok.injEq, Prod.mk.injEq] at h4
      rw [← h4.2, List.append_nil] at hu
      exact keyed_filterMap hk' hu

/-- After any history from a new replay state: every changed unit reported with the next event is the
unit the state then holds — except for an init at an occupied index and for re-selecting a selected unit.
(The full claim, without `¬ HintStale`, is refuted below.) -/
theorem C72_hints_partial (bld : Build) (players : List (Int × Str)) (bal : BalUnits) (es : List SEvent) (s s' : SState)
    (hd : (players.map Prod.fst).Nodup) (hr : runEvents bld (SState.initial players bal) es = .ok s)
    (e : SEvent) (it : Item) (h : transition bld s e = .ok (s', it)) (hst : ¬ HintStale s s' e)
    (u : SUnit) (hu : u ∈ changedUnits it.hint) : s'.units u.tagIndex = some u := by
  have hk : Keyed s.units := fun k u hu => C67_units_keyed_by_index bld players bal es s hr k u hu
  have hw : s.Wf := C44_reachable_wf bld players bal es s hd hr
  cases e with
  | game l user nm ge =>
    simp only [transition] at h
    obtain ⟨⟨s2, e2, hh2⟩, hh, hk2⟩ := Res.bind_eq_ok.1 h
    simp only [Res.pure_eq, Res.ok.injEq, Prod.mk.injEq] at hk2
    rw [← hk2.2] at hu
    rw [← hk2.1] at hst ⊢
    exact game_hint hk hw hh (fun t ht hm => hst ⟨t, ht, hm⟩) u hu
  | tracker l te =>
    have hk' : Keyed s'.units := by
      intro k u hu
      rcases transition_evolves h k u hu with ⟨u0, h0, e1, _⟩ | ⟨_, e1, _⟩
      · exact e1.trans (hk k u0 h0)
      · exact e1
    simp only [transition] at h
    obtain ⟨⟨s2, e2, hh2⟩, hh, hk2⟩ := Res.bind_eq_ok.1 h
    simp only [Res.pure_eq, Res.ok.injEq, Prod.mk.injEq] at hk2
    rw [← hk2.2] at hu
    rw [← hk2.1] at hst hk' ⊢
    simp only at hu
    clear hk2 h
    cases te with
    | playerStats p st =>
      simp only [handleTracker, Res.ok.injEq, Prod.mk.injEq] at hh
      rw [← hh.2.2] at hu; cases hu
    | unitOwnerChange e =>
      simp only [handleTracker, Res.ok.injEq, Prod.mk.injEq] at hh
      rw [← hh.2.2] at hu; cases hu
    | upgrade e =>
      simp only [handleTracker, Res.ok.injEq, Prod.mk.injEq] at hh
      rw [← hh.2.2] at hu; cases hu
    | playerSetup e =>
      simp only [handleTracker, Res.ok.injEq] at hh
      have : (handlePlayerSetup s e).2.2 = .none := by
        unfold handlePlayerSetup; split
        · rfl
        · split <;> rfl
      rw [hh] at this
      simp only at this
      rw [this] at hu; cases hu
    | unitPosition e =>
      simp only [handleTracker, handleUnitPosition] at hh
      obtain ⟨ps, hps, h2⟩ := Res.bind_eq_ok.1 hh
      simp only [Res.pure_eq, Res.ok.injEq, Prod.mk.injEq] at h2
      rw [← h2.2.2] at hu
      rw [← h2.1] at hk' ⊢
      exact keyed_filterMap hk' hu
    | unitDone e =>
      simp only [handleTracker, Res.ok.injEq, handleUnitDone] at hh
      split at hh <;> simp only [Prod.mk.injEq] at hh <;> rw [← hh.2.2] at hu
      · simp only [changedUnits, List.mem_singleton] at hu
        rw [← hh.1] at hk' ⊢
        have hself := Units.set_self s.units e.unitTagIndex u
        rw [← hu] at hk' ⊢
        rw [hk' _ _ hself]; exact hself
      · cases hu
    | unitTypeChange e =>
      simp only [handleTracker, Res.ok.injEq, handleUnitTypeChange] at hh
      split at hh <;> simp only [Prod.mk.injEq] at hh <;> rw [← hh.2.2] at hu
      · simp only [changedUnits, List.mem_singleton] at hu
        rw [← hh.1] at hk' ⊢
        have hself := Units.set_self s.units e.unitTagIndex u
        rw [← hu] at hk' ⊢
        rw [hk' _ _ hself]; exact hself
      · cases hu
    | unitInit e =>
      have hn : s.units e.unitTagIndex = none := by
        simp only [HintStale, Bool.not_eq_true, Option.isSome_eq_false_iff, Option.isNone_iff_eq_none] at hst
        exact hst
      simp only [handleTracker, Res.ok.injEq, handleUnitInit, hn, Prod.mk.injEq] at hh
      rw [← hh.2.2] at hu
      simp only [changedUnits, List.mem_singleton] at hu
      rw [← hh.1] at hk' ⊢
      have hself := Units.set_self s.units e.unitTagIndex u
      rw [← hu] at hk' ⊢
      rw [hk' _ _ hself]; exact hself
    | unitBorn e =>
      simp only [handleTracker, Res.ok.injEq, handleUnitBorn] at hh
      split at hh <;> simp only [Prod.mk.injEq] at hh <;> rw [← hh.2.2] at hu <;>
        simp only [changedUnits, List.mem_singleton] at hu <;> rw [← hh.1] at hk' ⊢
      · have hself := Units.set_self (touchCreator s l e.creatorUnitTagIndex).1 e.unitTagIndex u
        rw [← hu] at hk' ⊢
        rw [hk' _ _ hself]; exact hself
      · have hself := Units.set_self (touchCreator s l e.creatorUnitTagIndex).1 e.unitTagIndex u
        rw [← hu] at hk' ⊢
        rw [hk' _ _ hself]; exact hself
    | unitDied e =>
      simp only [handleTracker, handleUnitDied] at hh
      obtain ⟨users, _, h2⟩ := Res.bind_eq_ok.1 hh
      split at h2 <;> simp only [Res.pure_eq, Res.ok.injEq, Prod.mk.injEq] at h2 <;> rw [← h2.2.2] at hu <;> cases hu

/-- The hint of a death: the killed unit as it was before, and the killer as it is. -/
theorem C72_death_hint (bld : Build) (s s' : SState) (loop : Int) (e : UnitDiedEvent) (e' : TrackerEvt) (hint : Hint)
    (h : handleTracker bld s loop (.unitDied e) = .ok (s', e', hint)) :
    match s.units e.unitTagIndex with
    | none => hint = .none
    | some killed => hint = .unregistered (e.killerUnitTagIndex.bind s'.units) killed := by
  simp only [handleTracker, handleUnitDied] at h
  obtain ⟨users, _, h2⟩ := Res.bind_eq_ok.1 h
  split at h2 <;> rename_i hs <;> simp only [Res.pure_eq, Res.ok.injEq, Prod.mk.injEq] at h2 <;> rw [hs] <;> simp only
  · exact h2.2.2.symm
  · rw [← h2.2.2, ← h2.1]
    cases e.killerUnitTagIndex <;> rfl

/-- Whether all changed units of a hint are as in the state, for the events after a history. -/
def hintsAgree (es : List SEvent) (e : SEvent) : Option Bool :=
  match runEvents .debug demoState es with
  | .ok s => match transition .debug s e with
    | .ok (s', it) => some ((changedUnits it.hint).all (fun u => decide (s'.units u.tagIndex = some u)))
    | _ => none
  | _ => none

/-- Selecting a selected unit again reports it as unselected; recalling the selected group reports it both
ways; an init at an occupied index reports a unit that is not in the state. -/
theorem C72_hints_refuted :
    hintsAgree [demoBorn 1 1 1 "Marine", .game 2 0 none (demoSel 10 [demoTag])] (.game 3 0 none (demoSel 10 [demoTag])) = some false ∧
    hintsAgree [demoBorn 1 1 1 "Marine", .game 2 0 none (demoSel 0 [demoTag]), .game 2 0 none (demoSel 10 [demoTag])]
      (.game 3 0 none (demoGrp 0 .recall)) = some false ∧
    hintsAgree [demoBorn 1 1 1 "Marine"] (.tracker 3 (.unitInit ⟨1, 1, str "Pylon", 2, 2, 3, 4⟩)) = some false := by
  decide +kernel

/-- A case with two units that meets the hypotheses of the partial theorem. -/
example : hintsAgree [demoBorn 1 1 1 "Marine", demoBorn 1 2 1 "Marine", .game 2 0 none (demoSel 10 [demoTag])]
    (.game 3 0 none (demoSel 10 [2 ^ 19 + 1])) = some true := by decide +kernel

end S2
