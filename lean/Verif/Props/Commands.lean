import Verif.Props.Looks
import Verif.Spec.CommandSpec
import Verif.Misc.F32Lemmas
import Verif.Props.Tags
import Verif.Props.GameFields
/-!
# Commands and positions of units (C119, C120, C121)
-/
namespace S2

/-! ## C119 -/

theorem cmdLoop_cmd (bal : BalUnits) (loop : Int) (target : Option SUnit) (k : Int) :
    ∀ (ids : List Int) (us : Units) (cmd : CmdEvent),
      (cmdLoop bal loop target ids us cmd).1 k =
        if k ∈ ids.map tagIndex then
          (us k).map (fun u => match cmd.abil with
            | none => u
            | some a => { u with cmd := commandFor bal u.name (target.map SUnit.name) cmd a, lastGameLoop := loop })
        else us k
  | [], us, cmd => rfl
  | t :: ids, us, cmd => by
    simp only [cmdLoop]
    cases hu : us (tagIndex t) with
    | none =>
      simp only
      rw [cmdLoop_cmd bal loop target k ids us cmd]
      by_cases hk : k = tagIndex t
      · subst hk; simp [hu]
      · simp [hk]
    | some u =>
      cases ha : cmd.abil with
      | none =>
        simp only [ha]
        rw [cmdLoop_cmd bal loop target k ids us cmd, ha]
        by_cases hk : k = tagIndex t
        · subst hk; simp [hu]
        · simp [hk]
      | some a =>
        simp only
        rw [cmdLoop_cmd bal loop target k ids]
        by_cases hk : k = tagIndex t
        · subst hk
          simp only [Units.set_self, Option.map_some, List.map_cons, List.mem_cons, true_or, if_true, hu]
          split
          · rfl
          · simp only [commandFor, CmdEvent.toUnitCmd, Option.map_some]
            rfl
        · rw [Units.set_ne _ _ hk]
          simp only [List.map_cons, List.mem_cons, hk, false_or]
          split
          · rfl
          · rfl

theorem retarget_cmd (f : UnitCmd → UnitCmd) (hf : ∀ c, f (f c) = f c) (loop k : Int) :
    ∀ (ids : List Int) (us : Units),
      (retarget f loop ids us).1 k =
        if k ∈ ids.map tagIndex then (us k).map (fun u => { u with cmd := f u.cmd, lastGameLoop := loop }) else us k
  | [], us => rfl
  | t :: ids, us => by
    simp only [retarget]
    cases hu : us (tagIndex t) with
    | none =>
      simp only
      rw [retarget_cmd f hf loop k ids us]
      by_cases hk : k = tagIndex t
      · subst hk; simp [hu]
      · simp [hk]
    | some u =>
      simp only
      rw [retarget_cmd f hf loop k ids]
      by_cases hk : k = tagIndex t
      · subst hk; simp [hu, hf]
      · rw [Units.set_ne _ _ hk]; simp [hk]

theorem marks_cmd (loop k : Int) (a b : List Int) (us : Units) :
    ((markLoop loop a (unmarkLoop loop b us).1).1 k).map SUnit.cmd = (us k).map SUnit.cmd := by
  rw [markLoop_spec]
  have h1 : ∀ x : Option SUnit, (x.map (marked loop)).map SUnit.cmd = x.map SUnit.cmd := by
    intro x; cases x with
    | none => rfl
    | some u => rfl
  have h2 : ((unmarkLoop loop b us).1 k).map SUnit.cmd = (us k).map SUnit.cmd := by
    rw [unmarkLoop_spec]
    split
    · cases us k with
      | none => rfl
      | some u => rfl
    · rfl
  split
  · rw [h1, h2]
  · rw [h2]

theorem unmark_cmd (loop k : Int) (b : List Int) (us : Units) :
    ((unmarkLoop loop b us).1 k).map SUnit.cmd = (us k).map SUnit.cmd :=
  marks_cmd loop k [] b us

theorem some_of_map {a b : Option SUnit} {u : SUnit} (h : a.map SUnit.cmd = b.map SUnit.cmd) (hb : b = some u) :
    ∃ u', a = some u' ∧ u'.cmd = u.cmd := by
  subst hb
  cases a with
  | none => cases h
  | some u' => exact ⟨u', rfl, by simpa using h⟩

/-- Every game event by a user gives every living unit of that user's selection the command the event
describes, under the name the ability has for that unit's own type, stamps it with the event's time when it
does, and leaves the command of every other unit alone. -/
theorem C119_commands_recorded (s s' : SState) (hw : s.Wf) (loop user : Int) (e e' : GameEvt) (hint : Hint)
    (h : handleGame s loop user e = .ok (s', e', hint)) (k : Int) (u : SUnit) (hk : s.units k = some u) :
    ∃ u', s'.units k = some u' ∧
      u'.cmd = (if k ∈ selectionOf s user then orderedBy s.balance s.units u.name u.cmd e else u.cmd) ∧
      (Commands s k (.game loop user none e) → u'.lastGameLoop = loop) := by
  have keep : s'.units = s.units → orderedBy s.balance s.units u.name u.cmd e = u.cmd →
      ¬ Commands s k (.game loop user none e) → ∃ u', s'.units k = some u' ∧
      u'.cmd = (if k ∈ selectionOf s user then orderedBy s.balance s.units u.name u.cmd e else u.cmd) ∧
      (Commands s k (.game loop user none e) → u'.lastGameLoop = loop) := by
    intro h1 h2 h3
    refine ⟨u, by rw [h1]; exact hk, ?_, fun h => absurd h h3⟩
    rw [h2]; split <;> rfl
  have keep' : (s'.units k).map SUnit.cmd = (s.units k).map SUnit.cmd → orderedBy s.balance s.units u.name u.cmd e = u.cmd →
      ¬ Commands s k (.game loop user none e) → ∃ u', s'.units k = some u' ∧
      u'.cmd = (if k ∈ selectionOf s user then orderedBy s.balance s.units u.name u.cmd e else u.cmd) ∧
      (Commands s k (.game loop user none e) → u'.lastGameLoop = loop) := by
    intro h1 h2 h3
    obtain ⟨u', e1, e2⟩ := some_of_map h1 hk
    refine ⟨u', e1, ?_, fun h => absurd h h3⟩
    rw [h2, e2]; split <;> rfl
  have hcam : ∀ x y, (setCamera s user x y).units = s.units := by
    intro x y; unfold setCamera; split <;> rfl
  cases e with
  | cameraSave w x y =>
    simp only [handleGame, Res.ok.injEq, Prod.mk.injEq] at h
    exact keep (by rw [← h.1, hcam]) rfl (fun h => h)
  | cameraUpdate t r =>
    simp only [handleGame, Res.ok.injEq, Prod.mk.injEq] at h
    refine keep ?_ rfl (fun h => h)
    rw [← h.1]
    split
    · rw [hcam]
    · rfl
  | cmd e =>
    simp only [handleGame, handleCmd, selectedIds_eq hw, Res.bind_ok, Res.pure_eq, Res.ok.injEq, Prod.mk.injEq] at h
    rw [← h.1]
    simp only
    rw [cmdLoop_cmd, hk]
    by_cases hm : k ∈ selectionOf s user
    · have hm' : k ∈ ((groupOf s user 10).getD []).map tagIndex := hm
      rw [if_pos hm']
      simp only [if_pos hm, Option.map_some]
      refine ⟨_, rfl, ?_, ?_⟩
      · simp only [orderedBy]
        cases ha : e.abil with
        | none => rfl
        | some a =>
          simp only
          congr 1
          cases e.data <;> rfl
      · intro hc
        cases ha : e.abil with
        | none => simp [Commands, ha] at hc
        | some a => rfl
    · have hm' : k ∉ ((groupOf s user 10).getD []).map tagIndex := hm
      rw [if_neg hm']
      exact ⟨u, rfl, by rw [if_neg hm], fun hc => absurd hc.2 hm⟩
  | cmdUpdateTargetPoint t =>
    simp only [handleGame, handleTargetPoint, selectedIds_eq hw, Res.bind_ok, Res.pure_eq, Res.ok.injEq, Prod.mk.injEq] at h
    rw [← h.1]
    simp only
    rw [retarget_cmd (hf := ?hf), hk]
    case hf => intro c; rfl
    by_cases hm : k ∈ selectionOf s user
    · have hm' : k ∈ ((groupOf s user 10).getD []).map tagIndex := hm
      rw [if_pos hm']
      exact ⟨_, rfl, by rw [if_pos hm]; rfl, fun _ => rfl⟩
    · have hm' : k ∉ ((groupOf s user 10).getD []).map tagIndex := hm
      rw [if_neg hm']
      exact ⟨u, rfl, by rw [if_neg hm], fun hc => absurd hc hm⟩
  | cmdUpdateTargetUnit t =>
    simp only [handleGame, handleTargetUnit] at h
    split at h
    · rename_i hreg
      simp only [Res.ok.injEq, Prod.mk.injEq] at h
      have hno : ¬ ((s.units t.tag).isSome ∨ (s.units (tagIndex t.tag)).isSome) := by
        cases h1 : s.units t.tag with
        | some x => simp [h1] at hreg
        | none => simp only [h1] at hreg; simp [hreg]
      refine keep (by rw [← h.1]) ?_ (fun hc => hno hc.2)
      simp only [orderedBy, if_neg hno]
    · rename_i reg hreg
      simp only [selectedIds_eq hw, Res.bind_ok, Res.pure_eq, Res.ok.injEq, Prod.mk.injEq] at h
      have hyes : (s.units t.tag).isSome ∨ (s.units (tagIndex t.tag)).isSome := by
        cases h1 : s.units t.tag with
        | some x => simp
        | none => simp only [h1] at hreg; simp [hreg]
      rw [← h.1]
      simp only
      rw [retarget_cmd (hf := ?hf), hk]
      case hf => intro c; rfl
      by_cases hm : k ∈ selectionOf s user
      · have hm' : k ∈ ((groupOf s user 10).getD []).map tagIndex := hm
        rw [if_pos hm']
        exact ⟨_, rfl, by rw [if_pos hm]; simp only [orderedBy, if_pos hyes], fun _ => rfl⟩
      · have hm' : k ∉ ((groupOf s user 10).getD []).map tagIndex := hm
        rw [if_neg hm']
        exact ⟨u, rfl, by rw [if_neg hm], fun hc => absurd hc.1 hm⟩
  | selectionDelta e =>
    refine keep' ?_ rfl (fun h => h)
    by_cases h10 : e.controlGroupId = 10
    · rw [select_units hw h10 h, marks_cmd]
    · rw [select_other_units h10 h]
  | controlGroupUpdate e =>
    refine keep' ?_ rfl (fun h => h)
    rw [group_units hw h]
    split
    · rw [marks_cmd]
    · rw [unmark_cmd]
  | other o =>
    simp only [handleGame, Res.ok.injEq, Prod.mk.injEq] at h
    exact keep (by rw [← h.1]) rfl (fun h => h)

theorem positionsUpdate_cmd (loop k : Int) : ∀ (ps : List (Int × Int × Int)) (us : Units),
    ((positionsUpdate loop ps us).1 k).map SUnit.cmd = (us k).map SUnit.cmd
  | [], us => rfl
  | (t, x, y) :: ps, us => by
    simp only [positionsUpdate]
    split
    · rename_i u hu
      simp only
      rw [positionsUpdate_cmd loop k ps]
      by_cases h : k = t
      · subst h; simp [hu]
      · rw [Units.set_ne _ _ h]
    · exact positionsUpdate_cmd loop k ps us

theorem touchCreator_cmd (s : SState) (loop : Int) (c : Option Int) (k : Int) :
    ((touchCreator s loop c).1 k).map SUnit.cmd = (s.units k).map SUnit.cmd := by
  unfold touchCreator
  split
  · rfl
  · split
    · rfl
    · rename_i c _ u hu
      by_cases h : k = c
      · subst h; simp [hu]
      · simp only [Units.set_ne _ _ h]

/-- Tracker events leave the command of every unit that stays in the game alone, and a new unit has none. -/
theorem tracker_cmd {bld : Build} {s s' : SState} {l : Int} {te te' : TrackerEvt} {hint : Hint}
    (h : handleTracker bld s l te = .ok (s', te', hint)) (k : Int) :
    (s'.units k).map SUnit.cmd =
      if lifeCycle (.tracker l te) = some (k, false) then none
      else if lifeCycle (.tracker l te) = some (k, true) then some (((s.units k).map SUnit.cmd).getD UnitCmd.default)
      else (s.units k).map SUnit.cmd := by
  cases te with
  | playerStats p st => simp only [handleTracker, Res.ok.injEq, Prod.mk.injEq] at h; rw [← h.1]; rfl
  | unitOwnerChange e => simp only [handleTracker, Res.ok.injEq, Prod.mk.injEq] at h; rw [← h.1]; rfl
  | upgrade e => simp only [handleTracker, Res.ok.injEq, Prod.mk.injEq] at h; rw [← h.1]; rfl
  | playerSetup e =>
    simp only [handleTracker, Res.ok.injEq] at h
    have : (handlePlayerSetup s e).1.units = s.units := by
      unfold handlePlayerSetup; split
      · rfl
      · split <;> rfl
    rw [h] at this
    simp only at this
    rw [this]; rfl
  | unitPosition e =>
    simp only [handleTracker, handleUnitPosition] at h
    obtain ⟨ps, _, h2⟩ := Res.bind_eq_ok.1 h
    simp only [Res.pure_eq, Res.ok.injEq, Prod.mk.injEq] at h2
    rw [← h2.1]
    simp only
    rw [positionsUpdate_cmd]; rfl
  | unitDone e =>
    simp only [handleTracker, Res.ok.injEq, handleUnitDone] at h
    split at h
    · rename_i u hu
      simp only [Prod.mk.injEq] at h
      rw [← h.1]
      by_cases hke : k = e.unitTagIndex
      · subst hke; simp only [Units.set_self, hu]; rfl
      · simp only [Units.set_ne _ _ hke]; rfl
    · simp only [Prod.mk.injEq] at h
      rw [← h.1]; rfl
  | unitInit e =>
    simp only [handleTracker, Res.ok.injEq, handleUnitInit, Prod.mk.injEq] at h
    rw [← h.1]
    by_cases hke : k = e.unitTagIndex
    · subst hke
      simp only [lifeCycle, Option.some.injEq, Prod.mk.injEq, true_and, Bool.true_eq_false, if_false, if_true]
      cases hu : s.units e.unitTagIndex with
      | none => simp only [Units.set_self]; rfl
      | some u => simp only [Units.set_self]; rfl
    · simp only [lifeCycle, Option.some.injEq, Prod.mk.injEq, Bool.true_eq_false, and_false, if_false, and_true]
      rw [if_neg (fun x => hke x.symm)]
      split <;> rw [Units.set_ne _ _ hke]
  | unitTypeChange e =>
    simp only [handleTracker, Res.ok.injEq, handleUnitTypeChange] at h
    simp only [lifeCycle, Option.some.injEq, Prod.mk.injEq, Bool.true_eq_false, and_false, if_false, and_true]
    split at h <;> rename_i hu <;> simp only [Prod.mk.injEq] at h <;> rw [← h.1] <;> by_cases hke : k = e.unitTagIndex
    · subst hke; simp only [Units.set_self, if_true, hu]; rfl
    · rw [if_neg (fun x => hke x.symm)]; simp only [Units.set_ne _ _ hke]
    · subst hke; simp only [Units.set_self, if_true, hu]; rfl
    · rw [if_neg (fun x => hke x.symm)]; simp only [Units.set_ne _ _ hke]
  | unitBorn e =>
    simp only [handleTracker, Res.ok.injEq, handleUnitBorn] at h
    simp only [lifeCycle, Option.some.injEq, Prod.mk.injEq, Bool.true_eq_false, and_false, if_false, and_true]
    have ht := touchCreator_cmd s l e.creatorUnitTagIndex k
    split at h <;> rename_i hu <;> simp only [Prod.mk.injEq] at h <;> rw [← h.1] <;> by_cases hke : k = e.unitTagIndex
    · subst hke
      rw [if_pos rfl, ← ht, hu]; simp only [Units.set_self]; rfl
    · rw [if_neg (fun x => hke x.symm)]; simp only [Units.set_ne _ _ hke]; exact ht
    · subst hke
      rw [if_pos rfl, ← ht, hu]; simp only [Units.set_self]; rfl
    · rw [if_neg (fun x => hke x.symm)]; simp only [Units.set_ne _ _ hke]; exact ht
  | unitDied e =>
    simp only [handleTracker, handleUnitDied] at h
    obtain ⟨users, _, h2⟩ := Res.bind_eq_ok.1 h
    simp only [lifeCycle, Option.some.injEq, Prod.mk.injEq, and_true, Bool.false_eq_true, and_false, if_false]
    have key : ((s.units.remove e.unitTagIndex) k).map SUnit.cmd =
        if e.unitTagIndex = k then none else (s.units k).map SUnit.cmd := by
      by_cases hke : k = e.unitTagIndex
      · subst hke; simp
      · rw [Units.remove_ne _ hke, if_neg (fun x => hke x.symm)]
    split at h2 <;> simp only [Res.pure_eq, Res.ok.injEq, Prod.mk.injEq] at h2 <;> rw [← h2.1] <;> exact key

/-- Nothing in `post`, which follows the state `s`, commands unit `k` or kills it. -/
def Undisturbed (bld : Build) (s : SState) (k : Int) (post : List SEvent) : Prop :=
  ∀ a x b t, post = a ++ x :: b → runEvents bld s a = .ok t → ¬ Commands t k x ∧ lifeCycle x ≠ some (k, false)

theorem undisturbed_cmd (bld : Build) (k : Int) : ∀ (post : List SEvent) (s s' : SState) (u : SUnit), s.Wf →
    runEvents bld s post = .ok s' → Undisturbed bld s k post → s.units k = some u →
    ∃ u', s'.units k = some u' ∧ u'.cmd = u.cmd
  | [], s, s', u, hw, h, hq, hu => by
    simp only [runEvents, Res.ok.injEq] at h
    exact ⟨u, h ▸ hu, rfl⟩
  | e :: post, s, s', u, hw, h, hq, hu => by
    simp only [runEvents] at h
    split at h
    · rename_i s1 it h1
      have hq1 : Undisturbed bld s1 k post := by
        intro a x b t hp hr
        exact hq (e :: a) x b t (by rw [hp]; rfl) (by simp only [runEvents, h1]; exact hr)
      have h0 := hq [] e post s rfl rfl
      have hstep : ∃ u1, s1.units k = some u1 ∧ u1.cmd = u.cmd := by
        cases e with
        | game l user nm ge =>
          simp only [transition] at h1
          obtain ⟨⟨s2, e2, h2⟩, hh, hk⟩ := Res.bind_eq_ok.1 h1
          simp only [Res.pure_eq, Res.ok.injEq, Prod.mk.injEq] at hk
          rw [← hk.1]
          obtain ⟨u', g1, g2, _⟩ := C119_commands_recorded s s2 hw l user ge e2 h2 hh k u hu
          refine ⟨u', g1, ?_⟩
          rw [g2]
          split
          · rename_i hm
            cases ge with
            | cmd e =>
              simp only [orderedBy]
              cases ha : e.abil with
              | none => rfl
              | some a => exact absurd ⟨by simp [ha], hm⟩ h0.1
            | cmdUpdateTargetPoint p => exact absurd hm h0.1
            | cmdUpdateTargetUnit t =>
              simp only [orderedBy]
              split
              · rename_i hy; exact absurd ⟨hm, hy⟩ h0.1
              · rfl
            | _ => rfl
          · rfl
        | tracker l te =>
          simp only [transition] at h1
          obtain ⟨⟨s2, e2, h2⟩, hh, hk⟩ := Res.bind_eq_ok.1 h1
          simp only [Res.pure_eq, Res.ok.injEq, Prod.mk.injEq] at hk
          rw [← hk.1]
          have := tracker_cmd hh k
          rw [if_neg h0.2, hu] at this
          simp only [Option.map_some, Option.getD_some, ite_self] at this
          cases hs : s2.units k with
          | none => rw [hs] at this; cases this
          | some u1 => rw [hs] at this; exact ⟨u1, rfl, by simpa using this⟩
      obtain ⟨u1, g1, g2⟩ := hstep
      obtain ⟨u', g3, g4⟩ := undisturbed_cmd bld k post s1 s' u1 (transition_wf hw h1) h hq1 g1
      exact ⟨u', g3, g4.trans g2⟩
    · cases h
    · cases h

/-- Over whole histories: a command given to unit `k` by a user who has it selected is still the unit's
command at the end of any further history in which the unit is not commanded again and does not die. -/
theorem C119_last_command (bld : Build) (players : List (Int × Str)) (hp : (players.map Prod.fst).Nodup) (bal : BalUnits)
    (pre post : List SEvent) (l user : Int) (nm : Option Str) (ge : GameEvt) (s s1 s' : SState) (k : Int) (u : SUnit)
    (hpre : runEvents bld (SState.initial players bal) pre = .ok s) (hu : s.units k = some u) (hsel : k ∈ selectionOf s user)
    (hev : runEvents bld s [.game l user nm ge] = .ok s1) (hpost : runEvents bld s1 post = .ok s')
    (hq : Undisturbed bld s1 k post) :
    ∃ u', s'.units k = some u' ∧ u'.cmd = orderedBy bal s.units u.name u.cmd ge := by
  have hw := runEvents_wf (initial_wf players bal hp) hpre
  have hb : s.balance = bal := runEvents_balance bld pre _ _ hpre
  simp only [runEvents] at hev
  split at hev
  · rename_i s2 it h1
    simp only [Res.ok.injEq] at hev
    subst hev
    have hw1 := transition_wf hw h1
    simp only [transition] at h1
    obtain ⟨⟨s3, e2, h2⟩, hh, hk⟩ := Res.bind_eq_ok.1 h1
    simp only [Res.pure_eq, Res.ok.injEq, Prod.mk.injEq] at hk
    obtain ⟨rfl, _⟩ := hk
    obtain ⟨u1, g1, g2, _⟩ := C119_commands_recorded s s3 hw l user ge e2 h2 hh k u hu
    rw [if_pos hsel, hb] at g2
    obtain ⟨u', g3, g4⟩ := undisturbed_cmd bld k post s3 s' u1 hw1 hpost hq g1
    exact ⟨u', g3, g4.trans g2⟩
  · cases hev
  · cases hev

/-- A unit that has never been commanded since it came into the game has the empty command. -/
theorem C119_never_commanded (bld : Build) (players : List (Int × Str)) (hp : (players.map Prod.fst).Nodup) (bal : BalUnits)
    (pre post : List SEvent) (e : SEvent) (s s1 s' : SState) (k : Int)
    (hpre : runEvents bld (SState.initial players bal) pre = .ok s) (hfree : s.units k = none)
    (hbirth : lifeCycle e = some (k, true)) (hev : runEvents bld s [e] = .ok s1) (hpost : runEvents bld s1 post = .ok s')
    (hq : Undisturbed bld s1 k post) :
    ∃ u', s'.units k = some u' ∧ u'.cmd.cmdFlags = 0 ∧ u'.cmd.abil = none ∧ u'.cmd.data = .none ∧ u'.cmd.sequence = 0 ∧
      u'.cmd.otherUnit = none ∧ u'.cmd.otherUnitName = none ∧ u'.cmd.unitGroup = none := by
  have key : ∃ u', s'.units k = some u' ∧ u'.cmd = UnitCmd.default := by
    have hw := runEvents_wf (initial_wf players bal hp) hpre
    simp only [runEvents] at hev
    split at hev
    · rename_i s2 it h1
      simp only [Res.ok.injEq] at hev
      subst hev
      have hw1 := transition_wf hw h1
      cases e with
      | game l user nm ge => cases hbirth
      | tracker l te =>
        simp only [transition] at h1
        obtain ⟨⟨s3, e2, h2⟩, hh, hk⟩ := Res.bind_eq_ok.1 h1
        simp only [Res.pure_eq, Res.ok.injEq, Prod.mk.injEq] at hk
        obtain ⟨rfl, _⟩ := hk
        have := tracker_cmd hh k
        rw [hbirth, hfree, if_neg (by simp), if_pos rfl] at this
        cases hs : s3.units k with
        | none => rw [hs] at this; cases this
        | some u1 =>
          rw [hs] at this
          obtain ⟨u', g3, g4⟩ := undisturbed_cmd bld k post s3 s' u1 hw1 hpost hq hs
          exact ⟨u', g3, g4.trans (by simpa using this)⟩
    · cases hev
    · cases hev
  obtain ⟨u', h1, h2⟩ := key
  exact ⟨u', h1, by rw [h2]; exact ⟨rfl, rfl, rfl, rfl, rfl, rfl, rfl⟩⟩

/-! ## C120: the points -/

open P87702.BitPacked

theorem f32OfInt_exact {x : Int} (h1 : -(2 ^ 24) ≤ x) (h2 : x ≤ 2 ^ 24) : f32OfInt x = x := by
  have : roundNat x.natAbs = x.natAbs := by
    have := roundNat_exact (m := x.natAbs) (e := 0) (by omega)
    simpa using this
  unfold f32OfInt
  rw [this]
  split <;> omega

theorem f32OfInt_error (x : Int) : 2 ^ 24 * (f32OfInt x - x).natAbs ≤ x.natAbs := by
  have h := roundNat_error x.natAbs
  unfold f32OfInt
  split <;> omega

/-- A coordinate of at most 24 bits is stored exactly, as cells, with the second axis turned round. -/
theorem C120_point_exact (c : MapCoord) (hx : -(2 ^ 24) ≤ c.x ∧ c.x ≤ 2 ^ 24) (hy : -(2 ^ 24) ≤ c.y ∧ c.y ≤ 2 ^ 24)
    (hz : -(2 ^ 24) ≤ c.z ∧ c.z ≤ 2 ^ 24) : c.toVec = pointOf c := by
  unfold MapCoord.toVec pointOf
  rw [f32OfInt_exact hx.1 hx.2, f32OfInt_exact hy.1 hy.2, f32OfInt_exact hz.1 hz.2]

theorem coord_range {v : Val} {c : MapCoord} (h : BRng GameSMapCoord3D v) (hc : convCoord v = .ok c) :
    (0 ≤ c.x ∧ c.x < 2 ^ 20) ∧ (0 ≤ c.y ∧ c.y < 2 ^ 20) ∧ (-(2 ^ 31) ≤ c.z ∧ c.z < 2 ^ 31) := by
  obtain ⟨vs, rfl, v0, _, rfl, ⟨x0, rfl, h0⟩, v1, _, rfl, ⟨x1, rfl, h1⟩, v2, _, rfl, ⟨x2, rfl, h2⟩, rfl⟩ := h
  simp only [convCoord, Res.ok.injEq] at hc
  subst hc
  have a0 := h0 (by decide) (by decide) (by decide)
  have a1 := h1 (by decide) (by decide) (by decide)
  have a2 := (asI32_mod x2).2
  refine ⟨?_, ?_, ?_⟩ <;> simp only <;> omega

/-- Range of the points of decoded events. -/
def PointInRange (c : MapCoord) : Prop :=
  (0 ≤ c.x ∧ c.x < 2 ^ 20) ∧ (0 ≤ c.y ∧ c.y < 2 ^ 20) ∧ (-(2 ^ 31) ≤ c.z ∧ c.z < 2 ^ 31)

theorem targetUnit_range {v : Val} {u : CmdTargetUnit} (h : BRng GameSCmdDataTargetUnit v) (hc : convTargetUnit v = .ok u) :
    PointInRange u.snapshotPoint := by
  obtain ⟨vs, rfl, v0, _, rfl, ⟨x0, rfl, h0⟩, v1, _, rfl, ⟨x1, rfl, h1⟩, v2, _, rfl, ⟨x2, rfl, h2⟩, v3, _, rfl, ⟨x3, rfl, h3⟩,
    v4, _, rfl, h4, v5, _, rfl, h5, v6, _, rfl, h6, rfl⟩ := h
  simp only [convTargetUnit, Res.bind_eq_ok, Res.pure_eq, Res.ok.injEq] at hc
  obtain ⟨o4, e4, o5, e5, p, e6, rfl⟩ := hc
  exact coord_range h6 e6

/-- The points carried by the data of a command. -/
theorem cmdData_range {v : Val} {d : CmdData} (h : BRng GameSCmdData v) (hc : convCmdData v = .ok d) :
    (∀ c, d = .targetPoint c → PointInRange c) ∧ (∀ u, d = .targetUnit u → PointInRange u.snapshotPoint) := by
  obtain ⟨tag, w, rfl, h⟩ := h
  simp only [BAltRng] at h
  split at h
  · subst tag; cases hc; exact ⟨fun _ h => (by cases h), fun _ h => (by cases h)⟩
  split at h
  · subst tag
    simp only [convCmdData, Res.bind_eq_ok, Res.pure_eq, Res.ok.injEq] at hc
    obtain ⟨c, hc, rfl⟩ := hc
    exact ⟨fun _ e => (by cases e; exact coord_range h hc), fun _ h => (by cases h)⟩
  split at h
  · subst tag
    simp only [convCmdData, Res.bind_eq_ok, Res.pure_eq, Res.ok.injEq] at hc
    obtain ⟨c, hc, rfl⟩ := hc
    exact ⟨fun _ h => (by cases h), fun _ e => (by cases e; exact targetUnit_range h hc)⟩
  split at h
  · subst tag
    obtain ⟨x, rfl, hx⟩ := h
    simp only [convCmdData, Res.ok.injEq] at hc
    subst hc
    exact ⟨fun _ h => (by cases h), fun _ h => (by cases h)⟩
  · exact h.elim

theorem convGame_points (version : Nat) (v : Val) (e : GameEvt) (h : BRng (gameEventTy version) v) (hc : convGame v = .ok e) :
    ∀ c ∈ commandPoints e, PointInRange c := by
  obtain ⟨alts, n, ha, f27, hs⟩ := gameEventTy_alts version
  rw [ha] at h
  obtain ⟨tag, w, rfl, h⟩ := h
  obtain ⟨ty, hty, hw⟩ := BAltRng_find _ _ _ h
  have hcmd : ∀ {v0 v1 v2 v3 v4 v5 : Val}, BRng (.int 1 32) v3 → (∃ x, v0 = .int x) → BRng GameSCmdData v2 →
      convCmd (.struct [v0, v1, v2, v3, v4, v5]) = .ok e → ∀ c ∈ commandPoints e, PointInRange c := by
    intro v0 v1 v2 v3 v4 v5 h3 h0 h2 hc c hm
    obtain ⟨x0, rfl⟩ := h0
    obtain ⟨x3, rfl, _⟩ := h3
    simp only [convCmd, Res.bind_eq_ok, Res.pure_eq, Res.ok.injEq] at hc
    obtain ⟨a, ha, d, hd, o, ho, g, hg, rfl⟩ := hc
    have hr := cmdData_range h2 hd
    simp only [commandPoints] at hm
    cases d with
    | none => cases hm
    | data x => cases hm
    | targetPoint p =>
      simp only [List.mem_singleton] at hm
      subst hm; exact hr.1 _ rfl
    | targetUnit u =>
      simp only [List.mem_singleton] at hm
      subst hm; exact hr.2 _ rfl
  simp only [convGame] at hc
  split at hc
  · have : commandPoints e = [] := by
      revert hc; unfold convCameraSave; split
      · intro hc; cases hc; rfl
      · intro hc; cases hc
    rw [this]; intro c hm; cases hm
  split at hc
  · subst tag
    rcases f27 with f27 | f27 <;> rw [f27] at hty <;> cases hty
    · obtain ⟨vs, rfl, v0, _, rfl, ⟨x0, rfl, _⟩, v1, _, rfl, h1, v2, _, rfl, h2, v3, _, rfl, h3, v4, _, rfl, h4, v5, _, rfl, h5, rfl⟩ := hw
      exact hcmd h3 ⟨_, rfl⟩ h2 hc
    · obtain ⟨vs, rfl, v0, _, rfl, ⟨x0, rfl, _⟩, v1, _, rfl, h1, v2, _, rfl, h2, v3, _, rfl, h3, v4, _, rfl, h4, v5, _, rfl, h5, rfl⟩ := hw
      exact hcmd h3 ⟨_, rfl⟩ h2 hc
  split at hc
  · have : commandPoints e = [] := by
      revert hc; unfold convSelectionDelta; split
      · intro hc
        simp only [Res.bind_eq_ok, Res.pure_eq, Res.ok.injEq] at hc
        obtain ⟨_, _, _, _, _, _, rfl⟩ := hc; rfl
      · intro hc; cases hc
    rw [this]; intro c hm; cases hm
  split at hc
  · have : commandPoints e = [] := by
      revert hc; unfold convControlGroup; split
      · intro hc
        simp only [Res.bind_eq_ok, Res.pure_eq, Res.ok.injEq] at hc
        obtain ⟨_, _, _, _, rfl⟩ := hc; rfl
      · intro hc; cases hc
    rw [this]; intro c hm; cases hm
  split at hc
  · have : commandPoints e = [] := by
      revert hc; unfold convCameraUpdate; split
      · intro hc
        simp only [Res.bind_eq_ok, Res.pure_eq, Res.ok.injEq] at hc
        obtain ⟨_, _, _, _, _, _, _, _, _, _, rfl⟩ := hc; rfl
      · intro hc; cases hc
    rw [this]; intro c hm; cases hm
  split at hc
  · subst tag
    cases supported_ty (i := 18) hs hty rfl
    obtain ⟨vs, rfl, v0, _, rfl, h0, rfl⟩ := hw
    simp only [convTargetPointEvt, Res.bind_eq_ok, Res.pure_eq, Res.ok.injEq] at hc
    obtain ⟨c, hcc, rfl⟩ := hc
    intro c' hm
    simp only [commandPoints, List.mem_singleton] at hm
    subst hm; exact coord_range h0 hcc
  split at hc
  · subst tag
    cases supported_ty (i := 19) hs hty rfl
    obtain ⟨vs, rfl, v0, _, rfl, h0, rfl⟩ := hw
    simp only [convTargetUnitEvt, Res.bind_eq_ok, Res.pure_eq, Res.ok.injEq] at hc
    obtain ⟨c, hcc, rfl⟩ := hc
    intro c' hm
    simp only [commandPoints, List.mem_singleton] at hm
    subst hm; exact targetUnit_range h0 hcc
  · simp only [Res.bind_eq_ok, Res.pure_eq, Res.ok.injEq] at hc
    obtain ⟨o, ho, rfl⟩ := hc
    intro c hm; cases hm

/-- Whatever the bytes of the game event file: every point a command of it carries is stored on the unit with
its first two coordinates exact, in cells, the second axis turned round; the height is off by at most one part
in 2^24, and exact up to 4096 cells. -/
theorem C120_points_of_any_file (bld : Build) (version : Nat) (data : List UInt8) (n : Nat) (out : List (Int × Int × GameEvt))
    (h : readGameEvents bld version n data = some (.ok out)) (d user : Int) (e : GameEvt) (he : (d, user, e) ∈ out)
    (c : MapCoord) (hc : c ∈ commandPoints e) :
    c.toVec.x = (c.x : Rat) / 4096 ∧ c.toVec.y = (-c.y : Rat) / 4096 ∧
    (∃ z : Int, c.toVec.z = (z : Rat) / 4096 ∧ 2 ^ 24 * (z - c.z).natAbs ≤ c.z.natAbs) ∧
    (-(2 ^ 24) ≤ c.z → c.z ≤ 2 ^ 24 → c.toVec.z = (c.z : Rat) / 4096) := by
  obtain ⟨items, _, hs, rfl⟩ := C30_game_only_streams bld version data n out h
  obtain ⟨⟨d', u', v⟩, hp, hq⟩ := List.mem_filterMap.1 he
  simp only [gameOf] at hq
  have hr : PointInRange c := by
    cases hcv : convGame v with
    | ok x =>
      rw [hcv] at hq
      simp only [Res.toOpt, Option.map_some, Option.some.injEq, Prod.mk.injEq] at hq
      obtain ⟨rfl, rfl, rfl⟩ := hq
      obtain ⟨uu, hw⟩ := stream_mem hs _ hp
      obtain ⟨k, b1, b2, b3, pad, _, _, _, hb, _⟩ := hw
      exact convGame_points version v x (BEnc_rng _ _ _ _ (Nat.mod_lt _ (by decide)) hb) hcv c hc
    | err x => rw [hcv] at hq; simp [Res.toOpt] at hq
    | panic => rw [hcv] at hq; simp [Res.toOpt] at hq
  obtain ⟨hx, hy, hz⟩ := hr
  refine ⟨?_, ?_, ⟨f32OfInt c.z, rfl, f32OfInt_error c.z⟩, ?_⟩
  · show (f32OfInt c.x : Rat) / 4096 = _
    rw [f32OfInt_exact (by omega) (by omega)]
  · show -(f32OfInt c.y : Rat) / 4096 = _
    rw [f32OfInt_exact (by omega) (by omega)]
  · intro h1 h2
    show (f32OfInt c.z : Rat) / 4096 = _
    rw [f32OfInt_exact h1 h2]

/-- The bound on the height is sharp: 2^24 + 1 is stored as 2^24. -/
example : (MapCoord.mk 0 0 (2 ^ 24 + 1)).toVec.z = (2 ^ 24 : Rat) / 4096 := by decide +kernel
example : (MapCoord.mk 4096 8192 (-2048)).toVec = ⟨1, -2, -1 / 2⟩ := by decide +kernel

/-- A file with one target-point update to which `C120_points_of_any_file` applies. -/
example : readGameEvents .debug 90000 10 [20, 192, 8, 16, 0, 2, 0, 128, 0, 0, 128, 0] =
      some (.ok [(5, 0, .cmdUpdateTargetPoint ⟨4096, 8192, 2048⟩)]) ∧
    (MapCoord.mk 4096 8192 2048).toVec = ⟨1, -2, 1 / 2⟩ := by decide +kernel

/-! ## C121: positions -/

theorem positionsLoop_entries (bld : Build) : ∀ (items : List Int) (first : Int),
    (∀ p ∈ entriesOf first items,
      0 ≤ p.1 ∧ p.1 < 2 ^ 31 ∧ -(2 ^ 22) < p.2.1 ∧ p.2.1 < 2 ^ 22 ∧ -(2 ^ 22) < p.2.2 ∧ p.2.2 < 2 ^ 22) →
    positionsLoop bld items first = .ok ((entriesOf first items).map (fun p => (p.1, p.2.1 * 4, p.2.2 * 4)))
  | d :: x :: y :: rest, first, h => by
    simp only [entriesOf, List.mem_cons, forall_eq_or_imp] at h
    obtain ⟨h1, h2, h3, h4, h5, h6⟩ := h.1
    simp only [positionsLoop, entriesOf, List.map_cons]
    have e1 : addI32 bld first d = .ok (first + d) := by unfold addI32; rw [if_pos (by omega)]
    have e2 : mul4I32 bld x = .ok (x * 4) := by unfold mul4I32; rw [if_pos (by omega)]
    have e3 : mul4I32 bld y = .ok (y * 4) := by unfold mul4I32; rw [if_pos (by omega)]
    rw [e1, Res.bind_ok, e2, Res.bind_ok, e3, Res.bind_ok, positionsLoop_entries bld rest (first + d) h.2, Res.bind_ok, Res.pure_eq]
    have : asU 32 (first + d) = first + d := by unfold asU; exact Int.emod_eq_of_lt h1 (by omega)
    rw [this]
  | [], first, _ => rfl
  | [_], first, _ => rfl
  | [_, _], first, _ => rfl

theorem quarter {x : Int} (h1 : -(2 ^ 22) < x) (h2 : x < 2 ^ 22) : (f32OfInt (x * 4) : Rat) / 4 = (x : Rat) := by
  rw [f32OfInt_exact (by omega) (by omega), Rat.intCast_mul, Rat.div_def, Rat.mul_assoc,
    show ((4 : Int) : Rat) * 4⁻¹ = 1 by decide +kernel, Rat.mul_one]

theorem positionsUpdate_pos (loop k : Int) : ∀ (es : List (Int × Int × Int)) (us : Units),
    (∀ p ∈ es, 0 ≤ p.1 ∧ p.1 < 2 ^ 31 ∧ -(2 ^ 22) < p.2.1 ∧ p.2.1 < 2 ^ 22 ∧ -(2 ^ 22) < p.2.2 ∧ p.2.2 < 2 ^ 22) →
    ((positionsUpdate loop (es.map (fun p => (p.1, p.2.1 * 4, p.2.2 * 4))) us).1 k).map SUnit.pos =
      (us k).map (fun u => (lastEntry k es).getD u.pos)
  | [], us, _ => by
    show (us k).map SUnit.pos = (us k).map (fun u => u.pos)
    rfl
  | (t, x, y) :: es, us, h => by
    simp only [List.mem_cons, forall_eq_or_imp] at h
    obtain ⟨_, _, h3, h4, h5, h6⟩ := h.1
    simp only [List.map_cons, positionsUpdate, lastEntry]
    cases hu : us t with
    | none =>
      simp only
      rw [positionsUpdate_pos loop k es us h.2]
      by_cases hk : t = k
      · subst hk; rw [hu]; rfl
      · rw [if_neg hk, Option.or_none]
    | some u =>
      simp only
      rw [positionsUpdate_pos loop k es _ h.2]
      by_cases hk : t = k
      · subst hk
        rw [Units.set_self, hu, if_pos rfl, quarter h3 h4, quarter h5 h6]
        cases lastEntry t es <;> rfl
      · rw [Units.set_ne _ _ (fun x => hk x.symm), if_neg hk, Option.or_none]

theorem touchCreator_pos (s : SState) (loop : Int) (c : Option Int) (k : Int) :
    ((touchCreator s loop c).1 k).map SUnit.pos = (s.units k).map SUnit.pos := by
  unfold touchCreator
  split
  · rfl
  · split
    · rfl
    · rename_i c _ u hu
      by_cases h : k = c
      · subst h; simp [hu]
      · simp only [Units.set_ne _ _ h]

theorem transition_place {bld : Build} {s s' : SState} {e : SEvent} {it : Item} (k : Int) (hpl : PlainPositions e)
    (h : transition bld s e = .ok (s', it)) :
    (s'.units k).map SUnit.pos = placeStep k ((s.units k).map SUnit.pos) e := by
  cases e with
  | game l user nm ge =>
    simp only [transition] at h
    obtain ⟨⟨s1, e1, h1⟩, hh, hk⟩ := Res.bind_eq_ok.1 h
    simp only [Res.pure_eq, Res.ok.injEq, Prod.mk.injEq] at hk
    rw [← hk.1]
    have hc := handleGame_core hh k
    show _ = (s.units k).map SUnit.pos
    have : ∀ a b : Option SUnit, a.map SUnit.core = b.map SUnit.core → a.map SUnit.pos = b.map SUnit.pos := by
      intro a b hab
      cases a <;> cases b <;> simp_all [SUnit.core]
    exact this _ _ hc
  | tracker l te =>
    simp only [transition] at h
    obtain ⟨⟨s1, e1, h1⟩, hh, hk⟩ := Res.bind_eq_ok.1 h
    simp only [Res.pure_eq, Res.ok.injEq, Prod.mk.injEq] at hk
    obtain ⟨rfl, _⟩ := hk
    cases te with
    | playerStats p st => simp only [handleTracker, Res.ok.injEq, Prod.mk.injEq] at hh; rw [← hh.1]; rfl
    | unitOwnerChange e => simp only [handleTracker, Res.ok.injEq, Prod.mk.injEq] at hh; rw [← hh.1]; rfl
    | upgrade e => simp only [handleTracker, Res.ok.injEq, Prod.mk.injEq] at hh; rw [← hh.1]; rfl
    | playerSetup e =>
      simp only [handleTracker, Res.ok.injEq] at hh
      have : (handlePlayerSetup s e).1.units = s.units := by
        unfold handlePlayerSetup; split
        · rfl
        · split <;> rfl
      rw [hh] at this
      simp only at this
      rw [this]; rfl
    | unitPosition e =>
      obtain ⟨hp1, hp2, hp3⟩ := hpl
      have hf : asI32 e.firstUnitIndex = e.firstUnitIndex := by
        unfold asI32
        rw [Int.emod_eq_of_lt hp1 (by omega), if_pos hp2]
      simp only [handleTracker, handleUnitPosition, toUnitPositions, hf, positionsLoop_entries bld _ _ hp3, Res.bind_ok,
        Res.pure_eq, Res.ok.injEq, Prod.mk.injEq] at hh
      rw [← hh.1]
      simp only
      rw [positionsUpdate_pos _ _ _ _ hp3]
      simp only [placeStep, Option.map_map]
      rfl
    | unitDone e =>
      simp only [handleTracker, Res.ok.injEq, handleUnitDone] at hh
      show _ = (s.units k).map SUnit.pos
      split at hh
      · rename_i u hu
        simp only [Prod.mk.injEq] at hh
        rw [← hh.1]
        by_cases hke : k = e.unitTagIndex
        · subst hke; simp only [Units.set_self, hu]; rfl
        · simp only [Units.set_ne _ _ hke]
      · simp only [Prod.mk.injEq] at hh
        rw [← hh.1]
    | unitInit e =>
      simp only [handleTracker, Res.ok.injEq, handleUnitInit, Prod.mk.injEq] at hh
      rw [← hh.1]
      simp only [placeStep]
      by_cases hke : k = e.unitTagIndex
      · subst hke
        rw [if_pos rfl]
        cases hu : s.units e.unitTagIndex with
        | none => simp only [Units.set_self]; rfl
        | some u => simp only [Units.set_self]; rfl
      · rw [if_neg (fun x => hke x.symm)]
        split <;> rw [Units.set_ne _ _ hke]
    | unitTypeChange e =>
      simp only [handleTracker, Res.ok.injEq, handleUnitTypeChange] at hh
      simp only [placeStep]
      split at hh <;> rename_i hu <;> simp only [Prod.mk.injEq] at hh <;> rw [← hh.1] <;> by_cases hke : k = e.unitTagIndex
      · subst hke; simp only [Units.set_self, if_true, hu]; rfl
      · rw [if_neg (fun x => hke x.symm)]; simp only [Units.set_ne _ _ hke]
      · subst hke; simp only [Units.set_self, if_true, hu]; rfl
      · rw [if_neg (fun x => hke x.symm)]; simp only [Units.set_ne _ _ hke]
    | unitBorn e =>
      simp only [handleTracker, Res.ok.injEq, handleUnitBorn] at hh
      simp only [placeStep]
      have ht := touchCreator_pos s l e.creatorUnitTagIndex k
      split at hh <;> rename_i hu <;> simp only [Prod.mk.injEq] at hh <;> rw [← hh.1] <;> by_cases hke : k = e.unitTagIndex
      · subst hke
        rw [if_pos rfl, ← ht, hu]; simp only [Units.set_self]; rfl
      · rw [if_neg (fun x => hke x.symm)]; simp only [Units.set_ne _ _ hke]; exact ht
      · subst hke
        rw [if_pos rfl, ← ht, hu]; simp only [Units.set_self]; rfl
      · rw [if_neg (fun x => hke x.symm)]; simp only [Units.set_ne _ _ hke]; exact ht
    | unitDied e =>
      simp only [handleTracker, handleUnitDied] at hh
      obtain ⟨users, _, h2⟩ := Res.bind_eq_ok.1 hh
      simp only [placeStep]
      have key : ((s.units.remove e.unitTagIndex) k).map SUnit.pos =
          if e.unitTagIndex = k then none else (s.units k).map SUnit.pos := by
        by_cases hke : k = e.unitTagIndex
        · subst hke; simp
        · rw [Units.remove_ne _ hke, if_neg (fun x => hke x.symm)]
      split at h2 <;> simp only [Res.pure_eq, Res.ok.injEq, Prod.mk.injEq] at h2 <;> rw [← h2.1] <;> exact key

/-- After any history, the position of a unit is the last one its own birth, construction and position events
gave, in exact map cells. -/
theorem C121_position (bld : Build) (players : List (Int × Str)) (bal : BalUnits) (es : List SEvent) (s : SState)
    (hpl : ∀ e ∈ es, PlainPositions e) (h : runEvents bld (SState.initial players bal) es = .ok s) (k : Int) :
    (s.units k).map SUnit.pos = es.foldl (placeStep k) none := by
  have gen : ∀ (es : List SEvent) (s s' : SState), (∀ e ∈ es, PlainPositions e) → runEvents bld s es = .ok s' →
      (s'.units k).map SUnit.pos = es.foldl (placeStep k) ((s.units k).map SUnit.pos) := by
    intro es
    induction es with
    | nil => intro s s' _ h; simp only [runEvents, Res.ok.injEq] at h; rw [h]; rfl
    | cons e es ih =>
      intro s s' hp h
      simp only [runEvents] at h
      split at h
      · rename_i s1 it h1
        rw [ih s1 s' (fun e he => hp e (by simp [he])) h, transition_place k (hp e (by simp)) h1]
        rfl
      · cases h
      · cases h
  simpa [SState.initial] using gen es _ s hpl h

/-- The map of unit 1 over a life: born, moved twice by one event, moved, killed. -/
example : [SEvent.tracker 1 (.unitBorn ⟨1, 1, str "Marine", 1, 1, 10, 20, none, none, none⟩),
      .tracker 2 (.unitPosition ⟨0, [1, 11, 21, 1, 7, 7, -1, 12, 22]⟩)].foldl (placeStep 1) none = some ⟨12, 22, 0⟩ ∧
    ((match runEvents .debug demoState [.tracker 1 (.unitBorn ⟨1, 1, str "Marine", 1, 1, 10, 20, none, none, none⟩),
      .tracker 2 (.unitPosition ⟨0, [1, 11, 21, 1, 7, 7, -1, 12, 22]⟩)] with
    | .ok s => (s.units 1).map SUnit.pos
    | _ => none) = some ⟨12, 22, 0⟩) := by decide +kernel

/-! ### A commanded unit -/

/-- Two players, unit 1 born and selected by user 0. -/
def orderPre : List SEvent := [demoBorn 1 1 1 "Marine", .game 2 0 none (demoSel 10 [demoTag])]
/-- Attack a point. -/
def orderCmd : CmdEvent := ⟨256, some ⟨40, [], 0, none⟩, .targetPoint ⟨4096, 8192, 0⟩, 7, none, none⟩
/-- Another birth, a camera move, and a command by the other user, who has nothing selected. -/
def orderPost : List SEvent :=
  [demoBorn 4 2 1 "Marine", .game 5 0 none (.cameraSave 1 2 3), .game 6 1 none (.cmdUpdateTargetPoint ⟨0, 0, 0⟩)]

def orderState (es : List SEvent) : Option (Option SUnit × List Int × List Int) :=
  match runEvents .debug demoState es with
  | .ok s => some (s.units 1, selectionOf s 0, selectionOf s 1)
  | _ => none

theorem order_example :
    (orderState orderPre).map (fun x => (x.1.isSome, x.2)) = some (true, [1], []) ∧
    (orderState (orderPre ++ [.game 3 0 none (.cmd orderCmd)])).map (fun x => x.1.map SUnit.cmd) =
      some (some ⟨256, some ⟨40, [], 0, none⟩, .targetPoint ⟨1, -2, 0⟩, 7, none, none, none⟩) ∧
    (orderState (orderPre ++ [.game 3 0 none (.cmd orderCmd)] ++ orderPost)).map (fun x => x.1.map SUnit.cmd) =
      some (some ⟨256, some ⟨40, [], 0, none⟩, .targetPoint ⟨1, -2, 0⟩, 7, none, none, none⟩) := by
  decide +kernel

instance (s : SState) (k : Int) (e : SEvent) : Decidable (Commands s k e) := by
  cases e with
  | tracker l te => exact isFalse (fun h => h)
  | game l user nm ge => cases ge <;> unfold Commands <;> infer_instance

/-- A way to check `Undisturbed` by running the events. -/
def undisturbedCheck (bld : Build) (k : Int) : SState → List SEvent → Bool
  | _, [] => true
  | s, e :: es => !decide (Commands s k e) && !decide (lifeCycle e = some (k, false)) &&
    match transition bld s e with
    | .ok (s', _) => undisturbedCheck bld k s' es
    | _ => true

theorem undisturbed_of_check (bld : Build) (k : Int) : ∀ (es : List SEvent) (s : SState),
    undisturbedCheck bld k s es = true → Undisturbed bld s k es
  | [], s, _ => by intro a x b t h; simp at h
  | e :: es, s, h => by
    simp only [undisturbedCheck, Bool.and_eq_true, Bool.not_eq_true', decide_eq_false_iff_not] at h
    obtain ⟨⟨h1, h2⟩, h3⟩ := h
    intro a x b t hp hr
    cases a with
    | nil =>
      simp only [List.nil_append, List.cons.injEq] at hp
      simp only [runEvents, Res.ok.injEq] at hr
      obtain ⟨rfl, rfl⟩ := hp
      subst hr
      exact ⟨h1, h2⟩
    | cons y a =>
      simp only [List.cons_append, List.cons.injEq] at hp
      obtain ⟨rfl, rfl⟩ := hp
      simp only [runEvents] at hr
      split at hr
      · rename_i s1 it ht
        rw [ht] at h3
        exact undisturbed_of_check bld k _ s1 h3 a x b t rfl hr
      · cases hr
      · cases hr

/-- The whole run of the example: state before the command, after it, and at the end. -/
def orderRun : Bool :=
  match runEvents .debug demoState orderPre with
  | .ok s => decide (1 ∈ selectionOf s 0) && (s.units 1).isSome &&
    match runEvents .debug s [.game 3 0 none (.cmd orderCmd)] with
    | .ok s1 => undisturbedCheck .debug 1 s1 orderPost &&
      match runEvents .debug s1 orderPost with
      | .ok _ => true
      | _ => false
    | _ => false
  | _ => false

/-- All hypotheses of `C119_last_command` hold of the example. -/
example : ∃ s s1 s' u u', runEvents .debug demoState orderPre = .ok s ∧ s.units 1 = some u ∧ 1 ∈ selectionOf s 0 ∧
    runEvents .debug s [.game 3 0 none (.cmd orderCmd)] = .ok s1 ∧ runEvents .debug s1 orderPost = .ok s' ∧
    Undisturbed .debug s1 1 orderPost ∧ s'.units 1 = some u' ∧
    u'.cmd = commandFor (fun _ => none) u.name none orderCmd ⟨40, [], 0, none⟩ := by
  have hb : orderRun = true := by decide +kernel
  unfold orderRun at hb
  cases h1 : runEvents .debug demoState orderPre with
  | err e => rw [h1] at hb; cases hb
  | panic => rw [h1] at hb; cases hb
  | ok s =>
    rw [h1] at hb
    simp only [Bool.and_eq_true, decide_eq_true_eq] at hb
    obtain ⟨⟨hsel, hu⟩, hb⟩ := hb
    obtain ⟨u, hu⟩ := Option.isSome_iff_exists.1 hu
    cases h2 : runEvents .debug s [.game 3 0 none (.cmd orderCmd)] with
    | err e => rw [h2] at hb; cases hb
    | panic => rw [h2] at hb; cases hb
    | ok s1 =>
      rw [h2] at hb
      simp only [Bool.and_eq_true] at hb
      obtain ⟨hq, hb⟩ := hb
      cases h3 : runEvents .debug s1 orderPost with
      | err e => rw [h3] at hb; cases hb
      | panic => rw [h3] at hb; cases hb
      | ok s' =>
        have hq' := undisturbed_of_check _ _ _ _ hq
        obtain ⟨u', g1, g2⟩ := C119_last_command .debug _ (by decide) _ orderPre orderPost 3 0 none (.cmd orderCmd) s s1 s' 1 u
          h1 hu hsel h2 h3 hq'
        exact ⟨s, s1, s', u, u', rfl, hu, hsel, h2, h3, hq', g1, g2⟩

end S2
