import Verif.Props.Units
import Verif.State.TimeLemmas
/-!
# Invariants over histories (C67, C76–C82)
-/
namespace S2

/-- A step invariant holds after every history. -/
theorem runEvents_inv {bld : Build} {P : SState → Prop}
    (hstep : ∀ s s' e it, P s → transition bld s e = .ok (s', it) → P s') :
    ∀ (es : List SEvent) (s s' : SState), P s → runEvents bld s es = .ok s' → P s'
  | [], s, s', hp, h => by simp only [runEvents, Res.ok.injEq] at h; exact h ▸ hp
  | e :: es, s, s', hp, h => by
    simp only [runEvents] at h
    split at h
    · rename_i s1 it h1
      exact runEvents_inv hstep es s1 s' (hstep _ _ _ _ hp h1) h
    · cases h
    · cases h

/-! ## C67 -/

/-- After any history from a new replay state, the unit found under an index is the unit with that
index. -/
theorem C67_units_keyed_by_index (bld : Build) (players : List (Int × Str)) (bal : BalUnits) (es : List SEvent) (s : SState)
    (h : runEvents bld (SState.initial players bal) es = .ok s) (k : Int) (u : SUnit) (hk : s.units k = some u) :
    u.tagIndex = k := by
  refine runEvents_inv (P := fun s => ∀ k u, s.units k = some u → u.tagIndex = k) ?_ es _ s (by simp [SState.initial]) h k u hk
  intro s s' e it hp h1 k u hk
  rcases transition_evolves h1 k u hk with ⟨u0, h0, e1, _⟩ | ⟨_, e1, _⟩
  · exact e1.trans (hp k u0 h0)
  · exact e1

/-! ## C76 -/

/-- In a history with non-decreasing game loops, every unit's birth time is at most the time of its last
change, which is at most the loop of the last event. -/
theorem C76_time_stamps (bld : Build) (players : List (Int × Str)) (bal : BalUnits) (es : List SEvent) (s : SState)
    (hmono : es.Pairwise (fun a b => a.loop ≤ b.loop))
    (h : runEvents bld (SState.initial players bal) es = .ok s) (k : Int) (u : SUnit) (hk : s.units k = some u) :
    u.initGameLoop ≤ u.lastGameLoop ∧ ∃ e ∈ es, u.lastGameLoop = e.loop ∧ ∃ e' ∈ es, u.initGameLoop = e'.loop := by
  have gen : ∀ (es pre : List SEvent) (s s' : SState),
      (pre ++ es).Pairwise (fun a b => a.loop ≤ b.loop) →
      (∀ k u, s.units k = some u → u.initGameLoop ≤ u.lastGameLoop ∧
        ∃ e ∈ pre, u.lastGameLoop = e.loop ∧ ∃ e' ∈ pre, u.initGameLoop = e'.loop) →
      runEvents bld s es = .ok s' →
      ∀ k u, s'.units k = some u → u.initGameLoop ≤ u.lastGameLoop ∧
        ∃ e ∈ pre ++ es, u.lastGameLoop = e.loop ∧ ∃ e' ∈ pre ++ es, u.initGameLoop = e'.loop := by
    intro es
    induction es with
    | nil =>
      intro pre s s' _ hp h k u hk
      simp only [runEvents, Res.ok.injEq] at h
      rw [List.append_nil]
      exact hp k u (h ▸ hk)
    | cons e es ih =>
      intro pre s s' hm hp h k u hk
      simp only [runEvents] at h
      split at h
      · rename_i s1 it h1
        have := ih (pre ++ [e]) s1 s' (by simpa using hm) ?_ h k u hk
        · simpa using this
        · intro k u hk
          rcases transition_evolves h1 k u hk with ⟨u0, h0, _, e2, e3⟩ | ⟨_, _, e2, e3⟩
          · obtain ⟨p1, x, hx, px, y, hy, py⟩ := hp k u0 h0
            rcases e3 with e3 | e3
            · exact ⟨by omega, x, by simp [hx], by omega, y, by simp [hy], by omega⟩
            · have hle : y.loop ≤ e.loop := (List.pairwise_append.1 hm).2.2 y hy e (by simp)
              exact ⟨by omega, e, by simp, e3, y, by simp [hy], by omega⟩
          · exact ⟨by omega, e, by simp, e3, e, by simp, e2⟩
      · cases h
      · cases h
  simpa using gen es [] _ s (by simpa using hmono) (by simp [SState.initial]) h k u hk

/-! ## C80: type, owner and construction flag -/

/-- What the life-cycle events say about one unit: type name, controlling player, under construction. -/
structure Brief where
  name : Str
  owner : Option Int
  building : Bool
  deriving DecidableEq, Repr

/-- How an event changes what is known of unit `k` (`none`: not in the game). -/
def briefStep (k : Int) (b : Option Brief) : SEvent → Option Brief
  | .tracker _ (.unitInit e) =>
    if e.unitTagIndex = k then
      some (match b with
        | some b => { b with name := e.unitTypeName, building := true }
        | none => ⟨e.unitTypeName, some e.controlPlayerId, true⟩)
    else b
  | .tracker _ (.unitBorn e) =>
    if e.unitTagIndex = k then some (b.getD ⟨e.unitTypeName, some e.controlPlayerId, false⟩) else b
  | .tracker _ (.unitTypeChange e) =>
    if e.unitTagIndex = k then
      some (match b with
        | some b => { b with name := e.unitTypeName }
        | none => ⟨e.unitTypeName, none, false⟩)
    else b
  | .tracker _ (.unitDone e) => if e.unitTagIndex = k then b.map (fun b => { b with building := false }) else b
  | .tracker _ (.unitDied e) => if e.unitTagIndex = k then none else b
  | _ => b

def briefOf (u : SUnit) : Brief := ⟨u.name, u.userId, u.isInit⟩

theorem positionsUpdate_brief (loop k : Int) : ∀ (ps : List (Int × Int × Int)) (us : Units),
    ((positionsUpdate loop ps us).1 k).map briefOf = (us k).map briefOf
  | [], us => rfl
  | (t, x, y) :: ps, us => by
    simp only [positionsUpdate]
    split
    · rename_i u hu
      simp only
      rw [positionsUpdate_brief loop k ps]
      by_cases h : k = t
      · subst h; simp [hu, briefOf]
      · rw [Units.set_ne _ _ h]
    · exact positionsUpdate_brief loop k ps us

theorem touchCreator_brief (s : SState) (loop : Int) (c : Option Int) (k : Int) :
    ((touchCreator s loop c).1 k).map briefOf = (s.units k).map briefOf := by
  unfold touchCreator
  split
  · rfl
  · split
    · rfl
    · rename_i c _ u hu
      by_cases h : k = c
      · subst h; simp [hu, briefOf]
      · simp only [Units.set_ne _ _ h]

theorem transition_brief {bld : Build} {s s' : SState} {e : SEvent} {it : Item} (k : Int)
    (h : transition bld s e = .ok (s', it)) :
    (s'.units k).map briefOf = briefStep k ((s.units k).map briefOf) e := by
  cases e with
  | game l user nm ge =>
    simp only [transition] at h
    obtain ⟨⟨s1, e1, h1⟩, hh, hk⟩ := Res.bind_eq_ok.1 h
    simp only [Res.pure_eq, Res.ok.injEq, Prod.mk.injEq] at hk
    rw [← hk.1]
    have hc := handleGame_core hh k
    show _ = (s.units k).map briefOf
    have : ∀ a b : Option SUnit, a.map SUnit.core = b.map SUnit.core → a.map briefOf = b.map briefOf := by
      intro a b hab
      cases a <;> cases b <;> simp_all [SUnit.core, briefOf]
    exact this _ _ hc
  | tracker l te =>
    simp only [transition] at h
    obtain ⟨⟨s1, e1, h1⟩, hh, hk⟩ := Res.bind_eq_ok.1 h
    simp only [Res.pure_eq, Res.ok.injEq, Prod.mk.injEq] at hk
    rw [← hk.1]
    cases te with
    | playerStats p st =>
      simp only [handleTracker, Res.ok.injEq, Prod.mk.injEq] at hh
      rw [← hh.1]; rfl
    | unitOwnerChange e =>
      simp only [handleTracker, Res.ok.injEq, Prod.mk.injEq] at hh
      rw [← hh.1]; rfl
    | upgrade e =>
      simp only [handleTracker, Res.ok.injEq, Prod.mk.injEq] at hh
      rw [← hh.1]; rfl
    | playerSetup e =>
      simp only [handleTracker, Res.ok.injEq] at hh
      have : (handlePlayerSetup s e).1.units = s.units := by
        unfold handlePlayerSetup; split
        · rfl
        · split <;> rfl
      rw [hh] at this
      simp only at this
      rw [this]; rfl
    | unitPosition e =>
      simp only [handleTracker, handleUnitPosition] at hh
      obtain ⟨ps, _, h2⟩ := Res.bind_eq_ok.1 hh
      simp only [Res.pure_eq, Res.ok.injEq, Prod.mk.injEq] at h2
      rw [← h2.1]
      exact positionsUpdate_brief ..
    | unitDone e =>
      simp only [handleTracker, Res.ok.injEq, handleUnitDone] at hh
      simp only [briefStep]
      by_cases hke : k = e.unitTagIndex
      · subst hke
        rw [if_pos rfl]
        split at hh <;> rename_i hu <;> simp only [Prod.mk.injEq] at hh <;> rw [← hh.1]
        · simp only [Units.set_self, hu]; rfl
        · rw [hu]; rfl
      · rw [if_neg (Ne.symm hke)]
        split at hh <;> simp only [Prod.mk.injEq] at hh <;> rw [← hh.1]
        simp only [Units.set_ne _ _ hke]
    | unitInit e =>
      simp only [handleTracker, Res.ok.injEq, handleUnitInit, Prod.mk.injEq] at hh
      rw [← hh.1]
      simp only [briefStep]
      by_cases hke : k = e.unitTagIndex
      · subst hke
        rw [if_pos rfl]
        cases hu : s.units e.unitTagIndex with
        | none => simp only [Units.set_self]; rfl
        | some u => simp only [Units.set_self]; rfl
      · rw [if_neg (Ne.symm hke)]
        split <;> rw [Units.set_ne _ _ hke]
    | unitTypeChange e =>
      simp only [handleTracker, Res.ok.injEq, handleUnitTypeChange] at hh
      simp only [briefStep]
      by_cases hke : k = e.unitTagIndex
      · subst hke
        rw [if_pos rfl]
        split at hh <;> rename_i hu <;> simp only [Prod.mk.injEq] at hh <;> rw [← hh.1, hu] <;>
          simp only [Units.set_self] <;> rfl
      · rw [if_neg (Ne.symm hke)]
        split at hh <;> simp only [Prod.mk.injEq] at hh <;> rw [← hh.1] <;> simp only [Units.set_ne _ _ hke]
    | unitBorn e =>
      simp only [handleTracker, Res.ok.injEq, handleUnitBorn] at hh
      simp only [briefStep]
      have ht := touchCreator_brief s l e.creatorUnitTagIndex k
      by_cases hke : k = e.unitTagIndex
      · subst hke
        rw [if_pos rfl]
        split at hh <;> rename_i hu <;> simp only [Prod.mk.injEq] at hh <;> rw [← hh.1, ← ht, hu] <;>
          simp only [Units.set_self] <;> rfl
      · rw [if_neg (Ne.symm hke)]
        split at hh <;> simp only [Prod.mk.injEq] at hh <;> rw [← hh.1] <;> simp only [Units.set_ne _ _ hke, ht]
    | unitDied e =>
      simp only [handleTracker, handleUnitDied] at hh
      obtain ⟨users, _, h2⟩ := Res.bind_eq_ok.1 hh
      have key : ((s.units.remove e.unitTagIndex) k).map briefOf = briefStep k ((s.units k).map briefOf) (.tracker l (.unitDied e)) := by
        simp only [briefStep]
        by_cases hke : k = e.unitTagIndex
        · subst hke; simp
        · rw [if_neg (Ne.symm hke), Units.remove_ne _ hke]
      split at h2 <;> simp only [Res.pure_eq, Res.ok.injEq, Prod.mk.injEq] at h2 <;> rw [← h2.1] <;> exact key

/-- After any history, type name, owner and construction flag of every unit are the fold of the life-cycle
events about it: an init names and marks it, a birth or an init of an unknown unit gives the owner, a type
change renames it, a completion clears the flag, a death forgets it; no other event of any kind matters. -/
theorem C80_type_owner_flag (bld : Build) (es : List SEvent) (s s' : SState) (h : runEvents bld s es = .ok s') (k : Int) :
    (s'.units k).map briefOf = es.foldl (briefStep k) ((s.units k).map briefOf) := by
  induction es generalizing s with
  | nil => simp only [runEvents, Res.ok.injEq] at h; rw [h]; rfl
  | cons e es ih =>
    simp only [runEvents] at h
    split at h
    · rename_i s1 it h1
      rw [ih s1 h, transition_brief k h1]; rfl
    · cases h
    · cases h

/-- Events about other units do not matter. -/
theorem C80_only_own_events (k : Int) (b : Option Brief) (e : SEvent)
    (h : ∀ l te, e = .tracker l te → k ∉ (match te with
      | .unitBorn x => [x.unitTagIndex] | .unitInit x => [x.unitTagIndex] | .unitTypeChange x => [x.unitTagIndex]
      | .unitDone x => [x.unitTagIndex] | .unitDied x => [x.unitTagIndex] | _ => [])) : briefStep k b e = b := by
  cases e with
  | game => rfl
  | tracker l te =>
    have := h l te rfl
    cases te <;> first | rfl | (simp only [List.mem_singleton] at this; simp [briefStep, Ne.symm this])

/-! ## C81: births -/

/-- A birth at a free index gives the unit the type, owner and position of the event.  Missing: a birth at
an index that is still in the map, where the old unit is kept (`C81_birth_refuted`). -/
theorem C81_birth_partial (bld : Build) (s : SState) (loop : Int) (e : UnitBornEvent) (hfree : s.units e.unitTagIndex = none) :
    ∃ s' hint u, handleTracker bld s loop (.unitBorn e) = .ok (s', .unitBorn e, hint) ∧
      s'.units e.unitTagIndex = some u ∧ u.name = e.unitTypeName ∧ u.userId = some e.controlPlayerId ∧
      u.pos = ⟨e.x, e.y, 0⟩ := by
  obtain ⟨s', hint, u, h1, h2, h3, h4, h5, _⟩ := C42_born_fields bld s loop e hfree
  exact ⟨s', hint, u, h1, h2, h3, h4, h5⟩

/-- A second birth at index 1 (another recycle count, type, owner and place) leaves the old unit there. -/
theorem C81_birth_refuted :
    (match runEvents .debug demoState [demoBorn 1 1 1 "Marine",
        .tracker 9 (.unitBorn ⟨1, 2, str "Zergling", 2, 2, 50, 60, none, none, none⟩)] with
      | .ok s => (s.units 1).map (fun u => (u.name, u.userId, u.pos, u.lastGameLoop))
      | _ => none) = some (str "Marine", some 1, ⟨0, 0, 0⟩, 9) := by
  decide +kernel

/-! ## C68: ownership -/

def demoOwner (loop idx player : Int) : SEvent := .tracker loop (.unitOwnerChange ⟨idx, 1, player, player⟩)

/-- An ownership change of a unit. -/
def isOwnerChange : SEvent → Bool
  | .tracker _ (.unitOwnerChange _) => true
  | _ => false

/-- After an ownership change of a known unit the unit's owner is the new player exactly when it was already:
the unit keeps the owner it had.  Missing: the owner becoming the new one (`C68_owner_change_refuted`). -/
theorem C68_owner_change_partial (bld : Build) (s0 s s' : SState) (es : List SEvent) (l : Int) (e : UnitOwnerChangeEvent)
    (h : runEvents bld s0 es = .ok s) (h' : runEvents bld s0 (es ++ [.tracker l (.unitOwnerChange e)]) = .ok s') (u : SUnit)
    (hu : s.units e.unitTagIndex = some u) :
    ∃ u', s'.units e.unitTagIndex = some u' ∧ u'.userId = u.userId ∧
      (u'.userId = some e.controlPlayerId ↔ u.userId = some e.controlPlayerId) := by
  have hb := C80_type_owner_flag bld es s0 s h e.unitTagIndex
  have hb' := C80_type_owner_flag bld _ s0 s' h' e.unitTagIndex
  rw [List.foldl_append, ← hb, hu] at hb'
  cases hs : s'.units e.unitTagIndex with
  | none => rw [hs] at hb'; cases hb'
  | some u' =>
    rw [hs] at hb'
    have ho : u'.userId = u.userId := congrArg Brief.owner (Option.some.inj hb')
    exact ⟨u', rfl, ho, by rw [ho]⟩

/-- Ownership changes leave no trace and never fail: a history ends in the same state (or fails the same
way) as the history without them. -/
theorem C68_harmless_partial (bld : Build) (s : SState) (es : List SEvent) :
    runEvents bld s es = runEvents bld s (es.filter (fun e => !isOwnerChange e)) := by
  induction es generalizing s with
  | nil => rfl
  | cons e es ih =>
    by_cases he : isOwnerChange e = true
    · rw [List.filter_cons_of_neg (by simp [he]), ← ih s]
      cases e with
      | game l w n ge => cases he
      | tracker l te =>
        cases te with
        | unitOwnerChange d => rfl
        | _ => cases he
    · rw [List.filter_cons_of_pos (by simp [he])]
      simp only [runEvents]
      cases transition bld s e with
      | ok p => exact ih p.1
      | err x => rfl
      | panic => rfl

example : (match runEvents .debug demoState [demoBorn 1 1 1 "Marine", demoOwner 2 1 1] with
    | .ok s => (s.units 1).map (fun u => u.userId)
    | _ => none) = some (some 1) := by decide +kernel

/-- Unit 1 of player 1 is handed to player 2 (mind control): the state still says player 1, also after
later events about the unit. -/
theorem C68_owner_change_refuted :
    (match runEvents .debug demoState [demoBorn 1 1 1 "Marine", demoOwner 2 1 2, .tracker 3 (.unitDone ⟨1, 1⟩)] with
      | .ok s => (s.units 1).map (fun u => u.userId)
      | _ => none) = some (some 1) := by
  decide +kernel

/-! ## C69: the remove mask of a selection event -/

/-- The active selection after a selection event is exactly the list of added units, whatever the remove
mask, the subgroups and the previous selection are.  The full claim ("what the mask keeps, plus what is
added") holds only when nothing is kept; see `C69_remove_mask_refuted`. -/
theorem C69_selection_replaced_partial (s : SState) (hw : s.Wf) (loop user : Int) (e : SelectionDeltaEvent)
    (hu : (getUser s.users user).isSome) (h10 : e.controlGroupId = 10) :
    ∃ s' e' hint, handleGame s loop user (.selectionDelta e) = .ok (s', e', hint) ∧
      groupOf s' user 10 = some e.addUnitTags := by
  obtain ⟨s', e', hint, h1, h2⟩ := C44_group_step s hw loop user (.selectionDelta e) hu 10
    (by simp [groupIndexOf, h10]) (by omega)
  exact ⟨s', e', hint, h1, by have := h2 user 10; simpa [h10] using this⟩

/-- Which positions of the old selection a remove mask takes away.  (`bit` reads bit `i` of the byte string of a bit mask; the
order of the bits in the bytes does not matter below.) -/
def removedAt (bit : List UInt8 → Nat → Bool) : SelectionMask → Nat → Bool
  | .none, _ => false
  | .mask bits, i => bit bits i
  | .oneIndices l, i => decide ((i : Int) ∈ l)
  | .zeroIndices l, i => !decide ((i : Int) ∈ l)

/-- What a remove mask leaves of a selection. -/
def keptUnits (bit : List UInt8 → Nat → Bool) (mask : SelectionMask) (sel : List Int) : List Int :=
  (sel.zipIdx.filter (fun p => !removedAt bit mask p.2)).map Prod.fst

/-- Exactly when the claim holds: the selection after the event is "what the mask keeps of the old one, and then what is added" iff
the mask keeps nothing.  Missing: every event whose mask keeps a unit. -/
theorem C69_remove_mask_partial (bit : List UInt8 → Nat → Bool) (s : SState) (hw : s.Wf) (loop user : Int) (e : SelectionDeltaEvent)
    (sel : List Int) (hsel : groupOf s user 10 = some sel) (h10 : e.controlGroupId = 10) :
    ∃ s' e' hint, handleGame s loop user (.selectionDelta e) = .ok (s', e', hint) ∧
      (groupOf s' user 10 = some (keptUnits bit e.removeMask sel ++ e.addUnitTags) ↔
        ∀ i, i < sel.length → removedAt bit e.removeMask i = true) := by
  have hu : (getUser s.users user).isSome := by
    cases hg : getUser s.users user with
    | none => simp [groupOf, hg] at hsel
    | some u => rfl
  obtain ⟨s', e', hint, h1, h2⟩ := C69_selection_replaced_partial s hw loop user e hu h10
  refine ⟨s', e', hint, h1, ?_⟩
  rw [h2, Option.some.injEq]
  constructor
  · intro h i hi
    have hl := congrArg List.length h
    rw [List.length_append] at hl
    have hk : keptUnits bit e.removeMask sel = [] := List.eq_nil_of_length_eq_zero (by omega)
    unfold keptUnits at hk
    rw [List.map_eq_nil_iff, List.filter_eq_nil_iff] at hk
    have := hk (sel[i], i) (List.mem_zipIdx_iff_getElem?.2 (by simp [hi]))
    simpa using this
  · intro h
    have hk : keptUnits bit e.removeMask sel = [] := by
      unfold keptUnits
      rw [List.map_eq_nil_iff, List.filter_eq_nil_iff]
      rintro ⟨x, i⟩ hm
      have hi := List.mem_zipIdx_iff_getElem?.1 hm
      simp only at hi
      obtain ⟨hlt, _⟩ := List.getElem?_eq_some_iff.1 hi
      simp [h i hlt]
    rw [hk, List.nil_append]

/-- Units 7 and 8 are selected; an event with an empty remove mask (`None`: remove nothing) adds unit 9.
The selection becomes [9] instead of [7, 8, 9]. -/
theorem C69_remove_mask_refuted :
    demoGroups [.game 1 0 none (demoSel 10 [7, 8]),
      .game 2 0 none (.selectionDelta ⟨10, 0, .none, [], [9]⟩)] =
      some [some [], some [], some [], some [9]] := by
  decide +kernel

/-! ## C70, C71: marks and radius against selections and unit types -/

/-- The selected units of a user are marked right after the selection is made (`C47_select`), but not
always: after `Set`, unit 1 is still in the active selection and in group 0, yet unmarked; and when user 1
deselects it, user 0's selected unit is unmarked. -/
theorem C70_marks_refuted :
    (match runEvents .debug demoState [demoBorn 1 1 1 "Marine", .game 2 0 none (demoSel 10 [demoTag]),
        .game 3 0 none (demoGrp 0 .set)] with
      | .ok s => some (groupOf s 0 10, (s.units 1).map (fun u => u.isSelected))
      | _ => none) = some (some [demoTag], some false) ∧
    (match runEvents .debug demoState [demoBorn 1 1 1 "Marine", .game 2 0 none (demoSel 10 [demoTag]),
        .game 3 1 none (demoSel 10 [demoTag]), .game 4 1 none (demoSel 10 [])] with
      | .ok s => some (groupOf s 0 10, (s.units 1).map (fun u => u.isSelected))
      | _ => none) = some (some [demoTag], some false) := by
  decide +kernel

/-- What holds: directly after an active-selection event or a recall by a known user, every present unit of
the new selection is marked. -/
theorem C70_marks_partial (s s' : SState) (hw : s.Wf) (loop user : Int) (e : SelectionDeltaEvent) (e' : GameEvt) (hint : Hint)
    (h10 : e.controlGroupId = 10) (h : handleGame s loop user (.selectionDelta e) = .ok (s', e', hint))
    (t : Int) (ht : t ∈ e.addUnitTags) (u : SUnit) (hu : s'.units (tagIndex t) = some u) : u.isSelected = true := by
  have := C47_select s s' hw loop user e e' hint h10 h (tagIndex t)
  have hm : tagIndex t ∈ e.addUnitTags.map tagIndex := List.mem_map.2 ⟨t, ht, rfl⟩
  simp only [if_pos hm] at this
  rw [hu] at this
  cases hs : s.units (tagIndex t) with
  | none => rw [hs] at this; cases this
  | some u0 =>
    rw [hs] at this
    simp only [Option.map_some, Option.some.injEq, look, Prod.mk.injEq] at this
    exact this.1

/-- The radius a unit type has in the balance data (0.45 if unknown). -/
def typeRadius (bal : BalUnits) (name : Str) : Rat := (unitSizedColor name 0 bal).1

/-- A unit of a type with radius 1 is selected while under construction (radius 2), completed (radius reset
to 1, mark kept) and deselected: it is unmarked with half the radius of its type. -/
theorem C71_radius_refuted :
    (match runEvents .debug (SState.initial [(0, str "A")] (fun n => if n = str "Pylon" then
          some ⟨some 1, [], [], [], none⟩ else none))
        [.tracker 1 (.unitInit ⟨1, 1, str "Pylon", 1, 1, 0, 0⟩), .game 2 0 none (demoSel 10 [demoTag]),
         .tracker 3 (.unitDone ⟨1, 1⟩), .game 4 0 none (demoSel 10 [])] with
      | .ok s => (s.units 1).map (fun u => (u.name, u.isSelected, u.radius, typeRadius s.balance u.name))
      | _ => none) = some (str "Pylon", false, 1 / 2, 1) := by
  decide +kernel

theorem typeRadius_user (bal : BalUnits) (name : Str) (p : Int) : (unitSizedColor name p bal).1 = typeRadius bal name := rfl

/-- What holds: a freshly born unit has its type's radius, and no history of game events changes an
unmarked unit's radius from its type's (`C47_never_compounds` with a birth before). -/
theorem C71_radius_partial (bld : Build) (s s1 s2 : SState) (hw : s.Wf) (loop : Int) (b : UnitBornEvent) (e1 : TrackerEvt)
    (h1 : Hint) (es : List SEvent) (hfree : s.units b.unitTagIndex = none)
    (hb : handleTracker bld s loop (.unitBorn b) = .ok (s1, e1, h1))
    (hg : ∀ e ∈ es, ∃ l u n ge, e = .game l u n ge) (h : runEvents bld s1 es = .ok s2) (u : SUnit)
    (hu : s2.units b.unitTagIndex = some u) :
    u.radius = if u.isSelected then typeRadius s.balance b.unitTypeName * 2 else typeRadius s.balance b.unitTypeName := by
  have hw1 : s1.Wf := by
    have : transition bld s (.tracker loop (.unitBorn b)) = .ok (s1, ⟨.tracker loop e1, h1⟩) := by
      simp only [transition, hb, Res.bind_ok]; rfl
    exact transition_wf hw this
  have ht : (touchCreator s loop b.creatorUnitTagIndex).1 b.unitTagIndex = none := by
    have := touchCreator_some s loop b.creatorUnitTagIndex b.unitTagIndex
    rw [hfree] at this
    simpa using this
  simp only [handleTracker, handleUnitBorn, ht, Res.ok.injEq, Prod.mk.injEq] at hb
  have hu1 := congrFun (congrArg SState.units hb.1) b.unitTagIndex
  simp only [Units.set_self] at hu1
  rw [C47_never_compounds bld s1 s2 hw1 es hg h b.unitTagIndex _ u hu1.symm hu]
  rfl

/-! ## A concrete history for C42, C67, C76, C80 -/

def demoHistory : List SEvent :=
  [.tracker 1 (.unitInit ⟨1, 1, str "Pylon", 1, 1, 3, 4⟩), demoBorn 1 2 1 "Probe", .game 2 0 none (demoSel 10 [demoTag]),
   demoDied 3 2 1, .tracker 5 (.unitDone ⟨1, 1⟩), .tracker 7 (.unitTypeChange ⟨1, 1, str "Gateway"⟩)]

def demoFinal : SState := match runEvents .debug demoState demoHistory with
  | .ok s => s
  | _ => demoState

theorem demo_runs : runEvents .debug demoState demoHistory = .ok demoFinal := by
  unfold demoFinal
  cases h : runEvents .debug demoState demoHistory with
  | ok s => rfl
  | err e =>
    have : (match runEvents .debug demoState demoHistory with | .ok _ => true | _ => false) = true := by decide +kernel
    rw [h] at this; cases this
  | panic =>
    have : (match runEvents .debug demoState demoHistory with | .ok _ => true | _ => false) = true := by decide +kernel
    rw [h] at this; cases this

example : (demoFinal.units 1).isSome = true := (C42_present .debug _ _ _ demoFinal 1 demo_runs).2 (by decide +kernel)
example : ¬ (demoFinal.units 2).isSome = true := fun h => by
  have := (C42_present .debug _ _ _ demoFinal 2 demo_runs).1 h
  revert this; decide +kernel
example : (demoFinal.units 1).map briefOf = some ⟨str "Gateway", some 1, false⟩ := by
  rw [C80_type_owner_flag .debug demoHistory demoState demoFinal demo_runs 1]; decide +kernel
example : ∀ u, demoFinal.units 1 = some u → u.tagIndex = 1 := C67_units_keyed_by_index .debug _ _ _ demoFinal demo_runs 1
example : ∀ u, demoFinal.units 1 = some u → u.initGameLoop ≤ u.lastGameLoop := fun u hu =>
  (C76_time_stamps .debug _ _ demoHistory demoFinal (by decide) demo_runs 1 u hu).1
example : (demoFinal.units 1).map (fun u => (u.initGameLoop, u.lastGameLoop)) = some (1, 7) := by decide +kernel

/-! ## C77–C79: users -/

/-- In a new replay state every group is empty. -/
theorem initial_groups (players : List (Int × Str)) (bal : BalUnits) (user : Int) (i : Nat) (g : List Int)
    (h : groupOf (SState.initial players bal) user i = some g) : g = [] := by
  unfold groupOf at h
  cases hu : getUser (SState.initial players bal).users user with
  | none => rw [hu] at h; cases h
  | some u =>
    rw [hu] at h
    simp only [Option.bind_some] at h
    have := getUser_mem hu
    obtain ⟨p, _, hp⟩ := List.mem_map.1 this
    simp only [Prod.mk.injEq] at hp
    rw [← hp.2] at h
    simp only [UserState.new, List.getElem?_replicate] at h
    split at h
    · simpa using h.symm
    · cases h

/-- Every tag in any control group of a user was named by an earlier selection event of that very user. -/
theorem C77_groups_only_selected (bld : Build) (players : List (Int × Str)) (bal : BalUnits) (es : List SEvent) (s : SState)
    (hd : (players.map Prod.fst).Nodup)
    (hnn : ∀ l w n ge j, SEvent.game l w n ge ∈ es → groupIndexOf ge = some j → 0 ≤ j)
    (h : runEvents bld (SState.initial players bal) es = .ok s) (user : Int) (i : Nat) (g : List Int) (t : Int)
    (hg : groupOf s user i = some g) (ht : t ∈ g) :
    ∃ l n e, SEvent.game l user n (.selectionDelta e) ∈ es ∧ t ∈ e.addUnitTags := by
  have gen : ∀ (es pre : List SEvent) (s s' : SState),
      (∀ l w n ge j, SEvent.game l w n ge ∈ es → groupIndexOf ge = some j → 0 ≤ j) → s.Wf →
      (∀ user i g t, groupOf s user i = some g → t ∈ g →
        ∃ l n e, SEvent.game l user n (.selectionDelta e) ∈ pre ∧ t ∈ e.addUnitTags) →
      runEvents bld s es = .ok s' → ∀ user i g t, groupOf s' user i = some g → t ∈ g →
        ∃ l n e, SEvent.game l user n (.selectionDelta e) ∈ pre ++ es ∧ t ∈ e.addUnitTags := by
    intro es
    induction es with
    | nil =>
      intro pre s s' _ _ hp h
      simp only [runEvents, Res.ok.injEq] at h
      rw [List.append_nil, ← h]
      exact hp
    | cons e es ih =>
      intro pre s s' hnn hw hp h
      simp only [runEvents] at h
      split at h
      · rename_i s1 it h1
        have := ih (pre ++ [e]) s1 s' (fun l w n ge j hm => hnn l w n ge j (by simp [hm])) (transition_wf hw h1) ?_ h
        · intro user i g t hg ht
          simpa using this user i g t hg ht
        · intro user i g t hg ht
          have old : ∀ i' g', groupOf s user i' = some g' → t ∈ g' →
              ∃ l n e', SEvent.game l user n (.selectionDelta e') ∈ pre ++ [e] ∧ t ∈ e'.addUnitTags := by
            intro i' g' h1 h2
            obtain ⟨l, n, e', h3, h4⟩ := hp user i' g' t h1 h2
            exact ⟨l, n, e', by simp [h3], h4⟩
          cases e with
          | tracker l te =>
            simp only [transition] at h1
            obtain ⟨⟨s2, e2, hh2⟩, hh, hk⟩ := Res.bind_eq_ok.1 h1
            simp only [Res.pure_eq, Res.ok.injEq, Prod.mk.injEq] at hk
            rw [← hk.1] at hg
            by_cases hdied : ∃ d, te = .unitDied d
            · obtain ⟨d, rfl⟩ := hdied
              obtain ⟨s3, hint, h3, h4⟩ := C43_death_groups_partial bld s hw l d
              rw [hh] at h3
              simp only [Res.ok.injEq, Prod.mk.injEq] at h3
              rw [h3.1, h4] at hg
              cases ho : groupOf s user i with
              | none => rw [ho] at hg; cases hg
              | some g0 =>
                rw [ho] at hg
                simp only [Option.map_some, Option.some.injEq] at hg
                subst hg
                exact old i g0 ho (List.mem_filter.1 ht).1
            · rw [C44_tracker_events bld s s2 l te e2 hh2 (fun d hd => hdied ⟨d, hd⟩) hh] at hg
              exact old i g hg ht
          | game l w nm ge =>
            simp only [transition] at h1
            obtain ⟨⟨s2, e2, hh2⟩, hh, hk⟩ := Res.bind_eq_ok.1 h1
            simp only [Res.pure_eq, Res.ok.injEq, Prod.mk.injEq] at hk
            rw [← hk.1] at hg
            cases hgi : groupIndexOf ge with
            | none =>
              rw [C44_other_game_events s s2 l w ge e2 hh2 hgi hh] at hg
              exact old i g hg ht
            | some j =>
              by_cases hwk : (getUser s.users w).isSome
              · by_cases hj : 0 ≤ j ∧ j ≤ 10
                · obtain ⟨s3, e3, h3, h4, h5⟩ := C44_group_step s hw l w ge hwk j hgi hj
                  rw [hh] at h4
                  simp only [Res.ok.injEq, Prod.mk.injEq] at h4
                  rw [h4.1] at hg
                  cases ge with
                  | selectionDelta e' =>
                    simp only [GroupStep] at h5
                    rw [h5] at hg
                    split at hg
                    · rename_i hc
                      simp only [Option.some.injEq] at hg
                      refine ⟨l, nm, e', ?_, by rw [hg]; exact ht⟩
                      rw [hc.1]; simp
                    · exact old i g hg ht
                  | controlGroupUpdate e' =>
                    simp only [GroupStep] at h5
                    split at h5
                    · rw [h5] at hg; split at hg
                      · exact old 10 g hg ht
                      · exact old i g hg ht
                    · rw [h5] at hg; split at hg
                      · simp only [Option.some.injEq] at hg; subst hg; simp at ht
                      · exact old i g hg ht
                    · rw [h5] at hg; split at hg
                      · exact old _ g hg ht
                      · exact old i g hg ht
                    · have h6 := h5 user i
                      split at h6
                      · obtain ⟨o, sel, new, g1, g2, g3, _, g5⟩ := h6
                        rw [g3] at hg
                        simp only [Option.some.injEq] at hg
                        subst hg
                        rcases (g5 t).1 ht with h | h
                        · exact old i o g1 h
                        · exact old 10 sel g2 h
                      · rw [h6] at hg; exact old i g hg ht
                    · obtain ⟨u, hu⟩ := Option.isSome_iff_exists.1 hwk
                      obtain ⟨sel, hsel⟩ := Option.isSome_iff_exists.1 ((groupOf_lt hw hu 10).2.1 (by omega))
                      have h6 := h5 sel hsel user i
                      rw [h6] at hg
                      split at hg
                      · rename_i hc
                        simp only [Option.some.injEq] at hg; subst hg
                        exact old 10 sel (hc.1 ▸ hsel) ht
                      · split at hg
                        · cases ho : groupOf s user i with
                          | none => rw [ho] at hg; cases hg
                          | some g0 =>
                            rw [ho] at hg
                            simp only [Option.map_some, Option.some.injEq] at hg
                            subst hg
                            exact old i g0 ho (List.mem_filter.1 ht).1
                        · exact old i g hg ht
                    · obtain ⟨u, hu⟩ := Option.isSome_iff_exists.1 hwk
                      obtain ⟨sel, hsel⟩ := Option.isSome_iff_exists.1 ((groupOf_lt hw hu 10).2.1 (by omega))
                      have h6 := h5 sel hsel user i
                      split at h6
                      · rename_i hc
                        obtain ⟨o, new, g1, g3, _, g5⟩ := h6
                        rw [g3] at hg
                        simp only [Option.some.injEq] at hg
                        subst hg
                        rcases (g5 t).1 ht with h | h
                        · exact old i o g1 h
                        · exact old 10 sel (hc.1 ▸ hsel) h
                      · rw [h6] at hg
                        split at hg
                        · cases ho : groupOf s user i with
                          | none => rw [ho] at hg; cases hg
                          | some g0 =>
                            rw [ho] at hg
                            simp only [Option.map_some, Option.some.injEq] at hg
                            subst hg
                            exact old i g0 ho (List.mem_filter.1 ht).1
                        · exact old i g hg ht
                  | _ => simp [groupIndexOf] at hgi
                · have h0 := hnn l w nm ge j (by simp) hgi
                  have hp := (C46_panic_iff_partial s hw l w ge (by
                    intro j' hj'; rw [hgi] at hj'; simp only [Option.some.injEq] at hj'; omega)).2 ⟨hwk, j, hgi, by omega⟩
                  rw [hp] at hh; cases hh
              · have : s2.users = s.users := by
                  rcases handleGame_users hh with h | ⟨u, _, hu, _⟩
                  · exact h
                  · rw [hu] at hwk; simp at hwk
                unfold groupOf at hg
                rw [this] at hg
                exact old i g hg ht
      · cases h
      · cases h
  obtain ⟨l, n, e, h1, h2⟩ := gen es [] _ s hnn (initial_wf players bal hd) (by
    intro user i g t hg ht
    rw [initial_groups players bal user i g hg] at ht
    simp at ht) h user i g t hg ht
  exact ⟨l, n, e, by simpa using h1, h2⟩

/-- A user's event changes nothing of any other user, and of the acting user only the control groups and
the camera.  No user is added or removed. -/
theorem C78_users_isolated (s s' : SState) (loop user : Int) (e e' : GameEvt) (hint : Hint)
    (h : handleGame s loop user e = .ok (s', e', hint)) :
    (∀ w, w ≠ user → getUser s'.users w = getUser s.users w) ∧
    s'.users.map Prod.fst = s.users.map Prod.fst ∧
    (∀ u', getUser s'.users user = some u' → ∃ u, getUser s.users user = some u ∧ u'.name = u.name ∧
      u'.setupPlayerId = u.setupPlayerId ∧ u'.setupSlotId = u.setupSlotId ∧ u'.groups.length = u.groups.length) := by
  rcases handleGame_users h with hu | ⟨u, v, hu, hv, h1, h2, h3, h4⟩
  · rw [hu]
    exact ⟨fun _ _ => rfl, rfl, fun u' hu' => ⟨u', hu', rfl, rfl, rfl, rfl⟩⟩
  · rw [hv]
    refine ⟨fun w hw => getUser_setUser_ne v hw, setUser_keys _ _ _, ?_⟩
    intro u' hu'
    rw [getUser_setUser_self v hu] at hu'
    simp only [Option.some.injEq] at hu'
    subst hu'
    exact ⟨u, hu, h1, h2, h3, h4⟩

end S2
