import Verif.State.Lemmas
/-! # Lemmas about users and control groups -/
namespace S2

theorem getUser_setUser_self {users : List (Int × UserState)} {id : Int} {u : UserState} (v : UserState)
    (h : getUser users id = some u) : getUser (setUser users id v) id = some v := by
  induction users with
  | nil => simp [getUser] at h
  | cons p rest ih =>
    obtain ⟨k, w⟩ := p
    unfold getUser at h
    unfold setUser
    by_cases hk : k = id
    · simp [hk, getUser]
    · rw [if_neg hk] at h ⊢
      simp only [getUser, if_neg hk]
      exact ih h

theorem getUser_setUser_ne {users : List (Int × UserState)} {id j : Int} (v : UserState) (h : j ≠ id) :
    getUser (setUser users id v) j = getUser users j := by
  induction users with
  | nil => rfl
  | cons p rest ih =>
    obtain ⟨k, w⟩ := p
    unfold setUser
    by_cases hk : k = id
    · have : k ≠ j := fun e => h (e ▸ hk)
      simp [hk, getUser, Ne.symm h]
    · rw [if_neg hk]
      simp only [getUser]
      by_cases hj : k = j <;> simp [hj, ih]

theorem setUser_keys (users : List (Int × UserState)) (id : Int) (v : UserState) :
    (setUser users id v).map Prod.fst = users.map Prod.fst := by
  induction users with
  | nil => rfl
  | cons p rest ih =>
    obtain ⟨k, w⟩ := p
    unfold setUser
    by_cases hk : k = id
    · simp [hk]
    · simp [if_neg hk, ih]

theorem setUser_mem {users : List (Int × UserState)} {id : Int} {v : UserState} {p : Int × UserState}
    (h : p ∈ setUser users id v) : p ∈ users ∨ p = (id, v) := by
  induction users with
  | nil => simp [setUser] at h
  | cons q rest ih =>
    obtain ⟨k, w⟩ := q
    unfold setUser at h
    by_cases hk : k = id
    · rw [if_pos hk] at h
      rcases List.mem_cons.1 h with h | h
      · exact .inr (by rw [h, hk])
      · exact .inl (by simp [h])
    · rw [if_neg hk] at h
      rcases List.mem_cons.1 h with h | h
      · exact .inl (by simp [h])
      · rcases ih h with h | h
        · exact .inl (by simp [h])
        · exact .inr h

theorem getUser_mem {users : List (Int × UserState)} {id : Int} {u : UserState} (h : getUser users id = some u) :
    (id, u) ∈ users := by
  induction users with
  | nil => simp [getUser] at h
  | cons p rest ih =>
    obtain ⟨k, w⟩ := p
    unfold getUser at h
    by_cases hk : k = id
    · simp only [if_pos hk, Option.some.injEq] at h; simp [hk, h]
    · rw [if_neg hk] at h; simp [ih h]

theorem getUser_of_mem {users : List (Int × UserState)} {id : Int} {u : UserState} (hn : (users.map Prod.fst).Nodup)
    (h : (id, u) ∈ users) : getUser users id = some u := by
  induction users with
  | nil => simp at h
  | cons p rest ih =>
    obtain ⟨k, w⟩ := p
    simp only [List.map_cons, List.nodup_cons] at hn
    unfold getUser
    rcases List.mem_cons.1 h with h | h
    · cases h; simp
    · by_cases hk : k = id
      · exact absurd (List.mem_map.2 ⟨_, h, rfl⟩) (hk ▸ hn.1)
      · rw [if_neg hk]; exact ih hn.2 h

theorem removeFromGroups_ok {groups g : List (List Int)} {t : Int} (h : removeFromGroups groups t = .ok g) :
    g = (groups.take 11).map (fun g => g.filter (fun x => x ≠ t)) ++ groups.drop 11 := by
  unfold removeFromGroups at h
  split at h
  · cases h
  · simpa using h.symm

theorem removeFromGroups_len {groups g : List (List Int)} {t : Int} (h : removeFromGroups groups t = .ok g) :
    g.length = groups.length := by
  rw [removeFromGroups_ok h]; simp; omega

theorem removeFromGroups_eq {groups : List (List Int)} (hl : groups.length = 11) (t : Int) :
    removeFromGroups groups t = .ok (groups.map (fun g => g.filter (fun x => x ≠ t))) := by
  unfold removeFromGroups
  rw [if_neg (by omega), List.take_of_length_le (by omega), List.drop_of_length_le (by omega), List.append_nil]

theorem removeFromUsers_keys (t : Int) : ∀ {users users' : List (Int × UserState)},
    removeFromUsers t users = .ok users' → users'.map Prod.fst = users.map Prod.fst
  | [], users', h => by simp only [removeFromUsers, Res.ok.injEq] at h; subst h; rfl
  | (k, u) :: rest, users', h => by
    simp only [removeFromUsers] at h
    obtain ⟨g, _, h2⟩ := Res.bind_eq_ok.1 h
    obtain ⟨r, h3, h4⟩ := Res.bind_eq_ok.1 h2
    simp only [Res.pure_eq, Res.ok.injEq] at h4
    subst h4
    simp [removeFromUsers_keys t h3]

theorem removeFromUsers_eq (t : Int) : ∀ (users : List (Int × UserState)), (∀ p ∈ users, p.2.groups.length = 11) →
    removeFromUsers t users =
      .ok (users.map (fun p => (p.1, { p.2 with groups := p.2.groups.map (fun g => g.filter (fun x => x ≠ t)) })))
  | [], _ => rfl
  | (k, u) :: rest, h => by
    simp only [removeFromUsers]
    rw [removeFromGroups_eq (h (k, u) (by simp)), Res.bind_ok, removeFromUsers_eq t rest (fun p hp => h p (by simp [hp])),
      Res.bind_ok]
    rfl

theorem getUser_map (users : List (Int × UserState)) (f : UserState → UserState) (id : Int) :
    getUser (users.map (fun p => (p.1, f p.2))) id = (getUser users id).map f := by
  induction users with
  | nil => rfl
  | cons p rest ih =>
    obtain ⟨k, u⟩ := p
    simp only [List.map_cons, getUser]
    split
    · rfl
    · exact ih

theorem assignGroup_ok {groups g' : List (List Int)} {i : Int} {g : List Int} (h : assignGroup groups i g = .ok g') :
    i.toNat < groups.length ∧ g' = groups.set i.toNat g := by
  unfold assignGroup at h
  split at h
  · rename_i hl; exact ⟨hl, by simpa using h.symm⟩
  · cases h

theorem assignGroup_eq {groups : List (List Int)} {i : Int} (g : List Int) (h : i.toNat < groups.length) :
    assignGroup groups i g = .ok (groups.set i.toNat g) := by simp [assignGroup, h]

theorem indexGroup_eq {groups : List (List Int)} {i : Int} (h : i.toNat < groups.length) :
    indexGroup groups i = .ok (groups[i.toNat]) := by simp [indexGroup, h]

/-- The groups after taking the units `current` away from groups 0 to 8. -/
def stolen (current : List Int) (groups : List (List Int)) : List (List Int) :=
  groups.mapIdx (fun i g => if i < 9 then g.filter (fun x => x ∉ current) else g)

theorem foldl_filter_eq (current g : List Int) :
    current.foldl (fun g unit => g.filter (fun x => x ≠ unit)) g = g.filter (fun x => x ∉ current) := by
  induction current generalizing g with
  | nil => exact (List.filter_eq_self.2 (by simp)).symm
  | cons c cs ih =>
    simp only [List.foldl_cons, ih, List.filter_filter]
    congr 1
    funext x
    by_cases h : x = c <;> simp [h]

theorem stealLoop_eq {current : List Int} {groups : List (List Int)} (h : 9 ≤ groups.length) :
    stealLoop current groups = .ok (stolen current groups) := by
  unfold stealLoop
  rw [if_neg (by omega)]
  congr 1
  simp only [foldl_filter_eq]
  apply List.ext_getElem?
  intro i
  unfold stolen
  rw [List.getElem?_mapIdx, List.getElem?_append]
  simp only [List.length_map, List.length_take, List.getElem?_map, List.getElem?_take, List.getElem?_drop]
  by_cases hi : i < 9
  · rw [if_pos (by omega)]
    simp [hi]
  · rw [if_neg (by omega), show 9 + (i - min 9 groups.length) = i from by omega]
    cases groups[i]? <;> simp [hi]

@[simp] theorem stolen_length (c : List Int) (g : List (List Int)) : (stolen c g).length = g.length := by simp [stolen]

theorem stealLoop_len {c : List Int} {g g' : List (List Int)} (h : stealLoop c g = .ok g') : g'.length = g.length := by
  have : 9 ≤ g.length := by
    unfold stealLoop at h; split at h
    · cases h
    · omega
  rw [stealLoop_eq this] at h
  simp only [Res.ok.injEq] at h
  subst h; simp

theorem groupsAfter_len {g g' : List (List Int)} {i : Int} {u : GroupUpdate} (h : groupsAfter g i u = .ok g') :
    g'.length = g.length := by
  cases u with
  | set =>
    obtain ⟨_, _, h2⟩ := Res.bind_eq_ok.1 h
    rw [(assignGroup_ok h2).2]; simp
  | clear => rw [(assignGroup_ok h).2]; simp
  | recall =>
    obtain ⟨_, _, h2⟩ := Res.bind_eq_ok.1 h
    rw [(assignGroup_ok h2).2]; simp
  | append =>
    obtain ⟨_, _, h2⟩ := Res.bind_eq_ok.1 h
    obtain ⟨_, _, h3⟩ := Res.bind_eq_ok.1 h2
    rw [(assignGroup_ok h3).2]; simp
  | setAndSteal =>
    obtain ⟨_, _, h2⟩ := Res.bind_eq_ok.1 h
    obtain ⟨_, h3, h4⟩ := Res.bind_eq_ok.1 h2
    obtain ⟨_, _, h5⟩ := Res.bind_eq_ok.1 h4
    rw [(assignGroup_ok h5).2]; simp [stealLoop_len h3]
  | appendAndSteal =>
    obtain ⟨_, _, h2⟩ := Res.bind_eq_ok.1 h
    obtain ⟨_, h3, h4⟩ := Res.bind_eq_ok.1 h2
    obtain ⟨_, _, h5⟩ := Res.bind_eq_ok.1 h4
    rw [(assignGroup_ok h5).2]; simp [stealLoop_len h3]

theorem updGroups_ok {users users' : List (Int × UserState)} {user : Int} {f : List (List Int) → Res (List (List Int))}
    (h : updGroups users user f = .ok users') :
    (getUser users user = none ∧ users' = users) ∨
      ∃ u g, getUser users user = some u ∧ f u.groups = .ok g ∧ users' = setUser users user { u with groups := g } := by
  unfold updGroups at h
  split at h
  · rename_i hn; exact .inl ⟨hn, by simpa using h.symm⟩
  · rename_i u hu
    obtain ⟨g, h1, h2⟩ := Res.bind_eq_ok.1 h
    simp only [Res.pure_eq, Res.ok.injEq] at h2
    exact .inr ⟨u, g, hu, h1, h2.symm⟩

/-- What a game event does to the users: nothing, or it replaces the acting user's state. -/
theorem handleGame_users {s s' : SState} {loop user : Int} {e e' : GameEvt} {hint : Hint}
    (h : handleGame s loop user e = .ok (s', e', hint)) :
    s'.users = s.users ∨ ∃ u v, getUser s.users user = some u ∧ s'.users = setUser s.users user v ∧
      v.name = u.name ∧ v.setupPlayerId = u.setupPlayerId ∧ v.setupSlotId = u.setupSlotId ∧
      v.groups.length = u.groups.length := by
  have hcam : ∀ x y, (setCamera s user x y).users = s.users ∨ ∃ u v, getUser s.users user = some u ∧
      (setCamera s user x y).users = setUser s.users user v ∧ v.name = u.name ∧ v.setupPlayerId = u.setupPlayerId ∧
      v.setupSlotId = u.setupSlotId ∧ v.groups.length = u.groups.length := by
    intro x y; unfold setCamera; split
    · exact .inl rfl
    · rename_i u hu; exact .inr ⟨u, _, hu, rfl, rfl, rfl, rfl, rfl⟩
  cases e with
  | cameraSave w x y =>
    simp only [handleGame, Res.ok.injEq, Prod.mk.injEq] at h
    rw [← h.1]; exact hcam x y
  | cameraUpdate t r =>
    simp only [handleGame, Res.ok.injEq, Prod.mk.injEq] at h
    rw [← h.1]
    split
    · exact hcam _ _
    · exact .inl rfl
  | cmd e =>
    simp only [handleGame, handleCmd] at h
    obtain ⟨ids, _, h2⟩ := Res.bind_eq_ok.1 h
    simp only [Res.pure_eq, Res.ok.injEq, Prod.mk.injEq] at h2
    rw [← h2.1]; exact .inl rfl
  | cmdUpdateTargetPoint t =>
    simp only [handleGame, handleTargetPoint] at h
    obtain ⟨ids, _, h2⟩ := Res.bind_eq_ok.1 h
    simp only [Res.pure_eq, Res.ok.injEq, Prod.mk.injEq] at h2
    rw [← h2.1]; exact .inl rfl
  | cmdUpdateTargetUnit t =>
    simp only [handleGame, handleTargetUnit] at h
    split at h
    · simp only [Res.ok.injEq, Prod.mk.injEq] at h; rw [← h.1]; exact .inl rfl
    · obtain ⟨ids, _, h2⟩ := Res.bind_eq_ok.1 h
      simp only [Res.pure_eq, Res.ok.injEq, Prod.mk.injEq] at h2
      rw [← h2.1]; exact .inl rfl
  | selectionDelta e =>
    simp only [handleGame, handleSelectionDelta] at h
    obtain ⟨⟨s1, upd⟩, h1, h2⟩ := Res.bind_eq_ok.1 h
    obtain ⟨users, hu, h3⟩ := Res.bind_eq_ok.1 h2
    simp only [Res.pure_eq, Res.ok.injEq, Prod.mk.injEq] at h3
    rw [← h3.1]
    have e1 : s1.users = s.users := by
      unfold selectionMarks at h1
      split at h1
      · obtain ⟨⟨s2, un⟩, h4, h5⟩ := Res.bind_eq_ok.1 h1
        obtain ⟨ids, _, rfl, _⟩ := unmarkSelected_ok h4
        simp only [markSelected, Res.pure_eq, Res.ok.injEq, Prod.mk.injEq] at h5
        rw [← h5.1]
      · simp only [Res.ok.injEq, Prod.mk.injEq] at h1
        rw [← h1.1]
    simp only [e1] at hu
    rcases updGroups_ok hu with ⟨_, h5⟩ | ⟨u, g, h5, h6, h7⟩
    · exact .inl h5
    · exact .inr ⟨u, _, h5, h7, rfl, rfl, rfl, by simp [(assignGroup_ok h6).2]⟩
  | controlGroupUpdate e =>
    simp only [handleGame, updateControlGroup] at h
    obtain ⟨⟨s1, un⟩, h1, h2⟩ := Res.bind_eq_ok.1 h
    obtain ⟨ids, _, rfl, _⟩ := unmarkSelected_ok h1
    obtain ⟨users, hu, h3⟩ := Res.bind_eq_ok.1 h2
    obtain ⟨⟨s2, mk⟩, h4, h5⟩ := Res.bind_eq_ok.1 h3
    simp only [Res.pure_eq, Res.ok.injEq, Prod.mk.injEq] at h5
    rw [← h5.1]
    have e1 : s2.users = users := by
      unfold recallMarks at h4
      split at h4
      · obtain ⟨ids', _, h6⟩ := Res.bind_eq_ok.1 h4
        simp only [markSelected, Res.pure_eq, Res.ok.injEq, Prod.mk.injEq] at h6
        rw [← h6.1]
      · simp only [Res.ok.injEq, Prod.mk.injEq] at h4
        rw [← h4.1]
    rw [e1]
    rcases updGroups_ok hu with ⟨_, h5⟩ | ⟨u, g, h5, h6, h7⟩
    · exact .inl h5
    · exact .inr ⟨u, _, h5, h7, rfl, rfl, rfl, groupsAfter_len h6⟩
  | other o =>
    simp only [handleGame, Res.ok.injEq, Prod.mk.injEq] at h
    rw [← h.1]; exact .inl rfl

theorem Wf_setUser {s : SState} (hw : s.Wf) {user : Int} {u v : UserState} (hu : getUser s.users user = some u)
    (hl : v.groups.length = u.groups.length) {s' : SState} (h : s'.users = setUser s.users user v) : s'.Wf := by
  refine ⟨by rw [h, setUser_keys]; exact hw.1, ?_⟩
  intro p hp
  rw [h] at hp
  rcases setUser_mem hp with hp | hp
  · exact hw.2 p hp
  · rw [hp]; exact hl.trans (hw.2 _ (getUser_mem hu))

theorem transition_wf {bld : Build} {s s' : SState} {e : SEvent} {it : Item} (hw : s.Wf)
    (h : transition bld s e = .ok (s', it)) : s'.Wf := by
  cases e with
  | game l user nm ge =>
    simp only [transition] at h
    obtain ⟨⟨s1, e1, h1⟩, hh, hk⟩ := Res.bind_eq_ok.1 h
    simp only [Res.pure_eq, Res.ok.injEq, Prod.mk.injEq] at hk
    rw [← hk.1]
    rcases handleGame_users hh with hu | ⟨u, v, hu, hv, _, _, _, hl⟩
    · exact ⟨by rw [hu]; exact hw.1, by rw [hu]; exact hw.2⟩
    · exact Wf_setUser hw hu hl hv
  | tracker l te =>
    simp only [transition] at h
    obtain ⟨⟨s1, e1, h1⟩, hh, hk⟩ := Res.bind_eq_ok.1 h
    simp only [Res.pure_eq, Res.ok.injEq, Prod.mk.injEq] at hk
    rw [← hk.1]
    have same : s1.users = s.users → s1.Wf := fun hu => ⟨by rw [hu]; exact hw.1, by rw [hu]; exact hw.2⟩
    cases te with
    | playerStats p st =>
      simp only [handleTracker, Res.ok.injEq, Prod.mk.injEq] at hh
      exact same (by rw [← hh.1])
    | unitOwnerChange e =>
      simp only [handleTracker, Res.ok.injEq, Prod.mk.injEq] at hh
      exact same (by rw [← hh.1])
    | upgrade e =>
      simp only [handleTracker, Res.ok.injEq, Prod.mk.injEq] at hh
      exact same (by rw [← hh.1])
    | playerSetup e =>
      simp only [handleTracker, Res.ok.injEq, handlePlayerSetup] at hh
      split at hh
      · simp only [Prod.mk.injEq] at hh; exact same (by rw [← hh.1])
      · split at hh
        · simp only [Prod.mk.injEq] at hh; exact same (by rw [← hh.1])
        · rename_i u hu
          simp only [Prod.mk.injEq] at hh
          exact Wf_setUser (v := { u with setupPlayerId := some e.playerId, setupSlotId := e.slotId }) hw hu rfl
            (by rw [← hh.1])
    | unitPosition e =>
      simp only [handleTracker, handleUnitPosition] at hh
      obtain ⟨ps, _, h2⟩ := Res.bind_eq_ok.1 hh
      simp only [Res.pure_eq, Res.ok.injEq, Prod.mk.injEq] at h2
      exact same (by rw [← h2.1])
    | unitDone e =>
      simp only [handleTracker, Res.ok.injEq, handleUnitDone] at hh
      split at hh <;> simp only [Prod.mk.injEq] at hh <;> exact same (by rw [← hh.1])
    | unitInit e =>
      simp only [handleTracker, Res.ok.injEq, handleUnitInit, Prod.mk.injEq] at hh
      exact same (by rw [← hh.1])
    | unitTypeChange e =>
      simp only [handleTracker, Res.ok.injEq, handleUnitTypeChange] at hh
      split at hh <;> simp only [Prod.mk.injEq] at hh <;> exact same (by rw [← hh.1])
    | unitBorn e =>
      simp only [handleTracker, Res.ok.injEq, handleUnitBorn] at hh
      split at hh <;> simp only [Prod.mk.injEq] at hh <;> exact same (by rw [← hh.1])
    | unitDied e =>
      simp only [handleTracker, handleUnitDied] at hh
      obtain ⟨users, hu, h2⟩ := Res.bind_eq_ok.1 hh
      have hs : s1.users = users := by
        split at h2 <;> simp only [Res.pure_eq, Res.ok.injEq, Prod.mk.injEq] at h2 <;> rw [← h2.1]
      refine ⟨by rw [hs, removeFromUsers_keys _ hu]; exact hw.1, ?_⟩
      rw [removeFromUsers_eq _ _ hw.2] at hu
      simp only [Res.ok.injEq] at hu
      rw [hs, ← hu]
      intro p hp
      obtain ⟨q, hq, rfl⟩ := List.mem_map.1 hp
      simpa using hw.2 q hq

theorem runEvents_wf {bld : Build} : ∀ {es : List SEvent} {s s' : SState}, s.Wf → runEvents bld s es = .ok s' → s'.Wf
  | [], s, s', hw, h => by simp only [runEvents, Res.ok.injEq] at h; exact h ▸ hw
  | e :: es, s, s', hw, h => by
    simp only [runEvents] at h
    split at h
    · rename_i s1 it h1
      exact runEvents_wf (transition_wf hw h1) h
    · cases h
    · cases h

theorem initial_wf (players : List (Int × Str)) (bal : BalUnits) (h : (players.map Prod.fst).Nodup) :
    (SState.initial players bal).Wf := by
  refine ⟨?_, ?_⟩
  · simpa [SState.initial, List.map_map, Function.comp_def] using h
  · intro p hp
    obtain ⟨q, _, rfl⟩ := List.mem_map.1 hp
    simp [UserState.new]

end S2
