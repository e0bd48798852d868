import Verif.Props.Histories
/-!
# Cameras, change hints, player names (C72, C74, C75, C79)
-/
namespace S2

/-! ## C79: cameras -/

/-- The point a camera event moves its user's camera to. -/
def cameraTarget : GameEvt → Option (Int × Int)
  | .cameraSave _ x y => some (x, y)
  | .cameraUpdate t _ => t
  | _ => none

/-- The last camera target of a user in a history. -/
def lastCamera (user : Int) (es : List SEvent) : Option (Int × Int) :=
  (es.filterMap (fun e => match e with
    | .game _ w _ ge => if w = user then cameraTarget ge else none
    | _ => none)).getLast?

def cameraOf (s : SState) (user : Int) : Option (Int × Int) := (getUser s.users user).map UserState.camera

theorem cameraOf_users {s s' : SState} (h : s'.users = s.users) (w : Int) : cameraOf s' w = cameraOf s w := by
  unfold cameraOf; rw [h]

theorem cameraOf_setUser {s s' : SState} {user : Int} {u v : UserState} (hu : getUser s.users user = some u)
    (h : s'.users = setUser s.users user v) (w : Int) :
    cameraOf s' w = if w = user then some v.camera else cameraOf s w := by
  unfold cameraOf
  rw [h]
  by_cases hw : w = user
  · subst hw; rw [getUser_setUser_self v hu]; simp
  · rw [getUser_setUser_ne v hw]; simp [hw]

theorem setCamera_camera (s : SState) (user x y w : Int) :
    cameraOf (setCamera s user x y) w = if w = user then (cameraOf s w).map (fun _ => (x, y)) else cameraOf s w := by
  unfold setCamera
  split
  · rename_i hn
    by_cases hw : w = user
    · subst hw; simp [cameraOf, hn]
    · simp [hw]
  · rename_i u hu
    rw [cameraOf_setUser hu rfl]
    by_cases hw : w = user
    · subst hw; simp [cameraOf, hu]
    · simp [hw]

theorem updGroups_camera {s s' : SState} {user : Int} {f : List (List Int) → Res (List (List Int))}
    (h : updGroups s.users user f = .ok s'.users) (w : Int) : cameraOf s' w = cameraOf s w := by
  rcases updGroups_ok h with ⟨_, h5⟩ | ⟨u, g, h5, _, h7⟩
  · exact cameraOf_users h5 w
  · rw [cameraOf_setUser h5 h7]
    by_cases hw : w = user
    · subst hw; simp [cameraOf, h5]
    · simp [hw]

theorem handleGame_camera {s s' : SState} {loop user : Int} {e e' : GameEvt} {hint : Hint}
    (h : handleGame s loop user e = .ok (s', e', hint)) (w : Int) :
    cameraOf s' w = if w = user then (cameraOf s w).map (fun c => (cameraTarget e).getD c) else cameraOf s w := by
  have keep : ∀ x : Option (Int × Int), x.map (fun c => (none : Option (Int × Int)).getD c) = x := by intro x; cases x <;> rfl
  have same : cameraTarget e = none → cameraOf s' w = cameraOf s w →
      cameraOf s' w = if w = user then (cameraOf s w).map (fun c => (cameraTarget e).getD c) else cameraOf s w := by
    intro hn hc
    rw [hn, keep, hc]; simp
  cases e with
  | cameraSave wh x y =>
    simp only [handleGame, Res.ok.injEq, Prod.mk.injEq] at h
    rw [← h.1, setCamera_camera]; rfl
  | cameraUpdate t r =>
    simp only [handleGame, Res.ok.injEq, Prod.mk.injEq] at h
    cases t with
    | none => exact same rfl (cameraOf_users (by rw [← h.1]) w)
    | some p => rw [← h.1]; exact setCamera_camera s user p.1 p.2 w
  | cmd e =>
    simp only [handleGame, handleCmd] at h
    obtain ⟨ids, _, h2⟩ := Res.bind_eq_ok.1 h
    simp only [Res.pure_eq, Res.ok.injEq, Prod.mk.injEq] at h2
    exact same rfl (cameraOf_users (by rw [← h2.1]) w)
  | cmdUpdateTargetPoint t =>
    simp only [handleGame, handleTargetPoint] at h
    obtain ⟨ids, _, h2⟩ := Res.bind_eq_ok.1 h
    simp only [Res.pure_eq, Res.ok.injEq, Prod.mk.injEq] at h2
    exact same rfl (cameraOf_users (by rw [← h2.1]) w)
  | cmdUpdateTargetUnit t =>
    simp only [handleGame, handleTargetUnit] at h
    split at h
    · simp only [Res.ok.injEq, Prod.mk.injEq] at h; exact same rfl (cameraOf_users (by rw [← h.1]) w)
    · obtain ⟨ids, _, h2⟩ := Res.bind_eq_ok.1 h
      simp only [Res.pure_eq, Res.ok.injEq, Prod.mk.injEq] at h2
      exact same rfl (cameraOf_users (by rw [← h2.1]) w)
  | selectionDelta e =>
    simp only [handleGame, handleSelectionDelta] at h
    obtain ⟨⟨s1, upd⟩, h1, h2⟩ := Res.bind_eq_ok.1 h
    obtain ⟨users, hu, h3⟩ := Res.bind_eq_ok.1 h2
    simp only [Res.pure_eq, Res.ok.injEq, Prod.mk.injEq] at h3
    have e1 : s1.users = s.users := by
      unfold selectionMarks at h1
      split at h1
      · obtain ⟨⟨s2, un⟩, h4, h5⟩ := Res.bind_eq_ok.1 h1
        obtain ⟨ids, _, rfl, _⟩ := unmarkSelected_ok h4
        simp only [markSelected, Res.pure_eq, Res.ok.injEq, Prod.mk.injEq] at h5
        rw [← h5.1]
      · simp only [Res.ok.injEq, Prod.mk.injEq] at h1
        rw [← h1.1]
    rw [e1] at hu
    have hs : s'.users = users := by rw [← h3.1]
    exact same rfl (updGroups_camera (by rw [hs]; exact hu) w)
  | controlGroupUpdate e =>
    simp only [handleGame, updateControlGroup] at h
    obtain ⟨⟨s1, un⟩, h1, h2⟩ := Res.bind_eq_ok.1 h
    obtain ⟨ids, _, rfl, _⟩ := unmarkSelected_ok h1
    obtain ⟨users, hu, h3⟩ := Res.bind_eq_ok.1 h2
    obtain ⟨⟨s2, mk⟩, h4, h5⟩ := Res.bind_eq_ok.1 h3
    simp only [Res.pure_eq, Res.ok.injEq, Prod.mk.injEq] at h5
    have e1 : s2.users = users := by
      unfold recallMarks at h4
      split at h4
      · obtain ⟨ids', _, h6⟩ := Res.bind_eq_ok.1 h4
        simp only [markSelected, Res.pure_eq, Res.ok.injEq, Prod.mk.injEq] at h6
        rw [← h6.1]
      · simp only [Res.ok.injEq, Prod.mk.injEq] at h4
        rw [← h4.1]
    have hs : s'.users = users := by rw [← h5.1, e1]
    exact same rfl (updGroups_camera (by rw [hs]; exact hu) w)
  | other o =>
    simp only [handleGame, Res.ok.injEq, Prod.mk.injEq] at h
    exact same rfl (cameraOf_users (by rw [← h.1]) w)

theorem removeFromUsers_camera (t : Int) : ∀ {users users' : List (Int × UserState)}, removeFromUsers t users = .ok users' →
    ∀ w, (getUser users' w).map UserState.camera = (getUser users w).map UserState.camera
  | [], users', h => by simp only [removeFromUsers, Res.ok.injEq] at h; subst h; intro w; rfl
  | (k, u) :: rest, users', h => by
    simp only [removeFromUsers] at h
    obtain ⟨g, _, h2⟩ := Res.bind_eq_ok.1 h
    obtain ⟨r, h3, h4⟩ := Res.bind_eq_ok.1 h2
    simp only [Res.pure_eq, Res.ok.injEq] at h4
    subst h4
    intro w
    simp only [getUser]
    split
    · rfl
    · exact removeFromUsers_camera t h3 w

theorem handleTracker_camera {bld : Build} {s s' : SState} {loop : Int} {e e' : TrackerEvt} {hint : Hint}
    (h : handleTracker bld s loop e = .ok (s', e', hint)) (w : Int) : cameraOf s' w = cameraOf s w := by
  cases e with
  | playerStats p st =>
    simp only [handleTracker, Res.ok.injEq, Prod.mk.injEq] at h
    exact cameraOf_users (by rw [← h.1]) w
  | unitOwnerChange e =>
    simp only [handleTracker, Res.ok.injEq, Prod.mk.injEq] at h
    exact cameraOf_users (by rw [← h.1]) w
  | upgrade e =>
    simp only [handleTracker, Res.ok.injEq, Prod.mk.injEq] at h
    exact cameraOf_users (by rw [← h.1]) w
  | playerSetup e =>
    simp only [handleTracker, Res.ok.injEq, handlePlayerSetup] at h
    split at h
    · simp only [Prod.mk.injEq] at h; exact cameraOf_users (by rw [← h.1]) w
    · split at h
      · simp only [Prod.mk.injEq] at h; exact cameraOf_users (by rw [← h.1]) w
      · rename_i id _ _ u hu
        simp only [Prod.mk.injEq] at h
        rw [← h.1, cameraOf_setUser hu rfl]
        by_cases hw : w = id
        · subst hw; simp [cameraOf, hu]
        · simp [hw]
  | unitPosition e =>
    simp only [handleTracker, handleUnitPosition] at h
    obtain ⟨ps, _, h2⟩ := Res.bind_eq_ok.1 h
    simp only [Res.pure_eq, Res.ok.injEq, Prod.mk.injEq] at h2
    exact cameraOf_users (by rw [← h2.1]) w
  | unitDone e =>
    simp only [handleTracker, Res.ok.injEq, handleUnitDone] at h
    split at h <;> simp only [Prod.mk.injEq] at h <;> exact cameraOf_users (by rw [← h.1]) w
  | unitInit e =>
    simp only [handleTracker, Res.ok.injEq, handleUnitInit, Prod.mk.injEq] at h
    exact cameraOf_users (by rw [← h.1]) w
  | unitTypeChange e =>
    simp only [handleTracker, Res.ok.injEq, handleUnitTypeChange] at h
    split at h <;> simp only [Prod.mk.injEq] at h <;> exact cameraOf_users (by rw [← h.1]) w
  | unitBorn e =>
    simp only [handleTracker, Res.ok.injEq, handleUnitBorn] at h
    split at h <;> simp only [Prod.mk.injEq] at h <;> exact cameraOf_users (by rw [← h.1]) w
  | unitDied e =>
    simp only [handleTracker, handleUnitDied] at h
    obtain ⟨users, hu, h2⟩ := Res.bind_eq_ok.1 h
    have hs : s'.users = users := by
      split at h2 <;> simp only [Res.pure_eq, Res.ok.injEq, Prod.mk.injEq] at h2 <;> rw [← h2.1]
    unfold cameraOf
    rw [hs]; exact removeFromUsers_camera _ hu w

/-- After any history a user's camera is at the target of that user's last camera event, or where it was
before if there was none; nothing else moves a camera. -/
theorem C79_camera (bld : Build) (es : List SEvent) (s s' : SState) (h : runEvents bld s es = .ok s') (w : Int) :
    cameraOf s' w = (cameraOf s w).map (fun c => (lastCamera w es).getD c) := by
  induction es generalizing s with
  | nil => simp only [runEvents, Res.ok.injEq] at h; rw [h]; cases cameraOf s' w <;> rfl
  | cons e es ih =>
    simp only [runEvents] at h
    split at h
    · rename_i s1 it h1
      rw [ih s1 h]
      cases e with
      | tracker l te =>
        simp only [transition] at h1
        obtain ⟨⟨s2, e2, hh2⟩, hh, hk⟩ := Res.bind_eq_ok.1 h1
        simp only [Res.pure_eq, Res.ok.injEq, Prod.mk.injEq] at hk
        rw [← hk.1, handleTracker_camera hh]; rfl
      | game l user nm ge =>
        simp only [transition] at h1
        obtain ⟨⟨s2, e2, hh2⟩, hh, hk⟩ := Res.bind_eq_ok.1 h1
        simp only [Res.pure_eq, Res.ok.injEq, Prod.mk.injEq] at hk
        rw [← hk.1, handleGame_camera hh]
        unfold lastCamera
        simp only [List.filterMap_cons]
        by_cases hw : w = user
        · subst hw
          simp only [if_true]
          cases hct : cameraTarget ge with
          | none => simp only [Option.getD_none, Option.map_id']
          | some c =>
            simp only [List.getLast?_cons, Option.getD_some]
            cases cameraOf s w <;> rfl
        · simp only [hw, Ne.symm hw, if_false]
    · cases h
    · cases h

example : (match runEvents .debug demoState [.game 1 0 none (.cameraSave 0 5 6), .game 2 1 none (.cameraSave 0 8 8),
      .game 3 0 none (.cameraUpdate (some (10, 20)) ⟨none, none, none, none, false⟩), .game 4 0 none (.cameraUpdate none ⟨none, none, none, none, true⟩)] with
    | .ok s => some (cameraOf s 0, cameraOf s 1, cameraOf s 7)
    | _ => none) = some (some (10, 20), some (8, 8), none) := by decide +kernel

/-! ## C74: player names -/

/-- The name looked up for a tracker player id does not depend on the iteration order of the user map, if
no two users were set up with the same player id. -/
theorem C74_name_lookup (users users' : List (Int × UserState)) (hperm : users.Perm users') (id : Int)
    (hd : ∀ a ∈ users, ∀ b ∈ users, a.2.setupPlayerId = some id → b.2.setupPlayerId = some id → a = b) :
    playerNameByTrackerId users id = playerNameByTrackerId users' id := by
  have spec : ∀ users : List (Int × UserState),
      (∀ a ∈ users, ∀ b ∈ users, a.2.setupPlayerId = some id → b.2.setupPlayerId = some id → a = b) →
      (∀ a ∈ users, a.2.setupPlayerId = some id → playerNameByTrackerId users id = some a.2.name) ∧
      ((∀ a ∈ users, a.2.setupPlayerId ≠ some id) → playerNameByTrackerId users id = none) := by
    intro users
    induction users with
    | nil => intro _; exact ⟨by simp, fun _ => rfl⟩
    | cons p rest ih =>
      obtain ⟨k, u⟩ := p
      intro hd
      have ih' := ih (fun a ha b hb => hd a (by simp [ha]) b (by simp [hb]))
      refine ⟨?_, ?_⟩
      · intro a ha hid
        unfold playerNameByTrackerId
        split
        · rename_i hu
          rw [hd a ha (k, u) (by simp) hid hu]
        · rename_i hu
          rcases List.mem_cons.1 ha with rfl | ha
          · exact absurd hid hu
          · exact ih'.1 a ha hid
      · intro hn
        unfold playerNameByTrackerId
        rw [if_neg (hn (k, u) (by simp))]
        exact ih'.2 (fun a ha => hn a (by simp [ha]))
  have s1 := spec users hd
  have s2 := spec users' (fun a ha b hb => hd a (hperm.mem_iff.2 ha) b (hperm.mem_iff.2 hb))
  by_cases hex : ∃ a ∈ users, a.2.setupPlayerId = some id
  · obtain ⟨a, ha, hid⟩ := hex
    rw [s1.1 a ha hid, s2.1 a (hperm.mem_iff.1 ha) hid]
  · have hn : ∀ a ∈ users, a.2.setupPlayerId ≠ some id := fun a ha h => hex ⟨a, ha, h⟩
    rw [s1.2 hn, s2.2 (fun a ha => hn a (hperm.mem_iff.2 ha))]

/-- Two users set up with the same player id: the answer depends on the order. -/
theorem C74_needs_distinct :
    let a : Int × UserState := (0, { UserState.new (str "A") with setupPlayerId := some 1 })
    let b : Int × UserState := (1, { UserState.new (str "B") with setupPlayerId := some 1 })
    playerNameByTrackerId [a, b] 1 = some (str "A") ∧ playerNameByTrackerId [b, a] 1 = some (str "B") := by
  decide +kernel

example : playerNameByTrackerId
    [(0, { UserState.new (str "A") with setupPlayerId := some 1 }), (1, { UserState.new (str "B") with setupPlayerId := some 2 })] 2 =
    playerNameByTrackerId
    [(1, { UserState.new (str "B") with setupPlayerId := some 2 }), (0, { UserState.new (str "A") with setupPlayerId := some 1 })] 2 :=
  C74_name_lookup _ _ (.swap ..) 2 (by decide +kernel)

end S2
