import Verif.Props.RowsAny
import Verif.Props.Groups
/-!
# The tracker tables do not depend on the game sector (C156)
-/
namespace S2

/-- What of a user the tracker tables depend on. [proof device, no counterpart in /repo] -/
def userView (p : Int × UserState) : Int × Str × Option Int := (p.1, p.2.name, p.2.setupPlayerId)

/-- Two states that the tracker tables cannot tell apart. [proof device, no counterpart in /repo] -/
def TrackAlike (s t : SState) : Prop :=
  (∀ k, (s.units k).map SUnit.core = (t.units k).map SUnit.core) ∧ s.users.map userView = t.users.map userView

theorem TrackAlike.refl (s : SState) : TrackAlike s s := ⟨fun _ => rfl, rfl⟩
theorem TrackAlike.symm {s t : SState} (h : TrackAlike s t) : TrackAlike t s := ⟨fun k => (h.1 k).symm, h.2.symm⟩
theorem TrackAlike.trans {s t r : SState} (h : TrackAlike s t) (h' : TrackAlike t r) : TrackAlike s r :=
  ⟨fun k => (h.1 k).trans (h'.1 k), h.2.trans h'.2⟩

theorem setUser_view {users : List (Int × UserState)} {id : Int} {u v : UserState} (hu : getUser users id = some u)
    (hn : v.name = u.name) (hp : v.setupPlayerId = u.setupPlayerId) :
    (setUser users id v).map userView = users.map userView := by
  induction users with
  | nil => rfl
  | cons p rest ih =>
    obtain ⟨k, w⟩ := p
    simp only [getUser] at hu
    simp only [setUser]
    split at hu
    · rename_i hk
      simp only [Option.some.injEq] at hu
      subst hu
      simp [hk, userView, hn, hp]
    · rename_i hk
      rw [if_neg hk]
      simp [ih hu]

/-- A game event changes nothing the tracker tables depend on. -/
theorem game_alike {s s' : SState} {loop user : Int} {e e' : GameEvt} {hint : Hint}
    (h : handleGame s loop user e = .ok (s', e', hint)) : TrackAlike s s' := by
  refine ⟨fun k => (handleGame_core h k).symm, ?_⟩
  rcases handleGame_users h with h1 | ⟨u, v, hu, h1, hn, hp, _⟩
  · rw [h1]
  · rw [h1, setUser_view hu hn hp]

theorem view_setUser {us vs : List (Int × UserState)} (h : us.map userView = vs.map userView) (id : Int)
    (u v : UserState) (hn : u.name = v.name) (hp : u.setupPlayerId = v.setupPlayerId) :
    (setUser us id u).map userView = (setUser vs id v).map userView := by
  induction us generalizing vs with
  | nil => cases vs with
    | nil => rfl
    | cons q vs => simp at h
  | cons p us ih => cases vs with
    | nil => simp at h
    | cons q vs =>
      obtain ⟨k, x⟩ := p
      obtain ⟨k', y⟩ := q
      simp only [List.map_cons, List.cons.injEq, userView, Prod.mk.injEq] at h
      obtain ⟨⟨rfl, h1, h2⟩, h3⟩ := h
      simp only [setUser]
      split
      · simp [userView, hn, hp, h3]
      · simp [userView, h1, h2, ih h3]

theorem view_getUser {us vs : List (Int × UserState)} (h : us.map userView = vs.map userView) (id : Int) :
    (getUser us id).map (fun u => (u.name, u.setupPlayerId)) = (getUser vs id).map (fun u => (u.name, u.setupPlayerId)) := by
  induction us generalizing vs with
  | nil => cases vs with
    | nil => rfl
    | cons q vs => simp at h
  | cons p us ih => cases vs with
    | nil => simp at h
    | cons q vs =>
      obtain ⟨k, x⟩ := p
      obtain ⟨k', y⟩ := q
      simp only [List.map_cons, List.cons.injEq, userView, Prod.mk.injEq] at h
      obtain ⟨⟨rfl, h1, h2⟩, h3⟩ := h
      simp only [getUser]
      split
      · simp [h1, h2]
      · exact ih h3

theorem view_playerName {us vs : List (Int × UserState)} (h : us.map userView = vs.map userView) (id : Int) :
    playerNameByTrackerId us id = playerNameByTrackerId vs id := by
  induction us generalizing vs with
  | nil => cases vs with
    | nil => rfl
    | cons q vs => simp at h
  | cons p us ih => cases vs with
    | nil => simp at h
    | cons q vs =>
      obtain ⟨k, x⟩ := p
      obtain ⟨k', y⟩ := q
      simp only [List.map_cons, List.cons.injEq, userView, Prod.mk.injEq] at h
      obtain ⟨⟨rfl, h1, h2⟩, h3⟩ := h
      simp only [playerNameByTrackerId, h1, h2, ih h3]

theorem view_trackerPlayer {s t : SState} (h : s.users.map userView = t.users.map userView) (id : Int) :
    trackerPlayer s id = trackerPlayer t id := by
  unfold trackerPlayer
  have gen : ∀ {us vs : List (Int × UserState)}, us.map userView = vs.map userView →
      (us.find? (fun p => decide (p.2.setupPlayerId = some id))).map (fun p => p.2.name) =
      (vs.find? (fun p => decide (p.2.setupPlayerId = some id))).map (fun p => p.2.name) := by
    intro us
    induction us with
    | nil =>
      intro vs h
      cases vs with
      | nil => rfl
      | cons q vs => simp at h
    | cons p us ih =>
      intro vs h
      cases vs with
      | nil => simp at h
      | cons q vs =>
        obtain ⟨k, x⟩ := p
        obtain ⟨k', y⟩ := q
        simp only [List.map_cons, List.cons.injEq, userView, Prod.mk.injEq] at h
        obtain ⟨⟨rfl, h1, h2⟩, h3⟩ := h
        simp only [List.find?_cons, h2]
        cases decide (y.setupPlayerId = some id) with
        | true => simp [h1]
        | false => exact ih h3
  exact gen h

theorem view_remove {tag : Int} : ∀ {us us' : List (Int × UserState)}, removeFromUsers tag us = .ok us' →
    us'.map userView = us.map userView
  | [], us', h => by simp only [removeFromUsers, Res.ok.injEq] at h; subst h; rfl
  | (k, u) :: us, us', h => by
    simp only [removeFromUsers] at h
    obtain ⟨g, _, h⟩ := Res.bind_eq_ok.1 h
    obtain ⟨r, hr, h⟩ := Res.bind_eq_ok.1 h
    simp only [Res.pure_eq, Res.ok.injEq] at h
    subst h
    simp [userView, view_remove hr]

/-- TrackAlike units. -/
theorem units_cases {s t : Units} (h : ∀ k, (s k).map SUnit.core = (t k).map SUnit.core) (k : Int) :
    (s k = none ∧ t k = none) ∨ ∃ u v, s k = some u ∧ t k = some v ∧ u.core = v.core := by
  have := h k
  cases hs : s k <;> cases ht : t k <;> rw [hs, ht] at this <;> simp_all

theorem set_alike {s t : Units} (h : ∀ k, (s k).map SUnit.core = (t k).map SUnit.core) (i : Int) {u v : SUnit}
    (huv : u.core = v.core) (k : Int) : ((s.set i u) k).map SUnit.core = ((t.set i v) k).map SUnit.core := by
  unfold Units.set
  split
  · simp [huv]
  · exact h k

theorem positions_alike (loop : Int) : ∀ (ps : List (Int × Int × Int)) {s t : Units},
    (∀ k, (s k).map SUnit.core = (t k).map SUnit.core) →
    ∀ k, ((positionsUpdate loop ps s).1 k).map SUnit.core = ((positionsUpdate loop ps t).1 k).map SUnit.core
  | [], s, t, h, k => h k
  | (tag, x, y) :: ps, s, t, h, k => by
    simp only [positionsUpdate]
    rcases units_cases h tag with ⟨h1, h2⟩ | ⟨u, v, h1, h2, h3⟩
    · rw [h1, h2]
      exact positions_alike loop ps h k
    · rw [h1, h2]
      refine positions_alike loop ps (set_alike h tag ?_) k
      simp only [SUnit.core, SUnit.mk.injEq] at h3 ⊢
      simp [h3]

theorem creator_alike {s t : SState} (h : ∀ k, (s.units k).map SUnit.core = (t.units k).map SUnit.core) (loop : Int) (c : Option Int)
    (k : Int) : ((touchCreator s loop c).1 k).map SUnit.core = ((touchCreator t loop c).1 k).map SUnit.core := by
  unfold touchCreator
  cases c with
  | none => exact h k
  | some c =>
    dsimp only
    rcases units_cases h c with ⟨h1, h2⟩ | ⟨u, v, h1, h2, h3⟩
    · rw [h1, h2]; exact h k
    · rw [h1, h2]
      refine set_alike h c ?_ k
      simp only [SUnit.core, SUnit.mk.injEq] at h3 ⊢
      simp [h3]

theorem props_core {u v : SUnit} (h : u.core = v.core) (b c : BalUnits) : (u.setProps b).core = (v.setProps c).core := by
  simp only [SUnit.core, SUnit.mk.injEq] at h
  simp [SUnit.core, SUnit.setProps, unitSizedColor, h]

/-- A tracker event takes alike states to alike states. -/
theorem tracker_alike {bld : Build} {s t s' t' : SState} {loop : Int} {e e1 e2 : TrackerEvt} {h1 h2 : Hint} (ha : TrackAlike s t)
    (hs : handleTracker bld s loop e = .ok (s', e1, h1)) (ht : handleTracker bld t loop e = .ok (t', e2, h2)) : TrackAlike s' t' := by
  obtain ⟨hu, hv⟩ := ha
  cases e with
  | playerStats p st =>
    simp only [handleTracker, Res.ok.injEq, Prod.mk.injEq] at hs ht
    rw [← hs.1, ← ht.1]; exact ⟨hu, hv⟩
  | unitOwnerChange e =>
    simp only [handleTracker, Res.ok.injEq, Prod.mk.injEq] at hs ht
    rw [← hs.1, ← ht.1]; exact ⟨hu, hv⟩
  | upgrade e =>
    simp only [handleTracker, Res.ok.injEq, Prod.mk.injEq] at hs ht
    rw [← hs.1, ← ht.1]; exact ⟨hu, hv⟩
  | playerSetup e =>
    simp only [handleTracker, Res.ok.injEq, handlePlayerSetup] at hs ht
    cases hid : e.userId with
    | none =>
      simp only [hid, Prod.mk.injEq] at hs ht
      rw [← hs.1, ← ht.1]; exact ⟨hu, hv⟩
    | some id =>
      simp only [hid] at hs ht
      have hg := view_getUser hv id
      cases gs : getUser s.users id with
      | none =>
        rw [gs] at hs hg
        cases gt : getUser t.users id with
        | none =>
          rw [gt] at ht
          simp only [Prod.mk.injEq] at hs ht
          rw [← hs.1, ← ht.1]; exact ⟨hu, hv⟩
        | some v => rw [gt] at hg; simp at hg
      | some u =>
        rw [gs] at hs hg
        cases gt : getUser t.users id with
        | none => rw [gt] at hg; simp at hg
        | some v =>
          rw [gt] at ht hg
          simp only [Option.map_some, Option.some.injEq, Prod.mk.injEq] at hg
          simp only [Prod.mk.injEq] at hs ht
          rw [← hs.1, ← ht.1]
          exact ⟨hu, view_setUser hv id _ _ hg.1 rfl⟩
  | unitPosition e =>
    simp only [handleTracker, handleUnitPosition] at hs ht
    obtain ⟨ps, hp, hs⟩ := Res.bind_eq_ok.1 hs
    obtain ⟨qs, hq, ht⟩ := Res.bind_eq_ok.1 ht
    rw [hp] at hq
    simp only [Res.ok.injEq] at hq
    subst hq
    simp only [Res.pure_eq, Res.ok.injEq, Prod.mk.injEq] at hs ht
    rw [← hs.1, ← ht.1]
    exact ⟨positions_alike loop ps hu, hv⟩
  | unitDone e =>
    simp only [handleTracker, Res.ok.injEq, handleUnitDone] at hs ht
    rcases units_cases hu e.unitTagIndex with ⟨a, b⟩ | ⟨u, v, a, b, c⟩
    · rw [a] at hs; rw [b] at ht
      simp only [Prod.mk.injEq] at hs ht
      rw [← hs.1, ← ht.1]; exact ⟨hu, hv⟩
    · rw [a] at hs; rw [b] at ht
      simp only [Prod.mk.injEq] at hs ht
      rw [← hs.1, ← ht.1]
      refine ⟨set_alike hu _ (props_core ?_ _ _), hv⟩
      simp only [SUnit.core, SUnit.mk.injEq] at c ⊢
      simp [c]
  | unitInit e =>
    simp only [handleTracker, Res.ok.injEq, handleUnitInit, Prod.mk.injEq] at hs ht
    rw [← hs.1, ← ht.1]
    refine ⟨?_, hv⟩
    dsimp only
    rcases units_cases hu e.unitTagIndex with ⟨a, b⟩ | ⟨u, v, a, b, c⟩
    · rw [a, b]
      refine set_alike hu _ (props_core ?_ _ _)
      rw [view_playerName hv]
    · rw [a, b]
      refine set_alike hu _ ?_
      simp only [SUnit.core, SUnit.mk.injEq] at c ⊢
      simp [c]
  | unitTypeChange e =>
    simp only [handleTracker, Res.ok.injEq, handleUnitTypeChange] at hs ht
    rcases units_cases hu e.unitTagIndex with ⟨a, b⟩ | ⟨u, v, a, b, c⟩
    · rw [a] at hs; rw [b] at ht
      simp only [Prod.mk.injEq] at hs ht
      rw [← hs.1, ← ht.1]
      exact ⟨set_alike hu _ (props_core rfl _ _), hv⟩
    · rw [a] at hs; rw [b] at ht
      simp only [Prod.mk.injEq] at hs ht
      rw [← hs.1, ← ht.1]
      refine ⟨set_alike hu _ (props_core ?_ _ _), hv⟩
      simp only [SUnit.core, SUnit.mk.injEq] at c ⊢
      simp [c]
  | unitBorn e =>
    have hc := creator_alike hu loop e.creatorUnitTagIndex
    simp only [handleTracker, Res.ok.injEq, handleUnitBorn] at hs ht
    rcases units_cases hc e.unitTagIndex with ⟨a, b⟩ | ⟨u, v, a, b, c⟩
    · rw [a] at hs; rw [b] at ht
      simp only [Prod.mk.injEq] at hs ht
      rw [← hs.1, ← ht.1]
      refine ⟨set_alike hc _ (props_core ?_ _ _), hv⟩
      rw [view_playerName hv]
    · rw [a] at hs; rw [b] at ht
      simp only [Prod.mk.injEq] at hs ht
      rw [← hs.1, ← ht.1]
      refine ⟨set_alike hc _ ?_, hv⟩
      simp only [SUnit.core, SUnit.mk.injEq] at c ⊢
      simp [c]
  | unitDied e =>
    simp only [handleTracker, handleUnitDied] at hs ht
    obtain ⟨us, h3, hs⟩ := Res.bind_eq_ok.1 hs
    obtain ⟨vs, h4, ht⟩ := Res.bind_eq_ok.1 ht
    have e1 : s' = { s with users := us, units := s.units.remove e.unitTagIndex } := by
      split at hs <;> simp only [Res.pure_eq, Res.ok.injEq, Prod.mk.injEq] at hs <;> exact hs.1.symm
    have e2 : t' = { t with users := vs, units := t.units.remove e.unitTagIndex } := by
      split at ht <;> simp only [Res.pure_eq, Res.ok.injEq, Prod.mk.injEq] at ht <;> exact ht.1.symm
    rw [e1, e2]
    refine ⟨fun k => ?_, by rw [view_remove h3, view_remove h4, hv]⟩
    simp only [Units.remove]
    split
    · rfl
    · exact hu k

/-- The rows of one event in alike states. -/
theorem born_alike (fsId : Nat) {s t : SState} (h : TrackAlike s t) (e : SEvent) : bornRows fsId s e = bornRows fsId t e := by
  cases e with
  | game l user nm e => rfl
  | tracker l e =>
    cases e with
    | unitBorn e =>
      have hcr : (e.creatorUnitTagIndex.bind s.units).map SUnit.name = (e.creatorUnitTagIndex.bind t.units).map SUnit.name := by
        cases e.creatorUnitTagIndex with
        | none => rfl
        | some c =>
          rcases units_cases h.1 c with ⟨a, b⟩ | ⟨u, v, a, b, c⟩
          · simp [a, b]
          · simp only [SUnit.core, SUnit.mk.injEq] at c
            simp [a, b, c]
      have hpl := view_trackerPlayer h.2 e.controlPlayerId
      simp only [bornRows, hcr, hpl]
      rcases units_cases h.1 e.unitTagIndex with ⟨a, b⟩ | ⟨u, v, a, b, c⟩
      · rw [a, b]
      · simp only [SUnit.core, SUnit.mk.injEq] at c
        rw [a, b]; simp [c]
    | unitDone e =>
      simp only [bornRows]
      rcases units_cases h.1 e.unitTagIndex with ⟨a, b⟩ | ⟨u, v, a, b, c⟩
      · rw [a, b]
      · simp only [SUnit.core, SUnit.mk.injEq] at c
        rw [a, b]; simp [c]
    | unitTypeChange e =>
      simp only [bornRows]
      rcases units_cases h.1 e.unitTagIndex with ⟨a, b⟩ | ⟨u, v, a, b, c⟩
      · rw [a, b]
      · simp only [SUnit.core, SUnit.mk.injEq] at c
        rw [a, b]; simp [c]
    | _ => rfl

theorem died_alike (fsId : Nat) {s t : SState} (h : TrackAlike s t) (e : SEvent) : diedRows fsId s e = diedRows fsId t e := by
  cases e with
  | game l user nm e => rfl
  | tracker l e =>
    cases e with
    | unitDied e =>
      simp only [diedRows]
      rcases units_cases h.1 e.unitTagIndex with ⟨a, b⟩ | ⟨u, v, a, b, c⟩
      · rw [a, b]
      · simp only [SUnit.core, SUnit.mk.injEq] at c
        rw [a, b]
        dsimp only
        rw [c.2.2.2.2.1]
        cases hkk : e.killerUnitTagIndex with
        | none => rfl
        | some k =>
          dsimp only
          split
          · rfl
          · rcases units_cases h.1 k with ⟨a', b'⟩ | ⟨u', v', a', b', c'⟩
            · rw [a', b']
            · simp only [SUnit.core, SUnit.mk.injEq] at c'
              rw [a', b']; simp [c']
    | _ => rfl

/-- Rows along any two merges of the same tracker events with game events of any kind. -/
theorem rows_alike {ρ : Type} {bld : Build} {f : SState → SEvent → List ρ} (hf : ∀ s t, TrackAlike s t → ∀ e, f s e = f t e)
    (hg : ∀ s l u nm e, f s (.game l u nm e) = []) {ts : List (Int × TrackerEvt)} {gs : List SEvent}
    (hgs : ∀ e ∈ gs, e.isTracker = false) {es : List SEvent}
    (hi : Interleaving (ts.map trackerSEvent) gs es) : ∀ {gs' es' : List SEvent},
    (∀ e ∈ gs', e.isTracker = false) → Interleaving (ts.map trackerSEvent) gs' es' → ∀ {s t s2 t2 : SState}, TrackAlike s t →
    runEvents bld s es = .ok s2 → runEvents bld t es' = .ok t2 → rowsAlong bld f s es = rowsAlong bld f t es' := by
  generalize ha : ts.map trackerSEvent = a at hi
  -- the game events of one side can be passed over
  have skip : ∀ {a gs' es' : List SEvent}, (∀ e ∈ gs', e.isTracker = false) → (∀ e ∈ a, e.isTracker = true) →
      Interleaving a gs' es' → ∀ {t t2 : SState}, runEvents bld t es' = .ok t2 →
      (a = [] ∧ rowsAlong bld f t es' = []) ∨
      ∃ x a' gs'' es'' t1 t1' it, a = x :: a' ∧ TrackAlike t t1 ∧ transition bld t1 x = .ok (t1', it) ∧
        Interleaving a' gs'' es'' ∧ (∀ e ∈ gs'', e.isTracker = false) ∧ runEvents bld t1' es'' = .ok t2 ∧
        rowsAlong bld f t es' = f t1 x ++ rowsAlong bld f t1' es'' := by
    intro a gs' es' hgs' hat hi'
    induction hi' with
    | nil => intro t t2 _; exact .inl ⟨rfl, rfl⟩
    | @left x a b c hi' ih =>
      intro t t2 hr
      right
      simp only [runEvents] at hr
      split at hr
      · rename_i t1' it ht
        exact ⟨x, a, b, c, t, t1', it, rfl, TrackAlike.refl t, ht, hi', hgs', hr, rowsAlong_cons f c ht⟩
      · cases hr
      · cases hr
    | @right x a b c hi' ih =>
      intro t t2 hr
      simp only [runEvents] at hr
      split at hr
      · rename_i t1 it ht
        have hx := hgs' x (by simp)
        cases x with
        | tracker l e => cases hx
        | game l u nm e =>
          rw [rowsAlong_cons f c ht, hg]
          have hal : TrackAlike t t1 := by
            simp only [transition] at ht
            obtain ⟨⟨s', e', hh⟩, h1, h2⟩ := Res.bind_eq_ok.1 ht
            simp only [Res.pure_eq, Res.ok.injEq, Prod.mk.injEq] at h2
            rw [← h2.1]; exact game_alike h1
          rcases ih (fun e he => hgs' e (by simp [he])) hat hr with ⟨h1, h2⟩ | ⟨y, a', gs'', es'', t2', t3, it', h1, h2, h3, h4, h5, h6, h7⟩
          · exact .inl ⟨h1, by simpa using h2⟩
          · exact .inr ⟨y, a', gs'', es'', t2', t3, it', h1, hal.trans h2, h3, h4, h5, h6, by simpa using h7⟩
      · cases hr
      · cases hr
  have hat : ∀ e ∈ a, e.isTracker = true := by
    intro e he
    rw [← ha] at he
    obtain ⟨y, _, rfl⟩ := List.mem_map.1 he
    rfl
  clear ha
  intro gs' es' hgs' hi' s t s2 t2 hst hs ht
  induction a generalizing gs es gs' es' s t s2 t2 with
  | nil =>
    rcases skip hgs hat hi hs with ⟨_, h1⟩ | ⟨x, a', _, _, _, _, _, h1, _⟩
    · rcases skip hgs' hat hi' ht with ⟨_, h2⟩ | ⟨x, a', _, _, _, _, _, h2, _⟩
      · rw [h1, h2]
      · cases h2
    · cases h1
  | cons x a ih =>
    rcases skip hgs hat hi hs with ⟨h1, _⟩ | ⟨y, a1, gs1, es1, s1, s1', it1, h1, h2, h3, h4, h5, h6, h7⟩
    · cases h1
    · rcases skip hgs' hat hi' ht with ⟨k1, _⟩ | ⟨z, a2, gs2, es2, t1, t1', it2, k1, k2, k3, k4, k5, k6, k7⟩
      · cases k1
      · simp only [List.cons.injEq] at h1 k1
        obtain ⟨rfl, rfl⟩ := h1
        obtain ⟨rfl, rfl⟩ := k1
        have hal : TrackAlike s1 t1 := h2.symm.trans (hst.trans k2)
        have hal' : TrackAlike s1' t1' := by
          have hx := hat x (by simp)
          cases x with
          | game l u nm e => cases hx
          | tracker l e =>
            simp only [transition] at h3 k3
            obtain ⟨⟨s', e', hh⟩, a1, a2⟩ := Res.bind_eq_ok.1 h3
            obtain ⟨⟨t', e'', hh'⟩, b1, b2⟩ := Res.bind_eq_ok.1 k3
            simp only [Res.pure_eq, Res.ok.injEq, Prod.mk.injEq] at a2 b2
            rw [← a2.1, ← b2.1]; exact tracker_alike hal a1 b1
        rw [h7, k7, hf _ _ hal, ih h5 h4 (fun e he => hat e (by simp [he])) k5 k4 hal' h6 k6]

/-- In a tracker sector whose names are all UTF-8 the iterator has yielded everything when it says that it is done. -/
theorem tracker_all {bld : Build} {items : List (Int × Val)} {data : List UInt8} {rs : List (Res (Option (Int × TrackerEvt)))}
    {st : IterState} (hs : Stream (TrackerWire bld) items data) (hutf : ∀ p ∈ items, convTracker p.2 ≠ .err .utf8)
    (h : Calls (trackerNext bld) (IterState.new data) rs st) (hl : rs.getLast? = some (.ok none)) :
    rs.flatMap yielded = trackerTimeline items := by
  have he := C33_tracker_exact bld items data rs st hs hutf h
  rcases Nat.lt_or_ge (trackerTimeline items).length rs.length with hlt | hge
  · rw [he, List.take_of_length_le (by simp; omega), List.flatMap_append]
    have h1 : ∀ l : List (Int × TrackerEvt), (l.map (fun x => Res.ok (some x))).flatMap yielded = l := by
      intro l; induction l with
      | nil => rfl
      | cons x l ih => simp [yielded, ih]
    have h2 : ∀ n, (List.replicate n (Res.ok (none : Option (Int × TrackerEvt)))).flatMap yielded = [] := by
      intro n; induction n with
      | zero => rfl
      | succ n ih => simp [List.replicate_succ, yielded, ih]
    rw [h1, h2]; simp
  · exfalso
    rw [show rs.length - (trackerTimeline items).length = 0 by omega] at he
    simp only [List.replicate_zero, List.append_nil] at he
    rw [he] at hl
    have hm := List.mem_of_getLast? hl
    have := List.mem_of_mem_take hm
    simp at this

theorem merges_games {s : SState} (rg : List (Res (Option (Int × (Int × GameEvt))))) :
    ∀ e ∈ (rg.flatMap yielded).map (gameSEvent s), e.isTracker = false := by
  intro e he
  obtain ⟨y, _, rfl⟩ := List.mem_map.1 he
  rfl

/-- **C156** the unit table is a function of the tracker sector (and the players): replace the game sector by any other
bytes, of any other protocol version, and if reading still succeeds the table is the same. -/
theorem C156_unit_table_partial (fsId : Nat) (bld : Build) (v v' n n' : Nat) (s : SState) (titems : List (Int × Val))
    (trk game game' : List UInt8) (ht : Stream (TrackerWire bld) titems trk)
    (hutf : ∀ p ∈ titems, convTracker p.2 ≠ .err .utf8) (rows rows' : List BornRow)
    (h : collectBorn fsId bld v n (MState.new s trk game none) = some (.ok rows))
    (h' : collectBorn fsId bld v' n' (MState.new s trk game' none) = some (.ok rows')) : rows = rows' := by
  obtain ⟨es, ⟨rt, st, rg, sg, a1, a2, a3, a4, a5⟩, ⟨s2, hr⟩, rfl⟩ := C105_born_rows_any_bytes fsId bld v n s trk game rows h
  obtain ⟨es', ⟨rt', st', rg', sg', b1, b2, b3, b4, b5⟩, ⟨s2', hr'⟩, rfl⟩ :=
    C105_born_rows_any_bytes fsId bld v' n' s trk game' rows' h'
  rw [tracker_all ht hutf a1 a3] at a5
  rw [tracker_all ht hutf b1 b3] at b5
  exact rows_alike (fun s t h e => born_alike fsId h e) (fun _ _ _ _ _ => rfl) (merges_games rg) a5
    (merges_games rg') b5 (TrackAlike.refl s) hr hr'

/-- The death table likewise. -/
theorem C156_death_table_partial (fsId : Nat) (bld : Build) (v v' n n' : Nat) (s : SState) (titems : List (Int × Val))
    (trk game game' : List UInt8) (ht : Stream (TrackerWire bld) titems trk)
    (hutf : ∀ p ∈ titems, convTracker p.2 ≠ .err .utf8) (rows rows' : List DiedRow)
    (h : collectDied fsId bld v n (MState.new s trk game none) = some (.ok rows))
    (h' : collectDied fsId bld v' n' (MState.new s trk game' none) = some (.ok rows')) : rows = rows' := by
  obtain ⟨es, ⟨rt, st, rg, sg, a1, a2, a3, a4, a5⟩, ⟨s2, hr⟩, rfl⟩ := C106_died_rows_any_bytes fsId bld v n s trk game rows h
  obtain ⟨es', ⟨rt', st', rg', sg', b1, b2, b3, b4, b5⟩, ⟨s2', hr'⟩, rfl⟩ :=
    C106_died_rows_any_bytes fsId bld v' n' s trk game' rows' h'
  rw [tracker_all ht hutf a1 a3] at a5
  rw [tracker_all ht hutf b1 b3] at b5
  exact rows_alike (fun s t h e => died_alike fsId h e) (fun _ _ _ _ _ => rfl) (merges_games rg) a5
    (merges_games rg') b5 (TrackAlike.refl s) hr hr'

/-- The statistics table likewise; it does not even depend on the players. -/
theorem C156_stats_table_partial (fsId : Nat) (bld : Build) (v v' n n' : Nat) (s s' : SState) (titems : List (Int × Val))
    (trk game game' : List UInt8) (ht : Stream (TrackerWire bld) titems trk)
    (hutf : ∀ p ∈ titems, convTracker p.2 ≠ .err .utf8) (rows rows' : List StatsRow)
    (h : collectStats fsId bld v n (MState.new s trk game none) = some (.ok rows))
    (h' : collectStats fsId bld v' n' (MState.new s' trk game' none) = some (.ok rows')) : rows = rows' := by
  have key : ∀ {v n s game rows}, collectStats fsId bld v n (MState.new s trk game none) = some (.ok rows) →
      rows = ((trackerTimeline titems).map trackerSEvent).flatMap (statsRows fsId) := by
    intro v n s game rows h
    obtain ⟨es, ⟨rt, st, rg, sg, h1, _, h3, _, hi⟩, ⟨s2, hr⟩, rfl⟩ := collectRows_any (fun s e s' it => stats_item fsId s e s' it) h
    rw [tracker_all ht hutf h1 h3] at hi
    rw [rowsAlong_const hr, interleaving_flatMap hi (by
      intro x hx
      obtain ⟨y, _, rfl⟩ := List.mem_map.1 hx
      rfl)]
  rw [key h, key h']

/-- And the upgrade table. -/
theorem C156_upgrade_table_partial (fsId : Nat) (bld : Build) (v v' n n' : Nat) (s s' : SState) (titems : List (Int × Val))
    (trk game game' : List UInt8) (ht : Stream (TrackerWire bld) titems trk)
    (hutf : ∀ p ∈ titems, convTracker p.2 ≠ .err .utf8) (rows rows' : List UpgradeRow)
    (h : collectUpgrades fsId bld v n (MState.new s trk game none) = some (.ok rows))
    (h' : collectUpgrades fsId bld v' n' (MState.new s' trk game' none) = some (.ok rows')) : rows = rows' := by
  have key : ∀ {v n s game rows}, collectUpgrades fsId bld v n (MState.new s trk game none) = some (.ok rows) →
      rows = (trackerTimeline titems).filterMap (upgradeRow fsId) := by
    intro v n s game rows h
    obtain ⟨rt, st, h1, h3, rfl⟩ := C104_upgrade_rows_any_bytes_partial fsId bld v n s trk game rows h
    rw [tracker_all ht hutf h1 h3]
  rw [key h, key h']

/-- The sample file meets the hypotheses, with its own game sector, with another one and with none. -/
example (bld : Build) (rows rows' : List DiedRow)
    (h : collectDied 7 bld 90000 100 (MState.new rowsState wTrack wGame none) = some (.ok rows))
    (h' : collectDied 7 bld 80000 50 (MState.new rowsState wTrack wCamera none) = some (.ok rows')) : rows = rows' := by
  obtain ⟨titems, _, h1, h2, _⟩ := rowsFile_streams bld
  exact C156_death_table_partial 7 bld 90000 80000 100 50 rowsState titems wTrack wGame wCamera h1 h2 rows rows' h h'

example (bld : Build) : collectDied 7 bld 90000 50 (MState.new rowsState wTrack wCamera none) =
      some (.ok [⟨str "MULE", 1, 1, some 1, 10, 20, str "Marine", some 2, some 1, 18, 1, 7⟩]) ∧
    collectDied 7 bld 90000 50 (MState.new rowsState wTrack [] none) =
      some (.ok [⟨str "MULE", 1, 1, some 1, 10, 20, str "Marine", some 2, some 1, 18, 1, 7⟩]) := by
  constructor <;> cases bld <;> decide +kernel

/-- The full claim is false.  A birth after an event with a name that is not UTF-8: without game events the unit table
is empty, with one camera movement it has the birth. -/
theorem C156_unit_table_refuted (bld : Build) : ∃ titems trk game game' rows rows',
    Stream (TrackerWire bld) titems trk ∧ collectBorn 7 bld 90000 100 (MState.new rowsState trk game none) = some (.ok rows) ∧
    collectBorn 7 bld 90000 100 (MState.new rowsState trk game' none) = some (.ok rows') ∧ rows.length = 0 ∧ rows'.length = 1 := by
  have hs : ∃ v, TrackerWire bld v wScv ∧ convTracker v.2 ≠ .err .utf8 := good_tracker (by cases bld <;> decide +kernel)
  obtain ⟨v, hv, _⟩ := hs
  refine ⟨[vBadName, v], wBadName ++ wScv, [], wCamera, [],
    [⟨1, 1, str "SCV", some 1, some 1, 10, 20, none, none, none, none, 7, 0, 7, none⟩],
    ⟨_, _, rfl, wBadName_wire bld, _, [], by simp, hv, rfl⟩, ?_, ?_, rfl, rfl⟩
  · cases bld <;> decide +kernel
  · cases bld <;> decide +kernel

/-- Whether there is a table at all depends on the game sector too: a control-group number above ten in it ends the
reading of the tracker tables with a panic. -/
theorem C156_no_table_refuted (bld : Build) :
    collectDied 7 bld 90000 100 (MState.new rowsState wTrack wCamera none) ≠ some .panic ∧
    collectDied 7 bld 90000 100 (MState.new rowsState wTrack wGroup11 none) = some .panic := by
  constructor <;> cases bld <;> decide +kernel

end S2
