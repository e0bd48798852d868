import Verif.Spec.MergeSpec
import Verif.Props.Iter
import Verif.State.UserLemmas
/-! # Lemmas about the combined iterator -/
namespace S2

/-! ## What an underlying iterator will deliver -/

/-- From state `st` on, calls deliver exactly `l` and then nothing, and the call the combined iterator
makes returns. -/
def Future {ω : Type} (next : Nat → IterState → Option (Res (Option ω) × IterState)) (st : IterState) (l : List ω) : Prop :=
  (∀ rs st', Calls next st rs st' → rs = (l.map (fun x => Res.ok (some x))).take rs.length ++
      List.replicate (rs.length - l.length) (Res.ok none)) ∧
  (∀ rs st', Calls next st rs st' → ∃ r, next (st'.data.length + 1) st' = some r)

theorem Future.step {ω : Type} {next : Nat → IterState → Option (Res (Option ω) × IterState)} {st : IterState} {l : List ω}
    (h : Future next st l) : ∃ st1, next (st.data.length + 1) st = some (.ok l.head?, st1) ∧ Future next st1 l.tail := by
  obtain ⟨⟨r, st1⟩, hr⟩ := h.2 [] st (.nil st)
  have hc : Calls next st [r] st1 := .cons hr (.nil st1)
  have h1 := h.1 _ _ hc
  cases l with
  | nil =>
    simp only [List.map_nil, List.take_nil, List.nil_append, List.length_nil, List.length_singleton, Nat.sub_zero,
      List.replicate_one, List.cons.injEq, and_true] at h1
    refine ⟨st1, by rw [hr, h1]; rfl, ?_, fun rs st' hc' => h.2 _ _ (.cons hr hc')⟩
    intro rs st' hc'
    have := h.1 _ _ (.cons hr hc')
    simpa [List.replicate_succ, h1] using this
  | cons x l =>
    have h1 : r = .ok (some x) := by have := congrArg List.head? h1; simpa using this
    refine ⟨st1, by rw [hr, h1]; rfl, ?_, fun rs st' hc' => h.2 _ _ (.cons hr hc')⟩
    intro rs st' hc'
    have := h.1 _ _ (.cons hr hc')
    simp only [List.length_cons, List.map_cons, List.take_succ_cons, List.cons_append, List.cons.injEq] at this
    rw [show ∀ a b : Nat, a + 1 - (b + 1) = a - b by omega] at this
    exact this.2

theorem calls_data {α β : Type} {step : IterState → Res β × IterState} {conv : α → Res β} {delta : α → Int}
    {W : α → List UInt8 → Prop} (h : IterSpec step conv delta W) {st st' : IterState} {rs : List (Res (Option (Int × β)))}
    (hc : Calls (nextLoop step) st rs st') (h0 : st.bitIndex = 0) : st'.data = st.data := by
  obtain ⟨items, d, rest, _, _, h3, _⟩ := h.calls_spec hc h0
  rw [h3]; rfl

theorem tracker_future (bld : Build) (items : List (Int × Val)) (data : List UInt8)
    (hs : Stream (TrackerWire bld) items data) (hutf : ∀ p ∈ items, convTracker p.2 ≠ .err .utf8) :
    Future (trackerNext bld) (IterState.new data) (trackerTimeline items) :=
  ⟨fun rs st' hc => C33_tracker_exact bld items data rs st' hs hutf hc,
   fun rs st' hc => C33_tracker_call_terminates bld data rs st' hc _ (by
      have : st'.data = data := calls_data (trackerIterSpec bld) hc rfl
      rw [this]; omega)⟩

theorem game_future (bld : Build) (version : Nat) (items : List (Int × Int × Val)) (data : List UInt8)
    (hs : Stream (TripletWire bld (gameEventTy version)) items data) :
    Future (gameNext bld version) (IterState.new data) (gameTimeline items) :=
  ⟨fun rs st' hc => C33_game_exact bld version items data rs st' hs hc,
   fun rs st' hc => C33_game_call_terminates bld version data rs st' hc _ (by
      have : st'.data = data := calls_data (gameIterSpec bld version) hc rfl
      rw [this]; omega)⟩

/-! ## User names never change -/

theorem removeFromUsers_name (t : Int) : ∀ {users users' : List (Int × UserState)}, removeFromUsers t users = .ok users' →
    ∀ w, (getUser users' w).map UserState.name = (getUser users w).map UserState.name
  | [], users', h, w => by simp only [removeFromUsers, Res.ok.injEq] at h; rw [← h]
  | (k, u) :: rest, users', h, w => by
    simp only [removeFromUsers] at h
    obtain ⟨g, _, h2⟩ := Res.bind_eq_ok.1 h
    obtain ⟨r, h3, h4⟩ := Res.bind_eq_ok.1 h2
    simp only [Res.pure_eq, Res.ok.injEq] at h4
    rw [← h4]
    simp only [getUser]
    split
    · rfl
    · exact removeFromUsers_name t h3 w

theorem setUser_name {users : List (Int × UserState)} {user : Int} {u v : UserState} (hu : getUser users user = some u)
    (hn : v.name = u.name) (w : Int) :
    (getUser (setUser users user v) w).map UserState.name = (getUser users w).map UserState.name := by
  by_cases hw : w = user
  · subst hw; rw [getUser_setUser_self v hu, hu]; simp [hn]
  · rw [getUser_setUser_ne v hw]

theorem transition_names {bld : Build} {s s' : SState} {e : SEvent} {it : Item}
    (h : transition bld s e = .ok (s', it)) (w : Int) : userName s' w = userName s w := by
  unfold userName
  cases e with
  | game l user nm ge =>
    simp only [transition] at h
    obtain ⟨⟨s2, e2, hh2⟩, hh, hk⟩ := Res.bind_eq_ok.1 h
    simp only [Res.pure_eq, Res.ok.injEq, Prod.mk.injEq] at hk
    rw [← hk.1]
    rcases handleGame_users hh with h1 | ⟨u, v, h1, h2, h3, _⟩
    · rw [h1]
    · rw [h2]; exact setUser_name h1 h3 w
  | tracker l te =>
    simp only [transition] at h
    obtain ⟨⟨s2, e2, hh2⟩, hh, hk⟩ := Res.bind_eq_ok.1 h
    simp only [Res.pure_eq, Res.ok.injEq, Prod.mk.injEq] at hk
    rw [← hk.1]
    clear hk h
    have same : s2.users = s.users → (getUser s2.users w).map UserState.name = (getUser s.users w).map UserState.name :=
      fun h => by rw [h]
    cases te with
    | playerStats p st => simp only [handleTracker, Res.ok.injEq, Prod.mk.injEq] at hh; exact same (by rw [← hh.1])
    | unitOwnerChange e => simp only [handleTracker, Res.ok.injEq, Prod.mk.injEq] at hh; exact same (by rw [← hh.1])
    | upgrade e => simp only [handleTracker, Res.ok.injEq, Prod.mk.injEq] at hh; exact same (by rw [← hh.1])
    | unitPosition e =>
      simp only [handleTracker, handleUnitPosition] at hh
      obtain ⟨ps, _, h2⟩ := Res.bind_eq_ok.1 hh
      simp only [Res.pure_eq, Res.ok.injEq, Prod.mk.injEq] at h2
      exact same (by rw [← h2.1])
    | unitDone e =>
      simp only [handleTracker, Res.ok.injEq, handleUnitDone] at hh
      split at hh <;> simp only [Prod.mk.injEq] at hh <;> exact same (by rw [← hh.1])
    | unitInit e =>
      simp only [handleTracker, Res.ok.injEq, handleUnitInit, Prod.mk.injEq] at hh
      exact same (by rw [← hh.1])
    | unitTypeChange e =>
      simp only [handleTracker, Res.ok.injEq, handleUnitTypeChange] at hh
      split at hh <;> simp only [Prod.mk.injEq] at hh <;> exact same (by rw [← hh.1])
    | unitBorn e =>
      simp only [handleTracker, Res.ok.injEq, handleUnitBorn] at hh
      split at hh <;> simp only [Prod.mk.injEq] at hh <;> exact same (by rw [← hh.1])
    | unitDied e =>
      simp only [handleTracker, handleUnitDied] at hh
      obtain ⟨users, h1, h2⟩ := Res.bind_eq_ok.1 hh
      have : s2.users = users := by
        split at h2 <;> simp only [Res.pure_eq, Res.ok.injEq, Prod.mk.injEq] at h2 <;> rw [← h2.1]
      rw [this]
      exact removeFromUsers_name _ h1 w
    | playerSetup e =>
      simp only [handleTracker, Res.ok.injEq, handlePlayerSetup] at hh
      split at hh
      · simp only [Prod.mk.injEq] at hh; exact same (by rw [← hh.1])
      · split at hh
        · simp only [Prod.mk.injEq] at hh; exact same (by rw [← hh.1])
        · rename_i u hu
          simp only [Prod.mk.injEq] at hh
          rw [← hh.1]
          exact setUser_name (v := { u with setupPlayerId := some e.playerId, setupSlotId := e.slotId }) hu rfl w

/-- The event reported is at the same loop and of the same stream as the one processed. -/
theorem transition_event {bld : Build} {s s' : SState} {e : SEvent} {it : Item}
    (h : transition bld s e = .ok (s', it)) : it.event.time = e.time ∧ it.event.isTracker = e.isTracker := by
  cases e <;> simp only [transition] at h <;> obtain ⟨⟨s2, e2, hh2⟩, hh, hk⟩ := Res.bind_eq_ok.1 h <;>
    simp only [Res.pure_eq, Res.ok.injEq, Prod.mk.injEq] at hk <;> rw [← hk.2] <;> exact ⟨rfl, rfl⟩

/-! ## The merge -/

/-- The order in which two given lists of events are processed. -/
def mergeEvents (s : SState) : List (Int × TrackerEvt) → List (Int × (Int × GameEvt)) → List SEvent
  | [], gs => gs.map (gameSEvent s)
  | t :: ts, [] => (t :: ts).map trackerSEvent
  | t :: ts, g :: gs =>
    if t.1 < f32ToI64 (f32OfInt g.1) then trackerSEvent t :: mergeEvents s ts (g :: gs)
    else gameSEvent s g :: mergeEvents s (t :: ts) gs
termination_by ts gs => ts.length + gs.length

theorem interleaving_right {α : Type} : ∀ l : List α, Interleaving [] l l
  | [] => .nil
  | _ :: l => .right (interleaving_right l)

theorem interleaving_left {α : Type} : ∀ l : List α, Interleaving l [] l
  | [] => .nil
  | _ :: l => .left (interleaving_left l)

theorem mergeEvents_interleaving (s : SState) (ts : List (Int × TrackerEvt)) (gs : List (Int × (Int × GameEvt))) :
    Interleaving (ts.map trackerSEvent) (gs.map (gameSEvent s)) (mergeEvents s ts gs) := by
  fun_induction mergeEvents s ts gs with
  | case1 gs => exact interleaving_right _
  | case2 t ts => exact interleaving_left _
  | case3 t ts g gs h ih => exact .left ih
  | case4 t ts g gs h ih => exact .right ih

/-- The state of the combined iterator when tracker events `ts` and game events `gs` are still to come. -/
structure Rep (bld : Build) (version : Nat) (s0 : SState) (m : MState) (ts : List (Int × TrackerEvt))
    (gs : List (Int × (Int × GameEvt))) : Prop where
  names : ∀ w, userName m.sc2 w = userName s0 w
  trk : match m.nextT with
    | some t => ∃ ts', ts = t :: ts' ∧ Future (trackerNext bld) m.trk ts'
    | none => Future (trackerNext bld) m.trk ts
  game : match m.nextG with
    | some (l, u, n, e) => n = userName s0 u ∧ ∃ gs', gs = (l, u, e) :: gs' ∧ Future (gameNext bld version) m.game gs'
    | none => Future (gameNext bld version) m.game gs

theorem Rep.fillT {bld : Build} {version : Nat} {s0 : SState} {m : MState} {ts : List (Int × TrackerEvt)}
    {gs : List (Int × (Int × GameEvt))} (h : Rep bld version s0 m ts gs) :
    ∃ st, fillT bld m = .ok { m with nextT := ts.head?, trk := st } ∧ Future (trackerNext bld) st ts.tail := by
  have h1 := h.trk
  unfold S2.fillT
  split
  · rename_i t ht
    rw [ht] at h1
    obtain ⟨ts', rfl, h2⟩ := h1
    refine ⟨m.trk, ?_, h2⟩
    simp only [List.head?_cons, ← ht]
  · rename_i ht
    rw [ht] at h1
    obtain ⟨st1, h2, h3⟩ := h1.step
    exact ⟨st1, by rw [h2], h3⟩

theorem Rep.fillG {bld : Build} {version : Nat} {s0 : SState} {m : MState} {ts : List (Int × TrackerEvt)}
    {gs : List (Int × (Int × GameEvt))} (h : Rep bld version s0 m ts gs) :
    ∃ st, fillG bld version m = .ok { m with nextG := gs.head?.map (fun g => (g.1, g.2.1, userName s0 g.2.1, g.2.2)), game := st } ∧
      Future (gameNext bld version) st gs.tail := by
  have h1 := h.game
  unfold S2.fillG
  split
  · rename_i g hg
    obtain ⟨l, u, n, e⟩ := g
    rw [hg] at h1
    obtain ⟨rfl, gs', rfl, h2⟩ := h1
    refine ⟨m.game, ?_, h2⟩
    simp only [List.head?_cons, Option.map_some, ← hg]
  · rename_i hg
    rw [hg] at h1
    obtain ⟨st1, h2, h3⟩ := h1.step
    refine ⟨st1, ?_, h3⟩
    rw [h2]
    cases gs with
    | nil => rfl
    | cons g gs =>
      obtain ⟨l, u, e⟩ := g
      simp only [List.head?_cons, Option.map_some]
      have := h.names u
      unfold userName at this ⊢
      rw [this]

/-- One round when `ts`, `gs` are still to come. -/
theorem Rep.pull {bld : Build} {version : Nat} {s0 : SState} {m : MState} {ts : List (Int × TrackerEvt)}
    {gs : List (Int × (Int × GameEvt))} (h : Rep bld version s0 m ts gs) :
    match mergeEvents s0 ts gs with
    | [] => ∃ m', pull bld version m = .ok (none, m') ∧ m'.sc2 = m.sc2 ∧ m'.filters = m.filters ∧ ts = [] ∧ gs = [] ∧
        Rep bld version s0 m' [] []
    | e :: es => match transition bld m.sc2 e with
      | .ok (s', it) => ∃ m' ts' gs', pull bld version m = .ok (some it, m') ∧ m'.sc2 = s' ∧ m'.filters = m.filters ∧
          mergeEvents s0 ts' gs' = es ∧ Rep bld version s0 m' ts' gs' ∧ ts'.length + gs'.length + 1 = ts.length + gs.length
      | .err x => pull bld version m = .err x
      | .panic => pull bld version m = .panic := by
  obtain ⟨st1, h1, f1⟩ := h.fillT
  have hR1 : Rep bld version s0 { m with nextT := ts.head?, trk := st1 } ts gs := by
    refine ⟨h.names, ?_, h.game⟩
    cases ts with
    | nil => exact f1
    | cons t ts => exact ⟨ts, rfl, f1⟩
  obtain ⟨st2, h2, f2⟩ := hR1.fillG
  unfold S2.pull
  simp only [h1, Res.bind_ok, h2]
  cases ts with
  | nil =>
    cases gs with
    | nil =>
      simp only [mergeEvents, List.map_nil, pick, List.head?_nil, Option.map_none, Res.pure_eq]
      exact ⟨_, rfl, rfl, rfl, trivial, trivial, ⟨h.names, f1, f2⟩⟩
    | cons g gs =>
      obtain ⟨l, u, e⟩ := g
      simp only [mergeEvents, List.map_cons, pick, List.head?_nil, List.head?_cons, Option.map_some, gameSEvent]
      cases ht : transition bld m.sc2 (SEvent.game l u (userName s0 u) e) with
      | err x => rfl
      | panic => rfl
      | ok p =>
        obtain ⟨s', it⟩ := p
        simp only [Res.bind_ok, Res.pure_eq]
        refine ⟨_, [], gs, rfl, rfl, rfl, by simp only [mergeEvents], ⟨?_, f1, f2⟩, by simp⟩
        intro w; exact (transition_names ht w).trans (h.names w)
  | cons t ts =>
    obtain ⟨tl, te⟩ := t
    cases gs with
    | nil =>
      simp only [mergeEvents, List.map_cons, pick, List.head?_nil, List.head?_cons, Option.map_none, trackerSEvent]
      cases ht : transition bld m.sc2 (SEvent.tracker tl te) with
      | err x => rfl
      | panic => rfl
      | ok p =>
        obtain ⟨s', it⟩ := p
        simp only [Res.bind_ok, Res.pure_eq]
        refine ⟨_, ts, [], rfl, rfl, rfl, by cases ts <;> simp [mergeEvents], ⟨?_, f1, f2⟩, by simp⟩
        intro w; exact (transition_names ht w).trans (h.names w)
    | cons g gs =>
      obtain ⟨l, u, e⟩ := g
      simp only [pick, List.head?_cons, Option.map_some]
      rw [mergeEvents]
      simp only
      by_cases hlt : tl < f32ToI64 (f32OfInt l)
      · simp only [if_pos hlt, trackerSEvent]
        cases ht : transition bld m.sc2 (SEvent.tracker tl te) with
        | err x => rfl
        | panic => rfl
        | ok p =>
          obtain ⟨s', it⟩ := p
          simp only [Res.bind_ok, Res.pure_eq]
          refine ⟨_, ts, (l, u, e) :: gs, rfl, rfl, rfl, rfl, ⟨?_, f1, ⟨rfl, gs, rfl, f2⟩⟩, by simp; omega⟩
          intro w; exact (transition_names ht w).trans (h.names w)
      · simp only [if_neg hlt, gameSEvent]
        cases ht : transition bld m.sc2 (SEvent.game l u (userName s0 u) e) with
        | err x => rfl
        | panic => rfl
        | ok p =>
          obtain ⟨s', it⟩ := p
          simp only [Res.bind_ok, Res.pure_eq]
          refine ⟨_, (tl, te) :: ts, gs, rfl, rfl, rfl, rfl, ⟨?_, ⟨ts, rfl, f1⟩, f2⟩, by simp; omega⟩
          intro w; exact (transition_names ht w).trans (h.names w)

end S2
