import Verif.Props.MergedMore
/-!
# When the combined iterator panics (C85)
-/
namespace S2

/-! ## Group numbers as decoded -/

theorem BEnc_int_range {bld : Build} {n off : Nat} {v : Val} {u : List Bool} (ho : off < 8) (hn : n < 63) (h : BEnc bld (.int 0 n) off v u) :
    ∃ x : Int, v = .int x ∧ 0 ≤ x ∧ x < 2 ^ n := by
  obtain ⟨_, hl, x, hx, hp⟩ := h
  refine ⟨x, hx, ?_⟩
  have hb := bitsVal_lt off u ho
  rw [hl] at hb
  have h63 : (2 : Nat) ^ n < 2 ^ 63 := Nat.pow_lt_pow_right (by decide) hn
  have : toI64 (bitsVal off u) = (bitsVal off u : Int) := by
    unfold toI64
    have h1 : bitsVal off u % 2 ^ 64 = bitsVal off u := Nat.mod_eq_of_lt (by omega)
    simp only [h1]
    rw [if_pos (by omega)]
  rw [this] at hp
  have hc : ((2 ^ n : Nat) : Int) = 2 ^ n := by simp
  rcases hp with ⟨_, hx⟩ | ⟨_, hn, _⟩
  · omega
  · exfalso; apply hn; unfold inI64 i64Min i64Max; omega

theorem BAltEnc_find {bld : Build} : ∀ (alts : BAlts) (tag : Int) (off : Nat) (v : Val) (u : List Bool), BAltEnc bld alts tag off v u →
    ∃ ty, alts.find tag = some ty ∧ BEnc bld ty off v u
  | .nil, _, _, _, _, h => h.elim
  | .cons t ty rest, tag, off, v, u, h => by
    simp only [BAltEnc] at h
    simp only [BAlts.find]
    split at h
    · exact ⟨ty, by simp [*], h⟩
    · obtain ⟨ty', h1, h2⟩ := BAltEnc_find rest tag off v u h
      exact ⟨ty', by simp [*], h2⟩

/-- Decoded selection and group events address groups 0 to 15 (four bits on the wire). -/
theorem decoded_group_range {bld : Build} {version : Nat} {a : Int × Int × Val} {u : List UInt8}
    (h : TripletWire bld (gameEventTy version) a u) {e : GameEvt} (hc : convGame a.2.2 = .ok e) {i : Int}
    (hi : groupIndexOf e = some i) : 0 ≤ i ∧ i < 16 := by
  obtain ⟨k, b1, b2, b3, pad, _, _, _, hb, _⟩ := h
  obtain ⟨alts, key⟩ : ∃ alts : BAlts, (∃ (n off : Nat) (l d : List Bool) (w : Val),
      a.2.2 = .choice (toI64 (bitsVal off l)) w ∧ BAltEnc bld alts (toI64 (bitsVal off l)) ((off + n) % 8) w d) ∧
      alts.find 28 = some P87702.BitPacked.GameSSelectionDeltaEvent ∧
      alts.find 29 = some P87702.BitPacked.GameSControlGroupUpdateEvent := by
    unfold gameEventTy at hb
    split at hb
    · obtain ⟨l, d, w, _, _, _, h1, h2⟩ := hb
      exact ⟨gameAlts75689, ⟨_, _, l, d, w, h1, h2⟩, rfl, rfl⟩
    · obtain ⟨l, d, w, _, _, _, h1, h2⟩ := hb
      exact ⟨gameAlts87702, ⟨_, _, l, d, w, h1, h2⟩, rfl, rfl⟩
  obtain ⟨⟨n, off, l, d, w, hv, halt⟩, f28, f29⟩ := key
  obtain ⟨ty, hty, hw⟩ := BAltEnc_find _ _ _ _ _ halt
  rw [hv] at hc
  generalize toI64 (bitsVal off l) = tag at *
  have ho : (off + n) % 8 < 8 := Nat.mod_lt _ (by decide)
  simp only [convGame] at hc
  split at hc
  · obtain ⟨y1, y2, y3, rfl⟩ : ∃ w x y, e = .cameraSave w x y := by
      unfold convCameraSave at hc; split at hc
      · simp only [Res.ok.injEq] at hc; exact ⟨_, _, _, hc.symm⟩
      · cases hc
    simp [groupIndexOf] at hi
  split at hc
  · exfalso
    unfold convCmd at hc
    split at hc
    · simp only [Res.bind_eq_ok, Res.pure_eq] at hc
      obtain ⟨_, _, _, _, _, _, _, _, hc⟩ := hc
      simp only [Res.ok.injEq] at hc
      rw [← hc] at hi; simp [groupIndexOf] at hi
    · cases hc
  split at hc
  · subst tag
    rw [f28] at hty; cases hty
    obtain ⟨vs, rfl, v0, vs', u1, u2, rfl, _, h0, _⟩ := hw
    obtain ⟨x, rfl, hx⟩ := BEnc_int_range (n := 4) ho (by decide) h0
    unfold convSelectionDelta at hc
    split at hc
    · rename_i heq
      simp only [Res.bind_eq_ok, Res.pure_eq] at hc
      obtain ⟨_, _, _, _, _, _, hc⟩ := hc
      simp only [Res.ok.injEq] at hc
      rw [← hc] at hi
      simp only [groupIndexOf, Option.some.injEq] at hi
      simp only [Val.struct.injEq, List.cons.injEq, Val.int.injEq] at heq
      rw [← hi, ← heq.1]; unfold asU; omega
    · cases hc
  split at hc
  · subst tag
    rw [f29] at hty; cases hty
    obtain ⟨vs, rfl, v0, vs', u1, u2, rfl, _, h0, _⟩ := hw
    obtain ⟨x, rfl, hx⟩ := BEnc_int_range (n := 4) ho (by decide) h0
    unfold convControlGroup at hc
    split at hc
    · rename_i heq
      simp only [Res.bind_eq_ok, Res.pure_eq] at hc
      obtain ⟨_, _, _, _, hc⟩ := hc
      simp only [Res.ok.injEq] at hc
      rw [← hc] at hi
      simp only [groupIndexOf, Option.some.injEq] at hi
      simp only [Val.struct.injEq, List.cons.injEq, Val.int.injEq] at heq
      rw [← hi, ← heq.1]; unfold asU; omega
    · cases hc
  split at hc
  · exfalso
    unfold convCameraUpdate at hc
    split at hc
    · simp only [Res.bind_eq_ok, Res.pure_eq] at hc
      obtain ⟨_, _, _, _, _, _, _, _, _, _, hc⟩ := hc
      simp only [Res.ok.injEq] at hc
      rw [← hc] at hi; simp [groupIndexOf] at hi
    · cases hc
  split at hc
  · exfalso
    unfold convTargetPointEvt at hc
    split at hc
    · simp only [Res.bind_eq_ok, Res.pure_eq] at hc
      obtain ⟨_, _, hc⟩ := hc
      simp only [Res.ok.injEq] at hc
      rw [← hc] at hi; simp [groupIndexOf] at hi
    · cases hc
  split at hc
  · exfalso
    unfold convTargetUnitEvt at hc
    split at hc
    · simp only [Res.bind_eq_ok, Res.pure_eq] at hc
      obtain ⟨_, _, hc⟩ := hc
      simp only [Res.ok.injEq] at hc
      rw [← hc] at hi; simp [groupIndexOf] at hi
    · cases hc
  · simp only [Res.bind_eq_ok, Res.pure_eq] at hc
    obtain ⟨_, _, hc⟩ := hc
    simp only [Res.ok.injEq] at hc
    rw [← hc] at hi; simp [groupIndexOf] at hi

/-! ## Fetching does not panic (release) -/

theorem IterSpec.next_ok {α β : Type} {step : IterState → Res β × IterState} {conv : α → Res β} {delta : α → Int}
    {W : α → List UInt8 → Prop} (h : IterSpec step conv delta W)
    (hstep : ∀ st, st.bitIndex = 0 → (step st).1 ≠ .panic) : ∀ (n : Nat) (st st' : IterState) (r : Res (Option (Int × β))),
    st.bitIndex = 0 → nextLoop step n st = some (r, st') → ∃ x, r = .ok x
  | 0, st, st', r, _, hn => by simp [nextLoop] at hn
  | n + 1, st, st', r, h0, hn => by
    simp only [nextLoop] at hn
    split at hn
    · simp only [Option.some.injEq, Prod.mk.injEq] at hn; exact ⟨_, hn.1.symm⟩
    · have hb : (step st).2.bitIndex = 0 := by
        by_cases hex : ∃ a u r, st.slice = u ++ r ∧ W a u
        · obtain ⟨a, u, r0, hs, hw⟩ := hex
          rw [h.ok st a u r0 h0 hs hw]; exact h0
        · obtain ⟨x, hx1, _⟩ := h.bad st h0 (fun a u r hs hw => hex ⟨a, u, r, hs, hw⟩)
          rw [hx1]; exact h0
      have hs := hstep st h0
      split at hn
      · simp only [Option.some.injEq, Prod.mk.injEq] at hn; exact ⟨_, hn.1.symm⟩
      · rename_i heq; rw [heq] at hs; exact absurd rfl hs
      · rename_i heq; rw [heq] at hb; exact IterSpec.next_ok h hstep n _ _ _ hb hn
      · simp only [Option.some.injEq, Prod.mk.injEq] at hn; exact ⟨_, hn.1.symm⟩

theorem trackerStep_ne_panic (st : IterState) : (readVersionedTrackerEvent .release st).1 ≠ .panic := by
  unfold readVersionedTrackerEvent
  cases hp : parsePair .release st.slice with
  | err e => simp
  | panic => exact absurd hp (parsePair_release_ne_panic _)
  | ok p =>
    obtain ⟨u, _, hw⟩ := (parsePair_iff .release st.slice p.1 p.2).1 hp
    simp only
    rcases TrackerWire_shape hw with ⟨x, hx⟩ | hx <;> rw [hx] <;> simp

theorem gameStep_ne_panic (version : Nat) (st : IterState) (h0 : st.bitIndex = 0) :
    (readVersionedGameEvent .release version st).1 ≠ .panic := by
  unfold readVersionedGameEvent
  rw [h0]
  cases hp : parseTriplet .release (gameEventTy version) ⟨st.slice, 0⟩ with
  | err e => simp
  | panic => exact absurd hp (parseTriplet_ne_panic .release _ (.inl rfl) _ (by simp [Cur.WF]))
  | ok p =>
    obtain ⟨u, r, _, _, hw⟩ := (parseTriplet_iff .release _ (gameEventTy_wf version) st.slice p.1 p.2).1 hp
    simp only
    rcases TripletWire_game_shape hw with ⟨x, hx⟩ | hx <;> rw [hx] <;> simp

theorem fillT_ok (m : MState) (ha : m.Aligned) : ∃ m1, fillT .release m = .ok m1 := by
  unfold fillT
  split
  · exact ⟨_, rfl⟩
  · cases hn : trackerNext .release (m.trk.data.length + 1) m.trk with
    | none =>
      exact absurd hn ((trackerIterSpec .release).nextLoop_terminates _ _ ha.1 (by simp [IterState.slice]; omega))
    | some p =>
      obtain ⟨x, hx⟩ := (trackerIterSpec .release).next_ok (fun st _ => trackerStep_ne_panic st) _ _ p.2 p.1 ha.1 hn
      obtain ⟨r, st⟩ := p
      simp only at hx; subst hx
      exact ⟨_, rfl⟩

theorem fillG_ok (version : Nat) (m : MState) (ha : m.Aligned) : ∃ m1, fillG .release version m = .ok m1 := by
  unfold fillG
  split
  · exact ⟨_, rfl⟩
  · cases hn : gameNext .release version (m.game.data.length + 1) m.game with
    | none =>
      exact absurd hn ((gameIterSpec .release version).nextLoop_terminates _ _ ha.2 (by simp [IterState.slice]; omega))
    | some p =>
      obtain ⟨x, hx⟩ := (gameIterSpec .release version).next_ok (fun st h => gameStep_ne_panic version st h) _ _ p.2 p.1 ha.2 hn
      obtain ⟨r, st⟩ := p
      simp only at hx; subst hx
      cases x with
      | none => exact ⟨_, rfl⟩
      | some y => exact ⟨_, rfl⟩

/-! ## Processing panics only on group numbers -/

theorem positionsLoop_relTotal : ∀ (items : List Int) (idx : Int), ∃ out, positionsLoop .release items idx = .ok out
  | d :: x :: y :: rest, idx => by
    obtain ⟨i, hi⟩ : ∃ i, addI32 .release idx d = .ok i := by unfold addI32; split <;> exact ⟨_, rfl⟩
    obtain ⟨x', hx⟩ : ∃ i, mul4I32 .release x = .ok i := by unfold mul4I32; split <;> exact ⟨_, rfl⟩
    obtain ⟨y', hy⟩ : ∃ i, mul4I32 .release y = .ok i := by unfold mul4I32; split <;> exact ⟨_, rfl⟩
    obtain ⟨out, ho⟩ := positionsLoop_relTotal rest i
    exact ⟨(asU 32 i, x', y') :: out, by simp only [positionsLoop, hi, hx, hy, ho, Res.bind_ok, Res.pure_eq]⟩
  | [], _ => ⟨[], rfl⟩
  | [_], _ => ⟨[], rfl⟩
  | [_, _], _ => ⟨[], rfl⟩

theorem handleTracker_ok (s : SState) (hw : s.Wf) (l : Int) (e : TrackerEvt) : ∃ r, handleTracker .release s l e = .ok r := by
  cases e with
  | unitDied e =>
    simp only [handleTracker, handleUnitDied, removeFromUsers_eq e.unitTagIndex s.users hw.2, Res.bind_ok]
    split <;> exact ⟨_, rfl⟩
  | unitPosition e =>
    obtain ⟨out, ho⟩ := positionsLoop_relTotal e.items (asI32 e.firstUnitIndex)
    simp only [handleTracker, handleUnitPosition, toUnitPositions, ho, Res.bind_ok]
    exact ⟨_, rfl⟩
  | _ => exact ⟨_, rfl⟩

theorem handleGame_total (s : SState) (hw : s.Wf) (l user : Int) (e : GameEvt) (hnn : ∀ i, groupIndexOf e = some i → 0 ≤ i) :
    (∃ r, handleGame s l user e = .ok r) ∨
    (handleGame s l user e = .panic ∧ (getUser s.users user).isSome ∧ ∃ i, groupIndexOf e = some i ∧ 10 < i) := by
  cases hg : groupIndexOf e with
  | none => exact .inl (game_events_ok hw l user e hg)
  | some i =>
    cases hu : getUser s.users user with
    | none =>
      left
      cases e with
      | selectionDelta e =>
        obtain ⟨s1, upd, h1, hus, _⟩ := selectionMarks_ok hw l user e
        simp only [handleGame, handleSelectionDelta, h1, Res.bind_ok, updGroups, hus, hu]
        exact ⟨_, rfl⟩
      | controlGroupUpdate e =>
        simp only [handleGame, updateControlGroup, unmarkSelected, selectedIds_eq hw, Res.bind_ok, Res.pure_eq, updGroups, hu]
        obtain ⟨s2, mk, hr, _⟩ := recallMarks_ok
          (s := ⟨(unmarkLoop l ((groupOf s user 10).getD []) s.units).1, s.users, s.balance⟩) ⟨hw.1, hw.2⟩ l user e.update
        simp only [hr, Res.bind_ok]
        exact ⟨_, rfl⟩
      | _ => simp [groupIndexOf] at hg
    | some u =>
      by_cases hi : i ≤ 10
      · obtain ⟨s', e', hint, h1, _⟩ := C44_group_step s hw l user e (by simp [hu]) i hg ⟨hnn i hg, hi⟩
        exact .inl ⟨_, h1⟩
      · refine .inr ⟨(C46_panic_iff_partial s hw l user e hnn).2 ⟨by simp [hu], i, hg, by omega⟩, by simp, i, rfl, by omega⟩

theorem pull_wf {bld : Build} {version : Nat} {m m' : MState} {x : Option Item} (hw : m.sc2.Wf)
    (h : pull bld version m = .ok (x, m')) : m'.sc2.Wf := by
  unfold pull at h
  obtain ⟨m1, h1, h⟩ := Res.bind_eq_ok.1 h
  obtain ⟨m2, h2, h⟩ := Res.bind_eq_ok.1 h
  have e1 : m1.sc2 = m.sc2 := by obtain ⟨_, _, _, he⟩ := fillT_any h1; rw [he]
  have e2 : m2.sc2 = m1.sc2 := by
    unfold fillG at h2
    split at h2
    · simp only [Res.ok.injEq] at h2; rw [h2]
    · split at h2 <;> simp only [Res.ok.injEq, reduceCtorEq] at h2 <;> rw [← h2]
  split at h
  · simp only [Res.pure_eq, Res.ok.injEq, Prod.mk.injEq] at h
    rw [← h.2, e2, e1]; exact hw
  · rename_i e m3 hp
    obtain ⟨⟨s', it⟩, ht, h⟩ := Res.bind_eq_ok.1 h
    simp only [Res.pure_eq, Res.ok.injEq, Prod.mk.injEq] at h
    rw [← h.2]
    have e3 : m3.sc2 = m2.sc2 := by
      unfold pick at hp
      split at hp
      · split at hp <;> simp only [Option.some.injEq, Prod.mk.injEq] at hp <;> rw [← hp.2]
      · simp only [Option.some.injEq, Prod.mk.injEq] at hp; rw [← hp.2]
      · simp only [Option.some.injEq, Prod.mk.injEq] at hp; rw [← hp.2]
      · cases hp
    exact transition_wf (by rw [e3, e2, e1]; exact hw) ht

theorem Pulls.wf {bld : Build} {version : Nat} {m m' : MState} {xs : List (Option Item)} (h : Pulls bld version m xs m') :
    m.sc2.Wf → m.Aligned → m'.sc2.Wf ∧ m'.Aligned := by
  induction h with
  | nil m => exact fun a b => ⟨a, b⟩
  | cons h _ ih => exact fun a b => ih (pull_wf a h) (pull_measure b h).1

theorem withLoops_mem {α : Type} (delta : α → Int) : ∀ (items : List α) (l : Int) (q : Int × α), q ∈ withLoops delta l items → q.2 ∈ items
  | [], l, q, h => by cases h
  | a :: items, l, q, h => by
    simp only [withLoops, List.mem_cons] at h
    rcases h with rfl | h
    · simp
    · exact List.mem_cons_of_mem _ (withLoops_mem delta items _ q h)

/-- A call that does not return a value ends in a round that does not. -/
theorem mnext_not_ok {bld : Build} {version : Nat} : ∀ {n : Nat} {m m' : MState} {r : Res (Option Item)},
    mnext bld version n m = some (r, m') → (∃ x, r = .ok x) ∨
    ∃ xs mid, Pulls bld version m xs mid ∧ ∀ y, pull bld version mid ≠ .ok y
  | 0, m, m', r, h => by cases h
  | n + 1, m, m', r, h => by
    cases hp : pull bld version m with
    | err e => exact .inr ⟨[], m, .nil _, by rw [hp]; simp⟩
    | panic => exact .inr ⟨[], m, .nil _, by rw [hp]; simp⟩
    | ok p =>
      obtain ⟨x, m1⟩ := p
      simp only [mnext, hp] at h
      cases x with
      | none => simp only [Option.some.injEq, Prod.mk.injEq] at h; exact .inl ⟨_, h.1.symm⟩
      | some it =>
        simp only at h
        cases hf : m1.filters with
        | none => rw [hf] at h; simp only [Option.some.injEq, Prod.mk.injEq] at h; exact .inl ⟨_, h.1.symm⟩
        | some f =>
          rw [hf] at h
          simp only at h
          split at h
          · rcases mnext_not_ok h with h | ⟨xs, mid, h1, h2⟩
            · exact .inl h
            · exact .inr ⟨_, mid, .cons hp h1, h2⟩
          · split at h <;> simp only [Option.some.injEq, Prod.mk.injEq] at h <;> exact .inl ⟨_, h.1.symm⟩

/-- Release build, any bytes, any filters, any earlier calls: a call of the combined iterator returns an event or
`None`; the one exception is that the game sector holds an event of a known user that addresses a control group
11 to 15. -/
theorem C85_release_total (version : Nat) (s : SState) (hw : s.Wf) (trk game : List UInt8) (o : Option Filters)
    (rs : List (Res (Option Item))) (m : MState)
    (hc : Calls (mnext .release version) (MState.new s trk game o) rs m) (hok : ∀ r ∈ rs, ∃ x, r = .ok x)
    (n : Nat) (r : Res (Option Item)) (m' : MState) (hn : mnext .release version n m = some (r, m')) :
    (∃ x, r = .ok x) ∨
    ∃ rg sg l u e i, Calls (gameNext .release version) (IterState.new game) rg sg ∧ (l, u, e) ∈ rg.flatMap yielded ∧
      (getUser s.users u).isSome ∧ groupIndexOf e = some i ∧ 11 ≤ i ∧ i ≤ 15 := by
  rcases mnext_not_ok hn with h | ⟨ys, mid, hp2, hbad⟩
  · exact .inl h
  right
  obtain ⟨xs, hp1, _, _⟩ := calls_pulls hc hok
  have hp1 := hp1.change_filters m.filters
  have hp : Pulls .release version (MState.new s trk game m.filters) (xs ++ ys) mid := hp1.append hp2
  obtain ⟨hwf, hal⟩ := hp.wf hw ⟨rfl, rfl⟩
  have hname : NameInv s mid := by
    have gen : ∀ {a b : MState} {zs : List (Option Item)}, Pulls .release version a zs b → NameInv s a → NameInv s b := by
      intro a b zs h
      induction h with
      | nil _ => exact id
      | cons h _ ih => exact fun hi => ih (pull_any h hi).1
    exact gen hp ⟨fun _ => rfl, fun g hg => by cases hg⟩
  obtain ⟨rt, rg, tr, ga, es, _, hcg, _, hg, _, _⟩ := pulls_any (s0 := s) hp ⟨fun _ => rfl, fun g hg => by cases hg⟩
  obtain ⟨m1, h1⟩ := fillT_ok mid hal
  obtain ⟨hal1, _⟩ := fillT_measure hal h1
  obtain ⟨m2, h2⟩ := fillG_ok version m1 hal1
  obtain ⟨_, _, _, he1⟩ := fillT_any h1
  have hname1 : NameInv s m1 := by rw [he1]; exact hname
  obtain ⟨rg2, hcg2, hg2, he2, hname2⟩ := fillG_any h2 hname1
  have hs2 : m2.sc2 = mid.sc2 := by rw [he2, he1]
  unfold pull at hbad
  rw [h1, Res.bind_ok, h2, Res.bind_ok] at hbad
  cases hpk : pick m2 with
  | none => rw [hpk] at hbad; exact absurd rfl (hbad _)
  | some p =>
    obtain ⟨e, m3⟩ := p
    rw [hpk] at hbad
    simp only at hbad
    have ht : ∀ y, transition .release m3.sc2 e ≠ .ok y := by
      intro y hy
      rw [hy] at hbad
      exact hbad _ rfl
    have key : m3.sc2 = m2.sc2 ∧ ((∃ l te, e = .tracker l te) ∨
        ∃ l u nm ge, e = .game l u nm ge ∧ m2.nextG = some (l, u, nm, ge)) := by
      unfold pick at hpk
      split at hpk
      · split at hpk <;> simp only [Option.some.injEq, Prod.mk.injEq] at hpk <;> obtain ⟨rfl, rfl⟩ := hpk
        · exact ⟨rfl, .inl ⟨_, _, rfl⟩⟩
        · exact ⟨rfl, .inr ⟨_, _, _, _, rfl, by assumption⟩⟩
      · simp only [Option.some.injEq, Prod.mk.injEq] at hpk; obtain ⟨rfl, rfl⟩ := hpk
        exact ⟨rfl, .inr ⟨_, _, _, _, rfl, by assumption⟩⟩
      · simp only [Option.some.injEq, Prod.mk.injEq] at hpk; obtain ⟨rfl, rfl⟩ := hpk
        exact ⟨rfl, .inl ⟨_, _, rfl⟩⟩
      · cases hpk
    obtain ⟨hs3, he⟩ := key
    have hwf3 : m3.sc2.Wf := by rw [hs3, hs2]; exact hwf
    rcases he with ⟨l, te, rfl⟩ | ⟨l, u, nm, ge, rfl, hng⟩
    · obtain ⟨y, hy⟩ := handleTracker_ok m3.sc2 hwf3 l te
      simp only [transition, hy, Res.bind_ok] at ht
      exact absurd rfl (ht _)
    · have hcalls := hcg.append (by rw [he1] at hcg2; exact hcg2)
      have hmem : (l, u, ge) ∈ (rg ++ rg2).flatMap yielded := by
        have e1 : m1.nextG = mid.nextG := by rw [he1]
        rw [e1] at hg2
        rw [List.flatMap_append]
        have : (l, u, ge) ∈ mid.nextG.toList.map bareGame ++ rg2.flatMap yielded := by
          rw [← hg2, hng]; simp [bareGame]
        rcases List.mem_append.1 this with h | h
        · refine List.mem_append.2 (.inl ?_)
          have h4 : rg.flatMap yielded = ga ++ mid.nextG.toList.map bareGame := by simpa [MState.new] using hg
          rw [h4]; exact List.mem_append.2 (.inr h)
        · exact List.mem_append.2 (.inr h)
      have hrange : ∀ i, groupIndexOf ge = some i → 0 ≤ i ∧ i < 16 := by
        intro i hi
        obtain ⟨items', d, rest, _, hst, _, hy⟩ := (gameIterSpec .release version).calls_spec hcalls rfl
        rw [hy] at hmem
        unfold loopOut at hmem
        obtain ⟨q, hq, hq2⟩ := List.mem_filterMap.1 hmem
        have hqm : q.2 ∈ items' := withLoops_mem Prod.fst items' _ _ hq
        refine stream_forall (P := fun a : Int × Int × Val => ∀ e, convGame a.2.2 = .ok e → groupIndexOf e = some i → 0 ≤ i ∧ i < 16)
          (fun _ _ h e he hi => decoded_group_range h he hi) items' d hst _ hqm ge ?_ hi
        cases hcv : convGame q.2.2.2 with
        | ok x =>
          simp only [hcv, Res.bind_ok, Res.pure_eq, Res.toOpt, Option.map_some, Option.some.injEq, Prod.mk.injEq] at hq2
          rw [hq2.2.2]
        | err x => simp [hcv, Res.toOpt] at hq2
        | panic => simp [hcv, Res.toOpt] at hq2
      rcases handleGame_total m3.sc2 hwf3 l u ge (fun i hi => (hrange i hi).1) with ⟨y, hy⟩ | ⟨_, hu, i, hi, hi2⟩
      · simp only [transition, hy, Res.bind_ok] at ht
        exact absurd rfl (ht _)
      · refine ⟨rg ++ rg2, _, l, u, ge, i, hcalls, hmem, ?_, hi, by omega, by have := hrange i hi; omega⟩
        have := hname2.1 u
        unfold userName at this
        rw [hs3] at hu
        cases hus : getUser s.users u with
        | some x => rfl
        | none =>
          rw [hus] at this
          obtain ⟨z, hz⟩ := Option.isSome_iff_exists.1 hu
          rw [hz] at this
          cases this

/-- The exception is real: `C46_group_id_refuted`.  Without such an event nothing panics: -/
example (n : Nat) (r : Res (Option Item)) (m' : MState)
    (h : mnext .release 90000 n (MState.new demoState (wDone ++ wBadName) (wCamera ++ [0xFF]) none) = some (r, m')) :
    ∃ x, r = .ok x := by
  rcases C85_release_total 90000 demoState demoState_wf _ _ _ [] _ (.nil _) (by simp) n r m' h with h | ⟨rg, sg, l, u, e, i, h1, h2, h3, h4, _⟩
  · exact h
  · exfalso
    have hu : u = 3 := by
      obtain ⟨items, d, rest, hd, hst, _, hy⟩ := (gameIterSpec .release 90000).calls_spec h1 rfl
      rw [hy] at h2
      obtain ⟨q, hq, hq2⟩ := List.mem_filterMap.1 h2
      have hqm := withLoops_mem Prod.fst items _ _ hq
      have hfst : ∀ a ∈ items, a.2.1 = 3 := by
        match items, hst with
        | [], _ => simp
        | a :: items, ⟨w, d', hd', hw, hrest⟩ =>
          have ha : parseTriplet .release (gameEventTy 90000) ⟨wCamera ++ [0xFF], 0⟩ = .ok (⟨d' ++ rest, 0⟩, a) := by
            refine (parseTriplet_iff .release _ (gameEventTy_wf 90000) _ _ a).2 ⟨w, d' ++ rest, ?_, rfl, hw⟩
            rw [← List.append_assoc, ← hd']; exact hd
          have hb : parseTriplet .release (gameEventTy 90000) ⟨wCamera ++ [0xFF], 0⟩ = .ok (⟨[0xFF], 0⟩, vCamera) := by decide +kernel
          rw [hb] at ha
          simp only [Res.ok.injEq, Prod.mk.injEq, Cur.mk.injEq, and_true] at ha
          match items, hrest with
          | [], _ => intro x hx; rw [List.mem_singleton.1 hx, ← ha.2]; rfl
          | b :: items, ⟨w2, d2, hd2, hw2, _⟩ =>
            exfalso
            have hx : parseTriplet .release (gameEventTy 90000) ⟨[0xFF], 0⟩ = .ok (⟨d2 ++ rest, 0⟩, b) := by
              refine (parseTriplet_iff .release _ (gameEventTy_wf 90000) _ _ b).2 ⟨w2, d2 ++ rest, ?_, rfl, hw2⟩
              rw [← List.append_assoc, ← hd2]; exact ha.1
            have hb2 : parseTriplet .release (gameEventTy 90000) ⟨[0xFF], 0⟩ = .err .eof := by decide +kernel
            rw [hb2] at hx; cases hx
      have := hfst _ hqm
      cases hcv : convGame q.2.2.2 with
      | ok x =>
        simp only [hcv, Res.bind_ok, Res.pure_eq, Res.toOpt, Option.map_some, Option.some.injEq, Prod.mk.injEq] at hq2
        rw [← hq2.2.1, this]
      | err x => simp [hcv, Res.toOpt] at hq2
      | panic => simp [hcv, Res.toOpt] at hq2
    subst hu
    have : (getUser demoState.users 3).isSome = false := by decide +kernel
    rw [this] at h3; cases h3

end S2
