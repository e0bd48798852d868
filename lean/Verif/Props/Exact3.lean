import Verif.Props.Iter
import Verif.Props.Groups
/-! # Exact conditions, third part (C34, C45) -/
namespace S2

/-- What a call answers for an item of the stream at its game loop. [specification] -/
def answerTo (p : Int × (Int × Val)) : Res (Option (Int × TrackerEvt)) :=
  .ok ((convTracker p.2.2).toOpt.map (fun e => (p.1, e)))

theorem tracker_answers (bld : Build) : (rs : List (Res (Option (Int × TrackerEvt)))) → ∀ (items : List (Int × Val)) (s s' : IterState),
    s.bitIndex = 0 → Stream (TrackerWire bld) items s.slice → Calls (trackerNext bld) s rs s' →
    rs = ((withLoops Prod.fst s.eventLoop items).map answerTo).take rs.length ++ List.replicate (rs.length - items.length) (.ok none)
  | [], items, s, s', _, _, _ => by simp
  | r :: rs, items, s, s', h0, hst, hc => by
    cases hc with
    | cons hn hc =>
      rename_i s1 n
      cases n with
      | zero => simp [trackerNext, nextLoop] at hn
      | succ n =>
        cases items with
        | nil =>
          have hs : s.slice = [] := hst
          have e : s.slice.isEmpty = true := by rw [hs]; rfl
          simp only [trackerNext, nextLoop, e, if_true, Option.some.injEq, Prod.mk.injEq] at hn
          obtain ⟨rfl, rfl⟩ := hn
          have := tracker_answers bld rs [] s s' h0 hst hc
          simp only [withLoops, List.map_nil, List.take_nil, List.nil_append, List.length_nil, Nat.sub_zero] at this ⊢
          rw [List.length_cons, List.replicate_succ, ← this]
        | cons a items =>
          obtain ⟨u, d, hd, hw, hst⟩ := hst
          have hne : s.slice.isEmpty = false := by
            have := TrackerWire_ne_nil hw
            rw [hd]; cases u <;> simp_all
          have hok := (trackerIterSpec bld).ok s a u d h0 hd hw
          have hr : r = answerTo (s.eventLoop + a.1, a) ∧ s1 = s.adv u.length a.1 := by
            rcases TrackerWire_shape hw with ⟨b, hb⟩ | hb
            · simp only [trackerNext, nextLoop, hne, hok, hb, Bool.false_eq_true, if_false, Option.some.injEq, Prod.mk.injEq] at hn
              obtain ⟨rfl, rfl⟩ := hn
              exact ⟨by simp [answerTo, hb, Res.toOpt, IterState.adv], rfl⟩
            · simp only [trackerNext, nextLoop, hne, hok, hb, Bool.false_eq_true, if_false, Option.some.injEq, Prod.mk.injEq] at hn
              obtain ⟨rfl, rfl⟩ := hn
              exact ⟨by simp [answerTo, hb, Res.toOpt], rfl⟩
          obtain ⟨rfl, rfl⟩ := hr
          have := tracker_answers bld rs items _ s' (by exact h0) (by rw [adv_slice hd]; exact hst) hc
          rw [withLoops, List.map_cons, List.length_cons, List.length_cons, List.take_succ_cons, List.cons_append, Nat.add_sub_add_right]
          congr 1

/-- **C33/C34.** What the calls of the tracker iterator answer on any sector that holds events, whether their names are UTF-8 or not: one answer for each event, in
order, `None` if the event does not convert; then `None` for ever. -/
theorem C34_tracker_answers (bld : Build) (items : List (Int × Val)) (data : List UInt8)
    (rs : List (Res (Option (Int × TrackerEvt)))) (st : IterState)
    (hs : Stream (TrackerWire bld) items data) (h : Calls (trackerNext bld) (IterState.new data) rs st) :
    rs = ((stamped Prod.fst items).map answerTo).take rs.length ++ List.replicate (rs.length - items.length) (.ok none) := by
  have := tracker_answers bld rs items (IterState.new data) st rfl (by rw [iter_new_slice]; exact hs) h
  rw [stamped_eq]
  exact this

theorem withLoops_get {α : Type} (delta : α → Int) : (items : List α) → ∀ (l : Int) (i : Nat),
    ((withLoops delta l items)[i]?).map Prod.snd = items[i]?
  | [], _, i => by simp [withLoops]
  | a :: items, l, 0 => by simp [withLoops]
  | a :: items, l, i + 1 => by simp [withLoops, withLoops_get delta items]

theorem tracker_calls_exist (bld : Build) : (k : Nat) → ∀ (items : List (Int × Val)) (s : IterState), s.bitIndex = 0 →
    Stream (TrackerWire bld) items s.slice → ∃ rs s', rs.length = k ∧ Calls (trackerNext bld) s rs s'
  | 0, items, s, _, _ => ⟨[], s, rfl, .nil s⟩
  | k + 1, [], s, h0, hst => by
    have hs : s.slice = [] := hst
    have e : s.slice.isEmpty = true := by rw [hs]; rfl
    obtain ⟨rs, s', h1, h2⟩ := tracker_calls_exist bld k [] s h0 hst
    exact ⟨.ok none :: rs, s', by rw [List.length_cons, h1], .cons (n := 1) (by simp [trackerNext, nextLoop, e]) h2⟩
  | k + 1, a :: items, s, h0, hst => by
    obtain ⟨u, d, hd, hw, hst⟩ := hst
    have hne : s.slice.isEmpty = false := by
      have := TrackerWire_ne_nil hw
      rw [hd]; cases u <;> simp_all
    have hok := (trackerIterSpec bld).ok s a u d h0 hd hw
    obtain ⟨rs, s', h1, h2⟩ := tracker_calls_exist bld k items (s.adv u.length a.1) (by exact h0) (by rw [adv_slice hd]; exact hst)
    rcases TrackerWire_shape hw with ⟨b, hb⟩ | hb
    · exact ⟨.ok (some (s.eventLoop + a.1, b)) :: rs, s', by rw [List.length_cons, h1],
        .cons (n := 1) (by simp only [trackerNext, nextLoop, hne, hok, hb, Bool.false_eq_true, if_false, IterState.adv]) h2⟩
    · exact ⟨.ok none :: rs, s', by rw [List.length_cons, h1],
        .cons (n := 1) (by simp only [trackerNext, nextLoop, hne, hok, hb, Bool.false_eq_true, if_false]) h2⟩

/-- The answer to the `i`-th call, on a sector that holds events. -/
theorem answer_get (bld : Build) (items : List (Int × Val)) (data : List UInt8)
    (rs : List (Res (Option (Int × TrackerEvt)))) (st : IterState)
    (hs : Stream (TrackerWire bld) items data) (h : Calls (trackerNext bld) (IterState.new data) rs st) (i : Nat)
    (r : Res (Option (Int × TrackerEvt))) (hi : rs[i]? = some r) :
    (items[i]? = none ∧ r = .ok none) ∨ ∃ l p, items[i]? = some p ∧ r = answerTo (l, p) := by
  have e := tracker_answers bld rs items (IterState.new data) st rfl (by rw [iter_new_slice]; exact hs) h
  have hlt : i < rs.length := (List.getElem?_eq_some_iff.1 hi).1
  have hg := withLoops_get Prod.fst items (IterState.new data).eventLoop i
  have hlen : (withLoops Prod.fst (IterState.new data).eventLoop items).length = items.length := by
    have : ∀ (items : List (Int × Val)) (l : Int), (withLoops Prod.fst l items).length = items.length := by
      intro items
      induction items with
      | nil => intro l; rfl
      | cons a items ih => intro l; rw [withLoops, List.length_cons, List.length_cons, ih]
    exact this _ _
  rw [e] at hi
  by_cases hl : i < items.length
  · right
    rw [List.getElem?_append_left (by rw [List.length_take, List.length_map, hlen]; omega), List.getElem?_take_of_lt hlt, List.getElem?_map] at hi
    obtain ⟨q, hq, rfl⟩ := Option.map_eq_some_iff.1 hi
    rw [hq] at hg
    exact ⟨q.1, q.2, hg.symm, rfl⟩
  · left
    refine ⟨List.getElem?_eq_none (by omega), ?_⟩
    rw [List.getElem?_append_right (by rw [List.length_take, List.length_map, hlen]; omega)] at hi
    rw [List.getElem?_replicate] at hi
    split at hi
    · exact (Option.some.inj hi).symm
    · cases hi

/-- **C34.** Exactly: on a sector that holds events, the tracker iterator can yield after it has returned `None` if and only if an event with a name that is not
UTF-8 comes before an event that converts. -/
theorem C34_tracker_exactly (bld : Build) (items : List (Int × Val)) (data : List UInt8) (hs : Stream (TrackerWire bld) items data) :
    (∃ rs rs' st, Calls (trackerNext bld) (IterState.new data) (rs ++ (.ok none) :: rs') st ∧ ∃ r ∈ rs', yielded r ≠ []) ↔
    ∃ (i j : Nat) (p q : Int × Val) (e : TrackerEvt), i < j ∧ items[i]? = some p ∧ items[j]? = some q ∧ convTracker p.2 = .err .utf8 ∧
      convTracker q.2 = .ok e := by
  have shape := stream_forall (P := fun a => Conv.okOr .utf8 (convTracker a.2)) (fun _ _ => TrackerWire_shape) items data hs
  constructor
  · rintro ⟨rs, rs', st, hc, r, hr, hy⟩
    obtain ⟨k, hk⟩ := List.mem_iff_getElem?.1 hr
    have h1 : (rs ++ (.ok none) :: rs')[rs.length]? = some (.ok none) := by simp
    have h2 : (rs ++ (.ok none) :: rs')[rs.length + 1 + k]? = some r := by
      rw [List.getElem?_append_right (by omega), show rs.length + 1 + k - rs.length = k + 1 by omega]
      exact hk
    rcases answer_get bld items data _ st hs hc _ _ h2 with ⟨_, rfl⟩ | ⟨l2, q, hq, rfl⟩
    · exact absurd rfl hy
    · have hq' := (List.getElem?_eq_some_iff.1 hq).1
      rcases answer_get bld items data _ st hs hc _ _ h1 with ⟨hn, _⟩ | ⟨l1, p, hp, he⟩
      · rw [List.getElem?_eq_none_iff] at hn; omega
      · rcases shape q (List.mem_of_getElem? hq) with ⟨e, hqe⟩ | hqe
        · rcases shape p (List.mem_of_getElem? hp) with ⟨e', hpe⟩ | hpe
          · simp [answerTo, hpe, Res.toOpt] at he
          · exact ⟨_, _, p, q, e, by omega, hp, hq, hpe, hqe⟩
        · exact absurd (by simp [answerTo, hqe, Res.toOpt, yielded]) hy
  · rintro ⟨i, j, p, q, e, hij, hp, hq, hpe, hqe⟩
    obtain ⟨rs, st, hl, hc⟩ := tracker_calls_exist bld (j + 1) items (IterState.new data) rfl (by rw [iter_new_slice]; exact hs)
    have hi : rs[i]? = some rs[i] := List.getElem?_eq_getElem (by omega)
    have hj : rs[j]? = some rs[j] := List.getElem?_eq_getElem (by omega)
    have hri : rs[i] = .ok none := by
      rcases answer_get bld items data _ st hs hc _ _ hi with ⟨_, h⟩ | ⟨l, p', hp', h⟩
      · exact h
      · rw [hp] at hp'
        cases hp'
        rw [h, answerTo, hpe]; rfl
    have hrj : yielded rs[j] ≠ [] := by
      rcases answer_get bld items data _ st hs hc _ _ hj with ⟨hn, _⟩ | ⟨l, q', hq', h⟩
      · rw [hq] at hn; cases hn
      · rw [hq] at hq'
        cases hq'
        rw [h, answerTo, hqe]
        simp [Res.toOpt, yielded]
    have split : rs = rs.take i ++ (.ok none) :: rs.drop (i + 1) := by
      rw [← hri, ← List.drop_eq_getElem_cons (by omega), List.take_append_drop]
    refine ⟨rs.take i, rs.drop (i + 1), st, by rw [← split]; exact hc, rs[j], ?_, hrj⟩
    rw [List.mem_iff_getElem?]
    exact ⟨j - (i + 1), by rw [List.getElem?_drop, show i + 1 + (j - (i + 1)) = j by omega]; exact hj⟩

/-- Both sides hold on the demo sector: an event, one with a bad name, an event. -/
example (bld : Build) : ∃ rs rs' st, Calls (trackerNext bld) (IterState.new (wDone ++ (wBadName ++ wDone))) (rs ++ (.ok none) :: rs') st ∧
    ∃ r ∈ rs', yielded r ≠ [] :=
  (C34_tracker_exactly bld _ _ (demo_stream bld)).2 ⟨1, 2, vBadName, vDone, _, by decide, rfl, rfl, by decide +kernel, rfl⟩

/-! ## C45 -/

/-- **C45.** Exactly: a steal leaves no selected unit in the other groups if and only if it is put into group 9 or group 9 held none of them. -/
theorem C45_exactly (s : SState) (hw : s.Wf) (loop user : Int) (e : ControlGroupUpdateEvent)
    (hu : (getUser s.users user).isSome) (hi : 0 ≤ e.controlGroupIndex ∧ e.controlGroupIndex ≤ 10)
    (he : e.update = .setAndSteal ∨ e.update = .appendAndSteal) :
    ∃ s' e' hint sel g9, handleGame s loop user (.controlGroupUpdate e) = .ok (s', e', hint) ∧ groupOf s user 10 = some sel ∧
      groupOf s user 9 = some g9 ∧
      ((∀ i : Nat, i ≤ 9 → (i : Int) ≠ e.controlGroupIndex → ∀ g, groupOf s' user i = some g → ∀ t ∈ sel, t ∉ g) ↔
        e.controlGroupIndex = 9 ∨ ∀ t ∈ sel, t ∉ g9) := by
  obtain ⟨s', e', hint, h1, h2⟩ := C44_group_step s hw loop user (.controlGroupUpdate e) hu e.controlGroupIndex rfl hi
  obtain ⟨s'', e'', hint'', sel', k1, k2, _, k4⟩ := C45_steal_partial s hw loop user e hu hi he
  rw [h1] at k1
  cases k1
  obtain ⟨u, hu⟩ := Option.isSome_iff_exists.1 hu
  obtain ⟨g9, h9⟩ := Option.isSome_iff_exists.1 ((groupOf_lt hw hu 9).2.1 (by omega))
  refine ⟨s', e', hint, sel', g9, h1, k2, h9, ?_⟩
  have nine : e.controlGroupIndex ≠ 9 → groupOf s' user 9 = some g9 := by
    intro hne
    have hn : ¬ (user = user ∧ ((9 : Nat) : Int) = e.controlGroupIndex) := fun h => hne (by have := h.2; omega)
    have hn' : ¬ (user = user ∧ (9 : Nat) < 9) := fun h => by have := h.2; omega
    unfold GroupStep at h2
    rcases he with he | he <;> simp only [he] at h2
    · rw [h2 sel' k2 user 9, if_neg hn, if_neg hn', h9]
    · have := h2 sel' k2 user 9
      rw [if_neg hn, if_neg hn'] at this
      rw [this, h9]
  constructor
  · intro h
    by_cases hne : e.controlGroupIndex = 9
    · exact .inl hne
    · exact .inr (h 9 (by omega) (fun h => hne h.symm) g9 (nine hne))
  · intro h i hi9 hne g hg t ht
    by_cases h8 : i < 9
    · obtain ⟨old, new, _, hn, hm⟩ := k4 i h8 hne
      rw [hn] at hg
      cases hg
      intro hc
      exact ((hm t).1 hc).2 ht
    · have : i = 9 := by omega
      subst this
      rcases h with h | h
      · exact absurd h.symm hne
      · rw [nine (fun h => hne h.symm)] at hg
        cases hg
        exact h t ht

end S2
