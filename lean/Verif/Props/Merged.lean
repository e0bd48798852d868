import Verif.State.MergeLemmas
import Verif.Props.Groups
/-!
# The combined iterator (C35–C40, C73, C82–C84)
-/
namespace S2

/-! ## Rounds of the iterator's loop -/

/-- Successive rounds (`pull`) and what each of them delivers. -/
inductive Pulls (bld : Build) (version : Nat) : MState → List (Option Item) → MState → Prop
  | nil (m : MState) : Pulls bld version m [] m
  | cons {m m1 m2 : MState} {x : Option Item} {xs : List (Option Item)} :
      pull bld version m = .ok (x, m1) → Pulls bld version m1 xs m2 → Pulls bld version m (x :: xs) m2

theorem Pulls.append {bld : Build} {version : Nat} {a b c : MState} {xs ys : List (Option Item)}
    (h1 : Pulls bld version a xs b) (h2 : Pulls bld version b ys c) : Pulls bld version a (xs ++ ys) c := by
  induction h1 with
  | nil => exact h2
  | cons h _ ih => exact .cons h (ih h2)

theorem fillT_filters (bld : Build) (m : MState) (o : Option Filters) :
    fillT bld { m with filters := o } = (fillT bld m >>= fun m' => .ok { m' with filters := o }) := by
  unfold fillT
  simp only
  split
  · rfl
  · split <;> rfl

theorem fillG_filters (bld : Build) (version : Nat) (m : MState) (o : Option Filters) :
    fillG bld version { m with filters := o } = (fillG bld version m >>= fun m' => .ok { m' with filters := o }) := by
  unfold fillG
  simp only
  split
  · rfl
  · split <;> rfl

theorem pick_filters (m : MState) (o : Option Filters) :
    pick { m with filters := o } = (pick m).map (fun p => (p.1, { p.2 with filters := o })) := by
  unfold pick
  simp only
  split
  · split <;> rfl
  · rfl
  · rfl
  · rfl

/-- A round does not look at the filters. -/
theorem pull_filters (bld : Build) (version : Nat) (m : MState) (o : Option Filters) :
    pull bld version { m with filters := o } = (pull bld version m >>= fun p => .ok (p.1, { p.2 with filters := o })) := by
  unfold pull
  rw [fillT_filters]
  cases fillT bld m with
  | err e => rfl
  | panic => rfl
  | ok m1 =>
    simp only [Res.bind_ok]
    rw [fillG_filters]
    cases fillG bld version m1 with
    | err e => rfl
    | panic => rfl
    | ok m2 =>
      simp only [Res.bind_ok]
      rw [pick_filters]
      cases pick m2 with
      | none => rfl
      | some p =>
        obtain ⟨e, m3⟩ := p
        simp only [Option.map_some]
        cases transition bld m3.sc2 e with
        | err e => rfl
        | panic => rfl
        | ok q => rfl

theorem pull_keeps_filters {bld : Build} {version : Nat} {m m' : MState} {x : Option Item}
    (h : pull bld version m = .ok (x, m')) : m'.filters = m.filters := by
  have := pull_filters bld version m m.filters
  have he : ({ m with filters := m.filters } : MState) = m := rfl
  rw [he, h] at this
  simp only [Res.bind_ok, Res.ok.injEq, Prod.mk.injEq, true_and] at this
  rw [this]

theorem Pulls.keeps_filters {bld : Build} {version : Nat} {m m' : MState} {xs : List (Option Item)}
    (h : Pulls bld version m xs m') : m'.filters = m.filters := by
  induction h with
  | nil => rfl
  | cons h _ ih => exact ih.trans (pull_keeps_filters h)

theorem Pulls.change_filters {bld : Build} {version : Nat} {m m' : MState} {xs : List (Option Item)} (o : Option Filters)
    (h : Pulls bld version m xs m') : Pulls bld version { m with filters := o } xs { m' with filters := o } := by
  induction h with
  | nil m => exact .nil _
  | @cons m m1 m2 x xs h _ ih =>
    refine .cons ?_ ih
    rw [pull_filters, h]; rfl

/-! ## A call as rounds -/

/-- Does the item pass the filters? -/
def accepts (o : Option Filters) (it : Item) : Bool :=
  match o with
  | none => true
  | some f => !shouldSkipEvent f it.event

theorem accepts_decrease (o : Option Filters) (it : Item) : accepts (o.map Filters.decrease) it = accepts o it := by
  cases o with
  | none => rfl
  | some f =>
    have key : ∀ e : SEvent, shouldSkipEvent f.decrease e = shouldSkipEvent f e := by
      intro e
      unfold Filters.decrease
      split
      · split
        · cases e with
          | game => rfl
          | tracker l te => cases te <;> rfl
        · rfl
      · rfl
    simp only [accepts, Option.map_some, key]

/-- One successful call: some rounds whose items are filtered out, then either the streams are exhausted,
or an accepted item, which is delivered unless the counter has reached zero. -/
theorem mnext_spec {bld : Build} {version : Nat} : ∀ {n : Nat} {m m' : MState} {x : Option Item},
    mnext bld version n m = some (.ok x, m') →
    ∃ (skipped : List Item) (mid : MState), Pulls bld version m (skipped.map some) mid ∧ (∀ it ∈ skipped, accepts m.filters it = false) ∧
      ((x = none ∧ pull bld version mid = .ok (none, m')) ∨
       ∃ it mid', pull bld version mid = .ok (some it, mid') ∧ accepts m.filters it = true ∧
         m' = { mid' with filters := m.filters.map Filters.decrease } ∧
         x = if (m.filters.map Filters.decrease).any Filters.maxReached then none else some it)
  | 0, m, m', x, h => by simp [mnext] at h
  | n + 1, m, m', x, h => by
    simp only [mnext] at h
    split at h
    · simp at h
    · simp at h
    · rename_i m1 hp
      simp only [Option.some.injEq, Prod.mk.injEq, Res.ok.injEq] at h
      obtain ⟨rfl, rfl⟩ := h
      exact ⟨[], m, .nil m, by simp, .inl ⟨rfl, hp⟩⟩
    · rename_i it m1 hp
      have hf := pull_keeps_filters hp
      cases ho : m.filters with
      | none =>
        rw [hf, ho] at h
        simp only [Option.some.injEq, Prod.mk.injEq, Res.ok.injEq] at h
        obtain ⟨rfl, rfl⟩ := h
        refine ⟨[], m, .nil m, by simp, .inr ⟨it, m1, hp, rfl, ?_, rfl⟩⟩
        rw [ho] at hf
        cases m1; simp only at hf; subst hf; rfl
      | some f =>
        rw [hf, ho] at h
        simp only at h
        split at h
        · rename_i hs
          obtain ⟨sk, mid, h1, h2, h3⟩ := mnext_spec h
          rw [hf, ho] at h2 h3
          refine ⟨it :: sk, mid, .cons hp h1, ?_, h3⟩
          intro x hx
          rcases List.mem_cons.1 hx with rfl | hx
          · simp [accepts, hs]
          · exact h2 x hx
        · rename_i hs
          refine ⟨[], m, .nil m, by simp, .inr ⟨it, m1, hp, by simp [accepts, hs], ?_, ?_⟩⟩
          · split at h <;> simp only [Option.some.injEq, Prod.mk.injEq] at h <;> rw [← h.2] <;> rfl
          · simp only [Option.map_some, Option.any_some]
            split at h <;> rename_i hm <;> simp only [Option.some.injEq, Prod.mk.injEq, Res.ok.injEq] at h <;>
              rw [← h.1] <;> simp [hm]

/-- The number of further events a filter lets through. -/
def quota (o : Option Filters) (l : List Item) : List Item :=
  match o with
  | none => l
  | some f => match f.maxEvents with
    | none => l
    | some n => l.take (n - 1)

/-- All the calls of a run that neither panics nor errs. -/
theorem calls_pulls_end {bld : Build} {version : Nat} {m m' : MState} {rs : List (Res (Option Item))}
    (h : Calls (mnext bld version) m rs m') : (∀ r ∈ rs, ∃ x, r = .ok x) →
    ∃ xs, Pulls bld version m xs { m' with filters := m.filters } ∧ rs.length ≤ xs.length ∧ (rs.getLast? = some (.ok none) → xs.getLast? = some none ∨ ∃ f N, m.filters = some f ∧ f.maxEvents = some N ∧
        N ≤ ((xs.filterMap id).filter (accepts m.filters)).length) ∧ (rs = [] → xs = []) ∧
      rs.flatMap yielded = quota m.filters ((xs.filterMap id).filter (accepts m.filters)) := by
  induction h with
  | nil m =>
    intro _
    refine ⟨[], .nil m, by simp, by simp, by simp, ?_⟩
    simp only [List.flatMap_nil, List.filterMap_nil, List.filter_nil, quota]
    split
    · rfl
    · split <;> simp
  | @cons m m1 m2 n r rs hn _ ih =>
    intro hok
    obtain ⟨x, rfl⟩ := hok r (by simp)
    obtain ⟨ys, hy1, hy2, hyl, hye, hy3⟩ := ih (fun r hr => hok r (by simp [hr]))
    obtain ⟨sk, mid, h1, h2, h3⟩ := mnext_spec hn
    have hfm := h1.keeps_filters
    have hsk : ∀ ys : List (Option Item), ((sk.map some ++ ys).filterMap id).filter (accepts m.filters) =
        (ys.filterMap id).filter (accepts m.filters) := by
      intro ys
      rw [List.filterMap_append, List.filter_append]
      have : ((sk.map some).filterMap id).filter (accepts m.filters) = [] := by
        rw [List.filter_eq_nil_iff]
        intro a ha
        obtain ⟨b, hb, hb2⟩ := List.mem_filterMap.1 ha
        obtain ⟨c, hc, rfl⟩ := List.mem_map.1 hb
        simp only [id, Option.some.injEq] at hb2
        subst hb2
        simp [h2 c hc]
      rw [this]; rfl
    rcases h3 with ⟨rfl, hp⟩ | ⟨it, mid', hp, hacc, rfl, rfl⟩
    · have hf1 : m1.filters = m.filters := (pull_keeps_filters hp).trans hfm
      rw [hf1] at hy1 hy3
      refine ⟨sk.map some ++ none :: ys, h1.append (.cons hp hy1), by simp; omega, ?_, by simp, ?_⟩
      · intro hl
        rw [hsk]
        simp only [List.filterMap_cons, id]
        rw [List.getLast?_append, List.getLast?_cons] at *
        simp only [Option.some_or, Option.some.injEq] at *
        cases hr : rs.getLast? with
        | none =>
          rw [hye (by simpa using hr)]
          exact .inl rfl
        | some r =>
          rw [hr] at hl hyl
          simp only [Option.getD_some] at hl
          subst hl
          rcases hyl rfl with h | h
          · rw [h]; exact .inl rfl
          · rw [hf1] at h; exact .inr h
      rw [hsk]
      simp only [List.flatMap_cons, yielded, List.nil_append, List.filterMap_cons, id]
      exact hy3
    · have hf1 : mid'.filters = m.filters := (pull_keeps_filters hp).trans hfm
      have hy1' := hy1.change_filters m.filters
      have e1 : ({ ({ mid' with filters := m.filters.map Filters.decrease } : MState) with filters := m.filters } : MState) = mid' := by
        cases mid'; simp only at hf1; rw [← hf1]
      rw [e1] at hy1'
      refine ⟨sk.map some ++ some it :: ys, h1.append (.cons hp hy1'), by simp; omega, ?_, by simp, ?_⟩
      · intro hl
        rw [hsk]
        simp only [List.filterMap_cons, id, List.filter_cons, hacc, if_true, List.length_cons]
        rw [List.getLast?_append, List.getLast?_cons] at *
        simp only [Option.some_or, Option.some.injEq] at *
        have hacc' : (fun it => accepts (m.filters.map Filters.decrease) it) = accepts m.filters := funext (accepts_decrease _)
        rw [show (accepts (m.filters.map Filters.decrease)) = accepts m.filters from hacc'] at hyl
        cases hr : rs.getLast? with
        | none =>
          rw [hr] at hl
          simp only [Option.getD_none] at hl
          cases hmf : m.filters with
          | none => simp [hmf] at hl
          | some f =>
            cases hme : f.maxEvents with
            | none => simp [hmf, Filters.decrease, hme, Filters.maxReached] at hl
            | some N =>
              refine .inr ⟨f, N, rfl, hme, ?_⟩
              rcases N with _ | _ | N
              · omega
              · omega
              · simp [hmf, Filters.decrease, hme, Filters.maxReached] at hl
        | some r =>
          rw [hr] at hl hyl
          simp only [Option.getD_some] at hl
          subst hl
          rcases hyl rfl with h | ⟨f', N', h1, h2, h3⟩
          · rw [h]; exact .inl rfl
          · obtain ⟨f, hf, rfl⟩ := Option.map_eq_some_iff.1 h1
            cases hme : f.maxEvents with
            | none => simp [Filters.decrease, hme] at h2
            | some N =>
              refine .inr ⟨f, N, hf, hme, ?_⟩
              rcases N with _ | N
              · omega
              · simp [Filters.decrease, hme] at h2
                omega
      rw [hsk]
      have hacc' : (fun it => accepts (m.filters.map Filters.decrease) it) = accepts m.filters := funext (accepts_decrease _)
      simp only at hy3
      rw [show (accepts (m.filters.map Filters.decrease)) = accepts m.filters from hacc'] at hy3
      simp only [List.flatMap_cons, List.filterMap_cons, id, List.filter_cons, hacc, if_true, hy3]
      cases hmf : m.filters with
      | none => simp [yielded, quota]
      | some f =>
        simp only [Option.map_some, Option.any_some, quota]
        cases hme : f.maxEvents with
        | none => simp [Filters.decrease, hme, Filters.maxReached, yielded]
        | some N =>
          rcases N with _ | _ | N
          · simp [Filters.decrease, hme, Filters.maxReached, yielded]
          · simp [Filters.decrease, hme, Filters.maxReached, yielded]
          · simp [Filters.decrease, hme, Filters.maxReached, yielded]

/-- The same without the end. -/
theorem calls_pulls {bld : Build} {version : Nat} {m m' : MState} {rs : List (Res (Option Item))}
    (h : Calls (mnext bld version) m rs m') (hok : ∀ r ∈ rs, ∃ x, r = .ok x) :
    ∃ xs, Pulls bld version m xs { m' with filters := m.filters } ∧ rs.length ≤ xs.length ∧
      rs.flatMap yielded = quota m.filters ((xs.filterMap id).filter (accepts m.filters)) := by
  obtain ⟨xs, h1, h2, _, _, h3⟩ := calls_pulls_end h hok
  exact ⟨xs, h1, h2, h3⟩

/-- Rounds when `ts` and `gs` are still to come. -/
theorem rep_pulls {bld : Build} {version : Nat} {s0 : SState} {m m' : MState} {xs : List (Option Item)}
    (h : Pulls bld version m xs m') : ∀ (ts : List (Int × TrackerEvt)) (gs : List (Int × (Int × GameEvt))),
    Rep bld version s0 m ts gs →
    ∃ items, runItems bld m.sc2 ((mergeEvents s0 ts gs).take xs.length) = .ok (items, m'.sc2) ∧
      xs = items.map some ++ List.replicate (xs.length - (mergeEvents s0 ts gs).length) none := by
  induction h with
  | nil m => intro ts gs _; exact ⟨[], by simp [runItems], by simp⟩
  | @cons m m1 m2 x xs hp _ ih =>
    intro ts gs hR
    have := hR.pull
    cases he : mergeEvents s0 ts gs with
    | nil =>
      rw [he] at this
      obtain ⟨m1', hp', hs, _, _, _, hR'⟩ := this
      rw [hp] at hp'
      simp only [Res.ok.injEq, Prod.mk.injEq] at hp'
      obtain ⟨rfl, rfl⟩ := hp'
      obtain ⟨items, h1, h2⟩ := ih [] [] hR'
      simp only [mergeEvents, List.map_nil, List.take_nil, runItems, Res.ok.injEq, Prod.mk.injEq] at h1
      obtain ⟨rfl, h1⟩ := h1
      refine ⟨[], by simp [runItems, ← h1, hs], ?_⟩
      simp only [mergeEvents, List.map_nil, List.length_nil, Nat.sub_zero, List.nil_append] at h2
      rw [h2]
      simp [List.replicate_succ]
    | cons e es =>
      rw [he] at this
      simp only at this
      cases ht : transition bld m.sc2 e with
      | err y => rw [ht] at this; simp only at this; rw [hp] at this; cases this
      | panic => rw [ht] at this; simp only at this; rw [hp] at this; cases this
      | ok p =>
        obtain ⟨s', it⟩ := p
        rw [ht] at this
        obtain ⟨m1', ts', gs', hp', hs, _, hm, hR', _⟩ := this
        rw [hp] at hp'
        simp only [Res.ok.injEq, Prod.mk.injEq] at hp'
        obtain ⟨rfl, rfl⟩ := hp'
        obtain ⟨items, h1, h2⟩ := ih ts' gs' hR'
        rw [hm, hs] at h1
        rw [hm] at h2
        refine ⟨it :: items, ?_, ?_⟩
        · simp only [List.length_cons, List.take_succ_cons, runItems, ht, h1]
        · simp only [List.map_cons, List.length_cons, List.cons_append, List.cons.injEq, true_and]
          rw [show ∀ a b : Nat, a + 1 - (b + 1) = a - b by omega]
          exact h2

theorem rep_new {bld : Build} {version : Nat} {s : SState} {titems : List (Int × Val)} {gitems : List (Int × Int × Val)}
    {trk game : List UInt8} (o : Option Filters)
    (ht : Stream (TrackerWire bld) titems trk) (hutf : ∀ p ∈ titems, convTracker p.2 ≠ .err .utf8)
    (hg : Stream (TripletWire bld (gameEventTy version)) gitems game) :
    Rep bld version s (MState.new s trk game o) (trackerTimeline titems) (gameTimeline gitems) :=
  ⟨fun _ => rfl, tracker_future bld titems trk ht hutf, game_future bld version gitems game hg⟩

theorem runItems_append {bld : Build} : ∀ {a b : List SEvent} {s s2 : SState} {items : List Item},
    runItems bld s (a ++ b) = .ok (items, s2) →
    ∃ i1 s1 i2, runItems bld s a = .ok (i1, s1) ∧ runItems bld s1 b = .ok (i2, s2) ∧ items = i1 ++ i2
  | [], b, s, s2, items, h => ⟨[], s, items, rfl, h, rfl⟩
  | e :: a, b, s, s2, items, h => by
    simp only [List.cons_append, runItems] at h ⊢
    split at h
    · rename_i s' it ht
      split at h
      · rename_i its s'' hr
        simp only [Res.ok.injEq, Prod.mk.injEq] at h
        obtain ⟨rfl, rfl⟩ := h
        obtain ⟨i1, s1, i2, h1, h2, rfl⟩ := runItems_append hr
        simp only [h1]
        exact ⟨it :: i1, s1, i2, rfl, h2, rfl⟩
      · cases h
      · cases h
    · cases h
    · cases h

theorem runItems_events {bld : Build} : ∀ {es : List SEvent} {s s2 : SState} {items : List Item},
    runItems bld s es = .ok (items, s2) →
    items.map (fun it => (it.event.time, it.event.isTracker)) = es.map (fun e => (e.time, e.isTracker))
  | [], s, s2, items, h => by simp only [runItems, Res.ok.injEq, Prod.mk.injEq] at h; rw [← h.1]; rfl
  | e :: es, s, s2, items, h => by
    simp only [runItems] at h
    split at h
    · rename_i s' it ht
      split at h
      · rename_i its s'' hr
        simp only [Res.ok.injEq, Prod.mk.injEq] at h
        rw [← h.1]
        simp only [List.map_cons, transition_event ht, runItems_events hr]
      · cases h
      · cases h
    · cases h
    · cases h

/-! ## C35 -/

theorem merged_exact (bld : Build) (version : Nat) (s : SState) (titems : List (Int × Val)) (gitems : List (Int × Int × Val))
    (trk game : List UInt8) (ht : Stream (TrackerWire bld) titems trk) (hutf : ∀ p ∈ titems, convTracker p.2 ≠ .err .utf8)
    (hg : Stream (TripletWire bld (gameEventTy version)) gitems game) (rs : List (Res (Option Item))) (m : MState)
    (hc : Calls (mnext bld version) (MState.new s trk game none) rs m) (hok : ∀ r ∈ rs, ∃ x, r = .ok x) :
    ∃ items, runItems bld s ((mergeEvents s (trackerTimeline titems) (gameTimeline gitems)).take rs.length) = .ok (items, m.sc2) ∧
      rs = items.map (fun it => .ok (some it)) ++
        List.replicate (rs.length - (mergeEvents s (trackerTimeline titems) (gameTimeline gitems)).length) (.ok none) := by
  have hR := rep_new (s := s) none ht hutf hg
  -- without filters each call is one round
  have key : ∀ {m m' : MState} {rs : List (Res (Option Item))}, Calls (mnext bld version) m rs m' → m.filters = none →
      (∀ r ∈ rs, ∃ x, r = .ok x) → ∃ xs, Pulls bld version m xs m' ∧ rs = xs.map .ok := by
    intro m m' rs hc
    induction hc with
    | nil m => intro _ _; exact ⟨[], .nil m, rfl⟩
    | @cons m m1 m2 n r rs hn _ ih =>
      intro hf hok
      obtain ⟨x, rfl⟩ := hok r (by simp)
      obtain ⟨sk, mid, h1, h2, h3⟩ := mnext_spec hn
      rw [hf] at h2 h3
      have hnil : sk = [] := by
        cases sk with
        | nil => rfl
        | cons a sk => exact absurd (h2 a (by simp)) (by simp [accepts])
      subst hnil
      cases h1
      have hp : pull bld version m = .ok (x, m1) := by
        rcases h3 with ⟨rfl, hp⟩ | ⟨it, mid', hp, _, rfl, rfl⟩
        · exact hp
        · have := pull_keeps_filters hp
          rw [hf] at this
          rw [hp]; cases mid'; simp only at this; subst this; rfl
      obtain ⟨xs, h4, rfl⟩ := ih ((pull_keeps_filters hp).trans hf) (fun r hr => hok r (by simp [hr]))
      exact ⟨x :: xs, .cons hp h4, rfl⟩
  obtain ⟨xs, hxs, rfl⟩ := key hc rfl hok
  obtain ⟨items, h1, h2⟩ := rep_pulls hxs _ _ hR
  rw [List.length_map]
  refine ⟨items, h1, ?_⟩
  have := congrArg (List.map (Res.ok (α := Option Item))) h2
  simpa [Function.comp_def] using this

/-- Two well-formed sectors, UTF-8 tracker names, no filters, any number of calls none of which panics:
there is one interleaving `es` of exactly the tracker events and the game events (each with its true loop
and its user's name) such that `k` calls deliver the items of the first `k` events of `es`, processed in
that order from the initial state, and nothing after that. -/
theorem C35_merged (bld : Build) (version : Nat) (s : SState) (titems : List (Int × Val)) (gitems : List (Int × Int × Val))
    (trk game : List UInt8) (ht : Stream (TrackerWire bld) titems trk) (hutf : ∀ p ∈ titems, convTracker p.2 ≠ .err .utf8)
    (hg : Stream (TripletWire bld (gameEventTy version)) gitems game) :
    ∃ es, Interleaving ((trackerTimeline titems).map trackerSEvent) ((gameTimeline gitems).map (gameSEvent s)) es ∧
      ∀ rs m, Calls (mnext bld version) (MState.new s trk game none) rs m → (∀ r ∈ rs, ∃ x, r = .ok x) →
        ∃ items, runItems bld s (es.take rs.length) = .ok (items, m.sc2) ∧
          rs = items.map (fun it => .ok (some it)) ++ List.replicate (rs.length - es.length) (.ok none) :=
  ⟨mergeEvents s (trackerTimeline titems) (gameTimeline gitems), mergeEvents_interleaving _ _ _,
    fun rs m hc hok => merged_exact bld version s titems gitems trk game ht hutf hg rs m hc hok⟩

/-! Any bytes whatsoever: nothing the two underlying iterators deliver is lost, duplicated or reordered. -/

/-- The fetched game event without the name. -/
def bareGame (g : Int × (Int × Option Str × GameEvt)) : Int × (Int × GameEvt) := (g.1, (g.2.1, g.2.2.2))

/-- User names are those of `s0`, also in the fetched game event. -/
def NameInv (s0 : SState) (m : MState) : Prop :=
  (∀ w, userName m.sc2 w = userName s0 w) ∧ ∀ g, m.nextG = some g → g.2.2.1 = userName s0 g.2.1

theorem fillT_any {bld : Build} {m m1 : MState} (h : fillT bld m = .ok m1) :
    ∃ rt, Calls (trackerNext bld) m.trk rt m1.trk ∧ m1.nextT.toList = m.nextT.toList ++ rt.flatMap yielded ∧
      m1 = { m with nextT := m1.nextT, trk := m1.trk } := by
  unfold fillT at h
  split at h
  · simp only [Res.ok.injEq] at h
    subst h
    exact ⟨[], .nil _, by simp, rfl⟩
  · rename_i hn
    split at h
    · rename_i x st hx
      simp only [Res.ok.injEq] at h
      subst h
      refine ⟨[.ok x], .cons hx (.nil _), ?_, rfl⟩
      rw [hn]
      cases x <;> simp [yielded]
    · cases h
    · cases h
    · cases h

theorem fillG_any {bld : Build} {version : Nat} {s0 : SState} {m m1 : MState} (h : fillG bld version m = .ok m1)
    (hi : NameInv s0 m) :
    ∃ rg, Calls (gameNext bld version) m.game rg m1.game ∧
      m1.nextG.toList.map bareGame = m.nextG.toList.map bareGame ++ rg.flatMap yielded ∧
      m1 = { m with nextG := m1.nextG, game := m1.game } ∧ NameInv s0 m1 := by
  unfold fillG at h
  split at h
  · simp only [Res.ok.injEq] at h
    subst h
    exact ⟨[], .nil _, by simp, rfl, hi⟩
  · rename_i hn
    split at h
    · rename_i st hx
      simp only [Res.ok.injEq] at h
      subst h
      exact ⟨[.ok none], .cons hx (.nil _), by simp [hn, yielded], rfl, ⟨hi.1, fun g hg => by cases hg⟩⟩
    · rename_i l u e st hx
      simp only [Res.ok.injEq] at h
      subst h
      refine ⟨[.ok (some (l, u, e))], .cons hx (.nil _), by simp [hn, yielded, bareGame], rfl, hi.1, ?_⟩
      intro g hg
      simp only [Option.some.injEq] at hg
      rw [← hg]
      exact hi.1 u
    · cases h
    · cases h
    · cases h

theorem pull_any {bld : Build} {version : Nat} {s0 : SState} {m m1 : MState} {x : Option Item}
    (h : pull bld version m = .ok (x, m1)) (hi : NameInv s0 m) :
    NameInv s0 m1 ∧ ∃ rt rg tr ga es, Calls (trackerNext bld) m.trk rt m1.trk ∧ Calls (gameNext bld version) m.game rg m1.game ∧
      m.nextT.toList ++ rt.flatMap yielded = tr ++ m1.nextT.toList ∧
      m.nextG.toList.map bareGame ++ rg.flatMap yielded = ga ++ m1.nextG.toList.map bareGame ∧
      Interleaving (tr.map trackerSEvent) (ga.map (gameSEvent s0)) es ∧
      runItems bld m.sc2 es = .ok (x.toList, m1.sc2) := by
  unfold pull at h
  obtain ⟨m2, h2, h⟩ := Res.bind_eq_ok.1 h
  obtain ⟨m3, h3, h⟩ := Res.bind_eq_ok.1 h
  obtain ⟨rt, c1, y1, e1⟩ := fillT_any h2
  have hi2 : NameInv s0 m2 := by rw [e1]; exact hi
  obtain ⟨rg, c2, y2, e2, hi3⟩ := fillG_any h3 hi2
  have hsc : m3.sc2 = m.sc2 := by rw [e2, e1]
  have htrk : m3.trk = m2.trk := by rw [e2]
  have hnt : m3.nextT = m2.nextT := by rw [e2]
  have hg2 : m2.game = m.game := by rw [e1]
  have hng : m2.nextG = m.nextG := by rw [e1]
  rw [hg2] at c2
  rw [hng] at y2
  rw [← htrk] at c1
  rw [← hnt] at y1
  -- the picked event, if any
  have tcase : ∀ (tl : Int) (te : TrackerEvt), m3.nextT = some (tl, te) →
      (∃ s' it, transition bld m3.sc2 (.tracker tl te) = .ok (s', it) ∧ x = some it ∧ m1 = { m3 with nextT := none, sc2 := s' }) →
      NameInv s0 m1 ∧ ∃ rt rg tr ga es, Calls (trackerNext bld) m.trk rt m1.trk ∧ Calls (gameNext bld version) m.game rg m1.game ∧
      m.nextT.toList ++ rt.flatMap yielded = tr ++ m1.nextT.toList ∧
      m.nextG.toList.map bareGame ++ rg.flatMap yielded = ga ++ m1.nextG.toList.map bareGame ∧
      Interleaving (tr.map trackerSEvent) (ga.map (gameSEvent s0)) es ∧ runItems bld m.sc2 es = .ok (x.toList, m1.sc2) := by
    rintro tl te hT ⟨s', it, htr, rfl, rfl⟩
    refine ⟨⟨fun w => (transition_names htr w).trans (hi3.1 w), hi3.2⟩, rt, rg, [(tl, te)], [], [.tracker tl te], c1, c2, ?_, ?_, ?_, ?_⟩
    · rw [← y1, hT]; rfl
    · rw [← y2]; rfl
    · exact .left .nil
    · rw [hsc] at htr; simp [runItems, htr]
  have gcase : ∀ (l u : Int) (n : Option Str) (e : GameEvt), m3.nextG = some (l, u, n, e) →
      (∃ s' it, transition bld m3.sc2 (.game l u n e) = .ok (s', it) ∧ x = some it ∧ m1 = { m3 with nextG := none, sc2 := s' }) →
      NameInv s0 m1 ∧ ∃ rt rg tr ga es, Calls (trackerNext bld) m.trk rt m1.trk ∧ Calls (gameNext bld version) m.game rg m1.game ∧
      m.nextT.toList ++ rt.flatMap yielded = tr ++ m1.nextT.toList ∧
      m.nextG.toList.map bareGame ++ rg.flatMap yielded = ga ++ m1.nextG.toList.map bareGame ∧
      Interleaving (tr.map trackerSEvent) (ga.map (gameSEvent s0)) es ∧ runItems bld m.sc2 es = .ok (x.toList, m1.sc2) := by
    rintro l u n e hG ⟨s', it, htr, rfl, rfl⟩
    have hnm : n = userName s0 u := hi3.2 _ hG
    subst hnm
    refine ⟨⟨fun w => (transition_names htr w).trans (hi3.1 w), fun g hg => by cases hg⟩, rt, rg, [], [(l, u, e)],
      [.game l u (userName s0 u) e], c1, c2, ?_, ?_, ?_, ?_⟩
    · rw [← y1]; rfl
    · rw [← y2, hG]; rfl
    · exact .right .nil
    · rw [hsc] at htr; simp [runItems, htr]
  have fin : ∀ (e : SEvent) (m' : MState), m'.sc2 = m3.sc2 →
      (transition bld m'.sc2 e >>= fun p => (pure (some p.2, { m' with sc2 := p.1 }) : Res (Option Item × MState))) = .ok (x, m1) →
      ∃ s' it, transition bld m3.sc2 e = .ok (s', it) ∧ x = some it ∧ m1 = { m' with sc2 := s' } := by
    intro e m' hm' hb
    obtain ⟨⟨s', it⟩, ht, hb⟩ := Res.bind_eq_ok.1 hb
    simp only [Res.pure_eq, Res.ok.injEq, Prod.mk.injEq] at hb
    exact ⟨s', it, hm' ▸ ht, hb.1.symm, hb.2.symm⟩
  cases hT : m3.nextT with
  | none =>
    cases hG : m3.nextG with
    | none =>
      simp only [pick, hT, hG, Res.pure_eq, Res.ok.injEq, Prod.mk.injEq] at h
      obtain ⟨rfl, rfl⟩ := h
      refine ⟨hi3, rt, rg, [], [], [], c1, c2, by rw [← y1]; rfl, by rw [← y2]; rfl, .nil, by simp [runItems, hsc]⟩
    | some g =>
      obtain ⟨l, u, n, e⟩ := g
      simp only [pick, hT, hG] at h
      exact gcase l u n e hG (fin _ { m3 with nextG := none } rfl (by rw [← h]; cases m3; simp only at hT; subst hT; rfl))
  | some t =>
    obtain ⟨tl, te⟩ := t
    cases hG : m3.nextG with
    | none =>
      simp only [pick, hT, hG] at h
      exact tcase tl te hT (fin _ { m3 with nextT := none } rfl (by rw [← h]; cases m3; simp only at hG; subst hG; rfl))
    | some g =>
      obtain ⟨l, u, n, e⟩ := g
      simp only [pick, hT, hG] at h
      by_cases hlt : tl < f32ToI64 (f32OfInt l)
      · simp only [if_pos hlt] at h
        exact tcase tl te hT (fin _ { m3 with nextT := none } rfl (by rw [← h]; cases m3; simp only at hG; subst hG; rfl))
      · simp only [if_neg hlt] at h
        exact gcase l u n e hG (fin _ { m3 with nextG := none } rfl (by rw [← h]; cases m3; simp only at hT; subst hT; rfl))

theorem Interleaving.append {α : Type} {a b c a' b' c' : List α} (h : Interleaving a b c) (h' : Interleaving a' b' c') :
    Interleaving (a ++ a') (b ++ b') (c ++ c') := by
  induction h with
  | nil => exact h'
  | left _ ih => exact .left ih
  | right _ ih => exact .right ih

theorem runItems_concat {bld : Build} : ∀ {a b : List SEvent} {s s1 s2 : SState} {i1 i2 : List Item},
    runItems bld s a = .ok (i1, s1) → runItems bld s1 b = .ok (i2, s2) → runItems bld s (a ++ b) = .ok (i1 ++ i2, s2)
  | [], b, s, s1, s2, i1, i2, h1, h2 => by
    simp only [runItems, Res.ok.injEq, Prod.mk.injEq] at h1
    obtain ⟨rfl, rfl⟩ := h1
    exact h2
  | e :: a, b, s, s1, s2, i1, i2, h1, h2 => by
    simp only [runItems, List.cons_append] at h1 ⊢
    split at h1
    · rename_i s' it ht
      split at h1
      · rename_i its s'' hr
        simp only [Res.ok.injEq, Prod.mk.injEq] at h1
        obtain ⟨rfl, rfl⟩ := h1
        rw [runItems_concat hr h2]; rfl
      · cases h1
      · cases h1
    · cases h1
    · cases h1

theorem Calls.append {ω σ : Type} {next : Nat → σ → Option (Res (Option ω) × σ)} {a b c : σ} {r1 r2 : List (Res (Option ω))}
    (h1 : Calls next a r1 b) (h2 : Calls next b r2 c) : Calls next a (r1 ++ r2) c := by
  induction h1 with
  | nil => exact h2
  | cons h _ ih => exact .cons h (ih h2)

theorem pulls_any {bld : Build} {version : Nat} {s0 : SState} {m m' : MState} {xs : List (Option Item)}
    (h : Pulls bld version m xs m') : NameInv s0 m →
    ∃ rt rg tr ga es, Calls (trackerNext bld) m.trk rt m'.trk ∧ Calls (gameNext bld version) m.game rg m'.game ∧
      m.nextT.toList ++ rt.flatMap yielded = tr ++ m'.nextT.toList ∧
      m.nextG.toList.map bareGame ++ rg.flatMap yielded = ga ++ m'.nextG.toList.map bareGame ∧
      Interleaving (tr.map trackerSEvent) (ga.map (gameSEvent s0)) es ∧
      runItems bld m.sc2 es = .ok (xs.filterMap id, m'.sc2) := by
  induction h with
  | nil m => intro _; exact ⟨[], [], [], [], [], .nil _, .nil _, by simp, by simp, .nil, rfl⟩
  | @cons m m1 m2 x xs hp _ ih =>
    intro hi
    obtain ⟨hi1, rt, rg, tr, ga, es, a1, a2, a3, a4, a5, a6⟩ := pull_any hp hi
    obtain ⟨rt', rg', tr', ga', es', b1, b2, b3, b4, b5, b6⟩ := ih hi1
    refine ⟨rt ++ rt', rg ++ rg', tr ++ tr', ga ++ ga', es ++ es', a1.append b1, a2.append b2, ?_, ?_, ?_, ?_⟩
    · rw [List.flatMap_append, ← List.append_assoc, a3, List.append_assoc, b3, List.append_assoc]
    · rw [List.flatMap_append, ← List.append_assoc, a4, List.append_assoc, b4, List.append_assoc]
    · rw [List.map_append, List.map_append]; exact a5.append b5
    · have := runItems_concat a6 b6
      rw [this]
      cases x <;> simp

/-- Whatever the two sectors contain and whatever the filters: after any successful calls, the events that
were processed are an interleaving of what the tracker iterator and the game iterator deliver, in full and
in order, but for at most one event each that is fetched and waiting; the state is the result of processing
them in that order, and everything delivered is among the items they produce. -/
theorem C35_any_bytes (bld : Build) (version : Nat) (s : SState) (trk game : List UInt8) (o : Option Filters)
    (rs : List (Res (Option Item))) (m : MState)
    (hc : Calls (mnext bld version) (MState.new s trk game o) rs m) (hok : ∀ r ∈ rs, ∃ x, r = .ok x) :
    ∃ rt st rg sg tr ga wt wg es items,
      Calls (trackerNext bld) (IterState.new trk) rt st ∧ rt.flatMap yielded = tr ++ wt ∧ wt.length ≤ 1 ∧
      Calls (gameNext bld version) (IterState.new game) rg sg ∧ rg.flatMap yielded = ga ++ wg ∧ wg.length ≤ 1 ∧
      Interleaving (tr.map trackerSEvent) (ga.map (gameSEvent s)) es ∧
      runItems bld s es = .ok (items, m.sc2) ∧ (rs.flatMap yielded).Sublist items := by
  obtain ⟨xs, hp, _, hy⟩ := calls_pulls hc hok
  obtain ⟨rt, rg, tr, ga, es, h1, h2, h3, h4, h5, h6⟩ := pulls_any (s0 := s) hp ⟨fun _ => rfl, fun g hg => by cases hg⟩
  refine ⟨rt, _, rg, _, tr, ga, m.nextT.toList, m.nextG.toList.map bareGame, es, xs.filterMap id, h1, h3, ?_, h2, h4, ?_, h5, h6, ?_⟩
  · cases m.nextT <;> simp
  · cases m.nextG <;> simp
  · rw [hy]
    unfold quota
    split
    · exact List.filter_sublist
    · split
      · exact List.filter_sublist
      · exact (List.take_sublist _ _).trans List.filter_sublist

/-! ## C36 -/

theorem f32_exact {x : Int} (h0 : 0 ≤ x) (h1 : x ≤ 2 ^ 24) : f32ToI64 (f32OfInt x) = x := by
  have hr : roundNat x.natAbs = x.natAbs := by
    by_cases h : x = 2 ^ 24
    · subst h; decide +kernel
    · unfold roundNat
      rw [if_pos (by omega)]
  unfold f32OfInt f32ToI64
  have hn : ¬ x < 0 := by omega
  have e : ((x.natAbs : Nat) : Int) = x := by omega
  simp only [hr, if_neg hn, e]
  have a : ¬ x > i64Max := by simp only [i64Max]; omega
  have b : ¬ x < i64Min := by simp only [i64Min]; omega
  rw [if_neg a, if_neg b]

/-- In order of game loop, and of two simultaneous events of different streams the game event first. -/
def InOrder (a b : SEvent) : Prop := a.time ≤ b.time ∧ (a.isTracker = true → b.isTracker = false → a.time < b.time)

theorem mem_interleaving {α : Type} {a b c : List α} (h : Interleaving a b c) {x : α} : x ∈ c ↔ x ∈ a ∨ x ∈ b := by
  induction h with
  | nil => simp
  | left _ ih => simp only [List.mem_cons, ih, or_assoc]
  | right _ ih =>
    simp only [List.mem_cons, ih]
    constructor
    · rintro (h | h | h)
      · exact .inr (.inl h)
      · exact .inl h
      · exact .inr (.inr h)
    · rintro (h | h | h)
      · exact .inr (.inl h)
      · exact .inl h
      · exact .inr (.inr h)

theorem mergeEvents_sorted (s : SState) (ts : List (Int × TrackerEvt)) (gs : List (Int × (Int × GameEvt)))
    (ht : ts.Pairwise (fun p q => p.1 ≤ q.1)) (hg : gs.Pairwise (fun p q => p.1 ≤ q.1))
    (hb : ∀ g ∈ gs, 0 ≤ g.1 ∧ g.1 ≤ 2 ^ 24) : (mergeEvents s ts gs).Pairwise InOrder := by
  fun_induction mergeEvents s ts gs with
  | case1 gs =>
    refine List.Pairwise.map _ ?_ hg
    intro a b h
    exact ⟨h, by simp [gameSEvent, SEvent.isTracker]⟩
  | case2 t ts =>
    refine List.Pairwise.map _ ?_ ht
    intro a b h
    exact ⟨h, by simp [trackerSEvent, SEvent.isTracker]⟩
  | case3 t ts g gs h ih =>
    have hgx := hb g (by simp)
    rw [f32_exact hgx.1 hgx.2] at h
    obtain ⟨ht1, ht2⟩ := List.pairwise_cons.1 ht
    obtain ⟨hg1, hg2⟩ := List.pairwise_cons.1 hg
    refine List.pairwise_cons.2 ⟨?_, ih ht2 hg hb⟩
    intro e he
    rcases (mem_interleaving (mergeEvents_interleaving s ts (g :: gs))).1 he with he | he
    · obtain ⟨p, hp, rfl⟩ := List.mem_map.1 he
      exact ⟨ht1 p hp, by simp [trackerSEvent, SEvent.isTracker]⟩
    · obtain ⟨p, hp, rfl⟩ := List.mem_map.1 he
      have : t.1 < p.1 := by
        rcases List.mem_cons.1 hp with rfl | hp
        · exact h
        · exact Int.lt_of_lt_of_le h (hg1 p hp)
      exact ⟨Int.le_of_lt this, fun _ _ => this⟩
  | case4 t ts g gs h ih =>
    have hgx := hb g (by simp)
    rw [f32_exact hgx.1 hgx.2] at h
    obtain ⟨ht1, ht2⟩ := List.pairwise_cons.1 ht
    obtain ⟨hg1, hg2⟩ := List.pairwise_cons.1 hg
    refine List.pairwise_cons.2 ⟨?_, ih ht hg2 (fun x hx => hb x (by simp [hx]))⟩
    intro e he
    have hg' : (gameSEvent s g).isTracker = true → e.isTracker = false → (gameSEvent s g).time < e.time := by
      simp [gameSEvent, SEvent.isTracker]
    refine ⟨?_, hg'⟩
    rcases (mem_interleaving (mergeEvents_interleaving s (t :: ts) gs)).1 he with he | he
    · obtain ⟨p, hp, rfl⟩ := List.mem_map.1 he
      have : g.1 ≤ p.1 := by
        rcases List.mem_cons.1 hp with rfl | hp
        · omega
        · have := ht1 p hp; omega
      exact this
    · obtain ⟨p, hp, rfl⟩ := List.mem_map.1 he
      exact hg1 p hp

theorem trackerTimeline_sorted {bld : Build} {items : List (Int × Val)} {data : List UInt8}
    (hs : Stream (TrackerWire bld) items data) : (trackerTimeline items).Pairwise (fun p q => p.1 ≤ q.1) := by
  refine timeline_sorted _ _ ?_ items (fun a ha => (stream_forall (P := fun a : Int × Val => 0 ≤ a.1 ∧ a.1 < 2 ^ 32) (fun _ _ h => TrackerWire_delta h) items data hs a ha).1)
  intro p q hq
  cases hc : convTracker p.2.2 <;> rw [hc] at hq <;> simp [Res.toOpt] at hq
  rw [← hq]

theorem gameTimeline_sorted {bld : Build} {version : Nat} {items : List (Int × Int × Val)} {data : List UInt8}
    (hs : Stream (TripletWire bld (gameEventTy version)) items data) :
    (gameTimeline items).Pairwise (fun p q => p.1 ≤ q.1) ∧ ∀ g ∈ gameTimeline items, 0 ≤ g.1 := by
  have hd : ∀ a ∈ items, 0 ≤ a.1 := fun a ha =>
    (stream_forall (P := fun a : Int × Int × Val => 0 ≤ a.1 ∧ a.1 < 2 ^ 32) (fun _ _ h => TripletWire_delta h) items data hs a ha).1
  have hf : ∀ (p : Int × Int × Int × Val) (q : Int × (Int × GameEvt)),
      (convGame p.2.2.2).toOpt.map (fun e => (p.1, (p.2.2.1, e))) = some q → q.1 = p.1 := by
    intro p q hq
    cases hc : convGame p.2.2.2 <;> rw [hc] at hq <;> simp [Res.toOpt] at hq
    rw [← hq]
  refine ⟨timeline_sorted _ _ hf items hd, ?_⟩
  intro g hg
  unfold gameTimeline at hg
  obtain ⟨p, hp, hq⟩ := List.mem_filterMap.1 hg
  rw [hf p g hq]
  rw [stamped_eq] at hp
  exact (withLoops_sorted _ items 0 hd).2 p hp

theorem pairwise_inOrder_of_events {items : List Item} {es : List SEvent} (h : es.Pairwise InOrder)
    (he : items.map (fun it => (it.event.time, it.event.isTracker)) = es.map (fun e => (e.time, e.isTracker))) :
    (items.map Item.event).Pairwise InOrder := by
  have h1 : (es.map (fun e => (e.time, e.isTracker))).Pairwise
      (fun a b : Int × Bool => a.1 ≤ b.1 ∧ (a.2 = true → b.2 = false → a.1 < b.1)) :=
    List.Pairwise.map _ (fun a b h => h) h
  rw [← he] at h1
  rw [List.pairwise_map] at h1 ⊢
  exact h1

/-- Well-formed sectors with UTF-8 tracker names and game loops up to `2^24` (208 hours of play): whatever
the filters, the events delivered by any successful calls are in order of game loop, game events first. -/
theorem C36_ordered_partial (bld : Build) (version : Nat) (s : SState) (titems : List (Int × Val)) (gitems : List (Int × Int × Val))
    (trk game : List UInt8) (ht : Stream (TrackerWire bld) titems trk) (hutf : ∀ p ∈ titems, convTracker p.2 ≠ .err .utf8)
    (hg : Stream (TripletWire bld (gameEventTy version)) gitems game) (hb : ∀ g ∈ gameTimeline gitems, g.1 ≤ 2 ^ 24)
    (o : Option Filters) (rs : List (Res (Option Item))) (m : MState)
    (hc : Calls (mnext bld version) (MState.new s trk game o) rs m) (hok : ∀ r ∈ rs, ∃ x, r = .ok x) :
    ((rs.flatMap yielded).map Item.event).Pairwise InOrder := by
  obtain ⟨xs, hp, _, hy⟩ := calls_pulls hc hok
  obtain ⟨items, h1, h2⟩ := rep_pulls hp _ _ (rep_new o ht hutf hg)
  have hxi : xs.filterMap id = items := by
    rw [h2, List.filterMap_append]
    have : (List.replicate (xs.length - (mergeEvents s (trackerTimeline titems) (gameTimeline gitems)).length)
        (none : Option Item)).filterMap id = [] := by
      rw [List.filterMap_eq_nil_iff]
      intro a ha
      rw [(List.mem_replicate.1 ha).2]; rfl
    rw [this]; simp
  have hsub : (rs.flatMap yielded).Sublist items := by
    rw [hy, hxi]
    unfold quota
    split
    · exact List.filter_sublist
    · split
      · exact List.filter_sublist
      · exact (List.take_sublist _ _).trans List.filter_sublist
  have hgs := gameTimeline_sorted hg
  have hsorted := mergeEvents_sorted s _ _ (trackerTimeline_sorted ht) hgs.1 (fun g hg => ⟨hgs.2 g hg, hb g hg⟩)
  refine (pairwise_inOrder_of_events ?_ (runItems_events h1)).sublist (hsub.map _)
  exact hsorted.sublist (List.take_sublist _ _)

end S2
