import Verif.Misc.Tui
import Verif.Props.MergedMore
import Verif.Props.Lobby
import Verif.Props.Groups
import Verif.Props.Events
/-! # C144 – C146: the terminal user interface -/
namespace S2.Tui
open S2

/-- How many keys ask for the next event, up to the one that quits. -/
def asked (keys : List Key) : Nat := ((keys.takeWhile (· ≠ .quit)).filter (· = .next)).length

theorem loopOf_eq (e : SEvent) : loopOf e = e.time := by cases e <;> rfl

/-- The calls of `next` made before the first screen: those that gave an event of loop 0, and one more. -/
theorem start_calls {bld : Build} {version : Nat} : ∀ {n : Nat} {m m' : MState} {x : Option Item},
    start bld version n m = some (.ok x, m') → ∃ zs : List Item,
      Calls (mnext bld version) m (zs.map (fun it => .ok (some it)) ++ [.ok x]) m' ∧ (∀ it ∈ zs, it.event.time = 0) ∧
      ∀ it, x = some it → it.event.time ≠ 0
  | 0, _, _, _, h => by simp [start] at h
  | n + 1, m, m', x, h => by
    rw [start] at h
    split at h
    · rename_i it m1 hc
      split at h
      · rename_i h0
        obtain ⟨zs, h1, h2, h3⟩ := start_calls h
        exact ⟨it :: zs, .cons hc h1, by
          intro j hj
          rcases List.mem_cons.mp hj with rfl | hj
          · rw [← loopOf_eq]; exact h0
          · exact h2 j hj, h3⟩
      · rename_i h0
        simp only [Option.some.injEq, Prod.mk.injEq, Res.ok.injEq] at h
        obtain ⟨rfl, rfl⟩ := h
        refine ⟨[], .cons hc (.nil _), by simp, ?_⟩
        rintro j ⟨⟩
        rw [← loopOf_eq]; exact h0
    · rename_i hne
      refine ⟨[], .cons h (.nil _), by simp, ?_⟩
      rintro it rfl
      exact absurd h (hne it m')

theorem Calls.snoc {ω σ : Type} {next : Nat → σ → Option (Res (Option ω) × σ)} {a b c : σ} {rs rs' : List (Res (Option ω))}
    (h : Calls next a rs b) (h' : Calls next b rs' c) : Calls next a (rs ++ rs') c := by
  induction h with
  | nil => exact h'
  | cons h _ ih => exact .cons h (ih h')

/-- The calls made by the keys. -/
theorem presses_calls {bld : Build} {version : Nat} : ∀ {keys : List Key} {a b : App}, a.exit = false →
    a.presses bld version keys = some (.ok b) → ∃ ps : List (Option Item),
      Calls (mnext bld version) a.iter (ps.map .ok) b.iter ∧ ps.length = asked keys ∧ b.current = (ps.getLast?).getD a.current
  | [], a, b, _, h => by
    simp only [App.presses, Option.some.injEq, Res.ok.injEq] at h
    subst h
    exact ⟨[], .nil _, rfl, rfl⟩
  | .quit :: ks, a, b, ha, h => by
    simp only [App.presses, ha, App.press] at h
    have : b = { a with exit := true } := by
      cases ks with
      | nil => simpa [App.presses, eq_comm] using h
      | cons k ks => simpa [App.presses, eq_comm] using h
    subst this
    exact ⟨[], .nil _, rfl, rfl⟩
  | .other :: ks, a, b, ha, h => by
    simp only [App.presses, ha, App.press] at h
    obtain ⟨ps, h1, h2, h3⟩ := presses_calls ha h
    exact ⟨ps, h1, by simpa [asked] using h2, h3⟩
  | .next :: ks, a, b, ha, h => by
    simp only [App.presses, ha, App.press] at h
    cases hc : call bld version a.iter with
    | none => rw [hc] at h; simp at h
    | some r =>
      obtain ⟨r, m'⟩ := r
      cases r with
      | err e => rw [hc] at h; simp at h
      | panic => rw [hc] at h; simp at h
      | ok x =>
        rw [hc] at h
        simp only [Bool.false_eq_true, if_false] at h
        obtain ⟨ps, h1, h2, h3⟩ := presses_calls (a := ⟨false, x, m'⟩) rfl h
        refine ⟨x :: ps, .cons hc h1, by simpa [asked] using h2, ?_⟩
        rw [h3, List.getLast?_cons]
        rfl

/-- **C144.** Whatever the replay, the filters and the keys: the events shown are those of successive calls of `next`; before the first screen all
events of loop 0 are passed over; then every "next" key moves on by exactly one call, until the interface is quit.  What is shown
is the result of the last call, and the map shows the state after it. -/
theorem C144_calls (bld : Build) (version : Nat) (m : MState) (keys : List Key) (a : App) (h : run bld version m keys = some (.ok a)) :
    ∃ (zs : List Item) (shown : List (Option Item)),
      Calls (mnext bld version) m (zs.map (fun it => .ok (some it)) ++ shown.map .ok) a.iter ∧
      (∀ it ∈ zs, it.event.time = 0) ∧ (∀ it, shown[0]? = some (some it) → it.event.time ≠ 0) ∧
      shown.length = asked keys + 1 ∧ shown.getLast? = some a.current := by
  unfold run App.new at h
  cases hs : start bld version (m.trk.data.length + m.game.data.length + 3) m with
  | none => rw [hs] at h; simp at h
  | some r =>
    obtain ⟨r, m'⟩ := r
    cases r with
    | err e => rw [hs] at h; simp at h
    | panic => rw [hs] at h; simp at h
    | ok x =>
      rw [hs] at h
      dsimp only at h
      obtain ⟨zs, h1, h2, h3⟩ := start_calls hs
      obtain ⟨ps, h4, h5, h6⟩ := presses_calls rfl h
      refine ⟨zs, x :: ps, ?_, h2, ?_, by simp [h5], ?_⟩
      · have := Calls.snoc h1 h4
        simpa using this
      · intro it hx
        exact h3 it (by simpa using hx)
      · rw [h6, List.getLast?_cons]

theorem takeWhile_split {α : Type} (p : α → Bool) : ∀ (l : List α) (k : Nat), k ≤ l.length → (∀ i x, i < k → l[i]? = some x → p x = true) →
    (∀ x, l[k]? = some x → p x = false) → (l.takeWhile p).length = k
  | [], k, hk, _, _ => by simp at hk; simp [hk]
  | a :: l, 0, _, _, h2 => by simp [h2 a rfl]
  | a :: l, k + 1, hk, h1, h2 => by
    rw [List.takeWhile_cons, h1 0 a (by omega) rfl]
    simp only [if_true, List.length_cons, Nat.add_right_cancel_iff]
    exact takeWhile_split p l k (by simpa using hk) (fun i x hi hx => h1 (i + 1) x (by omega) (by simpa using hx))
      (fun x hx => h2 x (by simpa using hx))

/-- **C144.** Of a replay with two well-formed event streams and without filters, after `k` "next" keys the screen shows event number `z + k` (from 0) of the merged
order, `z` being the number of events of loop 0 at its start, and the map the state after exactly the events up to that one; when there is no such event, no event. -/
theorem C144_shown (bld : Build) (version : Nat) (s : SState) (titems : List (Int × Val)) (gitems : List (Int × Int × Val))
    (trk game : List UInt8) (ht : Stream (TrackerWire bld) titems trk) (hutf : ∀ p ∈ titems, convTracker p.2 ≠ .err .utf8)
    (hg : Stream (TripletWire bld (gameEventTy version)) gitems game) :
    ∃ es, Interleaving ((trackerTimeline titems).map trackerSEvent) ((gameTimeline gitems).map (gameSEvent s)) es ∧
      ∀ keys a, run bld version (MState.new s trk game none) keys = some (.ok a) →
        ∃ items, runItems bld s (es.take ((es.takeWhile (·.time = 0)).length + asked keys + 1)) = .ok (items, a.iter.sc2) ∧
          a.current = items[(es.takeWhile (·.time = 0)).length + asked keys]? := by
  obtain ⟨es, hi, hall⟩ := C35_merged bld version s titems gitems trk game ht hutf hg
  refine ⟨es, hi, fun keys a h => ?_⟩
  obtain ⟨zs, shown, h1, h2, h3, h4, h5⟩ := C144_calls bld version _ keys a h
  obtain ⟨items, r1, r2⟩ := hall _ _ h1 (by
    intro r hr
    simp only [List.mem_append, List.mem_map] at hr
    rcases hr with ⟨it, _, rfl⟩ | ⟨x, _, rfl⟩ <;> exact ⟨_, rfl⟩)
  have hlen : (zs.map (fun it => (.ok (some it) : Res (Option Item))) ++ shown.map (Res.ok (α := Option Item))).length = zs.length + asked keys + 1 := by
    simp [h4]; omega
  rw [hlen] at r1 r2
  -- position by position
  have pos : ∀ i : Nat, (zs.map some ++ shown)[i]? = (items.map some ++ List.replicate (zs.length + asked keys + 1 - es.length) none)[i]? := by
    intro i
    have e : (zs.map some ++ shown).map (Res.ok (α := Option Item)) =
        (items.map some ++ List.replicate (zs.length + asked keys + 1 - es.length) none).map .ok := by
      simpa [Function.comp_def] using r2
    have inj : (zs.map some ++ shown) = (items.map some ++ List.replicate (zs.length + asked keys + 1 - es.length) none) := by
      refine List.map_inj_right (fun a b hab => ?_) |>.mp e
      simpa using hab
    rw [inj]
  have il : items.length = min (zs.length + asked keys + 1) es.length := by
    have := runItems_events r1
    have := congrArg List.length this
    simpa using this
  have tm : ∀ (i : Nat) (it : Item) (e : SEvent), items[i]? = some it → es[i]? = some e → it.event.time = e.time := by
    intro i it e h6 h7
    have hi' : i < items.length := (List.getElem?_eq_some_iff.mp h6).1
    have := congrArg (fun l => l[i]?) (runItems_events r1)
    simp only [List.getElem?_map, h6, List.getElem?_take, h7, Option.map_some] at this
    rw [if_pos (by omega)] at this
    simp at this
    exact this.1
  have zlen : zs.length ≤ es.length := by
    refine Nat.le_of_not_lt fun hlt => ?_
    have := pos es.length
    rw [List.getElem?_append_left (by simpa using hlt), List.getElem?_map, List.getElem?_append_right (by simp [il]; omega)] at this
    have hz : es.length < zs.length := hlt
    rw [List.getElem?_eq_getElem hz] at this
    simp only [Option.map_some] at this
    rw [List.getElem?_replicate] at this
    split at this <;> simp at this
  have zt : (es.takeWhile (fun e => decide (e.time = 0))).length = zs.length := by
    refine takeWhile_split _ es zs.length zlen ?_ ?_
    · intro i e hi' he
      have hz : i < zs.length := hi'
      have hie : i < es.length := by omega
      have := pos i
      rw [List.getElem?_append_left (by simpa using hz), List.getElem?_append_left (by simp [il]; omega)] at this
      simp only [List.getElem?_map] at this
      rw [List.getElem?_eq_getElem hz, List.getElem?_eq_getElem (by omega : i < items.length)] at this
      simp only [Option.map_some, Option.some.injEq] at this
      have hmem : zs[i] ∈ zs := List.getElem_mem hz
      have := tm i zs[i] e (by rw [this]; exact List.getElem?_eq_getElem (by omega)) he
      rw [h2 _ hmem] at this
      simp [← this]
    · intro e he
      have hie : zs.length < es.length := (List.getElem?_eq_some_iff.mp he).1
      have := pos zs.length
      rw [List.getElem?_append_right (by simp), List.getElem?_append_left (by simp [il]; omega)] at this
      simp only [List.length_map, Nat.sub_self, List.getElem?_map] at this
      rw [List.getElem?_eq_getElem (by omega : zs.length < items.length), Option.map_some] at this
      have h7 := h3 _ this
      rw [tm zs.length _ e (List.getElem?_eq_getElem (by omega)) he] at h7
      simpa using h7
  rw [zt]
  refine ⟨items, r1, ?_⟩
  have last : (zs.map some ++ shown)[zs.length + asked keys]? = some a.current := by
    rw [List.getElem?_append_right (by simp)]
    simp only [List.length_map, Nat.add_sub_cancel_left]
    rw [List.getLast?_eq_getElem?] at h5
    rw [← h5, h4]; rfl
  rw [pos] at last
  by_cases hk : zs.length + asked keys < items.length
  · rw [List.getElem?_append_left (by simpa using hk), List.getElem?_map] at last
    cases hx : items[zs.length + asked keys]? with
    | none => rw [hx] at last; simp at last
    | some it => rw [hx] at last; simpa using last.symm
  · rw [List.getElem?_eq_none (by omega)]
    rw [List.getElem?_append_right (by simpa using (by omega : items.length ≤ zs.length + asked keys)), List.getElem?_replicate] at last
    split at last <;> simp at last
    exact last.symm

/-! ## The rounds suffice -/

theorem pending_le (m : MState) : m.pending ≤ m.trk.data.length + m.game.data.length + 2 := by
  have h1 : m.nextT.toList.length ≤ 1 := by cases m.nextT <;> simp
  have h2 : m.nextG.toList.length ≤ 1 := by cases m.nextG <;> simp
  have h3 : m.trk.slice.length ≤ m.trk.data.length := by simp [IterState.slice]
  have h4 : m.game.slice.length ≤ m.game.data.length := by simp [IterState.slice]
  unfold MState.pending
  omega

theorem call_returns (bld : Build) (version : Nat) (m : MState) (ha : m.Aligned) : ∃ r, call bld version m = some r := by
  have := pending_le m
  exact Option.ne_none_iff_exists'.mp (mnext_returns _ m ha (by omega))

theorem start_returns {bld : Build} {version : Nat} : ∀ (n : Nat) (m : MState), m.Aligned → m.pending < n →
    ∃ r m', start bld version n m = some (r, m') ∧ m'.Aligned
  | 0, m, _, h => by omega
  | n + 1, m, ha, h => by
    obtain ⟨⟨r, m'⟩, hc⟩ := call_returns bld version m ha
    obtain ⟨a1, p1⟩ := mnext_measure _ _ _ _ ha hc
    rw [start, hc]
    cases r with
    | err e => exact ⟨_, _, rfl, a1⟩
    | panic => exact ⟨_, _, rfl, a1⟩
    | ok x =>
      cases x with
      | none => exact ⟨_, _, rfl, a1⟩
      | some it =>
        dsimp only
        split
        · refine start_returns n m' a1 ?_
          simp [yielded] at p1; omega
        · exact ⟨_, _, rfl, a1⟩

theorem presses_returns {bld : Build} {version : Nat} : ∀ (keys : List Key) (a : App), a.iter.Aligned →
    ∃ r, a.presses bld version keys = some r
  | [], a, _ => ⟨_, rfl⟩
  | k :: ks, a, ha => by
    rw [App.presses]
    split
    · exact ⟨_, rfl⟩
    · cases k with
      | quit => exact presses_returns ks _ ha
      | other => exact presses_returns ks _ ha
      | next =>
        rw [App.press]
        obtain ⟨⟨r, m'⟩, hc⟩ := call_returns bld version a.iter ha
        obtain ⟨a1, _⟩ := mnext_measure _ _ _ _ ha hc
        rw [hc]
        cases r with
        | err e => exact ⟨_, rfl⟩
        | panic => exact ⟨_, rfl⟩
        | ok x => exact presses_returns ks _ a1

/-- **C144.** The interface always starts and every key is answered (it may panic, as `next` may: C85): passing over the events of loop 0
ends, whatever the bytes of the replay. -/
theorem C144_returns (bld : Build) (version : Nat) (s : SState) (trk game : List UInt8) (o : Option Filters) (keys : List Key) :
    ∃ r, run bld version (MState.new s trk game o) keys = some r := by
  have ha : (MState.new s trk game o).Aligned := ⟨rfl, rfl⟩
  have := pending_le (MState.new s trk game o)
  obtain ⟨r, m', h1, h2⟩ := start_returns (bld := bld) (version := version)
    ((MState.new s trk game o).trk.data.length + (MState.new s trk game o).game.data.length + 3) _ ha (by omega)
  unfold run App.new
  rw [h1]
  cases r with
  | err e => exact ⟨_, rfl⟩
  | panic => exact ⟨_, rfl⟩
  | ok x => exact presses_returns keys _ h2

/-- A tracker event of loop 0 and two of loops 5 and 10: the first screen shows the second event, one "next" the third, and nothing after quitting. -/
def tuiTrk : List UInt8 := [3, 0, 9, 0, 9, 14, 5, 4, 0, 9, 2, 2, 9, 4] ++ (wDone ++ wDone)

/-- What the interface shows: nothing, no event, or the loop of the event. -/
def screen (keys : List Key) : Option (Option Int) :=
  match run .debug 87702 (MState.new demoState tuiTrk [] none) keys with
  | some (.ok a) => some (a.current.map (·.event.time))
  | _ => none

example : screen [] = some (some 5) ∧ screen [.other, .next, .other] = some (some 10) ∧ screen [.next, .next] = some none ∧
    screen [.quit, .next] = some (some 5) := by decide +kernel

/-! ## C145: the selection panels -/

/-- The lines a user's selection should show: the unit of every selected tag, if the unit is there. -/
def selectionLines (s : SState) (user : Int) : List Line :=
  (((groupOf s user 10).getD []).filterMap (fun tag => s.units (tagIndex tag))).map
    (fun u => ⟨u.name, u.tagIndex, (u.cmd.abil.map (·.ability)).getD []⟩)

theorem lineOf_eq (s : SState) (t : Int) : lineOf s t =
    (s.units (tagIndex t)).map (fun u => ⟨u.name, u.tagIndex, (u.cmd.abil.map (·.ability)).getD []⟩) := by
  unfold lineOf
  cases s.units (tagIndex t) with
  | none => rfl
  | some u => cases h : u.cmd.abil <;> simp [h]

theorem getUser_of_mem : ∀ {users : List (Int × UserState)} {id : Int} {u : UserState}, (users.map Prod.fst).Nodup → (id, u) ∈ users →
    getUser users id = some u
  | [], _, _, _, h => by simp at h
  | (k, v) :: rest, id, u, hn, h => by
    rw [getUser]
    simp only [List.map_cons, List.nodup_cons] at hn
    rcases List.mem_cons.mp h with e | h
    · cases e; simp
    · have : k ≠ id := by
        rintro rfl
        exact hn.1 (List.mem_map.mpr ⟨_, h, rfl⟩)
      rw [if_neg this]
      exact getUser_of_mem hn.2 h

theorem selectedUnits_eq {s : SState} {order : List (Int × UserState)} (hw : s.Wf) (hp : order.Perm s.users) {i : Nat} {id : Int} {u : UserState}
    (h : order[i]? = some (id, u)) : selectedUnits order s i = selectionLines s id := by
  have hm : (id, u) ∈ s.users := hp.mem_iff.mp (List.mem_of_getElem? h)
  unfold selectedUnits selectionLines groupOf
  rw [h, getUser_of_mem hw.1 hm]
  simp only [Option.bind_some, List.map_filterMap]
  have e : activeGroup.toNat = 10 := rfl
  rw [e]
  congr 1
  funext t
  exact lineOf_eq s t

/-- **C145 (partial).** In whatever order the users come, each panel shows the whole selection of one user, the panels show different users, and with at
most two users every selection is shown.  What is missing: which user a panel shows, and more than two users; see the refutations. -/
theorem C145_panels_partial (s : SState) (order : List (Int × UserState)) (hw : s.Wf) (hp : order.Perm s.users) :
    (∀ (i : Nat) (id : Int) (u : UserState), order[i]? = some (id, u) → selectedUnits order s i = selectionLines s id) ∧
    (∀ (i j : Nat) (id : Int) (u v : UserState), order[i]? = some (id, u) → order[j]? = some (id, v) → i = j) ∧
    (s.users.length ≤ 2 → ∀ id u, (id, u) ∈ s.users →
      (panels order s).1 = selectionLines s id ∨ (panels order s).2 = selectionLines s id) := by
  refine ⟨fun i id u h => selectedUnits_eq hw hp h, ?_, ?_⟩
  · intro i j id u v h1 h2
    have hn : (order.map Prod.fst).Nodup := (hp.map Prod.fst).nodup_iff.mpr hw.1
    have e1 : (order.map Prod.fst)[i]? = some id := by simp [h1]
    have e2 : (order.map Prod.fst)[j]? = some id := by simp [h2]
    have hi : i < (order.map Prod.fst).length := (List.getElem?_eq_some_iff.mp e1).1
    exact (List.getElem?_inj hi hn).mp (by rw [e1, e2])
  · intro hl id u hm
    obtain ⟨i, hi⟩ := List.mem_iff_getElem?.mp (hp.mem_iff.mpr hm)
    have hlt : i < order.length := (List.getElem?_eq_some_iff.mp hi).1
    rw [hp.length_eq] at hlt
    have e := selectedUnits_eq hw hp hi
    rcases (by omega : i = 0 ∨ i = 1) with rfl | rfl
    · exact .inl e
    · exact .inr e

/-- A state where user 0 has selected the one unit and user 1 nothing. -/
def panelState : SState :=
  { demoState with
    units := fun k => if k = 1 then some { SUnit.default with tagIndex := 1, name := str "Marine" } else none
    users := [(0, { UserState.new (str "A") with groups := List.replicate 10 [] ++ [[262145]] }), (1, UserState.new (str "B"))] }

theorem panelState_wf : panelState.Wf := ⟨by decide, by decide⟩

example : selectionLines panelState 0 = [⟨str "Marine", 1, []⟩] ∧ selectionLines panelState 1 = [] := by decide

/-- **C145.** A selection panel need not show the user of its number: the iteration order of the map may put user 1 first.  With three
users one selection is not shown. -/
theorem C145_panels_refuted :
    ¬ (∀ (s : SState) (order : List (Int × UserState)), s.Wf → order.Perm s.users →
      ∀ u, (0, u) ∈ s.users → (panels order s).1 = selectionLines s 0) ∧
    ¬ (∀ (s : SState) (order : List (Int × UserState)), s.Wf → order.Perm s.users → ∀ id u, (id, u) ∈ s.users →
      (panels order s).1 = selectionLines s id ∨ (panels order s).2 = selectionLines s id) := by
  constructor
  · intro h
    have := h panelState panelState.users.reverse panelState_wf (List.reverse_perm _) _ (List.mem_cons_self ..)
    revert this
    decide
  · intro h
    let s : SState := { panelState with users := panelState.users ++ [(2, UserState.new (str "C"))] }
    have := h s s.users.reverse ⟨by decide, by decide⟩ (List.reverse_perm _) _ _ (List.mem_cons_self ..)
    revert this
    decide

/-! ## C146: the colours of the players -/

theorem find_slot {players : List PlayerDetails} (hn : (players.filterMap (·.workingSetSlotId)).Nodup) {p : PlayerDetails} (hp : p ∈ players)
    {k : Int} (hk : p.workingSetSlotId = some k) : players.find? (fun q => q.workingSetSlotId == some k) = some p := by
  induction players with
  | nil => simp at hp
  | cons q qs ih =>
    rw [List.find?_cons]
    by_cases hq : q.workingSetSlotId = some k
    · simp only [hq, BEq.rfl]
      rcases List.mem_cons.mp hp with rfl | hp
      · rfl
      · rw [List.filterMap_cons, hq] at hn
        simp only [List.nodup_cons] at hn
        exact absurd (List.mem_filterMap.mpr ⟨p, hp, hk⟩) hn.1
    · have : (q.workingSetSlotId == some k) = false := by simpa using hq
      simp only [this]
      rcases List.mem_cons.mp hp with rfl | hp
      · exact absurd hk hq
      · refine ih ?_ hp
        rw [List.filterMap_cons] at hn
        split at hn
        · exact hn
        · exact (List.nodup_cons.mp hn).2

theorem asU8_id {k : Int} (h : 0 ≤ k ∧ k < 256) : asU 8 k = k := by
  unfold asU
  exact Int.emod_eq_of_lt h.1 (by simpa using h.2)

/-- **C146 (partial).** When no two players have the same slot (slots are bytes), the lines of each player with a slot are in that player's colour; every user's camera is drawn where it is, in the
colour of the user's player if the user's id is the number of the working set slot.  What is missing: lobbies where these
numbers differ, see the refutation. -/
theorem C146_colours_partial {D : Type} (w : World D) (bld : Build) (init : InitFile) (rows : List (PlayerLobby D)) (det : DetailsFile D)
    (hr : lobbyJoin w bld init = .ok rows) (hd : DetailsFile.ofInit w bld init = .ok det)
    (hn : (det.details.playerList.filterMap (·.workingSetSlotId)).Nodup)
    (h8 : ∀ p ∈ det.details.playerList, ∀ k, p.workingSetSlotId = some k → 0 ≤ k ∧ k < 256) (s : SState) :
    playerLines det.details.playerList =
      (det.details.playerList.filter (·.workingSetSlotId.isSome)).map (fun p => (p, some p.color)) ∧
    (cameras s det.details.playerList).map (fun x => (x.1, x.2.1)) = s.users.map (fun u => (u.1, u.2.camera)) ∧
    ∀ row ∈ rows, ∀ id, row.slot.userId = some id → row.slot.workingSetSlotId = some id →
      ∀ pos c, (id, pos, c) ∈ cameras s det.details.playerList → c = some row.player.color := by
  have key : ∀ p ∈ det.details.playerList, ∀ k, p.workingSetSlotId = some k →
      playerColor det.details.playerList k = some p.color := by
    intro p hp k hk
    rw [playerColor, asU8_id (h8 p hp k hk), find_slot hn hp hk]
    rfl
  refine ⟨?_, by simp [cameras, Function.comp_def], ?_⟩
  · unfold playerLines
    have : ∀ l : List PlayerDetails, (∀ p ∈ l, p ∈ det.details.playerList) →
        l.filterMap (fun p => match p.workingSetSlotId with
          | some slot => some (p, playerColor det.details.playerList slot)
          | none => none) = (l.filter (·.workingSetSlotId.isSome)).map (fun p => (p, some p.color)) := by
      intro l hl
      induction l with
      | nil => rfl
      | cons p ps ih =>
        have ih := ih (fun q hq => hl q (List.mem_cons_of_mem _ hq))
        cases hk : p.workingSetSlotId with
        | none => simp only [List.filterMap_cons, hk, List.filter_cons, Option.isSome]; exact ih
        | some k =>
          have e : (p :: ps).filter (fun q => q.workingSetSlotId.isSome) = p :: ps.filter (fun q => q.workingSetSlotId.isSome) := by
            simp [List.filter_cons, hk]
          rw [e, List.map_cons, ← ih, List.filterMap_cons]
          simp only [hk]
          rw [key p (hl p (List.mem_cons_self ..)) k hk]
    exact this _ (fun _ h => h)
  · intro row hrow id hu hs
    obtain ⟨det', hd', hp, hrows⟩ := C54_join w bld init rows hr
    rw [hd] at hd'; cases hd'
    obtain ⟨⟨i, hf⟩, _⟩ := hrows row hrow
    have hm : row.player ∈ det.details.playerList := by
      have : row.player ∈ rows.map (·.player) := List.mem_map.mpr ⟨_, hrow, rfl⟩
      rw [hp] at this
      exact (List.mem_filter.mp this).1
    obtain ⟨_, k, h1, h2, _⟩ := hf
    rw [hs] at h2
    cases h2
    intro pos c hc
    obtain ⟨u, _, e⟩ := List.mem_map.mp hc
    simp only [Prod.mk.injEq] at e
    obtain ⟨rfl, _, rfl⟩ := e
    exact key _ hm _ h1

/-- A lobby with two observers, users 0 and 1; the players are users 2 and 3, in working set slots 0 and 1. -/
def obsLobby : LobbySync :=
  exInit [exUser "Obs" none, exUser "Eve" none, exUser "Ann" none, exUser "Bob" none]
    [exSlot (some 2) (some 0) "h", exSlot (some 3) (some 1) "h"] "cache" [List.replicate 40 7]

/-- The details of the example world. -/
def exDet : Res (DetailsFile Nat) := DetailsFile.ofInit (exWorld obsLobby) .release (exInitFile obsLobby)

/-- Whether some row of the example has a user whose camera has not the colour of the row's player. -/
def colourDiffers : Bool :=
  match lobbyJoin (exWorld obsLobby) .release (exInitFile obsLobby), exDet with
  | .ok rows, .ok det => rows.any (fun row => match row.slot.userId with
    | some id => playerColor det.details.playerList id != some row.player.color
    | none => false)
  | _, _ => false

/-- Whether the hypotheses of `C146_colours_partial` hold of the example of C95. -/
def coloursFine : Bool :=
  match lobbyJoin (exWorld exLobby) .release (exInitFile exLobby), DetailsFile.ofInit (exWorld exLobby) .release (exInitFile exLobby) with
  | .ok rows, .ok det => rows.length == 2 && decide (det.details.playerList.filterMap (·.workingSetSlotId)).Nodup &&
      det.details.playerList.all (fun p => match p.workingSetSlotId with
        | some k => decide (0 ≤ k ∧ k < 256)
        | none => true) &&
      rows.all (fun row => row.slot.userId == row.slot.workingSetSlotId && row.slot.userId.isSome)
  | _, _ => false

example : coloursFine = true := by decide +kernel

/-- **C146.** The camera of a user need not have the colour of the user's player: the user id is looked up among the slot numbers.  With two observers
the players' cameras are white. -/
theorem C146_colours_refuted :
    ¬ (∀ (w : World Nat) (bld : Build) (init : InitFile) (rows : List (PlayerLobby Nat)) (det : DetailsFile Nat),
      lobbyJoin w bld init = .ok rows → DetailsFile.ofInit w bld init = .ok det →
      ∀ (s : SState), ∀ row ∈ rows, ∀ id, row.slot.userId = some id → ∀ pos c, (id, pos, c) ∈ cameras s det.details.playerList →
        c = some row.player.color) := by
  intro h
  have hc : colourDiffers = true := by decide +kernel
  unfold colourDiffers exDet at hc
  cases h1 : lobbyJoin (exWorld obsLobby) .release (exInitFile obsLobby) with
  | err e => rw [h1] at hc; simp at hc
  | panic => rw [h1] at hc; simp at hc
  | ok rows =>
    rw [h1] at hc
    cases h2 : DetailsFile.ofInit (exWorld obsLobby) .release (exInitFile obsLobby) with
    | err e => rw [h2] at hc; simp at hc
    | panic => rw [h2] at hc; simp at hc
    | ok det =>
      rw [h2] at hc
      dsimp only at hc
      rw [List.any_eq_true] at hc
      obtain ⟨row, hm, hx⟩ := hc
      split at hx
      · rename_i id hid
        have := h _ _ _ _ _ h1 h2 ⟨fun _ => none, [(id, UserState.new [])], fun _ => none⟩ row hm id hid _ _ (List.mem_cons_self ..)
        dsimp only at this
        rw [this] at hx
        simp at hx
      · cases hx

end S2.Tui
