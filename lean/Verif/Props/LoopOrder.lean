import Verif.Props.RowsAny
import Verif.Props.MergedFilters
/-!
# C157: the tables are computed in the order of the game loops

C105 to C109 give the rows along *some* merge of the two event streams.  Here that merge is named: it is the only one in
which the game loops do not decrease and game events come before tracker events of the same loop.
-/
namespace S2

/-- Specification: the tracker events `ts` and the game events `gs`, each in the order of the file, sorted by game loop; of a
tracker event and a game event of the same loop the game event comes first. -/
def loopOrder : List SEvent → List SEvent → List SEvent
  | [], gs => gs
  | t :: ts, [] => t :: ts
  | t :: ts, g :: gs => if t.time < g.time then t :: loopOrder ts (g :: gs) else g :: loopOrder (t :: ts) gs
termination_by ts gs => ts.length + gs.length

theorem mergeEvents_loopOrder (s : SState) (ts : List (Int × TrackerEvt)) (gs : List (Int × (Int × GameEvt)))
    (hb : ∀ g ∈ gs, 0 ≤ g.1 ∧ g.1 ≤ 2 ^ 24) :
    mergeEvents s ts gs = loopOrder (ts.map trackerSEvent) (gs.map (gameSEvent s)) := by
  fun_induction mergeEvents s ts gs with
  | case1 gs => rw [List.map_nil, loopOrder]
  | case2 t ts => rw [List.map_nil, List.map_cons, loopOrder]
  | case3 t ts g gs h ih =>
    have hgx := hb g (by simp)
    rw [f32_exact hgx.1 hgx.2] at h
    have h : (trackerSEvent t).time < (gameSEvent s g).time := h
    rw [List.map_cons, List.map_cons, loopOrder, if_pos h, ih hb, List.map_cons]
  | case4 t ts g gs h ih =>
    have hgx := hb g (by simp)
    rw [f32_exact hgx.1 hgx.2] at h
    have h : ¬ (trackerSEvent t).time < (gameSEvent s g).time := h
    rw [List.map_cons, List.map_cons, loopOrder, if_neg h, ih (fun x hx => hb x (by simp [hx])), List.map_cons]

theorem interleaving_nil_left {α : Type} {b c : List α} (h : Interleaving [] b c) : c = b := by
  generalize ha : ([] : List α) = a at h
  induction h with
  | nil => rfl
  | left _ _ => cases ha
  | right _ ih => rw [ih ha]

theorem interleaving_nil_right {α : Type} {a c : List α} (h : Interleaving a [] c) : c = a := by
  generalize hb : ([] : List α) = b at h
  induction h with
  | nil => rfl
  | left _ ih => rw [ih hb]
  | right _ _ => cases hb

/-- **C157 (the order)** there is only one way to put tracker events and game events together in which each stream keeps its
order, loops do not decrease and game events come first at equal loops: the one that `loopOrder` computes. -/
theorem C157_only_order : ∀ (ts gs es : List SEvent), (∀ t ∈ ts, t.isTracker = true) → (∀ g ∈ gs, g.isTracker = false) →
    Interleaving ts gs es → es.Pairwise InOrder → es = loopOrder ts gs := by
  intro ts gs es ht hg h
  induction h with
  | nil => intro _; rw [loopOrder]
  | @left t ts gs es h ih =>
    intro hp
    obtain ⟨h1, h2⟩ := List.pairwise_cons.1 hp
    have e := ih (fun x hx => ht x (by simp [hx])) hg h2
    cases gs with
    | nil => rw [loopOrder, interleaving_nil_right h]
    | cons g gs =>
      have hlt : t.time < g.time :=
        (h1 g ((mem_interleaving h).2 (.inr (by simp)))).2 (ht t (by simp)) (hg g (by simp))
      rw [loopOrder, if_pos hlt, e]
  | @right g ts gs es h ih =>
    intro hp
    obtain ⟨h1, h2⟩ := List.pairwise_cons.1 hp
    have e := ih ht (fun x hx => hg x (by simp [hx])) h2
    cases ts with
    | nil => rw [loopOrder, interleaving_nil_left h]
    | cons t ts =>
      have hle : g.time ≤ t.time := (h1 t ((mem_interleaving h).2 (.inl (by simp)))).1
      rw [loopOrder, if_neg (by omega), e]

/-- **C157 (iteration, partial)** without filters, `k` calls deliver the first `k` events of the replay in loop order, each
in the state the earlier ones leave, and then nothing.  Missing: game loops above `2^24`. -/
theorem C157_delivered_partial (bld : Build) (version : Nat) (s : SState) (titems : List (Int × Val))
    (gitems : List (Int × Int × Val)) (trk game : List UInt8) (ht : Stream (TrackerWire bld) titems trk)
    (hutf : ∀ p ∈ titems, convTracker p.2 ≠ .err .utf8) (hg : Stream (TripletWire bld (gameEventTy version)) gitems game)
    (hb : ∀ g ∈ gameTimeline gitems, g.1 ≤ 2 ^ 24) (rs : List (Res (Option Item))) (m : MState)
    (hc : Calls (mnext bld version) (MState.new s trk game none) rs m) (hok : ∀ r ∈ rs, ∃ x, r = .ok x) :
    let es := loopOrder ((trackerTimeline titems).map trackerSEvent) ((gameTimeline gitems).map (gameSEvent s))
    ∃ items, runItems bld s (es.take rs.length) = .ok (items, m.sc2) ∧
      rs = items.map (fun it => .ok (some it)) ++ List.replicate (rs.length - es.length) (.ok none) := by
  have h := merged_exact bld version s titems gitems trk game ht hutf hg rs m hc hok
  rwa [mergeEvents_loopOrder _ _ _ (fun g h => ⟨(gameTimeline_sorted hg).2 g h, hb g h⟩)] at h

theorem collectRows_exact {ρ : Type} {rows : Item → List ρ} {f : SState → SEvent → List ρ} {bld : Build}
    (hf : ∀ s e s' it, transition bld s e = .ok (s', it) → rows it = f s e)
    {version n : Nat} {s : SState} {titems : List (Int × Val)} {gitems : List (Int × Int × Val)}
    {trk game : List UInt8} (ht : Stream (TrackerWire bld) titems trk) (hutf : ∀ p ∈ titems, convTracker p.2 ≠ .err .utf8)
    (hg : Stream (TripletWire bld (gameEventTy version)) gitems game) {out : List ρ}
    (h : collectRows rows bld version n (MState.new s trk game none) = some (.ok out)) :
    out = rowsAlong bld f s (mergeEvents s (trackerTimeline titems) (gameTimeline gitems)) := by
  unfold collectRows at h
  split at h
  · rename_i its hc
    simp only [Option.some.injEq, Res.ok.injEq] at h
    obtain ⟨s2, hr⟩ := collect_exact ht hutf hg hc
    rw [← h, runItems_rows hf hr]
  · cases h
  · cases h
  · cases h

/-- **C157 (units, partial)** the unit table of a replay has the rows of its events processed in loop order. -/
theorem C157_unit_table_partial (fsId : Nat) (bld : Build) (version n : Nat) (s : SState) (titems : List (Int × Val))
    (gitems : List (Int × Int × Val)) (trk game : List UInt8) (ht : Stream (TrackerWire bld) titems trk)
    (hutf : ∀ p ∈ titems, convTracker p.2 ≠ .err .utf8) (hg : Stream (TripletWire bld (gameEventTy version)) gitems game)
    (hb : ∀ g ∈ gameTimeline gitems, g.1 ≤ 2 ^ 24)
    (rows : List BornRow) (h : collectBorn fsId bld version n (MState.new s trk game none) = some (.ok rows)) :
    rows = rowsAlong bld (bornRows fsId) s
      (loopOrder ((trackerTimeline titems).map trackerSEvent) ((gameTimeline gitems).map (gameSEvent s))) := by
  have h := collectRows_exact (fun s e s' it => born_item fsId s e s' it) ht hutf hg h
  rwa [mergeEvents_loopOrder _ _ _ (fun g h => ⟨(gameTimeline_sorted hg).2 g h, hb g h⟩)] at h

/-- **C157 (deaths, partial)** so has the death table. -/
theorem C157_death_table_partial (fsId : Nat) (bld : Build) (version n : Nat) (s : SState) (titems : List (Int × Val))
    (gitems : List (Int × Int × Val)) (trk game : List UInt8) (ht : Stream (TrackerWire bld) titems trk)
    (hutf : ∀ p ∈ titems, convTracker p.2 ≠ .err .utf8) (hg : Stream (TripletWire bld (gameEventTy version)) gitems game)
    (hb : ∀ g ∈ gameTimeline gitems, g.1 ≤ 2 ^ 24)
    (rows : List DiedRow) (h : collectDied fsId bld version n (MState.new s trk game none) = some (.ok rows)) :
    rows = rowsAlong bld (diedRows fsId) s
      (loopOrder ((trackerTimeline titems).map trackerSEvent) ((gameTimeline gitems).map (gameSEvent s))) := by
  have h := collectRows_exact (fun s e s' it => died_item fsId s e s' it) ht hutf hg h
  rwa [mergeEvents_loopOrder _ _ _ (fun g h => ⟨(gameTimeline_sorted hg).2 g h, hb g h⟩)] at h

/-- **C157 (commands at points, partial)** … -/
theorem C157_point_table_partial (fsId : Nat) (bld : Build) (version n : Nat) (s : SState) (titems : List (Int × Val))
    (gitems : List (Int × Int × Val)) (trk game : List UInt8) (ht : Stream (TrackerWire bld) titems trk)
    (hutf : ∀ p ∈ titems, convTracker p.2 ≠ .err .utf8) (hg : Stream (TripletWire bld (gameEventTy version)) gitems game)
    (hb : ∀ g ∈ gameTimeline gitems, g.1 ≤ 2 ^ 24)
    (rows : List CmdPointRow) (h : collectCmdPoints fsId bld version n (MState.new s trk game none) = some (.ok rows)) :
    rows = rowsAlong bld (cmdPointRows fsId lastAbility) s
      (loopOrder ((trackerTimeline titems).map trackerSEvent) ((gameTimeline gitems).map (gameSEvent s))) := by
  have h := collectRows_exact (fun s e s' it => cmdPoint_item fsId s e s' it) ht hutf hg h
  rwa [mergeEvents_loopOrder _ _ _ (fun g h => ⟨(gameTimeline_sorted hg).2 g h, hb g h⟩)] at h

/-- **C157 (commands at units, partial)** … and the two command tables. -/
theorem C157_target_table_partial (fsId : Nat) (bld : Build) (version n : Nat) (s : SState) (titems : List (Int × Val))
    (gitems : List (Int × Int × Val)) (trk game : List UInt8) (ht : Stream (TrackerWire bld) titems trk)
    (hutf : ∀ p ∈ titems, convTracker p.2 ≠ .err .utf8) (hg : Stream (TripletWire bld (gameEventTy version)) gitems game)
    (hb : ∀ g ∈ gameTimeline gitems, g.1 ≤ 2 ^ 24)
    (rows : List CmdUnitRow) (h : collectCmdUnits fsId bld version n (MState.new s trk game none) = some (.ok rows)) :
    rows = rowsAlong bld (cmdUnitRows fsId lastAbility wholeTagName) s
      (loopOrder ((trackerTimeline titems).map trackerSEvent) ((gameTimeline gitems).map (gameSEvent s))) := by
  have h := collectRows_exact (fun s e s' it => cmdUnit_item fsId s e s' it) ht hutf hg h
  rwa [mergeEvents_loopOrder _ _ _ (fun g h => ⟨(gameTimeline_sorted hg).2 g h, hb g h⟩)] at h

/-- **C157 (same events, same tables)** two replays whose sectors hold the same known events at the same loops - whatever their
bytes, their protocol versions, and the events in between that the library does not know - give the same table, for each of
the tables (`rows` is what a table takes from one delivered event).  This needs no bound on the loops. -/
theorem C157_same_events {ρ : Type} (rows : Item → List ρ) (bld : Build) (v v' n n' : Nat) (s : SState)
    (titems titems' : List (Int × Val)) (gitems gitems' : List (Int × Int × Val)) (trk trk' game game' : List UInt8)
    (ht : Stream (TrackerWire bld) titems trk) (hutf : ∀ p ∈ titems, convTracker p.2 ≠ .err .utf8)
    (hg : Stream (TripletWire bld (gameEventTy v)) gitems game)
    (ht' : Stream (TrackerWire bld) titems' trk') (hutf' : ∀ p ∈ titems', convTracker p.2 ≠ .err .utf8)
    (hg' : Stream (TripletWire bld (gameEventTy v')) gitems' game')
    (hT : trackerTimeline titems = trackerTimeline titems') (hG : gameTimeline gitems = gameTimeline gitems')
    (out out' : List ρ) (h : collectRows rows bld v n (MState.new s trk game none) = some (.ok out))
    (h' : collectRows rows bld v' n' (MState.new s trk' game' none) = some (.ok out')) : out = out' := by
  unfold collectRows at h h'
  split at h
  · rename_i its hc
    split at h'
    · rename_i its' hc'
      simp only [Option.some.injEq, Res.ok.injEq] at h h'
      obtain ⟨s2, hr⟩ := collect_exact ht hutf hg hc
      obtain ⟨s2', hr'⟩ := collect_exact ht' hutf' hg' hc'
      rw [← hT, ← hG, hr] at hr'
      cases hr'
      rw [← h, ← h']
    · cases h'
    · cases h'
    · cases h'
  · cases h
  · cases h
  · cases h

/-! ### Beyond `2^24` loops -/

/-- In loop `2^24` the SCV of `wScv` is born. -/
def wTrackLate : List UInt8 := wLate ++ wScv
def vScv : Int × Val := (0, .choice 1 (.struct [.int 1, .int 1, .bytes (str "SCV"), .int 1, .int 1, .int 10, .int 20, .none, .none, .none]))
/-- In loop `2^24 + 1` user 0 selects it (and a unit that does not exist) and orders it to a point. -/
def wSelectNow : List UInt8 := 0 :: wSelectBoth.drop 1
def vSelectNow : Int × Int × Val :=
  (0, 0, .choice 28 (.struct [.int 10, .struct [.int 0, .choice 0 .unit, .list [], .list [.int 262145, .int 524289]]]))
def vOrderPoint : Int × Int × Val :=
  (0, 0, .choice 27 (.struct [.int 0, .some (.struct [.int 3, .int 1, .none]), .choice 1 (.struct [.int 4096, .int 8192, .int 0]), .int 7, .none, .none]))
def wGameLate : List UInt8 := wCameraLate ++ (wSelectNow ++ wOrderPoint)

theorem vScv_wire (bld : Build) : TrackerWire bld vScv wScv := by
  have h : parsePair bld wScv = .ok ([], vScv) := by cases bld <;> decide +kernel
  obtain ⟨u, h1, h2⟩ := (parsePair_iff ..).1 h
  simp at h1
  exact h1 ▸ h2

theorem vOrderPoint_wire (bld : Build) : TripletWire bld (gameEventTy 90000) vOrderPoint wOrderPoint :=
  tripletWire_of_parse (gameEventTy_wf _) (by cases bld <;> decide +kernel)

theorem late_streams (bld : Build) : Stream (TrackerWire bld) [vLate, vScv] wTrackLate ∧
    (∀ p ∈ [vLate, vScv], convTracker p.2 ≠ .err .utf8) ∧
    Stream (TripletWire bld (gameEventTy 90000)) [vCameraLate, vSelectNow, vOrderPoint] wGameLate :=
  ⟨⟨_, _, rfl, wLate_wire bld, _, [], by simp, vScv_wire bld, rfl⟩, by decide +kernel,
   ⟨_, _, rfl, wCameraLate_wire bld, wSelectNow, wOrderPoint, rfl,
    tripletWire_of_parse (gameEventTy_wf _) (by cases bld <;> decide +kernel), wOrderPoint, [], by simp,
    vOrderPoint_wire bld, rfl⟩⟩

/-- **C157 (refuted)** with loops above `2^24` the tables are not computed in loop order: an SCV is born in loop `2^24` and
ordered about in loop `2^24 + 1`; the command table is empty because the command is processed before the birth. -/
theorem C157_point_table_refuted : ¬ ∀ (fsId : Nat) (bld : Build) (version n : Nat) (s : SState) (titems : List (Int × Val))
    (gitems : List (Int × Int × Val)) (trk game : List UInt8), Stream (TrackerWire bld) titems trk →
    (∀ p ∈ titems, convTracker p.2 ≠ .err .utf8) → Stream (TripletWire bld (gameEventTy version)) gitems game →
    ∀ rows : List CmdPointRow, collectCmdPoints fsId bld version n (MState.new s trk game none) = some (.ok rows) →
    rows = rowsAlong bld (cmdPointRows fsId lastAbility) s
      (loopOrder ((trackerTimeline titems).map trackerSEvent) ((gameTimeline gitems).map (gameSEvent s))) := by
  intro h
  obtain ⟨h1, h2, h3⟩ := late_streams .release
  have e := h 7 .release 90000 100 rowsState _ _ _ _ h1 h2 h3 [] (by decide +kernel)
  have e' := congrArg List.length e
  revert e'
  decide +kernel

/-! ### A concrete file -/

/-- The hypotheses are met by a small file: an SCV is born in loop 0, selected in loop 5 and ordered to a point; the tables
have one row each, and in the loop order the birth comes first. -/
example (bld : Build) :
    Stream (TrackerWire bld) [vScv] wScv ∧ (∀ p ∈ [vScv], convTracker p.2 ≠ .err .utf8) ∧
    Stream (TripletWire bld (gameEventTy 90000)) [(5, vSelectNow.2), vOrderPoint] (wSelectBoth ++ wOrderPoint) ∧
    (∀ g ∈ gameTimeline [(5, vSelectNow.2), vOrderPoint], g.1 ≤ 2 ^ 24) ∧
    (loopOrder ((trackerTimeline [vScv]).map trackerSEvent)
      ((gameTimeline [(5, vSelectNow.2), vOrderPoint]).map (gameSEvent rowsState))).map (fun e => (e.time, e.isTracker)) =
      [(0, true), (5, false), (5, false)] ∧
    (match collectCmdPoints 7 bld 90000 100 (MState.new rowsState wScv (wSelectBoth ++ wOrderPoint) none) with
      | some (.ok rows) => some (rows.map (·.unitName))
      | _ => none) = some [str "SCV"] := by
  refine ⟨⟨_, [], by simp, vScv_wire bld, rfl⟩, by decide +kernel, ⟨wSelectBoth, wOrderPoint, rfl,
    tripletWire_of_parse (gameEventTy_wf _) (by cases bld <;> decide +kernel), wOrderPoint, [], by simp,
    vOrderPoint_wire bld, rfl⟩, by decide +kernel, by decide +kernel, ?_⟩
  cases bld <;> decide +kernel

/-- Two different game sectors with the same known events: in the second one the five loops belong to an event before it
which the library does not know (`wOther`). -/
example (bld : Build) : Stream (TripletWire bld (gameEventTy 90000)) [vOther, vSelectNow, vOrderPoint] (wOther ++ (wSelectNow ++ wOrderPoint)) ∧
    gameTimeline [(5, vSelectNow.2), vOrderPoint] = gameTimeline [vOther, vSelectNow, vOrderPoint] := by
  refine ⟨⟨wOther, _, rfl, tripletWire_of_parse (gameEventTy_wf _) (by cases bld <;> decide +kernel), wSelectNow, wOrderPoint, rfl,
    tripletWire_of_parse (gameEventTy_wf _) (by cases bld <;> decide +kernel), wOrderPoint, [], by simp,
    vOrderPoint_wire bld, rfl⟩, ?_⟩
  decide +kernel

/-- **C36 (unreadable names, refuted)** also with small loops: after a unit name that is not UTF-8 the game event of loop 20 is
delivered before the tracker event of loop 12. -/
theorem C36_bad_name_refuted (bld : Build) :
    ∃ rs m, Calls (mnext bld 90000) (MState.new demoState (wBadName ++ wDone) (0x50 :: wCamera.drop 1) none) rs m ∧
      (∀ r ∈ rs, ∃ x, r = .ok x) ∧
      (rs.flatMap yielded).map (fun it => (it.event.time, it.event.isTracker)) = [(20, false), (12, true)] := by
  have hd : (delivers bld demoState (wBadName ++ wDone) (0x50 :: wCamera.drop 1) none 3).map (List.map (fun e => (e.time, e.isTracker))) =
      some [(20, false), (12, true)] := by cases bld <;> decide +kernel
  obtain ⟨es, h1, h2⟩ := Option.map_eq_some_iff.1 hd
  obtain ⟨rs, m, h3, h4, h5⟩ := delivers_calls h1
  refine ⟨rs, m, h3, h4, ?_⟩
  rw [← h2, ← h5, List.map_map]
  rfl

end S2
