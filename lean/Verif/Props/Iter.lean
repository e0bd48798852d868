import Verif.Props.Events
/-!
# Event lists versus lazy iterators (C30 examples, C31–C34)

`trackerTimeline items` is the specification: every event of the stream stamped with the sum of the
deltas of ALL stream events up to and including it, then reduced to the supported ones.
-/
namespace S2

/-- The supported tracker events of a stream, each with its true game loop. -/
def trackerTimeline (items : List (Int × Val)) : List (Int × TrackerEvt) :=
  (stamped Prod.fst items).filterMap (fun p => (convTracker p.2.2).toOpt.map (fun e => (p.1, e)))

/-- The supported game events of a stream: game loop, user id, event. -/
def gameTimeline (items : List (Int × Int × Val)) : List (Int × (Int × GameEvt)) :=
  (stamped Prod.fst items).filterMap (fun p => (convGame p.2.2.2).toOpt.map (fun e => (p.1, (p.2.2.1, e))))

/-! ## Concrete game and message streams -/

/-- A camera update of user 3, 5 loops after the previous event. -/
def wCamera : List UInt8 := [0x14, 0x63, 1, 0x12]
def vCamera : Int × Int × Val := (5, 3, .choice 49 (.struct [.none, .none, .none, .none, .none, .bool true]))

/-- An event of a kind the library does not support (tag 17), delta 5, user 3. -/
def wOther : List UInt8 := [0x14, 0x23, 1]
def vOther : Int × Int × Val := (5, 3, .choice 17 (.struct []))

/-- The chat message "hi" of user 3 to everybody. -/
def wChat : List UInt8 := [0x14, 3, 0, 2, 104, 105]
def vChat : Int × Int × Val := (5, 3, .choice 0 (.struct [.choice 0 .unit, .bytes [104, 105]]))

/-- A message that is no chat. -/
def wLoading : List UInt8 := [0x14, 0x23, 1]
def vLoading : Int × Int × Val := (5, 3, .choice 3 (.struct []))

theorem tripletWire_of_parse {bld : Build} {ty : BTy} (hwf : ty.wf = true) {data : List UInt8} {v : Int × Int × Val}
    (h : parseTriplet bld ty ⟨data, 0⟩ = .ok (⟨[], 0⟩, v)) : TripletWire bld ty v data := by
  obtain ⟨u, r, h1, h2, h3⟩ := (parseTriplet_iff bld ty hwf data ⟨[], 0⟩ v).1 h
  simp only [Cur.mk.injEq, and_true] at h2
  subst h2
  simp at h1; exact h1 ▸ h3

theorem wCamera_wire (bld : Build) : TripletWire bld (gameEventTy 90000) vCamera wCamera :=
  tripletWire_of_parse (gameEventTy_wf _) (by cases bld <;> decide +kernel)

theorem wOther_wire (bld : Build) : TripletWire bld (gameEventTy 90000) vOther wOther :=
  tripletWire_of_parse (gameEventTy_wf _) (by cases bld <;> decide +kernel)

theorem wChat_wire (bld : Build) : TripletWire bld P87702.BitPacked.GameEMessageId vChat wChat :=
  tripletWire_of_parse (by decide +kernel) (by cases bld <;> decide +kernel)

theorem wLoading_wire (bld : Build) : TripletWire bld P87702.BitPacked.GameEMessageId vLoading wLoading :=
  tripletWire_of_parse (by decide +kernel) (by cases bld <;> decide +kernel)

theorem demo_game_stream (bld : Build) : Stream (TripletWire bld (gameEventTy 90000)) [vCamera, vOther, vCamera]
    (wCamera ++ (wOther ++ wCamera)) :=
  ⟨_, _, rfl, wCamera_wire bld, _, _, rfl, wOther_wire bld, _, [], by simp, wCamera_wire bld, rfl⟩

theorem demo_message_stream (bld : Build) : Stream (TripletWire bld P87702.BitPacked.GameEMessageId)
    [vChat, vLoading, vChat] (wChat ++ (wLoading ++ wChat)) :=
  ⟨_, _, rfl, wChat_wire bld, _, _, rfl, wLoading_wire bld, _, [], by simp, wChat_wire bld, rfl⟩

example (bld : Build) : readGameEvents bld 90000 100 (wCamera ++ (wOther ++ wCamera)) =
    some (.ok [(5, 3, .cameraUpdate none ⟨none, none, none, none, true⟩),
      (5, 3, .cameraUpdate none ⟨none, none, none, none, true⟩)]) := by
  rw [C30_game_stream bld 90000 _ _ 100 (by simp) (demo_game_stream bld) (by decide)]
  decide +kernel

example (bld : Build) : readMessageEvents bld 100 (wChat ++ (wLoading ++ wChat)) =
    some (.ok [(5, 3, ⟨0, [104, 105]⟩), (5, 3, ⟨0, [104, 105]⟩)]) := by
  rw [C30_message_stream bld _ _ 100 (by simp) (demo_message_stream bld) (by decide)]
  decide +kernel

example : ∃ e, readGameEvents .debug 90000 100 (wCamera ++ [0x14]) = some (.err e) :=
  C30_game_malformed .debug 90000 [vCamera] wCamera [0x14] 100 ⟨_, [], by simp, wCamera_wire _, rfl⟩ (.inr (by simp))
    (by
      intro a u r h hw
      have := (parseTriplet_iff .debug _ (gameEventTy_wf 90000) [0x14] ⟨r, 0⟩ a).2 ⟨u, r, h, rfl, hw⟩
      rw [show parseTriplet .debug (gameEventTy 90000) ⟨[0x14], 0⟩ = .err .eof by decide +kernel] at this
      cases this) (by decide)

/-- A message is missing from the list iff it is no chat message, or its text is not UTF-8. -/
theorem C30_message_skips (bld : Build) (p : Int × Int × Val) (u : List UInt8)
    (h : TripletWire bld P87702.BitPacked.GameEMessageId p u) :
    messageOf p = none ↔ ¬ ∃ r w text, p.2.2 = .choice 0 (.struct [.choice r w, .bytes text]) ∧ utf8Ok text = true := by
  have hp := TripletWire_message_shape h
  unfold messageOf
  constructor
  · rintro hn ⟨r, w, text, e, hu⟩
    rw [e] at hn
    simp [convMessage, fromUtf8, hu, Res.toOpt] at hn
  · intro hne
    cases hc : convMessage p.2.2 with
    | ok x =>
      exfalso; apply hne
      unfold convMessage at hc
      split at hc
      · rename_i tag v heq
        split at hc
        · subst tag
          split at hc
          · rename_i r w s
            obtain ⟨s', h1, _⟩ := Res.bind_eq_ok.1 hc
            refine ⟨r, w, s, heq, ?_⟩
            unfold fromUtf8 at h1
            split at h1
            · assumption
            · cases h1
          · cases hc
        · cases hc
      · cases hc
    | err e => rfl
    | panic => exact absurd hc hp

/-! ## C31: accumulating the deltas of the event list -/

theorem stamped_map_filter {α β : Type} (delta : α → Int) (delta' : β → Int) (f : α → Option β) (items : List α)
    (hf : ∀ a ∈ items, ∃ b, f a = some b ∧ delta' b = delta a) :
    stamped delta' (items.filterMap f) = (stamped delta items).filterMap (fun p => (f p.2).map (fun b => (p.1, b))) := by
  rw [stamped_eq, stamped_eq]
  have gen : ∀ (items : List α) (l : Int), (∀ a ∈ items, ∃ b, f a = some b ∧ delta' b = delta a) →
      withLoops delta' l (items.filterMap f) =
        (withLoops delta l items).filterMap (fun p => (f p.2).map (fun b => (p.1, b))) := by
    intro items
    induction items with
    | nil => intros; rfl
    | cons a items ih =>
      intro l h
      obtain ⟨b, hb, hd⟩ := h a (by simp)
      simp only [List.filterMap_cons, hb, withLoops, Option.map_some, hd]
      rw [ih _ (fun x hx => h x (by simp [hx]))]
  exact gen items 0 hf

/-- If no event of the sector has to be skipped (no name outside UTF-8), accumulating the deltas of the
returned tracker list gives every event its true game loop.  Missing from the full claim: sectors with a
skipped event, where it is false (`C31_tracker_list_refuted`). -/
theorem C31_tracker_list_partial (bld : Build) (items : List (Int × Val)) (data : List UInt8) (n : Nat)
    (out : List (Int × TrackerEvt)) (hs : Stream (TrackerWire bld) items data)
    (hall : ∀ p ∈ items, trackerOf p ≠ none) (hn : data.length < n)
    (h : readTrackerEvents bld n data = some (.ok out)) :
    (stamped Prod.fst out).map (fun p => (p.1, p.2.2)) = trackerTimeline items := by
  have hne : items ≠ [] := by
    rintro rfl
    have hd : data = [] := hs
    subst hd
    obtain ⟨items, h1, h2, _⟩ := C29_tracker_only_streams bld [] n out h
    have := Stream_length (fun _ _ => TrackerWire_ne_nil) _ _ h2
    cases items <;> simp_all
  rw [C29_tracker_stream bld items data n hne hs hn] at h
  simp only [Option.some.injEq, Res.ok.injEq] at h
  subst h
  rw [stamped_map_filter Prod.fst Prod.fst trackerOf items]
  · rw [List.map_filterMap]; unfold trackerTimeline trackerOf
    congr 1; funext p
    cases convTracker p.2.2 <;> rfl
  · intro a ha
    have := hall a ha
    unfold trackerOf at this ⊢
    cases hc : convTracker a.2 with
    | ok e => exact ⟨_, rfl, rfl⟩
    | err e => rw [hc] at this; exact absurd rfl this
    | panic => rw [hc] at this; exact absurd rfl this

/-- Likewise for game events, provided all of them are of supported kinds. -/
theorem C31_game_list_partial (bld : Build) (version : Nat) (items : List (Int × Int × Val)) (data : List UInt8) (n : Nat)
    (out : List (Int × Int × GameEvt)) (hs : Stream (TripletWire bld (gameEventTy version)) items data)
    (hall : ∀ p ∈ items, gameOf p ≠ none) (hn : data.length < n)
    (h : readGameEvents bld version n data = some (.ok out)) :
    (stamped Prod.fst out).map (fun p => (p.1, p.2.2)) = gameTimeline items := by
  have hne : items ≠ [] := by
    rintro rfl
    have hd : data = [] := hs
    subst hd
    obtain ⟨items, h1, h2, _⟩ := C30_game_only_streams bld version [] n out h
    have := Stream_length (fun _ _ => TripletWire_ne_nil) _ _ h2
    cases items <;> simp_all
  rw [C30_game_stream bld version items data n hne hs hn] at h
  simp only [Option.some.injEq, Res.ok.injEq] at h
  subst h
  rw [stamped_map_filter Prod.fst Prod.fst gameOf items]
  · rw [List.map_filterMap]; unfold gameTimeline gameOf
    congr 1; funext p
    cases convGame p.2.2.2 <;> rfl
  · intro a ha
    have := hall a ha
    unfold gameOf at this ⊢
    cases hc : convGame a.2.2 with
    | ok e => exact ⟨_, rfl, rfl⟩
    | err e => rw [hc] at this; exact absurd rfl this
    | panic => rw [hc] at this; exact absurd rfl this

/-- The full claim is false: a skipped event takes its delta with it.  Stream: unit done (+5), a type
change with a non-UTF-8 name (+7), unit done (+5).  The second unit is done at loop 17; the list says 10. -/
theorem C31_tracker_list_refuted (bld : Build) :
    ∃ items data out, Stream (TrackerWire bld) items data ∧ readTrackerEvents bld 100 data = some (.ok out) ∧
      (stamped Prod.fst out).map (fun p => (p.1, p.2.2)) = [(5, .unitDone ⟨1, 2⟩), (10, .unitDone ⟨1, 2⟩)] ∧
      trackerTimeline items = [(5, .unitDone ⟨1, 2⟩), (17, .unitDone ⟨1, 2⟩)] :=
  ⟨_, _, _, demo_stream bld, C29_tracker_stream bld _ _ 100 (by simp) (demo_stream bld) (by decide),
    by decide +kernel, by decide +kernel⟩

/-- The same for game events, where skipped kinds are frequent: camera updates at loops 5 and 15, listed
at 5 and 10. -/
theorem C31_game_list_refuted (bld : Build) :
    ∃ items data out, Stream (TripletWire bld (gameEventTy 90000)) items data ∧
      readGameEvents bld 90000 100 data = some (.ok out) ∧
      (stamped Prod.fst out).map Prod.fst = [5, 10] ∧ (gameTimeline items).map Prod.fst = [5, 15] :=
  ⟨_, _, _, demo_game_stream bld, C30_game_stream bld 90000 _ _ 100 (by simp) (demo_game_stream bld) (by decide),
    by decide +kernel, by decide +kernel⟩

example (bld : Build) : (stamped Prod.fst [(5, TrackerEvt.unitDone ⟨1, 2⟩), (5, .unitDone ⟨1, 2⟩)]).map (fun p => (p.1, p.2.2)) =
    trackerTimeline [vDone, vDone] :=
  C31_tracker_list_partial bld [vDone, vDone] (wDone ++ wDone) 100 _
    ⟨_, _, rfl, wDone_wire bld, _, [], by simp, wDone_wire bld, rfl⟩ (by decide +kernel) (by decide)
    (by cases bld <;> decide +kernel)

/-! ## C32: iterator loops -/

theorem iter_new_slice (data : List UInt8) : (IterState.new data).slice = data := by
  simp [IterState.new, IterState.slice]

/-- Whatever the bytes and however often the tracker iterator is called: it has consumed a whole number
of events from the front of the data, and yielded the supported ones among them with their true loops. -/
theorem C32_tracker_loops (bld : Build) (data : List UInt8) (rs : List (Res (Option (Int × TrackerEvt)))) (st : IterState)
    (h : Calls (trackerNext bld) (IterState.new data) rs st) :
    ∃ items d rest, data = d ++ rest ∧ Stream (TrackerWire bld) items d ∧
      st.byteIndex = d.length ∧ st.eventLoop = (items.map Prod.fst).sum ∧
      rs.flatMap yielded = trackerTimeline items := by
  obtain ⟨items, d, rest, h1, h2, h3, h4⟩ := (trackerIterSpec bld).calls_spec h rfl
  rw [iter_new_slice] at h1
  refine ⟨items, d, rest, h1, h2, by rw [h3]; simp [IterState.adv, IterState.new],
    by rw [h3]; simp [IterState.adv, IterState.new, sumDelta], ?_⟩
  rw [h4]; exact loopOut_eq _ _ items

/-- The same for the game iterator; each event also carries its user id. -/
theorem C32_game_loops (bld : Build) (version : Nat) (data : List UInt8)
    (rs : List (Res (Option (Int × (Int × GameEvt))))) (st : IterState)
    (h : Calls (gameNext bld version) (IterState.new data) rs st) :
    ∃ items d rest, data = d ++ rest ∧ Stream (TripletWire bld (gameEventTy version)) items d ∧
      st.byteIndex = d.length ∧ st.bitIndex = 0 ∧ st.eventLoop = (items.map Prod.fst).sum ∧
      rs.flatMap yielded = gameTimeline items := by
  obtain ⟨items, d, rest, h1, h2, h3, h4⟩ := (gameIterSpec bld version).calls_spec h rfl
  rw [iter_new_slice] at h1
  refine ⟨items, d, rest, h1, h2, by rw [h3]; simp [IterState.adv, IterState.new],
    by rw [h3]; rfl, by rw [h3]; simp [IterState.adv, IterState.new, sumDelta], ?_⟩
  rw [h4]
  have := loopOut_eq (fun p : Int × Int × Val => (do let e ← convGame p.2.2; pure (p.2.1, e) : Res (Int × GameEvt))) Prod.fst items
  refine this.trans ?_
  unfold gameTimeline
  congr 1; funext p
  cases convGame p.2.2.2 <;> rfl

theorem timeline_sorted {α β : Type} (delta : α → Int) (f : Int × α → Option (Int × β)) (hf : ∀ p q, f p = some q → q.1 = p.1)
    (items : List α) (h : ∀ a ∈ items, 0 ≤ delta a) :
    ((stamped delta items).filterMap f).Pairwise (fun p q => p.1 ≤ q.1) := by
  rw [stamped_eq]
  refine List.Pairwise.filterMap (R := fun p q : Int × α => p.1 ≤ q.1) f ?_ (withLoops_sorted delta items 0 h).1
  intro a a' haa b hb b' hb'
  rw [hf _ _ hb, hf _ _ hb']; exact haa

/-- Loops of successively yielded events never decrease. -/
theorem C32_tracker_monotone (bld : Build) (data : List UInt8) (rs : List (Res (Option (Int × TrackerEvt)))) (st : IterState)
    (h : Calls (trackerNext bld) (IterState.new data) rs st) :
    (rs.flatMap yielded).Pairwise (fun p q => p.1 ≤ q.1) := by
  obtain ⟨items, d, rest, _, h2, _, _, h5⟩ := C32_tracker_loops bld data rs st h
  rw [h5]
  refine timeline_sorted _ _ ?_ items (fun a ha => (stream_forall (P := fun a : Int × Val => 0 ≤ a.1 ∧ a.1 < 2 ^ 32) (fun _ _ h => TrackerWire_delta h) items d h2 a ha).1)
  intro p q hq
  cases hc : convTracker p.2.2 <;> rw [hc] at hq <;> simp [Res.toOpt] at hq
  rw [← hq]

theorem C32_game_monotone (bld : Build) (version : Nat) (data : List UInt8)
    (rs : List (Res (Option (Int × (Int × GameEvt))))) (st : IterState)
    (h : Calls (gameNext bld version) (IterState.new data) rs st) :
    (rs.flatMap yielded).Pairwise (fun p q => p.1 ≤ q.1) := by
  obtain ⟨items, d, rest, _, h2, _, _, _, h5⟩ := C32_game_loops bld version data rs st h
  rw [h5]
  refine timeline_sorted _ _ ?_ items (fun a ha => (stream_forall (P := fun a : Int × Int × Val => 0 ≤ a.1 ∧ a.1 < 2 ^ 32) (fun _ _ h => TripletWire_delta h) items d h2 a ha).1)
  intro p q hq
  cases hc : convGame p.2.2.2 <;> rw [hc] at hq <;> simp [Res.toOpt] at hq
  rw [← hq]

/-- The accumulated loop stays within `(2^32-1)` per byte of data, so the `i64` counter cannot overflow
for any data that fits in memory (fewer than 2^31 bytes). -/
theorem C32_loop_bound (bld : Build) (data : List UInt8) (rs : List (Res (Option (Int × TrackerEvt)))) (st : IterState)
    (h : Calls (trackerNext bld) (IterState.new data) rs st) (hd : data.length < 2 ^ 31) :
    0 ≤ st.eventLoop ∧ st.eventLoop < 2 ^ 63 := by
  obtain ⟨items, d, rest, h1, h2, _, h4, _⟩ := C32_tracker_loops bld data rs st h
  have := sumDelta_le (delta := Prod.fst) (fun _ _ h => TrackerWire_ne_nil h) (fun _ _ h => TrackerWire_delta h) items d h2
  rw [h1, List.length_append] at hd
  rw [h4]; unfold sumDelta at this
  omega

theorem C32_game_loop_bound (bld : Build) (version : Nat) (data : List UInt8)
    (rs : List (Res (Option (Int × (Int × GameEvt))))) (st : IterState)
    (h : Calls (gameNext bld version) (IterState.new data) rs st) (hd : data.length < 2 ^ 31) :
    0 ≤ st.eventLoop ∧ st.eventLoop < 2 ^ 63 := by
  obtain ⟨items, d, rest, h1, h2, _, _, h4, _⟩ := C32_game_loops bld version data rs st h
  have := sumDelta_le (delta := Prod.fst) (fun _ _ h => TripletWire_ne_nil h) (fun _ _ h => TripletWire_delta h) items d h2
  rw [h1, List.length_append] at hd
  rw [h4]; unfold sumDelta at this
  omega

/-- A run of five calls over the tracker demo stream: a yield, the `None` caused by the bad name, another
yield (at the true loop 17), then the end. -/
theorem demo_tracker_calls (bld : Build) : ∃ st, Calls (trackerNext bld) (IterState.new (wDone ++ (wBadName ++ wDone)))
    [.ok (some (5, .unitDone ⟨1, 2⟩)), .ok none, .ok (some (17, .unitDone ⟨1, 2⟩)), .ok none] st := by
  refine ⟨⟨wDone ++ (wBadName ++ wDone), 17, 46, 0⟩, ?_⟩
  refine .cons (n := 50) (st1 := ⟨wDone ++ (wBadName ++ wDone), 5, 14, 0⟩) (by cases bld <;> decide +kernel) ?_
  refine .cons (n := 50) (st1 := ⟨wDone ++ (wBadName ++ wDone), 12, 32, 0⟩) (by cases bld <;> decide +kernel) ?_
  refine .cons (n := 50) (st1 := ⟨wDone ++ (wBadName ++ wDone), 17, 46, 0⟩) (by cases bld <;> decide +kernel) ?_
  refine .cons (n := 50) (st1 := ⟨wDone ++ (wBadName ++ wDone), 17, 46, 0⟩) (by cases bld <;> decide +kernel) ?_
  exact .nil _

/-! ## C33: termination, each event once -/

/-- Every call of either iterator returns, whatever the data and however far it has been advanced. -/
theorem C33_tracker_call_terminates (bld : Build) (data : List UInt8) (rs : List (Res (Option (Int × TrackerEvt))))
    (st : IterState) (h : Calls (trackerNext bld) (IterState.new data) rs st) (n : Nat) (hn : data.length < n) :
    ∃ r, trackerNext bld n st = some r := by
  obtain ⟨items, d, rest, h1, h2, h3, _⟩ := (trackerIterSpec bld).calls_spec h rfl
  refine Option.ne_none_iff_exists'.mp ((trackerIterSpec bld).nextLoop_terminates n st (by rw [h3]; rfl) ?_)
  rw [iter_new_slice] at h1
  rw [h3]; simp [IterState.adv, IterState.slice, IterState.new]; omega

theorem C33_game_call_terminates (bld : Build) (version : Nat) (data : List UInt8)
    (rs : List (Res (Option (Int × (Int × GameEvt))))) (st : IterState)
    (h : Calls (gameNext bld version) (IterState.new data) rs st) (n : Nat) (hn : data.length < n) :
    ∃ r, gameNext bld version n st = some r := by
  obtain ⟨items, d, rest, h1, h2, h3, _⟩ := (gameIterSpec bld version).calls_spec h rfl
  refine Option.ne_none_iff_exists'.mp ((gameIterSpec bld version).nextLoop_terminates n st (by rw [h3]; rfl) ?_)
  rw [h3]; simp [IterState.adv, IterState.slice, IterState.new]; omega

/-- Over a well-formed game sector `k` successive calls return the first `k` supported events in order,
each once, and `None` ever after they are used up. -/
theorem C33_game_exact (bld : Build) (version : Nat) (items : List (Int × Int × Val)) (data : List UInt8)
    (rs : List (Res (Option (Int × (Int × GameEvt))))) (st : IterState)
    (hs : Stream (TripletWire bld (gameEventTy version)) items data)
    (h : Calls (gameNext bld version) (IterState.new data) rs st) :
    rs = ((gameTimeline items).map (fun x => Res.ok (some x))).take rs.length ++
      List.replicate (rs.length - (gameTimeline items).length) (Res.ok none) := by
  have heq : loopOut (fun p : Int × Int × Val => (do let e ← convGame p.2.2; pure (p.2.1, e) : Res (Int × GameEvt)))
      Prod.fst 0 items = gameTimeline items := by
    rw [loopOut_eq]
    unfold gameTimeline
    congr 1; funext p
    cases convGame p.2.2.2 <;> rfl
  have := (gameIterSpec bld version).calls_stream h items rfl (by rw [iter_new_slice]; exact hs) (by
    intro a ha
    have hok := stream_forall (P := fun a => Conv.okOr .unsupportedEvent (convGame a.2.2))
      (fun _ _ => TripletWire_game_shape) items data hs a ha
    rcases hok with ⟨x, hx⟩ | hx
    · exact .inl ⟨(a.2.1, x), by simp [hx]⟩
    · exact .inr (by simp [hx]))
  change rs = ((loopOut _ Prod.fst 0 items).map _).take _ ++ List.replicate (_ - (loopOut _ Prod.fst 0 items).length) _ at this
  rw [heq] at this
  exact this

/-- The same for a tracker sector, provided all its names are UTF-8. -/
theorem C33_tracker_exact (bld : Build) (items : List (Int × Val)) (data : List UInt8)
    (rs : List (Res (Option (Int × TrackerEvt)))) (st : IterState)
    (hs : Stream (TrackerWire bld) items data) (hutf : ∀ p ∈ items, convTracker p.2 ≠ .err .utf8)
    (h : Calls (trackerNext bld) (IterState.new data) rs st) :
    rs = ((trackerTimeline items).map (fun x => Res.ok (some x))).take rs.length ++
      List.replicate (rs.length - (trackerTimeline items).length) (Res.ok none) := by
  have heq : loopOut (fun p : Int × Val => convTracker p.2) Prod.fst 0 items = trackerTimeline items := loopOut_eq _ _ items
  have := (trackerIterSpec bld).calls_stream h items rfl (by rw [iter_new_slice]; exact hs) (by
    intro a ha
    rcases stream_forall (P := fun a => Conv.okOr .utf8 (convTracker a.2)) (fun _ _ => TrackerWire_shape) items data hs a ha with hx | hx
    · exact .inl hx
    · exact absurd hx (hutf a ha))
  change rs = ((loopOut _ Prod.fst 0 items).map _).take _ ++ List.replicate (_ - (loopOut _ Prod.fst 0 items).length) _ at this
  rw [heq] at this
  exact this

/-- Whatever the bytes: after more calls than there are events, every further call returns no event. -/
theorem C33_tracker_ends (bld : Build) (data : List UInt8) (rs rs' : List (Res (Option (Int × TrackerEvt))))
    (st st' : IterState) (h : Calls (trackerNext bld) (IterState.new data) rs st) (hlen : data.length < rs.length)
    (h' : Calls (trackerNext bld) st rs' st') : ∀ r ∈ rs', yielded r = [] := by
  obtain ⟨items, d, rest, h1, h2, hor⟩ := (trackerIterSpec bld).calls_exhausted h rfl
  rw [iter_new_slice] at h1
  have hl := Stream_length (fun _ _ => TrackerWire_ne_nil) _ _ h2
  rw [h1, List.length_append] at hlen
  rcases hor with hor | hor
  · omega
  · exact ((trackerIterSpec bld).stuck_calls hor h').2

theorem C33_game_ends (bld : Build) (version : Nat) (data : List UInt8)
    (rs rs' : List (Res (Option (Int × (Int × GameEvt))))) (st st' : IterState)
    (h : Calls (gameNext bld version) (IterState.new data) rs st) (hlen : data.length < rs.length)
    (h' : Calls (gameNext bld version) st rs' st') : ∀ r ∈ rs', yielded r = [] := by
  obtain ⟨items, d, rest, h1, h2, hor⟩ := (gameIterSpec bld version).calls_exhausted h rfl
  rw [iter_new_slice] at h1
  have hl := Stream_length (fun _ _ => TripletWire_ne_nil) _ _ h2
  rw [h1, List.length_append] at hlen
  rcases hor with hor | hor
  · omega
  · exact ((gameIterSpec bld version).stuck_calls hor h').2

example (bld : Build) (st : IterState) (rs : List (Res (Option (Int × (Int × GameEvt)))))
    (h : Calls (gameNext bld 90000) (IterState.new (wCamera ++ (wOther ++ wCamera))) rs st) (h3 : rs.length = 3) :
    rs.map (fun r => (yielded r).map Prod.fst) = [[5], [15], []] := by
  have := C33_game_exact bld 90000 _ _ rs st (demo_game_stream bld) h
  rw [this, h3]; decide +kernel

/-! ## C34: fused after None -/

/-- Once the game iterator has returned `None` it never yields again, on any data. -/
theorem C34_game_fused (bld : Build) (version : Nat) (data : List UInt8)
    (rs rs' : List (Res (Option (Int × (Int × GameEvt))))) (st st1 st' : IterState) (n : Nat)
    (h : Calls (gameNext bld version) (IterState.new data) rs st)
    (hnone : gameNext bld version n st = some (.ok none, st1))
    (h' : Calls (gameNext bld version) st1 rs' st') : ∀ r ∈ rs', yielded r = [] := by
  obtain ⟨items, d, rest, h1, h2, h3, _⟩ := (gameIterSpec bld version).calls_spec h rfl
  refine ((gameIterSpec bld version).stuck_calls ?_ h').2
  refine (gameIterSpec bld version).none_stuck ?_ n st st1 (by rw [h3]; rfl) hnone
  intro a u hw
  rcases TripletWire_game_shape hw with ⟨x, hx⟩ | hx
  · exact .inl ⟨(a.2.1, x), by simp [hx]⟩
  · exact .inr (by simp [hx])

/-- Three calls over the game demo sector: two yields (the unsupported event skipped, its delta counted),
then `None`; so the hypotheses of `C34_game_fused` are met after two calls. -/
theorem demo_game_calls (bld : Build) : ∃ st, Calls (gameNext bld 90000) (IterState.new (wCamera ++ (wOther ++ wCamera)))
    [.ok (some (5, (3, .cameraUpdate none ⟨none, none, none, none, true⟩))),
     .ok (some (15, (3, .cameraUpdate none ⟨none, none, none, none, true⟩))), .ok none] st := by
  refine ⟨⟨wCamera ++ (wOther ++ wCamera), 15, 11, 0⟩, ?_⟩
  refine .cons (n := 50) (st1 := ⟨wCamera ++ (wOther ++ wCamera), 5, 4, 0⟩) (by cases bld <;> decide +kernel) ?_
  refine .cons (n := 50) (st1 := ⟨wCamera ++ (wOther ++ wCamera), 15, 11, 0⟩) (by cases bld <;> decide +kernel) ?_
  refine .cons (n := 50) (st1 := ⟨wCamera ++ (wOther ++ wCamera), 15, 11, 0⟩) (by cases bld <;> decide +kernel) ?_
  exact .nil _

/-- The tracker iterator is fused on sectors whose names are all UTF-8 (even when a malformed event
follows them).  Missing from the full claim: other sectors, where it is false. -/
theorem C34_tracker_fused_partial (bld : Build) (items : List (Int × Val)) (d rest : List UInt8)
    (rs rs' : List (Res (Option (Int × TrackerEvt)))) (st' : IterState)
    (hs : Stream (TrackerWire bld) items d) (hutf : ∀ p ∈ items, convTracker p.2 ≠ .err .utf8)
    (hrest : rest = [] ∨ ∀ a u r, rest = u ++ r → ¬ TrackerWire bld a u)
    (h : Calls (trackerNext bld) (IterState.new (d ++ rest)) (rs ++ (.ok none) :: rs') st') : ∀ r ∈ rs', yielded r = [] := by
  -- calls over the well-formed part
  have gen : ∀ (rs : List (Res (Option (Int × TrackerEvt)))) (items : List (Int × Val)) (s s' : IterState) (d : List UInt8),
      s.bitIndex = 0 → s.slice = d ++ rest → Stream (TrackerWire bld) items d →
      (∀ p ∈ items, convTracker p.2 ≠ .err .utf8) →
      Calls (trackerNext bld) s (rs ++ (.ok none) :: rs') s' → ∀ r ∈ rs', yielded r = [] := by
    -- one call from such a state either reaches a stuck state or leaves such a state
    have one : ∀ (n : Nat) (items : List (Int × Val)) (s s1 : IterState) (d : List UInt8) (r : Res (Option (Int × TrackerEvt))),
        s.bitIndex = 0 → s.slice = d ++ rest → Stream (TrackerWire bld) items d →
        (∀ p ∈ items, convTracker p.2 ≠ .err .utf8) → trackerNext bld n s = some (r, s1) →
        Stuck (TrackerWire bld) s1 ∨ (r ≠ .ok none ∧ ∃ items' d', s1.bitIndex = 0 ∧ s1.slice = d' ++ rest ∧
          Stream (TrackerWire bld) items' d' ∧ ∀ p ∈ items', convTracker p.2 ≠ .err .utf8) := by
      intro n items s s1 d r h0 hsl hst hu hn
      cases n with
      | zero => simp [trackerNext, nextLoop] at hn
      | succ n =>
        cases items with
        | nil =>
          have hd : d = [] := hst
          subst hd
          left
          have hstuck : Stuck (TrackerWire bld) s := by
            refine ⟨h0, ?_⟩
            rcases hrest with hr | hr
            · left; rw [hsl, hr]; rfl
            · right; rw [hsl]; exact hr
          obtain ⟨he, _⟩ := (trackerIterSpec bld).stuck_next hstuck hn
          rw [he]; exact hstuck
        | cons a items =>
          obtain ⟨u, d', rfl, hw, hst⟩ := hst
          right
          have hsl' : s.slice = u ++ (d' ++ rest) := by rw [hsl, List.append_assoc]
          have hne : s.slice.isEmpty = false := by
            have := TrackerWire_ne_nil hw
            rw [hsl']; cases u <;> simp_all
          rcases TrackerWire_shape hw with ⟨b, hb⟩ | hb
          · simp only [trackerNext, nextLoop, hne, (trackerIterSpec bld).ok s a u _ h0 hsl' hw, hb, Bool.false_eq_true,
              if_false, Option.some.injEq, Prod.mk.injEq] at hn
            obtain ⟨rfl, rfl⟩ := hn
            exact ⟨by simp, items, d', h0, adv_slice hsl' _, hst, fun p hp => hu p (by simp [hp])⟩
          · exact absurd hb (hu a (by simp))
    intro rs
    induction rs with
    | nil =>
      intro items s s' d h0 hsl hst hu hc
      cases hc with
      | cons hn hc =>
        rcases one _ items s _ d _ h0 hsl hst hu hn with hk | ⟨hk, _⟩
        · exact ((trackerIterSpec bld).stuck_calls hk hc).2
        · exact absurd rfl hk
    | cons r rs ih =>
      intro items s s' d h0 hsl hst hu hc
      cases hc with
      | cons hn hc =>
        rcases one _ items s _ d _ h0 hsl hst hu hn with hk | ⟨_, items', d', k0, ksl, kst, ku⟩
        · intro x hx
          exact ((trackerIterSpec bld).stuck_calls hk hc).2 x (by simp [hx])
        · exact ih items' _ s' d' k0 ksl kst ku hc
  exact gen rs items _ st' d rfl (iter_new_slice _) hs hutf h

/-- The full claim is false: on the demo sector the tracker iterator returns `None` at the event with the
non-UTF-8 name and then yields the next event. -/
theorem C34_tracker_fused_refuted (bld : Build) :
    ∃ data rs x st, Calls (trackerNext bld) (IterState.new data) (rs ++ [.ok none, .ok (some x)]) st := by
  obtain ⟨st, h⟩ := demo_tracker_calls bld
  refine ⟨wDone ++ (wBadName ++ wDone), [.ok (some (5, .unitDone ⟨1, 2⟩))], (17, .unitDone ⟨1, 2⟩), ?_⟩
  cases h with
  | cons h1 h => cases h with
    | cons h2 h => cases h with
      | cons h3 h => exact ⟨_, .cons h1 (.cons h2 (.cons h3 (.nil _)))⟩

end S2
