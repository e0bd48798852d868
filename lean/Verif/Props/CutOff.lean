import Verif.Props.Iter
/-!
# Cut-off event sectors (C155)

An event sector is often cut short: the replay was written while the game crashed, or the file was copied
incompletely.  `p` is what is left of the sector `p ++ q`.
-/
namespace S2

namespace StepSpec
variable {σ α β : Type} {step : σ → Res (σ × α)} {emb : List UInt8 → σ} {W : α → List UInt8 → Prop}

/-- Two streams that start at the same place of the same bytes: the shorter is an initial part of the longer. -/
theorem stream_prefix (h : StepSpec step emb W) : ∀ (xs ys : List α) (d e r s : List UInt8),
    Stream W xs d → Stream W ys e → d ++ r = e ++ s → d.length ≤ e.length →
      ∃ zs t, ys = xs ++ zs ∧ e = d ++ t ∧ Stream W zs t
  | [], ys, d, e, r, s, h1, h2, _, _ => by
    have h1 : d = [] := h1
    subst h1; exact ⟨ys, e, rfl, rfl, h2⟩
  | x :: xs, [], d, e, r, s, h1, h2, _, hl => by
    have h2 : e = [] := h2
    subst h2
    obtain ⟨u, d', rfl, hw, _⟩ := h1
    have := List.length_pos_iff.mpr (h.pos _ _ hw)
    simp only [List.length_append, List.length_nil] at hl; omega
  | x :: xs, y :: ys, d, e, r, s, h1, h2, he, hl => by
    obtain ⟨u, d1, rfl, hw1, h1⟩ := h1
    obtain ⟨v, d2, rfl, hw2, h2⟩ := h2
    rw [List.append_assoc, List.append_assoc] at he
    obtain ⟨rfl, rfl, he'⟩ := h.unique hw1 hw2 he
    simp only [List.length_append] at hl
    obtain ⟨zs, t, rfl, rfl, h3⟩ := h.stream_prefix xs ys d1 d2 r s h1 h2 he' (by omega)
    exact ⟨zs, t, rfl, by simp, h3⟩

/-- The loop panics only if fetching an event or converting one does. -/
theorem readLoop_ne_panic (h : StepSpec step emb W) (conv : α → Res β) (empty : σ → Bool)
    (hstep : ∀ i, step (emb i) ≠ .panic) (hc : ∀ a u, W a u → conv a ≠ .panic) :
    ∀ (n : Nat) (i : List UInt8) (acc : List β), readLoop step conv empty n (emb i) acc ≠ some .panic
  | 0, i, acc => by simp [readLoop]
  | n + 1, i, acc => by
    simp only [readLoop]
    cases hs : step (emb i) with
    | err e => simp
    | panic => exact absurd hs (hstep i)
    | ok p =>
      obtain ⟨s', a⟩ := p
      obtain ⟨u, r, rfl, rfl, hw⟩ := (h.ok i s' a).1 hs
      have ih := fun acc => readLoop_ne_panic h conv empty hstep hc n r acc
      simp only
      cases hca : conv a with
      | panic => exact absurd hca (hc a u hw)
      | ok b => simp only; split <;> simp [ih]
      | err e => simp only; split <;> simp [ih]

/-- Reading what is left of a stream: an error, or exactly the events before the cut. -/
theorem readLoop_cut (h : StepSpec step emb W) (conv : α → Res β) (empty : σ → Bool)
    (hempty : ∀ i, empty (emb i) = true ↔ i = [])
    (hstep : ∀ i, step (emb i) ≠ .panic) (hc : ∀ a u, W a u → conv a ≠ .panic)
    (items : List α) (p q : List UInt8) (n : Nat) (hs : Stream W items (p ++ q)) (hn : (p ++ q).length < n) :
    (∃ e, readLoop step conv empty n (emb p) [] = some (.err e) ∧
      ((∃ k, Stream W (items.take k) p) → p = [])) ∨
    (∃ k, Stream W (items.take k) p ∧ Stream W (items.drop k) q ∧
      readLoop step conv empty n (emb p) [] = some (.ok ((items.take k).filterMap (fun a => (conv a).toOpt)))) := by
  have hlen : p.length < n := by simp at hn; omega
  obtain ⟨r, hr⟩ := Option.ne_none_iff_exists'.mp (h.readLoop_terminates conv empty hempty n p [] hlen)
  cases r with
  | err e =>
    refine .inl ⟨e, hr, ?_⟩
    rintro ⟨k, hk⟩
    cases hi : items.take k with
    | nil => rw [hi] at hk; exact hk
    | cons x xs =>
      exfalso
      have := (h.readLoop_ok conv empty hempty hc n p [] _).2
        ⟨items.take k, by simp [hi], by have := Stream_length h.pos _ _ hk; omega, hk, rfl⟩
      rw [hr] at this; simp at this
  | panic => exact absurd hr (h.readLoop_ne_panic conv empty hstep hc n p [])
  | ok out =>
    right
    obtain ⟨xs, hne, _, hx, rfl⟩ := (h.readLoop_ok conv empty hempty hc n p [] out).1 hr
    obtain ⟨zs, t, rfl, ht, hz⟩ := h.stream_prefix xs items p (p ++ q) q [] hx hs (by simp) (by simp)
    have ht := List.append_cancel_left ht
    subst ht
    exact ⟨xs.length, by simpa using hx, by simpa using hz, by simpa using hr⟩

end StepSpec

/-! ## The event lists -/

/-- **C155** reading what is left (`p`) of a well-formed tracker sector gives an error when the cut lies inside an
event (or nothing is left), and exactly the events before the cut when it lies between two events. -/
theorem C155_tracker_list (items : List (Int × Val)) (p q : List UInt8) (n : Nat)
    (hs : Stream (TrackerWire .release) items (p ++ q)) (hn : (p ++ q).length < n) :
    (∃ e, readTrackerEvents .release n p = some (.err e) ∧
      ((∃ k, Stream (TrackerWire .release) (items.take k) p) → p = [])) ∨
    (∃ k, Stream (TrackerWire .release) (items.take k) p ∧ Stream (TrackerWire .release) (items.drop k) q ∧
      readTrackerEvents .release n p = some (.ok ((items.take k).filterMap trackerOf))) := by
  have h := (pairSpec .release).readLoop_cut convPair List.isEmpty (fun i => by simp)
    (fun i => parsePair_release_ne_panic i) (fun _ _ => convPair_ne_panic) items p q n hs hn
  rw [funext convPair_toOpt] at h
  exact h

/-- The same for a game sector, in both build profiles. -/
theorem C155_game_list (bld : Build) (version : Nat) (items : List (Int × Int × Val)) (p q : List UInt8) (n : Nat)
    (hs : Stream (TripletWire bld (gameEventTy version)) items (p ++ q)) (hn : (p ++ q).length < n) :
    (∃ e, readGameEvents bld version n p = some (.err e) ∧
      ((∃ k, Stream (TripletWire bld (gameEventTy version)) (items.take k) p) → p = [])) ∨
    (∃ k, Stream (TripletWire bld (gameEventTy version)) (items.take k) p ∧
      Stream (TripletWire bld (gameEventTy version)) (items.drop k) q ∧
      readGameEvents bld version n p = some (.ok ((items.take k).filterMap gameOf))) := by
  have h := (tripletSpec bld _ (gameEventTy_wf version)).readLoop_cut (convTriplet convGame) (fun c => c.bytes.isEmpty)
    (fun i => by simp) (fun i => parseTriplet_ne_panic _ _ (.inr (gameEventTy_noOverflow version)) _
      ⟨Nat.zero_lt_succ 7, fun _ => rfl⟩) (fun _ _ hw => convTriplet_ne_panic (convGame_ne_panic hw)) items p q n hs hn
  rw [funext (convTriplet_toOpt convGame)] at h
  exact h

/-- And for a message sector. -/
theorem C155_message_list (bld : Build) (items : List (Int × Int × Val)) (p q : List UInt8) (n : Nat)
    (hs : Stream (TripletWire bld P87702.BitPacked.GameEMessageId) items (p ++ q)) (hn : (p ++ q).length < n) :
    (∃ e, readMessageEvents bld n p = some (.err e) ∧
      ((∃ k, Stream (TripletWire bld P87702.BitPacked.GameEMessageId) (items.take k) p) → p = [])) ∨
    (∃ k, Stream (TripletWire bld P87702.BitPacked.GameEMessageId) (items.take k) p ∧
      Stream (TripletWire bld P87702.BitPacked.GameEMessageId) (items.drop k) q ∧
      readMessageEvents bld n p = some (.ok ((items.take k).filterMap messageOf))) := by
  have h := (tripletSpec bld _ (by decide +kernel)).readLoop_cut (convTriplet convMessage) (fun c => c.bytes.isEmpty)
    (fun i => by simp) (fun i => parseTriplet_ne_panic _ _ (.inr (by decide +kernel)) _
      ⟨Nat.zero_lt_succ 7, fun _ => rfl⟩) (fun _ _ hw => convTriplet_ne_panic (TripletWire_message_shape hw)) items p q n hs hn
  rw [funext (convTriplet_toOpt convMessage)] at h
  exact h

/-- The demo sector cut between its second and third event, and cut inside its third. -/
example : readTrackerEvents .release 100 (wDone ++ wBadName) = some (.ok [(5, .unitDone ⟨1, 2⟩)]) ∧
    readTrackerEvents .release 100 (wDone ++ (wBadName ++ wDone.take 9)) = some (.err .tag) := by
  constructor <;> decide +kernel

/-! ## The iterators -/

/-- After more calls than there are bytes nothing more can be fetched where the iterator stands. -/
theorem IterSpec.calls_end {α β : Type} {step : IterState → Res β × IterState} {conv : α → Res β} {delta : α → Int}
    {W : α → List UInt8 → Prop} (h : IterSpec step conv delta W) {data : List UInt8} {st : IterState}
    {rs : List (Res (Option (Int × β)))} (hc : Calls (nextLoop step) (IterState.new data) rs st)
    (hlen : data.length < rs.length) : Stuck W st := by
  obtain ⟨items, d, rest, h1, h2, hor⟩ := h.calls_exhausted hc rfl
  rw [iter_new_slice] at h1
  have hl := Stream_length h.pos _ _ h2
  rw [h1, List.length_append] at hlen
  rcases hor with hor | hor
  · omega
  · exact hor

/-- A run over `p` yields the conversion of some first events of any finished run over `p ++ q`. -/
theorem IterSpec.calls_cut {σ α β : Type} {sp : σ → Res (σ × α)} {emb : List UInt8 → σ}
    {step : IterState → Res β × IterState} {conv : α → Res β} {delta : α → Int}
    {W : α → List UInt8 → Prop} (hu : StepSpec sp emb W) (h : IterSpec step conv delta W) {p q : List UInt8}
    {st st' : IterState} {rs rs' : List (Res (Option (Int × β)))}
    (hc : Calls (nextLoop step) (IterState.new p) rs st)
    (hc' : Calls (nextLoop step) (IterState.new (p ++ q)) rs' st') (hlen : (p ++ q).length < rs'.length) :
    rs.flatMap yielded <+: rs'.flatMap yielded := by
  obtain ⟨items, d, rest, h1, h2, h3, h4⟩ := h.calls_spec hc rfl
  obtain ⟨items', d', rest', k1, k2, k3, k4⟩ := h.calls_spec hc' rfl
  have hst := h.calls_end hc' hlen
  rw [k3] at hst
  unfold Stuck at hst
  rw [adv_slice k1] at hst
  rw [iter_new_slice] at h1 k1
  have he : d' ++ rest' = d ++ (rest ++ q) := by rw [← k1, h1, List.append_assoc]
  have hle : d.length ≤ d'.length := by
    rcases Nat.lt_or_ge d'.length d.length with hlt | hge
    · exfalso
      obtain ⟨zs, t, rfl, rfl, hz⟩ := hu.stream_prefix items' items d' d rest' (rest ++ q) k2 h2 he (by omega)
      cases zs with
      | nil =>
        have hz : t = [] := hz
        subst hz; simp at hlt
      | cons z zs =>
        obtain ⟨u, t', rfl, hw, _⟩ := hz
        have hr : rest' = u ++ (t' ++ (rest ++ q)) := by
          rw [List.append_assoc] at he
          have := List.append_cancel_left he
          rw [this, List.append_assoc]
        rcases hst.2 with hn | hn
        · rw [hn] at hr
          have := h.pos _ _ hw
          simp at hr; exact this hr.1
        · exact hn z u _ hr hw
    · exact hge
  obtain ⟨zs, t, rfl, rfl, hz⟩ := hu.stream_prefix items items' d d' (rest ++ q) rest' h2 k2 he.symm hle
  rw [h4, k4, loopOut_append]
  exact List.prefix_append _ _

/-- A finished run yields every complete event at the front of the data. -/
theorem IterSpec.calls_complete {σ α β : Type} {sp : σ → Res (σ × α)} {emb : List UInt8 → σ}
    {step : IterState → Res β × IterState} {conv : α → Res β} {delta : α → Int}
    {W : α → List UInt8 → Prop} (hu : StepSpec sp emb W) (h : IterSpec step conv delta W) (items : List α)
    (d rest : List UInt8) (hs : Stream W items d) {st : IterState} {rs : List (Res (Option (Int × β)))}
    (hc : Calls (nextLoop step) (IterState.new (d ++ rest)) rs st) (hlen : (d ++ rest).length < rs.length) :
    loopOut conv delta 0 items <+: rs.flatMap yielded := by
  obtain ⟨xs, e, r, h1, h2, h3, h4⟩ := h.calls_spec hc rfl
  have hst := h.calls_end hc hlen
  rw [h3] at hst
  unfold Stuck at hst
  rw [adv_slice h1] at hst
  rw [iter_new_slice] at h1
  have hle : d.length ≤ e.length := by
    rcases Nat.lt_or_ge e.length d.length with hlt | hge
    · exfalso
      obtain ⟨zs, t, rfl, rfl, hz⟩ := hu.stream_prefix xs items e d r rest h2 hs h1.symm (by omega)
      cases zs with
      | nil =>
        have hz : t = [] := hz
        subst hz; simp at hlt
      | cons z zs =>
        obtain ⟨u, t', rfl, hw, _⟩ := hz
        have hr : r = u ++ (t' ++ rest) := by
          simp only [List.append_assoc] at h1
          exact (List.append_cancel_left h1).symm
        rcases hst.2 with hn | hn
        · rw [hn] at hr
          have := h.pos _ _ hw
          simp at hr; exact this hr.1
        · exact hn z u _ hr hw
    · exact hge
  obtain ⟨zs, t, rfl, rfl, hz⟩ := hu.stream_prefix items xs d e rest r hs h2 h1 hle
  rw [h4, loopOut_append]
  exact List.prefix_append _ _

/-- **C155** iterating over what is left of a tracker sector, however often, yields an initial part of what iterating over
the whole sector yields — the same events at the same game loops in the same order — whatever the bytes are. -/
theorem C155_tracker_iter (bld : Build) (p q : List UInt8) (rs rs' : List (Res (Option (Int × TrackerEvt))))
    (st st' : IterState) (h : Calls (trackerNext bld) (IterState.new p) rs st)
    (h' : Calls (trackerNext bld) (IterState.new (p ++ q)) rs' st') (hlen : (p ++ q).length < rs'.length) :
    rs.flatMap yielded <+: rs'.flatMap yielded :=
  IterSpec.calls_cut (pairSpec bld) (trackerIterSpec bld) h h' hlen

theorem C155_game_iter (bld : Build) (version : Nat) (p q : List UInt8)
    (rs rs' : List (Res (Option (Int × (Int × GameEvt))))) (st st' : IterState)
    (h : Calls (gameNext bld version) (IterState.new p) rs st)
    (h' : Calls (gameNext bld version) (IterState.new (p ++ q)) rs' st') (hlen : (p ++ q).length < rs'.length) :
    rs.flatMap yielded <+: rs'.flatMap yielded :=
  IterSpec.calls_cut (tripletSpec bld _ (gameEventTy_wf version)) (gameIterSpec bld version) h h' hlen

/-- Nothing before the cut is lost either: every complete event that is left (`items`, in the bytes `d`) is yielded, at
its true game loop, whatever remains of the next event (`rest`). -/
theorem C155_tracker_iter_complete (bld : Build) (items : List (Int × Val)) (d rest : List UInt8)
    (hs : Stream (TrackerWire bld) items d) (rs : List (Res (Option (Int × TrackerEvt)))) (st : IterState)
    (h : Calls (trackerNext bld) (IterState.new (d ++ rest)) rs st) (hlen : (d ++ rest).length < rs.length) :
    trackerTimeline items <+: rs.flatMap yielded := by
  have := IterSpec.calls_complete (pairSpec bld) (trackerIterSpec bld) items d rest hs h hlen
  have e : loopOut (fun p : Int × Val => convTracker p.2) Prod.fst 0 items = trackerTimeline items := loopOut_eq _ _ items
  rw [e] at this
  exact this

theorem C155_game_iter_complete (bld : Build) (version : Nat) (items : List (Int × Int × Val)) (d rest : List UInt8)
    (hs : Stream (TripletWire bld (gameEventTy version)) items d)
    (rs : List (Res (Option (Int × (Int × GameEvt))))) (st : IterState)
    (h : Calls (gameNext bld version) (IterState.new (d ++ rest)) rs st) (hlen : (d ++ rest).length < rs.length) :
    gameTimeline items <+: rs.flatMap yielded := by
  have := IterSpec.calls_complete (tripletSpec bld _ (gameEventTy_wf version)) (gameIterSpec bld version) items d rest hs h hlen
  have e : loopOut (fun p : Int × Int × Val => (do let e ← convGame p.2.2; pure (p.2.1, e) : Res (Int × GameEvt)))
      Prod.fst 0 items = gameTimeline items := by
    rw [loopOut_eq]
    unfold gameTimeline
    congr 1; funext p
    cases convGame p.2.2.2 <;> rfl
  rw [e] at this
  exact this

/-- The demo sector cut inside its third event: the iterator yields the first event and no other. -/
example (bld : Build) : ∃ st, Calls (trackerNext bld) (IterState.new (wDone ++ (wBadName ++ wDone.take 9)))
    [.ok (some (5, .unitDone ⟨1, 2⟩)), .ok none, .ok none] st := by
  refine ⟨⟨wDone ++ (wBadName ++ wDone.take 9), 12, 32, 0⟩, ?_⟩
  refine .cons (n := 50) (st1 := ⟨wDone ++ (wBadName ++ wDone.take 9), 5, 14, 0⟩) (by cases bld <;> decide +kernel) ?_
  refine .cons (n := 50) (st1 := ⟨wDone ++ (wBadName ++ wDone.take 9), 12, 32, 0⟩) (by cases bld <;> decide +kernel) ?_
  refine .cons (n := 50) (st1 := ⟨wDone ++ (wBadName ++ wDone.take 9), 12, 32, 0⟩) (by cases bld <;> decide +kernel) ?_
  exact .nil _

end S2
