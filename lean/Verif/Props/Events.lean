import Verif.Events.IterLemmas
/-!
# Event streams (C29–C34)

`Stream W items data` (Spec/EventSpec) says that the bytes `data` are the concatenation of the wire
forms of `items`; `TrackerWire` / `TripletWire` are the wire forms of one event in terms of the type
grammars.  `n` is the number of loop rounds a call is allowed; "`data.length < n`" means "enough".
-/
namespace S2

/-- The tracker event a decoded pair stands for, if the library supports it. -/
def trackerOf (p : Int × Val) : Option (Int × TrackerEvt) := (convTracker p.2).toOpt.map (fun e => (p.1, e))

/-- The game event a decoded triplet stands for, if the library supports it. -/
def gameOf (p : Int × Int × Val) : Option (Int × Int × GameEvt) :=
  (convGame p.2.2).toOpt.map (fun e => (p.1, p.2.1, e))

/-- The chat message a decoded triplet stands for, if it is one. -/
def messageOf (p : Int × Int × Val) : Option (Int × Int × ChatEvt) :=
  (convMessage p.2.2).toOpt.map (fun e => (p.1, p.2.1, e))

theorem convPair_toOpt (p : Int × Val) : (convPair p).toOpt = trackerOf p := by
  unfold convPair trackerOf; cases convTracker p.2 <;> rfl

theorem convTriplet_toOpt {ε : Type} (conv : Val → Res ε) (p : Int × Int × Val) :
    (convTriplet conv p).toOpt = (conv p.2.2).toOpt.map (fun e => (p.1, p.2.1, e)) := by
  unfold convTriplet; cases conv p.2.2 <;> rfl

theorem convPair_ne_panic {bld : Build} {a : Int × Val} {u : List UInt8} (h : TrackerWire bld a u) :
    convPair a ≠ .panic := by
  unfold convPair
  refine Res.bind_ne_panic ?_ (fun _ _ => by simp)
  rcases TrackerWire_shape h with ⟨x, hx⟩ | hx <;> rw [hx] <;> simp

theorem convTriplet_ne_panic {ε : Type} {conv : Val → Res ε} {a : Int × Int × Val} (h : conv a.2.2 ≠ .panic) :
    convTriplet conv a ≠ .panic := by
  unfold convTriplet
  exact Res.bind_ne_panic h (fun _ _ => by simp)

theorem convGame_ne_panic {bld : Build} {version : Nat} {e : Int × Int × Val} {u : List UInt8}
    (h : TripletWire bld (gameEventTy version) e u) : convGame e.2.2 ≠ .panic := by
  rcases TripletWire_game_shape h with ⟨x, hx⟩ | hx <;> rw [hx] <;> simp

/-! ## Concrete streams used to show that the theorems speak about something -/

/-- A unit-done event of unit 1 (recycle 2), 5 loops after the previous event. -/
def wDone : List UInt8 := [3, 0, 9, 10, 9, 14, 5, 4, 0, 9, 2, 2, 9, 4]

/-- A unit-type-change event of unit 1 whose name is the single byte 0xFF (not UTF-8), delta 7. -/
def wBadName : List UInt8 := [3, 0, 9, 14, 9, 8, 5, 6, 0, 9, 2, 2, 9, 4, 4, 2, 2, 255]

/-- The decoded forms. -/
def vDone : Int × Val := (5, .choice 7 (.struct [.int 1, .int 2]))
def vBadName : Int × Val := (7, .choice 4 (.struct [.int 1, .int 2, .bytes [255]]))

theorem wDone_wire (bld : Build) : TrackerWire bld vDone wDone := by
  have h : parsePair bld wDone = .ok ([], vDone) := by cases bld <;> decide +kernel
  obtain ⟨u, h1, h2⟩ := (parsePair_iff ..).1 h
  simp at h1; exact h1 ▸ h2

theorem wBadName_wire (bld : Build) : TrackerWire bld vBadName wBadName := by
  have h : parsePair bld wBadName = .ok ([], vBadName) := by cases bld <;> decide +kernel
  obtain ⟨u, h1, h2⟩ := (parsePair_iff ..).1 h
  simp at h1; exact h1 ▸ h2

theorem demo_stream (bld : Build) : Stream (TrackerWire bld) [vDone, vBadName, vDone] (wDone ++ (wBadName ++ wDone)) :=
  ⟨_, _, rfl, wDone_wire bld, _, _, rfl, wBadName_wire bld, _, [], by simp, wDone_wire bld, rfl⟩

/-! ## C29: tracker event list -/

/-- Every sector that is a concatenation of one or more tracker events is read completely: the result
is the supported events in stream order. -/
theorem C29_tracker_stream (bld : Build) (items : List (Int × Val)) (data : List UInt8) (n : Nat)
    (hne : items ≠ []) (hs : Stream (TrackerWire bld) items data) (hn : data.length < n) :
    readTrackerEvents bld n data = some (.ok (items.filterMap trackerOf)) := by
  have hl := Stream_length (fun _ _ => TrackerWire_ne_nil) items data hs
  have h := (pairSpec bld).readLoop_ok convPair List.isEmpty (fun i => by simp) (fun _ _ => convPair_ne_panic)
    n data [] (items.filterMap trackerOf)
  exact h.2 ⟨items, hne, by omega, hs, by simp [convPair_toOpt, funext convPair_toOpt]⟩

/-- Whatever the bytes, a successful read has decoded exactly a stream, and returned its supported
events in order. -/
theorem C29_tracker_only_streams (bld : Build) (data : List UInt8) (n : Nat) (out : List (Int × TrackerEvt))
    (h : readTrackerEvents bld n data = some (.ok out)) :
    ∃ items, items ≠ [] ∧ Stream (TrackerWire bld) items data ∧ out = items.filterMap trackerOf := by
  have h' := (pairSpec bld).readLoop_ok convPair List.isEmpty (fun i => by simp) (fun _ _ => convPair_ne_panic)
    n data [] out
  obtain ⟨items, h1, _, h3, rfl⟩ := h'.1 h
  exact ⟨items, h1, h3, by simp [convPair_toOpt, funext convPair_toOpt]⟩

/-- Reading terminates for every input, within one round per byte (one round for an empty sector). -/
theorem C29_tracker_terminates (bld : Build) (data : List UInt8) (n : Nat) (hn : data.length < n) :
    ∃ r, readTrackerEvents bld n data = some r := by
  have := (pairSpec bld).readLoop_terminates convPair List.isEmpty (fun i => by simp) n data [] hn
  exact Option.ne_none_iff_exists'.mp this

/-- A sector with a malformed event (events followed by bytes that start no event) is an error: the
error of that event.  So is an empty sector. -/
theorem C29_tracker_malformed (items : List (Int × Val)) (d rest : List UInt8) (n : Nat)
    (hs : Stream (TrackerWire .release) items d) (hne : items = [] ∨ rest ≠ [])
    (hbad : ∀ a u r, rest = u ++ r → ¬ TrackerWire .release a u) (hn : (d ++ rest).length < n) :
    ∃ e, readTrackerEvents .release n (d ++ rest) = some (.err e) ∧ parsePair .release rest = .err e := by
  cases hp : parsePair .release rest with
  | ok p =>
    obtain ⟨u, h1, h2⟩ := (parsePair_iff _ rest p.1 p.2).1 hp
    exact absurd h2 (hbad _ _ _ h1)
  | panic => exact absurd hp (parsePair_release_ne_panic rest)
  | err e =>
    refine ⟨e, ?_, rfl⟩
    have hl := Stream_length (fun _ _ => TrackerWire_ne_nil) items d hs
    simp only [List.length_append] at hn
    exact ((pairSpec .release).readLoop_err convPair List.isEmpty (fun i => by simp)
      (fun _ _ => convPair_ne_panic) e n (d ++ rest) []).2
      ⟨items, d, rest, rfl, by omega, hs, hne, hp⟩

/-- The only tracker events missing from the list are those whose unit type name (or creator ability
name) is not UTF-8. -/
theorem C29_tracker_skips_only_bad_utf8 (bld : Build) (p : Int × Val) (u : List UInt8) (h : TrackerWire bld p u) :
    (∃ e, trackerOf p = some (p.1, e)) ∨ convTracker p.2 = .err .utf8 := by
  rcases TrackerWire_shape h with ⟨x, hx⟩ | hx
  · exact .inl ⟨x, by simp [trackerOf, hx, Res.toOpt]⟩
  · exact .inr hx

example (bld : Build) : readTrackerEvents bld 100 (wDone ++ (wBadName ++ wDone)) =
    some (.ok [(5, .unitDone ⟨1, 2⟩), (5, .unitDone ⟨1, 2⟩)]) := by
  rw [C29_tracker_stream bld _ _ 100 (by simp) (demo_stream bld) (by decide)]
  decide +kernel

example : ∃ e, readTrackerEvents .release 100 (wDone ++ [3, 0]) = some (.err e) := by
  obtain ⟨e, h, _⟩ := C29_tracker_malformed [vDone] wDone [3, 0] 100 ⟨_, [], by simp, wDone_wire _, rfl⟩ (.inr (by simp))
    (by
      intro a u r h hw
      have := (parsePair_iff .release [3, 0] r a).2 ⟨u, h, hw⟩
      rw [show parsePair .release [3, 0] = .err .tag by decide +kernel] at this
      cases this) (by decide)
  exact ⟨e, h⟩

/-! ## C30: game and message event lists -/

/-- Game events: every sector that is a concatenation of one or more events (delta, user id, event,
padding to the byte boundary) is read completely; the supported ones are returned in stream order. -/
theorem C30_game_stream (bld : Build) (version : Nat) (items : List (Int × Int × Val)) (data : List UInt8) (n : Nat)
    (hne : items ≠ []) (hs : Stream (TripletWire bld (gameEventTy version)) items data) (hn : data.length < n) :
    readGameEvents bld version n data = some (.ok (items.filterMap gameOf)) := by
  have hl := Stream_length (fun _ _ => TripletWire_ne_nil) items data hs
  have h := (tripletSpec bld _ (gameEventTy_wf version)).readLoop_ok (convTriplet convGame) (fun c => c.bytes.isEmpty)
    (fun i => by simp) (fun _ _ hw => convTriplet_ne_panic (convGame_ne_panic hw)) n data [] (items.filterMap gameOf)
  exact h.2 ⟨items, hne, by omega, hs, by simp [funext (convTriplet_toOpt convGame), gameOf]; rfl⟩

theorem C30_game_only_streams (bld : Build) (version : Nat) (data : List UInt8) (n : Nat)
    (out : List (Int × Int × GameEvt)) (h : readGameEvents bld version n data = some (.ok out)) :
    ∃ items, items ≠ [] ∧ Stream (TripletWire bld (gameEventTy version)) items data ∧ out = items.filterMap gameOf := by
  have h' := (tripletSpec bld _ (gameEventTy_wf version)).readLoop_ok (convTriplet convGame) (fun c => c.bytes.isEmpty)
    (fun i => by simp) (fun _ _ hw => convTriplet_ne_panic (convGame_ne_panic hw)) n data [] out
  obtain ⟨items, h1, _, h3, rfl⟩ := h'.1 h
  exact ⟨items, h1, h3, by simp [funext (convTriplet_toOpt convGame), gameOf]; rfl⟩

theorem C30_game_terminates (bld : Build) (version : Nat) (data : List UInt8) (n : Nat) (hn : data.length < n) :
    ∃ r, readGameEvents bld version n data = some r := by
  have := (tripletSpec bld _ (gameEventTy_wf version)).readLoop_terminates (convTriplet convGame)
    (fun c => c.bytes.isEmpty) (fun i => by simp) n data [] hn
  exact Option.ne_none_iff_exists'.mp this

theorem gameEventTy_noOverflow (version : Nat) : (gameEventTy version).noOverflow = true := by
  unfold gameEventTy; split
  · decide +kernel
  · decide +kernel

/-- A malformed game event anywhere in the sector makes the whole read an error (in both build
profiles). -/
theorem C30_game_malformed (bld : Build) (version : Nat) (items : List (Int × Int × Val)) (d rest : List UInt8) (n : Nat)
    (hs : Stream (TripletWire bld (gameEventTy version)) items d) (hne : items = [] ∨ rest ≠ [])
    (hbad : ∀ a u r, rest = u ++ r → ¬ TripletWire bld (gameEventTy version) a u) (hn : (d ++ rest).length < n) :
    ∃ e, readGameEvents bld version n (d ++ rest) = some (.err e) := by
  cases hp : parseTriplet bld (gameEventTy version) ⟨rest, 0⟩ with
  | ok p =>
    obtain ⟨u, r, h1, _, h2⟩ := (parseTriplet_iff bld _ (gameEventTy_wf version) rest p.1 p.2).1 hp
    exact absurd h2 (hbad _ _ _ h1)
  | panic =>
    exact absurd hp (parseTriplet_ne_panic _ _ (.inr (gameEventTy_noOverflow version)) _
      ⟨Nat.zero_lt_succ 7, fun _ => rfl⟩)
  | err e =>
    refine ⟨e, ?_⟩
    have hl := Stream_length (fun _ _ => TripletWire_ne_nil) items d hs
    simp only [List.length_append] at hn
    exact ((tripletSpec bld _ (gameEventTy_wf version)).readLoop_err (convTriplet convGame)
      (fun c => c.bytes.isEmpty) (fun i => by simp)
      (fun _ _ hw => convTriplet_ne_panic (convGame_ne_panic hw)) e n (d ++ rest) []).2
      ⟨items, d, rest, rfl, by omega, hs, hne, hp⟩

/-- A game event is missing from the list iff its kind is none of the 21 supported kinds. -/
theorem C30_game_skips_only_unsupported (bld : Build) (version : Nat) (p : Int × Int × Val) (u : List UInt8)
    (h : TripletWire bld (gameEventTy version) p u) :
    ∃ tag v, p.2.2 = .choice tag v ∧
      (gameOf p = none ↔ tag ∉ [1, 14, 27, 28, 29, 30, 32, 39, 40, 41, 49, 58, 59, 61, 62, 66, 92, 95, 103, 104, 105]) := by
  obtain ⟨tag, w, e, hk⟩ : ∃ tag w, p.2.2 = .choice tag w ∧ ((∃ e, convGame p.2.2 = .ok e) ∨
      (convGame p.2.2 = .err .unsupportedEvent ∧
      tag ∉ [1, 14, 27, 28, 29, 30, 32, 39, 40, 41, 49, 58, 59, 61, 62, 66, 92, 95, 103, 104, 105])) := by
    obtain ⟨k, b1, b2, b3, pad, _, _, _, h, _⟩ := h
    exact convGame_kinds version _ (BEnc_shape _ _ _ _ h)
  refine ⟨tag, w, e, ?_⟩
  unfold gameOf
  constructor
  · intro hn
    rcases hk with ⟨x, hx⟩ | hx
    · rw [hx] at hn; simp [Res.toOpt] at hn
    · exact hx.2
  · intro hm
    rw [e]
    simp only [List.mem_cons, List.not_mem_nil, or_false] at hm
    have ho : convOther tag w = .err .unsupportedEvent := by
      unfold convOther
      split <;> first | omega | rfl
    simp only [convGame]
    rw [if_neg (by omega), if_neg (by omega), if_neg (by omega), if_neg (by omega), if_neg (by omega),
      if_neg (by omega), if_neg (by omega), ho]
    rfl

/-- Message events: likewise; the result lists the chat messages. -/
theorem C30_message_stream (bld : Build) (items : List (Int × Int × Val)) (data : List UInt8) (n : Nat)
    (hne : items ≠ []) (hs : Stream (TripletWire bld P87702.BitPacked.GameEMessageId) items data) (hn : data.length < n) :
    readMessageEvents bld n data = some (.ok (items.filterMap messageOf)) := by
  have hl := Stream_length (fun _ _ => TripletWire_ne_nil) items data hs
  have h := (tripletSpec bld _ (by decide +kernel)).readLoop_ok (convTriplet convMessage) (fun c => c.bytes.isEmpty)
    (fun i => by simp) (fun _ _ hw => convTriplet_ne_panic (TripletWire_message_shape hw)) n data [] (items.filterMap messageOf)
  exact h.2 ⟨items, hne, by omega, hs, by simp [funext (convTriplet_toOpt convMessage), messageOf]; rfl⟩

theorem C30_message_only_streams (bld : Build) (data : List UInt8) (n : Nat)
    (out : List (Int × Int × ChatEvt)) (h : readMessageEvents bld n data = some (.ok out)) :
    ∃ items, items ≠ [] ∧ Stream (TripletWire bld P87702.BitPacked.GameEMessageId) items data ∧
      out = items.filterMap messageOf := by
  have h' := (tripletSpec bld _ (by decide +kernel)).readLoop_ok (convTriplet convMessage) (fun c => c.bytes.isEmpty)
    (fun i => by simp) (fun _ _ hw => convTriplet_ne_panic (TripletWire_message_shape hw)) n data [] out
  obtain ⟨items, h1, _, h3, rfl⟩ := h'.1 h
  exact ⟨items, h1, h3, by simp [funext (convTriplet_toOpt convMessage), messageOf]; rfl⟩

theorem C30_message_terminates (bld : Build) (data : List UInt8) (n : Nat) (hn : data.length < n) :
    ∃ r, readMessageEvents bld n data = some r := by
  have := (tripletSpec bld _ (show P87702.BitPacked.GameEMessageId.wf = true by decide +kernel)).readLoop_terminates
    (convTriplet convMessage) (fun c => c.bytes.isEmpty) (fun i => by simp) n data [] hn
  exact Option.ne_none_iff_exists'.mp this

end S2
