import Verif.Spec.ReplaySpec
import Verif.Schema.Shape
import Verif.Schema.ByteAlignedLemmas
import Verif.Props.Details
import Verif.Props.InitData
import Verif.Props.Events
/-! # Replay files: header, version dispatch -/
namespace S2

theorem replaySignature_eq : replaySignature = str "StarCraft II replay" ++ [27, 49, 49] := by decide

theorem VShape_struct {fs : VFields} {v : Val} (h : VShape (.struct fs) v) :
    ∃ vs, v = .struct vs ∧ VFieldsShape fs vs := h

theorem headerShape {v : Val} (h : VShape P87702.ByteAligned.ReplaySHeader v) :
    ∃ sig f0 f1 f2 f3 f4 base more, v = .struct (.bytes sig :: .struct [f0, f1, f2, f3, f4, .int base] :: more) ∧
      0 ≤ base ∧ base < 2 ^ 32 := by
  unfold P87702.ByteAligned.ReplaySHeader at h
  obtain ⟨vs, rfl, h⟩ := h
  obtain ⟨v0, vs, rfl, h0, h⟩ := h
  obtain ⟨v1, vs, rfl, h1, h⟩ := h
  simp only [or_false] at h0 h1
  obtain ⟨sig, rfl⟩ := h0
  unfold P87702.ByteAligned.SVersion at h1
  obtain ⟨ws, rfl, h1⟩ := h1
  obtain ⟨w0, ws, rfl, _, h1⟩ := h1
  obtain ⟨w1, ws, rfl, _, h1⟩ := h1
  obtain ⟨w2, ws, rfl, _, h1⟩ := h1
  obtain ⟨w3, ws, rfl, _, h1⟩ := h1
  obtain ⟨w4, ws, rfl, _, h1⟩ := h1
  obtain ⟨w5, ws, rfl, h5, h1⟩ := h1
  simp only [or_false] at h5
  obtain ⟨b, rfl, hb⟩ := h5
  obtain rfl : ws = [] := h1
  refine ⟨sig, w0, w1, w2, w3, w4, b, vs, rfl, ?_⟩
  simp only [IntKind.inRange, IntKind.lo, IntKind.hi] at hb
  omega

theorem HeaderSays_range {bld : Build} {content sig : List UInt8} {build : Int} (h : HeaderSays bld content sig build) :
    0 ≤ build ∧ build < 2 ^ 32 := by
  obtain ⟨used, tail, f0, f1, f2, f3, f4, more, _, henc⟩ := h
  obtain ⟨sig', g0, g1, g2, g3, g4, base, more', e, hb⟩ := headerShape (VEnc_shape _ _ _ henc)
  simp at e
  rw [e.2.1.2.2.2.2.2]
  exact hb

theorem checkedBuild_ok {bld : Build} {a : Archive} {b : Int} : checkedBuild bld a = .ok b ↔ IsReplay bld a b := by
  unfold checkedBuild readHeader IsReplay
  rw [← replaySignature_eq]
  cases ha : a.userData with
  | none => simp
  | some content =>
    simp only [Res.bind_eq_ok, Prod.exists, Res.pure_eq, Res.ok.injEq, vparse_iff, Option.some.injEq]
    constructor
    · rintro ⟨v, ⟨tail, v', ⟨used, h1, h2⟩, rfl⟩, sig, base, h3, u, h4, rfl⟩
      refine ⟨content, rfl, ?_⟩
      obtain ⟨sig', f0, f1, f2, f3, f4, base', more, rfl, _⟩ := headerShape (VEnc_shape _ _ _ h2)
      simp only [signatureAndBuild, Res.ok.injEq, Prod.mk.injEq] at h3
      obtain ⟨rfl, rfl⟩ := h3
      unfold assertSignature at h4
      split at h4
      · rename_i e
        subst e
        exact ⟨used, tail, f0, f1, f2, f3, f4, more, h1, h2⟩
      · cases h4
    · rintro ⟨c, rfl, used, tail, f0, f1, f2, f3, f4, more, h1, h2⟩
      exact ⟨_, ⟨tail, _, ⟨used, h1, h2⟩, rfl⟩, replaySignature, b, rfl, (), by simp [assertSignature], rfl⟩

theorem checkedBuild_panic {a : Archive} : checkedBuild .release a = .panic ↔ FailsAssertion .release a := by
  unfold checkedBuild readHeader FailsAssertion
  rw [← replaySignature_eq]
  cases ha : a.userData with
  | none => simp
  | some content =>
    simp only [Res.bind_eq_panic, Res.bind_eq_ok, Prod.exists, Res.pure_eq, Res.ok.injEq, vparse_iff, Option.some.injEq,
      vparse_release_ne_panic, reduceCtorEq, false_or, and_false, exists_false, or_false]
    constructor
    · rintro ⟨v, ⟨tail, v', ⟨used, h1, h2⟩, rfl⟩, h⟩
      obtain ⟨sig', f0, f1, f2, f3, f4, base', more, rfl, _⟩ := headerShape (VEnc_shape _ _ _ h2)
      simp only [signatureAndBuild, Res.ok.injEq, Prod.mk.injEq, reduceCtorEq, false_or] at h
      obtain ⟨sig, b, ⟨rfl, rfl⟩, h⟩ := h
      refine ⟨content, _, _, rfl, ⟨used, tail, f0, f1, f2, f3, f4, more, h1, h2⟩, ?_⟩
      intro e
      subst e
      simp [assertSignature] at h
    · rintro ⟨c, sig, b, rfl, ⟨used, tail, f0, f1, f2, f3, f4, more, h1, h2⟩, hne⟩
      refine ⟨_, ⟨tail, _, ⟨used, h1, h2⟩, rfl⟩, Or.inr ⟨sig, b, rfl, ?_⟩⟩
      simp [assertSignature, hne]

theorem dispatch_gameTy (b : Int) (h : 0 ≤ b) : (dispatch b).gameTy = gameTypeFor b := by
  unfold dispatch gameTypeFor
  by_cases h1 : b ≤ 75689
  · rw [if_pos ⟨h, h1⟩, if_pos h1]; rfl
  · rw [if_neg (fun h => h1 h.2), if_neg h1]
    split <;> rfl

/-- **C52.** The game events of a replay are read with the event type of protocol 75689 for base builds up to
75689 and with that of protocol 87702 for all later ones, known or not. -/
theorem C52_game_events (bld : Build) (n : Nat) (a : Archive) (build : Int) (data : List UInt8)
    (hr : IsReplay bld a build) (hs : a.sector "replay.game.events" = .ok data) :
    readGameEventsOf bld n a =
      readLoop (parseTriplet bld (gameTypeFor build)) (convTriplet convGame) (fun c => c.bytes.isEmpty) n ⟨data, 0⟩ [] := by
  obtain ⟨c, _, h⟩ := id hr
  simp only [readGameEventsOf, checkedBuild_ok.mpr hr, andThenRead, hs, dispatch_gameTy build (HeaderSays_range h).1]

/-- **C52.** The other four readers do the same for every build: the two protocols share these types.  The init
data carry the base build as their version. -/
theorem C52_other_readers (bld : Build) (n : Nat) (a : Archive) (build : Int) (trk msg det init : List UInt8)
    (hr : IsReplay bld a build) (h1 : a.sector "replay.tracker.events" = .ok trk)
    (h2 : a.sector "replay.message.events" = .ok msg) (h3 : a.sector "replay.details" = .ok det)
    (h4 : a.sector "replay.initData" = .ok init) :
    readTrackerEventsOf bld n a = readTrackerEvents bld n trk ∧
    readMessageEventsOf bld n a = readMessageEvents bld n msg ∧
    readDetailsOf bld a = readDetails bld det ∧
    (∀ d v, readInitOf bld a = .ok (d, v) ↔ readInit bld init = .ok d ∧ v = build) := by
  have hc := checkedBuild_ok.mpr hr
  refine ⟨by simp [readTrackerEventsOf, hc, andThenRead, h1], by simp [readMessageEventsOf, hc, andThenRead, h2],
    by simp [readDetailsOf, hc, h3], fun d v => ?_⟩
  simp only [readInitOf, hc, h4, Res.bind_ok, Res.bind_eq_ok, Res.pure_eq, Res.ok.injEq, Prod.mk.injEq]
  constructor
  · rintro ⟨a, h, rfl, rfl⟩; exact ⟨h, rfl⟩
  · rintro ⟨h, rfl⟩; exact ⟨d, h, rfl, rfl⟩

/-- **C52.** The lazy iterator, which dispatches on the version stored in the init data, decodes the game events
of a file with the same type as the list reader: the version of init data read from a file is that file's base
build. -/
theorem C52_iterator_agrees {D : Type} (w : World D) (bld : Build) (path : Str) (fsId : Nat) (init : InitFile)
    (h : InitFile.read w bld path fsId = .ok init) :
    ∃ content a, w.file path = .ok content ∧ w.mpq content = .ok a ∧ IsReplay bld a init.version ∧
      gameEventTy init.version.toNat = gameTypeFor init.version := by
  simp only [InitFile.read, InitFile.new, readInitOf, Res.bind_eq_ok, Prod.exists, Res.pure_eq, Res.ok.injEq,
    Prod.mk.injEq] at h
  obtain ⟨content, h1, a, h2, d, v, ⟨b, h3, data, _, d', _, rfl, rfl⟩, rfl⟩ := h
  have hr := checkedBuild_ok.mp h3
  obtain ⟨c, _, hh⟩ := id hr
  have hb := (HeaderSays_range hh).1
  refine ⟨content, a, h1, h2, hr, ?_⟩
  unfold gameEventTy gameTypeFor
  by_cases hle : b ≤ 75689
  · rw [if_pos hle, if_pos (by simp only; omega)]
  · rw [if_neg hle, if_neg (by simp only; omega)]

/-- **C52.** What is not a replay header is an error or a panic for all five readers, never a result. -/
theorem C52_needs_header (bld : Build) (n : Nat) (a : Archive) (h : ∀ b, ¬ IsReplay bld a b) :
    (∀ x, readTrackerEventsOf bld n a ≠ some (.ok x)) ∧ (∀ x, readGameEventsOf bld n a ≠ some (.ok x)) ∧
    (∀ x, readMessageEventsOf bld n a ≠ some (.ok x)) ∧ (∀ x, readDetailsOf bld a ≠ .ok x) ∧
    (∀ x, readInitOf bld a ≠ .ok x) := by
  have hc : ∀ b, checkedBuild bld a ≠ .ok b := fun b e => h b (checkedBuild_ok.mp e)
  unfold readTrackerEventsOf readGameEventsOf readMessageEventsOf readDetailsOf readInitOf andThenRead
  cases hb : checkedBuild bld a with
  | ok b => exact absurd hb (hc b)
  | err e => simp
  | panic => simp

/-! ## Panics -/

/-- **C94 (partial).** In release builds, with an archive library that does not panic, reading details or init data
panics exactly when the archive has no user data block or a header with another signature.  What is missing: these
cases are panics rather than errors, see the refutation. -/
theorem C94_panics_partial (a : Archive) (hs : ∀ name, a.sector name ≠ .panic) :
    (readDetailsOf .release a = .panic ↔ FailsAssertion .release a) ∧
    (readInitOf .release a = .panic ↔ FailsAssertion .release a) := by
  rw [← checkedBuild_panic]
  unfold readDetailsOf readInitOf
  constructor
  · rw [Res.bind_eq_panic]
    refine or_iff_left ?_
    rintro ⟨b, _, h⟩
    exact Res.bind_ne_panic (hs _) (fun _ _ => C90_details_no_panic _) h
  · rw [Res.bind_eq_panic]
    refine or_iff_left ?_
    rintro ⟨b, _, h⟩
    exact Res.bind_ne_panic (hs _) (fun _ _ => Res.bind_ne_panic (C92_init_no_panic _) (fun _ _ => by simp)) h

/-- **C94.** An MPQ archive that is not a replay (say, a map) makes every reader panic: an archive without user
data, and one whose header has a different signature. -/
theorem C94_not_a_replay_refuted (bld : Build) :
    ¬ (∀ (a : Archive), (∀ name, a.sector name ≠ .panic) → readDetailsOf bld a ≠ .panic) ∧
    ¬ (∀ (a : Archive), (∀ name, a.sector name ≠ .panic) → a.userData ≠ none → readDetailsOf bld a ≠ .panic) := by
  constructor
  · intro h
    exact h ⟨none, fun _ => .err .eof⟩ (fun _ => by simp) rfl
  · intro h
    refine h ⟨some (venc P87702.ByteAligned.ReplaySHeader (.struct [.bytes [],
      .struct [.int 1, .int 5, .int 0, .int 11, .int 88500, .int 88500], .int 2, .int 100, .bool true,
      .struct [.none, .bytes []], .int 88500, .struct [.none, .bytes []], .bool false])), fun _ => .err .eof⟩
      (fun _ => by simp) (by simp) ?_
    cases bld <;> decide +kernel

/-- The header of the examples. -/
def exHeader (build : Int) : List UInt8 :=
  venc P87702.ByteAligned.ReplaySHeader (.struct [.bytes replaySignature,
    .struct [.int 1, .int 5, .int 0, .int 11, .int build, .int build], .int 2, .int 100, .bool true,
    .struct [.none, .bytes []], .int build, .struct [.none, .bytes []], .bool false])

/-- The archive of the examples. -/
def exArchive (build : Int) : Archive where
  userData := some (exHeader build)
  sector := fun name => if name = "replay.details" then .ok (venc P87702.ByteAligned.GameSDetails (exDetails (str "Map")))
    else if name = "replay.game.events" then .ok [] else .err .eof

/-- The hypotheses of C52 are met by builds on both sides. -/
example : checkedBuild .debug (exArchive 75689) = .ok 75689 ∧ checkedBuild .release (exArchive 75690) = .ok 75690 := by
  decide +kernel
example : IsReplay .debug (exArchive 75689) 75689 := checkedBuild_ok.mp (by decide +kernel)
example : gameTypeFor 75689 ≠ gameTypeFor 75690 := by
  intro h
  have : bparse .release (gameTypeFor 75689) ⟨27 :: List.replicate 40 0xff, 0⟩ =
    bparse .release (gameTypeFor 75690) ⟨27 :: List.replicate 40 0xff, 0⟩ := by rw [h]
  revert this
  decide +kernel

end S2
