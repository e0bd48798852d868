import Verif.Props.GameExact
import Verif.Props.HeaderLayout
import Verif.Props.Replay
import Verif.Props.MergedMore
import Verif.Props.MergedFilters
import Verif.Spec.WholeReplay
/-! # A replay written by the published description is read back (C184, C185) -/
namespace S2
open Published

theorem replay_build (bld : Build) (r : Replay) (hf : r.Fits) (a : Archive) (hi : r.In a) :
    checkedBuild bld a = .ok r.header.version.baseBuild := by
  obtain ⟨ms, rest, hm, hu⟩ := hi.1
  rw [C183_build bld a r.header hf.header ms hm rest hu, if_pos hf.signature]

theorem header_base (r : Replay) (hf : r.Fits) : 0 ≤ r.header.version.baseBuild :=
  let ⟨h, _⟩ := hf.header.2.1.2.2.2.2.2
  h

theorem dispatch_version (r : Replay) (hf : r.Fits) : (dispatch r.header.version.baseBuild).gameTy = gameEventTy r.version := by
  have h0 := header_base r hf
  rw [dispatch_gameTy _ h0]
  unfold gameTypeFor gameEventTy Replay.version
  by_cases h : r.header.version.baseBuild ≤ 75689
  · rw [if_pos h, if_pos (by omega)]
  · rw [if_neg h, if_neg (by omega)]

/-- **C184.** For every replay and every archive that holds it: the five readers hand out exactly its tracker events, game events, chat, details and
init data, with the base build of its header as version, in both builds; an empty text in chat or init data is read as one zero byte, and game events are
handed out as in C178 (unchanged, but for empty texts, selection masks of other than eight bits, and sequence numbers of the command manager). -/
theorem C184_readers (bld : Build) (r : Replay) (hf : r.Fits) (a : Archive) (hi : r.In a) (n : Nat) (hn : r.eventBytes < n) :
    readTrackerEventsOf bld n a = some (.ok r.tracker) ∧
    readGameEventsOf bld n a = some (.ok (r.game.map heardItem)) ∧
    readMessageEventsOf bld n a = some (.ok (r.chat.map (fun p => (p.1, p.2.1, heard p.2.2)))) ∧
    readDetailsOf bld a = .ok r.details ∧
    readInitOf bld a = .ok (LobbySync.noEmpty r.init, r.header.version.baseBuild) := by
  have hb := replay_build bld r hf a hi
  obtain ⟨_, ht, hg, hc, ⟨md, rd, hmd, hd⟩, ⟨ri, hin⟩⟩ := hi
  unfold Replay.eventBytes at hn
  refine ⟨?_, ?_, ?_, ?_, ?_⟩
  · unfold readTrackerEventsOf
    rw [hb, ht]
    exact C177_tracker bld _ hf.tracker.1 hf.tracker.2 n (by omega)
  · unfold readGameEventsOf
    rw [hb, hg]
    simp only [andThenRead]
    rw [dispatch_version r hf]
    exact C178_exactly bld r.version _ hf.game.1 hf.game.2 n (by omega)
  · unfold readMessageEventsOf
    rw [hb, hc]
    exact C179_exactly bld _ hf.chat.1 hf.chat.2 n (by omega)
  · unfold readDetailsOf
    rw [hb, hd]
    simp only [Res.bind_ok]
    exact C181_details bld r.hidden r.detailHandles r.details hf.details md hmd rd
  · unfold readInitOf
    rw [hb, hin]
    simp only [Res.bind_ok]
    rw [C182_exactly bld r.slots r.initHandles r.init hf.init ri]
    rfl

/-- **C184.** An archive holds at most one replay, as far as the readers can tell: same base build, same events, same details. -/
theorem C184_unambiguous (r s : Replay) (hr : r.Fits) (hs : s.Fits) (a : Archive) (ir : r.In a) (is : s.In a) :
    r.header.version.baseBuild = s.header.version.baseBuild ∧ r.tracker = s.tracker ∧ r.game.map heardItem = s.game.map heardItem ∧ r.details = s.details ∧
    LobbySync.noEmpty r.init = LobbySync.noEmpty s.init := by
  have h1 := C184_readers .release r hr a ir (r.eventBytes + s.eventBytes + 1) (by omega)
  have h2 := C184_readers .release s hs a is (r.eventBytes + s.eventBytes + 1) (by omega)
  obtain ⟨t1, g1, _, d1, i1⟩ := h1
  obtain ⟨t2, g2, _, d2, i2⟩ := h2
  rw [t1] at t2; rw [g1] at g2; rw [d1] at d2; rw [i1] at i2
  simp only [Option.some.injEq, Res.ok.injEq, Prod.mk.injEq] at t2 g2 d2 i2
  exact ⟨i2.2, t2, g2, d2, i2.1⟩

theorem filterMap_all {α β : Type} {f : α → Option β} {g : α → β} : (l : List α) → (∀ p ∈ l, f p = some (g p)) → l.filterMap f = l.map g
  | [], _ => rfl
  | a :: l, h => by
    rw [List.filterMap_cons_some (h a (by simp)), List.map_cons, filterMap_all l (fun b hb => h b (List.mem_cons_of_mem _ hb))]

theorem tracker_timeline (items : List (Int × TrackerEvt)) (h : ∀ p ∈ items, U32 p.1 ∧ Fits p.2) :
    trackerTimeline (items.map (fun p => (p.1, trackerVal p.2))) = (stamped Prod.fst items).map (fun p => (p.1, p.2.2)) := by
  unfold trackerTimeline stamped
  rw [List.zipIdx_map, List.map_map, List.filterMap_map, List.map_map]
  refine filterMap_all _ (fun p hp => ?_)
  have hm : p.1 ∈ items := by
    obtain ⟨q, i⟩ := p
    exact (List.mem_zipIdx' hp).2 ▸ List.getElem_mem _
  simp only [Function.comp_apply, Prod.map_fst, Prod.map_snd, id_eq]
  rw [trackerVal_conv _ (h _ hm).2, ← List.map_take, List.map_map]
  rfl

theorem game_timeline (version : Nat) (items : List (Int × Int × GameEvt)) (h : ∀ p ∈ items, GameItemFits version p ∧ Ends p) :
    gameTimeline (items.map (fun p => (p.1, p.2.1, Val.choice (numVal (heardItem p).2.2).1 (numVal (heardItem p).2.2).2))) =
      (stamped Prod.fst items).map (fun p => (p.1, (heardItem p.2).2)) := by
  unfold gameTimeline stamped
  rw [List.zipIdx_map, List.map_map, List.filterMap_map, List.map_map]
  refine filterMap_all _ (fun p hp => ?_)
  have hm : p.1 ∈ items := by
    obtain ⟨q, i⟩ := p
    exact (List.mem_zipIdx' hp).2 ▸ List.getElem_mem _
  simp only [Function.comp_apply, Prod.map_fst, Prod.map_snd, id_eq]
  rw [show (heardItem p.1).2.2 = heardGame (startOf p.1.1) p.1.2.2 from rfl, numVal_conv _ _ _ (h _ hm).1.2.2, ← List.map_take, List.map_map]
  rfl

/-- The tracker events of a replay with the game loops at which they happen. [specification] -/
def Published.Replay.trackerEvents (r : Replay) : List SEvent := (stamped Prod.fst r.tracker).map (fun p => .tracker p.1 p.2.2)
/-- The game events of a replay as they are handed out (C178) with the game loops at which they happen and the names of their users. [specification] -/
def Published.Replay.gameEvents (r : Replay) (s : SState) : List SEvent :=
  (stamped Prod.fst r.game).map (fun p => .game p.1 p.2.2.1 (userName s p.2.2.1) (heardItem p.2).2.2)

/-- **C185.** The combined iterator over the two event files of a replay: there is one interleaving of its tracker and game events (as handed out, C178), each stamped
with the sum of the deltas up to it, such that calls (as long as none fails) deliver exactly the first events of this interleaving, and `none` after
the last. -/
theorem C185_iterator (bld : Build) (r : Replay) (hf : r.Fits) (s : SState) :
    ∃ es, Interleaving r.trackerEvents (r.gameEvents s) es ∧
      ∀ rs m, Calls (mnext bld r.version) (MState.new s (r.tracker.flatMap trackerItem) (r.game.flatMap (gameItem r.version)) none) rs m →
        (∀ x ∈ rs, ∃ y, x = .ok y) →
        ∃ items, runItems bld s (es.take rs.length) = .ok (items, m.sc2) ∧
          rs = items.map (fun it => .ok (some it)) ++ List.replicate (rs.length - es.length) (.ok none) := by
  have h := C35_merged bld r.version s _ _ _ _ (trackerItems_stream bld _ hf.tracker.2) (fun p hp => by
      obtain ⟨q, hq, rfl⟩ := List.mem_map.1 hp
      simp only
      rw [trackerVal_conv q.2 (hf.tracker.2 q hq).2]
      exact fun h => nomatch h) (heardItems_game_stream bld r.version _ hf.game.2)
  rw [tracker_timeline _ hf.tracker.2, game_timeline r.version _ hf.game.2, List.map_map, List.map_map] at h
  exact h

/-- **C185.** The same in terms of files: whatever iterator is opened on init data read from a file whose archive holds the replay. -/
theorem C185_opened {D : Type} (bld : Build) (w : World D) (r : Replay) (hf : r.Fits) (path : Str) (content : List UInt8) (a : Archive)
    (hp : utf8Ok path = true) (hc : w.file path = .ok content) (ha : w.mpq content = .ok a) (hi : r.In a) (fsId : Nat) :
    ∃ init, InitFile.read w bld path fsId = .ok init ∧ init.version.toNat = r.version ∧ init.sync = LobbySync.noEmpty r.init ∧
      ∀ table m0, openIterator w bld init table none = .ok m0 →
        ∃ es, Interleaving r.trackerEvents (r.gameEvents m0.sc2) es ∧
          ∀ rs m, Calls (mnext bld init.version.toNat) m0 rs m → (∀ x ∈ rs, ∃ y, x = .ok y) →
            ∃ items, runItems bld m0.sc2 (es.take rs.length) = .ok (items, m.sc2) ∧
              rs = items.map (fun it => .ok (some it)) ++ List.replicate (rs.length - es.length) (.ok none) := by
  have hr := (C184_readers bld r hf a hi _ (Nat.lt_succ_self _)).2.2.2.2
  refine ⟨⟨fsId, w.sha256 content, path, r.header.version.baseBuild, LobbySync.noEmpty r.init⟩, ?_, rfl, rfl, ?_⟩
  · unfold InitFile.read InitFile.new pathOrDefault
    simp only [hc, ha, hr, hp, Res.bind_ok, if_true, Res.pure_eq]
  · intro table m0 ho
    unfold openIterator at ho
    simp only [hc, ha, hi.2.1, hi.2.2.1, Res.bind_ok, Res.bind_eq_ok, Res.pure_eq, Res.ok.injEq] at ho
    obtain ⟨_, _, players, _, rfl⟩ := ho
    exact C185_iterator bld r hf _

/-- **C185.** While the game takes no more than 2²⁴ loops, the events come in the order of their times, whatever the filters. -/
theorem C185_ordered (bld : Build) (r : Replay) (hf : r.Fits) (s : SState) (hb : ∀ i ≤ r.game.length, ((r.game.take i).map Prod.fst).sum ≤ 2 ^ 24)
    (o : Option Filters) (rs : List (Res (Option Item))) (m : MState)
    (hc : Calls (mnext bld r.version) (MState.new s (r.tracker.flatMap trackerItem) (r.game.flatMap (gameItem r.version)) o) rs m)
    (hok : ∀ x ∈ rs, ∃ y, x = .ok y) : ((rs.flatMap yielded).map Item.event).Pairwise InOrder := by
  refine C36_ordered_partial bld r.version s _ _ _ _ (trackerItems_stream bld _ hf.tracker.2) (fun p hp => by
      obtain ⟨q, hq, rfl⟩ := List.mem_map.1 hp
      simp only
      rw [trackerVal_conv q.2 (hf.tracker.2 q hq).2]
      exact fun h => nomatch h) (heardItems_game_stream bld r.version _ hf.game.2) ?_ o rs m hc hok
  rw [game_timeline r.version _ hf.game.2]
  intro g hg
  obtain ⟨p, hp, rfl⟩ := List.mem_map.1 hg
  unfold stamped at hp
  obtain ⟨q, hq, rfl⟩ := List.mem_map.1 hp
  obtain ⟨x, i⟩ := q
  have hi := (List.mem_zipIdx' hq).1
  exact hb (i + 1) (by omega)

/-- **C185.** Every call returns, and the calls deliver at most as many events as the replay has bytes of events. -/
theorem C185_returns (bld : Build) (r : Replay) (s : SState) (o : Option Filters) (rs : List (Res (Option Item))) (m : MState)
    (hc : Calls (mnext bld r.version) (MState.new s (r.tracker.flatMap trackerItem) (r.game.flatMap (gameItem r.version)) o) rs m) :
    (∃ x, mnext bld r.version (r.eventBytes + 1) m = some x) ∧ (rs.flatMap yielded).length ≤ r.eventBytes := by
  have h1 := C84_every_call_returns bld r.version s _ _ o rs m hc (r.eventBytes + 1) (by unfold Replay.eventBytes; omega)
  have h2 := C84_bounded_events bld r.version s _ _ o rs m hc
  exact ⟨h1, by unfold Replay.eventBytes; omega⟩

/-- A replay of three tracker events, the game events and chat of the other samples. [sample data] -/
def wholeSample : Replay :=
  ⟨layoutHeader, layoutSample, gameSample, [(3, 1, ⟨0, []⟩), (4, 2, ⟨1, str "gg"⟩)], layoutDetails, fun _ => str "x", [[0x73, 0x32]],
   layoutInit "h", layoutSlots, [List.replicate 40 0xab]⟩

theorem wholeSample_fits : wholeSample.Fits where
  header := layoutHeader_fits
  signature := rfl
  tracker := layoutSample_fits
  game := ⟨List.cons_ne_nil _ _, fun p hp => ⟨(gameSample_fits p hp).1, plain_ends p (gameSample_fits p hp).2⟩⟩
  chat := ⟨List.cons_ne_nil _ _, chatSample_fits⟩
  details := layoutDetails_fit
  init := layoutInit_fits

/-- An archive with the header and the details in reversed order. [sample data] -/
def wholeArchive : Archive :=
  ⟨some (numbered (headerMembers layoutHeader).reverse ++ [1, 2]), fun name =>
    if name = "replay.tracker.events" then .ok (wholeSample.tracker.flatMap trackerItem)
    else if name = "replay.game.events" then .ok (wholeSample.game.flatMap (gameItem wholeSample.version))
    else if name = "replay.message.events" then .ok (wholeSample.chat.flatMap chatItem)
    else if name = "replay.details" then
      .ok (numbered (detailsMembers wholeSample.hidden wholeSample.detailHandles wholeSample.details).reverse ++ [9])
    else if name = "replay.initData" then .ok (pack (initData wholeSample.slots wholeSample.initHandles wholeSample.init 0) ++ [])
    else .err .tag⟩

theorem wholeArchive_in : wholeSample.In wholeArchive :=
  ⟨⟨_, _, List.reverse_perm _, rfl⟩, rfl, rfl, rfl, ⟨_, _, List.reverse_perm _, rfl⟩, ⟨_, rfl⟩⟩

example : readDetailsOf .debug wholeArchive = .ok layoutDetails ∧
    readInitOf .debug wholeArchive = .ok (LobbySync.noEmpty (layoutInit "h"), 87702) :=
  (C184_readers .debug wholeSample wholeSample_fits wholeArchive wholeArchive_in _ (Nat.lt_succ_self _)).2.2.2

example : wholeSample.trackerEvents.map SEvent.time = [0, 70, 20070] := by decide +kernel

/-- `C185` on the sample: nine calls deliver the first nine of its ten events. -/
example : (delivers .release demoState (wholeSample.tracker.flatMap trackerItem) (wholeSample.game.flatMap (gameItem wholeSample.version)) none 9).isSome = true := by
  decide +kernel

end S2
