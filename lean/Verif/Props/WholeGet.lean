import Verif.Props.WholeExport
import Verif.Props.Cli
/-! # `get` on a file that holds a written replay (C189) -/
namespace S2
open Published Cli

/-- **C189.** `get message-events` prints the chat between brackets, `get details` the details, `get init-data` the init data of a written replay, whatever the
options; in both builds. -/
theorem C189_documents {D : Type} (w : World D) (bld : Build) (table : BalTable) (args : Args) (r : Replay) (hf : r.Fits) (path : Str) (content : List UInt8)
    (a : Archive) (hp : utf8Ok path = true) (hc : w.file path = .ok content) (ha : w.mpq content = .ok a) (hi : r.In a) :
    getSource w bld table args .messageEvents path =
      (.lb :: r.chat.map (fun p => .json (.message p.1 p.2.1 (heard p.2.2))) ++ [.rb], .ok ()) ∧
    getSource w bld table args .details path = ([.json (.details r.details)], .ok ()) ∧
    getSource w bld table args .initData path =
      ([.json (.init ⟨0, w.sha256 content, path, r.header.version.baseBuild, LobbySync.noEmpty r.init⟩)], .ok ()) := by
  obtain ⟨_, _, _, hd, hr⟩ := C184_readers bld r hf a hi _ (Nat.lt_succ_self _)
  have ho : Opened w bld path a ⟨0, w.sha256 content, path, r.header.version.baseBuild, LobbySync.noEmpty r.init⟩ :=
    ⟨hp, content, hc, ha, by
      unfold InitFile.new
      simp only [hr, Res.bind_ok, Res.pure_eq]⟩
  rw [getSource_opened ho, getSource_opened ho, getSource_opened ho]
  refine ⟨?_, ?_, rfl⟩
  · have hb := replay_build bld r hf a hi
    have hm := hi.2.2.2.1
    have := C179_exactly bld _ hf.chat.1 hf.chat.2 ((r.chat.flatMap chatItem).length + 1) (by omega)
    simp only [printReplay, messageRounds, readMessageEventsOf, hb, hm, andThenRead, this, List.map_map]
    rfl
  · simp only [printReplay, hd]

theorem forEach_all {bld : Build} {version : Nat} : ∀ {n : Nat} {m : MState} {its : List Item},
    collectItems bld version n m = some (.ok its) → forEach bld version n m = (its, .ok ())
  | 0, m, its, h => by simp [collectItems] at h
  | n + 1, m, its, h => by
    rw [collectItems] at h
    rw [forEach]
    cases hm : mnext bld version (n + 1) m with
    | none => rw [hm] at h; cases h
    | some p =>
      obtain ⟨x, m'⟩ := p
      rw [hm] at h
      match x, h with
      | .ok .none, h => cases h; rfl
      | .ok (some it), h =>
        dsimp only at h ⊢
        cases hc : collectItems bld version n m' with
        | none => rw [hc] at h; cases h
        | some y =>
          rw [hc] at h
          cases y with
          | ok its' =>
            simp only [Option.some.injEq, Res.ok.injEq] at h
            subst h
            rw [forEach_all hc]
          | err e => cases h
          | panic => cases h

theorem printEvents_written {D : Type} (w : World D) (table : BalTable) (s : Written) (hs : s.On w) (init : InitFile)
    (hinit : InitFile.read w .release s.path s.fsId = .ok init) (keep : Item → Bool) :
    ∃ out, printEvents w .release table init keep = (out, .ok ()) := by
  obtain ⟨_, its, _, hw, _⟩ := written_batch (fun _ it => [it]) (fun _ => true) (fun _ => rfl) w s hs table init hinit
  obtain ⟨m, hm, _, hcol⟩ := (tableWork_batch w .release table (fun _ it => [it]) (fun _ => true) init its).1 hw
  unfold collectRows at hcol
  split at hcol
  · rename_i its' hc
    unfold printEvents
    rw [hm]
    dsimp only
    rw [forEach_all hc]
    exact ⟨_, rfl⟩
  · cases hcol
  · cases hcol
  · cases hcol

/-- **C189.** In a release build `get tracker-events` and `get game-events` print, between brackets, one item for every tracker (game) event of a written replay without
events for control groups above 10, in the order of the file and with the sums of the deltas as loops: the items of an interleaving of exactly its events. -/
theorem C189_events {D : Type} (w : World D) (table : BalTable) (args : Args) (r : Replay) (path : Str) (hs : (Written.mk 0 path r).On w) :
    (∃ s es all s2, Interleaving r.trackerEvents (r.gameEvents s) es ∧ runItems .release s es = .ok (all, s2) ∧
      getSource w .release table args .trackerEvents path =
        (.lb :: (all.filter (fun i => i.event.isTracker)).map (fun i => .json (.item i)) ++ [.rb], .ok ()) ∧
      (all.filter (fun i => i.event.isTracker)).map (fun i => i.event.time) = r.trackerEvents.map SEvent.time) ∧
    (∃ s es all s2, Interleaving r.trackerEvents (r.gameEvents s) es ∧ runItems .release s es = .ok (all, s2) ∧
      getSource w .release table args .gameEvents path =
        (.lb :: (all.filter (fun i => !i.event.isTracker)).map (fun i => .json (.item i)) ++ [.rb], .ok ()) ∧
      (all.filter (fun i => !i.event.isTracker)).map (fun i => i.event.time) = (stamped Prod.fst r.game).map Prod.fst) := by
  have hs' := hs
  obtain ⟨hf, hp, ⟨content, a, hc, ha, hi⟩, hg⟩ := hs
  obtain ⟨init, hread, hv, _⟩ := C185_opened .release w r hf path content a hp hc ha hi 0
  have ho : Opened w .release path a init := ⟨hp, content, hc, ha, by
    unfold InitFile.read pathOrDefault at hread
    simp only [hc, ha, hp, Res.bind_ok, if_true] at hread
    exact hread⟩
  have hst := heardItems_game_stream .release r.version _ hf.game.2
  rw [← hv] at hst
  have ht := tracker_timeline _ hf.tracker.2
  have hgt := game_timeline r.version _ hf.game.2
  have e1 : (r.trackerTimes).map trackerSEvent = r.trackerEvents := by
    unfold Replay.trackerEvents Replay.trackerTimes
    rw [List.map_map]
    rfl
  have e2 : ∀ s, ((stamped Prod.fst r.game).map (fun p => (p.1, (heardItem p.2).2))).map (gameSEvent s) = r.gameEvents s := by
    intro s
    unfold Replay.gameEvents
    rw [List.map_map]
    rfl
  obtain ⟨o1, h1⟩ := printEvents_written w table _ hs' init hread isTrackerEvent
  obtain ⟨o2, h2⟩ := printEvents_written w table _ hs' init hread isGameEvent
  have g1 : getSource w .release table args .trackerEvents path = (o1, .ok ()) := by rw [getSource_opened ho]; exact h1
  have g2 : getSource w .release table args .gameEvents path = (o2, .ok ()) := by rw [getSource_opened ho]; exact h2
  have c1 := (C135_events w .release table args path a init ho _ _ hi.2.1 (by rw [hv]; exact hi.2.2.1) _ _ (trackerItems_stream .release _ hf.tracker.2)
    (replay_hutf r hf) hst o1).1 g1
  have c2 := (C135_events w .release table args path a init ho _ _ hi.2.1 (by rw [hv]; exact hi.2.2.1) _ _ (trackerItems_stream .release _ hf.tracker.2)
    (replay_hutf r hf) hst o2).2 g2
  constructor
  · obtain ⟨s, es, all, s2, _, k2, k3, k4, k5⟩ := c1
    rw [ht, hgt, e2] at k2
    rw [ht] at k5
    refine ⟨s, es, all, s2, ?_, k3, ?_, ?_⟩
    · rw [← e1]; exact k2
    · rw [g1, k4]
    · rw [k5, ← e1]
      unfold Replay.trackerTimes
      simp only [List.map_map]
      rfl
  · obtain ⟨s, es, all, s2, _, k2, k3, k4, k5⟩ := c2
    rw [ht, hgt, e2] at k2
    rw [hgt] at k5
    refine ⟨s, es, all, s2, ?_, k3, ?_, ?_⟩
    · rw [← e1]; exact k2
    · rw [g2, k4]
    · rw [k5, List.map_map]
      rfl

/-- The sample of C188 again: `get message-events` on it prints its two messages. -/
example (table : BalTable) (args : Args) : (getSource wholeWorld .debug table args .messageEvents (str "a.SC2Replay")).1.length = 4 := by
  rw [(C189_documents wholeWorld .debug table args wholeSample wholeSample_fits (str "a.SC2Replay") [1] wholeArchive (by decide +kernel) rfl rfl
    wholeArchive_in).1]
  rfl

end S2
