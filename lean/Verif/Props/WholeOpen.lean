import Verif.Props.WholeTables
import Verif.Props.Lobby
import Verif.Props.Time
/-! # Opening a replay written by the published description (C187) -/
namespace S2
open Published

/-- The slot of a player: the first one with the player's id in the working set. [specification] -/
def seat (slots : List LobbySlot) (p : PlayerDetails) : Option LobbySlot :=
  slots.find? (fun s => decide (p.workingSetSlotId.isSome = true ∧ s.workingSetSlotId = p.workingSetSlotId))

/-- The name of a user: that of the last player in the details whose slot has this user. [specification] -/
def Published.Replay.nameOf (r : Replay) (id : Int) : Option Str :=
  ((r.details.playerList.filter (fun p => decide ((seat r.init.lobby.slots p).bind (·.userId) = some id))).getLast?).map (·.name)

theorem seat_first {slots : List LobbySlot} {p : PlayerDetails} {i : Nat} {slot : LobbySlot} (h : FirstSlot slots p i slot) :
    seat slots p = some slot := by
  obtain ⟨h1, id, h2, h3, h4⟩ := h
  unfold seat
  rw [List.find?_eq_some_iff_getElem]
  obtain ⟨hlt, he⟩ := List.getElem?_eq_some_iff.1 h1
  refine ⟨by simp [h2, h3], i, hlt, he, ?_⟩
  intro j hj
  have := h4 j slots[j] hj (List.getElem?_eq_getElem (by omega))
  simp [h2, this]

theorem seat_none {slots : List LobbySlot} {p : PlayerDetails} (h : hasSlot slots p = false) : seat slots p = none := by
  unfold seat
  rw [List.find?_eq_none]
  intro s hs
  simp only [decide_eq_true_eq, not_and]
  intro h1 h2
  unfold hasSlot at h
  rw [h1, Bool.true_and] at h
  have := List.any_eq_false.1 h s hs
  simp [h2] at this

theorem seat_noEmpty (slots : List LobbySlot) (p : PlayerDetails) :
    seat (slots.map LobbySlot.noEmpty) p = (seat slots p).map LobbySlot.noEmpty := by
  unfold seat
  rw [List.find?_map]
  rfl

theorem joined_names {D : Type} (init : InitFile) (det : DetailsFile D) (id : Int) : ∀ l : List PlayerDetails,
    ((l.filterMap (lobbyRow init det)).filter (fun r => decide (r.slot.userId = some id))).map (·.player) =
      l.filter (fun p => decide ((seat init.sync.lobby.slots p).bind (·.userId) = some id))
  | [] => rfl
  | p :: l => by
    have ih := joined_names init det id l
    have hp := lobbyRow_player (init := init) (det := det) (p := p)
    cases h : lobbyRow init det p with
    | none =>
      rw [h] at hp
      have hs : hasSlot init.sync.lobby.slots p = false := by
        cases hh : hasSlot init.sync.lobby.slots p with
        | false => rfl
        | true => rw [hh] at hp; simp at hp
      rw [List.filterMap_cons_none h, ih, List.filter_cons_of_neg (by rw [seat_none hs]; simp)]
    | some row =>
      obtain ⟨i, slot, hf, rfl⟩ := lobbyRow_some.mp h
      rw [List.filterMap_cons_some h]
      have hs := seat_first hf
      by_cases hu : slot.userId = some id
      · rw [List.filter_cons_of_pos (by simpa using hu), List.filter_cons_of_pos (by rw [hs]; simpa using hu), List.map_cons, ih]
      · rw [List.filter_cons_of_neg (by simpa using hu), List.filter_cons_of_neg (by rw [hs]; simpa using hu), ih]

/-- **C187.** A file whose archive holds a replay can be opened, with any filters and any balance data, in both builds: the init data are read, the details
read again and joined, and the iterator starts at the beginning of both event files, with no units, and with exactly the users that have a player of the details, under
that player's name. -/
theorem C187_opens {D : Type} (bld : Build) (w : World D) (r : Replay) (hf : r.Fits) (path : Str) (content : List UInt8) (a : Archive)
    (hp : utf8Ok path = true) (hc : w.file path = .ok content) (ha : w.mpq content = .ok a) (hi : r.In a) (fsId : Nat)
    (table : BalTable) (f : Option Filters) :
    ∃ init m, InitFile.read w bld path fsId = .ok init ∧ openIterator w bld init table f = .ok m ∧
      m = MState.new m.sc2 (r.tracker.flatMap trackerItem) (r.game.flatMap (gameItem r.version)) f ∧
      (∀ k, m.sc2.units k = none) ∧ m.sc2.balance = balanceOf r.header.version.baseBuild table ∧
      ∀ id, getUser m.sc2.users id = (r.nameOf id).map (fun name => ⟨name, none, none, List.replicate 11 [], (0, 0)⟩) := by
  obtain ⟨_, _, _, hd, hr⟩ := C184_readers bld r hf a hi _ (Nat.lt_succ_self _)
  obtain ⟨_, _, _, _, hu64, ho64, _⟩ := hf.details
  obtain ⟨secs, nsecs, ht, _⟩ := Time.C51_exact bld r.details.timeUtc r.details.timeLocalOffset
    (by unfold Published.I64 at hu64; unfold inI64 i64Min i64Max; omega) (by unfold Published.I64 at ho64; unfold inI64 i64Min i64Max; omega)
  have hread : InitFile.read w bld path fsId =
      .ok ⟨fsId, w.sha256 content, path, r.header.version.baseBuild, LobbySync.noEmpty r.init⟩ := by
    unfold InitFile.read InitFile.new pathOrDefault
    simp only [hc, ha, hr, hp, Res.bind_ok, if_true, Res.pure_eq]
  have hof : DetailsFile.ofInit w bld ⟨fsId, w.sha256 content, path, r.header.version.baseBuild, LobbySync.noEmpty r.init⟩ =
      .ok ⟨fsId, (w.chrono secs nsecs).getD w.epoch, r.details⟩ := by
    unfold DetailsFile.ofInit DetailsFile.new Time.transformToNaivetime
    simp only [hc, ha, hd, ht, Res.bind_ok, Res.pure_eq]
  have hopen : ∃ m, openIterator w bld ⟨fsId, w.sha256 content, path, r.header.version.baseBuild, LobbySync.noEmpty r.init⟩ table f = .ok m ∧
      m.sc2.balance = balanceOf r.header.version.baseBuild table := by
    unfold openIterator lobbyJoin
    simp only [hc, ha, hi.2.1, hi.2.2.1, hof, Res.bind_ok, Res.pure_eq, Res.ok.injEq]
    exact ⟨_, rfl, rfl⟩
  obtain ⟨m, hm, hbal⟩ := hopen
  refine ⟨_, m, hread, hm, ?_⟩
  obtain ⟨content', a', trk, game, rows, h1, h2, h3, h4, h5, h6, h7, h8⟩ := C96_initial_state w bld _ table f m hm
  have ec : content' = content := by
    have h1 : w.file path = .ok content' := h1
    rw [hc] at h1; exact (Res.ok.inj h1).symm
  subst ec
  have ea : a' = a := by rw [ha] at h2; exact (Res.ok.inj h2).symm
  subst ea
  rw [hi.2.1] at h3; cases h3
  rw [hi.2.2.1] at h4; cases h4
  refine ⟨h6, h7, hbal, fun id => ?_⟩
  rw [h8 id]
  simp only [lobbyJoin, hof, Res.bind_ok, Res.pure_eq, Res.ok.injEq] at h5
  subst h5
  have hj := joined_names ⟨fsId, w.sha256 content', path, r.header.version.baseBuild, LobbySync.noEmpty r.init⟩
    ⟨fsId, (w.chrono secs nsecs).getD w.epoch, r.details⟩ id r.details.playerList
  unfold Replay.nameOf
  have hseat : (fun p => decide ((seat (LobbySync.noEmpty r.init).lobby.slots p).bind (·.userId) = some id)) =
      (fun p => decide ((seat r.init.lobby.slots p).bind (·.userId) = some id)) := by
    funext p
    show decide ((seat (r.init.lobby.slots.map LobbySlot.noEmpty) p).bind (·.userId) = some id) = _
    rw [seat_noEmpty]
    cases seat r.init.lobby.slots p <;> rfl
  rw [hseat] at hj
  rw [← hj, List.getLast?_map, Option.map_map, Option.map_map]
  rfl

/-- **C187.** In a release build every table of such a file is made, if no event of the game is for a control group above 10. -/
theorem C187_made {ρ D : Type} (rows : Item → List ρ) (w : World D) (r : Replay) (hf : r.Fits) (path : Str) (content : List UInt8) (a : Archive)
    (hp : utf8Ok path = true) (hc : w.file path = .ok content) (ha : w.mpq content = .ok a) (hi : r.In a) (fsId : Nat)
    (hg : ∀ p ∈ r.game, ∀ i, groupIndexOf p.2.2 = some i → i ≤ 10)
    (table : BalTable) (f : Option Filters) (n : Nat) (hn : (r.tracker.flatMap trackerItem).length + (r.game.flatMap (gameItem r.version)).length < n) :
    ∃ init m out, InitFile.read w .release path fsId = .ok init ∧ openIterator w .release init table f = .ok m ∧
      collectRows rows .release init.version.toNat n m = some (.ok out) := by
  obtain ⟨init, m, h1, h2, h3, h4, h5, h6⟩ := C187_opens .release w r hf path content a hp hc ha hi fsId table f
  obtain ⟨players, hn', hs, _⟩ := C96_is_initial w .release init table f m h2
  obtain ⟨init', h1', hv, _⟩ := C185_opened .release w r hf path content a hp hc ha hi fsId
  rw [h1] at h1'; cases h1'
  obtain ⟨out, ho⟩ := C186_made rows r hf players _ hn' (fun p hp _ _ i hi => hg p hp i hi) f n hn
  refine ⟨init, m, out, h1, h2, ?_⟩
  rw [hv, h3, hs]
  exact ho

/-- A disk with the sample archive. [sample data] -/
def wholeWorld : World Nat := ⟨fun _ => .ok [1], fun _ => .ok wholeArchive, fun _ => str "0123", fun secs _ => some secs.toNat, 0⟩

/-- The opened sample knows the user of the player's slot by the player's name, and no other: user 1 sits in a slot without a player. -/
example : ((layoutInit "h").lobby.slots.map (fun s => (s.workingSetSlotId, s.userId))) = [(some 0, some 0), (none, some 1)] ∧
    wholeSample.nameOf 0 = some (str "Serral") ∧ wholeSample.nameOf 1 = none := by decide +kernel

example (fsId : Nat) (table : BalTable) (f : Option Filters) :
    ∃ init m, InitFile.read wholeWorld .debug (str "a.SC2Replay") fsId = .ok init ∧ openIterator wholeWorld .debug init table f = .ok m := by
  obtain ⟨init, m, h1, h2, _⟩ := C187_opens .debug wholeWorld wholeSample wholeSample_fits (str "a.SC2Replay") [1] wholeArchive
    (by decide +kernel) rfl rfl wholeArchive_in fsId table f
  exact ⟨init, m, h1, h2⟩

end S2
