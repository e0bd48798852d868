import Verif.Props.Snapshot
import Verif.Props.Scan
/-! # Joining the tables of a snapshot by `ext_fs_id` -/
namespace S2

/-- The column `ext_fs_id` of a row of any table. -/
def SnapRow.fsId {D : Type} : SnapRow D → Nat
  | .details r => r.fsId
  | .stats r => r.ext_fs_id
  | .upgrades r => r.fsId
  | .unitBorn r => r.fsId
  | .unitDied r => r.fsId
  | .cmdTargetPoint r => r.fsId
  | .cmdTargetUnit r => r.fsId

/-- `r` is a row of replay `init` in table `f`: the row of one of its joined players, or one its events give. -/
def RowOf {D : Type} (w : World D) (bld : Build) (table : BalTable) (arrow : List (SnapRow D) → Bool) (f : SnapFile) (init : InitFile)
    (r : SnapRow D) : Prop :=
  if f = .details then ∃ p d, p ∈ joined w bld init ∧ DetailsRow.of p = .ok d ∧ r = .details d
  else r ∈ (tableWork w bld table (snapRowsOf D f) arrow init).rows

/-- A collector writes the number it is given into every row. -/
theorem snapRowsOf_fsId {D : Type} {f : SnapFile} {i : Nat} {it : Item} {r : SnapRow D} (h : r ∈ snapRowsOf D f i it) : r.fsId = i := by
  cases f with
  | details => simp [snapRowsOf] at h
  | stats =>
    simp only [snapRowsOf, List.mem_map, Option.mem_toList, statsRowOf] at h
    obtain ⟨a, h, rfl⟩ := h
    split at h
    · cases h; rfl
    · cases h
  | upgrades =>
    simp only [snapRowsOf, List.mem_map, Option.mem_toList, upgradeRowOf] at h
    obtain ⟨a, h, rfl⟩ := h
    split at h
    · cases h; rfl
    · cases h
  | unitBorn =>
    simp only [snapRowsOf, List.mem_map, Option.mem_toList, bornRowOf] at h
    obtain ⟨a, h, rfl⟩ := h
    have hu : ∀ {index recycle loop : Int} {hint : Hint}, BornRow.fromUnit i index recycle loop hint = some a → a.fsId = i := by
      intro index recycle loop hint h
      unfold BornRow.fromUnit at h
      split at h
      · cases h; rfl
      · cases h
    split at h
    · unfold BornRow.fromUnitBorn at h
      split at h
      · cases h; rfl
      · cases h
    · exact hu h
    · split at h
      · cases h
      · exact hu h
    · cases h
  | unitDied =>
    simp only [snapRowsOf, List.mem_map, Option.mem_toList, diedRowOf] at h
    obtain ⟨a, h, rfl⟩ := h
    split at h
    · unfold DiedRow.new at h
      split at h
      · cases h; rfl
      · cases h
    · cases h
  | cmdTargetPoint =>
    simp only [snapRowsOf, List.mem_map, cmdPointRowsOf] at h
    obtain ⟨a, h, rfl⟩ := h
    split at h
    · unfold CmdPointRow.new at h
      split at h
      · split at h
        · obtain ⟨u, _, rfl⟩ := List.mem_map.1 h; rfl
        · cases h
      · cases h
    · cases h
  | cmdTargetUnit =>
    simp only [snapRowsOf, List.mem_map, cmdUnitRowsOf] at h
    obtain ⟨a, h, rfl⟩ := h
    split at h
    · unfold CmdUnitRow.new at h
      split at h
      · split at h
        · obtain ⟨u, _, rfl⟩ := List.mem_map.1 h; rfl
        · cases h
      · cases h
    · cases h

theorem collectRows_mem {ρ : Type} {rows : Item → List ρ} {bld : Build} {version n : Nat} {m : MState} {rs : List ρ}
    (h : collectRows rows bld version n m = some (.ok rs)) {r : ρ} (hr : r ∈ rs) : ∃ it, r ∈ rows it := by
  unfold collectRows at h
  split at h
  · cases h
    obtain ⟨it, _, h⟩ := List.mem_flatMap.1 hr
    exact ⟨it, h⟩
  all_goals cases h

theorem joined_meta {D : Type} {w : World D} {bld : Build} {init : InitFile} {p : PlayerLobby D} (h : p ∈ joined w bld init) :
    p.fsId = init.fsId ∧ p.fileName = init.fileName ∧ p.sha256 = init.sha256 := by
  unfold joined at h
  split at h
  · rename_i ps hp
    simp only [lobbyJoin, Res.bind_eq_ok, Res.pure_eq, Res.ok.injEq] at hp
    obtain ⟨det, hd, rfl⟩ := hp
    obtain ⟨q, _, hq⟩ := List.mem_filterMap.1 h
    have hdet : det.fsId = init.fsId := by
      simp only [DetailsFile.ofInit, DetailsFile.new, Res.bind_eq_ok, Res.pure_eq, Res.ok.injEq] at hd
      obtain ⟨_, _, _, _, _, _, _, _, rfl⟩ := hd
      rfl
    unfold lobbyRow at hq
    split at hq
    · cases hq
    · split at hq
      · cases hq
      · cases hq
        exact ⟨hdet, rfl, rfl⟩
  · cases h

theorem detailsRow_meta {D : Type} {p : PlayerLobby D} {d : DetailsRow D} (h : DetailsRow.of p = .ok d) :
    d.fsId = p.fsId ∧ d.fileName = p.fileName ∧ d.sha256 = p.sha256 := by
  simp only [DetailsRow.of, Res.bind_eq_ok, Res.pure_eq, Res.ok.injEq] at h
  obtain ⟨_, _, rfl⟩ := h
  exact ⟨rfl, rfl, rfl⟩

/-- A row carries the number of its replay. -/
theorem RowOf.fsId {D : Type} {w : World D} {bld : Build} {table : BalTable} {arrow : List (SnapRow D) → Bool} {f : SnapFile}
    {init : InitFile} {r : SnapRow D} (h : RowOf w bld table arrow f init r) : r.fsId = init.fsId := by
  unfold RowOf at h
  split at h
  · obtain ⟨p, d, hp, hd, rfl⟩ := h
    exact (detailsRow_meta hd).1.trans (joined_meta hp).1
  · cases ht : tableWork w bld table (snapRowsOf D f) arrow init with
    | skip => rw [ht] at h; cases h
    | crash => rw [ht] at h; cases h
    | batch rs =>
      rw [ht] at h
      obtain ⟨m, _, _, hc⟩ := (tableWork_batch _ _ _ _ _ _ _).1 ht
      obtain ⟨it, hit⟩ := collectRows_mem hc h
      exact snapRowsOf_fsId hit

theorem snapshot_details {D : Type} {w : World D} {bld : Build} {table : BalTable} {arrow : List (SnapRow D) → Bool}
    {sources : List InitFile} {dir : Bool} {rows : List (SnapRow D)} (h : (snapshotJob w bld table arrow sources dir).details = .ok rows) :
    ∃ rs, detailsTable w bld sources = .ok rs ∧ rows = rs.map .details := by
  simp only [snapshotJob, Res.bind_eq_ok] at h
  obtain ⟨rs, h1, h2⟩ := h
  split at h2
  · simp only [Res.pure_eq, Res.ok.injEq] at h2
    exact ⟨rs, h1, h2.symm⟩
  · cases h2

/-- Every row of a file of a snapshot is a row of one of its replays. -/
theorem newFile_rows {D : Type} {w : World D} {bld : Build} {table : BalTable} {arrow : List (SnapRow D) → Bool}
    {sources : List InitFile} {dir : Bool} {f : SnapFile} {blocks : List (List (SnapRow D))}
    (h : NewFile (snapshotJob w bld table arrow sources dir) f (some (.table blocks))) {r : SnapRow D} (hr : r ∈ blocks.flatten) :
    ∃ init ∈ sources, RowOf w bld table arrow f init r := by
  unfold NewFile at h
  split at h
  · rename_i hf
    obtain ⟨rows, hrows, hb⟩ := h
    obtain ⟨rs, h1, rfl⟩ := snapshot_details hrows
    simp only [Option.some.injEq, FileC.table.injEq] at hb
    rw [hb] at hr
    simp only [List.flatten_cons, List.flatten_nil, List.append_nil] at hr
    obtain ⟨d, hd, rfl⟩ := List.mem_map.1 hr
    have hm : Res.ok d ∈ rs.map Res.ok := List.mem_map_of_mem hd
    rw [← detailsTable_ok h1] at hm
    obtain ⟨p, hp, hpd⟩ := List.mem_map.1 hm
    obtain ⟨init, hi, hp⟩ := List.mem_flatMap.1 hp
    exact ⟨init, hi, by unfold RowOf; rw [if_pos hf]; exact ⟨p, d, hp, hpd, rfl⟩⟩
  · rename_i hf
    obtain ⟨b, l, hb, hl, hp⟩ := h
    simp only [Option.some.injEq, FileC.table.injEq] at hb
    subst hb
    obtain ⟨block, hblock, hr⟩ := List.mem_flatten.1 hr
    have hbl := hl.subset (hp.mem_iff.1 hblock)
    have : r ∈ (batches ((snapshotJob w bld table arrow sources dir).works f)).flatten := List.mem_flatten.2 ⟨block, hbl, hr⟩
    rw [batches_flatten] at this
    obtain ⟨work, hw, hr⟩ := List.mem_flatMap.1 this
    obtain ⟨init, hi, rfl⟩ := List.mem_map.1 hw
    exact ⟨init, hi, by unfold RowOf; rw [if_neg hf]; exact hr⟩

/-- In a snapshot that succeeds, the number in column `ext_fs_id` of any row of any of the seven tables is the position of a path
in the list of files; that file was read, its replay was selected and the row is one of this replay.  In the details table the
columns for the file name and the hash are those of this file. -/
theorem C154_ids {D : Type} (w : World D) (bld : Build) (table : BalTable) (arrow : List (SnapRow D) → Bool)
    (minV maxV : Option Int) (processMax : Nat) (split : Option Split) (paths : List Str) (sources : List InitFile)
    (hs : selectSources w bld minV maxV processMax split paths = .ok sources) (dir : Bool) (before now : Disk (SnapRow D))
    (acts : List SnapAct) (h : SnapRun (snapshotJob w bld table arrow sources dir) before acts now (.stopped (.ok ())))
    (f : SnapFile) (blocks : List (List (SnapRow D))) (hb : now f = some (.table blocks)) (r : SnapRow D) (hr : r ∈ blocks.flatten) :
    ∃ path init content, paths[r.fsId]? = some path ∧ w.file path = .ok content ∧ InitFile.read w bld path r.fsId = .ok init ∧
      init ∈ sources ∧ RowOf w bld table arrow f init r ∧
      ∀ d, r = .details d → (utf8Ok path = true → d.fileName = path) ∧ d.sha256 = w.sha256 content := by
  have hn := (C130_success _ _ _ _ h).1 f
  rw [hb] at hn
  obtain ⟨init, hi, hrow⟩ := newFile_rows hn hr
  obtain ⟨⟨path, hp, hread, hname⟩, _⟩ := (C60_selection w bld minV maxV processMax split paths sources hs).1 init hi
  have hc := hread
  simp only [InitFile.read, InitFile.new, Res.bind_eq_ok, Res.pure_eq, Res.ok.injEq] at hc
  obtain ⟨content, hc, _, _, _, _, hinit⟩ := hc
  rw [hrow.fsId]
  refine ⟨path, init, content, hp, hc, hread, hi, hrow, ?_⟩
  rintro d rfl
  unfold RowOf at hrow
  split at hrow
  · obtain ⟨p, d', hp', hd, he⟩ := hrow
    cases he
    obtain ⟨_, e1, e2⟩ := detailsRow_meta hd
    obtain ⟨_, e3, e4⟩ := joined_meta hp'
    refine ⟨fun hu => (e1.trans e3).trans (hname hu), (e2.trans e4).trans ?_⟩
    rw [← hinit]
  · rename_i hf
    cases ht : tableWork w bld table (snapRowsOf D f) arrow init with
    | skip => rw [ht] at hrow; cases hrow
    | crash => rw [ht] at hrow; cases hrow
    | batch rs =>
      rw [ht] at hrow
      obtain ⟨m, _, _, hc⟩ := (tableWork_batch _ _ _ _ _ _ _).1 ht
      obtain ⟨it, hit⟩ := collectRows_mem hc hrow
      cases f with
      | details => exact absurd rfl hf
      | _ =>
        simp only [snapRowsOf, List.mem_map] at hit
        obtain ⟨_, _, h⟩ := hit
        cases h

/-- Rows of any two tables have the same `ext_fs_id` exactly when they are rows of the same replay. -/
theorem C154_same_replay {D : Type} (w : World D) (bld : Build) (table : BalTable) (arrow : List (SnapRow D) → Bool)
    (minV maxV : Option Int) (processMax : Nat) (split : Option Split) (paths : List Str) (sources : List InitFile)
    (hs : selectSources w bld minV maxV processMax split paths = .ok sources)
    (f g : SnapFile) (a b : InitFile) (ha : a ∈ sources) (hb : b ∈ sources) (r s : SnapRow D)
    (hr : RowOf w bld table arrow f a r) (hq : RowOf w bld table arrow g b s) : r.fsId = s.fsId ↔ a = b := by
  rw [hr.fsId, hq.fsId]
  constructor
  · intro he
    have h := (C60_selection w bld minV maxV processMax split paths sources hs).1
    obtain ⟨⟨p, hp, hra, _⟩, _⟩ := h a ha
    obtain ⟨⟨q, hq, hrb, _⟩, _⟩ := h b hb
    rw [he, hq, Option.some.injEq] at hp
    subst hp
    rw [he, hrb, Res.ok.injEq] at hra
    exact hra.symm
  · rintro rfl; rfl

/-- Every joined player of a replay that has a row in one of the tables has a row with the same number in the details table. -/
theorem C154_details_present_partial {D : Type} (w : World D) (bld : Build) (table : BalTable) (arrow : List (SnapRow D) → Bool)
    (sources : List InitFile) (dir : Bool) (before now : Disk (SnapRow D)) (acts : List SnapAct)
    (h : SnapRun (snapshotJob w bld table arrow sources dir) before acts now (.stopped (.ok ())))
    (f : SnapFile) (init : InitFile) (hi : init ∈ sources) (r : SnapRow D) (hr : RowOf w bld table arrow f init r)
    (p : PlayerLobby D) (hp : p ∈ joined w bld init) :
    ∃ rows d, now .details = some (.table [rows]) ∧ SnapRow.details d ∈ rows ∧ DetailsRow.of p = .ok d ∧ d.fsId = r.fsId := by
  have hn := (C130_success _ _ _ _ h).1 .details
  unfold NewFile at hn
  rw [if_pos rfl] at hn
  obtain ⟨rows, h1, h2⟩ := hn
  obtain ⟨rs, h3, rfl⟩ := snapshot_details h1
  have hm : DetailsRow.of p ∈ (sources.flatMap (joined w bld)).map DetailsRow.of :=
    List.mem_map_of_mem (List.mem_flatMap.2 ⟨init, hi, hp⟩)
  rw [detailsTable_ok h3] at hm
  obtain ⟨d, hd, hpd⟩ := List.mem_map.1 hm
  refine ⟨_, d, h2, List.mem_map_of_mem hd, hpd.symm, ?_⟩
  rw [hr.fsId, (detailsRow_meta hpd.symm).1, (joined_meta hp).1]

/-- The replay of `exportWorld` with an empty list of players. -/
def noPlayersWorld : World Nat where
  file := fun _ => .ok [1]
  mpq := fun _ => .ok
    { userData := some (exHeader 88500)
      sector := fun name =>
        if name = "replay.details" then .ok (venc P87702.ByteAligned.GameSDetails (.struct [.none, .bytes (str "Map"), .bytes [],
          .struct [.bytes (str "Minimap.tga")], .bool true, .int 132000000000000000, .int (-36000000000), .none, .bool false,
          .bytes [], .bytes [], .int 0, .bytes [], .some (.list [.bytes [115, 50, 109, 97, 0, 0, 69, 85, 0xab]]), .bool false,
          .choice 4 .unit, .int 3, .none]))
        else if name = "replay.initData" then .ok (exInitBytes exLobby [List.replicate 40 7])
        else if name = "replay.tracker.events" then .ok wTrack
        else if name = "replay.game.events" then .ok wGame
        else .ok [] }
  sha256 := fun _ => str "0123"
  chrono := fun s _ => some s.toNat
  epoch := 0

/-- What is read of it. [proof device, no counterpart in /repo] -/
def noPlayersInit : InitFile :=
  match InitFile.read noPlayersWorld .release (str "a") 0 with
  | .ok x => x
  | _ => default

theorem noPlayers_works (f : SnapFile) : Work.crash ∉ (snapshotJob noPlayersWorld .release [] (fun _ => true) [noPlayersInit] true).works f := by
  have e : (snapshotJob noPlayersWorld .release [] (fun _ => true) [noPlayersInit] true).works f =
      [tableWork noPlayersWorld .release [] (snapRowsOf Nat f) (fun _ => true) noPlayersInit] := rfl
  have h : (match tableWork noPlayersWorld .release [] (snapRowsOf Nat f) (fun _ => true) noPlayersInit with
      | .crash => false
      | _ => true) = true := by
    cases f <;> decide +kernel
  rw [e, List.mem_singleton]
  intro hc
  rw [← hc] at h
  cases h

/-- A replay whose details list no players has events: the upgrades file of its snapshot holds a row whose number is nowhere in the
details table, which is empty. -/
theorem C154_details_present_refuted : ∃ (sources : List InitFile) (acts : List SnapAct) (now : Disk (SnapRow Nat))
    (blocks : List (List (SnapRow Nat))),
    selectSources noPlayersWorld .release none none 5 none [str "a"] = .ok sources ∧
    SnapRun (snapshotJob noPlayersWorld .release [] (fun _ => true) sources true) (fun _ => none) acts now (.stopped (.ok ())) ∧
    now .upgrades = some (.table blocks) ∧ .upgrades ⟨1, str "Stim", 1, 0, 0, 0⟩ ∈ blocks.flatten ∧
    now .details = some (.table [[]]) := by
  have hd : detailsTable noPlayersWorld .release [noPlayersInit] = .ok [] := by decide +kernel
  have hj : (snapshotJob noPlayersWorld .release [] (fun _ => true) [noPlayersInit] true).details = .ok [] := by
    simp [snapshotJob, hd]
  obtain ⟨acts, now, h, _, hf⟩ := C130_rerun_succeeds _ (fun _ => none) [] rfl hj noPlayers_works
  obtain ⟨⟨rows, h1, h2⟩, _, ⟨b, h3, h4⟩, _⟩ := C133_snapshot_contents _ _ _ _ _ _ _ _ _ h hf
  rw [hd, Res.ok.injEq] at h1
  subst h1
  refine ⟨[noPlayersInit], acts, now, b, by decide +kernel, h, h3, ?_, h2⟩
  rw [h4.mem_iff]
  have : sourceRows noPlayersWorld .release [] (fun i it => (upgradeRowOf i it).toList) (fun _ => true) [noPlayersInit] =
    [⟨1, str "Stim", 1, 0, 0, 0⟩] := by decide +kernel
  rw [this]
  simp

/-- The two replays of a list of two files are numbered 0 and 1, and so are the rows of their upgrades. -/
example : (match selectSources exportWorld .release none none 5 none [str "a", str "b"] with
    | .ok xs => (xs.map InitFile.fsId,
        (sourceRows exportWorld .release [] (fun i it => (upgradeRowOf i it).toList) (fun _ => true) xs).map UpgradeRow.fsId,
        (match detailsTable exportWorld .release xs with
          | .ok ds => ds.map (fun d => (d.fsId, d.fileName, d.playerName))
          | _ => []))
    | _ => ([], [], [])) =
    ([0, 1], [0, 1], [(0, str "a", str "Ann"), (0, str "a", str "Bob"), (1, str "b", str "Ann"), (1, str "b", str "Bob")]) := by
  decide +kernel

end S2
