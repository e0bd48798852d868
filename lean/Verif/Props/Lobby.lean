import Verif.Props.Replay
import Verif.Spec.StateSpec
import Verif.State.UserLemmas
/-! # The lobby join, the initial replay state, the balance table, the name filter -/
namespace S2

/-! ## The join -/

theorem sameSlot_iff {s : LobbySlot} {p : PlayerDetails} :
    sameSlot s p = true ↔ ∃ id, p.workingSetSlotId = some id ∧ s.workingSetSlotId = some id := by
  unfold sameSlot
  cases h1 : s.workingSetSlotId with
  | none => simp
  | some a =>
    cases h2 : p.workingSetSlotId with
    | none => simp
    | some b => simp

theorem slotIndex_some : ∀ (slots : List LobbySlot) (p : PlayerDetails) (k i : Nat),
    slotIndex p k slots = some i ↔ ∃ j s, i = k + j ∧ slots[j]? = some s ∧ sameSlot s p = true ∧
      ∀ j' s', j' < j → slots[j']? = some s' → sameSlot s' p = false
  | [], p, k, i => by simp [slotIndex]
  | s :: ss, p, k, i => by
    unfold slotIndex
    by_cases h : sameSlot s p = true
    · rw [if_pos h]
      constructor
      · rintro ⟨⟩
        exact ⟨0, s, rfl, rfl, h, fun j' s' hj => absurd hj (Nat.not_lt_zero _)⟩
      · rintro ⟨j, s1, rfl, h1, h2, h3⟩
        cases j with
        | zero => rfl
        | succ j => have := h3 0 s (by omega) rfl; simp [h] at this
    · rw [if_neg h, slotIndex_some ss p (k + 1) i]
      constructor
      · rintro ⟨j, s1, rfl, h1, h2, h3⟩
        refine ⟨j + 1, s1, by omega, by simpa using h1, h2, fun j' s' hj hs => ?_⟩
        cases j' with
        | zero => simp only [List.getElem?_cons_zero, Option.some.injEq] at hs; subst hs; simpa using h
        | succ j' => exact h3 j' s' (by omega) (by simpa using hs)
      · rintro ⟨j, s1, rfl, h1, h2, h3⟩
        cases j with
        | zero => simp only [List.getElem?_cons_zero, Option.some.injEq] at h1; subst h1; exact absurd h2 h
        | succ j =>
          exact ⟨j, s1, by omega, by simpa using h1, h2, fun j' s' hj hs => h3 (j' + 1) s' (by omega) (by simpa using hs)⟩

theorem FirstSlot_iff {slots : List LobbySlot} {p : PlayerDetails} {i : Nat} :
    slotIndex p 0 slots = some i ↔ ∃ s, FirstSlot slots p i s := by
  rw [slotIndex_some]
  constructor
  · rintro ⟨j, s, rfl, h1, h2, h3⟩
    obtain ⟨id, hp, hs⟩ := sameSlot_iff.mp h2
    rw [Nat.zero_add]
    refine ⟨s, h1, id, hp, hs, fun j' s' hj hs' e => ?_⟩
    have := h3 j' s' hj hs'
    rw [sameSlot_iff.mpr ⟨id, hp, e⟩] at this
    cases this
  · rintro ⟨s, h1, id, hp, hs, h3⟩
    refine ⟨i, s, by omega, h1, sameSlot_iff.mpr ⟨id, hp, hs⟩, fun j' s' hj hs' => ?_⟩
    cases h : sameSlot s' p
    · rfl
    · obtain ⟨id', hp', hs''⟩ := sameSlot_iff.mp h
      rw [hp] at hp'; cases hp'
      exact absurd hs'' (h3 j' s' hj hs')

theorem lobbyRow_some {D : Type} {init : InitFile} {det : DetailsFile D} {p : PlayerDetails} {row : PlayerLobby D} :
    lobbyRow init det p = some row ↔ ∃ i slot, FirstSlot init.sync.lobby.slots p i slot ∧
      row = { player := p, slot := slot, title := det.details.title, description := init.sync.description,
              timeUtc := det.details.timeUtc, timeLocalOffset := det.details.timeLocalOffset,
              userName := (init.sync.users[i]?.map (·.name)).getD [],
              clanTag := (init.sync.users[i]?.bind (·.clanTag)).getD [],
              cacheHandles := det.details.cacheHandles, sha256 := init.sha256, fileName := init.fileName,
              fsId := det.fsId, datetime := det.datetime } := by
  unfold lobbyRow
  cases h : slotIndex p 0 init.sync.lobby.slots with
  | none =>
    simp only [reduceCtorEq, false_iff, not_exists, not_and]
    intro i slot hf
    have := FirstSlot_iff.mpr ⟨slot, hf⟩
    rw [h] at this; cases this
  | some i =>
    obtain ⟨s, hf⟩ := FirstSlot_iff.mp h
    simp only [hf.1, Option.some.injEq]
    constructor
    · rintro rfl
      refine ⟨i, s, hf, ?_⟩
      cases init.sync.users[i]? <;> rfl
    · rintro ⟨i', s', hf', rfl⟩
      have e := FirstSlot_iff.mpr ⟨s', hf'⟩
      rw [h] at e; cases e
      have e := hf.1.symm.trans hf'.1
      cases e
      cases init.sync.users[i]? <;> rfl

/-- Does some lobby slot carry the working set slot id of the player? -/
def hasSlot (slots : List LobbySlot) (p : PlayerDetails) : Bool :=
  p.workingSetSlotId.isSome && slots.any (fun s => s.workingSetSlotId = p.workingSetSlotId)

theorem slotIndex_none {slots : List LobbySlot} {p : PlayerDetails} :
    ∀ k, slotIndex p k slots = none ↔ hasSlot slots p = false := by
  unfold hasSlot
  induction slots with
  | nil => simp [slotIndex]
  | cons s ss ih =>
    intro k
    unfold slotIndex
    by_cases h : sameSlot s p = true
    · obtain ⟨id, hp, hs⟩ := sameSlot_iff.mp h
      simp [h, hp, hs]
    · have h' : ¬ ∃ id, p.workingSetSlotId = some id ∧ s.workingSetSlotId = some id := fun e => h (sameSlot_iff.mpr e)
      rw [if_neg h, ih (k + 1)]
      cases hp : p.workingSetSlotId with
      | none => simp
      | some a =>
        have : s.workingSetSlotId ≠ some a := fun e => h' ⟨a, hp, e⟩
        simp [this]

theorem lobbyRow_player {D : Type} {init : InitFile} {det : DetailsFile D} {p : PlayerDetails} :
    (lobbyRow init det p).map (·.player) = if hasSlot init.sync.lobby.slots p then some p else none := by
  cases h : lobbyRow init det p with
  | some row =>
    obtain ⟨i, slot, hf, rfl⟩ := lobbyRow_some.mp h
    have hi := FirstSlot_iff.mpr ⟨slot, hf⟩
    cases hh : hasSlot init.sync.lobby.slots p with
    | true => rfl
    | false => rw [(slotIndex_none 0).mpr hh] at hi; cases hi
  | none =>
    cases hi : slotIndex p 0 init.sync.lobby.slots with
    | none => rw [(slotIndex_none 0).mp hi]; rfl
    | some i =>
      obtain ⟨s, hf⟩ := FirstSlot_iff.mp hi
      have := (lobbyRow_some (det := det) (init := init)).mpr ⟨i, s, hf, rfl⟩
      rw [h] at this; cases this

/-- **C54.** The join of details and lobby: the players whose working set slot id occurs in a lobby slot, in the
order of the details, each paired with the first slot of that id; the other members are those of the details and
the init data. -/
theorem C54_join {D : Type} (w : World D) (bld : Build) (init : InitFile) (rows : List (PlayerLobby D))
    (h : lobbyJoin w bld init = .ok rows) :
    ∃ det, DetailsFile.ofInit w bld init = .ok det ∧
      rows.map (·.player) = det.details.playerList.filter (hasSlot init.sync.lobby.slots) ∧
      ∀ row ∈ rows, (∃ i, FirstSlot init.sync.lobby.slots row.player i row.slot) ∧
        row.title = det.details.title ∧ row.description = init.sync.description ∧
        row.timeUtc = det.details.timeUtc ∧ row.timeLocalOffset = det.details.timeLocalOffset ∧
        row.cacheHandles = det.details.cacheHandles ∧ row.sha256 = init.sha256 ∧ row.fileName = init.fileName ∧
        row.fsId = init.fsId ∧ row.datetime = det.datetime := by
  simp only [lobbyJoin, Res.bind_eq_ok, Res.pure_eq, Res.ok.injEq] at h
  obtain ⟨det, hd, rfl⟩ := h
  have hid : det.fsId = init.fsId := by
    simp only [DetailsFile.ofInit, DetailsFile.new, Res.bind_eq_ok, Res.pure_eq, Res.ok.injEq] at hd
    obtain ⟨_, _, _, _, _, _, _, _, rfl⟩ := hd
    rfl
  refine ⟨det, hd, ?_, ?_⟩
  · rw [List.map_filterMap]
    simp only [lobbyRow_player]
    induction det.details.playerList with
    | nil => rfl
    | cons p ps ih => cases hp : hasSlot init.sync.lobby.slots p <;> simp [hp, ih]
  · intro row hrow
    obtain ⟨p, _, hp⟩ := List.mem_filterMap.mp hrow
    obtain ⟨i, slot, hf, rfl⟩ := lobbyRow_some.mp hp
    exact ⟨⟨i, hf⟩, rfl, rfl, rfl, rfl, rfl, rfl, rfl, hid, rfl⟩

theorem nodup_of_map {α β : Type} (f : α → β) : ∀ {l : List α}, (l.map f).Nodup → l.Nodup
  | [], _ => List.nodup_nil
  | a :: l, h => by
    rw [List.map_cons, List.nodup_cons] at h
    exact List.nodup_cons.mpr ⟨fun hm => h.1 (List.mem_map.mpr ⟨a, hm, rfl⟩), nodup_of_map f h.2⟩

/-- **C54.** If no two players have the same working set slot id, no two rows have the same slot. -/
theorem C54_distinct {D : Type} (w : World D) (bld : Build) (init : InitFile) (rows : List (PlayerLobby D))
    (det : DetailsFile D) (h : lobbyJoin w bld init = .ok rows) (hd : DetailsFile.ofInit w bld init = .ok det)
    (hn : ((det.details.playerList.filterMap (·.workingSetSlotId))).Nodup) :
    (rows.map (·.slot)).Nodup := by
  obtain ⟨det', hd', hp, hrows⟩ := C54_join w bld init rows h
  rw [hd] at hd'; cases hd'
  have h1 : (rows.map (·.player)).filterMap (·.workingSetSlotId) = rows.map (fun r => r.slot.workingSetSlotId.getD 0) := by
    clear hp h
    induction rows with
    | nil => rfl
    | cons r rs ih =>
      obtain ⟨⟨i, _, id, e1, e2, _⟩, _⟩ := hrows r (by simp)
      simp [e1, e2, ih (fun r hr => hrows r (by simp [hr]))]
  have h2 : (rows.map (fun r => r.slot.workingSetSlotId.getD 0)).Nodup := by
    rw [← h1, hp]
    exact hn.sublist (List.Sublist.filterMap _ List.filter_sublist)
  have h3 : rows.map (fun r => r.slot.workingSetSlotId.getD 0) =
      (rows.map (·.slot)).map (fun s => s.workingSetSlotId.getD 0) := by simp
  rw [h3] at h2
  exact nodup_of_map _ h2

/-- **C54.** The join succeeds whenever the details of the file can be read again. -/
theorem C54_total {D : Type} (w : World D) (bld : Build) (init : InitFile) (det : DetailsFile D)
    (hd : DetailsFile.ofInit w bld init = .ok det) : ∃ rows, lobbyJoin w bld init = .ok rows := by
  exact ⟨det.details.playerList.filterMap (lobbyRow init det), by simp [lobbyJoin, hd]⟩

/-! ## An example file -/

/-- Init data of the example: the first player sits in slot 0 but is user 1. -/
def exLobby : LobbySync :=
  exInit [exUser "Ann" (some "TAG"), exUser "Bob" none]
    [exSlot (some 1) (some 1) "h", exSlot (some 0) (some 0) "h"] "cache" [List.replicate 40 7]

/-- A world with one file, a replay with this init data. -/
def exWorld (d : LobbySync) : World Nat where
  file := fun _ => .ok [1]
  mpq := fun _ => .ok
    { userData := some (exHeader 88500)
      sector := fun name =>
        if name = "replay.details" then .ok (venc P87702.ByteAligned.GameSDetails (exDetails (str "Map")))
        else if name = "replay.initData" then .ok (exInitBytes d [List.replicate 40 7])
        else .ok [] }
  sha256 := fun _ => str "0123"
  chrono := fun s _ => some s.toNat
  epoch := 0

/-- What is read from the example file. -/
def exInitFile (d : LobbySync) : InitFile := ⟨7, str "0123", str "a.SC2Replay", 88500, d⟩

set_option maxRecDepth 100000 in
theorem exInitFile_read : InitFile.read (exWorld exLobby) .release (str "a.SC2Replay") 7 = .ok (exInitFile exLobby) := by
  decide +kernel

/-- The rows of a join, or none. -/
def rowsOf {D : Type} (r : Res (List (PlayerLobby D))) : List (PlayerLobby D) :=
  match r with
  | .ok rows => rows
  | _ => []

theorem exJoin_isOk : (lobbyJoin (exWorld exLobby) .release (exInitFile exLobby)).isOk = true := by decide +kernel

theorem exJoin : lobbyJoin (exWorld exLobby) .release (exInitFile exLobby) =
    .ok (rowsOf (lobbyJoin (exWorld exLobby) .release (exInitFile exLobby))) := by
  have h := exJoin_isOk
  revert h
  cases lobbyJoin (exWorld exLobby) .release (exInitFile exLobby) <;> simp [Res.isOk, rowsOf]

/-- The join of the example: Ann has working set slot 0, which is lobby slot 1. -/
example : (rowsOf (lobbyJoin (exWorld exLobby) .release (exInitFile exLobby))).map
    (fun r => (r.player.name, r.slot.userId, r.userName)) =
    [(str "Ann", some 0, str "Bob"), (str "Bob", some 1, str "Ann")] := by decide +kernel

/-! ## The user name of a row -/

/-- **C95 (partial).** A row's user name and clan tag are those of the user initial data at the index of the
*slot*.  When every slot `i` that has a user has user `i`, that is the user in the slot.  What is missing: lobbies
where users and slots are numbered differently, see the refutation. -/
theorem C95_user_name_partial {D : Type} (w : World D) (bld : Build) (init : InitFile) (rows : List (PlayerLobby D))
    (h : lobbyJoin w bld init = .ok rows)
    (hid : ∀ (i : Nat) s id, init.sync.lobby.slots[i]? = some s → s.userId = some id → id = (i : Int)) :
    ∀ row ∈ rows, ∀ (id : Int) u, row.slot.userId = some id → init.sync.users[id.toNat]? = some u →
      row.userName = u.name ∧ row.clanTag = u.clanTag.getD [] := by
  simp only [lobbyJoin, Res.bind_eq_ok, Res.pure_eq, Res.ok.injEq] at h
  obtain ⟨det, hd, rfl⟩ := h
  intro row hrow id u h1 h2
  obtain ⟨p, _, hp⟩ := List.mem_filterMap.mp hrow
  obtain ⟨i, slot, hf, rfl⟩ := lobbyRow_some.mp hp
  have := hid i slot id hf.1 h1
  subst this
  have h2 : init.sync.users[i]? = some u := by simpa using h2
  simp [h2]

/-- **C95.** In general it is the name of another user. -/
theorem C95_user_name_refuted : ¬ ∀ (w : World Nat) (path : Str) (init : InitFile) (rows : List (PlayerLobby Nat)),
    InitFile.read w .release path 7 = .ok init → lobbyJoin w .release init = .ok rows →
    ∀ row ∈ rows, ∀ (id : Int) u, row.slot.userId = some id → init.sync.users[id.toNat]? = some u →
      row.userName = u.name := by
  intro h
  have h1 := h _ _ _ _ exInitFile_read exJoin
  have h2 : ∀ row ∈ rowsOf (lobbyJoin (exWorld exLobby) .release (exInitFile exLobby)), row.slot.userId = some 0 →
      row.userName = str "Ann" := fun row hr hs => h1 row hr 0 (exUser "Ann" (some "TAG")) hs rfl
  revert h2
  decide +kernel

/-! ## The initial state of the combined iterator -/

theorem getUser_insertUser (users : List (Int × UserState)) (id j : Int) (v : UserState) :
    getUser (insertUser users id v) j = if j = id then some v else getUser users j := by
  induction users with
  | nil =>
    by_cases h : j = id
    · simp [insertUser, getUser, h]
    · simp [insertUser, getUser, h, Ne.symm h]
  | cons p rest ih =>
    obtain ⟨k, u⟩ := p
    unfold insertUser
    by_cases hk : k = id
    · rw [if_pos hk]
      subst hk
      by_cases h : j = k
      · simp [getUser, h]
      · simp [getUser, h, Ne.symm h]
    · rw [if_neg hk]
      unfold getUser
      by_cases h : k = j
      · subst h; simp [hk]
      · rw [if_neg h, ih, if_neg h]

theorem insertUser_keys (users : List (Int × UserState)) (id : Int) (v : UserState) (k : Int) :
    k ∈ (insertUser users id v).map Prod.fst ↔ k = id ∨ k ∈ users.map Prod.fst := by
  induction users with
  | nil => simp [insertUser]
  | cons p rest ih =>
    obtain ⟨a, u⟩ := p
    unfold insertUser
    by_cases hk : a = id
    · rw [if_pos hk]
      subst hk
      simp
    · rw [if_neg hk, List.map_cons, List.mem_cons, ih, List.map_cons, List.mem_cons]
      constructor
      · rintro (h | h | h) <;> simp [h]
      · rintro (h | h | h) <;> simp [h]

theorem insertUser_nodup (users : List (Int × UserState)) (id : Int) (v : UserState)
    (h : (users.map Prod.fst).Nodup) : ((insertUser users id v).map Prod.fst).Nodup := by
  induction users with
  | nil => simp [insertUser]
  | cons p rest ih =>
    obtain ⟨a, u⟩ := p
    rw [List.map_cons, List.nodup_cons] at h
    unfold insertUser
    by_cases hk : a = id
    · rw [if_pos hk, List.map_cons, List.nodup_cons]
      exact h
    · rw [if_neg hk, List.map_cons, List.nodup_cons]
      refine ⟨fun hm => ?_, ih h.2⟩
      rcases (insertUser_keys _ _ _ _).mp hm with e | e
      · exact hk e
      · exact h.1 e

theorem insertUser_new (users : List (Int × UserState)) (id : Int) (name : Str)
    (h : ∀ p ∈ users, ∃ n, p.2 = UserState.new n) : ∀ p ∈ insertUser users id (UserState.new name), ∃ n, p.2 = UserState.new n := by
  induction users with
  | nil =>
    intro p hp
    simp only [insertUser, List.mem_singleton] at hp
    exact ⟨name, by rw [hp]⟩
  | cons q rest ih =>
    obtain ⟨a, u⟩ := q
    unfold insertUser
    by_cases hk : a = id
    · rw [if_pos hk]
      intro p hp
      rcases List.mem_cons.mp hp with rfl | hp
      · exact ⟨name, rfl⟩
      · exact h p (List.mem_cons_of_mem _ hp)
    · rw [if_neg hk]
      intro p hp
      rcases List.mem_cons.mp hp with rfl | hp
      · exact h _ (by simp)
      · exact ih (fun p hp => h p (List.mem_cons_of_mem _ hp)) p hp

theorem userStates_spec {D : Type} : ∀ (rows : List (PlayerLobby D)) (users : List (Int × UserState)),
    (users.map Prod.fst).Nodup → (∀ p ∈ users, ∃ n, p.2 = UserState.new n) →
    ((userStates rows users).map Prod.fst).Nodup ∧ (∀ p ∈ userStates rows users, ∃ n, p.2 = UserState.new n) ∧
    ∀ id, getUser (userStates rows users) id =
      match (rows.filter (fun r => r.slot.userId = some id)).getLast? with
      | some r => some (UserState.new r.player.name)
      | none => getUser users id
  | [], users, h1, h2 => ⟨h1, h2, fun id => rfl⟩
  | r :: rs, users, h1, h2 => by
    unfold userStates
    cases hu : r.slot.userId with
    | none =>
      obtain ⟨a, b, c⟩ := userStates_spec rs users h1 h2
      refine ⟨a, b, fun id => ?_⟩
      rw [c id]
      simp [hu]
    | some k =>
      obtain ⟨a, b, c⟩ := userStates_spec rs _ (insertUser_nodup users k (UserState.new r.player.name) h1)
        (insertUser_new users k r.player.name h2)
      refine ⟨a, b, fun id => ?_⟩
      simp only
      rw [c id, getUser_insertUser]
      by_cases hk : id = k
      · subst hk
        simp only [List.filter_cons, hu, decide_true, if_true, List.getLast?_cons]
        cases (rs.filter (fun r => r.slot.userId = some id)).getLast? <;> simp
      · have : ¬ (k = id) := fun e => hk e.symm
        simp [hu, this, hk]

/-- **C96.** Opening the iterator on a replay: the users are exactly the user ids of the joined slots, each with
the name of the last joined player in a slot of that user, eleven empty control groups and the camera at the
origin; there are no units; both event cursors are at the start of the file's sectors. -/
theorem C96_initial_state {D : Type} (w : World D) (bld : Build) (init : InitFile) (table : BalTable)
    (f : Option Filters) (m : MState) (h : openIterator w bld init table f = .ok m) :
    ∃ (content : List UInt8) (a : Archive) (trk game : List UInt8) (rows : List (PlayerLobby D)),
      w.file init.fileName = .ok content ∧ w.mpq content = .ok a ∧
      a.sector "replay.tracker.events" = .ok trk ∧ a.sector "replay.game.events" = .ok game ∧
      lobbyJoin w bld init = .ok rows ∧
      m = MState.new m.sc2 trk game f ∧ (∀ k, m.sc2.units k = none) ∧
      ∀ id, getUser m.sc2.users id = (rows.filter (fun r => r.slot.userId = some id)).getLast?.map
        (fun r => ⟨r.player.name, none, none, List.replicate 11 [], (0, 0)⟩) := by
  simp only [openIterator, Res.bind_eq_ok, Res.pure_eq, Res.ok.injEq] at h
  obtain ⟨content, h1, a, h2, trk, h3, game, h4, _, _, rows, h5, rfl⟩ := h
  refine ⟨content, a, trk, game, rows, h1, h2, h3, h4, h5, rfl, fun _ => rfl, fun id => ?_⟩
  have := (userStates_spec rows [] (by simp) (by simp)).2.2 id
  show getUser (userStates rows []) id = _
  rw [this]
  cases (rows.filter (fun r => r.slot.userId = some id)).getLast? <;> rfl

theorem map_new_eq : ∀ (us : List (Int × UserState)), (∀ p ∈ us, ∃ n, p.2 = UserState.new n) →
    us = (us.map (fun p => (p.1, p.2.name))).map (fun p => (p.1, UserState.new p.2))
  | [], _ => rfl
  | p :: ps, h => by
    obtain ⟨n, hn⟩ := h p (by simp)
    obtain ⟨k, u⟩ := p
    simp only at hn
    subst hn
    rw [List.map_cons, List.map_cons, ← map_new_eq ps (fun p hp => h p (List.mem_cons_of_mem _ hp))]
    rfl

/-- **C96.** It is one of the initial states that the theorems about histories start from, with distinct users. -/
theorem C96_is_initial {D : Type} (w : World D) (bld : Build) (init : InitFile) (table : BalTable)
    (f : Option Filters) (m : MState) (h : openIterator w bld init table f = .ok m) :
    ∃ players : List (Int × Str), (players.map Prod.fst).Nodup ∧
      m.sc2 = SState.initial players (balanceOf init.version table) ∧ m.sc2.Wf := by
  simp only [openIterator, Res.bind_eq_ok, Res.pure_eq, Res.ok.injEq] at h
  obtain ⟨content, h1, a, h2, trk, h3, game, h4, _, _, rows, h5, rfl⟩ := h
  obtain ⟨hn, hu, _⟩ := userStates_spec rows [] (by simp) (by simp)
  refine ⟨(userStates rows []).map (fun p => (p.1, p.2.name)), by simpa [Function.comp_def] using hn, ?_, hn, ?_⟩
  · show (⟨_, _, _⟩ : SState) = _
    unfold SState.initial
    rw [← map_new_eq _ hu]
  · intro p hp
    obtain ⟨n, e⟩ := hu p hp
    rw [e]; rfl

/-- The example opens. -/
example : (match openIterator (exWorld exLobby) .release (exInitFile exLobby) [] none with
    | .ok m => m.sc2.users.map (fun p => (p.1, p.2.name))
    | _ => []) = [(0, str "Ann"), (1, str "Bob")] := by decide +kernel

/-! ## Balance data -/

theorem balanceOf_mem (version : Int) (n : Str) (u : BalUnit) : ∀ (table : BalTable),
    balanceOf version table n = some u → ((version, n), u) ∈ table
  | [], h => by simp [balanceOf] at h
  | ((v, name), u') :: rest, h => by
    unfold balanceOf at h
    cases hr : balanceOf version rest n with
    | some x =>
      rw [hr] at h
      cases h
      exact List.mem_cons_of_mem _ (balanceOf_mem version n u rest hr)
    | none =>
      rw [hr] at h
      simp only at h
      split at h
      · rename_i e; obtain ⟨rfl, rfl⟩ := e; cases h; simp
      · cases h

theorem balanceOf_none (version : Int) (n : Str) : ∀ (table : BalTable),
    balanceOf version table n = none → (version, n) ∉ table.map Prod.fst
  | [], _ => by simp
  | ((v, name), u') :: rest, h => by
    unfold balanceOf at h
    cases hr : balanceOf version rest n with
    | some x => rw [hr] at h; cases h
    | none =>
      rw [hr] at h
      simp only at h
      split at h
      · cases h
      · rename_i e
        rw [List.map_cons, List.mem_cons]
        rintro (e' | e')
        · simp only [Prod.mk.injEq] at e'; exact e ⟨e'.1.symm, e'.2.symm⟩
        · exact balanceOf_none version n rest hr e'

theorem balanceOf_iff (version : Int) (name : Str) (u : BalUnit) (table : BalTable) (hn : (table.map Prod.fst).Nodup) :
    balanceOf version table name = some u ↔ ((version, name), u) ∈ table := by
  refine ⟨balanceOf_mem _ _ _ table, fun hm => ?_⟩
  have hk : (version, name) ∈ table.map Prod.fst := List.mem_map.mpr ⟨_, hm, rfl⟩
  cases hb : balanceOf version table name with
  | none => exact absurd hk (balanceOf_none _ _ table hb)
  | some u' =>
    have hm' := balanceOf_mem _ _ _ table hb
    have : ∀ (t : BalTable), (t.map Prod.fst).Nodup → ((version, name), u) ∈ t → ((version, name), u') ∈ t →
        u' = u := by
      intro t
      induction t with
      | nil => simp
      | cons p t ih =>
        intro hn h1 h2
        rw [List.map_cons, List.nodup_cons] at hn
        rcases List.mem_cons.mp h1 with e1 | e1 <;> rcases List.mem_cons.mp h2 with e2 | e2
        · rw [← e1] at e2; exact (Prod.mk.injEq _ _ _ _ ▸ e2).2
        · exact absurd (List.mem_map.mpr ⟨_, e2, by rw [← e1]⟩) hn.1
        · exact absurd (List.mem_map.mpr ⟨_, e1, by rw [← e2]⟩) hn.1
        · exact ih hn.2 e1 e2
    rw [this table hn hm hm']

/-- **C97.** The iterator looks up a unit exactly in the entries of the replay's own protocol version: whatever the
iteration order of the table (its keys are distinct), a unit has data iff the table has an entry for that version
and name, and then it is that entry. -/
theorem C97_balance_version {D : Type} (w : World D) (bld : Build) (init : InitFile) (table : BalTable)
    (f : Option Filters) (m : MState) (h : openIterator w bld init table f = .ok m)
    (hn : (table.map Prod.fst).Nodup) (name : Str) (u : BalUnit) :
    m.sc2.balance name = some u ↔ ((init.version, name), u) ∈ table := by
  simp only [openIterator, Res.bind_eq_ok, Res.pure_eq, Res.ok.injEq] at h
  obtain ⟨content, h1, a, h2, trk, h3, game, h4, _, _, rows, h5, rfl⟩ := h
  exact balanceOf_iff _ _ _ table hn

/-- **C97.** So the iterator that is opened does not depend on the order in which the hash map of all versions is
iterated. -/
theorem C97_order {D : Type} (w : World D) (bld : Build) (init : InitFile) (t t' : BalTable)
    (f : Option Filters) (hn : (t.map Prod.fst).Nodup) (hp : t.Perm t') :
    openIterator w bld init t f = openIterator w bld init t' f := by
  have : balanceOf init.version t = balanceOf init.version t' := by
    funext n
    have h1 := fun u => balanceOf_iff init.version n u t hn
    have h2 := fun u => balanceOf_iff init.version n u t' ((hp.map Prod.fst).nodup_iff.mp hn)
    cases h : balanceOf init.version t n with
    | some u => exact ((h2 u).mpr (hp.mem_iff.mp ((h1 u).mp h))).symm
    | none =>
      cases h' : balanceOf init.version t' n with
      | none => rfl
      | some u => rw [(h1 u).mpr (hp.mem_iff.mpr ((h2 u).mp h'))] at h; cases h
  unfold openIterator
  rw [this]

/-- An entry of another version is not used. -/
example : (match openIterator (exWorld exLobby) .release (exInitFile exLobby)
      [((88500, str "Zergling"), ⟨some 1, [], [], [], none⟩), ((75689, str "Drone"), ⟨some 2, [], [], [], none⟩)] none with
    | .ok m => (m.sc2.balance (str "Zergling") |>.map (·.radius), m.sc2.balance (str "Drone") |>.map (·.radius))
    | _ => (none, none)) = (some (some 1), none) := by decide +kernel

/-! ## The filter by name -/

/-- **C49 (partial).** `set_player_id_from_user_name` sets the player filter to the working set slot id of the last
player of that name, which may be absent, and changes nothing when there is none.  What is missing: that this is the
id the filter compares with, see the refutation. -/
theorem C49_last_match_partial (f : Filters) (name : Str) (players : List PlayerDetails) :
    f.setPlayerFromName name players = { f with
      playerId := match (players.filter (fun p => p.name = name)).getLast? with
        | some p => p.workingSetSlotId
        | none => f.playerId } := by
  induction players generalizing f with
  | nil => rfl
  | cons p ps ih =>
    unfold Filters.setPlayerFromName
    rw [ih]
    by_cases h : p.name = name
    · simp only [h, if_true, List.filter_cons, decide_true, List.getLast?_cons]
      cases (ps.filter (fun p => p.name = name)).getLast? <;> simp
    · simp [h]

/-- **C49.** It is not the tracker player id of that player: after the setup event of the player (in the working set
slot that the details give) the filter holds another number.  And for a player without a slot it drops an existing
filter. -/
theorem C49_tracker_id_refuted (bld : Build) :
    ¬ (∀ (f : Filters) (p : PlayerDetails) (user : Int) (e : PlayerSetupEvent) (s s' : SState) (x : TrackerEvt × Hint)
        (u : UserState),
        s = SState.initial [(user, p.name)] (fun _ => none) → e.userId = some user → e.slotId = p.workingSetSlotId →
        handleTracker bld s 0 (.playerSetup e) = .ok (s', x) → getUser s'.users user = some u →
        (f.setPlayerFromName p.name [p]).playerId = u.setupPlayerId) ∧
    ¬ (∀ (f : Filters) (name : Str) (ps : List PlayerDetails), f.playerId ≠ none →
        (f.setPlayerFromName name ps).playerId ≠ none) := by
  constructor
  · intro h
    have := h Filters.default (exPlayerDetails "Ann" 0 "Win") 0 ⟨1, 1, some 0, some 0⟩ _ _ _ _ rfl rfl rfl rfl rfl
    revert this
    decide
  · intro h
    exact h { Filters.default with playerId := some 1 } (str "Ann")
      [{ exPlayerDetails "Ann" 0 "Win" with workingSetSlotId := none }] (by simp) rfl

end S2
