import Verif.Props.Lobby
import Verif.Props.Cli
import Verif.Props.MergedFilters
import Verif.Props.QuickHeader
/-!
# How far C37, C95, C137, C138 and C143 are true
-/
namespace S2

/-! ## C37: the promised number of events -/

theorem take_pred_iff {α : Type} (l : List α) (N : Nat) : l.take (N - 1) = l.take N ↔ N = 0 ∨ l.length < N := by
  constructor
  · intro h
    have := congrArg List.length h
    simp only [List.length_take] at this
    omega
  · rintro (rfl | h)
    · rfl
    · rw [List.take_of_length_le (by omega), List.take_of_length_le (by omega)]

/-- **C37 (exactly when)** on well-formed streams the combined iterator with `max_events = N` delivers the first `min(N, available)`
accepted events if and only if `N = 0` or fewer than `N` are accepted. -/
theorem C37_exactly (bld : Build) (version : Nat) (s : SState) (titems : List (Int × Val)) (gitems : List (Int × Int × Val))
    (trk game : List UInt8) (ht : Stream (TrackerWire bld) titems trk) (hutf : ∀ p ∈ titems, convTracker p.2 ≠ .err .utf8)
    (hg : Stream (TripletWire bld (gameEventTy version)) gitems game) :
    ∃ es, Interleaving ((trackerTimeline titems).map trackerSEvent) ((gameTimeline gitems).map (gameSEvent s)) es ∧
      ∀ all s', runItems bld s es = .ok (all, s') → ∀ (f : Filters) (N : Nat), f.maxEvents = some N → ∀ rs m,
        Calls (mnext bld version) (MState.new s trk game (some f)) rs m → (∀ r ∈ rs, ∃ x, r = .ok x) → es.length ≤ rs.length →
        ∃ wanted : Item → Bool, (∀ it, wanted it = true ↔ Wanted f it.event) ∧
          (rs.flatMap yielded = (all.filter wanted).take N ↔ N = 0 ∨ (all.filter wanted).length < N) := by
  obtain ⟨es, h1, h2⟩ := C37_max_events_partial bld version s titems gitems trk game ht hutf hg
  refine ⟨es, h1, fun all s' hall f N hN rs m hc hok hlen => ?_⟩
  obtain ⟨wanted, hw, hr⟩ := h2 all s' hall f N hN rs m hc hok hlen
  exact ⟨wanted, hw, by rw [hr]; exact take_pred_iff _ _⟩

/-! ## C95: whose name a joined row shows -/

/-- **C95 (exactly when)** if the users of the lobby have different names, a joined row shows the name of the user its slot names
if and only if the slot stands at the position in the list of slots that is that user's id. -/
theorem C95_exactly {D : Type} (w : World D) (bld : Build) (init : InitFile) (rows : List (PlayerLobby D))
    (h : lobbyJoin w bld init = .ok rows) (hn : (init.sync.users.map (·.name)).Nodup) (hne : ∀ u ∈ init.sync.users, u.name ≠ []) :
    ∀ row ∈ rows, ∃ i : Nat, FirstSlot init.sync.lobby.slots row.player i row.slot ∧
      ∀ (id : Nat) u, row.slot.userId = some (id : Int) → init.sync.users[id]? = some u → (row.userName = u.name ↔ id = i) := by
  simp only [lobbyJoin, Res.bind_eq_ok, Res.pure_eq, Res.ok.injEq] at h
  obtain ⟨det, hd, rfl⟩ := h
  intro row hrow
  obtain ⟨p, _, hp⟩ := List.mem_filterMap.mp hrow
  obtain ⟨i, slot, hf, rfl⟩ := lobbyRow_some.mp hp
  refine ⟨i, hf, ?_⟩
  intro id u _ hu
  simp only
  cases hi : init.sync.users[i]? with
  | none =>
    simp only [Option.map_none, Option.getD_none]
    constructor
    · intro hc; exact absurd hc.symm (hne u (List.mem_of_getElem? hu))
    · rintro rfl; rw [hi] at hu; cases hu
  | some v =>
    simp only [Option.map_some, Option.getD_some]
    constructor
    · intro hc
      have h1 : (init.sync.users.map (·.name))[i]? = some u.name := by rw [List.getElem?_map, hi, Option.map_some, hc]
      have h2 : (init.sync.users.map (·.name))[id]? = some u.name := by rw [List.getElem?_map, hu]; rfl
      obtain ⟨a1, a2⟩ := List.getElem?_eq_some_iff.1 h1
      obtain ⟨b1, b2⟩ := List.getElem?_eq_some_iff.1 h2
      exact (List.getElem_inj hn).mp (b2.trans a2.symm)
    · rintro rfl
      rw [hi] at hu; cases hu; rfl

example : ((exInitFile exLobby).sync.users.map (·.name)).Nodup ∧ (∀ u ∈ (exInitFile exLobby).sync.users, u.name ≠ []) ∧
    (exInitFile exLobby).sync.users.length = 2 := by decide +kernel

/-! ## C143: which headers the quick reader takes -/

/-- **C143 (exactly when)** the quick reader accepts exactly the bytes that begin with a struct of nine members, the first of them
number 0, a text, and the second number 1, a version; what follows does not matter. -/
theorem C143_exactly (bld : Build) (i tail sig : List UInt8) (ver : Val) :
    quickHeader bld i = .ok (tail, (sig, ver)) ↔
      ∃ ub uv, VEnc bld .blob (.bytes sig) ub ∧ VEnc bld P87702.ByteAligned.SVersion ver uv ∧
        i = 5 :: 0x12 :: 0x00 :: (ub ++ 0x02 :: (uv ++ tail)) := by
  constructor
  · intro h
    exact quickHeader_ok h
  · rintro ⟨ub, uv, hb, hv, rfl⟩
    have h1 : vparse bld .blob (ub ++ 0x02 :: (uv ++ tail)) = .ok (0x02 :: (uv ++ tail), .bytes sig) :=
      (vparse_iff bld _ _ _ _).2 ⟨ub, rfl, hb⟩
    have h2 : vparse bld P87702.ByteAligned.SVersion (uv ++ tail) = .ok (tail, ver) := (vparse_iff bld _ _ _ _).2 ⟨uv, rfl, hv⟩
    rw [vparse] at h1
    simp only [Res.bind_eq_ok, Prod.exists, Res.pure_eq, Res.ok.injEq, Prod.mk.injEq, Val.bytes.injEq] at h1
    obtain ⟨t, b, h1, rfl, rfl⟩ := h1
    simp only [quickHeader, quickSignature, Res.bind_eq_ok, Prod.exists, Res.pure_eq, Res.ok.injEq, Prod.mk.injEq, tagByte_ok]
    exact ⟨_, (), rfl, _, (), rfl, _, _, ⟨_, (), rfl, h1⟩, _, (), rfl, _, _, h2, rfl, rfl, rfl⟩

end S2

namespace S2.Cli
open S2

/-! ## C137: what a failing source does to the others -/

/-- **C137 (exactly)** if a source fails (with an error or a panic) after sources that did not, the command prints what those print and
what the failing one printed before it failed, ends with that failure, and prints nothing of the later sources. -/
theorem C137_exactly {D : Type} (w : World D) (bld : Build) (table : BalTable) (args : Args) (ty : ReadType) (source : Str)
    (node : Files.Node) :
    (∀ pre p post, sources source node = pre ++ p :: post → (∀ q ∈ pre, (getSource w bld table args ty q).2 = .ok ()) →
      (getSource w bld table args ty p).2 ≠ .ok () →
      handleGet w bld table args ty source node =
        (pre.flatMap (fun q => (getSource w bld table args ty q).1) ++ (getSource w bld table args ty p).1,
          (getSource w bld table args ty p).2)) ∧
    ((handleGet w bld table args ty source node).2 = .ok () ↔
      ∀ p ∈ sources source node, (getSource w bld table args ty p).2 = .ok ()) := by
  have key : ∀ pre p post, (∀ q ∈ pre, (getSource w bld table args ty q).2 = .ok ()) → (getSource w bld table args ty p).2 ≠ .ok () →
      getLoop w bld table args ty (pre ++ p :: post) =
        (pre.flatMap (fun q => (getSource w bld table args ty q).1) ++ (getSource w bld table args ty p).1,
          (getSource w bld table args ty p).2) := by
    intro pre p post hpre hp
    induction pre with
    | nil =>
      simp only [List.nil_append, List.flatMap_nil, getLoop]
      cases hg : getSource w bld table args ty p with
      | mk out r =>
        rw [hg] at hp
        cases r with
        | ok u => exact absurd rfl hp
        | err e => rfl
        | panic => rfl
    | cons q pre ih =>
      have ih := ih (fun x hx => hpre x (by simp [hx]))
      have hq := hpre q (by simp)
      simp only [List.cons_append, getLoop, List.flatMap_cons]
      cases hg : getSource w bld table args ty q with
      | mk out r =>
        rw [hg] at hq
        dsimp only at hq
        subst hq
        simp only [ih, List.append_assoc]
  refine ⟨fun pre p post h hpre hp => by rw [handleGet, h, key pre p post hpre hp], ?_, ?_⟩
  · intro h
    unfold handleGet at h
    revert h
    generalize sources source node = ss
    intro h
    induction ss with
    | nil => intro p hp; cases hp
    | cons q ss ih =>
      intro p hp
      cases hg : getSource w bld table args ty q with
      | mk out r =>
        cases r with
        | ok u =>
          simp only [getLoop, hg] at h
          rcases List.mem_cons.1 hp with rfl | hp
          · rw [hg]
          · exact ih h p hp
        | err e => simp only [getLoop, hg] at h; cases h
        | panic => simp only [getLoop, hg] at h; cases h
  · intro h
    rw [(C137_bad_files_partial w bld table args ty source node).2 h]

/-! ## C138: which files a directory stands for -/

theorem join_two (a : Str) (b : Str) (rest : List Str) :
    pathText (a :: b :: rest) = a ++ 47 :: pathText (b :: rest) := by
  simp [pathText, List.intersperse]

/-- **C138 (exactly when)** for a directory whose own files have names without a slash, `get` reads exactly the replays below it if
and only if all its own files are replays and there is no replay in a subdirectory. -/
theorem C138_exactly (source : Str) (es : List (Str × Files.Node)) (hs : ∀ name, (name, Files.Node.file) ∈ es → (47 : UInt8) ∉ name) :
    (∀ p, p ∈ sources source (.dir es) ↔ ∃ d rel, Files.Found (.dir es) d rel ∧ p = pathText (source :: rel)) ↔
    (∀ name, (name, Files.Node.file) ∈ es → Files.ReplayName name) ∧
    (∀ name sub d rel, (name, Files.Node.dir sub) ∈ es → ¬ Files.Found (.dir sub) d rel) := by
  obtain ⟨h1, h2⟩ := C138_sources_partial source es
  refine ⟨fun h => ?_, fun h => h2 h.1 h.2⟩
  have ne : ∀ {n d rel}, Files.Found n d rel → ∃ a r, rel = a :: r := by
    intro n d rel hf; cases hf <;> exact ⟨_, _, rfl⟩
  -- a joined path of two or more names is no single name
  have single : ∀ (name a b : Str) (rest : List Str), (47 : UInt8) ∉ name →
      pathText [source, name] ≠ pathText (source :: a :: b :: rest) := by
    intro name a b rest hn he
    rw [join_two, join_two] at he
    have he := List.cons.inj (List.append_cancel_left he)
    have hp : pathText [name] = name := by simp [pathText, List.intersperse]
    rw [hp, join_two] at he
    exact hn (by rw [he.2]; simp)
  constructor
  · intro name hm
    obtain ⟨d, rel, hf, he⟩ := (h (pathText [source, name])).1 ((h1 _).2 ⟨name, hm, rfl⟩)
    cases hf with
    | here hm' hr =>
      rename_i name' _
      rw [join_two, join_two] at he
      have he := (List.cons.inj (List.append_cancel_left he)).2
      simp only [pathText, List.intersperse, List.flatten_cons, List.flatten_nil, List.append_nil] at he
      rw [he]; exact hr
    | inside hm' hf =>
      obtain ⟨a, r, rfl⟩ := ne hf
      exact absurd he (single _ _ _ _ (hs name hm))
  · intro name sub d rel hm hf
    obtain ⟨a, r, rfl⟩ := ne hf
    obtain ⟨name', hm', he⟩ := (h1 _).1 ((h _).2 ⟨d + 1, name :: a :: r, .inside hm hf, rfl⟩)
    exact single name' name a r (hs name' hm') he.symm

example : (∀ name, (name, Files.Node.file) ∈ [(str "a.SC2Replay", Files.Node.file), (str "sub", .dir [])] → (47 : UInt8) ∉ name) := by
  intro name h
  simp only [List.mem_cons, Prod.mk.injEq, List.not_mem_nil, or_false] at h
  rcases h with ⟨rfl, _⟩ | ⟨_, h⟩
  · decide +kernel
  · cases h

end S2.Cli
