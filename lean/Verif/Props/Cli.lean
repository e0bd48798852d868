import Verif.Misc.Cli
import Verif.Props.Names
import Verif.Props.Snapshot
import Verif.Props.MergedFilters

/-!
# The command line tool (C135–)
-/
namespace S2.Cli

open S2

theorem forEach_ok {bld : Build} {version : Nat} : ∀ {n : Nat} {m : MState} {its : List Item} {r : Res Unit},
    forEach bld version n m = (its, r) → (r = .ok () ↔ collectItems bld version n m = some (.ok its))
  | 0, m, its, r, h => by
    simp only [forEach, Prod.mk.injEq] at h
    obtain ⟨rfl, rfl⟩ := h
    simp [collectItems]
  | n + 1, m, its, r, h => by
    rw [forEach] at h
    rw [collectItems]
    cases hm : mnext bld version (n + 1) m with
    | none => rw [hm] at h; cases h; simp
    | some p =>
      obtain ⟨x, m'⟩ := p
      rw [hm] at h
      match x, h with
      | .panic, h => cases h; simp
      | .err e, h => cases h; simp
      | .ok .none, h => cases h; simp
      | .ok (some it), h =>
        dsimp only at h ⊢
        cases hf : forEach bld version n m' with
        | mk its' r' =>
          rw [hf] at h
          simp only [Prod.mk.injEq] at h
          obtain ⟨rfl, rfl⟩ := h
          have := forEach_ok hf
          rw [this]
          cases hc : collectItems bld version n m' with
          | none => simp
          | some y => cases y <;> simp

/-- A JSON array. -/
def arrayOf (js : List Json) : List Out := .lb :: (js.map Out.json).intersperse .comma ++ [.rb]

/-- `path` is a readable replay with archive `a` and init data `init`. -/
structure Opened {D : Type} (w : World D) (bld : Build) (path : Str) (a : Archive) (init : InitFile) : Prop where
  name : utf8Ok path = true
  archive : ∃ content, w.file path = .ok content ∧ w.mpq content = .ok a ∧ InitFile.new w bld path 0 a content = .ok init

theorem Opened.fileName {D : Type} {w : World D} {bld : Build} {path : Str} {a : Archive} {init : InitFile}
    (h : Opened w bld path a init) : init.fileName = path := by
  obtain ⟨_, _, _, hn⟩ := h.archive
  simp only [InitFile.new, Res.bind_eq_ok, Res.pure_eq, Res.ok.injEq, Prod.exists] at hn
  obtain ⟨_, _, _, rfl⟩ := hn
  rfl

theorem getSource_opened {D : Type} {w : World D} {bld : Build} {path : Str} {a : Archive} {init : InitFile}
    (h : Opened w bld path a init) (table : BalTable) (args : Args) (ty : ReadType) :
    getSource w bld table args ty path = printReplay w bld table args ty a init := by
  obtain ⟨content, h1, h2, h3⟩ := h.archive
  simp only [getSource, h1, h2, h.name, h3, if_true]

/-- The iterator over the events of an opened replay. -/
theorem Opened.iterator {D : Type} {w : World D} {bld : Build} {path : Str} {a : Archive} {init : InitFile}
    (h : Opened w bld path a init) {table : BalTable} {f : Option Filters} {m : MState}
    (ho : openIterator w bld init table f = .ok m) :
    ∃ s trk game, a.sector "replay.tracker.events" = .ok trk ∧ a.sector "replay.game.events" = .ok game ∧
      m = MState.new s trk game f ∧ ∀ g, openIterator w bld init table g = .ok (MState.new s trk game g) := by
  obtain ⟨content, h1, h2, _⟩ := h.archive
  simp only [openIterator, Res.bind_eq_ok, Res.pure_eq, Res.ok.injEq] at ho
  obtain ⟨content', h1', a', h2', trk, h3, game, h4, d, h5, ps, h6, rfl⟩ := ho
  rw [h.fileName, h1, Res.ok.injEq] at h1'
  subst h1'
  rw [h2, Res.ok.injEq] at h2'
  subst h2'
  refine ⟨_, trk, game, h3, h4, rfl, ?_⟩
  intro g
  simp only [openIterator, h.fileName, h1, h2, h3, h4, h5, h6, Res.bind_ok, Res.pure_eq]

theorem printEvents_ok {D : Type} {w : World D} {bld : Build} {table : BalTable} {init : InitFile} {keep : Item → Bool}
    {out : List Out} (h : printEvents w bld table init keep = (out, .ok ())) :
    ∃ m its, openIterator w bld init table .none = .ok m ∧
      collectItems bld init.version.toNat (m.trk.data.length + m.game.data.length + 1) m = some (.ok its) ∧
      out = .lb :: (its.filter keep).map (fun i => .json (.item i)) ++ [.rb] := by
  unfold printEvents at h
  cases ho : openIterator w bld init table .none with
  | err e => rw [ho] at h; cases h
  | panic => rw [ho] at h; cases h
  | ok m =>
    rw [ho] at h
    dsimp only at h
    cases hf : forEach bld init.version.toNat (m.trk.data.length + m.game.data.length + 1) m with
    | mk its r =>
      rw [hf] at h
      simp only [Prod.mk.injEq] at h
      obtain ⟨rfl, rfl⟩ := h
      exact ⟨m, its, rfl, (forEach_ok hf).mp rfl, rfl⟩

theorem filter_times {es : List SEvent} {a b : List SEvent} (h : Interleaving a b es) (ha : ∀ x ∈ a, x.isTracker = true)
    (hb : ∀ x ∈ b, x.isTracker = false) :
    (es.filter SEvent.isTracker) = a ∧ es.filter (fun e => !e.isTracker) = b := by
  induction h with
  | nil => exact ⟨rfl, rfl⟩
  | @left x a b c _ ih =>
    obtain ⟨h1, h2⟩ := ih (fun y hy => ha y (by simp [hy])) hb
    have hx := ha x (by simp)
    simp [hx, h1, h2]
  | @right x a b c _ ih =>
    obtain ⟨h1, h2⟩ := ih ha (fun y hy => hb y (by simp [hy]))
    have hx := hb x (by simp)
    simp [hx, h1, h2]

theorem filter_of_keys {α β κ : Type} {f : α → κ} {g : β → κ} {p : κ → Bool} : ∀ {as : List α} {bs : List β},
    as.map f = bs.map g → (as.filter (fun a => p (f a))).map f = (bs.filter (fun b => p (g b))).map g := by
  intro as bs h
  have e1 : ∀ (l : List α), (l.filter (fun a => p (f a))).map f = (l.map f).filter p := by
    intro l; rw [List.filter_map]; rfl
  have e2 : ∀ (l : List β), (l.filter (fun a => p (g a))).map g = (l.map g).filter p := by
    intro l; rw [List.filter_map]; rfl
  rw [e1, e2, h]

theorem isTrackerEvent_eq : isTrackerEvent = fun i => i.event.isTracker := by
  funext i; unfold isTrackerEvent; cases i.event <;> rfl

theorem isGameEvent_eq : isGameEvent = fun i => !i.event.isTracker := by
  funext i; unfold isGameEvent; cases i.event <;> rfl

/-- **C135.** `get tracker-events` and `get game-events` on a well-formed replay (with UTF-8 names): if they come to
their end, there is, for the state in which the combined iterator of the replay starts, an interleaving of exactly the tracker and the game events of the two sectors such that what is
printed are, between brackets, the items of the tracker events (the game events) of this interleaving as the combined
iterator reports them; so one for every event, in the order and with the game loops of the sector. -/
theorem C135_events {D : Type} (w : World D) (bld : Build) (table : BalTable) (args : Args) (path : Str) (a : Archive)
    (init : InitFile) (ho : Opened w bld path a init) (trk game : List UInt8)
    (h1 : a.sector "replay.tracker.events" = .ok trk) (h2 : a.sector "replay.game.events" = .ok game)
    (titems : List (Int × Val)) (gitems : List (Int × Int × Val)) (ht : Stream (TrackerWire bld) titems trk)
    (hutf : ∀ p ∈ titems, convTracker p.2 ≠ .err .utf8)
    (hg : Stream (TripletWire bld (gameEventTy init.version.toNat)) gitems game) (out : List Out) :
    (getSource w bld table args .trackerEvents path = (out, .ok ()) →
      ∃ s es all s2, openIterator w bld init table none = .ok (MState.new s trk game none) ∧
        Interleaving ((trackerTimeline titems).map trackerSEvent) ((gameTimeline gitems).map (gameSEvent s)) es ∧
        runItems bld s es = .ok (all, s2) ∧
        out = .lb :: (all.filter (fun i => i.event.isTracker)).map (fun i => .json (.item i)) ++ [.rb] ∧
        (all.filter (fun i => i.event.isTracker)).map (fun i => i.event.time) = (trackerTimeline titems).map Prod.fst) ∧
    (getSource w bld table args .gameEvents path = (out, .ok ()) →
      ∃ s es all s2, openIterator w bld init table none = .ok (MState.new s trk game none) ∧
        Interleaving ((trackerTimeline titems).map trackerSEvent) ((gameTimeline gitems).map (gameSEvent s)) es ∧
        runItems bld s es = .ok (all, s2) ∧
        out = .lb :: (all.filter (fun i => !i.event.isTracker)).map (fun i => .json (.item i)) ++ [.rb] ∧
        (all.filter (fun i => !i.event.isTracker)).map (fun i => i.event.time) = (gameTimeline gitems).map Prod.fst) := by
  have key : ∀ keep, printEvents w bld table init keep = (out, .ok ()) →
      ∃ s es all s2, openIterator w bld init table none = .ok (MState.new s trk game none) ∧
        Interleaving ((trackerTimeline titems).map trackerSEvent) ((gameTimeline gitems).map (gameSEvent s)) es ∧
        runItems bld s es = .ok (all, s2) ∧ out = .lb :: (all.filter keep).map (fun i => .json (.item i)) ++ [.rb] ∧
        (all.filter (fun i => i.event.isTracker)).map (fun i => i.event.time) = (trackerTimeline titems).map Prod.fst ∧
        (all.filter (fun i => !i.event.isTracker)).map (fun i => i.event.time) = (gameTimeline gitems).map Prod.fst := by
    intro keep h
    obtain ⟨m, its, hm, hc, rfl⟩ := printEvents_ok h
    obtain ⟨s, trk', game', h1', h2', rfl, hopen⟩ := ho.iterator hm
    rw [h1, Res.ok.injEq] at h1'
    rw [h2, Res.ok.injEq] at h2'
    subst h1' h2'
    obtain ⟨es, s2, hi, hr⟩ := collect_spec ht hutf hg hc
    have hk := runItems_events hr
    obtain ⟨f1, f2⟩ := filter_times hi (by
      intro x hx
      obtain ⟨p, _, rfl⟩ := List.mem_map.1 hx
      rfl) (by
      intro x hx
      obtain ⟨p, _, rfl⟩ := List.mem_map.1 hx
      rfl)
    refine ⟨s, es, its, s2, hopen none, hi, hr, rfl, ?_, ?_⟩
    · have := congrArg (List.map Prod.fst) (filter_of_keys (p := fun k : Int × Bool => k.2) hk)
      simp only [List.map_map] at this
      refine Eq.trans this ?_
      show (List.filter SEvent.isTracker es).map (fun e => e.time) = _
      rw [f1, List.map_map]
      rfl
    · have := congrArg (List.map Prod.fst) (filter_of_keys (p := fun k : Int × Bool => !k.2) hk)
      simp only [List.map_map] at this
      refine Eq.trans this ?_
      show (List.filter (fun e : SEvent => !e.isTracker) es).map (fun e => e.time) = _
      rw [f2, List.map_map]
      rfl
  rw [getSource_opened ho, getSource_opened ho]
  constructor
  · intro h
    obtain ⟨s, es, all, s2, i0, i1, i2, i3, i4, _⟩ := key _ h
    exact ⟨s, es, all, s2, i0, i1, i2, by rw [i3, isTrackerEvent_eq], i4⟩
  · intro h
    obtain ⟨s, es, all, s2, i0, i1, i2, i3, _, i5⟩ := key _ h
    exact ⟨s, es, all, s2, i0, i1, i2, by rw [i3, isGameEvent_eq], i5⟩

/-- The sectors of `exportWorld` meet the hypotheses of `C135_events` (the game event types of versions 88500 and 90000
are the same). -/
example : ∃ titems gitems, Stream (TrackerWire .release) titems wTrack ∧ (∀ p ∈ titems, convTracker p.2 ≠ .err .utf8) ∧
    Stream (TripletWire .release (gameEventTy 88500)) gitems wGame := rowsFile_streams .release

theorem Opened.build {D : Type} {w : World D} {bld : Build} {path : Str} {a : Archive} {init : InitFile}
    (h : Opened w bld path a init) : ∃ b, checkedBuild bld a = .ok b := by
  obtain ⟨_, _, _, hn⟩ := h.archive
  simp only [InitFile.new, readInitOf, Res.bind_eq_ok, Res.pure_eq, Res.ok.injEq, Prod.exists] at hn
  obtain ⟨_, _, ⟨b, hb, _⟩, _⟩ := hn
  exact ⟨b, hb⟩

/-- **C135.** `get message-events` on a well-formed message sector prints the chat messages in order, between brackets;
`get init-data` prints the init data and `get details` what the details reader returns. -/
theorem C135_documents {D : Type} (w : World D) (bld : Build) (table : BalTable) (args : Args) (path : Str) (a : Archive)
    (init : InitFile) (ho : Opened w bld path a init) :
    (∀ msg items, a.sector "replay.message.events" = .ok msg → items ≠ [] →
      Stream (TripletWire bld P87702.BitPacked.GameEMessageId) items msg →
      getSource w bld table args .messageEvents path =
        (.lb :: (items.filterMap messageOf).map (fun e => .json (.message e.1 e.2.1 e.2.2)) ++ [.rb], .ok ())) ∧
    getSource w bld table args .initData path = ([.json (.init init)], .ok ()) ∧
    (∀ d, readDetailsOf bld a = .ok d → getSource w bld table args .details path = ([.json (.details d)], .ok ())) := by
  simp only [getSource_opened ho]
  refine ⟨?_, rfl, ?_⟩
  · intro msg items hm hne hs
    obtain ⟨b, hb⟩ := ho.build
    have := C30_message_stream bld items msg (msg.length + 1) hne hs (by omega)
    simp only [printReplay, messageRounds, hm, readMessageEventsOf, hb, andThenRead, this]
  · intro d hd
    simp only [printReplay, hd]

/-! ## C136: is it JSON? -/

/-- The JSON texts in the output. -/
def payloads : List Out → List Json
  | [] => []
  | .json j :: os => j :: payloads os
  | _ :: os => payloads os

theorem payloads_append (xs ys : List Out) : payloads (xs ++ ys) = payloads xs ++ payloads ys := by
  induction xs with
  | nil => rfl
  | cons x xs ih => cases x <;> simp [payloads, ih]

theorem payloads_map (js : List Json) : payloads (js.map .json) = js := by
  induction js with
  | nil => rfl
  | cons j js ih => simp [payloads, ih]

/-- Texts one after the other between brackets are an array iff there is at most one. -/
theorem plain_array (js : List Json) : (∃ js', .lb :: js.map .json ++ [.rb] = arrayOf js') ↔ js.length ≤ 1 := by
  constructor
  · rintro ⟨js', h⟩
    unfold arrayOf at h
    simp only [List.cons_append, List.cons.injEq, true_and] at h
    have h := List.append_cancel_right h
    cases js with
    | nil => simp
    | cons x xs => cases xs with
      | nil => simp
      | cons y ys =>
        exfalso
        cases js' with
        | nil => simp at h
        | cons x' xs' => cases xs' with
          | nil => simp at h
          | cons y' ys' => simp [List.intersperse] at h
  · intro h
    refine ⟨js, ?_⟩
    cases js with
    | nil => rfl
    | cons x xs => cases xs with
      | nil => rfl
      | cons y ys => simp at h

/-- Texts followed by a comma each are an array iff there is none. -/
theorem comma_array (js : List Json) :
    (∃ js', .lb :: js.flatMap (fun j => [.json j, .comma]) ++ [.rb] = arrayOf js') ↔ js = [] := by
  constructor
  · rintro ⟨js', h⟩
    unfold arrayOf at h
    simp only [List.cons_append, List.cons.injEq, true_and] at h
    have h := List.append_cancel_right h
    have h2 := congrArg List.length h
    cases js with
    | nil => rfl
    | cons j js =>
      have e1 : ((j :: js).flatMap (fun j => [Out.json j, .comma])).length = 2 * (j :: js).length := by
        generalize (j :: js) = l
        induction l with
        | nil => rfl
        | cons x xs ih => simp only [List.flatMap_cons, List.length_append, ih, List.length_cons, List.length_nil]; omega
      have e2 : ∀ l : List Json, l ≠ [] → ((l.map Out.json).intersperse .comma).length + 1 = 2 * l.length := by
        intro l hl
        induction l with
        | nil => exact absurd rfl hl
        | cons x xs ih =>
          cases xs with
          | nil => rfl
          | cons y ys =>
            have := ih (by simp)
            simp only [List.map_cons, List.intersperse, List.length_cons] at this ⊢
            omega
      rw [e1] at h2
      cases js' with
      | nil => simp [List.intersperse] at h2
      | cons y ys =>
        have := e2 (y :: ys) (by simp)
        omega
  · rintro rfl
    exact ⟨[], rfl⟩

/-- **C136, partial.** What is printed for one replay, exactly: events and messages are a JSON array iff there is at
most one to print; `transist-events` is one iff there is none; details and init data are always one JSON text.
Missing: everything else, see the refutation. -/
theorem C136_json_partial {D : Type} (w : World D) (bld : Build) (table : BalTable) (args : Args) (path : Str) (a : Archive)
    (init : InitFile) (ho : Opened w bld path a init) (ty : ReadType) (out : List Out)
    (h : getSource w bld table args ty path = (out, .ok ())) :
    (ty = .trackerEvents ∨ ty = .gameEvents ∨ ty = .messageEvents →
      ((∃ js, out = arrayOf js) ↔ (payloads out).length ≤ 1)) ∧
    (ty = .transistEvents → args.quiet = false → ((∃ js, out = arrayOf js) ↔ payloads out = [])) ∧
    (ty = .details ∨ ty = .initData → ∃ j, out = [.json j]) := by
  have plain : ∀ js : List Json, out = .lb :: js.map .json ++ [.rb] → ((∃ js, out = arrayOf js) ↔ (payloads out).length ≤ 1) := by
    intro js hj
    have : payloads out = js := by
      rw [hj, payloads_append]
      simp [payloads, payloads_map]
    rw [this, hj]
    exact plain_array js
  have ev : ∀ keep, printEvents w bld table init keep = (out, .ok ()) →
      ((∃ js, out = arrayOf js) ↔ (payloads out).length ≤ 1) := by
    intro keep h
    obtain ⟨m, its, _, _, ho⟩ := printEvents_ok h
    apply plain ((its.filter keep).map Json.item)
    rw [ho, List.map_map]
    rfl
  rw [getSource_opened ho] at h
  refine ⟨?_, ?_, ?_⟩
  · rintro (rfl | rfl | rfl)
    · exact ev _ h
    · exact ev _ h
    · simp only [printReplay] at h
      cases hm : readMessageEventsOf bld (messageRounds a) a with
      | none => rw [hm] at h; cases h
      | some r =>
        rw [hm] at h
        cases r with
        | err e => cases h
        | panic => cases h
        | ok es =>
          simp only [Prod.mk.injEq, and_true] at h
          apply plain (es.map (fun e => .message e.1 e.2.1 e.2.2))
          rw [← h, List.map_map]
          rfl
  · rintro rfl hq
    simp only [printReplay] at h
    cases hi : openIterator w bld init table (some args.filters) with
    | err e => rw [hi] at h; cases h
    | panic => rw [hi] at h; cases h
    | ok m =>
      rw [hi] at h
      dsimp only at h
      cases hf : forEach bld init.version.toNat (m.trk.data.length + m.game.data.length + 1) m with
      | mk its r =>
        rw [hf, hq] at h
        simp only [Bool.false_eq_true, if_false, Prod.mk.injEq] at h
        obtain ⟨rfl, rfl⟩ := h
        have e : ∀ l : List Item, l.flatMap (fun i => [Out.json (.item i), .comma]) =
            (l.map Json.item).flatMap (fun j => [.json j, .comma]) := by
          intro l; rw [List.flatMap_map]
        have hp : payloads (.lb :: its.flatMap (fun i => [Out.json (.item i), .comma]) ++ closing (.ok ())) = its.map Json.item := by
          have : ∀ l : List Item, payloads (l.flatMap (fun i => [Out.json (.item i), .comma])) = l.map Json.item := by
            intro l
            induction l with
            | nil => rfl
            | cons x xs ih => simp [payloads, ih]
          rw [payloads_append]
          simp [payloads, this, closing]
        rw [hp, e]
        exact comma_array _
  · rintro (rfl | rfl)
    · simp only [printReplay] at h
      cases hd : readDetailsOf bld a with
      | err e => rw [hd] at h; cases h
      | panic => rw [hd] at h; cases h
      | ok d => rw [hd] at h; cases h; exact ⟨_, rfl⟩
    · cases h; exact ⟨_, rfl⟩

/-- The replay of `exportWorld` can be opened. -/
theorem exOpened : ∃ a init, Opened exportWorld .release (str "a.SC2Replay") a init := by
  have h : (match (exportWorld.mpq [1]) with
      | .ok a => (InitFile.new exportWorld .release (str "a.SC2Replay") 0 a [1]).isOk
      | _ => false) = true := by decide +kernel
  cases hm : exportWorld.mpq [1] with
  | err e => rw [hm] at h; cases h
  | panic => rw [hm] at h; cases h
  | ok a =>
    rw [hm] at h
    dsimp only at h
    cases hn : InitFile.new exportWorld .release (str "a.SC2Replay") 0 a [1] with
    | err e => rw [hn] at h; cases h
    | panic => rw [hn] at h; cases h
    | ok init => exact ⟨a, init, by decide +kernel, [1], rfl, hm, hn⟩

/-- Did it succeed, and how many JSON texts were printed? -/
def count (r : List Out × Res Unit) : Option Nat :=
  match r.2 with
  | .ok _ => some (payloads r.1).length
  | _ => none

theorem count_eq {r : List Out × Res Unit} {n : Nat} (h : count r = some n) :
    ∃ out, r = (out, .ok ()) ∧ (payloads out).length = n := by
  obtain ⟨out, x⟩ := r
  unfold count at h
  cases x with
  | ok u => exact ⟨out, rfl, by simpa using h⟩
  | err e => cases h
  | panic => cases h

/-- **C136.** In general the output is not JSON: for a replay with six tracker events neither `get tracker-events`
(no commas) nor `get transist-events` (a comma too many) prints an array. -/
theorem C136_json_refuted : ∃ (w : World Nat) (path : Str) (out1 out2 : List Out),
    (∃ a init, Opened w .release path a init) ∧
    getSource w .release [] Args.none .trackerEvents path = (out1, .ok ()) ∧ (payloads out1).length = 6 ∧
    (¬ ∃ js, out1 = arrayOf js) ∧
    getSource w .release [] Args.none .transistEvents path = (out2, .ok ()) ∧ (payloads out2).length = 8 ∧
    (¬ ∃ js, out2 = arrayOf js) := by
  obtain ⟨a, init, ho⟩ := exOpened
  obtain ⟨out1, h1, c1⟩ := count_eq (show count (getSource exportWorld .release [] Args.none .trackerEvents (str "a.SC2Replay")) = some 6 by
    decide +kernel)
  obtain ⟨out2, h2, c2⟩ := count_eq (show count (getSource exportWorld .release [] Args.none .transistEvents (str "a.SC2Replay")) = some 8 by
    decide +kernel)
  refine ⟨exportWorld, str "a.SC2Replay", out1, out2, ⟨a, init, ho⟩, h1, c1, ?_, h2, c2, ?_⟩
  · rw [(C136_json_partial _ _ _ _ _ _ _ ho _ _ h1).1 (.inl rfl)]; omega
  · rw [(C136_json_partial _ _ _ _ _ _ _ ho _ _ h2).2.1 rfl rfl]
    intro c; rw [c] at c2; cases c2

/-! ## C137: one bad file in a directory -/

/-- **C137, partial.** Files that cannot be read or are no archives are passed over, and as long as no file makes `get`
fail the output is that of all the files one after the other.  Missing: archives whose init data (or events) cannot be
read, see the refutation. -/
theorem C137_bad_files_partial {D : Type} (w : World D) (bld : Build) (table : BalTable) (args : Args) (ty : ReadType)
    (source : Str) (node : Files.Node) :
    (∀ path, (∃ e, w.file path = .err e) ∨ (∃ c e, w.file path = .ok c ∧ w.mpq c = .err e) →
      getSource w bld table args ty path = ([], .ok ())) ∧
    ((∀ p ∈ sources source node, (getSource w bld table args ty p).2 = .ok ()) →
      handleGet w bld table args ty source node =
        ((sources source node).flatMap (fun p => (getSource w bld table args ty p).1), .ok ())) := by
  constructor
  · rintro path (⟨e, h⟩ | ⟨c, e, h1, h2⟩)
    · simp only [getSource, h]
    · simp only [getSource, h1, h2]
  · unfold handleGet
    generalize sources source node = ss
    intro h
    induction ss with
    | nil => rfl
    | cons p ps ih =>
      have hp := h p (by simp)
      have ih := ih (fun q hq => h q (by simp [hq]))
      simp only [getLoop, List.flatMap_cons]
      cases hg : getSource w bld table args ty p with
      | mk out r =>
        rw [hg] at hp
        dsimp only at hp
        subst hp
        simp only [ih]

/-- A directory with a replay and a map: an archive with a replay header, but without init data. -/
def dirWorld : World Nat :=
  { exportWorld with
    file := fun p => if p = str "d/b.SC2Map" then .ok [2] else if p = str "d/n.txt" then .ok [3] else .ok [1]
    mpq := fun c => if c = [2] then .ok ⟨some (exHeader 88500), fun _ => .err .eof⟩
      else if c = [3] then .err .tag else exportWorld.mpq c }

/-- **C137.** An archive without init data in the directory ends the command with an error: the replay after it is not
printed (a text file instead of it would be passed over). -/
theorem C137_bad_files_refuted :
    count (handleGet dirWorld .release [] Args.none .trackerEvents (str "d")
      (.dir [(str "n.txt", .file), (str "c.SC2Replay", .file)])) = some 6 ∧
    (payloads (handleGet dirWorld .release [] Args.none .trackerEvents (str "d")
      (.dir [(str "b.SC2Map", .file), (str "c.SC2Replay", .file)])).1).length = 0 ∧
    ∃ e, (handleGet dirWorld .release [] Args.none .trackerEvents (str "d")
      (.dir [(str "b.SC2Map", .file), (str "c.SC2Replay", .file)])).2 = .err e := by
  refine ⟨by decide +kernel, by decide +kernel, .eof, by decide +kernel⟩

/-- **C137.** What happens at a replay whose init data can be read and whose wanted section cannot: nothing is printed for it,
and `get` ends with the error of that section.  For the messages also if the section is there and its reader
fails or panics. -/
theorem C137_section_fails {D : Type} (w : World D) (bld : Build) (table : BalTable) (args : Args) (path : Str) (a : Archive)
    (init : InitFile) (ho : Opened w bld path a init) (e : Err) :
    (a.sector "replay.message.events" = .err e → getSource w bld table args .messageEvents path = ([], .err e)) ∧
    (∀ msg, a.sector "replay.message.events" = .ok msg →
      (readMessageEvents bld (msg.length + 1) msg = some (.err e) →
        getSource w bld table args .messageEvents path = ([], .err e)) ∧
      (readMessageEvents bld (msg.length + 1) msg = some .panic →
        getSource w bld table args .messageEvents path = ([], .panic))) ∧
    (a.sector "replay.details" = .err e → getSource w bld table args .details path = ([], .err e)) ∧
    (a.sector "replay.tracker.events" = .err e → ∀ ty, ty = .trackerEvents ∨ ty = .gameEvents ∨ ty = .transistEvents →
      getSource w bld table args ty path = ([], .err e)) ∧
    (∀ trk, a.sector "replay.tracker.events" = .ok trk → a.sector "replay.game.events" = .err e →
      ∀ ty, ty = .trackerEvents ∨ ty = .gameEvents ∨ ty = .transistEvents →
      getSource w bld table args ty path = ([], .err e)) := by
  obtain ⟨b, hb⟩ := ho.build
  obtain ⟨content, h1, h2, _⟩ := ho.archive
  have hf := ho.fileName
  simp only [getSource_opened ho]
  refine ⟨fun h => ?_, fun msg hm => ⟨fun h => ?_, fun h => ?_⟩, fun h => ?_, ?_, ?_⟩
  · simp only [printReplay, messageRounds, h, readMessageEventsOf, hb, andThenRead, failed]
  · simp only [printReplay, messageRounds, hm, readMessageEventsOf, hb, andThenRead, h, failed]
  · simp only [printReplay, messageRounds, hm, readMessageEventsOf, hb, andThenRead, h, failed]
  · simp only [printReplay, readDetailsOf, hb, h, Res.bind_ok, Res.bind_err, failed]
  · rintro h ty (rfl | rfl | rfl) <;>
      simp only [printReplay, printEvents, openIterator, hf, h1, h2, h, Res.bind_ok, Res.bind_err, failed]
  · rintro trk ht h ty (rfl | rfl | rfl) <;>
      simp only [printReplay, printEvents, openIterator, hf, h1, h2, ht, h, Res.bind_ok, Res.bind_err, failed]

/-- A reader that fails: one message with an unknown tag. -/
example : readMessageEvents .release 5 [0, 0, 0xff, 0xff] = some (.err (.unknownTag 7)) := by decide +kernel

/-! ## C138: which files -/

/-- **C138, partial.** Exactly the regular files of the directory itself are opened, whatever their names; so if these
all are named `….SC2Replay` and no replay is in a subdirectory, the replays below the directory.  Missing: other
directories, see the refutation. -/
theorem C138_sources_partial (source : Str) (es : List (Str × Files.Node)) :
    (∀ p, p ∈ sources source (.dir es) ↔ ∃ name, (name, .file) ∈ es ∧ p = pathText [source, name]) ∧
    ((∀ name, (name, Files.Node.file) ∈ es → Files.ReplayName name) →
      (∀ name sub d rel, (name, Files.Node.dir sub) ∈ es → ¬ Files.Found (.dir sub) d rel) →
      ∀ p, p ∈ sources source (.dir es) ↔ ∃ d rel, Files.Found (.dir es) d rel ∧ p = pathText (source :: rel)) := by
  have h1 : ∀ p, p ∈ sources source (.dir es) ↔ ∃ name, (name, .file) ∈ es ∧ p = pathText [source, name] := by
    intro p
    simp only [sources, List.mem_filterMap, Prod.exists]
    constructor
    · rintro ⟨name, n, hm, h⟩
      cases n with
      | file => simp only [Option.some.injEq] at h; exact ⟨name, hm, h.symm⟩
      | dir es => cases h
      | other => cases h
    · rintro ⟨name, hm, rfl⟩
      exact ⟨name, .file, hm, rfl⟩
  refine ⟨h1, fun hn hs p => ?_⟩
  rw [h1]
  constructor
  · rintro ⟨name, hm, rfl⟩
    exact ⟨1, [name], .here hm (hn name hm), rfl⟩
  · rintro ⟨d, rel, hf, rfl⟩
    cases hf with
    | here hm _ => exact ⟨_, hm, rfl⟩
    | inside hm hf => exact absurd hf (hs _ _ _ _ hm)

/-- **C138.** The documentation of `--source` promises a recursive search for SC2Replay files; `get` opens
`notes.txt` and misses `sub/b.SC2Replay`. -/
theorem C138_sources_refuted :
    sources (str "d") Files.demoTree = [str "d/a.SC2Replay", str "d/notes.txt", str "d/c.v2.SC2Replay"] ∧
    Files.Found Files.demoTree 2 [str "sub", str "b.SC2Replay"] ∧
    ¬ Files.Found Files.demoTree 9 [str "notes.txt"] := by
  refine ⟨by decide +kernel, ?_, ?_⟩
  · refine .inside (sub := [(str "b.SC2Replay", .file), (str ".SC2Replay", .file), (str "x.SC2Replay", .dir [])]) ?_ (.here ?_ ?_)
    · simp
    · simp
    · exact (Files.extension_iff _).mp (by decide +kernel)
  · intro h
    cases h with
    | here _ hn => exact absurd ((Files.extension_iff _).mpr hn) (by decide +kernel)
    | inside _ hf => cases hf

/-! ## C139: the filter options -/

theorem Calls.cut {ω σ : Type} {next : Nat → σ → Option (Res (Option ω) × σ)} {m m' : σ} {rs rs' : List (Res (Option ω))}
    (h : Calls next m (rs ++ rs') m') : ∃ m1, Calls next m rs m1 := by
  induction rs generalizing m with
  | nil => exact ⟨m, .nil m⟩
  | cons r rs ih =>
    cases h with
    | cons h1 h2 =>
      obtain ⟨m1, h3⟩ := ih h2
      exact ⟨m1, .cons h1 h3⟩

theorem yielded_items (its : List Item) :
    (its.map (fun it => Res.ok (some it)) ++ [Res.ok none]).flatMap yielded = its := by
  induction its with
  | nil => rfl
  | cons x xs ih => simpa [yielded] using ih

theorem transist_ok {D : Type} {w : World D} {bld : Build} {table : BalTable} {args : Args} {a : Archive} {init : InitFile}
    {out : List Out} (h : printReplay w bld table args .transistEvents a init = (out, .ok ())) (hq : args.quiet = false) :
    ∃ m its, openIterator w bld init table (some args.filters) = .ok m ∧
      collectItems bld init.version.toNat (m.trk.data.length + m.game.data.length + 1) m = some (.ok its) ∧
      payloads out = its.map Json.item := by
  simp only [printReplay] at h
  cases hi : openIterator w bld init table (some args.filters) with
  | err e => rw [hi] at h; cases h
  | panic => rw [hi] at h; cases h
  | ok m =>
    rw [hi] at h
    dsimp only at h
    cases hf : forEach bld init.version.toNat (m.trk.data.length + m.game.data.length + 1) m with
    | mk its r =>
      rw [hf, hq] at h
      simp only [Bool.false_eq_true, if_false, Prod.mk.injEq] at h
      obtain ⟨rfl, rfl⟩ := h
      refine ⟨m, its, rfl, (forEach_ok hf).mp rfl, ?_⟩
      have : ∀ l : List Item, payloads (l.flatMap (fun i => [Out.json (.item i), .comma])) = l.map Json.item := by
        intro l
        induction l with
        | nil => rfl
        | cons x xs ih => simp [payloads, ih]
      rw [payloads_append]
      simp [payloads, this, closing]

/-- **C139, partial.** `get transist-events`, on any replay: without `--max-events` the printed events are exactly those of the whole unfiltered iteration (up to the call
that finds no more events) that pass the filters given by the options; with `--max-events N` the first `N - 1` of them (see `C37`), and the iteration stops at the
latest with the `N`-th.  Missing: the other event commands, see the refutation. -/
theorem C139_filter_options_partial {D : Type} (w : World D) (bld : Build) (table : BalTable) (args : Args) (path : Str)
    (a : Archive) (init : InitFile) (ho : Opened w bld path a init) (hq : args.quiet = false) (out : List Out)
    (h : getSource w bld table args .transistEvents path = (out, .ok ())) :
    ∃ s trk game, a.sector "replay.tracker.events" = .ok trk ∧ a.sector "replay.game.events" = .ok game ∧
    openIterator w bld init table none = .ok (MState.new s trk game none) ∧
    ∃ rs m, Calls (mnext bld init.version.toNat) (MState.new s trk game .none) rs m ∧
      ∃ wanted : Item → Bool, (∀ it, wanted it = true ↔
          (InWindow { Filters.default with minLoop := args.minLoop, maxLoop := args.maxLoop } it.event ∧
            (∀ p, args.playerId = some p → OfPlayer p it.event) ∧ (∀ n, args.unitName = some n → OfUnitType n it.event) ∧
            (∀ l p st, it.event = .tracker l (.playerStats p st) → args.includeStats = true))) ∧
        (args.maxEvents = .none → rs.getLast? = some (.ok none) ∧ payloads out = ((rs.flatMap yielded).filter wanted).map .item) ∧
        (∀ N, args.maxEvents = some N →
          (rs.getLast? = some (.ok none) ∨ N ≤ ((rs.flatMap yielded).filter wanted).length) ∧
          payloads out = (((rs.flatMap yielded).filter wanted).take (N - 1)).map .item) := by
  rw [getSource_opened ho] at h
  obtain ⟨m, its, hm, hc, hp⟩ := transist_ok h hq
  obtain ⟨s, trk, game, h1, h2, rfl, hopen⟩ := ho.iterator hm
  obtain ⟨m', hcalls⟩ := collectItems_calls hc
  have hok : ∀ r ∈ its.map (fun it => Res.ok (some it)) ++ [Res.ok none], ∃ x, r = Res.ok x := by
    intro r hr
    rcases List.mem_append.1 hr with hr | hr
    · obtain ⟨it, _, rfl⟩ := List.mem_map.1 hr; exact ⟨_, rfl⟩
    · exact ⟨_, List.mem_singleton.1 hr⟩
  obtain ⟨xs, hpull, _, hl, _, hy⟩ := calls_pulls_end hcalls hok
  rw [yielded_items] at hy
  have h0 := pulls_calls (hpull.change_filters .none) rfl
  refine ⟨s, trk, game, h1, h2, hopen .none, _, _, h0, accepts (some args.filters), ?_, ?_, ?_⟩
  · intro it
    have := wanted_iff args.filters it.event
    unfold Wanted at this
    refine Iff.trans this ?_
    refine and_congr ?_ Iff.rfl
    cases it.event <;> exact Iff.rfl
  · intro hN
    have e : (args.filters).maxEvents = .none := hN
    constructor
    · rcases hl (by simp) with hl | ⟨f, N, hf, hN', _⟩
      · rw [List.getLast?_map, hl]; rfl
      · simp only [MState.new, Option.some.injEq] at hf
        rw [← hf, e] at hN'
        cases hN'
    rw [hp, flatMap_yielded, hy]
    simp only [MState.new, quota, e]
  · intro N hN
    have e : (args.filters).maxEvents = some N := hN
    constructor
    · rcases hl (by simp) with hl | ⟨f, N', hf, hN', hle⟩
      · rw [List.getLast?_map, hl]; exact .inl rfl
      · simp only [MState.new, Option.some.injEq] at hf
        rw [← hf, e, Option.some.injEq] at hN'
        subst hN'
        rw [flatMap_yielded]
        exact .inr hle
    rw [hp, flatMap_yielded, hy]
    simp only [MState.new, quota, e]

/-- **C139.** `get tracker-events` and `get game-events` ignore all options: with any of them (here: no event after loop
-1, of a player 200, at most one) the same six events are printed as without. -/
theorem C139_filter_options_refuted :
    (∀ {D : Type} (w : World D) (bld : Build) (table : BalTable) (args : Args) (path : Str),
      getSource w bld table args .trackerEvents path = getSource w bld table Args.none .trackerEvents path ∧
      getSource w bld table args .gameEvents path = getSource w bld table Args.none .gameEvents path) ∧
    count (getSource exportWorld .release []
      { Args.none with maxLoop := some (-1), playerId := some 200, maxEvents := some 1 } .trackerEvents (str "a.SC2Replay")) = some 6 ∧
    count (getSource exportWorld .release []
      { Args.none with maxLoop := some (-1), playerId := some 200, maxEvents := some 1 } .transistEvents (str "a.SC2Replay")) = some 0 := by
  refine ⟨fun w bld table args path => ⟨rfl, rfl⟩, by decide +kernel, by decide +kernel⟩

/-- With `--include-stats` all nine events are printed, with `--max-loop 0` the tracker events at loop 0 and the game
events, with `--max-events 4` three. -/
example : count (getSource exportWorld .release [] { Args.none with includeStats := true } .transistEvents (str "a")) = some 9 ∧
    count (getSource exportWorld .release [] { Args.none with maxEvents := some 4 } .transistEvents (str "a")) = some 3 := by
  decide +kernel

/-! ## C140: `--quiet` -/

/-- **C140, partial.** `get transist-events --quiet` prints nothing, and ends as it does without `--quiet`.  Missing: the other
commands. -/
theorem C140_quiet_partial {D : Type} (w : World D) (bld : Build) (table : BalTable) (args : Args) (path : Str) :
    (getSource w bld table { args with quiet := true } .transistEvents path).1 = [] ∧
    (getSource w bld table { args with quiet := true } .transistEvents path).2 =
      (getSource w bld table { args with quiet := false } .transistEvents path).2 := by
  unfold getSource
  cases w.file path with
  | err e => exact ⟨rfl, rfl⟩
  | panic => exact ⟨rfl, rfl⟩
  | ok c =>
    dsimp only
    cases w.mpq c with
    | err e => exact ⟨rfl, rfl⟩
    | panic => exact ⟨rfl, rfl⟩
    | ok a =>
      dsimp only
      cases utf8Ok path with
      | false => exact ⟨rfl, rfl⟩
      | true =>
        simp only [if_true]
        cases InitFile.new w bld path 0 a c with
        | err e => exact ⟨rfl, rfl⟩
        | panic => exact ⟨rfl, rfl⟩
        | ok init =>
          simp only [printReplay, Args.filters]
          cases openIterator w bld init table _ with
          | err e => exact ⟨rfl, rfl⟩
          | panic => exact ⟨rfl, rfl⟩
          | ok m => exact ⟨rfl, rfl⟩

/-- **C140.** The others print whether `--quiet` or not. -/
theorem C140_quiet_refuted :
    count (getSource exportWorld .release [] { Args.none with quiet := true } .trackerEvents (str "a.SC2Replay")) = some 6 ∧
    count (getSource exportWorld .release [] { Args.none with quiet := true } .transistEvents (str "a.SC2Replay")) = some 0 ∧
    count (getSource exportWorld .release [] { Args.none with quiet := false } .transistEvents (str "a.SC2Replay")) = some 8 := by
  decide +kernel

/-! ## C141: `write-arrow-ipc` -/

/-- **C141.** The export from the directory to the files.  If the replays found are fewer than the scan limit and not more than
the limit of files to process, and the command succeeds with no failing write, then each of the six event tables is
complete, and a row is in it iff it is one of the rows of some replay file within the depth limit that can be read,
has a version in the asked range, and can be encoded. -/
theorem C141_export {D : Type} (w : World D) (bld : Build) (table : BalTable) (arrow : List (SnapRow D) → Bool)
    (scanMax processMax depth : Nat) (minV maxV : Option Int) (split : Option Split) (source : Str) (node : Files.Node)
    (hd : Files.Distinct node) (dir : Bool) (job : SnapJob (SnapRow D))
    (h : arrowJob w bld table arrow scanMax processMax depth minV maxV split source node dir = .ok job)
    (files : List Files.Path) (hfiles : Files.getMatchingFiles bld [source] node scanMax depth = .ok files)
    (hl : files.length < scanMax ∧ files.length ≤ processMax)
    (before now : Disk (SnapRow D)) (acts : List SnapAct) (hrun : SnapRun job before acts now (.stopped (.ok ())))
    (hf : SnapAct.task .fail ∉ acts) (f : SnapFile) (hnd : f ≠ .details) :
    ∃ blocks, now f = some (.table blocks) ∧ ∀ r, r ∈ blocks.flatten ↔
      ∃ rel i init rows, Files.Found node depth rel ∧ files[i]? = some (source :: rel) ∧
        InitFile.read w bld (pathText (source :: rel)) i = .ok init ∧
        (∀ m, minV = some m → m ≤ init.version) ∧ (∀ m, maxV = some m → init.version ≤ m) ∧
        tableWork w bld table (snapRowsOf D f) arrow init = .batch rows ∧ r ∈ rows := by
  simp only [arrowJob, hfiles, Res.bind_ok, Res.bind_eq_ok, Res.pure_eq, Res.ok.injEq] at h
  obtain ⟨inits, hsel, rfl⟩ := h
  obtain ⟨blocks, hb, hperm⟩ := snapshot_table (α := SnapRow D) hnd (snapRowsOf D f) id (by funext i it; simp)
    ((C130_success _ _ _ _ hrun).2 hf f)
  refine ⟨blocks, hb, fun r => ?_⟩
  rw [hperm.mem_iff]
  simp only [List.map_id_fun, List.map_id, id_eq, sourceRows, List.mem_flatMap]
  obtain ⟨files', hfiles', _, _, hfound, hall⟩ := Files.C50_limits bld [source] node scanMax depth hd
  rw [hfiles, Res.ok.injEq] at hfiles'
  subst hfiles'
  obtain ⟨hs1, hs2, _, hs4⟩ := C60_selection _ _ _ _ _ _ _ _ hsel
  constructor
  · rintro ⟨init, hi, hr⟩
    obtain ⟨⟨p, hp, hread, _⟩, hv1, hv2⟩ := hs1 init hi
    rw [List.getElem?_map] at hp
    obtain ⟨q, hq, rfl⟩ := Option.map_eq_some_iff.1 hp
    obtain ⟨rel, rfl, hrel⟩ := hfound q (List.mem_of_getElem? hq)
    have hread' : InitFile.read w bld (pathText (source :: rel)) init.fsId = .ok init := hread
    cases hw : tableWork w bld table (snapRowsOf D f) arrow init with
    | batch rows =>
      rw [hw] at hr
      exact ⟨rel, init.fsId, init, rows, hrel, hq, hread', hv1, hv2, hw, hr⟩
    | skip => rw [hw] at hr; cases hr
    | crash => rw [hw] at hr; cases hr
  · rintro ⟨rel, i, init, rows, hrel, hq, hread, hv1, hv2, hw, hr⟩
    refine ⟨init, ?_, by rw [hw]; exact hr⟩
    rcases hs4 i (pathText (source :: rel)) init (by rw [List.getElem?_map, hq]; rfl) hread hv1 hv2 with h | ⟨h1, h2⟩
    · exact h
    · exfalso
      -- all positions of the selected are smaller than `i`, which is smaller than the number of files
      have hi : i < files.length := (List.getElem?_eq_some_iff.mp hq).1
      have hpw := (C60_selection _ _ _ _ _ _ _ _ hsel).2.2.1
      have hnd : (inits.map InitFile.fsId).Nodup := by
        unfold List.Nodup
        rw [List.pairwise_map]
        exact hpw.imp (fun h => by omega)
      have hsub : ∀ x ∈ inits.map InitFile.fsId, x ∈ List.range i := by
        intro x hx
        obtain ⟨y, hy, rfl⟩ := List.mem_map.1 hx
        exact List.mem_range.2 (h2 y hy)
      have := List.Nodup.length_le_of_subset hnd hsub
      rw [List.length_map, List.length_range] at this
      omega

/-- A directory tree in which the export finds three files; they are few enough, and there is a job. -/
example : Files.getMatchingFiles .release [str "d"] Files.demoTree 100 8 =
      .ok [[str "d", str "a.SC2Replay"], [str "d", str "sub", str "b.SC2Replay"], [str "d", str "c.v2.SC2Replay"]] ∧
    (arrowJob exportWorld .release [] (fun _ => true) 100 100 8 (some 88500) none none (str "d") Files.demoTree true).isOk = true := by
  decide +kernel

/-- The selected replays do give rows. -/
example : (match selectSources exportWorld .release (some 88500) none 100 none [str "d/a.SC2Replay", str "d/sub/b.SC2Replay"] with
    | .ok inits => inits.map (fun i => (tableWork exportWorld .release [] (snapRowsOf Nat .stats) (fun _ => true) i).rows.length)
    | _ => []) = [1, 1] := by
  decide +kernel

end S2.Cli
