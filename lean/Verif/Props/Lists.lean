import Verif.Props.Fields
import Verif.Props.GameFields
/-!
# Event lists, in order and complete (C101–C103)

`C101_tracker_fields`, `C102_game_fields` and `C103_chat_fields` speak of members of the lists; here the whole
list is described: which events of the file are listed, in which order and how often.
-/
namespace S2

/-- `out` lists, in order, an `R`-image of every item that is not skipped, and nothing else. -/
inductive Lists {α β : Type} (Skip : α → Prop) (R : α → β → Prop) : List α → List β → Prop
  | nil : Lists Skip R [] []
  | skip {p : α} {items : List α} {out : List β} : Skip p → Lists Skip R items out → Lists Skip R (p :: items) out
  | keep {p : α} {q : β} {items : List α} {out : List β} :
      ¬ Skip p → R p q → Lists Skip R items out → Lists Skip R (p :: items) (q :: out)

theorem lists_filterMap {α β : Type} {Skip : α → Prop} {R : α → β → Prop} (f : α → Option β) :
    ∀ items : List α, (∀ p ∈ items, (f p = none ↔ Skip p) ∧ ∀ q, f p = some q → R p q) →
      Lists Skip R items (items.filterMap f)
  | [], _ => .nil
  | p :: items, h => by
    have ih := lists_filterMap f items (fun p hp => h p (by simp [hp]))
    obtain ⟨h1, h2⟩ := h p (by simp)
    cases hf : f p with
    | none => rw [List.filterMap_cons_none hf]; exact .skip (h1.1 hf) ih
    | some q =>
      rw [List.filterMap_cons_some hf]
      refine .keep (fun c => ?_) (h2 q hf) ih
      rw [h1.2 c] at hf; cases hf

/-- Any bytes: the list of tracker events has, in the order of the file, exactly the events whose texts are
UTF-8, each with its own delta and the values of its own wire fields. -/
theorem C101_tracker_list (bld : Build) (data : List UInt8) (n : Nat) (out : List (Int × TrackerEvt))
    (h : readTrackerEvents bld n data = some (.ok out)) :
    ∃ items, Stream (TrackerWire bld) items data ∧
      Lists (fun p => BadText p.2) (fun p q => q.1 = p.1 ∧ TrackerFields q.2 p.2) items out := by
  obtain ⟨items, _, hs, rfl⟩ := C29_tracker_only_streams bld data n out h
  refine ⟨items, hs, lists_filterMap trackerOf items ?_⟩
  intro p hp
  obtain ⟨u, hw⟩ := stream_mem hs p hp
  refine ⟨C101_only_bad_text_missing bld p u hw, ?_⟩
  intro q hq
  simp only [trackerOf] at hq
  cases hc : convTracker p.2 with
  | ok x =>
    rw [hc] at hq
    simp only [Res.toOpt, Option.map_some, Option.some.injEq] at hq
    subst hq
    exact ⟨rfl, convTracker_fields hc⟩
  | err x => rw [hc] at hq; simp [Res.toOpt] at hq
  | panic => rw [hc] at hq; simp [Res.toOpt] at hq

/-- The kinds of game events that have a public event. -/
def publicGameKinds : List String :=
  ["EDropUser", "ECameraSave", "ECmd", "ESelectionDelta", "EControlGroupUpdate", "ESelectionSyncCheck",
   "ETriggerChatMessage", "EUnitClick", "EUnitHighlight", "ETriggerReplySelected", "ECameraUpdate",
   "ETriggerMouseClicked", "ETriggerMouseMoved", "ETriggerHotkeyPressed", "ETriggerTargetModeUpdate",
   "ETriggerKeyPressed", "ETriggerMouseWheel", "ETriggerButtonPressed", "ECommandManagerState",
   "ECmdUpdateTargetPoint", "ECmdUpdateTargetUnit"]

/-- The wire event is of none of these kinds. -/
def NoPublicKind (v : Val) : Prop :=
  ∀ name w, IsVariant P87702.BitPacked.GameEEventId.variants v name w → name ∉ publicGameKinds

theorem public_tags : ∀ p ∈ P87702.BitPacked.GameEEventId.variants,
    (p.2 ∈ publicGameKinds ↔ p.1 ∈ ([1, 14, 27, 28, 29, 30, 32, 39, 40, 41, 49, 58, 59, 61, 62, 66, 92, 95, 103, 104, 105] : List Int)) := by
  decide +kernel

theorem tags_public : ∀ t ∈ ([1, 14, 27, 28, 29, 30, 32, 39, 40, 41, 49, 58, 59, 61, 62, 66, 92, 95, 103, 104, 105] : List Int),
    ∃ p ∈ P87702.BitPacked.GameEEventId.variants, p.1 = t := by
  decide +kernel

/-- Any bytes, any protocol: the list of game events has, in the order of the file, exactly the events of the
public kinds, each with its own delta and user and the values of its own wire fields. -/
theorem C102_game_list (bld : Build) (version : Nat) (data : List UInt8) (n : Nat) (out : List (Int × Int × GameEvt))
    (h : readGameEvents bld version n data = some (.ok out)) :
    ∃ items, Stream (TripletWire bld (gameEventTy version)) items data ∧
      Lists (fun p => NoPublicKind p.2.2) (fun p q => q.1 = p.1 ∧ q.2.1 = p.2.1 ∧ GameFields q.2.2 p.2.2) items out := by
  obtain ⟨items, _, hs, rfl⟩ := C30_game_only_streams bld version data n out h
  refine ⟨items, hs, lists_filterMap gameOf items ?_⟩
  intro p hp
  obtain ⟨u, hw⟩ := stream_mem hs p hp
  refine ⟨?_, ?_⟩
  · obtain ⟨tag, v, hv, hn⟩ := C30_game_skips_only_unsupported bld version p u hw
    rw [hn]
    constructor
    · rintro hnot name w ⟨t, hvt, hm⟩ hpub
      rw [hv] at hvt
      cases hvt
      exact hnot ((public_tags _ hm).1 hpub)
    · intro hno hin
      obtain ⟨⟨t, name⟩, hm, rfl⟩ := tags_public tag hin
      exact hno name v ⟨t, hv, hm⟩ ((public_tags _ hm).2 hin)
  · intro q hq
    simp only [gameOf] at hq
    cases hc : convGame p.2.2 with
    | ok x =>
      rw [hc] at hq
      simp only [Res.toOpt, Option.map_some, Option.some.injEq] at hq
      subst hq
      obtain ⟨k, b1, b2, b3, pad, _, _, _, hb, _⟩ := hw
      exact ⟨rfl, rfl, convGame_fields version p.2.2 x (BEnc_rng _ _ _ _ (Nat.mod_lt _ (by decide)) hb) hc⟩
    | err x => rw [hc] at hq; simp [Res.toOpt] at hq
    | panic => rw [hc] at hq; simp [Res.toOpt] at hq

/-- The wire message is not a chat message with a UTF-8 text. -/
def NoChatText (v : Val) : Prop :=
  ¬ ∃ w b, IsVariant P87702.BitPacked.GameEMessageId.variants v "EChat" w ∧
    HasField P87702.BitPacked.GameSChatMessage w "m_string" (.bytes b) ∧ utf8Ok b = true

/-- Any bytes: the list of messages has, in the order of the file, exactly the chat messages with a UTF-8 text,
each with its own delta, user, recipient and text. -/
theorem C103_chat_list (bld : Build) (data : List UInt8) (n : Nat) (out : List (Int × Int × ChatEvt))
    (h : readMessageEvents bld n data = some (.ok out)) :
    ∃ items, Stream (TripletWire bld P87702.BitPacked.GameEMessageId) items data ∧
      Lists (fun p => NoChatText p.2.2) (fun p q => q.1 = p.1 ∧ q.2.1 = p.2.1 ∧ ChatFields q.2.2 p.2.2) items out := by
  obtain ⟨items, _, hs, rfl⟩ := C30_message_only_streams bld data n out h
  refine ⟨items, hs, lists_filterMap messageOf items ?_⟩
  intro p hp
  obtain ⟨u, hw⟩ := stream_mem hs p hp
  have hsh : BShape P87702.BitPacked.GameEMessageId p.2.2 := by
    obtain ⟨k, b1, b2, b3, pad, _, _, _, hb, _⟩ := hw
    exact BEnc_shape _ _ _ _ hb
  have hsome : ∀ q, messageOf p = some q → q.1 = p.1 ∧ q.2.1 = p.2.1 ∧ ChatFields q.2.2 p.2.2 := by
    intro q hq
    simp only [messageOf] at hq
    cases hc : convMessage p.2.2 with
    | ok x =>
      rw [hc] at hq
      simp only [Res.toOpt, Option.map_some, Option.some.injEq] at hq
      subst hq
      exact ⟨rfl, rfl, convMessage_fields p.2.2 x hsh hc⟩
    | err x => rw [hc] at hq; simp [Res.toOpt] at hq
    | panic => rw [hc] at hq; simp [Res.toOpt] at hq
  refine ⟨⟨?_, ?_⟩, hsome⟩
  · rintro hn ⟨w, b, hv, hb, hu⟩
    obtain ⟨e, he⟩ := chat_converts p.2.2 hsh w b hv hb hu
    simp [messageOf, he, Res.toOpt] at hn
  · intro hno
    cases hm : messageOf p with
    | none => rfl
    | some q =>
      obtain ⟨_, _, w, x, hv, _, ht, hu⟩ := hsome q hm
      exact absurd ⟨w, _, hv, ht, hu⟩ hno

example (bld : Build) : ∃ items, Stream (TripletWire bld P87702.BitPacked.GameEMessageId) items [0x14, 3, 0, 2, 104, 105] ∧
    Lists (fun p => NoChatText p.2.2) (fun p q => q.1 = p.1 ∧ q.2.1 = p.2.1 ∧ ChatFields q.2.2 p.2.2) items
      [((5 : Int), (3 : Int), (⟨0, [104, 105]⟩ : ChatEvt))] :=
  C103_chat_list bld _ 100 _ (by cases bld <;> decide +kernel)

end S2
