import Verif.Props.Events
import Verif.Props.ByteAligned
import Verif.Spec.TrackerLayout
/-! # Tracker events are read by the published layout (C177) -/
namespace S2
open P87702.ByteAligned Published

/-- An optional number as decoded. [proof device, no counterpart in /repo] -/
def optV {α : Type} (f : α → Val) : Option α → Val
  | none => .none
  | some a => .some (f a)

/-- The decoded form of a tracker event. [proof device, no counterpart in /repo] -/
def trackerVal : TrackerEvt → Val
  | .playerStats player s => .choice 0 (.struct [.int player, .struct ((statValues s).map .int)])
  | .unitBorn e => .choice 1 (.struct [.int e.unitTagIndex, .int e.unitTagRecycle, .bytes e.unitTypeName, .int e.controlPlayerId, .int e.upkeepPlayerId,
      .int e.x, .int e.y, optV .int e.creatorUnitTagIndex, optV .int e.creatorUnitTagRecycle, optV .bytes e.creatorAbilityName])
  | .unitDied e => .choice 2 (.struct [.int e.unitTagIndex, .int e.unitTagRecycle, optV .int e.killerPlayerId, .int e.x, .int e.y,
      optV .int e.killerUnitTagIndex, optV .int e.killerUnitTagRecycle])
  | .unitOwnerChange e => .choice 3 (.struct [.int e.unitTagIndex, .int e.unitTagRecycle, .int e.controlPlayerId, .int e.upkeepPlayerId])
  | .unitTypeChange e => .choice 4 (.struct [.int e.unitTagIndex, .int e.unitTagRecycle, .bytes e.unitTypeName])
  | .upgrade e => .choice 5 (.struct [.int e.playerId, .bytes e.upgradeTypeName, .int e.count])
  | .unitInit e => .choice 6 (.struct [.int e.unitTagIndex, .int e.unitTagRecycle, .bytes e.unitTypeName, .int e.controlPlayerId, .int e.upkeepPlayerId,
      .int e.x, .int e.y])
  | .unitDone e => .choice 7 (.struct [.int e.unitTagIndex, .int e.unitTagRecycle])
  | .unitPosition e => .choice 8 (.struct [.int e.firstUnitIndex, .list (e.items.map .int)])
  | .playerSetup e => .choice 9 (.struct [.int e.playerId, .int e.type, optV .int e.userId, optV .int e.slotId])

theorem has_u8 {x : Int} (h : U8 x) : VHas (.int .u8) (.int x) := by
  unfold U8 at h
  refine ⟨x, rfl, ⟨?_, ?_⟩, ?_⟩ <;> simp [IntKind.lo, IntKind.hi, vlqable, i64Min, i64Max] <;> omega
theorem has_u32 {x : Int} (h : U32 x) : VHas (.int .u32) (.int x) := by
  unfold U32 at h
  refine ⟨x, rfl, ⟨?_, ?_⟩, ?_⟩ <;> simp [IntKind.lo, IntKind.hi, vlqable, i64Min, i64Max] <;> omega
theorem has_i32 {x : Int} (h : I32 x) : VHas (.int .i32) (.int x) := by
  unfold I32 at h
  refine ⟨x, rfl, ⟨?_, ?_⟩, ?_⟩ <;> simp [IntKind.lo, IntKind.hi, vlqable, i64Min, i64Max] <;> omega
theorem has_txt {s : Str} (h : Txt s) : VHas .blob (.bytes s) := ⟨s, rfl, h.2⟩
theorem has_opt {α : Type} {P : α → Prop} {f : α → Val} {t : VTy} (hf : ∀ a, P a → VHas t (f a)) {o : Option α} (h : Maybe P o) :
    VHas (.opt t) (optV f o) := by
  cases o with
  | none => exact .inl rfl
  | some a => exact .inr ⟨_, rfl, hf a (h a rfl)⟩

theorem trackerVal_has (e : TrackerEvt) (h : Fits e) : VHas ReplayTrackerEEventId (trackerVal e) := by
  cases e with
  | playerStats p s =>
    refine ⟨0, _, rfl, ?_⟩
    refine ⟨_, rfl, _, _, rfl, has_u8 h.1, _, _, rfl, ?_, rfl⟩
    have hs := h.2
    simp only [statValues, List.forall_mem_cons] at hs
    refine ⟨_, rfl, ?_⟩
    repeat' first
      | exact rfl
      | (refine ⟨_, _, rfl, has_i32 ?_, ?_⟩)
    all_goals grind
  | unitBorn e =>
    obtain ⟨h1, h2, h3, h4, h5, h6, h7, h8, h9, h10⟩ := h
    exact ⟨1, _, rfl, _, rfl, _, _, rfl, has_u32 h1, _, _, rfl, has_u32 h2, _, _, rfl, has_txt h3, _, _, rfl, has_u8 h4, _, _, rfl, has_u8 h5,
      _, _, rfl, has_u8 h6, _, _, rfl, has_u8 h7, _, _, rfl, has_opt (fun _ => has_u32) h8, _, _, rfl, has_opt (fun _ => has_u32) h9, _, _, rfl,
      has_opt (fun _ => has_txt) h10, rfl⟩
  | unitDied e =>
    obtain ⟨h1, h2, h3, h4, h5, h6, h7⟩ := h
    exact ⟨2, _, rfl, _, rfl, _, _, rfl, has_u32 h1, _, _, rfl, has_u32 h2, _, _, rfl, has_opt (fun _ => has_u8) h3, _, _, rfl, has_u8 h4,
      _, _, rfl, has_u8 h5, _, _, rfl, has_opt (fun _ => has_u32) h6, _, _, rfl, has_opt (fun _ => has_u32) h7, rfl⟩
  | unitOwnerChange e =>
    obtain ⟨h1, h2, h3, h4⟩ := h
    exact ⟨3, _, rfl, _, rfl, _, _, rfl, has_u32 h1, _, _, rfl, has_u32 h2, _, _, rfl, has_u8 h3, _, _, rfl, has_u8 h4, rfl⟩
  | unitTypeChange e =>
    obtain ⟨h1, h2, h3⟩ := h
    exact ⟨4, _, rfl, _, rfl, _, _, rfl, has_u32 h1, _, _, rfl, has_u32 h2, _, _, rfl, has_txt h3, rfl⟩
  | upgrade e =>
    obtain ⟨h1, _, h2, h3⟩ := h
    exact ⟨5, _, rfl, _, rfl, _, _, rfl, has_u8 h1, _, _, rfl, has_txt h2, _, _, rfl, has_i32 h3, rfl⟩
  | unitInit e =>
    obtain ⟨h1, h2, h3, h4, h5, h6, h7⟩ := h
    exact ⟨6, _, rfl, _, rfl, _, _, rfl, has_u32 h1, _, _, rfl, has_u32 h2, _, _, rfl, has_txt h3, _, _, rfl, has_u8 h4, _, _, rfl, has_u8 h5,
      _, _, rfl, has_u8 h6, _, _, rfl, has_u8 h7, rfl⟩
  | unitDone e =>
    obtain ⟨h1, h2⟩ := h
    exact ⟨7, _, rfl, _, rfl, _, _, rfl, has_u32 h1, _, _, rfl, has_u32 h2, rfl⟩
  | unitPosition e =>
    obtain ⟨h1, h2, h3⟩ := h
    refine ⟨8, _, rfl, _, rfl, _, _, rfl, has_u32 h1, _, _, rfl, ⟨_, rfl, by simpa using h2, ?_⟩, rfl⟩
    intro w hw
    obtain ⟨x, hx, rfl⟩ := List.mem_map.1 hw
    exact has_i32 (h3 x hx)
  | playerSetup e =>
    obtain ⟨h1, h2, h3, h4⟩ := h
    exact ⟨9, _, rfl, _, rfl, _, _, rfl, has_u8 h1, _, _, rfl, has_u32 h2, _, _, rfl, has_opt (fun _ => has_u32) h3, _, _, rfl,
      has_opt (fun _ => has_u32) h4, rfl⟩

theorem venc_opt {α : Type} {f : α → Val} {g : α → List UInt8} {t : VTy} (h : ∀ a, venc t (f a) = g a) (o : Option α) :
    venc (.opt t) (optV f o) = maybe g o := by
  cases o with
  | none => rfl
  | some a => show OPT_TAG :: 1 :: venc t (f a) = _; rw [h]; rfl

theorem venc_num (k : IntKind) (x : Int) : venc (.int k) (.int x) = num x := rfl
theorem venc_text (s : Str) : venc .blob (.bytes s) = text s := rfl
theorem venc_nums (k : IntKind) (xs : List Int) : venc (.arr (.int k)) (.list (xs.map .int)) = nums xs := by
  show ARRAY_TAG :: (encVlq ((xs.map Val.int).length) ++ (xs.map Val.int).flatMap (fun v => venc (.int k) v)) = _
  rw [List.length_map, List.flatMap_map]
  rfl

theorem trackerVal_enc (e : TrackerEvt) : venc ReplayTrackerEEventId (trackerVal e) = trackerBody e := by
  cases e
  case unitPosition e =>
    simp only [trackerBody, ← venc_nums .i32 e.items]
    rfl
  all_goals
    simp only [trackerVal, trackerBody, ReplayTrackerEEventId, venc, vencAlt, ReplayTrackerSPlayerStatsEvent, ReplayTrackerSPlayerStats, ReplayTrackerSUnitBornEvent, ReplayTrackerSUnitDiedEvent,
      ReplayTrackerSUnitOwnerChangeEvent, ReplayTrackerSUnitTypeChangeEvent, ReplayTrackerSUpgradeEvent, ReplayTrackerSUnitInitEvent,
      ReplayTrackerSUnitDoneEvent, ReplayTrackerSUnitPositionsEvent, ReplayTrackerSPlayerSetupEvent, vencFields, venc_opt (venc_num _), venc_opt venc_text,
      venc_num, venc_text, venc_nums, event, record, statValues, List.map_cons, List.map_nil, List.length_cons, List.length_nil, List.zipIdx_cons, List.zipIdx_nil,
      List.flatMap_cons, List.flatMap_nil, Int.reduceEq, if_true, if_false]
    rfl

theorem optInt_optV (o : Option Int) : (optV .int o).optInt = .ok o := by cases o <;> rfl
theorem optBytes_optV (o : Option Str) : (optV .bytes o).optBytes = .ok o := by cases o <;> rfl
theorem ints_map (xs : List Int) : Val.ints (xs.map .int) = .ok xs := by
  induction xs with
  | nil => rfl
  | cons x xs ih => rw [List.map_cons, Val.ints, ih]; rfl

theorem trackerVal_conv (e : TrackerEvt) (h : Fits e) : convTracker (trackerVal e) = .ok e := by
  cases e with
  | playerStats p s =>
    show convPlayerStats (.struct [.int p, .struct ((statValues s).map .int)]) = _
    unfold convPlayerStats
    simp only [ints_map, Res.bind_ok]
    rw [if_pos (by rfl)]
    have : convStats (statValues s) = s := by
      cases s
      simp [statValues, convStats, Int.mul_tdiv_cancel_left]
    rw [this]
    rfl
  | unitBorn e =>
    obtain ⟨h1, h2, h3, h4, h5, h6, h7, h8, h9, h10⟩ := h
    simp only [trackerVal, convTracker, convUnitBorn]
    simp only [optInt_optV, optBytes_optV, Res.bind_ok]
    have ht : fromUtf8 e.unitTypeName = .ok e.unitTypeName := by unfold fromUtf8; rw [if_pos h3.1]
    cases hc : e.creatorAbilityName with
    | none => simp only [Res.pure_eq, Res.bind_ok, ht]; rw [← hc]
    | some s =>
      have hs : fromUtf8 s = .ok s := by unfold fromUtf8; rw [if_pos (h10 s hc).1]
      simp only [hs, Res.pure_eq, Res.bind_ok, ht]
      rw [← hc]
  | unitDied e =>
    simp only [trackerVal, convTracker, convUnitDied]
    simp only [optInt_optV, Res.bind_ok]
    rfl
  | unitOwnerChange e => rfl
  | unitTypeChange e =>
    simp only [trackerVal, convTracker, convUnitTypeChange]
    have ht : fromUtf8 e.unitTypeName = .ok e.unitTypeName := by unfold fromUtf8; rw [if_pos h.2.2.1]
    simp only [ht, Res.bind_ok]
    rfl
  | upgrade e =>
    simp only [trackerVal, convTracker, convUpgrade]
    obtain ⟨h1, h2, h3, h4⟩ := h
    rw [if_pos h3.1]
    cases e
    simp only at h2
    rw [h2]
  | unitInit e =>
    simp only [trackerVal, convTracker, convUnitInit]
    have ht : fromUtf8 e.unitTypeName = .ok e.unitTypeName := by unfold fromUtf8; rw [if_pos h.2.2.1.1]
    simp only [ht, Res.bind_ok]
    rfl
  | unitDone e => rfl
  | unitPosition e =>
    simp only [trackerVal, convTracker, convUnitPosition]
    simp only [ints_map, Res.bind_ok]
    rfl
  | playerSetup e =>
    simp only [trackerVal, convTracker, convPlayerSetup]
    simp only [optInt_optV, Res.bind_ok]
    rfl

/-- The size class of a delta. [proof device, no counterpart in /repo] -/
def deltaClass (d : Int) : Int := if d < 2 ^ 6 then 0 else if d < 2 ^ 14 then 1 else if d < 2 ^ 22 then 2 else 3

theorem delta_has (d : Int) (h : U32 d) : VHas SVarUint32 (.choice (deltaClass d) (.int d)) ∧ venc SVarUint32 (.choice (deltaClass d) (.int d)) = delta d := by
  unfold deltaClass delta
  split
  · exact ⟨⟨0, _, rfl, has_u8 ⟨h.1, by omega⟩⟩, rfl⟩
  · split
    · exact ⟨⟨1, _, rfl, has_u32 h⟩, rfl⟩
    · split
      · exact ⟨⟨2, _, rfl, has_u32 h⟩, rfl⟩
      · exact ⟨⟨3, _, rfl, has_u32 h⟩, rfl⟩

theorem venc_VEnc (bld : Build) (t : VTy) (hw : t.wf = true) (v : Val) (hv : VHas t v) : VEnc bld t v (venc t v) := by
  have h := vparse_venc bld t v hw hv []
  rw [List.append_nil] at h
  obtain ⟨u, h1, h2⟩ := (vparse_iff bld t _ _ _).1 h
  rw [List.append_nil] at h1
  rw [h1]
  exact h2

theorem trackerItem_wire (bld : Build) (p : Int × TrackerEvt) (hd : U32 p.1) (he : Fits p.2) :
    TrackerWire bld (p.1, trackerVal p.2) (trackerItem p) := by
  refine ⟨deltaClass p.1, delta p.1, trackerBody p.2, rfl, ?_, ?_⟩
  · rw [← (delta_has p.1 hd).2]
    exact venc_VEnc bld _ (by decide +kernel) _ (delta_has p.1 hd).1
  · rw [← trackerVal_enc p.2]
    exact venc_VEnc bld _ (by decide +kernel) _ (trackerVal_has p.2 he)

theorem trackerItems_stream (bld : Build) : (items : List (Int × TrackerEvt)) → (∀ p ∈ items, U32 p.1 ∧ Fits p.2) →
    Stream (TrackerWire bld) (items.map (fun p => (p.1, trackerVal p.2))) (items.flatMap trackerItem)
  | [], _ => rfl
  | p :: ps, h => ⟨trackerItem p, ps.flatMap trackerItem, rfl, trackerItem_wire bld p (h p (by simp)).1 (h p (by simp)).2,
      trackerItems_stream bld ps (fun q hq => h q (List.mem_cons_of_mem _ hq))⟩

theorem trackerItems_out : (items : List (Int × TrackerEvt)) → (∀ p ∈ items, U32 p.1 ∧ Fits p.2) →
    (items.map (fun p => (p.1, trackerVal p.2))).filterMap trackerOf = items
  | [], _ => rfl
  | p :: ps, h => by
    have hp : trackerOf (p.1, trackerVal p.2) = some p := by
      unfold trackerOf
      rw [trackerVal_conv p.2 (h p (by simp)).2]
      rfl
    rw [List.map_cons, List.filterMap_cons_some hp, trackerItems_out ps (fun q hq => h q (List.mem_cons_of_mem _ hq))]

/-- **C177.** For every sequence of tracker events: its bytes by the published layout are read back as exactly these events with exactly these
deltas, in both builds. -/
theorem C177_tracker (bld : Build) (items : List (Int × TrackerEvt)) (hne : items ≠ []) (h : ∀ p ∈ items, U32 p.1 ∧ Fits p.2)
    (n : Nat) (hn : (items.flatMap trackerItem).length < n) :
    readTrackerEvents bld n (items.flatMap trackerItem) = some (.ok items) := by
  rw [C29_tracker_stream bld _ _ n (by simpa using hne) (trackerItems_stream bld items h) hn, trackerItems_out items h]

/-- **C177.** Two sequences of tracker events with the same bytes are the same. -/
theorem C177_unambiguous (a b : List (Int × TrackerEvt)) (ha : ∀ p ∈ a, U32 p.1 ∧ Fits p.2) (hb : ∀ p ∈ b, U32 p.1 ∧ Fits p.2)
    (hne : a ≠ []) (hnb : b ≠ []) (h : a.flatMap trackerItem = b.flatMap trackerItem) : a = b := by
  have h1 := C177_tracker .release a hne ha _ (Nat.lt_succ_self _)
  have h2 := C177_tracker .release b hnb hb _ (Nat.lt_succ_self _)
  rw [h] at h1
  rw [h1] at h2
  simpa using h2

/-- A unit that is born with a creator, one that dies without a killer, and a supply of 12 of 15. [sample data] -/
def layoutSample : List (Int × TrackerEvt) :=
  [(0, .unitBorn ⟨300, 1, str "SCV", 1, 1, 40, 50, some 12, some 1, some (str "CommandCenterTrain")⟩), (70, .unitDied ⟨300, 1, none, 40, 50, none, none⟩),
   (20000, .unitPosition ⟨5, [0, 10, -3]⟩)]

instance (x : Int) : Decidable (U8 x) := by unfold U8; infer_instance
instance (x : Int) : Decidable (U32 x) := by unfold U32; infer_instance
instance (x : Int) : Decidable (I32 x) := by unfold I32; infer_instance
instance (s : Str) : Decidable (Txt s) := by unfold Txt; infer_instance

theorem layoutSample_fits : layoutSample ≠ [] ∧ (∀ p ∈ layoutSample, U32 p.1 ∧ Fits p.2) := by
  refine ⟨by decide, ?_⟩
  simp only [layoutSample, List.forall_mem_cons, Fits, Maybe, Option.some.injEq, reduceCtorEq, false_imp_iff, forall_eq', implies_true, and_true]
  refine ⟨?_, ?_, ?_, fun _ h => nomatch h⟩ <;> decide +kernel

example : trackerItem (70, .unitDone ⟨300, 1⟩) = [3, 2, 9, 0x8c, 1, 9, 14, 5, 4, 0, 9, 0xd8, 4, 2, 9, 2] := by decide +kernel

end S2
