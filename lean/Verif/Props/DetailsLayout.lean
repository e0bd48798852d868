import Verif.Props.Details
import Verif.Props.TrackerLayout
import Verif.Spec.DetailsLayout
/-! # The details of a replay are read by the published layout (C181) -/
namespace S2
open P87702.ByteAligned Published

/-- The value is one of the type, and its encoding is what the layout says. [proof device, no counterpart in /repo] -/
def VLay (t : VTy) (v : Val) (u : List UInt8) : Prop := VHas t v ∧ venc t v = u
/-- Likewise for the members of a structure. [proof device, no counterpart in /repo] -/
def VLayF (fs : VFields) (vs : List Val) (ms : List (Int × List UInt8)) : Prop :=
  VFieldsHas fs vs ∧ (vencFields fs vs).map Entry.bytes = ms.map (fun m => encVlq m.1 ++ m.2)

theorem vlay_u8 {x : Int} (h : U8 x) : VLay (.int .u8) (.int x) (num x) := ⟨has_u8 h, rfl⟩
theorem vlay_u32 {x : Int} (h : U32 x) : VLay (.int .u32) (.int x) (num x) := ⟨has_u32 h, rfl⟩
theorem vlay_i64 {x : Int} (h : I64 x) : VLay (.int .i64) (.int x) (num x) := by
  unfold I64 at h
  refine ⟨⟨x, rfl, ⟨?_, ?_⟩, ?_⟩, rfl⟩ <;> simp [IntKind.lo, IntKind.hi, vlqable, i64Min, i64Max] <;> omega
theorem vlay_u64 {x : Int} (h : 0 ≤ x ∧ x < 2 ^ 63) : VLay (.int .u64) (.int x) (num x) := by
  refine ⟨⟨x, rfl, ⟨?_, ?_⟩, ?_⟩, rfl⟩ <;> simp [IntKind.lo, IntKind.hi, vlqable, i64Min, i64Max] <;> omega
theorem vlay_txt {s : Str} (h : s.length < 2 ^ 63) : VLay .blob (.bytes s) (text s) := ⟨⟨s, rfl, h⟩, rfl⟩
theorem vlay_bool (b : Bool) : VLay .bool (.bool b) (truth b) := ⟨⟨b, rfl⟩, rfl⟩
theorem vlay_fourcc {x : Int} (h : U32 x) : VLay .fourcc (.int x) (letters x) := by
  refine ⟨⟨x.toNat, ?_, ?_⟩, rfl⟩
  · rw [Int.toNat_of_nonneg h.1]
  · have := h.2; omega
theorem vlay_opt {α : Type} {P : α → Prop} {f : α → Val} {g : α → List UInt8} {t : VTy} (h : ∀ a, P a → VLay t (f a) (g a))
    {o : Option α} (ho : Maybe P o) : VLay (.opt t) (optV f o) (maybe g o) := by
  cases o with
  | none => exact ⟨.inl rfl, rfl⟩
  | some a =>
    refine ⟨.inr ⟨_, rfl, (h a (ho a rfl)).1⟩, ?_⟩
    show OPT_TAG :: 1 :: venc t (f a) = _
    rw [(h a (ho a rfl)).2]
    rfl
theorem vlay_arr {α : Type} {f : α → Val} {g : α → List UInt8} {t : VTy} (xs : List α) (hl : xs.length < 2 ^ 63)
    (h : ∀ a ∈ xs, VLay t (f a) (g a)) : VLay (.arr t) (.list (xs.map f)) (array g xs) := by
  refine ⟨⟨_, rfl, by simpa using hl, ?_⟩, ?_⟩
  · intro w hw
    obtain ⟨a, ha, rfl⟩ := List.mem_map.1 hw
    exact (h a ha).1
  · show ARRAY_TAG :: (encVlq ((xs.map f).length) ++ (xs.map f).flatMap (fun v => venc t v)) = 0 :: (encVlq xs.length ++ xs.flatMap g)
    have e : (xs.map f).flatMap (fun v => venc t v) = xs.flatMap g := by
      rw [List.flatMap_map]
      clear hl
      induction xs with
      | nil => rfl
      | cons x xs ih => rw [List.flatMap_cons, List.flatMap_cons, (h x (by simp)).2, ih (fun a ha => h a (List.mem_cons_of_mem _ ha))]
    rw [e, List.length_map]
    rfl
theorem vlay_enum {alts : VAlts} {k : Int} (h : VAltHas alts k .unit) (he : vencAlt alts k .unit = []) :
    VLay (.choice true alts) (.choice k .unit) (num k) := by
  refine ⟨⟨k, .unit, rfl, h⟩, ?_⟩
  show INT_TAG :: (encVlq k ++ vencAlt alts k .unit) = _
  rw [he, List.append_nil]
  rfl

theorem vlay_nil : VLayF .nil [] [] := ⟨rfl, rfl⟩
theorem vlay_cons {n : Int} {name : String} {i : Int} {k : FKind} {t : VTy} {rest : VFields} {v : Val} {vs : List Val} {u : List UInt8}
    {ms : List (Int × List UInt8)} (h : VLay t v u) (hr : VLayF rest vs ms) : VLayF (.cons n name i k t rest) (v :: vs) ((n, u) :: ms) := by
  refine ⟨⟨v, vs, rfl, h.1, hr.1⟩, ?_⟩
  rw [vencFields, List.map_cons, List.map_cons, hr.2, h.2]
theorem vlay_record {fs : VFields} {vs : List Val} {ms : List (Int × List UInt8)} (h : VLayF fs vs ms) : VLay (.struct fs) (.struct vs) (numbered ms) := by
  refine ⟨⟨vs, rfl, h.1⟩, ?_⟩
  have hl : vs.length = ms.length := by
    rw [← (vencFields_length fs vs h.1).1, ← List.length_map (f := Entry.bytes), h.2, List.length_map]
  rw [venc, List.flatMap_def, h.2, hl, ← List.flatMap_def]
  rfl

theorem record_numbered (us : List (List UInt8)) : record us = numbered (us.zipIdx.map (fun p => ((p.2 : Int), p.1))) := by
  unfold record numbered
  rw [List.length_map, List.length_zipIdx, List.flatMap_map]

/-- Decoded identity. [proof device, no counterpart in /repo] -/
def toonVal (name : Str) (t : Toon) : Val := .struct [.int t.region, .int t.programId, .int t.realm, .bytes name, .int t.id]
/-- Decoded colour. [proof device, no counterpart in /repo] -/
def colourVal (c : Color) : Val := .struct [.int c.a, .int c.r, .int c.g, .int c.b]
/-- Decoded player. [proof device, no counterpart in /repo] -/
def playerVal (hidden : Str) (p : PlayerDetails) : Val :=
  .struct [.bytes p.name, toonVal hidden p.toon, .bytes p.race, colourVal p.color, .int p.control, .int p.teamId, .int p.handicap,
    .choice p.observe .unit, .choice (outcomes.idxOf p.result) .unit, optV .int p.workingSetSlotId, .bytes p.hero]
/-- The decoded members of the details in the order of the type. [proof device, no counterpart in /repo] -/
def detailsVals (hidden : PlayerDetails → Str) (handles : List Str) (d : Details) : List Val :=
  [.some (.list (d.playerList.map (fun p => playerVal (hidden p) p))), .bytes d.title, .bytes d.difficulty, .struct [.bytes d.thumbnail],
   .bool d.isBlizzardMap, .int d.timeUtc, .int d.timeLocalOffset, optV .bool d.restartAsTransitionMap, .bool d.disableRecoverGame,
   .bytes d.description, .bytes d.imageFilePath, .int d.campaignIndex, .bytes d.mapFileName, .some (.list (handles.map .bytes)), .bool d.miniSave,
   .choice (speeds.idxOf d.gameSpeed) .unit, .int d.defaultDifficulty, .some (.list (d.modPaths.map .bytes))]

theorem vlay_toon (name : Str) (t : Toon) (h : FitsToon t) (hn : name.length < 2 ^ 63) : VLay GameSToonNameDetails (toonVal name t) (toon name t) := by
  obtain ⟨h1, h2, h3, h4⟩ := h
  rw [toon, record_numbered]
  exact vlay_record (vlay_cons (vlay_u8 h1) (vlay_cons (vlay_fourcc h2) (vlay_cons (vlay_u32 h3) (vlay_cons (vlay_txt hn) (vlay_cons (vlay_u64 h4) vlay_nil)))))
theorem vlay_colour (c : Color) (h : FitsColour c) : VLay GameSColor (colourVal c) (colour c) := by
  obtain ⟨h1, h2, h3, h4⟩ := h
  rw [colour, record_numbered]
  exact vlay_record (vlay_cons (vlay_u8 h1) (vlay_cons (vlay_u8 h2) (vlay_cons (vlay_u8 h3) (vlay_cons (vlay_u8 h4) vlay_nil))))

theorem outcome_cases {r : Str} (h : r ∈ outcomes) : (outcomes.idxOf r = 0 ∧ r = str "Undecided") ∨ (outcomes.idxOf r = 1 ∧ r = str "Win") ∨
    (outcomes.idxOf r = 2 ∧ r = str "Loss") ∨ (outcomes.idxOf r = 3 ∧ r = str "Tie") := by
  simp only [outcomes, List.mem_cons, List.not_mem_nil, or_false] at h
  rcases h with rfl | rfl | rfl | rfl
  · exact .inl ⟨by decide +kernel, rfl⟩
  · exact .inr (.inl ⟨by decide +kernel, rfl⟩)
  · exact .inr (.inr (.inl ⟨by decide +kernel, rfl⟩))
  · exact .inr (.inr (.inr ⟨by decide +kernel, rfl⟩))
theorem speed_cases {r : Str} (h : r ∈ speeds) : (speeds.idxOf r = 0 ∧ r = str "Slower") ∨ (speeds.idxOf r = 1 ∧ r = str "Slow") ∨
    (speeds.idxOf r = 2 ∧ r = str "Normal") ∨ (speeds.idxOf r = 3 ∧ r = str "Fast") ∨ (speeds.idxOf r = 4 ∧ r = str "Faster") := by
  simp only [speeds, List.mem_cons, List.not_mem_nil, or_false] at h
  rcases h with rfl | rfl | rfl | rfl | rfl
  · exact .inl ⟨by decide +kernel, rfl⟩
  · exact .inr (.inl ⟨by decide +kernel, rfl⟩)
  · exact .inr (.inr (.inl ⟨by decide +kernel, rfl⟩))
  · exact .inr (.inr (.inr (.inl ⟨by decide +kernel, rfl⟩)))
  · exact .inr (.inr (.inr (.inr ⟨by decide +kernel, rfl⟩)))

theorem vlay_observe {k : Int} (h : 0 ≤ k ∧ k ≤ 2) : VLay EObserve (.choice k .unit) (num k) := by
  have : k = 0 ∨ k = 1 ∨ k = 2 := by omega
  rcases this with rfl | rfl | rfl <;> exact vlay_enum rfl rfl
theorem vlay_outcome {r : Str} (h : r ∈ outcomes) : VLay GameEResultDetails (.choice (outcomes.idxOf r) .unit) (num (outcomes.idxOf r)) := by
  rcases outcome_cases h with ⟨e, _⟩ | ⟨e, _⟩ | ⟨e, _⟩ | ⟨e, _⟩ <;> rw [e] <;> exact vlay_enum rfl rfl
theorem vlay_speed {r : Str} (h : r ∈ speeds) : VLay GameEGameSpeed (.choice (speeds.idxOf r) .unit) (num (speeds.idxOf r)) := by
  rcases speed_cases h with ⟨e, _⟩ | ⟨e, _⟩ | ⟨e, _⟩ | ⟨e, _⟩ | ⟨e, _⟩ <;> rw [e] <;> exact vlay_enum rfl rfl

theorem vlay_player (hidden : Str) (p : PlayerDetails) (h : FitsPlayer p) (hn : hidden.length < 2 ^ 63) :
    VLay GameSPlayerDetails (playerVal hidden p) (player hidden p) := by
  obtain ⟨h1, h2, h3, h4, h5, h6, h7, h8, h9, h10, h11⟩ := h
  rw [player, record_numbered]
  exact vlay_record (vlay_cons (vlay_txt h1.2) (vlay_cons (vlay_toon hidden _ h2 hn) (vlay_cons (vlay_txt h3.2) (vlay_cons (vlay_colour _ h4)
    (vlay_cons (vlay_u8 h5) (vlay_cons (vlay_u8 h6) (vlay_cons (vlay_u32 h7) (vlay_cons (vlay_observe h8) (vlay_cons (vlay_outcome h9)
    (vlay_cons (vlay_opt (fun _ => vlay_u8) h10) (vlay_cons (vlay_txt h11.2) vlay_nil)))))))))))

/-- The members in the order of the type. [proof device, no counterpart in /repo] -/
def declared (hidden : PlayerDetails → Str) (handles : List Str) (d : Details) : List (Int × List UInt8) :=
  [(0, maybe (array (fun p => player (hidden p) p)) (some d.playerList)),
   (1, text d.title), (2, text d.difficulty), (3, record [text d.thumbnail]), (4, truth d.isBlizzardMap), (5, num d.timeUtc),
   (6, num d.timeLocalOffset), (16, maybe truth d.restartAsTransitionMap), (17, truth d.disableRecoverGame), (7, text d.description),
   (8, text d.imageFilePath), (15, num d.campaignIndex), (9, text d.mapFileName),
   (10, maybe (array text) (some handles)), (11, truth d.miniSave), (12, num (speeds.idxOf d.gameSpeed)), (13, num d.defaultDifficulty),
   (14, maybe (array text) (some d.modPaths))]

theorem vlay_some {t : VTy} {v : Val} {α : Type} {g : α → List UInt8} {a : α} (h : VLay t v (g a)) : VLay (.opt t) (.some v) (maybe g (some a)) := by
  refine ⟨.inr ⟨_, rfl, h.1⟩, ?_⟩
  show OPT_TAG :: 1 :: venc t v = _
  rw [h.2]
  rfl

/-- The members of the type of the details. [proof device, no counterpart in /repo] -/
def detailsFields : VFields := match GameSDetails with | .struct fs => fs | _ => .nil

theorem vlay_details (hidden : PlayerDetails → Str) (handles : List Str) (d : Details) (h : DetailsFit hidden handles d) :
    VLayF detailsFields (detailsVals hidden handles d) (declared hidden handles d) := by
  obtain ⟨⟨h1, h1'⟩, h2, h3, h4, h5, h6, h7, h8, h9, ⟨h10, h10'⟩, h11, h12, h13, ⟨h14, h14'⟩, h15⟩ := h
  have thumb : VLay GameSThumbnail (.struct [.bytes d.thumbnail]) (record [text d.thumbnail]) := by
    rw [record_numbered]
    exact vlay_record (vlay_cons (vlay_txt h4.2) vlay_nil)
  exact vlay_cons (vlay_some (g := array (fun p => player (hidden p) p)) (vlay_arr _ h1 (fun p hp => vlay_player _ p (h1' p hp).1 (h1' p hp).2)))
    (vlay_cons (vlay_txt h2.2) (vlay_cons (vlay_txt h3.2) (vlay_cons thumb (vlay_cons (vlay_bool _) (vlay_cons (vlay_i64 h5) (vlay_cons (vlay_i64 h6)
    (vlay_cons (vlay_opt (P := fun _ => True) (fun b _ => vlay_bool b) (fun _ _ => trivial)) (vlay_cons (vlay_bool _) (vlay_cons (vlay_txt h7.2) (vlay_cons (vlay_txt h8.2)
    (vlay_cons (vlay_u8 h15) (vlay_cons (vlay_txt h9.2) (vlay_cons (vlay_some (g := array text) (vlay_arr _ h10 (fun x hx => vlay_txt (h10' x hx))))
    (vlay_cons (vlay_bool _) (vlay_cons (vlay_speed h12) (vlay_cons (vlay_u32 h13)
    (vlay_cons (vlay_some (g := array text) (vlay_arr _ h14 (fun x hx => vlay_txt (h14' x hx).2))) vlay_nil)))))))))))))))))

theorem conv_player (hidden : Str) (p : PlayerDetails) (h : FitsPlayer p) : convPlayer (playerVal hidden p) = .ok p := by
  obtain ⟨h1, h2, h3, h4, h5, h6, h7, h8, h9, h10, h11⟩ := h
  have ho : convObserve (.choice p.observe .unit) = .ok p.observe := by
    have : p.observe = 0 ∨ p.observe = 1 ∨ p.observe = 2 := by omega
    rcases this with e | e | e <;> rw [e] <;> rfl
  have hr : convResult (.choice (outcomes.idxOf p.result) .unit) = .ok p.result := by
    rcases outcome_cases h9 with ⟨e, e'⟩ | ⟨e, e'⟩ | ⟨e, e'⟩ | ⟨e, e'⟩ <;> rw [e, e'] <;> rfl
  simp only [playerVal, convPlayer, fromUtf8, h1.1, h3.1, h11.1, if_true, toonVal, convToon, colourVal, convColor, ho, hr, optInt_optV, Res.bind_ok, Res.pure_eq]

theorem conv_players (hidden : PlayerDetails → Str) : (l : List PlayerDetails) → (∀ p ∈ l, FitsPlayer p) →
    convPlayers (l.map (fun p => playerVal (hidden p) p)) = .ok l
  | [], _ => rfl
  | p :: l, h => by
    rw [List.map_cons, convPlayers, conv_player _ p (h p (by simp)), conv_players hidden l (fun q hq => h q (List.mem_cons_of_mem _ hq))]
    rfl
theorem blobs_map : (l : List Str) → Val.blobs (l.map .bytes) = .ok l
  | [] => rfl
  | x :: l => by rw [List.map_cons, Val.blobs, blobs_map l]; rfl
theorem conv_paths : (l : List Str) → (∀ p ∈ l, Txt p) → convPaths l = .ok l
  | [], _ => rfl
  | x :: l, h => by
    rw [convPaths, fromUtf8, if_pos (h x (by simp)).1, conv_paths l (fun q hq => h q (List.mem_cons_of_mem _ hq))]
    rfl

theorem conv_details (hidden : PlayerDetails → Str) (handles : List Str) (d : Details) (h : DetailsFit hidden handles d) :
    convDetails (.struct (detailsVals hidden handles d)) = .ok d := by
  obtain ⟨⟨h1, h1'⟩, h2, h3, h4, h5, h6, h7, h8, h9, ⟨h10, h10'⟩, h11, h12, h13, ⟨h14, h14'⟩, h15⟩ := h
  have hs : convSpeed (.choice (speeds.idxOf d.gameSpeed) .unit) = .ok d.gameSpeed := by
    rcases speed_cases h12 with ⟨e, e'⟩ | ⟨e, e'⟩ | ⟨e, e'⟩ | ⟨e, e'⟩ | ⟨e, e'⟩ <;> rw [e, e'] <;> rfl
  have hb : (optV .bool d.restartAsTransitionMap).optBool = .ok d.restartAsTransitionMap := by cases d.restartAsTransitionMap <;> rfl
  simp only [detailsVals, convDetails, Val.optList, conv_players hidden d.playerList (fun p hp => (h1' p hp).1), blobs_map, conv_paths d.modPaths h14', fromUtf8, h2.1,
    h3.1, convThumbnail, h4.1, h7.1, h8.1, h9.1, if_true, hs, hb, Res.bind_ok, Res.pure_eq, ← h11]

theorem perm_lift {α β : Type} (f : α → β) {l l' : List β} (h : l.Perm l') : ∀ C : List α, l' = C.map f → ∃ C' : List α, C'.Perm C ∧ l = C'.map f := by
  induction h with
  | nil =>
    intro C hC
    cases C with
    | nil => exact ⟨[], .refl _, rfl⟩
    | cons _ _ => cases hC
  | cons x _ ih =>
    intro C hC
    cases C with
    | nil => cases hC
    | cons c C =>
      rw [List.map_cons] at hC
      obtain ⟨rfl, h2⟩ := List.cons.inj hC
      obtain ⟨C', h3, rfl⟩ := ih C h2
      exact ⟨c :: C', h3.cons c, rfl⟩
  | swap x y l =>
    intro C hC
    match C, hC with
    | [], hC => cases hC
    | [_], hC => cases hC
    | a :: b :: C, hC =>
      rw [List.map_cons, List.map_cons] at hC
      obtain ⟨rfl, h2⟩ := List.cons.inj hC
      obtain ⟨rfl, rfl⟩ := List.cons.inj h2
      exact ⟨b :: a :: C, .swap _ _ _, rfl⟩
  | trans _ _ ih1 ih2 =>
    intro C hC
    obtain ⟨C2, h2, rfl⟩ := ih2 C hC
    obtain ⟨C1, h1, rfl⟩ := ih1 C2 rfl
    exact ⟨C1, h1.trans h2, rfl⟩

theorem numbered_enc (bld : Build) (fs : VFields) (vs : List Val) (ms ms0 : List (Int × List UInt8)) (hw : (VTy.struct fs).wf = true)
    (h : VLayF fs vs ms0) (hp : ms.Perm ms0) : VEnc bld (.struct fs) (.struct vs) (numbered ms) := by
  simp only [VTy.wf, Bool.and_eq_true, decide_eq_true_eq] at hw
  obtain ⟨⟨hw1, hw2⟩, hw3⟩ := hw
  obtain ⟨hl1, hl2⟩ := vencFields_length fs vs h.1
  obtain ⟨es, he, hb⟩ := perm_lift Entry.bytes (hp.map (fun m => encVlq m.1 ++ m.2)) (vencFields fs vs) h.2.symm
  have hlm : ms.length = es.length := by
    have := congrArg List.length hb
    simpa using this
  have hl : es.length < 2 ^ 63 := by
    rw [he.length_eq, ← List.length_map (f := Entry.tag), hl2]
    exact hw3
  refine ⟨(es.length : Int), encVlq es.length, vs, es, encVlq_enc bld _ (vlqable_natCast hl), asUsize_natCast hl, rfl, ?_, ?_, ?_⟩
  · rw [numbered, hlm, List.flatMap_def, hb, ← List.flatMap_def]
    rfl
  · intro en hen
    exact vencFields_enc bld fs vs hw1 hw2 h.1 en (he.mem_iff.1 hen)
  · exact structVals_perm fs _ _ vs he.symm (by rw [hl2]; exact hw2) (structVals_venc fs vs hw2 h.1)

theorem rotate_perm {α : Type} (X Y Z W : List α) : (X ++ (Y ++ Z) ++ W).Perm (W ++ (X ++ (Z ++ Y))) :=
  List.perm_append_comm.trans (List.Perm.append_left W (List.Perm.append_left X List.perm_append_comm))

/-- **C181.** For every details: with the members in any order, the bytes by the published layout (whatever follows them) are read back as exactly
these details, in both builds. -/
theorem C181_details (bld : Build) (hidden : PlayerDetails → Str) (handles : List Str) (d : Details) (h : DetailsFit hidden handles d)
    (ms : List (Int × List UInt8)) (hm : ms.Perm (detailsMembers hidden handles d)) (rest : List UInt8) :
    readDetails bld (numbered ms ++ rest) = .ok d := by
  have hp : (detailsMembers hidden handles d).Perm (declared hidden handles d) := by
    unfold detailsMembers declared
    refine .cons _ (.cons _ (.cons _ (.cons _ (.cons _ (.cons _ (.cons _ ?_))))))
    exact rotate_perm [_, _] [_, _, _, _, _, _] [_] [_, _]
  have he := numbered_enc bld detailsFields _ ms _ (by decide +kernel) (vlay_details hidden handles d h) (hm.trans hp)
  have hv : vparse bld GameSDetails (numbered ms ++ rest) = .ok (rest, .struct (detailsVals hidden handles d)) :=
    (vparse_iff bld _ _ _ _).2 ⟨_, rfl, he⟩
  unfold readDetails
  rw [hv]
  exact conv_details hidden handles d h

/-- A game of two players (one random, one observing without a slot) with two cache handles. [sample data] -/
def layoutDetails : Details :=
  ⟨[⟨str "Serral", ⟨2, 0x53320000, 1, 315071⟩, str "Zerg", ⟨255, 0, 66, 255⟩, 2, 1, 100, 0, str "Win", some 0, []⟩,
    ⟨str "Caster", ⟨1, 0x53320000, 1, 5⟩, str "Terran", ⟨255, 1, 2, 3⟩, 2, 0, 100, 1, str "Undecided", none, []⟩],
   str "Goldenaura LE", [], str "Minimap.tga", true, 133000000000000000, -36000000000, some false, false, [], [], 0, [],
   [str "7332"], false, str "Faster", 1, []⟩

instance (x : Int) : Decidable (I64 x) := by unfold I64; infer_instance

theorem layoutDetails_fit : DetailsFit (fun _ => str "x") [[0x73, 0x32]] layoutDetails := by
  refine ⟨⟨by decide, ?_⟩, ?_, ?_, ?_, ?_, ?_, ?_, ?_, ?_, ⟨by decide, ?_⟩, ?_, ?_, ?_, ⟨by decide, ?_⟩, ?_⟩
  case refine_1 =>
    simp only [layoutDetails, List.forall_mem_cons, FitsPlayer, FitsToon, FitsColour, Maybe, Option.some.injEq, reduceCtorEq, false_imp_iff, forall_eq', implies_true,
      and_true, true_and]
    refine ⟨?_, ?_, fun _ h => nomatch h⟩ <;> decide +kernel
  all_goals decide +kernel

example : (readDetails .release (numbered (detailsMembers (fun _ => str "x") [[0x73, 0x32]] layoutDetails).reverse ++ [1, 2])).isOk = true := by decide +kernel

end S2
