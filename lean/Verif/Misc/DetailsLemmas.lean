import Verif.Spec.DetailsSpec
import Verif.Events.ConvertLemmas
/-! # Lemmas about the conversion of `replay.details` -/
namespace S2

theorem fromUtf8_ok {b s : List UInt8} : fromUtf8 b = .ok s ↔ s = b ∧ utf8Ok b = true := by
  unfold fromUtf8; split
  · rename_i h; simp only [Res.ok.injEq, h, and_true]; exact eq_comm
  · rename_i h; simp [h]

theorem optInt_ok {v : Val} {o : Option Int} : v.optInt = .ok o ↔ v = optIntVal o := by
  cases o <;> unfold Val.optInt optIntVal <;> split <;> simp_all

theorem optBool_ok {v : Val} {o : Option Bool} : v.optBool = .ok o ↔ v = optBoolVal o := by
  unfold Val.optBool optBoolVal; split
  · cases o <;> simp
  · cases o <;> simp
  · rename_i h1 h2; cases o with
    | none => simpa using h1
    | some b => simpa using h2 b

theorem optList_ok {v : Val} {vs : List Val} : v.optList = .ok vs ↔ ItemsOf v vs := by
  unfold Val.optList ItemsOf; split <;> simp_all [eq_comm]

theorem blobs_ok : ∀ {vs : List Val} {bs : List (List UInt8)}, Val.blobs vs = .ok bs ↔ vs = bs.map Val.bytes
  | [], bs => by cases bs <;> simp [Val.blobs]
  | v :: vs, bs => by
    unfold Val.blobs; split
    · simp_all
    · rename_i h; cases h
      simp only [Res.bind_eq_ok, blobs_ok, Res.pure_eq, Res.ok.injEq]
      cases bs with
      | nil => simp
      | cons b bs => simp only [List.cons.injEq, List.map_cons, Val.bytes.injEq]; constructor
                     · rintro ⟨_, rfl, rfl, rfl⟩; exact ⟨rfl, rfl⟩
                     · rintro ⟨rfl, rfl⟩; exact ⟨_, rfl, rfl, rfl⟩
    · rename_i h1 h2
      cases bs with
      | nil => simp
      | cons b bs =>
        simp only [reduceCtorEq, false_iff, List.map_cons, List.cons.injEq, not_and]
        rintro rfl; exact absurd rfl (h2 _ _)

theorem convToon_ok {v : Val} {t : Toon} : convToon v = .ok t ↔
    ∃ n, v = .struct [.int t.region, .int t.programId, .int t.realm, .bytes n, .int t.id] := by
  unfold convToon; split
  · simp only [Res.ok.injEq]; constructor
    · rintro rfl; exact ⟨_, rfl⟩
    · rintro ⟨n, h⟩; simp at h; cases t; simp_all
  · rename_i h; simp only [reduceCtorEq, false_iff, not_exists]; rintro n rfl; exact h _ _ _ _ _ rfl

theorem convColor_ok {v : Val} {t : Color} : convColor v = .ok t ↔
    v = .struct [.int t.a, .int t.r, .int t.g, .int t.b] := by
  unfold convColor; split
  · cases t; simp
  · rename_i h; simp only [reduceCtorEq, false_iff]; rintro rfl; exact h _ _ _ _ rfl

theorem convObserve_ok {v : Val} {x : Int} : convObserve v = .ok x ↔
    v = .choice x .unit ∧ (x = 0 ∨ x = 1 ∨ x = 2) := by
  unfold convObserve; split
  · simp; omega
  · simp; omega
  · simp; omega
  · rename_i h0 h1 h2
    simp only [reduceCtorEq, false_iff, not_and]
    rintro rfl
    rintro (rfl | rfl | rfl)
    · exact h0 rfl
    · exact h1 rfl
    · exact h2 rfl

theorem convResult_ok {v : Val} {s : Str} : convResult v = .ok s ↔
    ∃ n : Nat, v = .choice n .unit ∧ resultNames[n]? = some s := by
  constructor
  · intro h
    unfold convResult at h; split at h <;> cases h
    · exact ⟨0, rfl, rfl⟩
    · exact ⟨1, rfl, rfl⟩
    · exact ⟨2, rfl, rfl⟩
    · exact ⟨3, rfl, rfl⟩
  · rintro ⟨n, rfl, h⟩
    match n, h with
    | 0, h => exact congrArg Res.ok (Option.some.inj h)
    | 1, h => exact congrArg Res.ok (Option.some.inj h)
    | 2, h => exact congrArg Res.ok (Option.some.inj h)
    | 3, h => exact congrArg Res.ok (Option.some.inj h)
    | n + 4, h => simp [resultNames] at h

theorem convSpeed_ok {v : Val} {s : Str} : convSpeed v = .ok s ↔
    ∃ n : Nat, v = .choice n .unit ∧ speedNames[n]? = some s := by
  constructor
  · intro h
    unfold convSpeed at h; split at h <;> cases h
    · exact ⟨0, rfl, rfl⟩
    · exact ⟨1, rfl, rfl⟩
    · exact ⟨2, rfl, rfl⟩
    · exact ⟨3, rfl, rfl⟩
    · exact ⟨4, rfl, rfl⟩
  · rintro ⟨n, rfl, h⟩
    match n, h with
    | 0, h => exact congrArg Res.ok (Option.some.inj h)
    | 1, h => exact congrArg Res.ok (Option.some.inj h)
    | 2, h => exact congrArg Res.ok (Option.some.inj h)
    | 3, h => exact congrArg Res.ok (Option.some.inj h)
    | 4, h => exact congrArg Res.ok (Option.some.inj h)
    | n + 5, h => simp [speedNames] at h

theorem convPlayer_ok {v : Val} {p : PlayerDetails} : convPlayer v = .ok p ↔ PlayerSays v p := by
  unfold convPlayer; split
  · simp only [Res.bind_eq_ok, fromUtf8_ok, convToon_ok, convColor_ok, convObserve_ok, convResult_ok, optInt_ok,
      Res.pure_eq, Res.ok.injEq, PlayerSays, Val.struct.injEq, List.cons.injEq, Val.bytes.injEq, Val.int.injEq]
    constructor
    · rintro ⟨_, ⟨rfl, h1⟩, t, ⟨n, rfl⟩, _, ⟨rfl, h2⟩, c, rfl, o, ⟨rfl, h3⟩, r, ⟨k, rfl, h4⟩, sl, rfl, _, ⟨rfl, h5⟩, rfl⟩
      exact ⟨n, k, by simp, h3, h4, h1, h2, h5⟩
    · rintro ⟨n, k, ⟨rfl, rfl, rfl, rfl, rfl, rfl, rfl, rfl, rfl, rfl, rfl, _⟩, h3, h4, h1, h2, h5⟩
      exact ⟨_, ⟨rfl, h1⟩, _, ⟨n, rfl⟩, _, ⟨rfl, h2⟩, _, rfl, _, ⟨rfl, h3⟩, _, ⟨k, rfl, h4⟩, _, rfl, _, ⟨rfl, h5⟩, rfl⟩
  · rename_i h
    simp only [reduceCtorEq, false_iff]
    rintro ⟨n, k, rfl, _⟩
    exact h _ _ _ _ _ _ _ _ _ _ _ rfl

theorem convPlayers_ok : ∀ {vs : List Val} {ps : List PlayerDetails},
    convPlayers vs = .ok ps ↔ AllPairs PlayerSays vs ps
  | [], ps => by cases ps <;> simp [convPlayers, AllPairs]
  | v :: vs, ps => by
    simp only [convPlayers, Res.bind_eq_ok, convPlayer_ok, convPlayers_ok, Res.pure_eq, Res.ok.injEq]
    cases ps with
    | nil => simp [AllPairs]
    | cons p ps =>
      simp only [AllPairs, List.cons.injEq]
      constructor
      · rintro ⟨_, h1, _, h2, rfl, rfl⟩; exact ⟨h1, h2⟩
      · rintro ⟨h1, h2⟩; exact ⟨_, h1, _, h2, rfl, rfl⟩

theorem convPaths_ok : ∀ {bs ss : List (List UInt8)},
    convPaths bs = .ok ss ↔ ss = bs ∧ ∀ m ∈ bs, utf8Ok m = true
  | [], ps => by simp only [convPaths, Res.ok.injEq, List.not_mem_nil, false_implies, implies_true, and_true]; exact eq_comm
  | b :: bs, ss => by
    simp only [convPaths, Res.bind_eq_ok, fromUtf8_ok, convPaths_ok, Res.pure_eq, Res.ok.injEq, List.forall_mem_cons]
    constructor
    · rintro ⟨_, ⟨rfl, h1⟩, _, ⟨rfl, h2⟩, rfl⟩; exact ⟨rfl, h1, h2⟩
    · rintro ⟨rfl, h1, h2⟩; exact ⟨_, ⟨rfl, h1⟩, _, ⟨rfl, h2⟩, rfl⟩

theorem convThumbnail_ok {v : Val} {s : Str} : convThumbnail v = .ok s ↔
    v = .struct [.bytes s] ∧ utf8Ok s = true := by
  unfold convThumbnail; split
  · simp only [fromUtf8_ok, Val.struct.injEq, List.cons.injEq, Val.bytes.injEq, and_true]
    constructor
    · rintro ⟨rfl, h⟩; exact ⟨rfl, h⟩
    · rintro ⟨rfl, h⟩; exact ⟨rfl, h⟩
  · rename_i h; simp only [reduceCtorEq, false_iff, not_and]; rintro rfl; exact absurd rfl (h _)

theorem convDetails_ok {v : Val} {d : Details} : convDetails v = .ok d ↔ DetailsSays v d := by
  unfold convDetails; split
  · simp only [Res.bind_eq_ok, fromUtf8_ok, optList_ok, optBool_ok, blobs_ok, convPlayers_ok, convPaths_ok,
      convThumbnail_ok, convSpeed_ok, Res.pure_eq, Res.ok.injEq, DetailsSays, Val.struct.injEq, List.cons.injEq,
      Val.bytes.injEq, Val.int.injEq, Val.bool.injEq]
    constructor
    · rintro ⟨pv, h1, ps, h2, hv, h3, hb, rfl, mv, h4, mb, rfl, _, ⟨rfl, h5⟩, _, ⟨rfl, h6⟩, _, ⟨rfl, h7⟩, th, ⟨rfl, h8⟩,
        re, rfl, _, ⟨rfl, h9⟩, _, ⟨rfl, h10⟩, _, ⟨rfl, h11⟩, sp, ⟨k, rfl, h12⟩, rfl⟩
      exact ⟨_, _, _, _, pv, hb, k, by simp, h1, h2, rfl, h3, rfl, h4, h5, h12, h6, h7, h8, h9, h10, h11⟩
    · rintro ⟨_, _, _, _, pv, hb, k, ⟨rfl, rfl, rfl, rfl, rfl, rfl, rfl, rfl, rfl, rfl, rfl, rfl, rfl, rfl, rfl, rfl, rfl,
        rfl, _⟩, h1, h2, hr, h3, hc, h4, h5, h12, h6, h7, h8, h9, h10, h11⟩
      refine ⟨_, h1, _, h2, _, h3, _, rfl, _, h4, _, rfl, _, ⟨rfl, h5⟩, _, ⟨rfl, h6⟩, _, ⟨rfl, h7⟩, _, ⟨rfl, h8⟩,
        _, hr, _, ⟨rfl, h9⟩, _, ⟨rfl, h10⟩, _, ⟨rfl, h11⟩, _, ⟨k, rfl, h12⟩, ?_⟩
      cases d; simp_all
  · rename_i h
    simp only [reduceCtorEq, false_iff]
    rintro ⟨_, _, _, _, pv, hb, k, rfl, _⟩
    exact h _ _ _ _ _ _ _ _ _ _ _ _ _ _ _ _ _ _ rfl

/-! ## Totality -/

/-- `r` succeeds if `p` holds and is the UTF-8 error otherwise. -/
def Utf8Iff {α : Type} (p : Bool) (r : Res α) : Prop := if p then ∃ x, r = .ok x else r = .err .utf8

theorem Utf8Iff.fromUtf8 (b : List UInt8) : Utf8Iff (utf8Ok b) (fromUtf8 b) := by
  unfold Utf8Iff S2.fromUtf8; split <;> simp

theorem Utf8Iff.pure {α : Type} (a : α) : Utf8Iff true (.ok a) := ⟨a, rfl⟩

theorem Utf8Iff.bind {α β : Type} {p q : Bool} {r : Res α} {f : α → Res β} (h : Utf8Iff p r)
    (hf : ∀ a, r = .ok a → Utf8Iff q (f a)) : Utf8Iff (p && q) (r >>= f) := by
  cases p
  · have h : r = .err .utf8 := h
    subst h; rfl
  · obtain ⟨a, rfl⟩ : ∃ x, r = .ok x := h
    exact hf a rfl

theorem Utf8Iff.bindOk {α β : Type} {q : Bool} {r : Res α} {f : α → Res β} (h : ∃ x, r = .ok x)
    (hf : ∀ a, r = .ok a → Utf8Iff q (f a)) : Utf8Iff q (r >>= f) := by
  obtain ⟨a, rfl⟩ := h
  exact hf a rfl

theorem convPlayer_total {v : Val} (h : VShape P87702.ByteAligned.GameSPlayerDetails v) :
    Utf8Iff ((playerTexts v).all utf8Ok) (convPlayer v) := by
  obtain ⟨vs, rfl, v0, _, rfl, h0, v1, _, rfl, h1, v2, _, rfl, h2, v3, _, rfl, h3, v4, _, rfl, h4,
      v5, _, rfl, h5, v6, _, rfl, h6, v7, _, rfl, h7, v8, _, rfl, h8, v9, _, rfl, h9, v10, _, rfl, h10, rfl⟩ := h
  obtain ⟨x0, rfl⟩ := mand h0
  obtain ⟨x2, rfl⟩ := mand h2
  obtain ⟨x4, rfl, _⟩ := mand h4
  obtain ⟨x5, rfl, _⟩ := mand h5
  obtain ⟨x6, rfl, _⟩ := mand h6
  obtain ⟨x10, rfl⟩ := mand h10
  have e1 : ∃ t, convToon v1 = .ok t := by
    obtain ⟨vs, rfl, w0, _, rfl, g0, w1, _, rfl, g1, w2, _, rfl, g2, w3, _, rfl, g3, w4, _, rfl, g4, rfl⟩ := mand h1
    obtain ⟨y0, rfl, _⟩ := mand g0
    obtain ⟨y1, rfl⟩ := mand g1
    obtain ⟨y2, rfl, _⟩ := mand g2
    obtain ⟨y4, rfl, _⟩ := mand g4
    rcases g3 with ⟨y3, rfl⟩ | rfl <;> exact ⟨_, rfl⟩
  have e3 : ∃ t, convColor v3 = .ok t := by
    obtain ⟨vs, rfl, w0, _, rfl, g0, w1, _, rfl, g1, w2, _, rfl, g2, w3, _, rfl, g3, rfl⟩ := mand h3
    obtain ⟨y0, rfl, _⟩ := mand g0
    obtain ⟨y1, rfl, _⟩ := mand g1
    obtain ⟨y2, rfl, _⟩ := mand g2
    obtain ⟨y3, rfl, _⟩ := mand g3
    exact ⟨_, rfl⟩
  have e7 : ∃ t, convObserve v7 = .ok t := by
    obtain ⟨tag, w, rfl, h⟩ := mand h7
    simp only [VAltShape, VShape] at h
    repeat' (split at h; · subst tag; subst h; exact ⟨_, rfl⟩)
    exact h.elim
  have e8 : ∃ t, convResult v8 = .ok t := by
    obtain ⟨tag, w, rfl, h⟩ := mand h8
    simp only [VAltShape, VShape] at h
    repeat' (split at h; · subst tag; subst h; exact ⟨_, rfl⟩)
    exact h.elim
  have e9 := optInt_shape h9
  simp only [convPlayer, playerTexts, List.all_cons, List.all_nil]
  exact Utf8Iff.bind (.fromUtf8 _) fun _ _ => .bindOk e1 fun _ _ => .bind (.fromUtf8 _) fun _ _ =>
    .bindOk e3 fun _ _ => .bindOk e7 fun _ _ => .bindOk e8 fun _ _ => .bindOk e9 fun _ _ =>
    .bind (.fromUtf8 _) fun _ _ => .pure _

theorem convPlayers_total : ∀ (vs : List Val), (∀ w ∈ vs, VShape P87702.ByteAligned.GameSPlayerDetails w) →
    Utf8Iff ((vs.flatMap playerTexts).all utf8Ok) (convPlayers vs)
  | [], _ => .pure _
  | v :: vs, h => by
    have h1 := convPlayer_total (h v (by simp))
    have h2 := convPlayers_total vs (fun w hw => h w (by simp [hw]))
    simp only [convPlayers, List.flatMap_cons, List.all_append]
    have h3 := Utf8Iff.bind h1 (fun p _ => Utf8Iff.bind h2 (f := fun ps => .ok (p :: ps)) (fun _ _ => .pure _))
    simpa only [Bool.and_true, Res.pure_eq] using h3

theorem convPaths_total : ∀ (bs : List (List UInt8)), Utf8Iff (bs.all utf8Ok) (convPaths bs)
  | [] => .pure _
  | b :: bs => by
    simp only [convPaths, List.all_cons]
    have h3 := Utf8Iff.bind (.fromUtf8 b)
      (fun p _ => Utf8Iff.bind (convPaths_total bs) (f := fun ps => .ok (p :: ps)) (fun _ _ => .pure _))
    simpa only [Bool.and_true, Res.pure_eq] using h3

theorem optBool_shape {v : Val} (h : VShape (.opt .bool) v ∨ v = .none) : ∃ x, v.optBool = .ok x := by
  rcases h with (rfl | ⟨w, rfl, ⟨x, rfl⟩⟩) | rfl <;> exact ⟨_, rfl⟩

theorem optList_shape {t : VTy} {v : Val} (h : VShape (.opt (.arr t)) v ∨ v = .none) :
    v.optList = .ok (optItems v) ∧ ∀ w ∈ optItems v, VShape t w := by
  rcases h with (rfl | ⟨w, rfl, ⟨vs, rfl, h⟩⟩) | rfl
  · exact ⟨rfl, by simp [optItems]⟩
  · exact ⟨rfl, h⟩
  · exact ⟨rfl, by simp [optItems]⟩

theorem blobs_shape : ∀ {vs : List Val}, (∀ w ∈ vs, VShape .blob w) → Val.blobs vs = .ok (vs.map blobOf)
  | [], _ => rfl
  | v :: vs, h => by
    obtain ⟨b, rfl⟩ := h v (by simp)
    have h2 : Val.blobs vs = .ok (vs.map blobOf) := blobs_shape (fun w hw => h w (by simp [hw]))
    simp [Val.blobs, h2, blobOf]

theorem convDetails_total {v : Val} (h : VShape P87702.ByteAligned.GameSDetails v) :
    Utf8Iff ((detailsTexts v).all utf8Ok) (convDetails v) := by
  obtain ⟨vs, rfl, v0, _, rfl, h0, v1, _, rfl, h1, v2, _, rfl, h2, v3, _, rfl, h3, v4, _, rfl, h4,
      v5, _, rfl, h5, v6, _, rfl, h6, v7, _, rfl, h7, v8, _, rfl, h8, v9, _, rfl, h9, v10, _, rfl, h10,
      v11, _, rfl, h11, v12, _, rfl, h12, v13, _, rfl, h13, v14, _, rfl, h14, v15, _, rfl, h15, v16, _, rfl, h16,
      v17, _, rfl, h17, rfl⟩ := h
  obtain ⟨x1, rfl⟩ := mand h1
  obtain ⟨x2, rfl⟩ := mand h2
  obtain ⟨vs, rfl, w0, _, rfl, g0, rfl⟩ := mand h3
  obtain ⟨x3, rfl⟩ := mand g0
  obtain ⟨x4, rfl⟩ := mand h4
  obtain ⟨x5, rfl, _⟩ := mand h5
  obtain ⟨x6, rfl, _⟩ := mand h6
  have e7 := optBool_shape h7
  obtain ⟨x8, rfl⟩ := mand h8
  obtain ⟨x9, rfl⟩ := mand h9
  obtain ⟨x10, rfl⟩ := mand h10
  obtain ⟨x11, rfl, _⟩ := mand h11
  obtain ⟨x12, rfl⟩ := mand h12
  obtain ⟨x14, rfl⟩ := mand h14
  obtain ⟨x16, rfl, _⟩ := mand h16
  obtain ⟨e0, s0⟩ := optList_shape h0
  obtain ⟨e13, s13⟩ := optList_shape h13
  obtain ⟨e17, s17⟩ := optList_shape h17
  have e15 : ∃ t, convSpeed v15 = .ok t := by
    obtain ⟨tag, w, rfl, h⟩ := mand h15
    simp only [VAltShape, VShape] at h
    repeat' (split at h; · subst tag; subst h; exact ⟨_, rfl⟩)
    exact h.elim
  simp only [convDetails, detailsTexts, List.all_append, List.all_cons, List.all_nil, Bool.and_assoc, e0, e13, e17,
    Res.bind_ok, blobs_shape s13, blobs_shape s17, convThumbnail]
  exact Utf8Iff.bind (convPlayers_total _ s0) fun _ _ => .bind (convPaths_total _) fun _ _ =>
    .bind (.fromUtf8 _) fun _ _ => .bind (.fromUtf8 _) fun _ _ => .bind (.fromUtf8 _) fun _ _ => .bindOk e7 fun _ _ =>
    .bind (.fromUtf8 _) fun _ _ => .bind (.fromUtf8 _) fun _ _ => .bind (.fromUtf8 _) fun _ _ => .bindOk e15 fun _ _ =>
    .pure _

end S2
