import Verif.Spec.GenSelectSpec
import Verif.ResLemmas
/-! # Which declarations are written (C171) -/
namespace S2.Generator
open S2
variable {α : Type}

theorem split_last {a b p q : List Char} (ha : '.' ∉ a) (hb : '.' ∉ b) (h : p ++ '.' :: a = q ++ '.' :: b) : p = q ∧ a = b := by
  induction p generalizing q with
  | nil =>
    cases q with
    | nil => simp only [List.nil_append, List.cons.injEq, true_and] at h; exact ⟨rfl, h⟩
    | cons x q =>
      simp only [List.nil_append, List.cons_append, List.cons.injEq] at h
      exact absurd (by rw [h.2]; simp) ha
  | cons x p ih =>
    cases q with
    | nil =>
      simp only [List.nil_append, List.cons_append, List.cons.injEq] at h
      exact absurd (by rw [← h.2]; simp) hb
    | cons y q =>
      simp only [List.cons_append, List.cons.injEq] at h
      obtain ⟨h1, h2⟩ := ih h.2
      exact ⟨by rw [h.1, h1], h2⟩

theorem dots_join (p own : String) (h : DotFree own) : dots (p ++ "." ++ own) = dots p + 1 := by
  unfold dots
  simp only [String.toList_append, List.count_append]
  have : own.toList.count '.' = 0 := List.count_eq_zero.2 h
  rw [this]; rfl

theorem join_inj {p q a b : String} (ha : DotFree a) (hb : DotFree b) (h : p ++ "." ++ a = q ++ "." ++ b) : p = q := by
  have := congrArg String.toList h
  simp only [String.toList_append] at this
  have e : ".".toList = ['.'] := rfl
  rw [e, List.append_assoc, List.append_assoc] at this
  exact String.toList_inj.1 (split_last ha hb this).1

instance (s : String) : Decidable (DotFree s) := by unfold DotFree; infer_instance

/-- The parent of a well-formed name is determined. -/
theorem parent_of {p own n : String} (q b : String) (h : DotFree own) (hb : DotFree b) (hn : n = p ++ "." ++ own)
    (hq : n = q ++ "." ++ b) : p = q := join_inj h hb (hn ▸ hq)

theorem emitted_one {n : String} (h : dots n = 1) (he : emitted n = true) :
    n = "NNet.SVersion" ∨ n = "NNet.SVarUint32" ∨ n = "NNet.SMD5" ∨ n = "NNet.EObserve" := by
  simp only [emitted, Bool.or_eq_true, decide_eq_true_eq, List.mem_cons, List.not_mem_nil, or_false] at he
  rcases he with he | he
  · rcases he with rfl | rfl | rfl | rfl | rfl | rfl | rfl | rfl | rfl | rfl | rfl | rfl | rfl | rfl
    all_goals first | (simp; done) | (exfalso; revert h; decide +kernel)
  · exfalso
    rw [List.isPrefixOf_iff_prefix] at he
    obtain ⟨t, ht⟩ := he
    unfold dots at h
    rw [← ht, List.count_append] at h
    have : "NNet.Replay.Tracker.S".toList.count '.' = 3 := by decide +kernel
    omega

theorem emitted_two {n : String} (h : dots n = 2) (he : emitted n = true) :
    n = "NNet.Replay.SHeader" ∨ n ∈ ["NNet.Game.CPlayerDetailsArray", "NNet.Game.SDetails", "NNet.Game.SPlayerDetails", "NNet.Game.SThumbnail",
        "NNet.Game.EGameSpeed", "NNet.Game.EResultDetails", "NNet.Game.SToonNameDetails", "NNet.Game.SColor"] := by
  simp only [emitted, Bool.or_eq_true, decide_eq_true_eq, List.mem_cons, List.not_mem_nil, or_false] at he
  rcases he with he | he
  · rcases he with rfl | rfl | rfl | rfl | rfl | rfl | rfl | rfl | rfl | rfl | rfl | rfl | rfl | rfl
    all_goals first | (simp; done) | (exfalso; revert h; decide +kernel)
  · exfalso
    rw [List.isPrefixOf_iff_prefix] at he
    obtain ⟨t, ht⟩ := he
    unfold dots at h
    rw [← ht, List.count_append] at h
    have : "NNet.Replay.Tracker.S".toList.count '.' = 3 := by decide +kernel
    omega

theorem emitted_three {n : String} (h : dots n = 3) :
    emitted n = ("NNet.Replay.Tracker.S".toList.isPrefixOf n.toList || n == "NNet.Replay.Tracker.EEventId") := by
  rw [Bool.eq_iff_iff]
  simp only [emitted, Bool.or_eq_true, decide_eq_true_eq, List.mem_cons, List.not_mem_nil, or_false, beq_iff_eq]
  constructor
  · rintro (he | he)
    · rcases he with rfl | rfl | rfl | rfl | rfl | rfl | rfl | rfl | rfl | rfl | rfl | rfl | rfl | rfl
      all_goals first | (right; rfl) | (exfalso; revert h; decide +kernel)
    · exact .inl he
  · rintro (he | rfl)
    · exact .inr he
    · simp

/-- A leaf with an emitted name stands in `NNet.Replay.Tracker`. -/
theorem tracker_parent {p own : String} (hp : dots p = 2) (ho : DotFree own) (he : emitted (p ++ "." ++ own) = true) :
    p = "NNet.Replay.Tracker" := by
  rw [emitted_three (by rw [dots_join _ _ ho, hp])] at he
  simp only [Bool.or_eq_true, beq_iff_eq] at he
  rcases he with he | he
  · rw [List.isPrefixOf_iff_prefix] at he
    obtain ⟨t, ht⟩ := he
    have e : "NNet.Replay.Tracker.S".toList = "NNet.Replay.Tracker".toList ++ '.' :: ['S'] := by decide +kernel
    simp only [String.toList_append] at ht
    have e2 : ".".toList = ['.'] := rfl
    rw [e, e2, List.append_assoc, List.append_assoc, List.cons_append] at ht
    have hd : '.' ∉ 'S' :: t := by
      have hc := congrArg (List.count '.') ht
      simp only [List.count_append, List.singleton_append, List.count_cons_self] at hc
      have h1 : "NNet.Replay.Tracker".toList.count '.' = 2 := by decide +kernel
      have h2 : own.toList.count '.' = 0 := List.count_eq_zero.2 ho
      unfold dots at hp
      rw [h1, h2, hp] at hc
      exact List.count_eq_zero.1 (by omega)
    exact (String.toList_inj.1 (split_last hd ho ht).1).symm
  · exact parent_of "NNet.Replay.Tracker" "EEventId" ho (by decide +kernel) rfl (he.trans (by decide +kernel))

theorem filter_nil_of {l : List (String × α)} (h : ∀ x ∈ l, emitted x.1 = false) : l.filter (fun x => emitted x.1) = [] := by
  rw [List.filter_eq_nil_iff]; intro x hx; simp [h x hx]

/-- Second level. -/
theorem byteSub_eq (p : String) (hp : dots p = 1) (hr : p = "NNet.Replay" ∨ p = "NNet.Game") (s : Sub α)
    (hs : (∃ own, DotFree own ∧ s.fullname = p ++ "." ++ own) ∧ s.WellNamed) (hd : s.fullname = "NNet.Replay.Tracker" → s.decls ≠ none) :
    byteSubSelected s = .ok (s.walk.filter (fun x => emitted x.1)) := by
  obtain ⟨⟨own, ho, hn⟩, hw⟩ := hs
  have h2 : dots s.fullname = 2 := by rw [hn, dots_join _ _ ho, hp]
  have hleaf : s.fullname ≠ "NNet.Replay.Tracker" →
      ((s.decls.getD []).map (fun l => (l.fullname, l.body))).filter (fun x => emitted x.1) = [] := by
    intro hne
    apply filter_nil_of
    intro x hx
    obtain ⟨l, hl, rfl⟩ := List.mem_map.1 hx
    obtain ⟨o, hoo, hl2⟩ := hw l hl
    cases he : emitted l.fullname with
    | false => rfl
    | true => exact absurd (tracker_parent h2 hoo (hl2 ▸ he)) hne
  unfold byteSubSelected Sub.walk
  by_cases ht : s.fullname = "NNet.Replay.Tracker"
  · have hne : emitted s.fullname = false := by rw [ht]; decide +kernel
    rw [List.filter_cons_of_neg (by simp [hne]), if_pos ht]
    cases hdd : s.decls with
    | none => exact absurd hdd (hd ht)
    | some ls =>
      have hh : s.fullname ≠ "NNet.Replay.SHeader" := by rw [ht]; decide +kernel
      have hg : s.fullname ∉ ["NNet.Game.CPlayerDetailsArray", "NNet.Game.SDetails", "NNet.Game.SPlayerDetails", "NNet.Game.SThumbnail",
        "NNet.Game.EGameSpeed", "NNet.Game.EResultDetails", "NNet.Game.SToonNameDetails", "NNet.Game.SColor"] := by rw [ht]; decide +kernel
      simp only [if_neg hh, if_neg hg, Res.bind_ok, Res.pure_eq, List.nil_append, List.append_nil, Option.getD_some, trackerSelected]
      rw [List.filter_map]
      congr 2
      apply List.filter_congr
      intro l hl
      obtain ⟨o, hoo, hl2⟩ := hw l (by rw [hdd]; exact hl)
      simp only [Function.comp]
      rw [emitted_three (by rw [hl2, dots_join _ _ hoo, h2])]
  · rw [if_neg ht]
    by_cases he : emitted s.fullname = true
    · rw [List.filter_cons_of_pos (by simpa using he), hleaf ht]
      rcases emitted_two h2 he with hh | hg
      · have : s.fullname ∉ ["NNet.Game.CPlayerDetailsArray", "NNet.Game.SDetails", "NNet.Game.SPlayerDetails", "NNet.Game.SThumbnail",
          "NNet.Game.EGameSpeed", "NNet.Game.EResultDetails", "NNet.Game.SToonNameDetails", "NNet.Game.SColor"] := by rw [hh]; decide +kernel
        rw [if_pos hh, if_neg this]; rfl
      · have : s.fullname ≠ "NNet.Replay.SHeader" := by
          intro hc; rw [hc] at hg; revert hg; decide +kernel
        rw [if_neg this, if_pos hg]; rfl
    · rw [List.filter_cons_of_neg (by simpa using he), hleaf ht]
      have h1 : s.fullname ≠ "NNet.Replay.SHeader" := by
        intro hc; apply he; rw [hc]; decide +kernel
      have h3 : s.fullname ∉ ["NNet.Game.CPlayerDetailsArray", "NNet.Game.SDetails", "NNet.Game.SPlayerDetails", "NNet.Game.SThumbnail",
          "NNet.Game.EGameSpeed", "NNet.Game.EResultDetails", "NNet.Game.SToonNameDetails", "NNet.Game.SColor"] := by
        intro hc; apply he; revert hc
        simp only [List.mem_cons, List.not_mem_nil, or_false]
        rintro (hc | hc | hc | hc | hc | hc | hc | hc) <;> rw [hc] <;> decide +kernel
      rw [if_neg h1, if_neg h3]; rfl

theorem byteSubs_eq (p : String) (hp : dots p = 1) (hr : p = "NNet.Replay" ∨ p = "NNet.Game") (ss : List (Sub α))
    (hs : ∀ s ∈ ss, ((∃ own, DotFree own ∧ s.fullname = p ++ "." ++ own) ∧ s.WellNamed) ∧
      (s.fullname = "NNet.Replay.Tracker" → s.decls ≠ none)) :
    byteSubsSelected ss = .ok ((ss.flatMap Sub.walk).filter (fun x => emitted x.1)) := by
  induction ss with
  | nil => rfl
  | cons s ss ih =>
    rw [byteSubsSelected, byteSub_eq p hp hr s (hs s (by simp)).1 (hs s (by simp)).2, ih (fun s h => hs s (by simp [h]))]
    simp [Res.bind_ok, Res.pure_eq, List.flatMap_cons, List.filter_append]

/-- An entry of the second level with an emitted name, or one below it, stands in `NNet.Replay` or in `NNet.Game`. -/
theorem sub_parent {p own : String} (hp : dots p = 1) (ho : DotFree own)
    (h : emitted (p ++ "." ++ own) = true ∨ p ++ "." ++ own = "NNet.Replay.Tracker") : p = "NNet.Replay" ∨ p = "NNet.Game" := by
  have h2 : dots (p ++ "." ++ own) = 2 := by rw [dots_join _ _ ho, hp]
  rcases h with h | h
  · rcases emitted_two h2 h with h | h
    · exact .inl (parent_of "NNet.Replay" "SHeader" ho (by decide +kernel) rfl (h.trans (by decide +kernel)))
    · right
      simp only [List.mem_cons, List.not_mem_nil, or_false] at h
      rcases h with h | h | h | h | h | h | h | h
      · exact parent_of "NNet.Game" "CPlayerDetailsArray" ho (by decide +kernel) rfl (h.trans (by decide +kernel))
      · exact parent_of "NNet.Game" "SDetails" ho (by decide +kernel) rfl (h.trans (by decide +kernel))
      · exact parent_of "NNet.Game" "SPlayerDetails" ho (by decide +kernel) rfl (h.trans (by decide +kernel))
      · exact parent_of "NNet.Game" "SThumbnail" ho (by decide +kernel) rfl (h.trans (by decide +kernel))
      · exact parent_of "NNet.Game" "EGameSpeed" ho (by decide +kernel) rfl (h.trans (by decide +kernel))
      · exact parent_of "NNet.Game" "EResultDetails" ho (by decide +kernel) rfl (h.trans (by decide +kernel))
      · exact parent_of "NNet.Game" "SToonNameDetails" ho (by decide +kernel) rfl (h.trans (by decide +kernel))
      · exact parent_of "NNet.Game" "SColor" ho (by decide +kernel) rfl (h.trans (by decide +kernel))
  · exact .inl (parent_of "NNet.Replay" "Tracker" ho (by decide +kernel) rfl (h.trans (by decide +kernel)))

theorem byteRoot_eq (r : Root α) (hn : ∃ own, DotFree own ∧ r.fullname = "NNet" ++ "." ++ own) (hw : r.WellNamed)
    (hd : r.fullname = "NNet.Replay" ∨ r.fullname = "NNet.Game" → r.decls ≠ none)
    (hd2 : ∀ s ∈ r.decls.getD [], s.fullname = "NNet.Replay.Tracker" → s.decls ≠ none) :
    byteRootSelected r = .ok (r.walk.filter (fun x => emitted x.1)) := by
  obtain ⟨own, ho, hn⟩ := hn
  have h1 : dots r.fullname = 1 := by rw [hn, dots_join _ _ ho]; decide +kernel
  unfold byteRootSelected Root.walk
  by_cases hm : r.fullname = "NNet.Replay" ∨ r.fullname = "NNet.Game"
  · rw [if_pos hm]
    cases hdd : r.decls with
    | none => exact absurd hdd (hd hm)
    | some ss =>
      have hs := byteSubs_eq r.fullname h1 hm ss (fun s h => ⟨hw s (by rw [hdd]; exact h), hd2 s (by rw [hdd]; exact h)⟩)
      have e : emitted r.fullname = false := by rcases hm with hm | hm <;> rw [hm] <;> decide +kernel
      have n1 : r.fullname ≠ "NNet.SVersion" := by rcases hm with hm | hm <;> rw [hm] <;> decide +kernel
      have n2 : r.fullname ≠ "NNet.SVarUint32" := by rcases hm with hm | hm <;> rw [hm] <;> decide +kernel
      have n3 : r.fullname ≠ "NNet.SMD5" := by rcases hm with hm | hm <;> rw [hm] <;> decide +kernel
      have n4 : r.fullname ≠ "NNet.EObserve" := by rcases hm with hm | hm <;> rw [hm] <;> decide +kernel
      simp only [if_neg n1, if_neg n2, if_neg n3, if_neg n4, hs, Res.bind_ok, Res.pure_eq, List.nil_append, Option.getD_some]
      rw [List.filter_cons_of_neg (by simp [e])]
  · rw [if_neg hm]
    have hrest : ((r.decls.getD []).flatMap Sub.walk).filter (fun x => emitted x.1) = [] := by
      apply filter_nil_of
      intro x hx
      obtain ⟨s, hs, hx⟩ := List.mem_flatMap.1 hx
      obtain ⟨⟨o, hoo, hsn⟩, hsw⟩ := hw s hs
      have hs2 : dots s.fullname = 2 := by rw [hsn, dots_join _ _ hoo, h1]
      cases he : emitted x.1 with
      | false => rfl
      | true =>
        exfalso; apply hm
        simp only [Sub.walk, List.mem_cons, List.mem_map] at hx
        rcases hx with rfl | ⟨l, hl, rfl⟩
        · exact sub_parent h1 hoo (.inl (hsn ▸ he))
        · obtain ⟨o', ho', hl'⟩ := hsw l hl
          exact sub_parent h1 hoo (.inr (hsn ▸ tracker_parent hs2 ho' (hl' ▸ he)))
    by_cases he : emitted r.fullname = true
    · rw [List.filter_cons_of_pos (by simpa using he), hrest]
      rcases emitted_one h1 he with h | h | h | h <;> simp [h, Res.bind_ok, Res.pure_eq]
    · rw [List.filter_cons_of_neg (by simpa using he), hrest]
      have n1 : r.fullname ≠ "NNet.SVersion" := by intro h; apply he; rw [h]; decide +kernel
      have n2 : r.fullname ≠ "NNet.SVarUint32" := by intro h; apply he; rw [h]; decide +kernel
      have n3 : r.fullname ≠ "NNet.SMD5" := by intro h; apply he; rw [h]; decide +kernel
      have n4 : r.fullname ≠ "NNet.EObserve" := by intro h; apply he; rw [h]; decide +kernel
      simp [if_neg n1, if_neg n2, if_neg n3, if_neg n4, Res.bind_ok, Res.pure_eq]

/-- C171 (byte-aligned module): for every well-named description that has the modules, the declarations written are those of its
entries, in the order of the description, whose names are in the list or begin with `NNet.Replay.Tracker.S`: each once. -/
theorem C171_byte_aligned_partial (rs : List (Root α)) (hw : WellNamed rs) (hm : HasModules rs) :
    bytesSelected rs = .ok ((walk rs).filter (fun x => emitted x.1)) := by
  induction rs with
  | nil => rfl
  | cons r rs ih =>
    have h := hw r (by simp)
    have hd := hm r (by simp)
    rw [bytesSelected, byteRoot_eq r h.1 h.2 hd.1 hd.2, ih (fun x hx => hw x (by simp [hx])) (fun x hx => hm x (by simp [hx]))]
    simp [Res.bind_ok, Res.pure_eq, walk, List.flatMap_cons, List.filter_append]

/-- The text of the nested loops is that of the one list which `moduleText` walks. -/
theorem writeAll_filter (nm : Naming) (proto : Txt) (ds : List (String × VDecl)) :
    writeAll nm proto (ds.filter (fun x => emitted x.1)) = declsText nm proto ds := by
  induction ds with
  | nil => rfl
  | cons x ds ih =>
    obtain ⟨n, d⟩ := x
    rw [declsText]
    by_cases he : emitted n = true
    · rw [List.filter_cons_of_pos (by simpa using he), if_pos he, writeAll, ih]
    · rw [List.filter_cons_of_neg (by simpa using he), if_neg he, ih]

/-- C171: the text which C168 speaks of (`declsText` of all declarations in one list) is the text that the nested loops write. -/
theorem C171_same_text_partial (nm : Naming) (proto : Txt) (rs : List (Root VDecl)) (hw : WellNamed rs) (hm : HasModules rs) :
    ∃ xs, bytesSelected rs = .ok xs ∧ writeAll nm proto xs = declsText nm proto (walk rs) :=
  ⟨_, C171_byte_aligned_partial rs hw hm, writeAll_filter nm proto _⟩

theorem not_user {c : Prop} [Decidable c] {m : VMorph} {y : Option VMorph} (hm : m ≠ .user)
    (h : (if c then some m else y) = some .user) : y = some .user := by
  split at h
  · exact absurd (Option.some.inj h) hm
  · exact h

theorem user_emitted (n : String) (h : byteTable n = some .user) : emitted n = true := by
  simp only [byteTable] at h
  by_cases h1 : n ∈ ["NNet.SVersion", "NNet.SMD5", "NNet.EObserve", "NNet.Game.EResultDetails", "NNet.Replay.Tracker.SPlayerStats",
      "NNet.Game.SThumbnail", "NNet.Game.EGameSpeed", "NNet.Game.SToonNameDetails", "NNet.Game.SColor"]
  · simp only [List.mem_cons, List.not_mem_nil, or_false] at h1
    rcases h1 with h1 | h1 | h1 | h1 | h1 | h1 | h1 | h1 | h1 <;> rw [h1] <;> decide +kernel
  · exfalso
    simp only [List.mem_cons, List.not_mem_nil, or_false, not_or] at h1
    simp only [h1, or_false, if_false, List.mem_cons, List.not_mem_nil] at h
    repeat replace h := not_user (by decide) h
    cases h

/-- C171 (byte-aligned module is closed): every declared type that a written parser calls by name through the table of names is
itself written, as is the element type of the array of players. -/
theorem C171_byte_closed_partial (rs : List (Root α)) (hw : WellNamed rs) (hm : HasModules rs) (n : String)
    (hn : byteTable n = some .user ∨ n = "NNet.Game.SPlayerDetails") (body : α) (hd : (n, body) ∈ walk rs) :
    ∃ xs, bytesSelected rs = .ok xs ∧ (n, body) ∈ xs := by
  refine ⟨_, C171_byte_aligned_partial rs hw hm, List.mem_filter.2 ⟨hd, ?_⟩⟩
  rcases hn with hn | rfl
  · exact user_emitted n hn
  · show emitted "NNet.Game.SPlayerDetails" = true
    decide +kernel

/-! ## The bit-packed module -/

theorem bitEmitted_leaf {n : String} (h : dots n = 3) : bitEmitted n = false := by
  cases hb : bitEmitted n with
  | false => rfl
  | true =>
    exfalso
    simp only [bitEmitted, h, Bool.or_eq_true, Bool.and_eq_true, decide_eq_true_eq, List.mem_cons, List.not_mem_nil, or_false] at hb
    rcases hb with (hb | hb) | hb
    · exact absurd hb.1 (by decide)
    · rcases hb with rfl | rfl <;> revert h <;> decide +kernel
    · exact absurd hb.1.1 (by decide)

theorem leaves_nil (ev : α → Option (List α)) (s : Sub α) (h2 : dots s.fullname = 2) (hw : s.WellNamed) :
    ((s.decls.getD []).map (fun l => (l.fullname, l.body))).flatMap (bitWritten ev) = [] := by
  rw [List.flatMap_eq_nil_iff]
  intro x hx
  obtain ⟨l, hl, rfl⟩ := List.mem_map.1 hx
  obtain ⟨o, ho, hn⟩ := hw l hl
  rw [bitWritten, if_neg (by rw [bitEmitted_leaf (by rw [hn, dots_join _ _ ho, h2])]; simp)]

theorem game_prefix {own : String} : "NNet.Game.".toList.isPrefixOf ("NNet.Game" ++ "." ++ own).toList = true := by
  rw [List.isPrefixOf_iff_prefix]
  refine ⟨own.toList, ?_⟩
  simp only [String.toList_append]
  have : "NNet.Game.".toList = "NNet.Game".toList ++ ".".toList := by decide +kernel
  rw [this]

theorem bitEmitted_game {own : String} (ho : DotFree own) (hne : "NNet.Game" ++ "." ++ own ≠ "NNet.Game.ESenders") :
    bitEmitted ("NNet.Game" ++ "." ++ own) = true := by
  have hd : dots ("NNet.Game" ++ "." ++ own) = 2 := by rw [dots_join _ _ ho]; decide +kernel
  unfold bitEmitted
  rw [hd, game_prefix]
  rw [Bool.or_eq_true]
  right
  rw [Bool.and_eq_true, Bool.and_eq_true]
  exact ⟨⟨rfl, rfl⟩, by rw [bne_iff_ne]; exact hne⟩

theorem bitSub_parent {p own : String} (hp : dots p = 1) (ho : DotFree own) (h : bitEmitted (p ++ "." ++ own) = true) :
    (p = "NNet.Replay" ∧ (p ++ "." ++ own = "NNet.Replay.SGameUserId" ∨ p ++ "." ++ own = "NNet.Replay.SInitData")) ∨
      p = "NNet.Game" := by
  have h2 : dots (p ++ "." ++ own) = 2 := by rw [dots_join _ _ ho, hp]
  simp only [bitEmitted, h2, Bool.or_eq_true, Bool.and_eq_true, decide_eq_true_eq, List.mem_cons, List.not_mem_nil, or_false] at h
  rcases h with (h | h) | h
  · exact absurd h.1 (by decide)
  · left
    refine ⟨?_, h⟩
    rcases h with h | h
    · exact parent_of "NNet.Replay" "SGameUserId" ho (by decide +kernel) rfl (h.trans (by decide +kernel))
    · exact parent_of "NNet.Replay" "SInitData" ho (by decide +kernel) rfl (h.trans (by decide +kernel))
  · right
    have hpre := h.1.2
    rw [List.isPrefixOf_iff_prefix] at hpre
    obtain ⟨t, ht⟩ := hpre
    have e : "NNet.Game.".toList = "NNet.Game".toList ++ ['.'] := by decide +kernel
    simp only [String.toList_append] at ht
    have e2 : ".".toList = ['.'] := rfl
    rw [e, e2, List.append_assoc, List.append_assoc, List.singleton_append, List.singleton_append] at ht
    have hd : '.' ∉ t := by
      have hc := congrArg (List.count '.') ht
      simp only [List.count_append, List.count_cons_self] at hc
      have h1 : "NNet.Game".toList.count '.' = 1 := by decide +kernel
      have h3 : own.toList.count '.' = 0 := List.count_eq_zero.2 ho
      unfold dots at hp
      rw [h1, h3, hp] at hc
      exact List.count_eq_zero.1 (by omega)
    exact (String.toList_inj.1 (split_last hd ho ht).1).symm

/-- Everything directly in `NNet.Game`. -/
theorem bitGames_eq (ev : α → Option (List α)) (ss : List (Sub α))
    (hs : ∀ s ∈ ss, ((∃ own, DotFree own ∧ s.fullname = "NNet.Game" ++ "." ++ own) ∧ s.WellNamed) ∧
      (s.fullname = "NNet.Game.STriggerDialogControlEvent" → ev s.body ≠ none)) :
    bitGamesSelected ev ss = .ok ((ss.flatMap Sub.walk).flatMap (bitWritten ev)) := by
  induction ss with
  | nil => rfl
  | cons s ss ih =>
    obtain ⟨⟨⟨own, ho, hn⟩, hw⟩, hev⟩ := hs s (by simp)
    have h2 : dots s.fullname = 2 := by rw [hn, dots_join _ _ ho]; decide +kernel
    have key : bitGameSelected ev s = .ok (s.walk.flatMap (bitWritten ev)) := by
      rw [Sub.walk, List.flatMap_cons, leaves_nil ev s h2 hw, List.append_nil, bitGameSelected, bitWritten]
      by_cases h1 : s.fullname = "NNet.Game.ESenders"
      · rw [if_pos h1, if_neg]
        simp only [h1]; decide +kernel
      · have he : bitEmitted s.fullname = true := by
          rw [hn]; exact bitEmitted_game ho (hn ▸ h1)
        rw [if_neg h1, if_pos he]
        by_cases h3 : s.fullname = "NNet.Game.STriggerDialogControlEvent"
        · rw [if_pos h3, if_pos h3]
          cases hb : ev s.body with
          | none => exact absurd hb (hev h3)
          | some ms => rfl
        · rw [if_neg h3, if_neg h3]
    rw [bitGamesSelected, key, ih (fun s h => hs s (by simp [h]))]
    simp [Res.bind_ok, Res.pure_eq, List.flatMap_cons, List.flatMap_append]

theorem bitReplay_eq (ev : α → Option (List α)) (ss : List (Sub α))
    (hs : ∀ s ∈ ss, (∃ own, DotFree own ∧ s.fullname = "NNet.Replay" ++ "." ++ own) ∧ s.WellNamed) :
    (ss.flatMap Sub.walk).flatMap (bitWritten ev) =
      (ss.filter (fun s => s.fullname == "NNet.Replay.SGameUserId" || s.fullname == "NNet.Replay.SInitData")).map
        (fun s => (s.fullname, s.body)) := by
  induction ss with
  | nil => rfl
  | cons s ss ih =>
    obtain ⟨⟨own, ho, hn⟩, hw⟩ := hs s (by simp)
    have h2 : dots s.fullname = 2 := by rw [hn, dots_join _ _ ho]; decide +kernel
    rw [List.flatMap_cons, List.flatMap_append, ih (fun s h => hs s (by simp [h])), Sub.walk, List.flatMap_cons, leaves_nil ev s h2 hw,
      List.append_nil]
    by_cases he : s.fullname = "NNet.Replay.SGameUserId" ∨ s.fullname = "NNet.Replay.SInitData"
    · rw [List.filter_cons_of_pos (by simpa using he), List.map_cons, bitWritten]
      have e : bitEmitted s.fullname = true := by rcases he with he | he <;> rw [he] <;> decide +kernel
      have n : s.fullname ≠ "NNet.Game.STriggerDialogControlEvent" := by rcases he with he | he <;> rw [he] <;> decide +kernel
      rw [if_pos e, if_neg n]; rfl
    · rw [List.filter_cons_of_neg (by simpa using he), bitWritten, if_neg]
      · rfl
      · intro hc
        rcases bitSub_parent (p := "NNet.Replay") (by decide +kernel) ho (hn ▸ hc) with h | h
        · exact he (hn ▸ h.2)
        · exact absurd h (by decide +kernel)

/-- The outer level, by name alone. -/
theorem bitRoot_plain (n : String) (h1 : dots n = 1) (x : β) :
    (if "NNet.uint".toList.isPrefixOf n.toList then [x] else []) ++ (if "NNet.int".toList.isPrefixOf n.toList then [x] else []) ++
      (if n ∈ bitRootNames then [x] else []) ++ ((if n = "NNet.SVersion" then [x] else []) ++ (if n = "NNet.SMD5" then [x] else [])) =
    if bitEmitted n then [x] else [] := by
  have hex : ∀ m ∈ bitRootNames ++ ["NNet.SVersion", "NNet.SMD5"],
      "NNet.uint".toList.isPrefixOf m.toList = false ∧ "NNet.int".toList.isPrefixOf m.toList = false ∧
      (m ∈ bitRootNames → m ≠ "NNet.SVersion" ∧ m ≠ "NNet.SMD5") := by decide +kernel
  have h2 : bitEmitted n = ("NNet.uint".toList.isPrefixOf n.toList || "NNet.int".toList.isPrefixOf n.toList ||
      decide (n ∈ bitRootNames ++ ["NNet.SVersion", "NNet.SMD5"])) := by
    unfold bitEmitted
    have hr : decide (n ∈ ["NNet.Replay.SGameUserId", "NNet.Replay.SInitData"]) = false := by
      rw [decide_eq_false_iff_not]
      simp only [List.mem_cons, List.not_mem_nil, or_false]
      rintro (rfl | rfl) <;> revert h1 <;> decide +kernel
    rw [h1, hr]; simp
  rw [h2]
  by_cases hm : n ∈ bitRootNames ++ ["NNet.SVersion", "NNet.SMD5"]
  · obtain ⟨a, b, c⟩ := hex n hm
    rw [a, b]
    simp only [hm, decide_true, Bool.or_true, if_true, Bool.false_eq_true, if_false, List.nil_append]
    simp only [List.mem_append, List.mem_cons, List.not_mem_nil, or_false] at hm
    rcases hm with hm | hm | hm
    · rw [if_pos hm, if_neg (c hm).1, if_neg (c hm).2]; rfl
    · subst hm
      rw [if_neg (by decide +kernel), if_pos rfl, if_neg (by decide +kernel)]; rfl
    · subst hm
      rw [if_neg (by decide +kernel), if_neg (by decide +kernel), if_pos rfl]; rfl
  · have hm' := hm
    simp only [List.mem_append, List.mem_cons, List.not_mem_nil, or_false, not_or] at hm
    rw [if_neg hm.1, if_neg hm.2.1, if_neg hm.2.2, decide_eq_false hm']
    cases hu : "NNet.uint".toList.isPrefixOf n.toList with
    | false => cases hi : "NNet.int".toList.isPrefixOf n.toList <;> simp
    | true =>
      have hi : "NNet.int".toList.isPrefixOf n.toList = false := by
        cases hi : "NNet.int".toList.isPrefixOf n.toList with
        | false => rfl
        | true =>
          exfalso
          rw [List.isPrefixOf_iff_prefix] at hu hi
          obtain ⟨t, ht⟩ := hu
          obtain ⟨u, hu⟩ := hi
          have hc := ht.trans hu.symm
          have e1 : "NNet.uint".toList = ['N', 'N', 'e', 't', '.', 'u', 'i', 'n', 't'] := by decide +kernel
          have e2 : "NNet.int".toList = ['N', 'N', 'e', 't', '.', 'i', 'n', 't'] := by decide +kernel
          rw [e1, e2] at hc
          simp at hc
      rw [hi]; rfl

theorem bitRoot_eq (ev : α → Option (List α)) (r : Root α) (hn : ∃ own, DotFree own ∧ r.fullname = "NNet" ++ "." ++ own) (hw : r.WellNamed)
    (hd : r.fullname = "NNet.Replay" ∨ r.fullname = "NNet.Game" → r.decls ≠ none)
    (hev : ∀ s ∈ r.decls.getD [], s.fullname = "NNet.Game.STriggerDialogControlEvent" → ev s.body ≠ none) :
    bitRootSelected ev r = .ok (r.walk.flatMap (bitWritten ev)) := by
  obtain ⟨own, ho, hn⟩ := hn
  have h1 : dots r.fullname = 1 := by rw [hn, dots_join _ _ ho]; decide +kernel
  have hp := bitRoot_plain r.fullname h1 (r.fullname, r.body)
  have hself : bitWritten ev (r.fullname, r.body) = if bitEmitted r.fullname then [(r.fullname, r.body)] else [] := by
    have hne : r.fullname ≠ "NNet.Game.STriggerDialogControlEvent" := by
      intro h; rw [h] at h1; revert h1; decide +kernel
    simp only [bitWritten, if_neg hne]
  rw [bitRootSelected, Root.walk, List.flatMap_cons, hself, ← hp]
  by_cases hr : r.fullname = "NNet.Replay"
  · cases hdd : r.decls with
    | none => exact absurd hdd (hd (.inl hr))
    | some ss =>
      have hg : r.fullname ≠ "NNet.Game" := by rw [hr]; decide +kernel
      have := bitReplay_eq ev ss (fun s h => hr ▸ hw s (by rw [hdd]; exact h))
      rw [Option.getD_some, this]
      have n1 : r.fullname ≠ "NNet.SVersion" := by rw [hr]; decide +kernel
      have n2 : r.fullname ≠ "NNet.SMD5" := by rw [hr]; decide +kernel
      simp only [if_pos hr, if_neg hg, if_neg n1, if_neg n2, Res.bind_ok, Res.pure_eq, List.append_nil]
  · by_cases hg : r.fullname = "NNet.Game"
    · cases hdd : r.decls with
      | none => exact absurd hdd (hd (.inr hg))
      | some ss =>
        have := bitGames_eq ev ss (fun s h => ⟨hg ▸ hw s (by rw [hdd]; exact h), hev s (by rw [hdd]; exact h)⟩)
        rw [Option.getD_some]
        simp only [if_neg hr, if_pos hg, this, Res.bind_ok, Res.pure_eq, List.append_nil]
    · have hrest : ((r.decls.getD []).flatMap Sub.walk).flatMap (bitWritten ev) = [] := by
        rw [List.flatMap_eq_nil_iff]
        intro x hx
        obtain ⟨s, hs, hx⟩ := List.mem_flatMap.1 hx
        obtain ⟨⟨o, hoo, hsn⟩, hsw⟩ := hw s hs
        have hs2 : dots s.fullname = 2 := by rw [hsn, dots_join _ _ hoo, h1]
        rw [bitWritten, if_neg]
        intro he
        simp only [Sub.walk, List.mem_cons, List.mem_map] at hx
        rcases hx with rfl | ⟨l, hl, rfl⟩
        · rcases bitSub_parent h1 hoo (hsn ▸ he) with h | h
          · exact hr h.1
          · exact hg h
        · obtain ⟨o', ho', hl'⟩ := hsw l hl
          rw [bitEmitted_leaf (by rw [hl', dots_join _ _ ho', hs2])] at he
          exact absurd he (by decide)
      rw [hrest]
      simp only [if_neg hr, if_neg hg, Res.bind_ok, Res.pure_eq, List.append_nil]

/-- C171 (bit-packed module): for every well-named description that has the modules, the declarations written are those of its
entries, in the order of the description, whose names are selected, each once, and `m_eventData` after the dialog event. -/
theorem C171_bit_packed_partial (ev : α → Option (List α)) (rs : List (Root α)) (hw : WellNamed rs) (hm : HasModules rs)
    (hev : ∀ x ∈ walk rs, x.1 = "NNet.Game.STriggerDialogControlEvent" → ev x.2 ≠ none) :
    bitsSelected ev rs = .ok ((walk rs).flatMap (bitWritten ev)) := by
  induction rs with
  | nil => rfl
  | cons r rs ih =>
    have h := hw r (by simp)
    have hd := hm r (by simp)
    have hr : ∀ s ∈ r.decls.getD [], s.fullname = "NNet.Game.STriggerDialogControlEvent" → ev s.body ≠ none := by
      intro s hs hn
      refine hev (s.fullname, s.body) ?_ hn
      simp only [walk, List.flatMap_cons, List.mem_append]
      left
      simp only [Root.walk, List.mem_cons, List.mem_flatMap]
      exact .inr ⟨s, hs, by simp [Sub.walk]⟩
    rw [bitsSelected, bitRoot_eq ev r h.1 h.2 hd.1 hr,
      ih (fun x hx => hw x (by simp [hx])) (fun x hx => hm x (by simp [hx]))
        (fun x hx => hev x (by simp only [walk, List.flatMap_cons, List.mem_append] at hx ⊢; exact .inr hx))]
    simp [Res.bind_ok, Res.pure_eq, walk, List.flatMap_cons, List.flatMap_append]

/-- A name written into the bit-packed module is declared with that content and selected by its name, and the other way round. -/
theorem C171_bit_packed_exactly (ev : α → Option (List α)) (rs : List (Root α)) (hw : WellNamed rs) (hm : HasModules rs)
    (hev : ∀ x ∈ walk rs, x.1 = "NNet.Game.STriggerDialogControlEvent" → ev x.2 ≠ none) (n : String) (hn : n ≠ "m_eventData") (body : α) :
    ∃ xs, bitsSelected ev rs = .ok xs ∧ ((n, body) ∈ xs ↔ (n, body) ∈ walk rs ∧ bitEmitted n = true) := by
  refine ⟨_, C171_bit_packed_partial ev rs hw hm hev, ?_⟩
  rw [List.mem_flatMap]
  constructor
  · rintro ⟨x, hx, h⟩
    rw [bitWritten] at h
    split at h
    · rename_i he
      rcases List.mem_cons.1 h with h | h
      · subst h; exact ⟨hx, he⟩
      · split at h
        · obtain ⟨m, _, hm2⟩ := List.mem_map.1 h
          exact absurd (congrArg Prod.fst hm2).symm hn
        · cases h
    · cases h
  · rintro ⟨hx, he⟩
    exact ⟨_, hx, by rw [bitWritten, if_pos he]; simp⟩

/-- C171: if full names are different, nothing is written twice into the byte-aligned module. -/
theorem C171_once_partial (rs : List (Root α)) (hw : WellNamed rs) (hm : HasModules rs) (hd : ((walk rs).map Prod.fst).Nodup) :
    ∃ xs, bytesSelected rs = .ok xs ∧ xs.Sublist (walk rs) ∧ (xs.map Prod.fst).Nodup := by
  refine ⟨_, C171_byte_aligned_partial rs hw hm, List.filter_sublist, ?_⟩
  exact hd.sublist (List.filter_sublist.map _)

/-- `bit_packed_from_nnet_name` for a declared name: every name that begins with `NNet` becomes a call of that type's parser
(/repo/src/generator/decoder_type.rs:249-257). -/
def bitCallsParser (n : String) : Bool := "NNet".toList.isPrefixOf n.toList

/-- A description with a type outside the modules that an event refers to; the content of an entry is the list of the names it refers to.
[sample data] -/
def loneType : List (Root (List String)) :=
  [⟨"NNet.uint8", [], none⟩, ⟨"NNet.TFoo", ["NNet.uint8"], none⟩,
   ⟨"NNet.Replay", [], some [⟨"NNet.Replay.SInitData", [], none⟩, ⟨"NNet.Replay.Tracker", [], some [⟨"NNet.Replay.Tracker.SUnit", []⟩]⟩]⟩,
   ⟨"NNet.Game", [], some [⟨"NNet.Game.SBar", ["NNet.TFoo"], none⟩, ⟨"NNet.Game.SColor", [], none⟩]⟩]

theorem loneType_good : WellNamed loneType ∧ HasModules loneType := by
  constructor
  · intro r hr
    simp only [loneType, List.mem_cons, List.not_mem_nil, or_false] at hr
    rcases hr with rfl | rfl | rfl | rfl
    · exact ⟨⟨"uint8", by decide +kernel, by decide +kernel⟩, fun s hs => by simp at hs⟩
    · exact ⟨⟨"TFoo", by decide +kernel, by decide +kernel⟩, fun s hs => by simp at hs⟩
    · refine ⟨⟨"Replay", by decide +kernel, by decide +kernel⟩, fun s hs => ?_⟩
      simp only [Option.getD_some, List.mem_cons, List.not_mem_nil, or_false] at hs
      rcases hs with rfl | rfl
      · exact ⟨⟨"SInitData", by decide +kernel, by decide +kernel⟩, fun l hl => by simp at hl⟩
      · refine ⟨⟨"Tracker", by decide +kernel, by decide +kernel⟩, fun l hl => ?_⟩
        simp only [Option.getD_some, List.mem_cons, List.not_mem_nil, or_false] at hl
        subst hl
        exact ⟨"SUnit", by decide +kernel, by decide +kernel⟩
    · refine ⟨⟨"Game", by decide +kernel, by decide +kernel⟩, fun s hs => ?_⟩
      simp only [Option.getD_some, List.mem_cons, List.not_mem_nil, or_false] at hs
      rcases hs with rfl | rfl
      · exact ⟨⟨"SBar", by decide +kernel, by decide +kernel⟩, fun l hl => by simp at hl⟩
      · exact ⟨⟨"SColor", by decide +kernel, by decide +kernel⟩, fun l hl => by simp at hl⟩
  · intro r hr
    simp only [loneType, List.mem_cons, List.not_mem_nil, or_false] at hr
    rcases hr with rfl | rfl | rfl | rfl
    · exact ⟨by decide +kernel, fun s hs => by simp at hs⟩
    · exact ⟨by decide +kernel, fun s hs => by simp at hs⟩
    · refine ⟨fun _ => by simp, fun s hs => ?_⟩
      simp only [Option.getD_some, List.mem_cons, List.not_mem_nil, or_false] at hs
      rcases hs with rfl | rfl
      · intro h; exact absurd h (by decide +kernel)
      · intro _; simp
    · refine ⟨fun _ => by simp, fun s hs => ?_⟩
      simp only [Option.getD_some, List.mem_cons, List.not_mem_nil, or_false] at hs
      rcases hs with rfl | rfl
      · intro h; exact absurd h (by decide +kernel)
      · intro h; exact absurd h (by decide +kernel)

example : bytesSelected loneType = .ok [("NNet.Replay.Tracker.SUnit", []), ("NNet.Game.SColor", [])] := by decide +kernel

/-- C171 is refuted for the bit-packed module: there is a well-named description in which a written declaration refers to a declared
type, whose parser the text calls, and which is not written. -/
theorem C171_refuted : ∃ rs : List (Root (List String)), WellNamed rs ∧ HasModules rs ∧
    ∃ xs, bitsSelected (fun _ => some []) rs = .ok xs ∧
      ∃ n refs, (n, refs) ∈ xs ∧ ∃ m ∈ refs, bitCallsParser m = true ∧ m ∈ (walk rs).map Prod.fst ∧ m ∉ xs.map Prod.fst :=
  ⟨loneType, loneType_good.1, loneType_good.2,
    [("NNet.uint8", []), ("NNet.Replay.SInitData", []), ("NNet.Game.SBar", ["NNet.TFoo"]), ("NNet.Game.SColor", [])], by decide +kernel,
    "NNet.Game.SBar", ["NNet.TFoo"], by decide +kernel, "NNet.TFoo", by decide +kernel, by decide +kernel, by decide +kernel,
    by decide +kernel⟩

end S2.Generator
