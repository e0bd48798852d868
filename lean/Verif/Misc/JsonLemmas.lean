import Verif.Spec.JsonSpec
/-!
# Lemmas about values as JSON trees
-/
namespace S2.Json

variable {F : Prims}

/-! ## Structs -/

/-- Some serialized field has this name. [proof device, no counterpart in /repo] -/
def hasKey (k : String) : JFields → Bool
  | .nil => false
  | .cons _ .skip _ rest => hasKey k rest
  | .cons k' _ _ rest => decide (k' = k) || hasKey k rest

/-- [proof device, no counterpart in /repo] -/
def notOpt : JTy → Bool
  | .opt _ => false
  | _ => true

mutual
/-- No `Option<Option<_>>` and no two fields of a struct with the same serialized name. [proof device, no counterpart in /repo] -/
def okTy : JTy → Bool
  | .opt t => notOpt t && okTy t
  | .list t => okTy t
  | .array _ t => okTy t
  | .map _ t => okTy t
  | .struct fs => okFields fs
  | .enum vs => okVariants vs
  | _ => true
/-- [proof device, no counterpart in /repo] -/
def okFields : JFields → Bool
  | .nil => true
  | .cons k kind t rest => (decide (kind = .skip) || !hasKey k rest) && (okTy t && okFields rest)
/-- [proof device, no counterpart in /repo] -/
def okVariants : JVariants → Bool
  | .nil => true
  | .unit _ rest => okVariants rest
  | .newtype _ t rest => okTy t && okVariants rest
  | .fields _ fs rest => okFields fs && okVariants rest
end

/-! ## Maps -/

theorem keyInt_toString (i : Int) : keyInt (toString i) = i := by
  rw [Int.toString_eq_repr, Int.repr_eq_if]
  have hnat : ∀ n : Nat, keyInt n.repr = n := by
    intro n
    unfold keyInt
    rw [Nat.toList_repr]
    split
    · next cs h =>
      have hm : '-' ∈ Nat.toDigits 10 n := by rw [h]; exact List.mem_cons_self
      exact absurd (Nat.isDigit_of_mem_toDigits (by decide) (by decide) hm) (by decide)
    · rw [Nat.ofDigitChars_ten_toDigits]
  split
  · rw [hnat]; omega
  · unfold keyInt
    simp only [String.toList_append, Nat.toList_repr]
    show (-(Nat.ofDigitChars 10 (Nat.toDigits 10 _) 0 : Int)) = i
    rw [Nat.ofDigitChars_ten_toDigits]
    omega

theorem keyOk_iff (k : KeyTy) (s : String) : keyOk k s = true ↔ KeyText k s := by
  cases k with
  | string => simp [keyOk, KeyText]
  | uint b =>
    rw [keyOk, KeyText, decide_eq_true_eq]
    constructor
    · exact fun h => ⟨_, ⟨h.1, h.2.1⟩, h.2.2⟩
    · rintro ⟨i, h, rfl⟩
      rw [keyInt_toString]
      exact ⟨h.1, h.2, rfl⟩
  | sint b =>
    rw [keyOk, KeyText, decide_eq_true_eq]
    constructor
    · exact fun h => ⟨_, ⟨h.1, h.2.1⟩, h.2.2⟩
    · rintro ⟨i, h, rfl⟩
      rw [keyInt_toString]
      exact ⟨h.1, h.2, rfl⟩

theorem mapInsert_mem {k : String} {v : JVal F} : ∀ {m : List (String × JVal F)} {e : String × JVal F},
    e ∈ mapInsert k v m → e = (k, v) ∨ e ∈ m
  | [], e, h => by
    rw [mapInsert, List.mem_singleton] at h
    exact .inl h
  | (k', v') :: m, e, h => by
    rw [mapInsert] at h
    split at h
    · rcases List.mem_cons.1 h with h | h
      · exact .inl h
      · exact .inr h
    · split at h
      · rcases List.mem_cons.1 h with h | h
        · exact .inl h
        · exact .inr (List.mem_cons_of_mem _ h)
      · rcases List.mem_cons.1 h with h | h
        · exact .inr (h ▸ List.mem_cons_self)
        · rcases mapInsert_mem h with h | h
          · exact .inl h
          · exact .inr (List.mem_cons_of_mem _ h)

/-- Ascending keys. [proof device, no counterpart in /repo] -/
abbrev Asc (m : List (String × JVal F)) : Prop := m.Pairwise (fun e e' => e.1 < e'.1)

theorem mapInsert_asc {k : String} {v : JVal F} : ∀ {m : List (String × JVal F)}, Asc m → Asc (mapInsert k v m)
  | [], _ => by
    rw [mapInsert]
    exact List.pairwise_singleton _ _
  | (k', v') :: m, h => by
    rw [mapInsert]
    have h' := List.pairwise_cons.1 h
    split
    · rename_i hlt
      refine List.pairwise_cons.2 ⟨fun e he => ?_, h⟩
      rcases List.mem_cons.1 he with rfl | he
      · exact hlt
      · exact String.lt_trans hlt (h'.1 e he)
    · split
      · rename_i he
        exact List.pairwise_cons.2 ⟨fun e hm => he ▸ h'.1 e hm, h'.2⟩
      · rename_i hn hne
        refine List.pairwise_cons.2 ⟨fun e he => ?_, mapInsert_asc h'.2⟩
        rcases mapInsert_mem he with rfl | he
        · rcases Decidable.em (k' < k) with hk | hk
          · exact hk
          · exact absurd (String.le_antisymm (String.not_lt.1 hk) (String.not_lt.1 hn)) hne
        · exact h'.1 e he

theorem mapInsert_new {k : String} {v : JVal F} : ∀ {m : List (String × JVal F)}, (∀ e ∈ m, e.1 ≠ k) →
    (mapInsert k v m).Perm ((k, v) :: m)
  | [], _ => .refl _
  | (k', v') :: m, h => by
    rw [mapInsert]
    split
    · exact .refl _
    · rw [if_neg (fun c => h _ List.mem_cons_self c.symm)]
      exact ((mapInsert_new fun e he => h e (List.mem_cons_of_mem _ he)).cons _).trans (.swap _ _ _)

theorem foldInsert_asc : ∀ (es m : List (String × JVal F)), Asc m → Asc (es.foldl (fun m e => mapInsert e.1 e.2 m) m)
  | [], _, h => h
  | _ :: es, _, h => foldInsert_asc es _ (mapInsert_asc h)

theorem foldInsert_mem : ∀ (es m : List (String × JVal F)) (e : String × JVal F), e ∈ es.foldl (fun m e => mapInsert e.1 e.2 m) m →
    e ∈ es ∨ e ∈ m
  | [], _, _, h => .inr h
  | a :: es, m, e, h => by
    rcases foldInsert_mem es _ e h with h | h
    · exact .inl (List.mem_cons_of_mem _ h)
    · rcases mapInsert_mem h with h | h
      · exact .inl (h ▸ List.mem_cons_self)
      · exact .inr h

theorem foldInsert_perm : ∀ (es m : List (String × JVal F)), ((es.map Prod.fst) ++ (m.map Prod.fst)).Nodup →
    (es.foldl (fun m e => mapInsert e.1 e.2 m) m).Perm (es ++ m)
  | [], _, _ => .refl _
  | (k, v) :: es, m, h => by
    rw [List.map_cons, List.cons_append, List.nodup_cons] at h
    have hm : ∀ e ∈ m, e.1 ≠ k := by
      intro e he hk
      exact h.1 (List.mem_append_right _ (List.mem_map.2 ⟨e, he, hk⟩))
    have hp := mapInsert_new (v := v) hm
    have hk : ((es.map Prod.fst) ++ ((mapInsert k v m).map Prod.fst)).Perm (k :: ((es.map Prod.fst) ++ (m.map Prod.fst))) :=
      ((hp.map Prod.fst).append_left _).trans List.perm_middle
    rw [List.foldl_cons]
    refine (foldInsert_perm es (mapInsert k v m) (hk.nodup_iff.2 (List.nodup_cons.2 h))).trans ?_
    exact (hp.append_left es).trans List.perm_middle

theorem asc_nodup : ∀ {m : List (String × JVal F)}, Asc m → (m.map Prod.fst).Nodup := by
  intro m h
  rw [List.Nodup, List.pairwise_map]
  refine h.imp ?_
  intro a b hlt he
  rw [he] at hlt
  exact String.lt_irrefl _ hlt

/-- Entries inserted in any order give the same map. -/
theorem mapOf_perm {es m : List (String × JVal F)} (hm : Asc m) (hp : es.Perm m) : mapOf es = m := by
  have hn : ((es.map Prod.fst) ++ (([] : List (String × JVal F)).map Prod.fst)).Nodup := by
    rw [List.map_nil, List.append_nil]
    exact (hp.map Prod.fst).nodup_iff.2 (asc_nodup hm)
  have h1 := foldInsert_perm es [] hn
  rw [List.append_nil] at h1
  exact List.Perm.eq_of_pairwise (fun a b _ _ h h' => absurd h' (String.lt_asymm h)) (foldInsert_asc es [] List.Pairwise.nil) hm
    (h1.trans hp)

theorem mapOf_asc (es : List (String × JVal F)) : Asc (mapOf es) := foldInsert_asc es [] List.Pairwise.nil

theorem mapOf_mem {es : List (String × JVal F)} {e : String × JVal F} (h : e ∈ mapOf es) : e ∈ es := by
  rcases foldInsert_mem es [] e h with h | h
  · exact h
  · cases h

/-! ## Lists -/

theorem allOf_perm {α β : Type} {f : α → Option β} {l l' : List α} (h : l.Perm l') : ∀ {r : List β}, allOf f l = some r →
    ∃ r', allOf f l' = some r' ∧ r.Perm r' := by
  induction h with
  | nil => intro r hr; exact ⟨r, hr, .refl _⟩
  | cons x _ ih =>
    intro r hr
    rw [allOf] at hr
    split at hr
    · rename_i b bs h1 h2
      cases hr
      obtain ⟨r', h3, h4⟩ := ih h2
      exact ⟨b :: r', by rw [allOf, h1, h3], h4.cons _⟩
    · cases hr
  | swap x y l =>
    intro r hr
    rw [allOf, allOf] at hr
    rw [allOf, allOf]
    cases hx : f x <;> cases hy : f y <;> cases hl : allOf f l <;> rw [hx, hy, hl] at hr <;> simp only [reduceCtorEq] at hr
    cases hr
    exact ⟨_, rfl, .swap _ _ _⟩
  | trans _ _ ih1 ih2 =>
    intro r hr
    obtain ⟨r1, h1, h2⟩ := ih1 hr
    obtain ⟨r2, h3, h4⟩ := ih2 h1
    exact ⟨r2, h3, h2.trans h4⟩

theorem allOf_fix {α β : Type} {f : α → Option β} {g : β → α} : ∀ {l : List β}, allOf f (l.map g) = some l → ∀ x ∈ l, f (g x) = some x
  | [], _, x, hx => by cases hx
  | a :: l, h, x, hx => by
    rw [List.map_cons, allOf] at h
    split at h
    · rename_i b bs h1 h2
      simp only [Option.some.injEq, List.cons.injEq] at h
      obtain ⟨rfl, rfl⟩ := h
      rcases List.mem_cons.1 hx with rfl | hx
      · exact h1
      · exact allOf_fix h2 x hx
    · cases h

theorem allOf_length {α β : Type} {f : α → Option β} : ∀ {l : List α} {r : List β}, allOf f l = some r → r.length = l.length
  | [], r, h => by
    simp only [allOf, Option.some.injEq] at h
    rw [← h]; rfl
  | a :: l, r, h => by
    rw [allOf] at h
    split at h
    · rename_i b bs h1 h2
      simp only [Option.some.injEq] at h
      rw [← h, List.length_cons, List.length_cons, allOf_length h2]
    · cases h

theorem readEntry_key {k : KeyTy} {f : Json F → Option (JVal F)} {m : String × Json F} {e : String × JVal F}
    (h : readEntry k f m = some e) : KeyText k e.1 ∧ e.1 = m.1 ∧ f m.2 = some e.2 := by
  unfold readEntry at h
  split at h
  · rename_i hk
    rw [Option.map_eq_some_iff] at h
    obtain ⟨v, h1, rfl⟩ := h
    exact ⟨(keyOk_iff _ _).1 hk, rfl, h1⟩
  · cases h

theorem allOf_keys {k : KeyTy} {f : Json F → Option (JVal F)} : ∀ {ms : List (String × Json F)} {r : List (String × JVal F)},
    allOf (readEntry k f) ms = some r → r.map Prod.fst = ms.map Prod.fst
  | [], r, h => by
    simp only [allOf, Option.some.injEq] at h
    rw [← h]; rfl
  | a :: l, r, h => by
    rw [allOf] at h
    split at h
    · rename_i b bs h1 h2
      simp only [Option.some.injEq] at h
      rw [← h, List.map_cons, List.map_cons, allOf_keys h2, (readEntry_key h1).2.1]
    · cases h

theorem asc_of_keys {m m' : List (String × JVal F)} (h : m.map Prod.fst = m'.map Prod.fst) (hm : Asc m) : Asc m' := by
  unfold Asc at hm ⊢
  have h1 : (m.map Prod.fst).Pairwise (· < ·) := List.pairwise_map.2 hm
  rw [h] at h1
  exact List.pairwise_map.1 h1

/-! ## Sameness of trees -/

mutual
theorem JSame_refl : ∀ j : Json F, JSame j j
  | .null => .null
  | .bool b => .bool b
  | .int i => .int i
  | .flt x => .flt x
  | .str s => .str s
  | .arr js => .arr (JSameList_refl js)
  | .obj ms => .obj (JSameMembers_refl ms) (List.Perm.refl _)
theorem JSameList_refl : ∀ js : List (Json F), JSameList js js
  | [] => .nil
  | j :: js => .cons (JSame_refl j) (JSameList_refl js)
theorem JSameMembers_refl : ∀ ms : List (String × Json F), JSameMembers ms ms
  | [] => .nil
  | (k, j) :: ms => .cons k (JSame_refl j) (JSameMembers_refl ms)
end

theorem membersOf_same (k : String) : ∀ {ms ms' : List (String × Json F)}, JSameMembers ms ms' →
    JSameList (membersOf k ms) (membersOf k ms')
  | _, _, .nil => .nil
  | _, _, .cons k' h hs => by
    rw [membersOf, membersOf]
    split
    · exact .cons h (membersOf_same k hs)
    · exact membersOf_same k hs

theorem membersOf_perm (k : String) {ms ms' : List (String × Json F)} (h : ms.Perm ms') :
    (membersOf k ms).Perm (membersOf k ms') := by
  induction h with
  | nil => exact .refl _
  | cons x _ ih =>
    obtain ⟨k', j⟩ := x
    rw [membersOf, membersOf]
    split
    · exact ih.cons _
    · exact ih
  | swap x y l =>
    obtain ⟨k1, j1⟩ := x
    obtain ⟨k2, j2⟩ := y
    simp only [membersOf]
    split <;> split <;> first | exact .refl _ | exact .swap _ _ _
  | trans _ _ h1 h2 => exact h1.trans h2

/-! ## Reading back what was written -/

/-- serde_json's conversions bring an `f32` back (it is exactly representable as an `f64`), and chrono reads the dates it
writes. [std, serde_json, chrono] -/
def Exact (F : Prims) : Prop := (∀ x y, F.widen x = some y → F.narrow y = x) ∧ ∀ d, F.readDate (F.showDate d) = some d

theorem encodeVariant_ne_null : ∀ {vs : JVariants} {n : String} {v : JVal F}, TypedVariant vs n v → encodeVariant vs n v ≠ .null
  | .nil, n, v, h => by rw [TypedVariant] at h; exact h.elim
  | .unit k rest, n, v, h => by
    rw [TypedVariant] at h
    rw [encodeVariant]
    split
    · intro c; cases c
    · rename_i hk
      rw [if_neg hk] at h
      exact encodeVariant_ne_null h
  | .newtype k t rest, n, v, h => by
    rw [TypedVariant] at h
    rw [encodeVariant]
    split
    · intro c; cases c
    · rename_i hk
      rw [if_neg hk] at h
      exact encodeVariant_ne_null h
  | .fields k fs rest, n, v, h => by
    rw [TypedVariant] at h
    rw [encodeVariant]
    split
    · intro c; cases c
    · rename_i hk
      rw [if_neg hk] at h
      exact encodeVariant_ne_null h

theorem encode_ne_null : ∀ {t : JTy} {v : JVal F}, notOpt t = true → Typed t v → Plain t v → encode t v ≠ .null
  | .string, .str _, _, _, _ => by rw [encode]; intro c; cases c
  | .uint _, .int _, _, _, _ => by rw [encode]; intro c; cases c
  | .sint _, .int _, _, _, _ => by rw [encode]; intro c; cases c
  | .bool, .bool _, _, _, _ => by rw [encode]; intro c; cases c
  | .date, .date _, _, _, _ => by rw [encode]; intro c; cases c
  | .array _ _, .list _, _, _, _ => by rw [encode]; intro c; cases c
  | .map _ _, .map _, _, _, _ => by rw [encode]; intro c; cases c
  | .enum _, .variant _ _, _, h, _ => by rw [encode]; rw [Typed] at h; exact encodeVariant_ne_null h
  | .f32, .flt x, _, _, h => by
    rw [Plain] at h
    rw [encode]
    cases hx : F.widen x with
    | none => exact absurd hx h
    | some y => intro c; cases c
  | .list _, .list _, _, _, _ => by rw [encode]; intro c; cases c
  | .struct _, .struct _, _, _, _ => by rw [encode]; intro c; cases c

theorem readOpt_some {f : Json F → Option (JVal F)} {j : Json F} (h : j ≠ .null) : readOpt f j = (f j).map .some := by
  cases j <;> first | rfl | exact absurd rfl h

theorem same_ne_null {j j' : Json F} (h : JSame j j') (hn : j ≠ .null) : j' ≠ .null := by
  cases h <;> first | exact absurd rfl hn | (intro c; cases c)

/-- The members agree with the values of the fields. [proof device, no counterpart in /repo] -/
def Agrees (ms : List (String × Json F)) : JFields → List (JVal F) → Prop
  | .cons _ .skip _ rest, _ :: vs => Agrees ms rest vs
  | .cons k _ t rest, v :: vs => (∃ j, membersOf k ms = [j] ∧ JSame (encode t v) j) ∧ Agrees ms rest vs
  | _, _ => True

theorem membersOf_nokey {k : String} : ∀ (fs : JFields) (vs : List (JVal F)), hasKey k fs = false →
    membersOf k (encodeFields fs vs) = []
  | .nil, _, _ => by rw [encodeFields]; rfl; all_goals simp
  | .cons _ .skip _ rest, [], _ => by rw [encodeFields]; rfl; all_goals simp
  | .cons _ .required _ rest, [], _ => by rw [encodeFields]; rfl; all_goals simp
  | .cons _ .default _ rest, [], _ => by rw [encodeFields]; rfl; all_goals simp
  | .cons _ .skip _ rest, _ :: vs, h => by
    rw [encodeFields]
    exact membersOf_nokey rest vs (by rwa [hasKey] at h)
  | .cons k' .required t rest, v :: vs, h => by
    rw [hasKey, Bool.or_eq_false_iff, decide_eq_false_iff_not] at h
    rw [encodeFields, membersOf, if_neg h.1]
    exact membersOf_nokey rest vs h.2
    all_goals simp
  | .cons k' .default t rest, v :: vs, h => by
    rw [hasKey, Bool.or_eq_false_iff, decide_eq_false_iff_not] at h
    rw [encodeFields, membersOf, if_neg h.1]
    exact membersOf_nokey rest vs h.2
    all_goals simp

theorem encodeFields_cons {k : String} {kind : Kind} (hk : kind ≠ .skip) (t : JTy) (rest : JFields) (v : JVal F) (vs : List (JVal F)) :
    encodeFields (.cons k kind t rest) (v :: vs) = (k, encode t v) :: encodeFields rest vs := by
  rw [encodeFields]
  simpa using hk

theorem hasKey_cons {k k' : String} {kind : Kind} (hk : kind ≠ .skip) (t : JTy) (rest : JFields) :
    hasKey k (.cons k' kind t rest) = (decide (k' = k) || hasKey k rest) := by
  rw [hasKey]
  simpa using hk

theorem agrees_cons {k : String} {kind : Kind} (hk : kind ≠ .skip) (ms : List (String × Json F)) (t : JTy) (rest : JFields)
    (v : JVal F) (vs : List (JVal F)) :
    Agrees ms (.cons k kind t rest) (v :: vs) = ((∃ j, membersOf k ms = [j] ∧ JSame (encode t v) j) ∧ Agrees ms rest vs) := by
  rw [Agrees]
  simpa using hk

theorem agrees_of {ms : List (String × Json F)} : ∀ (fs : JFields) (vs : List (JVal F)), okFields fs = true →
    (∀ k, hasKey k fs = true → ∃ l, JSameList (membersOf k (encodeFields fs vs)) l ∧ l.Perm (membersOf k ms)) →
    Agrees ms fs vs
  | .nil, _, _, _ => by rw [Agrees]; trivial; all_goals simp
  | .cons _ kind _ rest, [], _, _ => by rw [Agrees]; trivial; all_goals simp
  | .cons k kind t rest, v :: vs, hok, h => by
    rw [okFields, Bool.and_eq_true, Bool.and_eq_true] at hok
    obtain ⟨h1, -, h3⟩ := hok
    by_cases hk : kind = .skip
    · subst hk
      rw [Agrees]
      refine agrees_of rest vs h3 fun k' hk' => ?_
      have := h k' (by rwa [hasKey])
      rwa [encodeFields] at this
    · rw [agrees_cons hk]
      simp only [hk, decide_false, Bool.false_or, Bool.not_eq_true'] at h1
      constructor
      · obtain ⟨l, hl, hp⟩ := h k (by rw [hasKey_cons hk]; simp)
        rw [encodeFields_cons hk, membersOf, if_pos rfl, membersOf_nokey rest vs h1] at hl
        cases hl with
        | cons hj hn =>
          cases hn
          exact ⟨_, List.perm_singleton.1 hp.symm, hj⟩
      · refine agrees_of rest vs h3 fun k' hk' => ?_
        have hne : k ≠ k' := by
          rintro rfl
          rw [h1] at hk'
          cases hk'
        have := h k' (by rw [hasKey_cons hk, hk']; simp)
        rwa [encodeFields_cons hk, membersOf, if_neg hne] at this

theorem decodeFields_one {k : String} {kind : Kind} (hk : kind ≠ .skip) {ms : List (String × Json F)} {j : Json F}
    (hm : membersOf k ms = [j]) (t : JTy) (rest : JFields) :
    decodeFields ms (.cons k kind t rest) = (decodeFields ms rest).bind fun vs => (decode t j).map (· :: vs) := by
  rw [decodeFields]
  cases decodeFields ms rest with
  | none => rfl
  | some vs =>
    cases kind with
    | skip => exact absurd rfl hk
    | default => simp only [hm]; rfl
    | required => simp only [hm]; rfl

theorem allOf_back {t : JTy} (h : ∀ (v : JVal F) (j : Json F), Typed t v → Plain t v → JSame (encode t v) j → decode t j = some v) :
    ∀ (vs : List (JVal F)) (js : List (Json F)), (∀ v ∈ vs, Typed t v) → (∀ v ∈ vs, Plain t v) →
    JSameList (vs.map (encode t)) js → allOf (decode t) js = some vs
  | [], js, _, _, hs => by
    cases hs
    rfl
  | v :: vs, js, ht, hp, hs => by
    rw [List.map_cons] at hs
    cases hs with
    | cons hj hr =>
      rw [allOf, h v _ (ht v List.mem_cons_self) (hp v List.mem_cons_self) hj,
        allOf_back h vs _ (fun v hv => ht v (List.mem_cons_of_mem _ hv)) (fun v hv => hp v (List.mem_cons_of_mem _ hv)) hr]

theorem entries_back {k : KeyTy} {t : JTy}
    (h : ∀ (v : JVal F) (j : Json F), Typed t v → Plain t v → JSame (encode t v) j → decode t j = some v) :
    ∀ (es : List (String × JVal F)) (ms : List (String × Json F)), (∀ e ∈ es, KeyText k e.1 ∧ Typed t e.2) →
    (∀ e ∈ es, Plain t e.2) → JSameMembers (es.map (fun e => (e.1, encode t e.2))) ms → allOf (readEntry k (decode t)) ms = some es
  | [], ms, _, _, hs => by
    cases hs
    rfl
  | e :: es, ms, ht, hp, hs => by
    rw [List.map_cons] at hs
    cases hs with
    | cons _ hj hr =>
      have h1 := ht e List.mem_cons_self
      rw [allOf, entries_back h es _ (fun v hv => ht v (List.mem_cons_of_mem _ hv)) (fun v hv => hp v (List.mem_cons_of_mem _ hv)) hr]
      simp only [readEntry, (keyOk_iff _ _).2 h1.1, if_true, h _ _ h1.2 (hp e List.mem_cons_self) hj]
      rfl

theorem plainFields_cons {k : String} {kind : Kind} (hk : kind ≠ .skip) (t : JTy) (rest : JFields) (v : JVal F)
    (vs : List (JVal F)) : PlainFields (.cons k kind t rest) (v :: vs) = (Plain t v ∧ PlainFields rest vs) := by
  cases kind with
  | skip => exact absurd rfl hk
  | default => rw [PlainFields]
  | required => rw [PlainFields]

mutual
theorem read_back (hF : Exact F) : ∀ (t : JTy) (v : JVal F) (j : Json F), okTy t = true → Typed t v → Plain t v →
    JSame (encode t v) j → decode t j = some v
  | .string, .str s, j, _, _, _, hs => by
    rw [encode] at hs
    cases hs
    rw [decode]
  | .uint b, .int i, j, _, ht, _, hs => by
    rw [encode] at hs
    cases hs
    rw [Typed] at ht
    rw [decode, if_pos ht]
  | .sint b, .int i, j, _, ht, _, hs => by
    rw [encode] at hs
    cases hs
    rw [Typed] at ht
    rw [decode, if_pos ht]
  | .bool, .bool b, j, _, _, _, hs => by
    rw [encode] at hs
    cases hs
    rw [decode]
  | .date, .date d, j, _, _, _, hs => by
    rw [encode] at hs
    cases hs
    rw [decode, hF.2 d]
    rfl
  | .array n t, .list vs, j, hok, ht, hp, hs => by
    rw [okTy] at hok
    rw [Typed] at ht
    rw [Plain] at hp
    rw [encode] at hs
    cases hs with
    | arr hl =>
      have h1 := allOf_back (fun v j => read_back hF t v j hok) vs _ ht.2 hp hl
      rw [decode, if_pos (by rw [← allOf_length h1]; exact ht.1), h1]
      rfl
  | .map k t, .map es, j, hok, ht, hp, hs => by
    rw [okTy] at hok
    rw [Typed] at ht
    rw [Plain] at hp
    rw [encode] at hs
    cases hs with
    | obj hm hperm =>
      have h1 := entries_back (fun v j => read_back hF t v j hok) es _ ht.2 hp hm
      obtain ⟨r, h2, h3⟩ := allOf_perm hperm h1
      rw [decode, h2, Option.map_some, mapOf_perm ht.1 h3.symm]
  | .enum vs, .variant n v, j, hok, ht, hp, hs => by
    rw [okTy] at hok
    rw [Typed] at ht
    rw [Plain] at hp
    rw [encode] at hs
    rcases read_variant hF vs n v j hok ht hp hs with ⟨rfl, h⟩ | ⟨j', rfl, h⟩
    · rw [decode]; exact h
    · rw [decode]; exact h
  | .f32, .flt x, j, _, _, hp, hs => by
    rw [Plain] at hp
    rw [encode] at hs
    cases hx : F.widen x with
    | none => exact absurd hx hp
    | some y =>
      rw [hx] at hs
      cases hs
      rw [decode, hF.1 x y hx]
  | .opt t, .none, j, _, _, _, hs => by
    rw [encode] at hs
    cases hs
    rw [decode]
    rfl
  | .opt t, .some v, j, hok, ht, hp, hs => by
    rw [okTy, Bool.and_eq_true] at hok
    rw [Typed] at ht
    rw [Plain] at hp
    rw [encode] at hs
    rw [decode, readOpt_some (same_ne_null hs (encode_ne_null hok.1 ht hp)), read_back hF t v j hok.2 ht hp hs]
    rfl
  | .list t, .list vs, j, hok, ht, hp, hs => by
    rw [okTy] at hok
    rw [Typed] at ht
    rw [Plain] at hp
    rw [encode] at hs
    cases hs with
    | arr hl =>
      rw [decode, allOf_back (fun v j => read_back hF t v j hok) vs _ ht hp hl]
      rfl
  | .struct fs, .struct vs, j, hok, ht, hp, hs => by
    rw [okTy] at hok
    rw [Typed] at ht
    rw [Plain] at hp
    rw [encode] at hs
    cases hs with
    | obj hm hperm =>
      rw [decode, read_fields hF fs vs _ hok ht hp (agrees_of fs vs hok fun k _ =>
        ⟨_, membersOf_same k hm, membersOf_perm k hperm⟩)]
      rfl
theorem read_fields (hF : Exact F) : ∀ (fs : JFields) (vs : List (JVal F)) (ms : List (String × Json F)), okFields fs = true →
    TypedFields fs vs → PlainFields fs vs → Agrees ms fs vs → decodeFields ms fs = some vs
  | .nil, [], ms, _, _, _, _ => by rw [decodeFields]
  | .cons k kind t rest, v :: vs, ms, hok, ht, hp, ha => by
    rw [okFields, Bool.and_eq_true, Bool.and_eq_true] at hok
    rw [TypedFields] at ht
    by_cases hk : kind = .skip
    · subst hk
      rw [PlainFields] at hp
      rw [Agrees] at ha
      rw [decodeFields, read_fields hF rest vs ms hok.2.2 ht.2 hp.2 ha]
      simp only [hp.1]
    · rw [plainFields_cons hk] at hp
      rw [agrees_cons hk] at ha
      obtain ⟨⟨j, hm, hj⟩, ha⟩ := ha
      rw [decodeFields_one hk hm, read_fields hF rest vs ms hok.2.2 ht.2 hp.2 ha, read_back hF t v j hok.2.1 ht.1 hp.1 hj]
      rfl
theorem read_variant (hF : Exact F) : ∀ (vs : JVariants) (n : String) (v : JVal F) (j : Json F), okVariants vs = true →
    TypedVariant vs n v → PlainVariant vs n v → JSame (encodeVariant vs n v) j →
    (j = .str n ∧ decodeUnit vs n = some (.variant n v)) ∨ (∃ j', j = .obj [(n, j')] ∧ decodeTagged vs n j' = some (.variant n v))
  | .nil, n, v, j, _, ht, _, _ => by rw [TypedVariant] at ht; exact ht.elim
  | .unit k rest, n, v, j, hok, ht, hp, hs => by
    rw [okVariants] at hok
    rw [TypedVariant] at ht
    rw [PlainVariant] at hp
    rw [encodeVariant] at hs
    rw [decodeUnit]
    by_cases hk : k = n
    · rw [if_pos hk] at ht hs ⊢
      cases hs
      rw [ht]
      exact .inl ⟨rfl, rfl⟩
    · rw [if_neg hk] at ht hs hp ⊢
      rcases read_variant hF rest n v j hok ht hp hs with h | ⟨j', h1, h2⟩
      · exact .inl h
      · exact .inr ⟨j', h1, by rw [decodeTagged, if_neg hk]; exact h2⟩
  | .newtype k t rest, n, v, j, hok, ht, hp, hs => by
    rw [okVariants, Bool.and_eq_true] at hok
    rw [TypedVariant] at ht
    rw [PlainVariant] at hp
    rw [encodeVariant] at hs
    rw [decodeUnit]
    by_cases hk : k = n
    · rw [if_pos hk] at ht hs hp
      cases hs with
      | obj hm hperm =>
        cases hm with
        | cons _ hj hn =>
          cases hn
          rw [List.perm_singleton.1 hperm.symm]
          refine .inr ⟨_, rfl, ?_⟩
          rw [decodeTagged, if_pos hk, read_back hF t v _ hok.1 ht hp hj]
          rfl
    · rw [if_neg hk] at ht hs hp ⊢
      rcases read_variant hF rest n v j hok.2 ht hp hs with h | ⟨j', h1, h2⟩
      · exact .inl h
      · exact .inr ⟨j', h1, by rw [decodeTagged, if_neg hk]; exact h2⟩
  | .fields k fs rest, n, v, j, hok, ht, hp, hs => by
    rw [okVariants, Bool.and_eq_true] at hok
    rw [TypedVariant] at ht
    rw [PlainVariant] at hp
    rw [decodeUnit]
    by_cases hk : k = n
    · rw [if_pos hk] at ht hp
      obtain ⟨ws, rfl, ht⟩ := ht
      rw [encodeVariant, if_pos hk] at hs
      cases hs with
      | obj hm hperm =>
        cases hm with
        | cons _ hj hn =>
          cases hn
          rw [List.perm_singleton.1 hperm.symm]
          refine .inr ⟨_, rfl, ?_⟩
          cases hj with
          | obj hm' hperm' =>
            rw [decodeTagged, if_pos hk, readParts, read_fields hF fs ws _ hok.1 ht (hp ws rfl) (agrees_of fs ws hok.1 fun k _ =>
              ⟨_, membersOf_same k hm', membersOf_perm k hperm'⟩)]
            rfl
    · rw [if_neg hk] at ht hp ⊢
      have hs' : JSame (encodeVariant rest n v) j := by
        rw [encodeVariant, if_neg hk] at hs
        exact hs
      rcases read_variant hF rest n v j hok.2 ht hp hs' with h | ⟨j', h1, h2⟩
      · exact .inl h
      · exact .inr ⟨j', h1, by rw [decodeTagged, if_neg hk]; exact h2⟩
end

/-- What a variant's tree is. -/
theorem encodeVariant_cases : ∀ (vs : JVariants) (n : String) (v : JVal F), TypedVariant vs n v →
    encodeVariant vs n v = .str n ∨ ∃ j, encodeVariant vs n v = .obj [(n, j)]
  | .nil, n, v, h => by rw [TypedVariant] at h; exact h.elim
  | .unit k rest, n, v, h => by
    rw [TypedVariant] at h
    rw [encodeVariant]
    split
    · exact .inl rfl
    · rename_i hk
      rw [if_neg hk] at h
      exact encodeVariant_cases rest n v h
  | .newtype k t rest, n, v, h => by
    rw [TypedVariant] at h
    rw [encodeVariant]
    split
    · exact .inr ⟨_, rfl⟩
    · rename_i hk
      rw [if_neg hk] at h
      exact encodeVariant_cases rest n v h
  | .fields k fs rest, n, v, h => by
    rw [TypedVariant] at h
    rw [encodeVariant]
    split
    · exact .inr ⟨_, rfl⟩
    · rename_i hk
      rw [if_neg hk] at h
      exact encodeVariant_cases rest n v h

mutual
theorem plain_of : ∀ (t : JTy) (v : JVal F), okTy t = true → Typed t v → decode t (encode t v) = some v → Plain t v
  | .string, .str _, _, _, _ => by rw [Plain]; trivial; all_goals simp
  | .bool, .bool _, _, _, _ => by rw [Plain]; trivial; all_goals simp
  | .date, .date _, _, _, _ => by rw [Plain]; trivial; all_goals simp
  | .uint _, .int _, _, _, _ => by rw [Plain]; trivial; all_goals simp
  | .sint _, .int _, _, _, _ => by rw [Plain]; trivial; all_goals simp
  | .array n t, .list vs, hok, ht, h => by
    rw [okTy] at hok
    rw [Typed] at ht
    rw [encode, decode, if_pos (by rw [List.length_map]; exact ht.1), Option.map_eq_some_iff] at h
    obtain ⟨a, h1, h2⟩ := h
    simp only [JVal.list.injEq] at h2
    subst h2
    rw [Plain]
    exact fun v hv => plain_of t v hok (ht.2 v hv) (allOf_fix h1 v hv)
  | .map k t, .map es, hok, ht, h => by
    rw [okTy] at hok
    rw [Typed] at ht
    rw [encode, decode, Option.map_eq_some_iff] at h
    obtain ⟨r, h1, h2⟩ := h
    simp only [JVal.map.injEq] at h2
    have hk : r.map Prod.fst = es.map Prod.fst := by
      rw [allOf_keys h1, List.map_map]
      rfl
    rw [mapOf_perm (asc_of_keys hk.symm ht.1) (.refl _)] at h2
    subst h2
    rw [Plain]
    exact fun e he => plain_of t e.2 hok (ht.2 e he).2 (readEntry_key (allOf_fix h1 e he)).2.2
  | .enum vs, .variant n v, hok, ht, h => by
    rw [okTy] at hok
    rw [Typed] at ht
    rw [Plain]
    exact plain_variant vs n v hok ht h
  | .f32, .flt x, _, _, h => by
    rw [Plain]
    intro hx
    rw [encode, hx] at h
    simp only [decode] at h
    cases h
  | .opt _, .none, _, _, _ => by rw [Plain]; trivial; all_goals simp
  | .opt t, .some v, hok, ht, h => by
    rw [okTy, Bool.and_eq_true] at hok
    rw [Typed] at ht
    rw [encode, decode] at h
    rw [Plain]
    by_cases hn : encode t v = .null
    · rw [hn] at h
      simp [readOpt] at h
    · rw [readOpt_some hn, Option.map_eq_some_iff] at h
      obtain ⟨a, h1, h2⟩ := h
      simp only [JVal.some.injEq] at h2
      subst h2
      exact plain_of t a hok.2 ht h1
  | .list t, .list vs, hok, ht, h => by
    rw [okTy] at hok
    rw [Typed] at ht
    rw [encode, decode, Option.map_eq_some_iff] at h
    obtain ⟨a, h1, h2⟩ := h
    simp only [JVal.list.injEq] at h2
    subst h2
    rw [Plain]
    exact fun v hv => plain_of t v hok (ht v hv) (allOf_fix h1 v hv)
  | .struct fs, .struct vs, hok, ht, h => by
    rw [okTy] at hok
    rw [Typed] at ht
    rw [encode, decode, Option.map_eq_some_iff] at h
    obtain ⟨a, h1, h2⟩ := h
    simp only [JVal.struct.injEq] at h2
    subst h2
    rw [Plain]
    exact plain_fields fs _ _ hok ht (fun k _ => rfl) h1
theorem plain_fields : ∀ (fs : JFields) (vs : List (JVal F)) (ms : List (String × Json F)), okFields fs = true →
    TypedFields fs vs → (∀ k, hasKey k fs = true → membersOf k ms = membersOf k (encodeFields fs vs)) →
    decodeFields ms fs = some vs → PlainFields fs vs
  | .nil, [], ms, _, _, _, _ => by rw [PlainFields]; trivial; all_goals simp
  | .cons k kind t rest, v :: vs, ms, hok, ht, ha, h => by
    rw [okFields, Bool.and_eq_true, Bool.and_eq_true] at hok
    rw [TypedFields] at ht
    by_cases hk : kind = .skip
    · subst hk
      rw [PlainFields]
      rw [decodeFields] at h
      split at h
      · cases h
      · rename_i vs' h'
        simp only [Option.some.injEq, List.cons.injEq] at h
        obtain ⟨rfl, rfl⟩ := h
        refine ⟨rfl, plain_fields rest _ ms hok.2.2 ht.2 (fun k' hk' => ?_) h'⟩
        have := ha k' (by rwa [hasKey])
        rwa [encodeFields] at this
    · rw [plainFields_cons hk]
      have hnk := hok.1
      simp only [hk, decide_false, Bool.false_or, Bool.not_eq_true'] at hnk
      have hm := ha k (by rw [hasKey_cons hk]; simp)
      rw [encodeFields_cons hk, membersOf, if_pos rfl, membersOf_nokey rest vs hnk] at hm
      rw [decodeFields_one hk hm, Option.bind_eq_some_iff] at h
      obtain ⟨vs', h1, h2⟩ := h
      rw [Option.map_eq_some_iff] at h2
      obtain ⟨a, h2, h3⟩ := h2
      simp only [List.cons.injEq] at h3
      obtain ⟨rfl, rfl⟩ := h3
      refine ⟨plain_of t _ hok.2.1 ht.1 h2, plain_fields rest _ ms hok.2.2 ht.2 (fun k' hk' => ?_) h1⟩
      have hne : k ≠ k' := by
        rintro rfl
        rw [hnk] at hk'
        cases hk'
      have := ha k' (by rw [hasKey_cons hk, hk']; simp)
      rwa [encodeFields_cons hk, membersOf, if_neg hne] at this
theorem plain_variant : ∀ (vs : JVariants) (n : String) (v : JVal F), okVariants vs = true → TypedVariant vs n v →
    decode (.enum vs) (encodeVariant vs n v) = some (.variant n v) → PlainVariant vs n v
  | .nil, n, v, _, ht, _ => by rw [TypedVariant] at ht; exact ht.elim
  | .unit k rest, n, v, hok, ht, h => by
    rw [okVariants] at hok
    rw [TypedVariant] at ht
    rw [PlainVariant]
    by_cases hk : k = n
    · rw [if_pos hk]
      trivial
    · rw [if_neg hk] at ht ⊢
      rw [encodeVariant, if_neg hk] at h
      refine plain_variant rest n v hok ht ?_
      rcases encodeVariant_cases rest n v ht with he | ⟨j, he⟩
      · rw [he] at h ⊢
        rwa [decode, decodeUnit, if_neg hk] at h
      · rw [he] at h ⊢
        rwa [decode, decodeTagged, if_neg hk] at h
  | .newtype k t rest, n, v, hok, ht, h => by
    rw [okVariants, Bool.and_eq_true] at hok
    rw [TypedVariant] at ht
    rw [PlainVariant]
    by_cases hk : k = n
    · rw [if_pos hk] at ht ⊢
      rw [encodeVariant, if_pos hk, decode, decodeTagged, if_pos hk, Option.map_eq_some_iff] at h
      obtain ⟨a, h1, h2⟩ := h
      simp only [JVal.variant.injEq, true_and] at h2
      subst h2
      exact plain_of t _ hok.1 ht h1
    · rw [if_neg hk] at ht ⊢
      rw [encodeVariant, if_neg hk] at h
      refine plain_variant rest n v hok.2 ht ?_
      rcases encodeVariant_cases rest n v ht with he | ⟨j, he⟩
      · rw [he] at h ⊢
        rwa [decode, decodeUnit, if_neg hk] at h
      · rw [he] at h ⊢
        rwa [decode, decodeTagged, if_neg hk] at h
  | .fields k fs rest, n, v, hok, ht, h => by
    rw [okVariants, Bool.and_eq_true] at hok
    rw [TypedVariant] at ht
    rw [PlainVariant]
    by_cases hk : k = n
    · rw [if_pos hk] at ht ⊢
      obtain ⟨vs, rfl, ht⟩ := ht
      rw [encodeVariant, if_pos hk, decode, decodeTagged, if_pos hk, readParts, Option.map_eq_some_iff] at h
      obtain ⟨a, h1, h2⟩ := h
      simp only [JVal.variant.injEq, true_and, JVal.struct.injEq] at h2
      subst h2
      intro vs' h3
      simp only [JVal.struct.injEq] at h3
      subst h3
      exact plain_fields fs _ _ hok.1 ht (fun k _ => rfl) h1
    · rw [if_neg hk] at ht ⊢
      rw [encodeVariant, if_neg hk] at h
      refine plain_variant rest n v hok.2 ht ?_
      rcases encodeVariant_cases rest n v ht with he | ⟨j, he⟩
      · rw [he] at h ⊢
        rwa [decode, decodeUnit, if_neg hk] at h
      · rw [he] at h ⊢
        rwa [decode, decodeTagged, if_neg hk] at h
end


/-! ## What is read is well typed -/

mutual
/-- The default of the type is a value of the type. [proof device, no counterpart in /repo] -/
def dfltOk : JTy → Bool
  | .array _ _ => false
  | .enum _ => false
  | .struct fs => dfltOkFields fs
  | _ => true
/-- [proof device, no counterpart in /repo] -/
def dfltOkFields : JFields → Bool
  | .nil => true
  | .cons _ _ t rest => dfltOk t && dfltOkFields rest
end

mutual
/-- Every field whose default may be taken has a default. [proof device, no counterpart in /repo] -/
def okDflt : JTy → Bool
  | .opt t => okDflt t
  | .list t => okDflt t
  | .array _ t => okDflt t
  | .map _ t => okDflt t
  | .struct fs => okDfltFields fs
  | .enum vs => okDfltVariants vs
  | _ => true
/-- [proof device, no counterpart in /repo] -/
def okDfltFields : JFields → Bool
  | .nil => true
  | .cons _ kind t rest => (decide (kind = .required) || dfltOk t) && (okDflt t && okDfltFields rest)
/-- [proof device, no counterpart in /repo] -/
def okDfltVariants : JVariants → Bool
  | .nil => true
  | .unit _ rest => okDfltVariants rest
  | .newtype _ t rest => okDflt t && okDfltVariants rest
  | .fields _ fs rest => okDfltFields fs && okDfltVariants rest
end

mutual
theorem typed_dflt : ∀ (t : JTy), dfltOk t = true → Typed t (dflt t : JVal F)
  | .string, _ => by rw [dflt, Typed]; trivial
  | .bool, _ => by rw [dflt, Typed]; trivial
  | .date, _ => by rw [dflt, Typed]; trivial
  | .uint b, _ => by
    rw [dflt, Typed]
    have h : (0 : Int) < 2 ^ b := Int.pow_pos (by decide)
    exact ⟨Int.le_refl _, h⟩
  | .sint b, _ => by
    rw [dflt, Typed]
    have h : (0 : Int) < 2 ^ (b - 1) := Int.pow_pos (by decide)
    omega
  | .f32, _ => by rw [dflt, Typed]; trivial
  | .opt _, _ => by rw [dflt, Typed]; trivial
  | .list _, _ => by rw [dflt, Typed]; intro v hv; cases hv
  | .map _ _, _ => by
    rw [dflt, Typed]
    exact ⟨List.Pairwise.nil, fun e he => by cases he⟩
  | .struct fs, h => by rw [dfltOk] at h; rw [dflt, Typed]; exact typed_dfltFields fs h
  | .array _ _, h => by rw [dfltOk] at h; cases h
  | .enum _, h => by rw [dfltOk] at h; cases h
theorem typed_dfltFields : ∀ (fs : JFields), dfltOkFields fs = true → TypedFields fs (dfltFields fs : List (JVal F))
  | .nil, _ => by rw [dfltFields, TypedFields]; trivial
  | .cons _ _ t rest, h => by
    rw [dfltOkFields, Bool.and_eq_true] at h
    rw [dfltFields, TypedFields]
    exact ⟨typed_dflt t h.1, typed_dfltFields rest h.2⟩
end

theorem allOf_all {α β : Type} {f : α → Option β} {P : β → Prop} (h : ∀ a b, f a = some b → P b) :
    ∀ (as : List α) (bs : List β), allOf f as = some bs → ∀ b ∈ bs, P b
  | [], bs, hs, b, hb => by
    simp only [allOf, Option.some.injEq] at hs
    subst hs
    cases hb
  | a :: as, bs, hs, b, hb => by
    rw [allOf] at hs
    split at hs
    · rename_i c cs h1 h2
      simp only [Option.some.injEq] at hs
      subst hs
      rcases List.mem_cons.1 hb with rfl | hb
      · exact h _ _ h1
      · exact allOf_all h as cs h2 b hb
    · cases hs

/-- Skipped fields have their default values wherever a struct occurs, given that the numbers are finite. -/
abbrev Read (t : JTy) (v : JVal F) : Prop := Typed t v ∧ (AllFinite t v → Plain t v)
abbrev ReadFields (fs : JFields) (vs : List (JVal F)) : Prop := TypedFields fs vs ∧ (AllFiniteFields fs vs → PlainFields fs vs)

mutual
theorem read_dflt : ∀ (t : JTy), AllFinite t (dflt t : JVal F) → Plain t (dflt t : JVal F)
  | .string, _ => by rw [dflt, Plain]; trivial; all_goals simp
  | .bool, _ => by rw [dflt, Plain]; trivial; all_goals simp
  | .date, _ => by rw [dflt, Plain]; trivial; all_goals simp
  | .uint _, _ => by rw [dflt, Plain]; trivial; all_goals simp
  | .sint _, _ => by rw [dflt, Plain]; trivial; all_goals simp
  | .array _ _, _ => by rw [dflt, Plain]; intro v hv; cases hv
  | .map _ _, _ => by rw [dflt, Plain]; intro v hv; cases hv
  | .enum _, _ => by rw [dflt, Plain]; trivial; all_goals simp
  | .f32, h => by rw [dflt, AllFinite] at h; rw [dflt, Plain]; exact h
  | .opt _, _ => by rw [dflt, Plain]; trivial; all_goals simp
  | .list _, _ => by rw [dflt, Plain]; intro v hv; cases hv
  | .struct fs, h => by rw [dflt, AllFinite] at h; rw [dflt, Plain]; exact read_dfltFields fs h
theorem read_dfltFields : ∀ (fs : JFields), AllFiniteFields fs (dfltFields fs : List (JVal F)) →
    PlainFields fs (dfltFields fs : List (JVal F))
  | .nil, _ => by rw [dfltFields, PlainFields]; trivial; all_goals simp
  | .cons _ .skip t rest, h => by
    rw [dfltFields, AllFiniteFields] at h
    rw [dfltFields, PlainFields]
    exact ⟨rfl, read_dfltFields rest h⟩
  | .cons _ .required t rest, h => by
    rw [dfltFields, AllFiniteFields] at h
    rw [dfltFields, PlainFields]
    exact ⟨read_dflt t h.1, read_dfltFields rest h.2⟩
  | .cons _ .default t rest, h => by
    rw [dfltFields, AllFiniteFields] at h
    rw [dfltFields, PlainFields]
    exact ⟨read_dflt t h.1, read_dfltFields rest h.2⟩
end

theorem whenMissing_read {t : JTy} {v : JVal F} (h : whenMissing t = some v) : Read t v := by
  unfold whenMissing at h
  split at h
  · simp only [Option.some.injEq] at h
    subst h
    exact ⟨by rw [Typed]; trivial, fun _ => by rw [Plain]; trivial; all_goals simp⟩
  · cases h

theorem readFields_cons {k : String} {kind : Kind} {t : JTy} {rest : JFields} {v : JVal F} {vs : List (JVal F)} (hv : Read t v)
    (hvs : ReadFields rest vs) (hs : kind = .skip → v = dflt t) : ReadFields (.cons k kind t rest) (v :: vs) := by
  refine ⟨by rw [TypedFields]; exact ⟨hv.1, hvs.1⟩, fun h => ?_⟩
  cases kind with
  | skip =>
    rw [AllFiniteFields] at h
    rw [PlainFields]
    exact ⟨hs rfl, hvs.2 h⟩
  | required =>
    rw [AllFiniteFields] at h
    rw [PlainFields]
    exact ⟨hv.2 h.1, hvs.2 h.2⟩
  | default =>
    rw [AllFiniteFields] at h
    rw [PlainFields]
    exact ⟨hv.2 h.1, hvs.2 h.2⟩

abbrev ReadVariant (vs : JVariants) (n : String) (v : JVal F) : Prop :=
  TypedVariant vs n v ∧ (AllFiniteVariant vs n v → PlainVariant vs n v)

theorem decodeUnit_ok : ∀ (vs : JVariants) (n : String) (w : JVal F), decodeUnit vs n = some w → ∃ v, w = .variant n v ∧ ReadVariant vs n v
  | .nil, n, w, h => by rw [decodeUnit] at h; cases h
  | .unit k rest, n, w, h => by
    rw [decodeUnit] at h
    unfold ReadVariant
    simp only [TypedVariant, AllFiniteVariant, PlainVariant]
    split at h
    · rename_i hk
      cases h
      exact ⟨_, rfl, by simp [hk], by simp [hk]⟩
    · rename_i hk
      obtain ⟨v, h1, h2⟩ := decodeUnit_ok rest n w h
      simp only [if_neg hk]
      exact ⟨v, h1, h2⟩
  | .newtype k t rest, n, w, h => by
    rw [decodeUnit] at h
    unfold ReadVariant
    simp only [TypedVariant, AllFiniteVariant, PlainVariant]
    split at h
    · cases h
    · rename_i hk
      obtain ⟨v, h1, h2⟩ := decodeUnit_ok rest n w h
      simp only [if_neg hk]
      exact ⟨v, h1, h2⟩
  | .fields k fs rest, n, w, h => by
    rw [decodeUnit] at h
    unfold ReadVariant
    simp only [TypedVariant, AllFiniteVariant, PlainVariant]
    split at h
    · cases h
    · rename_i hk
      obtain ⟨v, h1, h2⟩ := decodeUnit_ok rest n w h
      simp only [if_neg hk]
      exact ⟨v, h1, h2⟩

theorem read_enum {vs : JVariants} {n : String} {v : JVal F} (h : ReadVariant vs n v) : Read (.enum vs) (.variant n v) :=
  ⟨by rw [Typed]; exact h.1, fun hf => by rw [AllFinite] at hf; rw [Plain]; exact h.2 hf⟩

mutual
theorem decode_ok : ∀ (t : JTy) (j : Json F) (v : JVal F), okDflt t = true → decode t j = some v → Read t v
  | .string, j, v, _, h => by
    cases j <;> simp only [decode] at h <;> cases h
    exact ⟨by rw [Typed]; trivial, fun _ => by rw [Plain]; trivial; all_goals simp⟩
  | .bool, j, v, _, h => by
    cases j <;> simp only [decode] at h <;> cases h
    exact ⟨by rw [Typed]; trivial, fun _ => by rw [Plain]; trivial; all_goals simp⟩
  | .date, j, v, _, h => by
    cases j <;> simp only [decode] at h
    case str s =>
      rw [Option.map_eq_some_iff] at h
      obtain ⟨d, -, rfl⟩ := h
      exact ⟨by rw [Typed]; trivial, fun _ => by rw [Plain]; trivial; all_goals simp⟩
    all_goals cases h
  | .uint b, j, v, _, h => by
    cases j <;> simp only [decode] at h
    case int i =>
      split at h
      · rename_i hi
        cases h
        exact ⟨by rw [Typed]; exact hi, fun _ => by rw [Plain]; trivial; all_goals simp⟩
      · cases h
    all_goals cases h
  | .sint b, j, v, _, h => by
    cases j <;> simp only [decode] at h
    case int i =>
      split at h
      · rename_i hi
        cases h
        exact ⟨by rw [Typed]; exact hi, fun _ => by rw [Plain]; trivial; all_goals simp⟩
      · cases h
    all_goals cases h
  | .f32, j, v, _, h => by
    cases j <;> simp only [decode] at h <;> cases h
    all_goals exact ⟨by rw [Typed]; trivial, fun h => by rw [AllFinite] at h; rw [Plain]; exact h⟩
  | .opt t, j, v, hok, h => by
    rw [okDflt] at hok
    rw [decode] at h
    by_cases hj : j = .null
    · subst hj
      simp only [readOpt, Option.some.injEq] at h
      subst h
      exact ⟨by rw [Typed]; trivial, fun _ => by rw [Plain]; trivial; all_goals simp⟩
    · rw [readOpt_some hj, Option.map_eq_some_iff] at h
      obtain ⟨w, h1, rfl⟩ := h
      have := decode_ok t j w hok h1
      exact ⟨by rw [Typed]; exact this.1, fun h => by rw [AllFinite] at h; rw [Plain]; exact this.2 h⟩
  | .list t, j, v, hok, h => by
    rw [okDflt] at hok
    cases j
    case arr js =>
      rw [decode, Option.map_eq_some_iff] at h
      obtain ⟨vs, h1, rfl⟩ := h
      have := allOf_all (fun a b => decode_ok t a b hok) js vs h1
      exact ⟨by rw [Typed]; exact fun v hv => (this v hv).1,
        fun h => by rw [AllFinite] at h; rw [Plain]; exact fun v hv => (this v hv).2 (h v hv)⟩
    all_goals simp only [decode] at h; cases h
  | .array n t, j, v, hok, h => by
    rw [okDflt] at hok
    cases j
    case arr js =>
      rw [decode] at h
      split at h
      · rename_i hn
        rw [Option.map_eq_some_iff] at h
        obtain ⟨vs, h1, rfl⟩ := h
        have := allOf_all (fun a b => decode_ok t a b hok) js vs h1
        exact ⟨by rw [Typed]; exact ⟨by rw [allOf_length h1, hn], fun v hv => (this v hv).1⟩,
          fun h => by rw [AllFinite] at h; rw [Plain]; exact fun v hv => (this v hv).2 (h v hv)⟩
      · cases h
    all_goals simp only [decode] at h; cases h
  | .map k t, j, v, hok, h => by
    rw [okDflt] at hok
    cases j
    case obj ms =>
      rw [decode, Option.map_eq_some_iff] at h
      obtain ⟨es, h1, rfl⟩ := h
      have := allOf_all (P := fun e => KeyText k e.1 ∧ Read t e.2)
        (fun a b hb => ⟨(readEntry_key hb).1, decode_ok t a.2 b.2 hok (readEntry_key hb).2.2⟩) ms es h1
      exact ⟨by rw [Typed]; exact ⟨mapOf_asc es, fun e he => ⟨(this e (mapOf_mem he)).1, (this e (mapOf_mem he)).2.1⟩⟩,
        fun h => by rw [AllFinite] at h; rw [Plain]; exact fun e he => (this e (mapOf_mem he)).2.2 (h e he)⟩
    all_goals simp only [decode] at h; cases h
  | .enum vs, j, v, hok, h => by
    rw [okDflt] at hok
    cases j
    case str n =>
      rw [decode] at h
      obtain ⟨w, rfl, hw⟩ := decodeUnit_ok vs n v h
      exact read_enum hw
    case obj ms =>
      match ms with
      | [] => simp only [decode] at h; cases h
      | [(n, j)] =>
        rw [decode] at h
        obtain ⟨w, rfl, hw⟩ := decodeTagged_ok vs n j v hok h
        exact read_enum hw
      | _ :: _ :: _ => simp only [decode] at h; cases h
    all_goals simp only [decode] at h; cases h
  | .struct fs, j, v, hok, h => by
    rw [okDflt] at hok
    cases j
    case obj ms =>
      rw [decode, Option.map_eq_some_iff] at h
      obtain ⟨vs, h1, rfl⟩ := h
      have := decodeFields_ok fs ms vs hok h1
      exact ⟨by rw [Typed]; exact this.1, fun h => by rw [AllFinite] at h; rw [Plain]; exact this.2 h⟩
    case arr js =>
      rw [decode, Option.map_eq_some_iff] at h
      obtain ⟨vs, h1, rfl⟩ := h
      have := decodeSeq_ok fs js vs hok h1
      exact ⟨by rw [Typed]; exact this.1, fun h => by rw [AllFinite] at h; rw [Plain]; exact this.2 h⟩
    all_goals simp only [decode] at h; cases h
theorem decodeTagged_ok : ∀ (vs : JVariants) (n : String) (j : Json F) (w : JVal F), okDfltVariants vs = true →
    decodeTagged vs n j = some w → ∃ v, w = .variant n v ∧ ReadVariant vs n v
  | .nil, n, j, w, _, h => by rw [decodeTagged] at h; cases h
  | .unit k rest, n, j, w, hok, h => by
    rw [okDfltVariants] at hok
    rw [decodeTagged] at h
    unfold ReadVariant
    simp only [TypedVariant, AllFiniteVariant, PlainVariant]
    split at h
    · rename_i hk
      cases j <;> simp only [readNothing] at h <;> cases h
      exact ⟨_, rfl, by simp [hk], by simp [hk]⟩
    · rename_i hk
      obtain ⟨v, h1, h2⟩ := decodeTagged_ok rest n j w hok h
      simp only [if_neg hk]
      exact ⟨v, h1, h2⟩
  | .newtype k t rest, n, j, w, hok, h => by
    rw [okDfltVariants, Bool.and_eq_true] at hok
    rw [decodeTagged] at h
    unfold ReadVariant
    simp only [TypedVariant, AllFiniteVariant, PlainVariant]
    split at h
    · rename_i hk
      rw [Option.map_eq_some_iff] at h
      obtain ⟨v, h1, rfl⟩ := h
      simp only [if_pos hk]
      exact ⟨v, rfl, decode_ok t j v hok.1 h1⟩
    · rename_i hk
      obtain ⟨v, h1, h2⟩ := decodeTagged_ok rest n j w hok.2 h
      simp only [if_neg hk]
      exact ⟨v, h1, h2⟩
  | .fields k fs rest, n, j, w, hok, h => by
    rw [okDfltVariants, Bool.and_eq_true] at hok
    rw [decodeTagged] at h
    unfold ReadVariant
    simp only [TypedVariant, AllFiniteVariant, PlainVariant]
    split at h
    · rename_i hk
      simp only [if_pos hk]
      have key : ∀ vs, ReadFields fs vs → w = .variant n (.struct vs) → ∃ v, w = .variant n v ∧ (∃ vs, v = .struct vs ∧ TypedFields fs vs) ∧
          ((∀ vs, v = .struct vs → AllFiniteFields fs vs) → ∀ vs, v = .struct vs → PlainFields fs vs) := by
        rintro vs hr rfl
        refine ⟨_, rfl, ⟨vs, rfl, hr.1⟩, fun hf vs' he => ?_⟩
        simp only [JVal.struct.injEq] at he
        subst he
        exact hr.2 (hf _ rfl)
      cases j
      case obj ms =>
        rw [readParts, Option.map_eq_some_iff] at h
        obtain ⟨vs, h1, rfl⟩ := h
        exact key vs (decodeFields_ok fs ms vs hok.1 h1) rfl
      case arr js =>
        rw [readParts, Option.map_eq_some_iff] at h
        obtain ⟨vs, h1, rfl⟩ := h
        exact key vs (decodeSeq_ok fs js vs hok.1 h1) rfl
      all_goals simp only [readParts] at h; cases h
    · rename_i hk
      obtain ⟨v, h1, h2⟩ := decodeTagged_ok rest n j w hok.2 h
      simp only [if_neg hk]
      exact ⟨v, h1, h2⟩
theorem decodeFields_ok : ∀ (fs : JFields) (ms : List (String × Json F)) (vs : List (JVal F)), okDfltFields fs = true → decodeFields ms fs = some vs →
    ReadFields fs vs
  | .nil, ms, vs, _, h => by
    rw [decodeFields, Option.some.injEq] at h
    subst h
    exact ⟨by rw [TypedFields]; trivial, fun _ => by rw [PlainFields]; trivial; all_goals simp⟩
  | .cons k kind t rest, ms, vs, hok, h => by
    rw [okDfltFields, Bool.and_eq_true, Bool.and_eq_true] at hok
    rw [decodeFields] at h
    split at h
    · cases h
    · rename_i vs' h'
      have ih := decodeFields_ok rest ms vs' hok.2.2 h'
      have hd : kind ≠ .required → Read t (dflt t : JVal F) := fun hk => ⟨typed_dflt t (by simpa [hk] using hok.1), read_dflt t⟩
      split at h
      · simp only [Option.some.injEq] at h
        subst h
        exact readFields_cons (hd (by decide)) ih fun _ => rfl
      · split at h
        · simp only [Option.some.injEq] at h
          subst h
          exact readFields_cons (hd (by decide)) ih fun _ => rfl
        · rw [Option.map_eq_some_iff] at h
          obtain ⟨w, h1, rfl⟩ := h
          exact readFields_cons (decode_ok t _ w hok.2.1 h1) ih fun c => by cases c
        · cases h
      · split at h
        · rw [Option.map_eq_some_iff] at h
          obtain ⟨w, h1, rfl⟩ := h
          exact readFields_cons (whenMissing_read h1) ih fun c => by cases c
        · rw [Option.map_eq_some_iff] at h
          obtain ⟨w, h1, rfl⟩ := h
          exact readFields_cons (decode_ok t _ w hok.2.1 h1) ih fun c => by cases c
        · cases h
theorem decodeSeq_ok : ∀ (fs : JFields) (js : List (Json F)) (vs : List (JVal F)), okDfltFields fs = true → decodeSeq fs js = some vs → ReadFields fs vs
  | .nil, [], vs, _, h => by
    rw [decodeSeq, Option.some.injEq] at h
    subst h
    exact ⟨by rw [TypedFields]; trivial, fun _ => by rw [PlainFields]; trivial; all_goals simp⟩
  | .nil, _ :: _, vs, _, h => by
    rw [decodeSeq] at h
    cases h
  | .cons k .skip t rest, js, vs, hok, h => by
    rw [okDfltFields, Bool.and_eq_true, Bool.and_eq_true] at hok
    rw [decodeSeq, Option.map_eq_some_iff] at h
    obtain ⟨w, h1, rfl⟩ := h
    exact readFields_cons ⟨typed_dflt t (by simpa using hok.1), read_dflt t⟩ (decodeSeq_ok rest js w hok.2.2 h1) fun _ => rfl
  | .cons k .default t rest, [], vs, hok, h => by
    rw [okDfltFields, Bool.and_eq_true, Bool.and_eq_true] at hok
    rw [decodeSeq, Option.map_eq_some_iff] at h
    obtain ⟨w, h1, rfl⟩ := h
    exact readFields_cons ⟨typed_dflt t (by simpa using hok.1), read_dflt t⟩ (decodeSeq_ok rest [] w hok.2.2 h1) fun _ => rfl
  | .cons k .required t rest, [], vs, hok, h => by
    rw [okDfltFields, Bool.and_eq_true, Bool.and_eq_true] at hok
    rw [decodeSeq] at h
    cases h
  | .cons k .required t rest, j :: js, vs, hok, h => by
    rw [okDfltFields, Bool.and_eq_true, Bool.and_eq_true] at hok
    rw [decodeSeq] at h
    · split at h
      · rename_i v ws h1 h2
        simp only [Option.some.injEq] at h
        subst h
        exact readFields_cons (decode_ok t j v hok.2.1 h1) (decodeSeq_ok rest js ws hok.2.2 h2) fun c => by cases c
      · cases h
    · simp
  | .cons k .default t rest, j :: js, vs, hok, h => by
    rw [okDfltFields, Bool.and_eq_true, Bool.and_eq_true] at hok
    rw [decodeSeq] at h
    · split at h
      · rename_i v ws h1 h2
        simp only [Option.some.injEq] at h
        subst h
        exact readFields_cons (decode_ok t j v hok.2.1 h1) (decodeSeq_ok rest js ws hok.2.2 h2) fun c => by cases c
      · cases h
    · simp
end

mutual
/-- No field is skipped. [proof device, no counterpart in /repo] -/
def noSkip : JTy → Bool
  | .opt t => noSkip t
  | .list t => noSkip t
  | .array _ t => noSkip t
  | .map _ t => noSkip t
  | .struct fs => noSkipFields fs
  | .enum vs => noSkipVariants vs
  | _ => true
/-- [proof device, no counterpart in /repo] -/
def noSkipFields : JFields → Bool
  | .nil => true
  | .cons _ kind t rest => decide (kind ≠ .skip) && (noSkip t && noSkipFields rest)
/-- [proof device, no counterpart in /repo] -/
def noSkipVariants : JVariants → Bool
  | .nil => true
  | .unit _ rest => noSkipVariants rest
  | .newtype _ t rest => noSkip t && noSkipVariants rest
  | .fields _ fs rest => noSkipFields fs && noSkipVariants rest
end

mutual
theorem plain_of_finite : ∀ (t : JTy) (v : JVal F), noSkip t = true → Typed t v → AllFinite t v → Plain t v
  | .string, .str _, _, _, _ => by rw [Plain]; trivial; all_goals simp
  | .bool, .bool _, _, _, _ => by rw [Plain]; trivial; all_goals simp
  | .date, .date _, _, _, _ => by rw [Plain]; trivial; all_goals simp
  | .uint _, .int _, _, _, _ => by rw [Plain]; trivial; all_goals simp
  | .sint _, .int _, _, _, _ => by rw [Plain]; trivial; all_goals simp
  | .array _ t, .list vs, hn, ht, h => by
    rw [noSkip] at hn
    rw [Typed] at ht
    rw [AllFinite] at h
    rw [Plain]
    exact fun v hv => plain_of_finite t v hn (ht.2 v hv) (h v hv)
  | .map _ t, .map es, hn, ht, h => by
    rw [noSkip] at hn
    rw [Typed] at ht
    rw [AllFinite] at h
    rw [Plain]
    exact fun e he => plain_of_finite t e.2 hn (ht.2 e he).2 (h e he)
  | .enum vs, .variant n v, hn, ht, h => by
    rw [noSkip] at hn
    rw [Typed] at ht
    rw [AllFinite] at h
    rw [Plain]
    exact plainVariant_of_finite vs n v hn ht h
  | .f32, .flt _, _, _, h => by rw [AllFinite] at h; rw [Plain]; exact h
  | .opt _, .none, _, _, _ => by rw [Plain]; trivial; all_goals simp
  | .opt t, .some v, hn, ht, h => by
    rw [noSkip] at hn
    rw [Typed] at ht
    rw [AllFinite] at h
    rw [Plain]
    exact plain_of_finite t v hn ht h
  | .list t, .list vs, hn, ht, h => by
    rw [noSkip] at hn
    rw [Typed] at ht
    rw [AllFinite] at h
    rw [Plain]
    exact fun v hv => plain_of_finite t v hn (ht v hv) (h v hv)
  | .struct fs, .struct vs, hn, ht, h => by
    rw [noSkip] at hn
    rw [Typed] at ht
    rw [AllFinite] at h
    rw [Plain]
    exact plainFields_of_finite fs vs hn ht h
theorem plainFields_of_finite : ∀ (fs : JFields) (vs : List (JVal F)), noSkipFields fs = true → TypedFields fs vs →
    AllFiniteFields fs vs → PlainFields fs vs
  | .nil, [], _, _, _ => by rw [PlainFields]; trivial; all_goals simp
  | .cons _ .skip _ _, _ :: _, hn, _, _ => by
    rw [noSkipFields] at hn
    simp at hn
  | .cons _ .required t rest, v :: vs, hn, ht, h => by
    rw [noSkipFields, Bool.and_eq_true, Bool.and_eq_true] at hn
    rw [TypedFields] at ht
    rw [AllFiniteFields] at h
    rw [PlainFields]
    exact ⟨plain_of_finite t v hn.2.1 ht.1 h.1, plainFields_of_finite rest vs hn.2.2 ht.2 h.2⟩
  | .cons _ .default t rest, v :: vs, hn, ht, h => by
    rw [noSkipFields, Bool.and_eq_true, Bool.and_eq_true] at hn
    rw [TypedFields] at ht
    rw [AllFiniteFields] at h
    rw [PlainFields]
    exact ⟨plain_of_finite t v hn.2.1 ht.1 h.1, plainFields_of_finite rest vs hn.2.2 ht.2 h.2⟩
theorem plainVariant_of_finite : ∀ (vs : JVariants) (n : String) (v : JVal F), noSkipVariants vs = true → TypedVariant vs n v →
    AllFiniteVariant vs n v → PlainVariant vs n v
  | .nil, n, v, _, ht, _ => by rw [TypedVariant] at ht; exact ht.elim
  | .unit k rest, n, v, hn, ht, h => by
    rw [noSkipVariants] at hn
    rw [TypedVariant] at ht
    rw [AllFiniteVariant] at h
    rw [PlainVariant]
    by_cases hk : k = n
    · rw [if_pos hk]; trivial
    · rw [if_neg hk] at ht h ⊢
      exact plainVariant_of_finite rest n v hn ht h
  | .newtype k t rest, n, v, hn, ht, h => by
    rw [noSkipVariants, Bool.and_eq_true] at hn
    rw [TypedVariant] at ht
    rw [AllFiniteVariant] at h
    rw [PlainVariant]
    by_cases hk : k = n
    · rw [if_pos hk] at ht h ⊢
      exact plain_of_finite t v hn.1 ht h
    · rw [if_neg hk] at ht h ⊢
      exact plainVariant_of_finite rest n v hn.2 ht h
  | .fields k fs rest, n, v, hn, ht, h => by
    rw [noSkipVariants, Bool.and_eq_true] at hn
    rw [TypedVariant] at ht
    rw [AllFiniteVariant] at h
    rw [PlainVariant]
    by_cases hk : k = n
    · rw [if_pos hk] at ht h ⊢
      obtain ⟨vs, rfl, ht⟩ := ht
      intro vs' he
      simp only [JVal.struct.injEq] at he
      subst he
      exact plainFields_of_finite fs _ hn.1 ht (h _ rfl)
    · rw [if_neg hk] at ht h ⊢
      exact plainVariant_of_finite rest n v hn.2 ht h
end

/-! ## The order of members -/

theorem membersOf_append (k : String) : ∀ (a b : List (String × Json F)), membersOf k (a ++ b) = membersOf k a ++ membersOf k b
  | [], _ => rfl
  | (k', j) :: a, b => by
    rw [List.cons_append, membersOf, membersOf, membersOf_append k a b]
    split <;> simp

theorem membersOf_length (k : String) : ∀ (ms : List (String × Json F)), (membersOf k ms).length = occurrences k ms
  | [] => rfl
  | (k', j) :: ms => by
    have ih := membersOf_length k ms
    unfold occurrences at ih ⊢
    rw [membersOf, List.filter_cons]
    by_cases h : k' = k
    · simp [h, ih]
    · simp [h, ih]

theorem JSameList_length : ∀ {l l' : List (Json F)}, JSameList l l' → l.length = l'.length
  | _, _, .nil => rfl
  | _, _, .cons _ h => by simp [JSameList_length h]

theorem allOf_same {f : Json F → Option (JVal F)} (h : ∀ j j', JSame j j' → f j = f j') :
    ∀ {js js' : List (Json F)}, JSameList js js' → allOf f js = allOf f js'
  | _, _, .nil => rfl
  | _, _, .cons hj hr => by rw [allOf, allOf, h _ _ hj, allOf_same h hr]

/-- The members of a name in two objects that are the same but for the order: none, the same one, or several. -/
theorem members_cases {l l' l'' : List (Json F)} (h : JSameList l l') (hp : l'.Perm l'') :
    (l = [] ∧ l'' = []) ∨ (∃ j j', l = [j] ∧ l'' = [j'] ∧ JSame j j') ∨ (2 ≤ l.length ∧ 2 ≤ l''.length) := by
  have hl := JSameList_length h
  have hl' := hp.length_eq
  cases h with
  | nil => exact .inl ⟨rfl, List.perm_nil.1 hp.symm⟩
  | cons hj hr =>
    cases hr with
    | nil => exact .inr (.inl ⟨_, _, rfl, List.perm_singleton.1 hp.symm, hj⟩)
    | cons hj' hr' =>
      refine .inr (.inr ⟨by simp, ?_⟩)
      rw [← hl', ← hl]
      simp

mutual
/-- No hash maps. [proof device, no counterpart in /repo] -/
def mapFree : JTy → Bool
  | .opt t => mapFree t
  | .list t => mapFree t
  | .array _ t => mapFree t
  | .map _ _ => false
  | .struct fs => mapFreeFields fs
  | .enum vs => mapFreeVariants vs
  | _ => true
/-- [proof device, no counterpart in /repo] -/
def mapFreeFields : JFields → Bool
  | .nil => true
  | .cons _ _ t rest => mapFree t && mapFreeFields rest
/-- [proof device, no counterpart in /repo] -/
def mapFreeVariants : JVariants → Bool
  | .nil => true
  | .unit _ rest => mapFreeVariants rest
  | .newtype _ t rest => mapFree t && mapFreeVariants rest
  | .fields _ fs rest => mapFreeFields fs && mapFreeVariants rest
end

theorem JSameMembers_length : ∀ {l l' : List (String × Json F)}, JSameMembers l l' → l.length = l'.length
  | _, _, .nil => rfl
  | _, _, .cons _ _ h => by simp [JSameMembers_length h]

theorem decode_enum_long (vs : JVariants) (ms : List (String × Json F)) (h : ms.length ≠ 1) : decode (.enum vs) (.obj ms) = none := by
  match ms with
  | [] => simp only [decode]
  | [_] => simp at h
  | _ :: _ :: _ => simp only [decode]

mutual
theorem decode_same : ∀ (t : JTy) (j j' : Json F), mapFree t = true → JSame j j' → decode t j = decode t j'
  | .bool, j, j', _, h => by cases h <;> simp only [decode]
  | .date, j, j', _, h => by cases h <;> simp only [decode]
  | .map _ _, j, j', hf, h => by rw [mapFree] at hf; cases hf
  | .array n t, j, j', hf, h => by
    rw [mapFree] at hf
    cases h
    case arr h => rw [decode, decode, allOf_same (fun j j' => decode_same t j j' hf) h, JSameList_length h]
    all_goals simp only [decode]
  | .enum vs, j, j', hf, h => by
    rw [mapFree] at hf
    cases h
    case obj ms ms' ms'' h hp =>
      by_cases hl : ms.length = 1
      · match ms, h with
        | [(n, j)], .cons _ hj .nil =>
          rw [List.perm_singleton.1 hp.symm, decode, decode]
          exact decodeTagged_same vs n _ _ hf hj
      · rw [decode_enum_long vs ms hl, decode_enum_long vs ms'' (by rw [← hp.length_eq, ← JSameMembers_length h]; exact hl)]
    all_goals simp only [decode]
  | .string, j, j', _, h => by cases h <;> simp only [decode]
  | .uint b, j, j', _, h => by cases h <;> simp only [decode]
  | .sint b, j, j', _, h => by cases h <;> simp only [decode]
  | .f32, j, j', _, h => by cases h <;> simp only [decode]
  | .opt t, j, j', hf, h => by
    rw [mapFree] at hf
    have ih := decode_same t j j' hf h
    rw [decode, decode]
    by_cases hj : j = .null
    · subst hj
      cases h
      rfl
    · rw [readOpt_some hj, readOpt_some (same_ne_null h hj), ih]
  | .list t, j, j', hf, h => by
    rw [mapFree] at hf
    cases h
    case arr h => rw [decode, decode, allOf_same (fun j j' => decode_same t j j' hf) h]
    all_goals simp only [decode]
  | .struct fs, j, j', hf, h => by
    rw [mapFree] at hf
    cases h
    case arr h => rw [decode, decode, decodeSeq_same fs _ _ hf h]
    case obj h hp => rw [decode, decode, decodeFields_same fs _ _ hf fun k => ⟨_, membersOf_same k h, membersOf_perm k hp⟩]
    all_goals simp only [decode]
theorem decodeFields_same : ∀ (fs : JFields) (ms ms' : List (String × Json F)), mapFreeFields fs = true →
    (∀ k, ∃ l, JSameList (membersOf k ms) l ∧ l.Perm (membersOf k ms')) → decodeFields ms fs = decodeFields ms' fs
  | .nil, _, _, _, _ => by rw [decodeFields, decodeFields]
  | .cons k kind t rest, ms, ms', hf, h => by
    rw [mapFreeFields, Bool.and_eq_true] at hf
    rw [decodeFields, decodeFields, decodeFields_same rest ms ms' hf.2 h]
    obtain ⟨l, h1, h2⟩ := h k
    have hc : ∀ (vs : List (JVal F)) (dv : Option (List (JVal F))),
        (match membersOf k ms with
          | [] => dv
          | [j] => (decode t j).map (· :: vs)
          | _ => none) =
        (match membersOf k ms' with
          | [] => dv
          | [j] => (decode t j).map (· :: vs)
          | _ => none) := by
      intro vs dv
      rcases members_cases h1 h2 with ⟨ha, hb⟩ | ⟨j, j', ha, hb, hj⟩ | ⟨ha, hb⟩
      · rw [ha, hb]
      · rw [ha, hb]
        simp only [decode_same t j j' hf.1 hj]
      · match membersOf k ms, membersOf k ms', ha, hb with
        | _ :: _ :: _, _ :: _ :: _, _, _ => rfl
    cases decodeFields ms' rest with
    | none => rfl
    | some vs =>
      cases kind with
      | skip => rfl
      | default => exact hc vs _
      | required => exact hc vs _
theorem decodeSeq_same : ∀ (fs : JFields) (js js' : List (Json F)), mapFreeFields fs = true → JSameList js js' → decodeSeq fs js = decodeSeq fs js'
  | .nil, _, _, _, h => by cases h <;> simp only [decodeSeq]
  | .cons _ .skip t rest, js, js', hf, h => by
    rw [mapFreeFields, Bool.and_eq_true] at hf
    rw [decodeSeq, decodeSeq, decodeSeq_same rest js js' hf.2 h]
  | .cons _ .default t rest, js, js', hf, h => by
    rw [mapFreeFields, Bool.and_eq_true] at hf
    cases h with
    | nil => rfl
    | cons hj hr =>
      rw [decodeSeq, decodeSeq, decode_same t _ _ hf.1 hj, decodeSeq_same rest _ _ hf.2 hr]
      all_goals simp
  | .cons _ .required t rest, js, js', hf, h => by
    rw [mapFreeFields, Bool.and_eq_true] at hf
    cases h with
    | nil => rfl
    | cons hj hr =>
      rw [decodeSeq, decodeSeq, decode_same t _ _ hf.1 hj, decodeSeq_same rest _ _ hf.2 hr]
      all_goals simp
theorem decodeTagged_same : ∀ (vs : JVariants) (n : String) (j j' : Json F), mapFreeVariants vs = true → JSame j j' →
    decodeTagged vs n j = decodeTagged vs n j'
  | .nil, _, _, _, _, _ => by rw [decodeTagged, decodeTagged]
  | .unit k rest, n, j, j', hf, h => by
    rw [mapFreeVariants] at hf
    rw [decodeTagged, decodeTagged, decodeTagged_same rest n j j' hf h]
    cases h <;> rfl
  | .newtype k t rest, n, j, j', hf, h => by
    rw [mapFreeVariants, Bool.and_eq_true] at hf
    rw [decodeTagged, decodeTagged, decodeTagged_same rest n j j' hf.2 h, decode_same t j j' hf.1 h]
  | .fields k fs rest, n, j, j', hf, h => by
    rw [mapFreeVariants, Bool.and_eq_true] at hf
    rw [decodeTagged, decodeTagged, decodeTagged_same rest n j j' hf.2 h]
    congr 1
    cases h
    case obj h hp =>
      simp only [readParts]
      rw [decodeFields_same fs _ _ hf.1 fun k => ⟨_, membersOf_same k h, membersOf_perm k hp⟩]
    case arr h =>
      simp only [readParts]
      rw [decodeSeq_same fs _ _ hf.1 h]
    all_goals rfl
end

theorem decodeFields_congr {ms ms' : List (String × Json F)} : ∀ (fs : JFields),
    (∀ k kind t, HasField k kind t fs → kind ≠ .skip → membersOf k ms = membersOf k ms' ∨
      (∃ u, t = .opt u ∧ ((membersOf k ms = [] ∧ membersOf k ms' = [.null]) ∨ (membersOf k ms = [.null] ∧ membersOf k ms' = [])))) →
    decodeFields ms fs = decodeFields ms' fs
  | .nil, _ => by rw [decodeFields, decodeFields]
  | .cons k kind t rest, h => by
    rw [decodeFields, decodeFields, decodeFields_congr rest fun k' kind' t' hf => h k' kind' t' (.inr hf)]
    cases decodeFields ms' rest with
    | none => rfl
    | some vs =>
      have hh := h k kind t (.inl ⟨rfl, rfl, rfl⟩)
      cases kind with
      | skip => rfl
      | default =>
        rcases hh (by decide) with he | ⟨u, rfl, ⟨h1, h2⟩ | ⟨h1, h2⟩⟩
        · rw [he]
        · rw [h1, h2]; simp only [decode, dflt, readOpt]; rfl
        · rw [h1, h2]; simp only [decode, dflt, readOpt]; rfl
      | required =>
        rcases hh (by decide) with he | ⟨u, rfl, ⟨h1, h2⟩ | ⟨h1, h2⟩⟩
        · rw [he]
        · rw [h1, h2]; simp only [decode, whenMissing, readOpt]
        · rw [h1, h2]; simp only [decode, whenMissing, readOpt]

theorem decodeFields_none {ms : List (String × Json F)} {k : String} {kind : Kind} {t : JTy} : ∀ (fs : JFields), HasField k kind t fs →
    (∀ rest, decodeFields ms (.cons k kind t rest) = none) → decodeFields ms fs = none
  | .nil, h, _ => h.elim
  | .cons k' kind' t' rest, h, hn => by
    rcases h with ⟨rfl, rfl, rfl⟩ | h
    · exact hn rest
    · rw [decodeFields, decodeFields_none rest h hn]


end S2.Json
