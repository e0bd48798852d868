import Verif.Spec.GenTagSpec
/-! # The payloads of enumeration values in generated modules (C149) -/
namespace S2.Generator
open S2

theorem Tags.get_append (t u : Tags) (k : Str) : (t ++ u : Tags).get k = (t.get k).or (Tags.get u k) := by
  unfold Tags.get
  rw [List.find?_append]
  cases List.find? (fun p => p.1 == k) t <;> rfl

/-- The first declaration of a key, if any. [proof device, no counterpart in /repo] -/
def firstOf (pascal : Str → Str) (ds : List Declared) (k : Str) : Option Str :=
  (ds.find? (fun d => tagKey pascal d.enum d.value == k)).map (fun d => rustName pascal d.struct)

theorem firstOf_append (pascal : Str → Str) (ds es : List Declared) (k : Str) :
    firstOf pascal (ds ++ es) k = (firstOf pascal ds k).or (firstOf pascal es k) := by
  unfold firstOf
  rw [List.find?_append]
  cases List.find? (fun d => tagKey pascal d.enum d.value == k) ds <;> rfl

/-- A stage of the pass: it succeeds on sound input, and extends the table by what is declared. [proof device, no counterpart in /repo] -/
def Stage (pascal : Str → Str) (f : Tags → Res Tags) (sound : Prop) (ds : List Declared) : Prop :=
  ∀ t, (sound → ∃ t', f t = .ok t') ∧ (¬ sound → f t = .panic) ∧
    ∀ t', f t = .ok t' → ∀ k, t'.get k = (t.get k).or (firstOf pascal ds k)

theorem Stage.nil (pascal : Str → Str) : Stage pascal (fun t => .ok t) True [] := by
  refine fun t => ⟨fun _ => ⟨t, rfl⟩, fun h => absurd trivial h, fun t' h k => ?_⟩
  cases h
  simp [firstOf]

theorem Stage.bind {pascal : Str → Str} {f g : Tags → Res Tags} {P Q : Prop} {ds es : List Declared}
    (hf : Stage pascal f P ds) (hg : Stage pascal g Q es) : Stage pascal (fun t => f t >>= g) (P ∧ Q) (ds ++ es) := by
  intro t
  obtain ⟨f1, f2, f3⟩ := hf t
  refine ⟨fun h => ?_, fun h => ?_, fun t' h k => ?_⟩
  · obtain ⟨t1, h1⟩ := f1 h.1
    obtain ⟨t2, h2⟩ := (hg t1).1 h.2
    exact ⟨t2, by show f t >>= g = _; rw [h1]; exact h2⟩
  · by_cases hp : P
    · obtain ⟨t1, h1⟩ := f1 hp
      show f t >>= g = _
      rw [h1]; exact (hg t1).2.1 (fun hq => h ⟨hp, hq⟩)
    · show f t >>= g = _
      rw [f2 hp]; rfl
  · obtain ⟨t1, h1, h2⟩ := Res.bind_eq_ok.1 h
    rw [(hg t1).2.2 t' h2 k, f3 t1 h1 k, firstOf_append, Option.or_assoc]

theorem Stage.congr {pascal : Str → Str} {f : Tags → Res Tags} {P Q : Prop} {ds es : List Declared}
    (h : Stage pascal f P ds) (hp : P ↔ Q) (he : ds = es) : Stage pascal f Q es := by
  subst he
  intro t
  obtain ⟨h1, h2, h3⟩ := h t
  exact ⟨fun q => h1 (hp.2 q), fun q => h2 (fun p => q (hp.1 p)), h3⟩

/-- What one constant declares. [proof device, no counterpart in /repo] -/
def constDeclared (name : Str) (c : TagConst) : List Declared :=
  (match c.enumName, c.value with
    | some e, some v => some ⟨name, e, v⟩
    | _, _ => none : Option Declared).toList

/-- A usable constant. [proof device, no counterpart in /repo] -/
def constSound (c : TagConst) : Prop := c.enumName.isSome = true ∧ c.isIdent = true ∧ c.value.isSome = true

theorem fillConst_stage (pascal : Str → Str) (name : Str) (c : TagConst) :
    Stage pascal (fun t => fillConst pascal name t c) (constSound c) (constDeclared name c) := by
  obtain ⟨e, i, v⟩ := c
  intro t
  cases e with
  | none =>
    refine ⟨fun h => by simp [constSound] at h, fun _ => rfl, fun t' h => by simp [fillConst] at h⟩
  | some e =>
    cases i with
    | false => refine ⟨fun h => by simp [constSound] at h, fun _ => rfl, fun t' h => by simp [fillConst] at h⟩
    | true =>
      cases v with
      | none => refine ⟨fun h => by simp [constSound] at h, fun _ => rfl, fun t' h => by simp [fillConst] at h⟩
      | some v =>
        refine ⟨fun _ => ?_, fun h => absurd ⟨rfl, rfl, rfl⟩ h, fun t' h k => ?_⟩
        · simp only [fillConst]
          cases Tags.get t (tagKey pascal e v) <;> simp
        · simp only [fillConst, if_true] at h
          have hd : firstOf pascal (constDeclared name ⟨some e, true, some v⟩) k =
              if tagKey pascal e v = k then some (rustName pascal name) else none := by
            unfold firstOf constDeclared
            simp only [Option.toList_some, List.find?_cons, List.find?_nil]
            by_cases hk : tagKey pascal e v = k
            · simp [hk]
            · have hb : (tagKey pascal e v == k) = false := by simpa using hk
              simp [hk, hb]
          rw [hd]
          cases hg : Tags.get t (tagKey pascal e v) with
          | some x =>
            rw [hg] at h
            simp only [Res.ok.injEq] at h
            subst h
            by_cases hk : tagKey pascal e v = k
            · rw [hk] at hg; rw [hg]; rfl
            · rw [if_neg hk, Option.or_none]
          | none =>
            rw [hg] at h
            simp only [Res.ok.injEq] at h
            subst h
            rw [Tags.get_append]
            congr 1
            unfold Tags.get
            simp only [List.find?_cons, List.find?_nil]
            by_cases hk : tagKey pascal e v = k
            · simp [hk]
            · have hb : (tagKey pascal e v == k) = false := by simpa using hk
              simp [hk, hb]

theorem fillConsts_stage (pascal : Str → Str) (name : Str) : ∀ (cs : List TagConst),
    Stage pascal (fun t => fillConsts pascal name t cs) (∀ c ∈ cs, constSound c) (cs.flatMap (constDeclared name))
  | [] => (Stage.nil pascal).congr (by simp) rfl
  | c :: cs => ((fillConst_stage pascal name c).bind (fillConsts_stage pascal name cs)).congr (by simp) (by simp)

theorem declared_consts (d : TagDecl) (h : d.isStruct = true) : d.declared = d.consts.flatMap (constDeclared d.name) := by
  unfold TagDecl.declared
  rw [if_pos h]
  induction d.consts with
  | nil => rfl
  | cons c cs ih =>
    rw [List.filterMap_cons, List.flatMap_cons, ← ih]
    obtain ⟨e, i, v⟩ := c
    cases e with
    | none => rfl
    | some e =>
      cases v with
      | none => rfl
      | some v => rfl

theorem fillDecl_stage (pascal : Str → Str) (d : TagDecl) :
    Stage pascal (fun t => fillDecl pascal t d) d.sound d.declared := by
  by_cases h : d.isStruct = true
  · have e : (fun t => fillDecl pascal t d) = fun t => fillConsts pascal d.name t d.consts := by
      funext t; unfold fillDecl; rw [if_pos h]
    rw [e]
    exact (fillConsts_stage pascal d.name d.consts).congr
      ⟨fun hc _ => hc, fun hc => hc h⟩ (declared_consts d h).symm
  · have e : (fun t => fillDecl pascal t d) = fun t => .ok t := by
      funext t; unfold fillDecl; rw [if_neg h]
    rw [e]
    exact (Stage.nil pascal).congr ⟨fun _ hs => absurd hs h, fun _ => trivial⟩ (by unfold TagDecl.declared; rw [if_neg h])

theorem fillDecls_stage (pascal : Str → Str) : ∀ (ds : List TagDecl),
    Stage pascal (fun t => fillDecls pascal t ds) (∀ d ∈ ds, d.sound) (ds.flatMap TagDecl.declared)
  | [] => (Stage.nil pascal).congr (by simp) rfl
  | d :: ds => ((fillDecl_stage pascal d).bind (fillDecls_stage pascal ds)).congr (by simp) (by simp)

theorem fillSubs_stage (pascal : Str → Str) : ∀ (ss : List SubMod),
    Stage pascal (fun t => fillSubs pascal t ss) (∀ s ∈ ss, s.sound) (ss.flatMap SubMod.declared)
  | [] => (Stage.nil pascal).congr (by simp) rfl
  | .group ds :: ss => ((fillDecls_stage pascal ds).bind (fillSubs_stage pascal ss)).congr
      (by simp [SubMod.sound]) (by simp [SubMod.declared])
  | .single d :: ss => ((fillDecl_stage pascal d).bind (fillSubs_stage pascal ss)).congr
      (by simp [SubMod.sound]) (by simp [SubMod.declared])

theorem collectTags_stage (pascal : Str → Str) : ∀ (ms : List TopMod),
    Stage pascal (fun t => collectTags pascal t ms) (soundTags ms) (declared ms)
  | [] => (Stage.nil pascal).congr (by simp [soundTags]) rfl
  | m :: ms => by
    have ih := collectTags_stage pascal ms
    by_cases hn : m.name = str "NNet.Replay" ∨ m.name = str "NNet.Game"
    · cases hd : m.decls with
      | none =>
        have e : (fun t => collectTags pascal t (m :: ms)) = fun _ => .panic := by
          funext t; simp only [collectTags, if_pos hn, hd]
        rw [e]
        refine fun t => ⟨fun h => ?_, fun _ => rfl, fun t' h => by cases h⟩
        obtain ⟨subs, h1, _⟩ := h m (by simp) hn
        rw [hd] at h1; cases h1
      | some subs =>
        have e : (fun t => collectTags pascal t (m :: ms)) = fun t => fillSubs pascal t subs >>= fun t => collectTags pascal t ms := by
          funext t; simp only [collectTags, if_pos hn, hd]
        rw [e]
        refine ((fillSubs_stage pascal subs).bind ih).congr ⟨fun h m' hm' hn' => ?_, fun h => ⟨?_, fun m' hm' => h m' (by simp [hm'])⟩⟩ ?_
        · rcases List.mem_cons.1 hm' with rfl | hm'
          · exact ⟨subs, hd, h.1⟩
          · exact h.2 m' hm' hn'
        · obtain ⟨subs', h1, h2⟩ := h m (by simp) hn
          rw [hd] at h1; cases h1; exact h2
        · unfold declared
          rw [List.filter_cons_of_pos (by simpa using hn), List.flatMap_cons, hd]
          rfl
    · have e : (fun t => collectTags pascal t (m :: ms)) = fun t => collectTags pascal t ms := by
        funext t; simp only [collectTags, if_neg hn]
      rw [e]
      refine ih.congr ⟨fun h m' hm' hn' => ?_, fun h m' hm' => h m' (by simp [hm'])⟩ ?_
      · rcases List.mem_cons.1 hm' with rfl | hm'
        · exact absurd hn' hn
        · exact h m' hm' hn'
      · unfold declared
        rw [List.filter_cons_of_neg (by simpa using hn)]

/-! ## Names -/

theorem isPrefixOf_iff (a b : Str) : a.isPrefixOf b = true ↔ ∃ r, b = a ++ r := by
  rw [List.isPrefixOf_iff_prefix]
  exact ⟨fun ⟨r, h⟩ => ⟨r, h.symm⟩, fun ⟨r, h⟩ => ⟨r, h.symm⟩⟩

theorem cutOut_skip (pat : Str) : ∀ (a s : Str), cutOut pat a.length (a ++ s) = cutOut pat 0 s
  | [], s => rfl
  | x :: a, s => by
    show cutOut pat (a.length + 1) (x :: (a ++ s)) = _
    rw [cutOut]; exact cutOut_skip pat a s

theorem cutOut_none (pat : Str) : ∀ (s : Str), ¬ (∃ a b, s = a ++ (pat ++ b)) → cutOut pat 0 s = s
  | [], _ => rfl
  | c :: t, h => by
    rw [cutOut, if_neg, cutOut_none pat t]
    · rintro ⟨a, b, e⟩; exact h ⟨c :: a, b, by rw [e]; rfl⟩
    · rintro ⟨_, hp⟩
      obtain ⟨r, hr⟩ := (isPrefixOf_iff _ _).1 hp
      exact h ⟨[], r, hr⟩

theorem cutOut_front (pat s : Str) (hp : pat ≠ []) (h : ¬ ∃ a b, s = a ++ (pat ++ b)) : cutOut pat 0 (pat ++ s) = s := by
  obtain ⟨c, t, rfl⟩ := List.exists_cons_of_ne_nil hp
  show cutOut (c :: t) 0 (c :: (t ++ s)) = s
  rw [cutOut, if_pos ⟨hp, (isPrefixOf_iff _ _).2 ⟨s, rfl⟩⟩]
  show cutOut (c :: t) t.length (t ++ s) = s
  rw [cutOut_skip, cutOut_none _ _ h]

theorem rustName_dot (pascal : Str → Str) (v : Str) : rustName pascal (str "." ++ v) = rustName pascal v := by
  have e : cutOut (str ".") 0 (str "." ++ v) = cutOut (str ".") 0 v := by
    show cutOut [46] 0 (46 :: v) = cutOut [46] 0 v
    rw [cutOut, if_pos ⟨by decide, (isPrefixOf_iff _ _).2 ⟨v, rfl⟩⟩]
    rfl
  unfold rustName
  rw [e]

/-- The key under which the constant `E.V` of type `E` is stored is the one looked up for the value `V` of `E`. -/
theorem tagKey_qualified (pascal : Str → Str) (e v : Str) (he : e ≠ []) (h : ¬ ∃ a b, str "." ++ v = a ++ (e ++ b)) :
    tagKey pascal e (e ++ (str "." ++ v)) = rustName pascal e ++ (str "::" ++ rustName pascal v) := by
  unfold tagKey
  rw [cutOut_front e _ he h, rustName_dot]

/-! ## The property -/

/-- The pass ends with a table exactly if every constant of a struct in the two modules names an enumeration and a value. -/
theorem C149_total (pascal : Str → Str) (ms : List TopMod) :
    ((∃ t, collectTags pascal [] ms = .ok t) ↔ soundTags ms) ∧
      (collectTags pascal [] ms = .panic ↔ ¬ soundTags ms) := by
  obtain ⟨h1, h2, _⟩ := collectTags_stage pascal ms []
  by_cases h : soundTags ms
  · obtain ⟨t, ht⟩ := h1 h
    dsimp only at ht
    refine ⟨⟨fun _ => h, fun _ => ⟨t, ht⟩⟩, ⟨fun hp => ?_, fun hn => absurd h hn⟩⟩
    rw [ht] at hp; cases hp
  · have hp := h2 h
    dsimp only at hp
    refine ⟨⟨fun ⟨t, ht⟩ => ?_, fun hs => absurd hs h⟩, ⟨fun _ => h, fun _ => hp⟩⟩
    rw [hp] at ht; cases ht

/-- The payload of the value `V` of `E`: the first struct of the description (in the two modules) with a constant of the same name
after conversion; none if there is no such struct. -/
theorem C149_first (pascal : Str → Str) (ms : List TopMod) (t : Tags) (h : collectTags pascal [] ms = .ok t) (e v : Str) :
    payloadOf pascal t e v =
      ((declared ms).find? (fun d => decide (tagKey pascal d.enum d.value = rustName pascal e ++ (str "::" ++ rustName pascal v)))).map
        (fun d => rustName pascal d.struct) := by
  have := (collectTags_stage pascal ms []).2.2 t h (rustName pascal e ++ (str "::" ++ rustName pascal v))
  unfold payloadOf
  rw [this, show Tags.get [] (rustName pascal e ++ (str "::" ++ rustName pascal v)) = none from rfl, Option.none_or]
  unfold firstOf
  congr 2
  funext d
  rw [Bool.eq_iff_iff, beq_iff_eq, decide_eq_true_iff]

/-- If no two different structs of the description have a constant of the same converted name, a struct with the constant `E.V` of type `E`
is the payload of the value `V` of `E`.  Missing: descriptions where they have (`C149_duplicate_refuted`, `C149_names_refuted`), and structs of other
modules (`C149_other_module_refuted`). -/
theorem C149_payload_partial (pascal : Str → Str) (ms : List TopMod) (t : Tags) (h : collectTags pascal [] ms = .ok t)
    (hu : ∀ d ∈ declared ms, ∀ d' ∈ declared ms, tagKey pascal d.enum d.value = tagKey pascal d'.enum d'.value → d.struct = d'.struct)
    (s e v : Str) (he : e ≠ []) (hv : ¬ ∃ a b, str "." ++ v = a ++ (e ++ b)) (hd : ⟨s, e, e ++ (str "." ++ v)⟩ ∈ declared ms) :
    payloadOf pascal t e v = some (rustName pascal s) := by
  rw [C149_first pascal ms t h, ← tagKey_qualified pascal e v he hv]
  cases hf : (declared ms).find? (fun d => decide (tagKey pascal d.enum d.value = tagKey pascal e (e ++ (str "." ++ v)))) with
  | none =>
    have := List.find?_eq_none.1 hf _ hd
    simp at this
  | some d =>
    have hk := List.find?_some hf
    have hm := List.mem_of_find?_eq_some hf
    show some (rustName pascal d.struct) = _
    rw [hu d hm _ hd (by simpa using hk)]

/-- A value has a payload only if a struct of the two modules has a constant of that name. -/
theorem C149_only_declared (pascal : Str → Str) (ms : List TopMod) (t : Tags) (h : collectTags pascal [] ms = .ok t) (e v n : Str)
    (hp : payloadOf pascal t e v = some n) :
    ∃ d ∈ declared ms, n = rustName pascal d.struct ∧
      tagKey pascal d.enum d.value = rustName pascal e ++ (str "::" ++ rustName pascal v) := by
  rw [C149_first pascal ms t h] at hp
  obtain ⟨d, hf, rfl⟩ := Option.map_eq_some_iff.1 hp
  exact ⟨d, List.mem_of_find?_eq_some hf, rfl, by simpa using List.find?_some hf⟩

/-! ## Examples -/

/-- A struct with one constant. [example] -/
def tagged (name enum value : String) : TagDecl :=
  ⟨str name, true, [⟨some (str enum), true, some (str value)⟩]⟩

/-- Two events of the game and one of the tracker. [example] -/
def tagMods : List TopMod :=
  [⟨str "NNet.Game", some [.single (tagged "NNet.Game.SCamera" "NNet.Game.EEventId" "NNet.Game.EEventId.e_camera"),
      .single (tagged "NNet.Game.SCmd" "NNet.Game.EEventId" "NNet.Game.EEventId.e_cmd")]⟩,
   ⟨str "NNet.Replay", some [.group [tagged "NNet.Replay.Tracker.SBorn" "NNet.Replay.Tracker.EEventId" "NNet.Replay.Tracker.EEventId.e_born"]]⟩]

example : (match collectTags id [] tagMods with
    | .ok t => some (payloadOf id t (str "NNet.Game.EEventId") (str "e_cmd"),
        payloadOf id t (str "NNet.Replay.Tracker.EEventId") (str "e_born"), payloadOf id t (str "NNet.Game.EEventId") (str "e_born"))
    | _ => none) = some (some (str "GameSCmd"), some (str "ReplayTrackerSBorn"), none) := by decide +kernel

example : (∀ d ∈ declared tagMods, ∀ d' ∈ declared tagMods,
      tagKey id d.enum d.value = tagKey id d'.enum d'.value → d.struct = d'.struct) ∧
    (str "NNet.Game.EEventId.e_cmd") = str "NNet.Game.EEventId" ++ (str "." ++ str "e_cmd") := by decide +kernel

/-- Two structs with the same constant: the later one is the payload of nothing. -/
theorem C149_duplicate_refuted :
    ∃ ms t, collectTags id [] ms = .ok t ∧
      (declared ms).map (fun d => (d.struct, d.value)) =
        [(str "NNet.Game.SCmd", str "NNet.Game.EEventId.e_cmd"), (str "NNet.Game.SCmd2", str "NNet.Game.EEventId.e_cmd")] ∧
      t = [(str "GameEEventId::e_cmd", str "GameSCmd")] :=
  ⟨[⟨str "NNet.Game", some [.single (tagged "NNet.Game.SCmd" "NNet.Game.EEventId" "NNet.Game.EEventId.e_cmd"),
      .single (tagged "NNet.Game.SCmd2" "NNet.Game.EEventId" "NNet.Game.EEventId.e_cmd")]⟩], _, rfl, by decide +kernel, by decide +kernel⟩

/-- Two enumerations whose names differ only by a dot share their payloads. -/
theorem C149_names_refuted :
    ∃ ms t, collectTags id [] ms = .ok t ∧
      (declared ms).map (fun d => (d.struct, d.enum)) =
        [(str "NNet.Game.SCmd", str "NNet.Game.Menu.EId"), (str "NNet.Game.SOpen", str "NNet.Game.MenuEId")] ∧
      payloadOf id t (str "NNet.Game.MenuEId") (str "e_open") = some (str "GameSCmd") :=
  ⟨[⟨str "NNet.Game", some [.single (tagged "NNet.Game.SCmd" "NNet.Game.Menu.EId" "NNet.Game.Menu.EId.e_open"),
      .single (tagged "NNet.Game.SOpen" "NNet.Game.MenuEId" "NNet.Game.MenuEId.e_open")]⟩], _, rfl, by decide +kernel, by decide +kernel⟩

/-- A struct declared in any other module, or directly in the root, is the payload of nothing. -/
theorem C149_other_module_refuted (pascal : Str → Str) :
    collectTags pascal [] [⟨str "NNet.SCmd", none⟩, ⟨str "NNet.Lobby", some [.single (tagged "NNet.Lobby.SCmd" "NNet.Lobby.EId" "NNet.Lobby.EId.e_cmd")]⟩] =
      .ok [] := by
  have h1 : ¬ (str "NNet.SCmd" = str "NNet.Replay" ∨ str "NNet.SCmd" = str "NNet.Game") := by decide
  have h2 : ¬ (str "NNet.Lobby" = str "NNet.Replay" ∨ str "NNet.Lobby" = str "NNet.Game") := by decide
  simp only [collectTags, if_neg h1, if_neg h2]

end S2.Generator
