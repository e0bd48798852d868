import Verif.Misc.JsonLemmas
import Verif.Gen.JsonSchema
import Verif.Gen.BalanceSample
import Verif.Props.BalanceFiles
/-!
# C150, C151: balance units as JSON
-/
namespace S2.Json

variable {F : Prims}

theorem okTy_unit : okTy jVersionedBalanceUnit = true := by decide +kernel

theorem okDflt_unit : okDflt jVersionedBalanceUnit = true := by decide +kernel

/-! ## C150 -/

/-- A balance unit, as a value of the struct (/repo/src/game_events/ability/balance_data/mod.rs:485-524). -/
abbrev IsUnit (u : JVal F) : Prop := Typed jVersionedBalanceUnit u

/-- The tree written for a unit (/repo/src/game_events/ability/balance_data/json_handler.rs:33). -/
abbrev unitTree (u : JVal F) : Json F := encode jVersionedBalanceUnit u

/-- The unit read from a tree (/repo/src/game_events/ability/balance_data/json_handler.rs:77-78, 117). -/
abbrev readUnit (j : Json F) : Option (JVal F) := decode jVersionedBalanceUnit j

/-- A unit whose numbers are finite and whose `version` is 0 is read back unchanged from the tree written for it, in
whatever order the members of the objects are stored. -/
theorem C150_round_trip_partial (hF : Exact F) (u : JVal F) (hu : IsUnit u) (hp : Plain jVersionedBalanceUnit u) (file : Json F)
    (hs : JSame (unitTree u) file) : readUnit file = some u :=
  read_back hF _ u file okTy_unit hu hp hs

/-- Exactly these units are read back unchanged. -/
theorem C150_exactly (hF : Exact F) (u : JVal F) (hu : IsUnit u) :
    readUnit (unitTree u) = some u ↔ Plain jVersionedBalanceUnit u :=
  ⟨plain_of _ u okTy_unit hu, fun h => C150_round_trip_partial hF u hu h _ (JSame_refl _)⟩

/-- A unit that was read from a JSON file, whatever the file, is a unit with `version` 0: it is written and read back
unchanged if its numbers are finite. -/
theorem C150_reread (hF : Exact F) (source : Json F) (u : JVal F) (h : readUnit source = some u)
    (hf : AllFinite jVersionedBalanceUnit u) (file : Json F) (hs : JSame (unitTree u) file) :
    IsUnit u ∧ readUnit file = some u :=
  have hr := decode_ok _ source u okDflt_unit h
  ⟨hr.1, C150_round_trip_partial hF u hr.1 (hr.2 hf) file hs⟩

/-- A whole table of such units, written to files and packed into the binary, is read back: `print` and `scan` are
serde_json's printer and scanner, which may reorder the members of objects. -/
theorem C150_assets_partial (hF : Exact F) (print : Json F → List UInt8) (scan : List UInt8 → Option (Json F))
    (hps : ∀ j, ∃ j', scan (print j) = some j' ∧ JSame j j')
    (table : List ((Nat × Str) × JVal F)) (hf : Functional table)
    (hu : ∀ e ∈ table, IsUnit e.2 ∧ Plain jVersionedBalanceUnit e.2)
    (hk : ∀ e ∈ table, e.1.1 < 2 ^ 32 ∧ (47 : UInt8) ∉ e.1.2 ∧ ¬ str ".json" <:+ e.1.2) :
    (∀ dirs, Listing (writeJson (fun u => print (unitTree u)) table) dirs →
      ∃ t, readJsonDir (fun b => (scan b).bind readUnit) dirs [] = .ok t ∧ SameTable t table) ∧
    (∀ assets : List (Str × List UInt8),
      (∀ f c, (f, c) ∈ assets → assetKey f ≠ none → ∃ v n u, ((v, n), u) ∈ table ∧ f = assetPath v n ∧ c = print (unitTree u)) →
      (∀ v n u, ((v, n), u) ∈ table → (assetPath v n, print (unitTree u)) ∈ assets) →
      ∃ t, readAssets (fun b => (scan b).bind readUnit) assets [] = .ok t ∧ SameTable t table) := by
  have hj : ∀ e ∈ table, (fun b => (scan b).bind readUnit) ((fun u => print (unitTree u)) e.2) = some e.2 := by
    intro e he
    obtain ⟨j', h1, h2⟩ := hps (unitTree e.2)
    show (scan (print (unitTree e.2))).bind readUnit = some e.2
    rw [h1]
    exact C150_round_trip_partial hF e.2 (hu e he).1 (hu e he).2 j' h2
  exact ⟨fun dirs hl => C115_round_trip_partial _ _ table hj hf hk dirs hl,
    fun assets ha hb => C62_assets_round_trip _ _ table hj hf hk assets ha hb⟩

/-- Rational numbers in place of floating point numbers. -/
theorem exact_rat : Exact ratPrims := ⟨fun _ _ h => h.symm, fun _ => rfl⟩

/-- The fields of a unit after `id` and `version`. [proof device, no counterpart in /repo] -/
def unitRest : JFields :=
  match jVersionedBalanceUnit with
  | .struct (.cons _ _ _ (.cons _ _ _ rest)) => rest
  | _ => .nil

theorem unit_shape : jVersionedBalanceUnit = .struct (.cons "@id" .required .string (.cons "version" .skip (.uint 32) unitRest)) := rfl

/-- The unit with its `version` set to 0. -/
def withVersion0 : JVal F → JVal F
  | .struct (ident :: _ :: rest) => .struct (ident :: .int 0 :: rest)
  | v => v

/-- Whatever its `version`, a unit whose numbers are finite is read back with `version` 0 and everything else unchanged. -/
theorem C150_version_lost (hF : Exact F) (u : JVal F) (hu : IsUnit u) (hf : AllFinite jVersionedBalanceUnit u) (file : Json F)
    (hs : JSame (unitTree u) file) : readUnit file = some (withVersion0 u) := by
  have hok := okTy_unit
  have hn : noSkipFields unitRest = true := by decide +kernel
  unfold IsUnit at hu
  unfold unitTree at hs
  unfold readUnit
  rw [unit_shape] at *
  match u, hu with
  | .struct (a :: b :: vs), hu =>
    rw [Typed, TypedFields, TypedFields] at hu
    rw [AllFinite, AllFiniteFields, AllFiniteFields] at hf
    rw [withVersion0]
    refine read_back hF _ _ file hok ?_ ?_ ?_
    · rw [Typed, TypedFields, TypedFields]
      exact ⟨hu.1, typed_dflt (.uint 32) rfl, hu.2.2⟩
    · rw [Plain, PlainFields, PlainFields]
      refine ⟨plain_of_finite _ a rfl hu.1 hf.1, ?_, plainFields_of_finite _ vs hn hu.2.2 hf.2⟩
      rw [dflt]
    · rw [encode, encodeFields_cons (by decide), encodeFields] at hs ⊢
      exact hs
  | .struct [], hu => rw [Typed, TypedFields] at hu; exact hu.elim; all_goals simp
  | .struct [_], hu => rw [Typed, TypedFields, TypedFields] at hu; exact hu.2.elim; all_goals simp

/-- A small unit: its version, and the regeneration rate of its shields (`none`: not a finite number). -/
def demoUnit (version : Int) (regen : Option Rat) : JVal ratPrims :=
  .struct [.str "Zealot", .int version, .struct [.str "1", .str "2", .none, .some (.str "Prot"), .none, .none, .some (.int 7), .none],
    .struct [.int 100, .int 100, .none], .some (.struct [.int 50, .int 50, .flt regen, .some (.flt (some 10))]),
    .struct [.int 1, .int 1], .struct [.int 0, .int 3], .struct [.list [.struct [.str "Gateway", .str "3"]]], .none, .none, .none,
    .struct [.none, .none], .struct [.some (.flt (some (1/2))), .none, .none, .none, .none, .none, .none, .none, .none, .none], .none,
    .struct [.list [.struct [.some (.str "Light")]]], .struct [.list []], .struct [.list []], .struct [.list []],
    .struct [.list [.struct [.str "stop", .some (.int 41), .list []]]], .struct [.list []], .struct [.list []], .struct [.list []]]

theorem demoUnit_typed (version : Int) (h : 0 ≤ version ∧ version < 2 ^ 32) (regen : Option Rat) : IsUnit (demoUnit version regen) := by
  unfold IsUnit demoUnit
  simp [Typed, TypedFields, jVersionedBalanceUnit, jMeta, jLife, jShields, jArmor, jShieldArmor, jRequiresTag, jUnitShortRef, jScore,
    jMisc, jAttributesTag, jAttribute, jStrengthsTag, jWeaknessesTag, jWeaponsTag, jAbilitiesTag, jAbility, jBuildsTag, jTrainsTag,
    jUpgradesTag]
  exact h

theorem demoUnit_finite (version : Int) (q : Rat) : AllFinite jVersionedBalanceUnit (demoUnit version (some q)) := by
  unfold demoUnit
  simp [AllFinite, AllFiniteFields, jVersionedBalanceUnit, jMeta, jLife, jShields, jArmor, jShieldArmor, jRequiresTag, jUnitShortRef, jScore,
    jMisc, jAttributesTag, jAttribute, jStrengthsTag, jWeaknessesTag, jWeaponsTag, jAbilitiesTag, jAbility, jBuildsTag, jTrainsTag,
    jUpgradesTag, ratPrims]

/-- A unit of version 95841 comes back as a unit of version 0. -/
theorem C150_version_refuted : ∃ (F : Prims) (u u' : JVal F), Exact F ∧ IsUnit u ∧ AllFinite jVersionedBalanceUnit u ∧
    readUnit (unitTree u) = some u' ∧ u' ≠ u := by
  refine ⟨ratPrims, demoUnit 95841 (some 2), demoUnit 0 (some 2), exact_rat, demoUnit_typed _ (by decide) _, demoUnit_finite _ _,
    C150_version_lost exact_rat _ (demoUnit_typed _ (by decide) _) (demoUnit_finite _ _) _ (JSame_refl _), ?_⟩
  intro c
  simp [demoUnit] at c

/-- A unit whose shields regenerate at an infinite rate is written, and what is written cannot be read: the reader then
gives up the whole table (C115). -/
theorem C150_nonfinite_refuted : ∃ (F : Prims) (u : JVal F), Exact F ∧ IsUnit u ∧ readUnit (unitTree u) = none :=
  ⟨ratPrims, demoUnit 0 none, exact_rat, demoUnit_typed _ (by decide) _, by rfl⟩

/-- The demo unit of version 0 meets the conditions of the round trip. -/
example : IsUnit (demoUnit 0 (some 2)) ∧ Plain jVersionedBalanceUnit (demoUnit 0 (some 2)) ∧
    readUnit (unitTree (demoUnit 0 (some 2))) = some (demoUnit 0 (some 2)) := by
  have h := C150_version_lost exact_rat (demoUnit 0 (some 2)) (demoUnit_typed _ (by decide) _) (demoUnit_finite _ _) _ (JSame_refl _)
  exact ⟨demoUnit_typed _ (by decide) _, (C150_exactly exact_rat _ (demoUnit_typed _ (by decide) _)).1 h, h⟩

/-- A shipped file is read: Tempest, with four abilities and shields that regenerate 2 per second after 10 seconds. -/
example : (match readUnit tempestFile with
    | some (.struct [.str i, .int 0, _, _, .some (.struct [.int 100, .int 100, .flt rate, .some (.flt delay)]),
        _, _, _, _, _, _, _, _, _, _, _, _, _, .struct [.list abilities], _, _, _]) =>
      let rate : Option Rat := rate
      let delay : Option Rat := delay
      decide (i = "Tempest") && decide (abilities.length = 4) && decide (rate = some 2) && decide (delay = some 10)
    | _ => false) = true := by decide +kernel

/-! ## C151: which files are accepted -/

/-- The order of the members of the objects in a file, at any depth, does not matter. -/
theorem C151_order (file file' : Json F) (h : JSame file file') : readUnit file = readUnit file' :=
  decode_same _ file file' (by decide +kernel) h

/-- A member whose name is not that of a serialized field is ignored, whatever is in it. -/
theorem C151_unknown_ignored (fs : JFields) (a b : List (String × Json F)) (k : String) (j : Json F)
    (hk : ∀ kind t, HasField k kind t fs → kind = .skip) :
    decode (.struct fs) (.obj (a ++ (k, j) :: b)) = decode (.struct fs) (.obj (a ++ b)) := by
  rw [decode, decode, decodeFields_congr (ms' := a ++ b) fs]
  intro k' kind t hf hs
  left
  have hne : k ≠ k' := by
    rintro rfl
    exact hs (hk kind t hf)
  rw [membersOf_append, membersOf_append, membersOf, if_neg hne]

/-- An optional element that is absent is read as one that is `null`. -/
theorem C151_absent_is_null (fs : JFields) (a b : List (String × Json F)) (k : String)
    (hk : ∀ kind t, HasField k kind t fs → ∃ u, t = .opt u) (ha : occurrences k (a ++ b) = 0) :
    decode (.struct fs) (.obj (a ++ (k, .null) :: b)) = decode (.struct fs) (.obj (a ++ b)) := by
  rw [decode, decode, decodeFields_congr (ms' := a ++ b) fs]
  intro k' kind t hf hs
  rw [← membersOf_length, List.length_eq_zero_iff, membersOf_append, List.append_eq_nil_iff] at ha
  rw [membersOf_append, membersOf_append, membersOf]
  by_cases hne : k = k'
  · subst hne
    obtain ⟨u, hu⟩ := hk kind t hf
    refine .inr ⟨u, hu, .inr ?_⟩
    simp [ha.1, ha.2]
  · rw [if_neg hne]
    exact .inl rfl

/-- A file that gives a field twice is not read. -/
theorem C151_twice_rejected (fs : JFields) (ms : List (String × Json F)) (k : String) (kind : Kind) (t : JTy)
    (hf : HasField k kind t fs) (hk : kind ≠ .skip) (h2 : 2 ≤ occurrences k ms) : decode (.struct fs) (.obj ms) = none := by
  rw [decode, decodeFields_none fs hf]
  · rfl
  · intro rest
    rw [← membersOf_length] at h2
    rw [decodeFields]
    match hm : membersOf k ms, h2 with
    | x :: y :: l, _ =>
      cases decodeFields ms rest with
      | none => rfl
      | some vs =>
        cases kind with
        | skip => exact absurd rfl hk
        | default => rfl
        | required => rfl

/-- A file without a field that is neither optional nor has a default is not read. -/
theorem C151_missing_rejected (fs : JFields) (ms : List (String × Json F)) (k : String) (t : JTy)
    (hf : HasField k .required t fs) (ht : ∀ u, t ≠ .opt u) (h0 : occurrences k ms = 0) : decode (.struct fs) (.obj ms) = none := by
  rw [decode, decodeFields_none fs hf]
  · rfl
  · intro rest
    rw [← membersOf_length, List.length_eq_zero_iff] at h0
    rw [decodeFields, h0]
    cases decodeFields ms rest with
    | none => rfl
    | some vs =>
      cases t <;> first | rfl | exact absurd rfl (ht _)

/-- An absent element with `#[serde(default)]` is read as its default value. -/
theorem C151_absent_default (fs : JFields) (a b : List (String × Json F)) (k : String) (t : JTy) (d : Json F)
    (hk : ∀ kind t', HasField k kind t' fs → kind = .default ∧ t' = t) (hd : decode t d = some (dflt t))
    (ha : occurrences k (a ++ b) = 0) :
    decode (.struct fs) (.obj (a ++ (k, d) :: b)) = decode (.struct fs) (.obj (a ++ b)) := by
  rw [← membersOf_length, List.length_eq_zero_iff, membersOf_append, List.append_eq_nil_iff] at ha
  have hk1 : membersOf k (a ++ (k, d) :: b) = [d] := by
    rw [membersOf_append, membersOf, if_pos rfl, ha.1, ha.2]
    rfl
  have hk0 : membersOf k (a ++ b) = [] := by
    rw [membersOf_append, ha.1, ha.2]
    rfl
  have hko : ∀ k', k ≠ k' → membersOf k' (a ++ (k, d) :: b) = membersOf k' (a ++ b) := by
    intro k' hne
    rw [membersOf_append, membersOf_append, membersOf, if_neg hne]
  have key : ∀ fs : JFields, (∀ kind t', HasField k kind t' fs → kind = .default ∧ t' = t) →
      decodeFields (a ++ (k, d) :: b) fs = decodeFields (a ++ b) fs := by
    intro fs
    induction fs using JFields.rec (motive_1 := fun _ => True) (motive_3 := fun _ => True) with
    | nil => intro _; rw [decodeFields, decodeFields]
    | cons k' kind t' rest _ ih =>
      intro hk
      rw [decodeFields, decodeFields, ih fun kind t' hf => hk kind t' (.inr hf)]
      cases decodeFields (a ++ b) rest with
      | none => rfl
      | some vs =>
        by_cases hne : k = k'
        · subst hne
          obtain ⟨rfl, rfl⟩ := hk kind t' (.inl ⟨rfl, rfl, rfl⟩)
          simp only [hk1, hk0, hd]
          rfl
        · rw [hko k' hne]
    | _ => trivial
  rw [decode, decode, key fs hk]

/-- `Life` as a struct: the hypotheses of the theorems above, met. -/
def lifeFields : JFields :=
  match jLife with
  | .struct fs => fs
  | _ => .nil

example : (∀ kind t, HasField "@name" kind t lifeFields → kind = .skip) ∧ HasField "@start" .required (.uint 32) lifeFields ∧
    (∀ kind t, HasField "@regenRate" kind t lifeFields → ∃ u, t = .opt u) ∧
    decode (F := ratPrims) jLife (.obj [("@max", .int 2), ("@name", .null), ("@start", .int 1)]) =
      some (.struct [.int 1, .int 2, .none]) ∧
    decode (F := ratPrims) jLife (.obj [("@max", .int 2), ("@start", .int 1), ("@start", .int 1)]) = none ∧
    decode (F := ratPrims) jLife (.obj [("@max", .int 2)]) = none ∧
    decode (F := ratPrims) jLife (.obj [("@max", .int (2 ^ 32)), ("@start", .int 1)]) = none := by
  refine ⟨?_, .inl ⟨rfl, rfl, rfl⟩, ?_, rfl, rfl, rfl, rfl⟩
  · intro kind t h
    simp [lifeFields, jLife, HasField] at h
  · intro kind t h
    simp [lifeFields, jLife, HasField] at h
    exact ⟨_, h.2⟩

example : (∀ kind t', HasField "command" kind t' (match jAbility with | .struct fs => fs | _ => .nil) →
      kind = .default ∧ t' = .list jCommand) ∧
    decode (F := ratPrims) (.list jCommand) (.arr []) = some (dflt (.list jCommand)) := by
  refine ⟨?_, rfl⟩
  intro kind t h
  simp [jAbility, HasField] at h
  exact h

end S2.Json
