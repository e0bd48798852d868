import Verif.Misc.JsonLemmas
import Verif.Gen.JsonSchema
import Verif.Gen.BalanceSample
import Verif.Props.BalanceJson
/-!
# C152, C153: events and a saved iterator as JSON
-/
namespace S2.Json

variable {F : Prims}

/-- What is printed as JSON: the items of the merged iterator, chat and ping messages, details and init data, by `get`
(/repo/examples/cli/cmd_get.rs:77-156); and the tracker and game events of a replay, which are public and serializable
(/repo/src/tracker_events/mod.rs:44-48, /repo/src/game_events/mod.rs:45-50). -/
def printed : List JTy := [jSC2EventIteratorItem, jTrackerEvent, jGameEvent, jMessageEvent, jDetails, jInitData]

theorem printed_ok {t : JTy} (ht : t ∈ printed) : okTy t = true ∧ noSkip t = true := by
  have h : printed.all (fun t => okTy t && noSkip t) = true := by decide +kernel
  have h1 := List.all_eq_true.1 h t ht
  rw [Bool.and_eq_true] at h1
  exact h1

/-- What is printed for a value whose numbers are finite is read back as that value, in whatever order the members of
the objects are stored. -/
theorem C152_round_trip_partial (hF : Exact F) (t : JTy) (ht : t ∈ printed) (v : JVal F) (hv : Typed t v) (hf : AllFinite t v)
    (text : Json F) (hs : JSame (encode t v) text) : decode t text = some v :=
  read_back hF t v text (printed_ok ht).1 hv (plain_of_finite t v (printed_ok ht).2 hv hf) hs

/-- Different values are printed differently. -/
theorem C152_distinct_partial (hF : Exact F) (t : JTy) (ht : t ∈ printed) (v v' : JVal F) (hv : Typed t v) (hv' : Typed t v')
    (hf : AllFinite t v) (hf' : AllFinite t v') (hs : JSame (encode t v) (encode t v')) : v = v' := by
  have h1 := C152_round_trip_partial hF t ht v hv hf _ hs
  have h2 := C152_round_trip_partial hF t ht v' hv' hf' _ (JSame_refl _)
  rw [h1] at h2
  exact Option.some.inj h2

mutual
theorem finite_of_plain : ∀ (t : JTy) (v : JVal F), Typed t v → Plain t v → AllFinite t v
  | .string, .str _, _, _ => by rw [AllFinite]; trivial; all_goals simp
  | .bool, .bool _, _, _ => by rw [AllFinite]; trivial; all_goals simp
  | .date, .date _, _, _ => by rw [AllFinite]; trivial; all_goals simp
  | .uint _, .int _, _, _ => by rw [AllFinite]; trivial; all_goals simp
  | .sint _, .int _, _, _ => by rw [AllFinite]; trivial; all_goals simp
  | .f32, .flt x, _, h => by rw [Plain] at h; rw [AllFinite]; exact h
  | .opt _, .none, _, _ => by rw [AllFinite]; trivial; all_goals simp
  | .opt t, .some v, ht, h => by
    rw [Typed] at ht
    rw [Plain] at h
    rw [AllFinite]
    exact finite_of_plain t v ht h
  | .list t, .list vs, ht, h => by
    rw [Typed] at ht
    rw [Plain] at h
    rw [AllFinite]
    exact fun v hv => finite_of_plain t v (ht v hv) (h v hv)
  | .array _ t, .list vs, ht, h => by
    rw [Typed] at ht
    rw [Plain] at h
    rw [AllFinite]
    exact fun v hv => finite_of_plain t v (ht.2 v hv) (h v hv)
  | .map _ t, .map es, ht, h => by
    rw [Typed] at ht
    rw [Plain] at h
    rw [AllFinite]
    exact fun e he => finite_of_plain t e.2 (ht.2 e he).2 (h e he)
  | .struct fs, .struct vs, ht, h => by
    rw [Typed] at ht
    rw [Plain] at h
    rw [AllFinite]
    exact finite_of_plainFields fs vs ht h
  | .enum vs, .variant n v, ht, h => by
    rw [Typed] at ht
    rw [Plain] at h
    rw [AllFinite]
    exact finite_of_plainVariant vs n v ht h
theorem finite_of_plainFields : ∀ (fs : JFields) (vs : List (JVal F)), TypedFields fs vs → PlainFields fs vs → AllFiniteFields fs vs
  | .nil, [], _, _ => by rw [AllFiniteFields]; trivial; all_goals simp
  | .cons _ .skip t rest, v :: vs, ht, h => by
    rw [TypedFields] at ht
    rw [PlainFields] at h
    rw [AllFiniteFields]
    exact finite_of_plainFields rest vs ht.2 h.2
  | .cons _ .required t rest, v :: vs, ht, h => by
    rw [TypedFields] at ht
    rw [PlainFields] at h
    rw [AllFiniteFields]
    exact ⟨finite_of_plain t v ht.1 h.1, finite_of_plainFields rest vs ht.2 h.2⟩
  | .cons _ .default t rest, v :: vs, ht, h => by
    rw [TypedFields] at ht
    rw [PlainFields] at h
    rw [AllFiniteFields]
    exact ⟨finite_of_plain t v ht.1 h.1, finite_of_plainFields rest vs ht.2 h.2⟩
theorem finite_of_plainVariant : ∀ (vs : JVariants) (n : String) (v : JVal F), TypedVariant vs n v → PlainVariant vs n v →
    AllFiniteVariant vs n v
  | .nil, _, _, _, _ => by rw [AllFiniteVariant]; trivial
  | .unit k rest, n, v, ht, h => by
    rw [TypedVariant] at ht
    rw [PlainVariant] at h
    rw [AllFiniteVariant]
    split at ht
    · next hk => rw [if_pos hk]; trivial
    · next hk => rw [if_neg hk] at h ⊢; exact finite_of_plainVariant rest n v ht h
  | .newtype k t rest, n, v, ht, h => by
    rw [TypedVariant] at ht
    rw [PlainVariant] at h
    rw [AllFiniteVariant]
    split at ht
    · next hk => rw [if_pos hk] at h ⊢; exact finite_of_plain t v ht h
    · next hk => rw [if_neg hk] at h ⊢; exact finite_of_plainVariant rest n v ht h
  | .fields k fs rest, n, v, ht, h => by
    rw [TypedVariant] at ht
    rw [PlainVariant] at h
    rw [AllFiniteVariant]
    split at ht
    · next hk =>
      rw [if_pos hk] at h ⊢
      obtain ⟨ws, hw, hws⟩ := ht
      intro vs hv
      rw [hw] at hv
      cases hv
      exact finite_of_plainFields fs ws hws (h ws hw)
    · next hk => rw [if_neg hk] at h ⊢; exact finite_of_plainVariant rest n v ht h
end

/-- Exactly the values whose numbers are finite are read back. -/
theorem C152_exactly (hF : Exact F) (t : JTy) (ht : t ∈ printed) (v : JVal F) (hv : Typed t v) :
    decode t (encode t v) = some v ↔ AllFinite t v :=
  ⟨fun h => finite_of_plain t v hv (plain_of t v (printed_ok ht).1 hv h),
    fun h => C152_round_trip_partial hF t ht v hv h _ (JSame_refl _)⟩

mutual
/-- No floating point number in the type. [proof device, no counterpart in /repo] -/
def noFlt : JTy → Bool
  | .f32 => false
  | .opt t => noFlt t
  | .list t => noFlt t
  | .array _ t => noFlt t
  | .map _ t => noFlt t
  | .struct fs => noFltFields fs
  | .enum vs => noFltVariants vs
  | _ => true
/-- [proof device, no counterpart in /repo] -/
def noFltFields : JFields → Bool
  | .nil => true
  | .cons _ _ t rest => noFlt t && noFltFields rest
/-- [proof device, no counterpart in /repo] -/
def noFltVariants : JVariants → Bool
  | .nil => true
  | .unit _ rest => noFltVariants rest
  | .newtype _ t rest => noFlt t && noFltVariants rest
  | .fields _ fs rest => noFltFields fs && noFltVariants rest
end

mutual
theorem finite_noFlt : ∀ (t : JTy) (v : JVal F), noFlt t = true → AllFinite t v
  | .f32, _, h => by rw [noFlt] at h; cases h
  | .opt t, v, h => by
    rw [noFlt] at h
    cases v <;> first | (rw [AllFinite]; exact finite_noFlt t _ h) | (rw [AllFinite]; trivial; all_goals simp)
  | .list t, v, h => by
    rw [noFlt] at h
    cases v <;> first | (rw [AllFinite]; exact fun v _ => finite_noFlt t v h) | (rw [AllFinite]; trivial; all_goals simp)
  | .array _ t, v, h => by
    rw [noFlt] at h
    cases v <;> first | (rw [AllFinite]; exact fun v _ => finite_noFlt t v h) | (rw [AllFinite]; trivial; all_goals simp)
  | .map _ t, v, h => by
    rw [noFlt] at h
    cases v <;> first | (rw [AllFinite]; exact fun e _ => finite_noFlt t e.2 h) | (rw [AllFinite]; trivial; all_goals simp)
  | .struct fs, v, h => by
    rw [noFlt] at h
    cases v <;> first | (rw [AllFinite]; exact finite_noFltFields fs _ h) | (rw [AllFinite]; trivial; all_goals simp)
  | .enum vs, v, h => by
    rw [noFlt] at h
    cases v <;> first | (rw [AllFinite]; exact finite_noFltVariants vs _ _ h) | (rw [AllFinite]; trivial; all_goals simp)
  | .string, v, _ => by rw [AllFinite]; trivial; all_goals simp
  | .bool, v, _ => by rw [AllFinite]; trivial; all_goals simp
  | .date, v, _ => by rw [AllFinite]; trivial; all_goals simp
  | .uint _, v, _ => by rw [AllFinite]; trivial; all_goals simp
  | .sint _, v, _ => by rw [AllFinite]; trivial; all_goals simp
theorem finite_noFltFields : ∀ (fs : JFields) (vs : List (JVal F)), noFltFields fs = true → AllFiniteFields fs vs
  | .nil, _, _ => by rw [AllFiniteFields]; trivial; all_goals simp
  | .cons _ _ _ _, [], _ => by rw [AllFiniteFields]; trivial; all_goals simp
  | .cons _ .skip t rest, v :: vs, h => by
    rw [noFltFields, Bool.and_eq_true] at h
    rw [AllFiniteFields]
    exact finite_noFltFields rest vs h.2
  | .cons _ .required t rest, v :: vs, h => by
    rw [noFltFields, Bool.and_eq_true] at h
    rw [AllFiniteFields]
    exact ⟨finite_noFlt t v h.1, finite_noFltFields rest vs h.2⟩
  | .cons _ .default t rest, v :: vs, h => by
    rw [noFltFields, Bool.and_eq_true] at h
    rw [AllFiniteFields]
    exact ⟨finite_noFlt t v h.1, finite_noFltFields rest vs h.2⟩
theorem finite_noFltVariants : ∀ (vs : JVariants) (n : String) (v : JVal F), noFltVariants vs = true → AllFiniteVariant vs n v
  | .nil, _, _, _ => by rw [AllFiniteVariant]; trivial
  | .unit k rest, n, v, h => by
    rw [noFltVariants] at h
    rw [AllFiniteVariant]
    split
    · trivial
    · exact finite_noFltVariants rest n v h
  | .newtype k t rest, n, v, h => by
    rw [noFltVariants, Bool.and_eq_true] at h
    rw [AllFiniteVariant]
    split
    · exact finite_noFlt t v h.1
    · exact finite_noFltVariants rest n v h.2
  | .fields k fs rest, n, v, h => by
    rw [noFltVariants, Bool.and_eq_true] at h
    rw [AllFiniteVariant]
    split
    · exact fun vs _ => finite_noFltFields fs vs h.1
    · exact finite_noFltVariants rest n v h.2
end

/-- Tracker, game and message events, details and init data have no floating point numbers: every one of them is read
back. -/
theorem C152_events_round_trip (hF : Exact F) (t : JTy)
    (ht : t ∈ [jTrackerEvent, jGameEvent, jMessageEvent, jDetails, jInitData]) (v : JVal F) (hv : Typed t v)
    (text : Json F) (hs : JSame (encode t v) text) : decode t text = some v := by
  have h : [jTrackerEvent, jGameEvent, jMessageEvent, jDetails, jInitData].all noFlt = true := by decide +kernel
  have hp : t ∈ printed := by
    unfold printed
    exact List.mem_cons_of_mem _ ht
  exact C152_round_trip_partial hF t hp v hv (finite_noFlt t v (List.all_eq_true.1 h t ht)) text hs

/-! ## Examples -/

mutual
/-- A value of the type, with something in every list, map and option; `x` is used for the floating point numbers and
`k` for the integers in fields that are not serialized. [example, no counterpart in /repo] -/
def sample (x : F.F32) (k : Int) : JTy → JVal F
  | .string => .str "Zealot"
  | .bool => .bool true
  | .uint _ => .int 1
  | .sint _ => .int (-1)
  | .f32 => .flt x
  | .date => .date F.epoch
  | .opt t => .some (sample x k t)
  | .list t => .list [sample x k t]
  | .array n t => .list (List.replicate n (sample x k t))
  | .map _ t => .map [("7", sample x k t)]
  | .struct fs => .struct (sampleFields x k fs)
  | .enum vs => sampleVariant x k vs
/-- [example, no counterpart in /repo] -/
def sampleFields (x : F.F32) (k : Int) : JFields → List (JVal F)
  | .nil => []
  | .cons _ .skip _ rest => .int k :: sampleFields x k rest
  | .cons _ _ t rest => sample x k t :: sampleFields x k rest
/-- The first variant. [example, no counterpart in /repo] -/
def sampleVariant (x : F.F32) (k : Int) : JVariants → JVal F
  | .nil => .none
  | .unit n _ => .variant n (.struct [])
  | .newtype n t _ => .variant n (sample x k t)
  | .fields n fs _ => .variant n (.struct (sampleFields x k fs))
end

mutual
/-- [proof device, no counterpart in /repo] -/
def okSample : JTy → Bool
  | .uint b => decide (1 ≤ b)
  | .sint b => decide (1 ≤ b)
  | .opt t => okSample t
  | .list t => okSample t
  | .array _ t => okSample t
  | .map k t => keyOk k "7" && okSample t
  | .struct fs => okSampleFields fs
  | .enum vs => okSampleVariant vs
  | _ => true
/-- [proof device, no counterpart in /repo] -/
def okSampleFields : JFields → Bool
  | .nil => true
  | .cons _ .skip (.uint 32) rest => okSampleFields rest
  | .cons _ .skip _ _ => false
  | .cons _ _ t rest => okSample t && okSampleFields rest
/-- [proof device, no counterpart in /repo] -/
def okSampleVariant : JVariants → Bool
  | .nil => false
  | .unit _ _ => true
  | .newtype _ t _ => okSample t
  | .fields _ fs _ => okSampleFields fs
end

mutual
theorem sample_typed (x : F.F32) (k : Int) (hk : 0 ≤ k ∧ k < 2 ^ 32) : ∀ (t : JTy), okSample t = true → Typed t (sample x k t)
  | .string, _ => by rw [sample, Typed]; trivial
  | .bool, _ => by rw [sample, Typed]; trivial
  | .date, _ => by rw [sample, Typed]; trivial
  | .f32, _ => by rw [sample, Typed]; trivial
  | .uint b, h => by
    rw [okSample, decide_eq_true_eq] at h
    rw [sample, Typed]
    have : (2 : Int) ^ b = 2 * 2 ^ (b - 1) := by
      rw [← Int.pow_succ']; congr 1; omega
    have h1 : (0 : Int) < 2 ^ (b - 1) := Int.pow_pos (by decide)
    omega
  | .sint b, h => by
    rw [okSample, decide_eq_true_eq] at h
    rw [sample, Typed]
    have h1 : (0 : Int) < 2 ^ (b - 1) := Int.pow_pos (by decide)
    omega
  | .opt t, h => by
    rw [okSample] at h
    rw [sample, Typed]
    exact sample_typed x k hk t h
  | .list t, h => by
    rw [okSample] at h
    rw [sample, Typed]
    intro v hv
    rw [List.mem_singleton] at hv
    subst hv
    exact sample_typed x k hk t h
  | .array n t, h => by
    rw [okSample] at h
    rw [sample, Typed]
    refine ⟨List.length_replicate, fun v hv => ?_⟩
    rw [(List.mem_replicate.1 hv).2]
    exact sample_typed x k hk t h
  | .map _ t, h => by
    rw [okSample, Bool.and_eq_true] at h
    rw [sample, Typed]
    refine ⟨List.pairwise_singleton _ _, fun e he => ?_⟩
    rw [List.mem_singleton] at he
    subst he
    exact ⟨(keyOk_iff _ _).1 h.1, sample_typed x k hk t h.2⟩
  | .struct fs, h => by
    rw [okSample] at h
    rw [sample, Typed]
    exact sample_typedFields x k hk fs h
  | .enum vs, h => by
    rw [okSample] at h
    rw [sample]
    exact sample_typedVariant x k hk vs h
theorem sample_typedFields (x : F.F32) (k : Int) (hk : 0 ≤ k ∧ k < 2 ^ 32) : ∀ (fs : JFields), okSampleFields fs = true →
    TypedFields fs (sampleFields x k fs)
  | .nil, _ => by rw [sampleFields, TypedFields]; trivial
  | .cons _ .skip t rest, h => by
    rw [sampleFields, TypedFields]
    match t, h with
    | .uint 32, h =>
      rw [okSampleFields] at h
      exact ⟨by rw [Typed]; exact hk, sample_typedFields x k hk rest h⟩
  | .cons _ .required t rest, h => by
    rw [okSampleFields, Bool.and_eq_true] at h
    rw [sampleFields, TypedFields]
    exact ⟨sample_typed x k hk t h.1, sample_typedFields x k hk rest h.2⟩
    all_goals simp
  | .cons _ .default t rest, h => by
    rw [okSampleFields, Bool.and_eq_true] at h
    rw [sampleFields, TypedFields]
    exact ⟨sample_typed x k hk t h.1, sample_typedFields x k hk rest h.2⟩
    all_goals simp
theorem sample_typedVariant (x : F.F32) (k : Int) (hk : 0 ≤ k ∧ k < 2 ^ 32) : ∀ (vs : JVariants), okSampleVariant vs = true →
    Typed (.enum vs) (sampleVariant x k vs)
  | .nil, h => by rw [okSampleVariant] at h; cases h
  | .unit n rest, _ => by rw [sampleVariant, Typed, TypedVariant, if_pos rfl]
  | .newtype n t rest, h => by
    rw [okSampleVariant] at h
    rw [sampleVariant, Typed, TypedVariant, if_pos rfl]
    exact sample_typed x k hk t h
  | .fields n fs rest, h => by
    rw [okSampleVariant] at h
    rw [sampleVariant, Typed, TypedVariant, if_pos rfl]
    exact ⟨_, rfl, sample_typedFields x k hk fs h⟩
end

mutual
theorem sample_finite (x : F.F32) (k : Int) (hx : F.widen x ≠ none) : ∀ (t : JTy), AllFinite t (sample x k t)
  | .string => by rw [sample, AllFinite]; trivial; all_goals simp
  | .bool => by rw [sample, AllFinite]; trivial; all_goals simp
  | .date => by rw [sample, AllFinite]; trivial; all_goals simp
  | .f32 => by rw [sample, AllFinite]; exact hx
  | .uint _ => by rw [sample, AllFinite]; trivial; all_goals simp
  | .sint _ => by rw [sample, AllFinite]; trivial; all_goals simp
  | .opt t => by rw [sample, AllFinite]; exact sample_finite x k hx t
  | .list t => by
    rw [sample, AllFinite]
    intro v hv
    rw [List.mem_singleton] at hv
    subst hv
    exact sample_finite x k hx t
  | .array n t => by
    rw [sample, AllFinite]
    intro v hv
    rw [(List.mem_replicate.1 hv).2]
    exact sample_finite x k hx t
  | .map _ t => by
    rw [sample, AllFinite]
    intro e he
    rw [List.mem_singleton] at he
    subst he
    exact sample_finite x k hx t
  | .struct fs => by rw [sample, AllFinite]; exact sample_finiteFields x k hx fs
  | .enum vs => by
    rw [sample]
    exact sample_finiteVariant x k hx vs
theorem sample_finiteFields (x : F.F32) (k : Int) (hx : F.widen x ≠ none) : ∀ (fs : JFields), AllFiniteFields fs (sampleFields x k fs)
  | .nil => by rw [sampleFields, AllFiniteFields]; trivial; all_goals simp
  | .cons _ .skip t rest => by
    rw [sampleFields, AllFiniteFields]
    exact sample_finiteFields x k hx rest
  | .cons _ .required t rest => by
    rw [sampleFields, AllFiniteFields]
    exact ⟨sample_finite x k hx t, sample_finiteFields x k hx rest⟩
    all_goals simp
  | .cons _ .default t rest => by
    rw [sampleFields, AllFiniteFields]
    exact ⟨sample_finite x k hx t, sample_finiteFields x k hx rest⟩
    all_goals simp
theorem sample_finiteVariant (x : F.F32) (k : Int) (hx : F.widen x ≠ none) : ∀ (vs : JVariants),
    AllFinite (.enum vs) (sampleVariant x k vs)
  | .nil => by rw [sampleVariant, AllFinite]; trivial; all_goals simp
  | .unit n rest => by rw [sampleVariant, AllFinite, AllFiniteVariant, if_pos rfl]; trivial
  | .newtype n t rest => by
    rw [sampleVariant, AllFinite, AllFiniteVariant, if_pos rfl]
    exact sample_finite x k hx t
  | .fields n fs rest => by
    rw [sampleVariant, AllFinite, AllFiniteVariant, if_pos rfl]
    intro vs hv
    cases hv
    exact sample_finiteFields x k hx fs
end

/-- An item with a unit of infinite radius is printed, and what is printed cannot be read. -/
theorem C152_refuted : ∃ (F : Prims) (v : JVal F), Exact F ∧ Typed jSC2EventIteratorItem v ∧
    decode jSC2EventIteratorItem (encode jSC2EventIteratorItem v) = none := by
  refine ⟨ratPrims, sample none 0 jSC2EventIteratorItem, exact_rat, sample_typed _ _ (by decide) _ (by decide +kernel), ?_⟩
  have h : (decode jSC2EventIteratorItem (encode jSC2EventIteratorItem (sample (F := ratPrims) none 0 jSC2EventIteratorItem))).isNone
      = true := by decide +kernel
  exact Option.isNone_iff_eq_none.1 h

/-- Values of the printed types whose numbers are finite. -/
example : ∀ t ∈ printed, Typed t (sample (F := ratPrims) (some (1/2)) 0 t) ∧
    AllFinite t (sample (F := ratPrims) (some (1/2)) 0 t) := by
  intro t ht
  have h : printed.all okSample = true := by decide +kernel
  exact ⟨sample_typed _ _ (by decide) t (List.all_eq_true.1 h t ht), sample_finite _ _ (by intro c; cases c) t⟩

/-! ## C153: a saved iterator -/

mutual
theorem reset_typed : ∀ (t : JTy) (v : JVal F), okDflt t = true → Typed t v → Typed t (reset t v)
  | .string, .str _, _, _ => by rw [reset, Typed]; trivial; all_goals simp
  | .bool, .bool _, _, _ => by rw [reset, Typed]; trivial; all_goals simp
  | .date, .date _, _, _ => by rw [reset, Typed]; trivial; all_goals simp
  | .f32, .flt _, _, _ => by rw [reset, Typed]; trivial; all_goals simp
  | .uint _, .int _, _, h => by rw [reset]; exact h; all_goals simp
  | .sint _, .int _, _, h => by rw [reset]; exact h; all_goals simp
  | .opt _, .none, _, _ => by rw [reset, Typed]; trivial; all_goals simp
  | .opt t, .some v, hd, h => by
    rw [okDflt] at hd
    rw [Typed] at h
    rw [reset, Typed]
    exact reset_typed t v hd h
  | .list t, .list vs, hd, h => by
    rw [okDflt] at hd
    rw [Typed] at h
    rw [reset, Typed]
    intro w hw
    obtain ⟨v, hv, rfl⟩ := List.mem_map.1 hw
    exact reset_typed t v hd (h v hv)
  | .array _ t, .list vs, hd, h => by
    rw [okDflt] at hd
    rw [Typed] at h
    rw [reset, Typed]
    refine ⟨by rw [List.length_map]; exact h.1, ?_⟩
    intro w hw
    obtain ⟨v, hv, rfl⟩ := List.mem_map.1 hw
    exact reset_typed t v hd (h.2 v hv)
  | .map _ t, .map es, hd, h => by
    rw [okDflt] at hd
    rw [Typed] at h
    rw [reset, Typed]
    refine ⟨List.pairwise_map.2 h.1, ?_⟩
    intro w hw
    obtain ⟨e, he, rfl⟩ := List.mem_map.1 hw
    exact ⟨(h.2 e he).1, reset_typed t e.2 hd (h.2 e he).2⟩
  | .struct fs, .struct vs, hd, h => by
    rw [okDflt] at hd
    rw [Typed] at h
    rw [reset, Typed]
    exact reset_typedFields fs vs hd h
  | .enum vs, .variant n v, hd, h => by
    rw [okDflt] at hd
    rw [Typed] at h
    rw [reset, Typed]
    exact reset_typedVariant vs n v hd h
theorem reset_typedFields : ∀ (fs : JFields) (vs : List (JVal F)), okDfltFields fs = true → TypedFields fs vs →
    TypedFields fs (resetFields fs vs)
  | .nil, [], _, _ => by rw [resetFields, TypedFields]; trivial; all_goals simp
  | .cons _ kind t rest, v :: vs, hd, h => by
    rw [okDfltFields, Bool.and_eq_true, Bool.and_eq_true] at hd
    rw [TypedFields] at h
    have hr := reset_typedFields rest vs hd.2.2 h.2
    cases kind with
    | skip =>
      rw [resetFields, TypedFields]
      exact ⟨typed_dflt t (by simpa using hd.1), hr⟩
    | required =>
      rw [resetFields, TypedFields]
      exact ⟨reset_typed t v hd.2.1 h.1, hr⟩
    | default =>
      rw [resetFields, TypedFields]
      exact ⟨reset_typed t v hd.2.1 h.1, hr⟩
theorem reset_typedVariant : ∀ (vs : JVariants) (n : String) (v : JVal F), okDfltVariants vs = true → TypedVariant vs n v →
    TypedVariant vs n (resetVariant vs n v)
  | .nil, _, _, _, h => by rw [TypedVariant] at h; exact h.elim
  | .unit k rest, n, v, hd, h => by
    rw [okDfltVariants] at hd
    rw [TypedVariant] at h ⊢
    rw [resetVariant]
    split at h
    · next hk => rw [if_pos hk, if_pos hk]; exact h
    · next hk => rw [if_neg hk, if_neg hk]; exact reset_typedVariant rest n v hd h
  | .newtype k t rest, n, v, hd, h => by
    rw [okDfltVariants, Bool.and_eq_true] at hd
    rw [TypedVariant] at h ⊢
    rw [resetVariant]
    split at h
    · next hk => rw [if_pos hk, if_pos hk]; exact reset_typed t v hd.1 h
    · next hk => rw [if_neg hk, if_neg hk]; exact reset_typedVariant rest n v hd.2 h
  | .fields k fs rest, n, v, hd, h => by
    rw [okDfltVariants, Bool.and_eq_true] at hd
    rw [TypedVariant] at h ⊢
    rw [resetVariant]
    split at h
    · next hk =>
      rw [if_pos hk, if_pos hk]
      obtain ⟨ws, rfl, hw⟩ := h
      exact ⟨_, rfl, reset_typedFields fs ws hd.1 hw⟩
    · next hk => rw [if_neg hk, if_neg hk]; exact reset_typedVariant rest n v hd.2 h
end

mutual
theorem reset_encode : ∀ (t : JTy) (v : JVal F), Typed t v → encode t (reset t v) = encode t v
  | .string, .str _, _ => by rw [reset]; all_goals simp
  | .bool, .bool _, _ => by rw [reset]; all_goals simp
  | .date, .date _, _ => by rw [reset]; all_goals simp
  | .f32, .flt _, _ => by rw [reset]; all_goals simp
  | .uint _, .int _, _ => by rw [reset]; all_goals simp
  | .sint _, .int _, _ => by rw [reset]; all_goals simp
  | .opt _, .none, _ => by rw [reset]; all_goals simp
  | .opt t, .some v, h => by
    rw [Typed] at h
    rw [reset, encode, encode]
    exact reset_encode t v h
  | .list t, .list vs, h => by
    rw [Typed] at h
    rw [reset, encode, encode, List.map_map]
    congr 1
    exact List.map_congr_left fun v hv => reset_encode t v (h v hv)
  | .array _ t, .list vs, h => by
    rw [Typed] at h
    rw [reset, encode, encode, List.map_map]
    congr 1
    exact List.map_congr_left fun v hv => reset_encode t v (h.2 v hv)
  | .map _ t, .map es, h => by
    rw [Typed] at h
    rw [reset, encode, encode, List.map_map]
    congr 1
    refine List.map_congr_left fun e he => ?_
    show (e.1, encode t (reset t e.2)) = _
    rw [reset_encode t e.2 (h.2 e he).2]
  | .struct fs, .struct vs, h => by
    rw [Typed] at h
    rw [reset, encode, encode, reset_encodeFields fs vs h]
  | .enum vs, .variant n v, h => by
    rw [Typed] at h
    rw [reset, encode, encode, reset_encodeVariant vs n v h]
theorem reset_encodeFields : ∀ (fs : JFields) (vs : List (JVal F)), TypedFields fs vs →
    encodeFields fs (resetFields fs vs) = encodeFields fs vs
  | .nil, [], _ => by rw [resetFields]; all_goals simp
  | .cons _ kind t rest, v :: vs, h => by
    rw [TypedFields] at h
    have hr := reset_encodeFields rest vs h.2
    cases kind with
    | skip => rw [resetFields, encodeFields, encodeFields, hr]
    | required => rw [resetFields, encodeFields_cons (by decide), encodeFields_cons (by decide), hr, reset_encode t v h.1]
    | default => rw [resetFields, encodeFields_cons (by decide), encodeFields_cons (by decide), hr, reset_encode t v h.1]
theorem reset_encodeVariant : ∀ (vs : JVariants) (n : String) (v : JVal F), TypedVariant vs n v →
    encodeVariant vs n (resetVariant vs n v) = encodeVariant vs n v
  | .nil, _, _, h => by rw [TypedVariant] at h; exact h.elim
  | .unit k rest, n, v, h => by
    rw [TypedVariant] at h
    rw [resetVariant, encodeVariant, encodeVariant]
    split at h
    · next hk => rw [if_pos hk, if_pos hk]
    · next hk => rw [if_neg hk, if_neg hk, if_neg hk]; exact reset_encodeVariant rest n v h
  | .newtype k t rest, n, v, h => by
    rw [TypedVariant] at h
    rw [resetVariant, encodeVariant, encodeVariant]
    split at h
    · next hk => rw [if_pos hk, if_pos hk, if_pos hk, reset_encode t v h]
    · next hk => rw [if_neg hk, if_neg hk, if_neg hk]; exact reset_encodeVariant rest n v h
  | .fields k fs rest, n, v, h => by
    rw [TypedVariant] at h
    rw [resetVariant, encodeVariant, encodeVariant]
    split at h
    · next hk =>
      rw [if_pos hk, if_pos hk, if_pos hk]
      obtain ⟨ws, rfl, hw⟩ := h
      rw [partsOf, partsOf, reset_encodeFields fs ws hw]
    · next hk => rw [if_neg hk, if_neg hk, if_neg hk]; exact reset_encodeVariant rest n v h
end

mutual
theorem reset_plain : ∀ (t : JTy) (v : JVal F), Typed t v → AllFinite t v → Plain t (reset t v)
  | .string, .str _, _, _ => by rw [reset, Plain]; trivial; all_goals simp
  | .bool, .bool _, _, _ => by rw [reset, Plain]; trivial; all_goals simp
  | .date, .date _, _, _ => by rw [reset, Plain]; trivial; all_goals simp
  | .f32, .flt _, _, h => by rw [AllFinite] at h; rw [reset, Plain]; exact h; all_goals simp
  | .uint _, .int _, _, h => by rw [reset, Plain]; trivial; all_goals simp
  | .sint _, .int _, _, h => by rw [reset, Plain]; trivial; all_goals simp
  | .opt _, .none, _, _ => by rw [reset, Plain]; trivial; all_goals simp
  | .opt t, .some v, ht, h => by
    rw [Typed] at ht
    rw [AllFinite] at h
    rw [reset, Plain]
    exact reset_plain t v ht h
  | .list t, .list vs, ht, h => by
    rw [Typed] at ht
    rw [AllFinite] at h
    rw [reset, Plain]
    intro w hw
    obtain ⟨v, hv, rfl⟩ := List.mem_map.1 hw
    exact reset_plain t v (ht v hv) (h v hv)
  | .array _ t, .list vs, ht, h => by
    rw [Typed] at ht
    rw [AllFinite] at h
    rw [reset, Plain]
    intro w hw
    obtain ⟨v, hv, rfl⟩ := List.mem_map.1 hw
    exact reset_plain t v (ht.2 v hv) (h v hv)
  | .map _ t, .map es, ht, h => by
    rw [Typed] at ht
    rw [AllFinite] at h
    rw [reset, Plain]
    intro w hw
    obtain ⟨e, he, rfl⟩ := List.mem_map.1 hw
    exact reset_plain t e.2 (ht.2 e he).2 (h e he)
  | .struct fs, .struct vs, ht, h => by
    rw [Typed] at ht
    rw [AllFinite] at h
    rw [reset, Plain]
    exact reset_plainFields fs vs ht h
  | .enum vs, .variant n v, ht, h => by
    rw [Typed] at ht
    rw [AllFinite] at h
    rw [reset, Plain]
    exact reset_plainVariant vs n v ht h
theorem reset_plainFields : ∀ (fs : JFields) (vs : List (JVal F)), TypedFields fs vs → AllFiniteFields fs vs →
    PlainFields fs (resetFields fs vs)
  | .nil, [], _, _ => by rw [resetFields, PlainFields]; trivial; all_goals simp
  | .cons _ kind t rest, v :: vs, ht, h => by
    rw [TypedFields] at ht
    cases kind with
    | skip =>
      rw [AllFiniteFields] at h
      rw [resetFields, PlainFields]
      exact ⟨rfl, reset_plainFields rest vs ht.2 h⟩
    | required =>
      rw [AllFiniteFields] at h
      rw [resetFields, PlainFields]
      exact ⟨reset_plain t v ht.1 h.1, reset_plainFields rest vs ht.2 h.2⟩
    | default =>
      rw [AllFiniteFields] at h
      rw [resetFields, PlainFields]
      exact ⟨reset_plain t v ht.1 h.1, reset_plainFields rest vs ht.2 h.2⟩
theorem reset_plainVariant : ∀ (vs : JVariants) (n : String) (v : JVal F), TypedVariant vs n v → AllFiniteVariant vs n v →
    PlainVariant vs n (resetVariant vs n v)
  | .nil, _, _, h, _ => by rw [TypedVariant] at h; exact h.elim
  | .unit k rest, n, v, ht, h => by
    rw [TypedVariant] at ht
    rw [AllFiniteVariant] at h
    rw [PlainVariant, resetVariant]
    split at ht
    · next hk => rw [if_pos hk]; trivial
    · next hk => rw [if_neg hk] at h ⊢; rw [if_neg hk]; exact reset_plainVariant rest n v ht h
  | .newtype k t rest, n, v, ht, h => by
    rw [TypedVariant] at ht
    rw [AllFiniteVariant] at h
    rw [PlainVariant, resetVariant]
    split at ht
    · next hk => rw [if_pos hk] at h ⊢; rw [if_pos hk]; exact reset_plain t v ht h
    · next hk => rw [if_neg hk] at h ⊢; rw [if_neg hk]; exact reset_plainVariant rest n v ht h
  | .fields k fs rest, n, v, ht, h => by
    rw [TypedVariant] at ht
    rw [AllFiniteVariant] at h
    rw [PlainVariant, resetVariant]
    split at ht
    · next hk =>
      rw [if_pos hk] at h ⊢
      rw [if_pos hk]
      obtain ⟨ws, rfl, hw⟩ := ht
      intro vs hv
      cases hv
      exact reset_plainFields fs ws hw (h ws rfl)
    · next hk => rw [if_neg hk] at h ⊢; rw [if_neg hk]; exact reset_plainVariant rest n v ht h
end

theorem okTy_iterator : okTy jSC2EventIterator = true ∧ okDflt jSC2EventIterator = true := by decide +kernel

/-- An iterator saved at any moment, with finite numbers in its units and balance units, is read back with everything it
has - the unread bytes of both event files and the places in them, the pending events, the units, the users' control
groups, the filters - except for the `version` of the balance units, which comes back as 0. -/
theorem C153_round_trip_partial (hF : Exact F) (it : JVal F) (ht : Typed jSC2EventIterator it) (hf : AllFinite jSC2EventIterator it)
    (file : Json F) (hs : JSame (encode jSC2EventIterator it) file) :
    decode jSC2EventIterator file = some (reset jSC2EventIterator it) := by
  refine read_back hF _ _ file okTy_iterator.1 (reset_typed _ it okTy_iterator.2 ht) (reset_plain _ it ht hf) ?_
  rw [reset_encode _ it ht]
  exact hs

/-- Exactly the iterators with finite numbers whose balance units all have `version` 0 are read back unchanged. -/
theorem C153_exactly (hF : Exact F) (it : JVal F) (ht : Typed jSC2EventIterator it) :
    decode jSC2EventIterator (encode jSC2EventIterator it) = some it ↔ Plain jSC2EventIterator it :=
  ⟨plain_of _ it okTy_iterator.1 ht, fun h => read_back hF _ it _ okTy_iterator.1 ht h (JSame_refl _)⟩

/-- An iterator that has been read from a file, whatever the file, can be saved and read again without a change, if its
numbers are finite. -/
theorem C153_reread (hF : Exact F) (source : Json F) (it : JVal F) (h : decode jSC2EventIterator source = some it)
    (hf : AllFinite jSC2EventIterator it) (file : Json F) (hs : JSame (encode jSC2EventIterator it) file) :
    decode jSC2EventIterator file = some it :=
  have hr := decode_ok _ source it okTy_iterator.2 h
  read_back hF _ it file okTy_iterator.1 hr.1 (hr.2 hf) hs

theorem sample_iterator (x : Option Rat) (k : Int) (hk : 0 ≤ k ∧ k < 2 ^ 32) :
    Typed jSC2EventIterator (sample (F := ratPrims) x k jSC2EventIterator) :=
  sample_typed _ _ hk _ (by decide +kernel)

/-- What is read back is not what was saved if a balance unit has a `version`. -/
theorem C153_version_refuted : ∃ (F : Prims) (it : JVal F), Exact F ∧ Typed jSC2EventIterator it ∧ AllFinite jSC2EventIterator it ∧
    decode jSC2EventIterator (encode jSC2EventIterator it) ≠ some it := by
  refine ⟨ratPrims, sample (F := ratPrims) (some 1) 95841 jSC2EventIterator, exact_rat, sample_iterator _ _ (by decide),
    sample_finite _ _ (by intro c; cases c) _, ?_⟩
  intro c
  have h := (C153_exactly exact_rat _ (sample_iterator _ _ (by decide))).1 c
  simp [sample, sampleFields, Plain, PlainFields, jSC2EventIterator, jSC2ReplayState, jVersionedBalanceUnit, dflt] at h

end S2.Json
