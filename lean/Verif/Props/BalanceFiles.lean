import Verif.Misc.BalanceFiles
/-! # Balance data on disk -/
namespace S2

/-! ## Numbers -/

theorem digit_toNat {d : Nat} (h : d < 10) : (UInt8.ofNat (48 + d)).toNat = 48 + d := by
  simp only [UInt8.toNat_ofNat']
  omega

theorem parseDigits_append : ∀ (a b : Str) (acc : Nat), parseDigits acc (a ++ b) = (parseDigits acc a).bind (fun n => parseDigits n b)
  | [], b, acc => rfl
  | c :: cs, b, acc => by
    simp only [List.cons_append, parseDigits]
    split
    · split
      · exact parseDigits_append cs b _
      · rfl
    · rfl

theorem parseDigits_digit {acc d : Nat} (hd : d < 10) (h : acc * 10 + d < 2 ^ 32) :
    parseDigits acc [UInt8.ofNat (48 + d)] = some (acc * 10 + d) := by
  simp only [parseDigits, digit_toNat hd]
  rw [if_pos (by omega), if_pos (by omega)]
  congr 1
  omega

theorem parse_decimalAux : ∀ (fuel n : Nat), n < fuel → n < 2 ^ 32 → parseDigits 0 (decimalAux fuel n) = some n
  | 0, n, h, _ => by omega
  | fuel + 1, n, h, hn => by
    rw [decimalAux]
    split
    · rename_i h10
      rw [parseDigits_digit h10 (by omega)]
      simp
    · rename_i h10
      rw [parseDigits_append, parse_decimalAux fuel (n / 10) (by omega) (by omega)]
      simp only [Option.bind_some]
      rw [parseDigits_digit (by omega) (by omega)]
      congr 1
      omega

theorem decimalAux_digits : ∀ (fuel n : Nat), ∀ c ∈ decimalAux fuel n, 48 ≤ c.toNat ∧ c.toNat ≤ 57
  | 0, n, c, hc => by cases hc
  | fuel + 1, n, c, hc => by
    rw [decimalAux] at hc
    split at hc
    · rename_i h10
      simp only [List.mem_singleton] at hc
      rw [hc, digit_toNat h10]
      omega
    · rcases List.mem_append.1 hc with hc | hc
      · exact decimalAux_digits fuel _ c hc
      · simp only [List.mem_singleton] at hc
        rw [hc, digit_toNat (by omega)]
        omega

theorem decimal_ne_nil (n : Nat) : decimal n ≠ [] := by
  unfold decimal
  rw [decimalAux]
  split <;> simp

/-- A version number is read back from its decimal text. -/
theorem parse_decimal {n : Nat} (h : n < 2 ^ 32) : parseU32 (decimal n) = some n := by
  have hp := parse_decimalAux (n + 1) n (by omega) h
  have hd := decimalAux_digits (n + 1) n
  have hn := decimal_ne_nil n
  unfold decimal at hn ⊢
  generalize decimalAux (n + 1) n = s at hp hd hn
  cases s with
  | nil => exact absurd rfl hn
  | cons c cs =>
    have hc := hd c List.mem_cons_self
    have h43 : c ≠ 43 := by intro e; rw [e] at hc; revert hc; decide
    unfold parseU32
    split
    · rename_i he; cases he
    · rename_i he
      simp only [List.cons.injEq] at he
      exact absurd he.1 h43
    · rename_i he
      simp only [List.cons.injEq] at he
      exact absurd he.1 h43
    · exact hp

theorem decimal_noSlash (n : Nat) : (47 : UInt8) ∉ decimal n := by
  intro h
  have := decimalAux_digits _ _ _ h
  revert this
  decide

/-! ## Paths -/

theorem splitSlash_ne_nil : ∀ s : Str, splitSlash s ≠ []
  | [] => by simp [splitSlash]
  | c :: cs => by
    simp only [splitSlash]
    split
    · simp
    · split <;> simp

theorem splitSlash_noSlash : ∀ {s : Str}, (47 : UInt8) ∉ s → splitSlash s = [s]
  | [], _ => rfl
  | c :: cs, h => by
    simp only [List.mem_cons, not_or] at h
    simp only [splitSlash]
    rw [if_neg (fun e => h.1 e.symm), splitSlash_noSlash h.2]

theorem splitSlash_append : ∀ {a : Str} (b : Str), (47 : UInt8) ∉ a → splitSlash (a ++ 47 :: b) = a :: splitSlash b
  | [], b, _ => by simp [splitSlash]
  | c :: cs, b, h => by
    simp only [List.mem_cons, not_or] at h
    simp only [List.cons_append, splitSlash]
    rw [if_neg (fun e => h.1 e.symm), splitSlash_append b h.2]

theorem splitSlash_slash {s : Str} (h : (47 : UInt8) ∈ s) : ∃ a b rest, splitSlash s = a :: b :: rest := by
  induction s with
  | nil => cases h
  | cons c cs ih =>
    simp only [splitSlash]
    by_cases hc : c = 47
    · rw [if_pos hc]
      cases hs : splitSlash cs with
      | nil => exact absurd hs (splitSlash_ne_nil cs)
      | cons p ps => exact ⟨_, _, _, rfl⟩
    · rw [if_neg hc]
      obtain ⟨a, b, rest, he⟩ := ih (by
        rcases List.mem_cons.1 h with h | h
        · exact absurd h.symm hc
        · exact h)
      rw [he]
      exact ⟨_, _, _, rfl⟩

theorem trimJson_json (s : Str) : trimJson (s ++ str ".json") = trimJson s := by
  unfold trimJson
  rw [List.reverse_append]
  rfl

/-- Trimming leaves a text alone exactly if it does not end in ".json". -/
theorem trimJson_id (s : Str) : trimJson s = s ↔ ¬ str ".json" <:+ s := by
  constructor
  · rintro h ⟨a, rfl⟩
    rw [trimJson_json] at h
    have hl : (trimJson a).length ≤ a.length := by
      have : ∀ l : Str, (stripNosj l).length ≤ l.length := by
        intro l
        induction l using stripNosj.induct with
        | case1 rest ih => simp only [stripNosj, List.length_cons]; omega
        | case2 s h => rw [stripNosj]; exact Nat.le_refl _; exact h
      simpa [trimJson] using this a.reverse
    rw [h, List.length_append] at hl
    have : (str ".json").length = 5 := by decide
    omega
  · intro h
    unfold trimJson
    have : stripNosj s.reverse = s.reverse := by
      unfold stripNosj
      split
      · rename_i rest he
        exfalso
        apply h
        refine ⟨rest.reverse, ?_⟩
        have : s = (110 :: 111 :: 115 :: 106 :: 46 :: rest).reverse := by rw [← he, List.reverse_reverse]
        rw [this]
        simp only [List.reverse_cons, List.append_assoc]
        rfl
      · rfl
    rw [this, List.reverse_reverse]

/-- The key read from the path of any entry: none if the name contains '/', otherwise the version and the name
without trailing ".json". -/
theorem assetKey_path {v : Nat} (hv : v < 2 ^ 32) (name : Str) :
    assetKey (assetPath v name) = if (47 : UInt8) ∈ name then none else some (v, trimJson name) := by
  have hs : splitSlash (assetPath v name) = decimal v :: splitSlash (name ++ str ".json") := by
    rw [assetPath, List.append_assoc, List.append_assoc]
    exact splitSlash_append _ (decimal_noSlash v)
  unfold assetKey
  rw [hs]
  by_cases hm : (47 : UInt8) ∈ name
  · rw [if_pos hm]
    obtain ⟨a, b, rest, he⟩ := splitSlash_slash (s := name ++ str ".json") (List.mem_append_left _ hm)
    rw [he]
  · rw [if_neg hm, splitSlash_noSlash (s := name ++ str ".json") (by
      intro h
      rcases List.mem_append.1 h with h | h
      · exact hm h
      · revert h; decide)]
    simp only [parse_decimal hv, trimJson_json]

/-- The version and the name are recovered from the path of an entry exactly if the name contains no '/' and does not
end in ".json". -/
theorem C62_path_round_trip (v : Nat) (hv : v < 2 ^ 32) (name : Str) :
    assetKey (assetPath v name) = some (v, name) ↔ (47 : UInt8) ∉ name ∧ ¬ str ".json" <:+ name := by
  rw [assetKey_path hv, ← trimJson_id]
  split
  · rename_i h
    simp [h]
  · rename_i h
    simp [h]

example : assetPath 89634 (str "Zergling") = str "89634/Zergling.json" ∧
    assetKey (str "89634/Zergling.json") = some (89634, str "Zergling") := by decide +kernel

/-! ## Tables -/

/-- Two tables with the same content. -/
def SameTable {U : Type} (a b : UnitTable U) : Prop := ∀ k, a.get k = b.get k

/-- No key with two values. -/
def Functional {U : Type} (es : List ((Nat × Str) × U)) : Prop := ∀ k u u', (k, u) ∈ es → (k, u') ∈ es → u = u'

theorem get_iff {U : Type} {es : List ((Nat × Str) × U)} (hf : Functional es) (k : Nat × Str) (u : U) :
    UnitTable.get es k = some u ↔ (k, u) ∈ es := by
  unfold UnitTable.get
  constructor
  · intro h
    obtain ⟨e, he, hu⟩ := Option.map_eq_some_iff.1 h
    have h1 := List.mem_of_find?_eq_some he
    have h2 := List.find?_some he
    simp only [decide_eq_true_eq] at h2
    obtain ⟨k', u'⟩ := e
    simp only at h2 hu
    subst h2 hu
    exact h1
  · intro h
    cases hfd : es.find? (fun e => decide (e.1 = k)) with
    | none =>
      rw [List.find?_eq_none] at hfd
      exact absurd (decide_eq_true rfl) (hfd _ h)
    | some e =>
      have h1 := List.mem_of_find?_eq_some hfd
      have h2 := List.find?_some hfd
      simp only [decide_eq_true_eq] at h2
      obtain ⟨k', u'⟩ := e
      simp only at h2
      subst h2
      simp only [Option.map_some, Option.some.injEq]
      exact hf _ _ _ h1 h

theorem sameTable_of_mem {U : Type} {a b : List ((Nat × Str) × U)} (hb : Functional b) (h : ∀ e, e ∈ a ↔ e ∈ b) : SameTable a b := by
  have ha : Functional a := fun k u u' h1 h2 => hb k u u' ((h _).1 h1) ((h _).1 h2)
  intro k
  apply Option.ext
  intro u
  rw [get_iff ha, get_iff hb, h]

/-- The entries a root directory holds, in the order they are read: the unit files of the directories with a numeric
name. -/
def dirEntries {U : Type} (parse : List UInt8 → Option U) (dirs : List (Str × Option (List (Str × Option (List UInt8))))) :
    List ((Nat × Str) × Option U) :=
  dirs.flatMap (fun d => match d.2, parseU32 d.1 with
    | some es, some v => es.flatMap (fun e => match e.2 with
      | some c => [((v, trimJson e.1), parse c)]
      | none => [])
    | _, _ => [])

/-- Inserts entries one after the other; the first one that cannot be decoded ends the reading. -/
def insertAll {U : Type} : List ((Nat × Str) × Option U) → UnitTable U → Res (UnitTable U)
  | [], t => .ok t
  | (_, none) :: _, _ => .err (.other 9)
  | (k, some u) :: rest, t => insertAll rest ((k, u) :: t)

theorem insertAll_append {U : Type} : ∀ (a b : List ((Nat × Str) × Option U)) (t : UnitTable U),
    insertAll (a ++ b) t = (insertAll a t >>= fun t' => insertAll b t')
  | [], b, t => by simp [insertAll]
  | (k, none) :: a, b, t => rfl
  | (k, some u) :: a, b, t => by
    simp only [List.cons_append, insertAll]
    exact insertAll_append a b _

theorem readVersionDir_eq {U : Type} (parse : List UInt8 → Option U) (v : Nat) : ∀ (es : List (Str × Option (List UInt8)))
    (t : UnitTable U), readVersionDir parse v es t = insertAll (es.flatMap (fun e => match e.2 with
      | some c => [((v, trimJson e.1), parse c)]
      | none => [])) t
  | [], t => rfl
  | (f, none) :: es, t => by
    rw [readVersionDir, readVersionDir_eq parse v es t]
    rfl
  | (f, some c) :: es, t => by
    rw [readVersionDir, List.flatMap_cons]
    cases hp : parse c with
    | none => simp only [hp]; rfl
    | some u =>
      simp only [hp, List.cons_append, List.nil_append, insertAll]
      exact readVersionDir_eq parse v es _

theorem readJsonDir_eq {U : Type} (parse : List UInt8 → Option U) : ∀ (dirs : List (Str × Option (List (Str × Option (List UInt8)))))
    (t : UnitTable U), readJsonDir parse dirs t = insertAll (dirEntries parse dirs) t
  | [], t => rfl
  | (d, none) :: dirs, t => by
    rw [readJsonDir, readJsonDir_eq parse dirs t]
    rfl
  | (d, some es) :: dirs, t => by
    rw [readJsonDir, dirEntries, List.flatMap_cons]
    cases hv : parseU32 d with
    | none =>
      simp only [hv, List.nil_append]
      exact readJsonDir_eq parse dirs t
    | some v =>
      simp only [hv]
      rw [insertAll_append, readVersionDir_eq]
      congr 1
      funext t'
      exact readJsonDir_eq parse dirs t'

theorem insertAll_ok {U : Type} : ∀ (es : List ((Nat × Str) × Option U)) (t : UnitTable U), (∀ e ∈ es, e.2 ≠ none) →
    ∃ t', insertAll es t = .ok t' ∧ ∀ k u, (k, u) ∈ t' ↔ (k, some u) ∈ es ∨ (k, u) ∈ t
  | [], t, _ => ⟨t, rfl, by simp⟩
  | (k, none) :: es, t, h => absurd rfl (h _ List.mem_cons_self)
  | (k, some u) :: es, t, h => by
    obtain ⟨t', h1, h2⟩ := insertAll_ok es ((k, u) :: t) (fun e he => h e (List.mem_cons_of_mem _ he))
    refine ⟨t', h1, fun k' u' => ?_⟩
    rw [h2]
    simp only [List.mem_cons, Prod.mk.injEq, Option.some.injEq]
    constructor
    · rintro (h | ⟨rfl, rfl⟩ | h)
      · exact .inl (.inr h)
      · exact .inl (.inl ⟨rfl, rfl⟩)
      · exact .inr h
    · rintro ((⟨rfl, rfl⟩ | h) | h)
      · exact .inr (.inl ⟨rfl, rfl⟩)
      · exact .inl h
      · exact .inr (.inr h)

theorem insertAll_err {U : Type} : ∀ (es : List ((Nat × Str) × Option U)) (t : UnitTable U), (∃ e ∈ es, e.2 = none) →
    insertAll es t = .err (.other 9)
  | [], t, h => by simp at h
  | (k, none) :: es, t, _ => rfl
  | (k, some u) :: es, t, h => by
    rw [insertAll]
    apply insertAll_err
    obtain ⟨e, he, hn⟩ := h
    rcases List.mem_cons.1 he with rfl | he
    · cases hn
    · exact ⟨e, he, hn⟩

theorem mem_dirEntries {U : Type} {parse : List UInt8 → Option U} {dirs : List (Str × Option (List (Str × Option (List UInt8))))}
    {k : Nat × Str} {o : Option U} : (k, o) ∈ dirEntries parse dirs ↔
    ∃ d es f c, (d, some es) ∈ dirs ∧ (f, some c) ∈ es ∧ parseU32 d = some k.1 ∧ trimJson f = k.2 ∧ parse c = o := by
  unfold dirEntries
  rw [List.mem_flatMap]
  constructor
  · rintro ⟨⟨d, oe⟩, hd, hm⟩
    cases oe with
    | none => cases hm
    | some es =>
      simp only at hm
      cases hv : parseU32 d with
      | none => rw [hv] at hm; cases hm
      | some v =>
        rw [hv] at hm
        obtain ⟨⟨f, oc⟩, hf, hm⟩ := List.mem_flatMap.1 hm
        cases oc with
        | none => cases hm
        | some c =>
          simp only [List.mem_singleton, Prod.mk.injEq] at hm
          obtain ⟨rfl, rfl⟩ := hm
          exact ⟨d, es, f, c, hd, hf, hv, rfl, rfl⟩
  · rintro ⟨d, es, f, c, hd, hf, hv, h1, rfl⟩
    refine ⟨(d, some es), hd, ?_⟩
    simp only [hv]
    refine List.mem_flatMap.2 ⟨(f, some c), hf, ?_⟩
    obtain ⟨k1, k2⟩ := k
    simp only at h1
    subst h1
    exact List.mem_singleton.2 rfl

/-- `dirs` lists the files of the form `directory/file` among `files`. -/
def Listing (files : List (List Str × List UInt8)) (dirs : List (Str × Option (List (Str × Option (List UInt8))))) : Prop :=
  ∀ d f c, ([d, f], c) ∈ files ↔ ∃ es, (d, some es) ∈ dirs ∧ (f, some c) ∈ es

theorem writeJson_path {v : Nat} {n : Str} (h : (47 : UInt8) ∉ n) : splitSlash (assetPath v n) = [decimal v, n ++ str ".json"] := by
  have hs : splitSlash (assetPath v n) = decimal v :: splitSlash (n ++ str ".json") := by
    rw [assetPath, List.append_assoc, List.append_assoc]
    exact splitSlash_append _ (decimal_noSlash v)
  rw [hs, splitSlash_noSlash (s := n ++ str ".json") (by
    intro h'
    rcases List.mem_append.1 h' with h' | h'
    · exact h h'
    · revert h'; decide)]

/-- Balance data written to an empty directory are read back as the same table, in whatever order the files were written
and are listed, if no unit name contains '/' or ends in ".json". -/
theorem C115_round_trip_partial {U : Type} (json : U → List UInt8) (parse : List UInt8 → Option U)
    (table : List ((Nat × Str) × U)) (hj : ∀ e ∈ table, parse (json e.2) = some e.2) (hf : Functional table)
    (hk : ∀ e ∈ table, e.1.1 < 2 ^ 32 ∧ (47 : UInt8) ∉ e.1.2 ∧ ¬ str ".json" <:+ e.1.2)
    (dirs : List (Str × Option (List (Str × Option (List UInt8))))) (hl : Listing (writeJson json table) dirs) :
    ∃ t, readJsonDir parse dirs [] = .ok t ∧ SameTable t table := by
  -- what is listed
  have hm : ∀ k o, (k, o) ∈ dirEntries parse dirs ↔ ∃ u, o = some u ∧ (k, u) ∈ table := by
    intro k o
    rw [mem_dirEntries]
    constructor
    · rintro ⟨d, es, f, c, hd, hf', hv, ht, hp⟩
      have hw := (hl d f c).2 ⟨es, hd, hf'⟩
      obtain ⟨⟨⟨v, n⟩, u⟩, he, hpath⟩ := List.mem_map.1 hw
      obtain ⟨hv', hn1, hn2⟩ := hk _ he
      simp only at hv' hn1 hn2 hpath
      rw [writeJson_path hn1] at hpath
      simp only [Prod.mk.injEq, List.cons.injEq, and_true] at hpath
      obtain ⟨⟨rfl, rfl⟩, rfl⟩ := hpath
      rw [parse_decimal hv', Option.some.injEq] at hv
      rw [trimJson_json, (trimJson_id n).2 hn2] at ht
      refine ⟨u, by rw [← hp, hj _ he], ?_⟩
      obtain ⟨k1, k2⟩ := k
      simp only at hv ht
      subst hv ht
      exact he
    · rintro ⟨u, rfl, he⟩
      obtain ⟨v, n⟩ := k
      obtain ⟨hv', hn1, hn2⟩ := hk _ he
      simp only at hv' hn1 hn2
      have hw : ([decimal v, n ++ str ".json"], json u) ∈ writeJson json table := by
        refine List.mem_map.2 ⟨_, he, ?_⟩
        simp only [writeJson_path hn1]
      obtain ⟨es, h1, h2⟩ := (hl _ _ _).1 hw
      exact ⟨_, es, _, _, h1, h2, parse_decimal hv', by rw [trimJson_json, (trimJson_id n).2 hn2], hj _ he⟩
  rw [readJsonDir_eq]
  obtain ⟨t, h1, h2⟩ := insertAll_ok (dirEntries parse dirs) [] (by
    rintro ⟨k, o⟩ he
    obtain ⟨u, rfl, _⟩ := (hm k o).1 he
    simp)
  refine ⟨t, h1, sameTable_of_mem hf ?_⟩
  rintro ⟨k, u⟩
  rw [h2, hm]
  constructor
  · rintro (⟨u', h, he⟩ | h)
    · simp only [Option.some.injEq] at h
      exact h ▸ he
    · cases h
  · intro h
    exact .inl ⟨u, rfl, h⟩

/-- Concretely, with single bytes as units: two units in one version, one in another. -/
example : readJsonDir (U := UInt8) List.head? [(str "70154", some [(str "Zergling.json", some [2]), (str "Marine.json", some [1])]),
    (str "readme.txt", none), (str "89634", some [(str "Marine.json", some [3])])] [] =
    .ok [((89634, str "Marine"), 3), ((70154, str "Marine"), 1), ((70154, str "Zergling"), 2)] := by decide +kernel

example : Listing (writeJson (fun b : UInt8 => [b]) [((70154, str "Marine"), 1)]) [(str "70154", some [(str "Marine.json", some [1])])] := by
  intro d f c
  rw [show writeJson (fun b : UInt8 => [b]) [((70154, str "Marine"), 1)] = [([str "70154", str "Marine.json"], [1])] by decide +kernel]
  simp only [List.mem_singleton, Prod.mk.injEq, List.cons.injEq, and_true, Option.some.injEq]
  constructor
  · rintro ⟨⟨rfl, rfl⟩, rfl⟩
    exact ⟨_, ⟨rfl, rfl⟩, List.mem_singleton.2 rfl⟩
  · rintro ⟨es, ⟨rfl, rfl⟩, h⟩
    simp only [List.mem_singleton, Prod.mk.injEq, Option.some.injEq] at h
    exact ⟨⟨rfl, h.1⟩, h.2⟩

/-- A unit whose name ends in ".json" comes back under another name; one whose name contains '/' does not come back. -/
theorem C115_round_trip_refuted :
    (writeJson (fun b : UInt8 => [b]) [((1, str "a.json"), 7)] = [([str "1", str "a.json.json"], [7])] ∧
      readJsonDir (U := UInt8) List.head? [(str "1", some [(str "a.json.json", some [7])])] [] = .ok [((1, str "a"), 7)]) ∧
    (writeJson (fun b : UInt8 => [b]) [((1, str "a/b"), 7)] = [([str "1", str "a", str "b.json"], [7])] ∧
      readJsonDir (U := UInt8) List.head? [(str "1", some [(str "a", none)])] [] = .ok []) := by decide +kernel

/-- The order of directory entries does not matter if no two files have the same key. -/
theorem C116_listing_order_partial {U : Type} (parse : List UInt8 → Option U)
    (dirs dirs' : List (Str × Option (List (Str × Option (List UInt8)))))
    (hsame : ∀ d f c, (∃ es, (d, some es) ∈ dirs ∧ (f, some c) ∈ es) ↔ ∃ es, (d, some es) ∈ dirs' ∧ (f, some c) ∈ es)
    (hf : ∀ k u u', (k, some u) ∈ dirEntries parse dirs → (k, some u') ∈ dirEntries parse dirs → u = u') :
    (∃ t t', readJsonDir parse dirs [] = .ok t ∧ readJsonDir parse dirs' [] = .ok t' ∧ SameTable t t') ∨
    (readJsonDir parse dirs [] = .err (.other 9) ∧ readJsonDir parse dirs' [] = .err (.other 9)) := by
  have hm : ∀ e, e ∈ dirEntries parse dirs ↔ e ∈ dirEntries parse dirs' := by
    rintro ⟨k, o⟩
    rw [mem_dirEntries, mem_dirEntries]
    constructor
    · rintro ⟨d, es, f, c, h1, h2, h3⟩
      obtain ⟨es', h1', h2'⟩ := (hsame d f c).1 ⟨es, h1, h2⟩
      exact ⟨d, es', f, c, h1', h2', h3⟩
    · rintro ⟨d, es, f, c, h1, h2, h3⟩
      obtain ⟨es', h1', h2'⟩ := (hsame d f c).2 ⟨es, h1, h2⟩
      exact ⟨d, es', f, c, h1', h2', h3⟩
  rw [readJsonDir_eq, readJsonDir_eq]
  by_cases hn : ∃ e ∈ dirEntries parse dirs, e.2 = none
  · right
    obtain ⟨e, he, h0⟩ := hn
    exact ⟨insertAll_err _ _ ⟨e, he, h0⟩, insertAll_err _ _ ⟨e, (hm e).1 he, h0⟩⟩
  · left
    obtain ⟨t, h1, h2⟩ := insertAll_ok (dirEntries parse dirs) [] (fun e he h0 => hn ⟨e, he, h0⟩)
    obtain ⟨t', h1', h2'⟩ := insertAll_ok (dirEntries parse dirs') [] (fun e he h0 => hn ⟨e, (hm e).2 he, h0⟩)
    refine ⟨t, t', h1, h1', sameTable_of_mem ?_ ?_⟩
    · intro k u u' hu hu'
      rw [h2'] at hu hu'
      simp only [List.not_mem_nil, or_false] at hu hu'
      exact hf k u u' ((hm _).2 hu) ((hm _).2 hu')
    · rintro ⟨k, u⟩
      rw [h2, h2', hm]

/-- The directories "1" and "01" (or "+1") both hold version 1: the table depends on the order in which they are listed. -/
theorem C116_listing_order_refuted : ∃ dirs dirs' : List (Str × Option (List (Str × Option (List UInt8)))), dirs'.Perm dirs ∧
    ∃ t t' : UnitTable UInt8, readJsonDir List.head? dirs [] = .ok t ∧ readJsonDir List.head? dirs' [] = .ok t' ∧
      t.get (1, str "a") = some 7 ∧ t'.get (1, str "a") = some 8 :=
  ⟨[(str "01", some [(str "a.json", some [8])]), (str "1", some [(str "a.json", some [7])])],
   [(str "1", some [(str "a.json", some [7])]), (str "01", some [(str "a.json", some [8])])],
   List.Perm.swap _ _ _, [((1, str "a"), 7), ((1, str "a"), 8)], [((1, str "a"), 8), ((1, str "a"), 7)],
   by decide +kernel, by decide +kernel, by decide +kernel, by decide +kernel⟩

/-! ## Included assets -/

/-- The entries among assets. -/
def assetEntries {U : Type} (parse : List UInt8 → Option U) (as : List (Str × List UInt8)) : List ((Nat × Str) × Option U) :=
  as.filterMap (fun a => (assetKey a.1).map (fun k => (k, parse a.2)))

theorem readAssets_eq {U : Type} (parse : List UInt8 → Option U) : ∀ (as : List (Str × List UInt8)) (t : UnitTable U),
    readAssets parse as t = insertAll (assetEntries parse as) t
  | [], t => rfl
  | (f, c) :: as, t => by
    rw [readAssets, assetEntries, List.filterMap_cons]
    cases hk : assetKey f with
    | none =>
      simp only [Option.map_none]
      exact readAssets_eq parse as t
    | some k =>
      simp only [Option.map_some]
      cases hp : parse c with
      | none => rfl
      | some u =>
        simp only [insertAll]
        exact readAssets_eq parse as _

/-- A table packed into the binary under its asset paths is read back unchanged, in whatever order the assets are
enumerated and whatever files with other names are packed with it, if no unit name contains '/' or ends in ".json". -/
theorem C62_assets_round_trip {U : Type} (json : U → List UInt8) (parse : List UInt8 → Option U)
    (table : List ((Nat × Str) × U)) (hj : ∀ e ∈ table, parse (json e.2) = some e.2) (hf : Functional table)
    (hk : ∀ e ∈ table, e.1.1 < 2 ^ 32 ∧ (47 : UInt8) ∉ e.1.2 ∧ ¬ str ".json" <:+ e.1.2)
    (assets : List (Str × List UInt8))
    (ha : ∀ f c, (f, c) ∈ assets → assetKey f ≠ none → ∃ v n u, ((v, n), u) ∈ table ∧ f = assetPath v n ∧ c = json u)
    (hb : ∀ v n u, ((v, n), u) ∈ table → (assetPath v n, json u) ∈ assets) :
    ∃ t, readAssets parse assets [] = .ok t ∧ SameTable t table := by
  have hm : ∀ k o, (k, o) ∈ assetEntries parse assets ↔ ∃ u, o = some u ∧ (k, u) ∈ table := by
    intro k o
    unfold assetEntries
    rw [List.mem_filterMap]
    constructor
    · rintro ⟨⟨f, c⟩, hm, he⟩
      obtain ⟨k', hk', he⟩ := Option.map_eq_some_iff.1 he
      obtain ⟨v, n, u, h1, rfl, rfl⟩ := ha f c hm (by simp only at hk'; rw [hk']; simp)
      obtain ⟨h2, h3, h4⟩ := hk _ h1
      rw [(C62_path_round_trip v h2 n).2 ⟨h3, h4⟩] at hk'
      simp only [Option.some.injEq] at hk'
      subst hk'
      simp only [Prod.mk.injEq] at he
      exact ⟨u, by rw [← he.2, hj _ h1], he.1 ▸ h1⟩
    · rintro ⟨u, rfl, h⟩
      obtain ⟨v, n⟩ := k
      obtain ⟨h2, h3, h4⟩ := hk _ h
      refine ⟨_, hb v n u h, ?_⟩
      simp only [(C62_path_round_trip v h2 n).2 ⟨h3, h4⟩, hj _ h, Option.map_some]
  rw [readAssets_eq]
  obtain ⟨t, h1, h2⟩ := insertAll_ok (assetEntries parse assets) [] (by
    rintro ⟨k, o⟩ he
    obtain ⟨u, rfl, _⟩ := (hm k o).1 he
    simp)
  refine ⟨t, h1, sameTable_of_mem hf ?_⟩
  rintro ⟨k, u⟩
  rw [h2, hm]
  simp

example : readAssets (U := UInt8) List.head? [(str "1/Marine.json", [5]), (str "README", []), (str "x/y/z.json", []),
    (str "two/Marine.json", [])] [] = .ok [((1, str "Marine"), 5)] := by decide +kernel

/-! ## C117: the XML export -/

/-- The unit in a file of a version directory: a file called `*.xml` that holds a unit. -/
def xmlUnit {U : Type} (parse : List UInt8 → Option U) (e : Str × Option (List UInt8)) : Option U :=
  match e.2 with
  | some c => if Files.extension e.1 = some (str "xml") then parse c else none
  | none => none

theorem readXmlDir_ok {U : Type} {parse : List UInt8 → Option U} {ident : U → Str} {v : Nat} :
    ∀ {es : List (Str × Option (List UInt8))} {t t' : UnitTable U}, readXmlDir parse ident v es t = .ok t' →
    t' = (es.filterMap (xmlUnit parse)).reverse.map (fun u => ((v, ident u), u)) ++ t
  | [], t, t', h => by
    simp only [readXmlDir, Res.ok.injEq] at h
    rw [h]; rfl
  | (f, none) :: es, t, t', h => by
    rw [readXmlDir] at h
    rw [readXmlDir_ok h]
    rfl
  | (f, some c) :: es, t, t', h => by
    rw [readXmlDir] at h
    split at h
    · rename_i hx
      split at h
      · split at h
        · rename_i hp
          rw [readXmlDir_ok h, List.filterMap_cons]
          simp only [xmlUnit, hx, if_true, hp]
        · rename_i u hp
          rw [readXmlDir_ok h, List.filterMap_cons]
          simp only [xmlUnit, hx, if_true, hp]
          simp
      · cases h
    · rename_i hx
      rw [readXmlDir_ok h, List.filterMap_cons]
      simp only [xmlUnit, hx, if_false]

theorem readXmlRoot_ok {U : Type} {parse : List UInt8 → Option U} {ident : U → Str} :
    ∀ {dirs : List (Str × Option (List (Str × Option (List UInt8))))} {t t' : UnitTable U}, readXmlRoot parse ident dirs t = .ok t' →
    ∀ k u, (k, u) ∈ t' ↔ (∃ d es e, (d, some es) ∈ dirs ∧ e ∈ es ∧ parseU32 d = some k.1 ∧ xmlUnit parse e = some u ∧ ident u = k.2) ∨
      (k, u) ∈ t
  | [], t, t', h, k, u => by
    simp only [readXmlRoot, Res.ok.injEq] at h
    simp [h]
  | (d, none) :: dirs, t, t', h, k, u => by
    rw [readXmlRoot] at h
    rw [readXmlRoot_ok h]
    simp
  | (d, some es) :: dirs, t, t', h, k, u => by
    rw [readXmlRoot] at h
    split at h
    · rename_i hv
      rw [readXmlRoot_ok h]
      constructor
      · rintro (⟨d', es', e, h1, h2⟩ | h1)
        · exact .inl ⟨d', es', e, List.mem_cons_of_mem _ h1, h2⟩
        · exact .inr h1
      · rintro (⟨d', es', e, h1, h2, h3, h4⟩ | h1)
        · rcases List.mem_cons.1 h1 with h1 | h1
          · simp only [Prod.mk.injEq, Option.some.injEq] at h1
            rw [h1.1, hv] at h3
            cases h3
          · exact .inl ⟨d', es', e, h1, h2, h3, h4⟩
        · exact .inr h1
    · rename_i v hv
      obtain ⟨t1, h1, h2⟩ := Res.bind_eq_ok.1 h
      rw [readXmlRoot_ok h2, readXmlDir_ok h1, List.mem_append, List.mem_map]
      simp only [List.mem_reverse, List.mem_filterMap, Prod.mk.injEq]
      constructor
      · rintro (⟨d', es', e, h1, h2⟩ | ⟨u', ⟨e, he, hu⟩, hk, rfl⟩ | h1)
        · exact .inl ⟨d', es', e, List.mem_cons_of_mem _ h1, h2⟩
        · exact .inl ⟨d, es, e, List.mem_cons_self, he, by rw [hv, ← hk], hu, by rw [← hk]⟩
        · exact .inr h1
      · rintro (⟨d', es', e, h1, h2, h3, h4, h5⟩ | h1)
        · rcases List.mem_cons.1 h1 with h1 | h1
          · simp only [Prod.mk.injEq, Option.some.injEq] at h1
            obtain ⟨rfl, rfl⟩ := h1
            rw [hv, Option.some.injEq] at h3
            exact .inr (.inl ⟨u, ⟨e, h2, h4⟩, by rw [h3, h5], rfl⟩)
          · exact .inl ⟨d', es', e, h1, h2, h3, h4, h5⟩
        · exact .inr (.inr h1)

/-- Reading the game's own export succeeds unless a `*.xml` file is not text; the table then holds, under the version of
its directory and its own id, exactly the units of the `*.xml` files that hold one (for units that appear once).
Files that are not units are skipped. -/
theorem C117_xml_units {U : Type} (parse : List UInt8 → Option U) (ident : U → Str)
    (dirs : List (Str × Option (List (Str × Option (List UInt8))))) (t : UnitTable U) (h : readXmlRoot parse ident dirs [] = .ok t)
    (k : Nat × Str) (hone : ∀ u u', (k, u) ∈ t → (k, u') ∈ t → u = u') (u : U) :
    t.get k = some u ↔ ∃ d es f c, (d, some es) ∈ dirs ∧ (f, some c) ∈ es ∧ parseU32 d = some k.1 ∧
      Files.extension f = some (str "xml") ∧ parse c = some u ∧ ident u = k.2 := by
  have hget : t.get k = some u ↔ (k, u) ∈ t := by
    have hr : t.get k = UnitTable.get (t.filter (fun e => decide (e.1 = k))) k := by
      unfold UnitTable.get
      rw [List.find?_filter]
      simp
    rw [hr, get_iff (by
      intro k' u u' h1 h2
      simp only [List.mem_filter, decide_eq_true_eq] at h1 h2
      obtain ⟨h1, rfl⟩ := h1
      exact hone u u' h1 h2.1)]
    simp
  rw [hget, readXmlRoot_ok h]
  simp only [List.not_mem_nil, or_false]
  constructor
  · rintro ⟨d, es, ⟨f, oc⟩, h1, h2, h3, h4, h5⟩
    cases oc with
    | none => cases h4
    | some c =>
      simp only [xmlUnit] at h4
      split at h4
      · rename_i hx
        exact ⟨d, es, f, c, h1, h2, h3, hx, h4, h5⟩
      · cases h4
  · rintro ⟨d, es, f, c, h1, h2, h3, hx, h4, h5⟩
    exact ⟨d, es, (f, some c), h1, h2, h3, by simp only [xmlUnit, hx, if_true, h4], h5⟩

/-- The contents of the `*.xml` files of one version directory, with the version. -/
def xmlOf (v : Nat) (es : List (Str × Option (List UInt8))) : List (Nat × List UInt8) :=
  es.filterMap fun e => match e.2 with
    | some c => if Files.extension e.1 = some (str "xml") then some (v, c) else none
    | none => none

/-- Those of all the directories with a number for a name, in the order in which they are listed. -/
def xmlFiles (dirs : List (Str × Option (List (Str × Option (List UInt8))))) : List (Nat × List UInt8) :=
  dirs.flatMap fun d => match parseU32 d.1, d.2 with
    | some v, some es => xmlOf v es
    | _, _ => []

/-- The unit that such a file holds for key `k`, if any. -/
def unitFor {U : Type} (parse : List UInt8 → Option U) (ident : U → Str) (k : Nat × Str) (f : Nat × List UInt8) : Option U :=
  match parse f.2 with
  | some u => if f.1 = k.1 ∧ ident u = k.2 then some u else none
  | none => none

/-- The entry made of a file [proof device, no counterpart in /repo]. -/
def fileEntry {U : Type} (parse : List UInt8 → Option U) (ident : U → Str) (f : Nat × List UInt8) : Option ((Nat × Str) × U) :=
  (parse f.2).map fun u => ((f.1, ident u), u)

theorem xmlOf_entries {U : Type} (parse : List UInt8 → Option U) (ident : U → Str) (v : Nat) : ∀ es : List (Str × Option (List UInt8)),
    (xmlOf v es).filterMap (fileEntry parse ident) = (es.filterMap (xmlUnit parse)).map (fun u => ((v, ident u), u))
  | [] => rfl
  | (f, none) :: es => by
    have := xmlOf_entries parse ident v es
    simp only [xmlOf, List.filterMap_cons, xmlUnit] at this ⊢
    exact this
  | (f, some c) :: es => by
    have := xmlOf_entries parse ident v es
    simp only [xmlOf, List.filterMap_cons, xmlUnit] at this ⊢
    by_cases hx : Files.extension f = some (str "xml")
    · simp only [hx, if_true, List.filterMap_cons, fileEntry]
      cases parse c with
      | none => exact this
      | some u => simp only [Option.map_some, List.map_cons, List.cons.injEq, true_and]; exact this
    · simp only [hx, if_false]
      exact this

theorem readXmlRoot_entries {U : Type} {parse : List UInt8 → Option U} {ident : U → Str} :
    ∀ {dirs : List (Str × Option (List (Str × Option (List UInt8))))} {t t' : UnitTable U}, readXmlRoot parse ident dirs t = .ok t' →
    t' = ((xmlFiles dirs).filterMap (fileEntry parse ident)).reverse ++ t
  | [], t, t', h => by
    simp only [readXmlRoot, Res.ok.injEq] at h
    rw [h]; rfl
  | (d, none) :: dirs, t, t', h => by
    rw [readXmlRoot] at h
    rw [readXmlRoot_entries h, xmlFiles, xmlFiles, List.flatMap_cons]
    cases parseU32 d <;> simp
  | (d, some es) :: dirs, t, t', h => by
    rw [readXmlRoot] at h
    split at h
    · rename_i hv
      rw [readXmlRoot_entries h, xmlFiles, xmlFiles, List.flatMap_cons]
      simp [hv]
    · rename_i v hv
      obtain ⟨t1, h1, h2⟩ := Res.bind_eq_ok.1 h
      rw [readXmlRoot_entries h2, readXmlDir_ok h1]
      have : xmlFiles ((d, some es) :: dirs) = xmlOf v es ++ xmlFiles dirs := by
        rw [xmlFiles, xmlFiles, List.flatMap_cons]
        simp only [hv]
      rw [this, List.filterMap_append, List.reverse_append, xmlOf_entries, List.append_assoc, List.map_reverse]

/-- **C117 (last wins)** without a condition: the table has for a version and an id the unit of the last listed `*.xml` file
of a directory with that number that holds a unit of that id, and nothing if there is none. -/
theorem C117_last_wins {U : Type} (parse : List UInt8 → Option U) (ident : U → Str)
    (dirs : List (Str × Option (List (Str × Option (List UInt8))))) (t : UnitTable U) (h : readXmlRoot parse ident dirs [] = .ok t)
    (k : Nat × Str) : t.get k = ((xmlFiles dirs).filterMap (unitFor parse ident k)).getLast? := by
  rw [readXmlRoot_entries h, List.append_nil, UnitTable.get, ← List.head?_filter, List.filter_reverse, List.head?_reverse,
    ← List.getLast?_map, List.filter_filterMap, List.map_filterMap]
  congr 2
  funext ⟨v, c⟩
  simp only [fileEntry, unitFor]
  cases parse c with
  | none => rfl
  | some u =>
    simp only [Option.map_some, Option.filter]
    by_cases hk : v = k.1 ∧ ident u = k.2
    · have : (v, ident u) = k := by rw [hk.1, hk.2]
      simp [hk]
    · have : (v, ident u) ≠ k := by rintro rfl; exact hk ⟨rfl, rfl⟩
      simp [hk, this]

/-- Two versions of a marine in one directory: the one listed last is kept. -/
example : readXmlRoot (U := UInt8) List.head? (fun _ => str "Marine") [(str "7", some [(str "a.xml", some [1]), (str "b.xml", some [2]),
    (str "c.txt", some [3])])] [] = .ok [((7, str "Marine"), 2), ((7, str "Marine"), 1)] := by decide +kernel

theorem readXmlDir_err {U : Type} {parse : List UInt8 → Option U} {ident : U → Str} {v : Nat} :
    ∀ (es : List (Str × Option (List UInt8))) (t : UnitTable U), (∃ t', readXmlDir parse ident v es t = .ok t') ↔
    ∀ f c, (f, some c) ∈ es → Files.extension f = some (str "xml") → utf8Ok c = true
  | [], t => by simp [readXmlDir]
  | (f, none) :: es, t => by
    rw [readXmlDir, readXmlDir_err es t]
    simp
  | (f, some c) :: es, t => by
    rw [readXmlDir]
    by_cases hx : Files.extension f = some (str "xml")
    · rw [if_pos hx]
      by_cases hu : utf8Ok c = true
      · rw [if_pos hu]
        have : (∀ f' c', (f', some c') ∈ (f, some c) :: es → Files.extension f' = some (str "xml") → utf8Ok c' = true) ↔
            ∀ f' c', (f', some c') ∈ es → Files.extension f' = some (str "xml") → utf8Ok c' = true := by
          constructor
          · exact fun h f' c' hm => h f' c' (List.mem_cons_of_mem _ hm)
          · intro h f' c' hm
            rcases List.mem_cons.1 hm with hm | hm
            · simp only [Prod.mk.injEq, Option.some.injEq] at hm
              rw [hm.2]; exact fun _ => hu
            · exact h f' c' hm
        rw [this]
        split
        · exact readXmlDir_err es t
        · exact readXmlDir_err es _
      · rw [if_neg hu]
        constructor
        · rintro ⟨t', h⟩; cases h
        · intro h
          exact absurd (h f c List.mem_cons_self hx) hu
    · rw [if_neg hx, readXmlDir_err es t]
      constructor
      · intro h f' c' hm hx'
        rcases List.mem_cons.1 hm with hm | hm
        · simp only [Prod.mk.injEq] at hm
          rw [hm.1] at hx'
          exact absurd hx' hx
        · exact h f' c' hm hx'
      · exact fun h f' c' hm => h f' c' (List.mem_cons_of_mem _ hm)

/-- Reading the game's own export gives a table exactly if all the `*.xml` files of numbered versions are UTF-8; unlike
broken units, a file that is not text makes the whole reading fail. -/
theorem C117_xml_reads_iff {U : Type} (parse : List UInt8 → Option U) (ident : U → Str) :
    ∀ (dirs : List (Str × Option (List (Str × Option (List UInt8))))) (t : UnitTable U),
    (∃ t', readXmlRoot parse ident dirs t = .ok t') ↔ ∀ d es f c, (d, some es) ∈ dirs → parseU32 d ≠ none → (f, some c) ∈ es →
      Files.extension f = some (str "xml") → utf8Ok c = true
  | [], t => by simp [readXmlRoot]
  | (d, none) :: dirs, t => by
    rw [readXmlRoot, C117_xml_reads_iff parse ident dirs t]
    simp
  | (d, some es) :: dirs, t => by
    rw [readXmlRoot]
    cases hv : parseU32 d with
    | none =>
      dsimp only
      rw [C117_xml_reads_iff parse ident dirs t]
      constructor
      · intro h d' es' f c hm hv'
        rcases List.mem_cons.1 hm with hm | hm
        · simp only [Prod.mk.injEq] at hm
          rw [hm.1, hv] at hv'
          exact absurd rfl hv'
        · exact h d' es' f c hm hv'
      · exact fun h d' es' f c hm => h d' es' f c (List.mem_cons_of_mem _ hm)
    | some v =>
      dsimp only
      constructor
      · rintro ⟨t', h⟩
        obtain ⟨t1, h1, h2⟩ := Res.bind_eq_ok.1 h
        have ha := (readXmlDir_err (parse := parse) (ident := ident) (v := v) es t).1 ⟨t1, h1⟩
        have hb := (C117_xml_reads_iff parse ident dirs t1).1 ⟨t', h2⟩
        intro d' es' f c hm hv' hf
        rcases List.mem_cons.1 hm with hm | hm
        · simp only [Prod.mk.injEq, Option.some.injEq] at hm
          rw [hm.2] at hf
          exact ha f c hf
        · exact hb d' es' f c hm hv' hf
      · intro h
        obtain ⟨t1, h1⟩ := (readXmlDir_err (parse := parse) (ident := ident) (v := v) es t).2 (fun f c hf =>
          h d es f c List.mem_cons_self (by rw [hv]; simp) hf)
        obtain ⟨t2, h2⟩ := (C117_xml_reads_iff parse ident dirs t1).2
          (fun d' es' f c hm => h d' es' f c (List.mem_cons_of_mem _ hm))
        exact ⟨t2, by rw [h1]; exact h2⟩

/-- Units are their own ids here: a unit file, a broken one, one with another extension, a directory that is no version. -/
example : readXmlRoot (U := Str) (fun c => if c.isEmpty then none else some c) id
    [(str "89634", some [(str "a.xml", some (str "Marine")), (str "b.xml", some []), (str "c.txt", some (str "SCV"))]),
     (str "enUS", some [(str "a.xml", some (str "Probe"))]), (str "70154", none)] [] = .ok [((89634, str "Marine"), str "Marine")] := by
  decide +kernel

end S2

namespace S2

/-! ## Which directory names are versions -/

/-- The text of a list of decimal digits. -/
def versionDigitText (ds : List Nat) : Str := ds.map (fun d => UInt8.ofNat (48 + d))

/-- The number a list of decimal digits denotes, after `acc`. -/
def versionDigitValue (acc : Nat) (ds : List Nat) : Nat := ds.foldl (fun a d => 10 * a + d) acc

theorem digitValue_le (ds : List Nat) : ∀ acc, acc ≤ versionDigitValue acc ds := by
  induction ds with
  | nil => intro acc; exact Nat.le_refl _
  | cons d ds ih =>
    intro acc
    have := ih (10 * acc + d)
    show acc ≤ versionDigitValue (10 * acc + d) ds
    omega

theorem parseDigits_iff : ∀ (s : Str) (acc v : Nat), acc < 2 ^ 32 → (parseDigits acc s = some v ↔
    ∃ ds : List Nat, (∀ d ∈ ds, d < 10) ∧ s = versionDigitText ds ∧ v = versionDigitValue acc ds ∧ v < 2 ^ 32)
  | [], acc, v, ha => by
    constructor
    · intro h
      simp only [parseDigits, Option.some.injEq] at h
      exact ⟨[], by simp, rfl, h.symm, by omega⟩
    · rintro ⟨ds, -, h, rfl, -⟩
      have : ds = [] := List.map_eq_nil_iff.1 h.symm
      subst this; rfl
  | c :: cs, acc, v, ha => by
    rw [parseDigits]
    constructor
    · intro h
      split at h
      · rename_i hc
        split at h
        · rename_i hl
          obtain ⟨ds, h1, h2, h3, h4⟩ := (parseDigits_iff cs _ v hl).1 h
          refine ⟨(c.toNat - 48) :: ds, ?_, ?_, ?_, h4⟩
          · intro d hd
            rcases List.mem_cons.1 hd with rfl | hd
            · omega
            · exact h1 d hd
          · rw [versionDigitText, List.map_cons, ← versionDigitText, ← h2]
            congr 1
            apply UInt8.toNat_inj.1
            rw [digit_toNat (by omega)]
            omega
          · rw [h3]
            show _ = versionDigitValue (10 * acc + (c.toNat - 48)) ds
            congr 1
            omega
        · cases h
      · cases h
    · rintro ⟨ds, h1, h2, h3, h4⟩
      match ds, h2 with
      | d :: ds, h2 =>
        rw [versionDigitText, List.map_cons, ← versionDigitText] at h2
        obtain ⟨hc, hcs⟩ := List.cons.inj h2
        have hd : d < 10 := h1 d (by simp)
        have hcn : c.toNat = 48 + d := by rw [hc, digit_toNat hd]
        have hle := digitValue_le ds (10 * acc + d)
        have h3' : v = versionDigitValue (10 * acc + d) ds := h3
        rw [if_pos (by omega), if_pos (by omega)]
        refine (parseDigits_iff cs _ v (by omega)).2 ⟨ds, fun x hx => h1 x (by simp [hx]), hcs, ?_, h4⟩
        rw [h3']
        congr 1
        omega

theorem digitText_no_plus (ds : List Nat) (h : ∀ d ∈ ds, d < 10) (cs : Str) : versionDigitText ds ≠ 43 :: cs := by
  intro hc
  match ds, hc with
  | d :: ds, hc =>
    rw [versionDigitText, List.map_cons] at hc
    have := congrArg UInt8.toNat (List.cons.inj hc).1
    rw [digit_toNat (h d (by simp))] at this
    have h43 : (43 : UInt8).toNat = 43 := rfl
    omega

/-- **C117 (versions)** a directory stands for version `v` exactly if its name is a decimal number equal to
`v < 2^32`, leading zeros and a leading plus sign allowed. -/
theorem C117_version_names (s : Str) (v : Nat) : parseU32 s = some v ↔
    ∃ ds : List Nat, ds ≠ [] ∧ (∀ d ∈ ds, d < 10) ∧ (s = versionDigitText ds ∨ s = 43 :: versionDigitText ds) ∧
      v = versionDigitValue 0 ds ∧ v < 2 ^ 32 := by
  have key := fun cs => parseDigits_iff cs 0 v (by decide)
  unfold parseU32
  split
  · constructor
    · intro h; cases h
    · rintro ⟨ds, hne, -, h | h, -⟩
      · exact absurd (List.map_eq_nil_iff.1 h.symm) hne
      · cases h
  · constructor
    · intro h; cases h
    · rintro ⟨ds, hne, hd, h | h, -⟩
      · exact absurd h.symm (digitText_no_plus ds hd [])
      · exact absurd (List.map_eq_nil_iff.1 (List.cons.inj h).2.symm) hne
  · rename_i cs hcs
    rw [key]
    constructor
    · rintro ⟨ds, h1, h2, h3, h4⟩
      refine ⟨ds, ?_, h1, .inr (by rw [h2]), h3, h4⟩
      rintro rfl
      apply hcs
      simpa [versionDigitText] using h2
    · rintro ⟨ds, hne, hd, h | h, h3, h4⟩
      · exact absurd h.symm (digitText_no_plus ds hd cs)
      · exact ⟨ds, hd, (List.cons.inj h).2, h3, h4⟩
  · rename_i h1 h2 h3
    rw [key]
    constructor
    · rintro ⟨ds, hd, h4, h5, h6⟩
      refine ⟨ds, ?_, hd, .inl h4, h5, h6⟩
      rintro rfl
      exact h1 h4
    · rintro ⟨ds, hne, hd, h | h, h5, h6⟩
      · exact ⟨ds, hd, h, h5, h6⟩
      · exact absurd h (h3 _)

example : parseU32 (str "+096592") = some 96592 := by decide
example : parseU32 (str "4294967296") = none := by decide

end S2
