import Verif.Props.Export
import Verif.Props.BalanceFiles
import Verif.Props.Cli
import Verif.Props.Histories
import Verif.Props.Generator
/-!
# How far C81, C112, C115, C116 and C140 are true
-/
namespace S2

/-! ## C112: exports with failing writes -/

/-- The batch a task has lost. [proof device, no counterpart in /repo] -/
def Task.lost {ρ : Type} (t : Task ρ) : List (List ρ) :=
  match t.stage with
  | .done none => (batchOf t.work).toList
  | _ => []

theorem run_lost {ρ : Type} {works : List (Work ρ)} {acts : List Action} {s : Export ρ} (h : Run works acts s) :
    (s.tasks.flatMap Task.lost).length = acts.count .fail := by
  induction h with
  | nil =>
    simp only [Export.initial, List.count_nil, List.length_eq_zero_iff, List.flatMap_eq_nil_iff, List.mem_map]
    rintro t ⟨w, _, rfl⟩
    rfl
  | step hr hs ih =>
    rename_i acts pre post t t' wr wr' a
    have hok := (run_inv hr).ok t (by simp)
    simp only [List.flatMap_append, List.flatMap_cons, List.length_append] at ih ⊢
    rw [List.count_append, ← ih]
    cases hs with
    | fail work rest =>
      obtain ⟨rows, hw, hne, _⟩ := hok
      simp only at hw
      subst hw
      cases rows with
      | nil => exact absurd rfl hne
      | cons r rs =>
        simp only [Task.lost, batchOf, Option.toList_some, List.length_cons, List.length_nil, List.count_singleton_self]
        omega
    | _ => simp [Task.lost, batchOf]

theorem blocks_lost {ρ : Type} : ∀ {ts : List (Task ρ)} {c : List ρ}, (∀ t ∈ ts, t.Ok c) →
    (∀ t ∈ ts, (∃ r, t.stage = .done r) ∨ t.stage = .crashed) →
    (ts.flatMap Task.block ++ ts.flatMap Task.lost).Perm (batches (ts.map Task.work))
  | [], _, _, _ => .nil
  | t :: ts, c, h, hf => by
    have ih := blocks_lost (fun x hx => h x (List.mem_cons_of_mem _ hx)) (fun x hx => hf x (List.mem_cons_of_mem _ hx))
    have e : batches ((t :: ts).map Task.work) = (batchOf t.work).toList ++ batches (ts.map Task.work) := by
      simp only [batches, List.map_cons, List.filterMap_cons]
      cases batchOf t.work <;> rfl
    rw [List.flatMap_cons, List.flatMap_cons, e]
    have key : t.block ++ t.lost = (batchOf t.work).toList := by
      have hok := h t (by simp)
      have hft := hf t (by simp)
      obtain ⟨w, st⟩ := t
      simp only at hft
      rcases hft with ⟨r, rfl⟩ | rfl
      · cases r with
        | none => cases w <;> rfl
        | some n =>
          obtain ⟨rows, hw, hne, _⟩ := hok
          simp only at hw
          subst hw
          cases rows with
          | nil => exact absurd rfl hne
          | cons r rs => rfl
      · have hw : w = .crash := hok
        subst hw
        rfl
    rw [← key]
    refine List.Perm.trans ?_ (ih.append_left _)
    rw [List.append_assoc, List.append_assoc]
    refine List.Perm.append_left _ ?_
    rw [← List.append_assoc, ← List.append_assoc]
    exact List.Perm.append_right _ List.perm_append_comm

/-- Under every schedule that runs to the end: the file together with the batches of the sources whose write failed is exactly what it
should hold, and there is one such source for every failed write.  The reported total counts the rows that are in the file. -/
theorem C112_lost_with_failed_writes {ρ : Type} (works : List (Work ρ)) (acts : List Action) (s : Export ρ) (h : Run works acts s)
    (hd : s.finished) :
    ∃ lost, (s.writer.blocks ++ lost).Perm (batches works) ∧ lost.length = acts.count .fail ∧
      s.total = s.writer.blocks.flatten.length := by
  obtain ⟨h1, h2, _, h4⟩ := run_inv h
  refine ⟨s.tasks.flatMap Task.lost, ?_, run_lost h, ?_⟩
  · rw [← h1]
    exact (h4.append_right _).trans (blocks_lost h2 hd)
  · rw [(C59_total_counts_written_rows works acts s h).1, List.length_flatten]

/-- A finished export holds the rows of every source exactly when no write failed. -/
theorem C112_exactly {ρ : Type} (works : List (Work ρ)) (acts : List Action) (s : Export ρ) (h : Run works acts s) (hd : s.finished) :
    s.writer.blocks.Perm (batches works) ↔ Action.fail ∉ acts := by
  obtain ⟨lost, h1, h2, _⟩ := C112_lost_with_failed_writes works acts s h hd
  constructor
  · intro hp hm
    have := h1.length_eq
    rw [← hp.length_eq, List.length_append] at this
    have hc : 0 < acts.count .fail := List.count_pos_iff.2 hm
    omega
  · intro hm
    exact (C59_complete works acts s h hm hd).1

/-- A run with a failing write, two sources: the file holds the batch of the other. -/
example : ∃ acts s, Run [Work.batch [1, 2], .batch [3]] acts s ∧ s.finished ∧ s.writer.blocks = [[3]] ∧ acts.count .fail = 1 := by
  have r0 := Run.nil (works := [Work.batch [1, 2], .batch [3]])
  have r1 := Run.step (pre := []) (post := [⟨.batch [3], .start⟩]) r0 (.computed [1, 2] _ (by simp))
  have r2 := Run.step (pre := []) (post := [⟨.batch [3], .start⟩]) r1 (.acquire [1, 2] _ rfl)
  have r3 := Run.step (pre := []) (post := [⟨.batch [3], .start⟩]) r2 (.put _ 1 [2] _)
  have r4 := Run.step (pre := []) (post := [⟨.batch [3], .start⟩]) r3 (.fail _ [2] _)
  have r5 := Run.step (pre := [⟨.batch [1, 2], .done none⟩]) (post := []) r4 (.computed [3] _ (by simp))
  have r6 := Run.step (pre := [⟨.batch [1, 2], .done none⟩]) (post := []) r5 (.acquire [3] _ rfl)
  have r7 := Run.step (pre := [⟨.batch [1, 2], .done none⟩]) (post := []) r6 (.put _ 3 [] _)
  have r8 := Run.step (pre := [⟨.batch [1, 2], .done none⟩]) (post := []) r7 (.finish [3] _)
  refine ⟨_, _, r8, ?_, rfl, rfl⟩
  intro t ht
  simp only [List.cons_append, List.nil_append, List.mem_cons, List.not_mem_nil, or_false] at ht
  rcases ht with rfl | rfl
  · exact .inl ⟨_, rfl⟩
  · exact .inl ⟨_, rfl⟩

/-! ## C115: names that survive -/

theorem splitSlash_mem : ∀ {s p : Str}, p ∈ splitSlash s → (47 : UInt8) ∉ p
  | [], p, h => by
    simp only [splitSlash, List.mem_singleton] at h
    subst h
    simp
  | c :: cs, p, h => by
    rw [splitSlash] at h
    split at h
    · rcases List.mem_cons.1 h with rfl | h
      · simp
      · exact splitSlash_mem h
    · rename_i hc
      split at h
      · rename_i hn
        exact absurd hn (splitSlash_ne_nil cs)
      · rename_i q ps hq
        have hmem : ∀ x ∈ q :: ps, (47 : UInt8) ∉ x := fun x hx => splitSlash_mem (s := cs) (by rw [hq]; exact hx)
        rcases List.mem_cons.1 h with rfl | h
        · intro hm
          rcases List.mem_cons.1 hm with hm | hm
          · exact hc hm.symm
          · exact hmem q (by simp) hm
        · exact hmem p (by simp [h])

theorem stripNosj_suffix : ∀ n (s : Str), s.length ≤ n → ¬ str "nosj." <+: stripNosj s
  | 0, s, h => by
    have : s = [] := List.eq_nil_of_length_eq_zero (by omega)
    subst this
    decide
  | n + 1, s, h => by
    unfold stripNosj
    split
    · rename_i rest
      refine stripNosj_suffix n rest ?_
      simp only [List.length_cons] at h
      omega
    · rename_i hne
      rintro ⟨r, hr⟩
      exact hne r hr.symm

theorem stripNosj_mem : ∀ n (s : Str), s.length ≤ n → ∀ x ∈ stripNosj s, x ∈ s
  | 0, s, h, x, hx => by
    have : s = [] := List.eq_nil_of_length_eq_zero (by omega)
    subst this
    exact hx
  | n + 1, s, h, x, hx => by
    unfold stripNosj at hx
    split at hx
    · rename_i rest
      simp only [List.length_cons] at h
      have := stripNosj_mem n rest (by omega) x hx
      simp [this]
    · exact hx

theorem trimJson_clean (s : Str) : ¬ str ".json" <:+ trimJson s := by
  intro h
  unfold trimJson at h
  have h' := List.reverse_prefix.2 h
  rw [List.reverse_reverse] at h'
  exact stripNosj_suffix _ _ (Nat.le_refl _) h'

theorem trimJson_mem (s : Str) (x : UInt8) (h : x ∈ trimJson s) : x ∈ s := by
  unfold trimJson at h
  have := stripNosj_mem _ _ (Nat.le_refl _) x (List.mem_reverse.1 h)
  exact List.mem_reverse.1 this

theorem get_of_mem {U : Type} {es : List ((Nat × Str) × U)} {k : Nat × Str} {u : U} (h : (k, u) ∈ es) : ∃ u', UnitTable.get es k = some u' := by
  unfold UnitTable.get
  cases hf : es.find? (fun e => decide (e.1 = k)) with
  | none =>
    have := List.find?_eq_none.1 hf _ h
    simp at this
  | some e => exact ⟨e.2, rfl⟩

theorem mem_of_get {U : Type} {es : List ((Nat × Str) × U)} {k : Nat × Str} {u : U} (h : UnitTable.get es k = some u) : (k, u) ∈ es := by
  unfold UnitTable.get at h
  cases hf : es.find? (fun e => decide (e.1 = k)) with
  | none => rw [hf] at h; cases h
  | some e =>
    rw [hf] at h
    have h1 := List.mem_of_find?_eq_some hf
    have h2 := List.find?_some hf
    simp only [decide_eq_true_eq] at h2
    have h3 : e.2 = u := Option.some.inj h
    rw [← h2, ← h3]
    exact h1

/-- Written to an empty directory and read again a table is the same exactly when no unit name contains '/' or ends in ".json". -/
theorem C115_exactly {U : Type} (json : U → List UInt8) (parse : List UInt8 → Option U)
    (table : List ((Nat × Str) × U)) (hj : ∀ e ∈ table, parse (json e.2) = some e.2) (hf : Functional table)
    (hv : ∀ e ∈ table, e.1.1 < 2 ^ 32)
    (dirs : List (Str × Option (List (Str × Option (List UInt8))))) (hl : Listing (writeJson json table) dirs) :
    (∃ t, readJsonDir parse dirs [] = .ok t ∧ SameTable t table) ↔
      ∀ e ∈ table, (47 : UInt8) ∉ e.1.2 ∧ ¬ str ".json" <:+ e.1.2 := by
  constructor
  · rintro ⟨t, ht, hs⟩ ⟨k, u⟩ he
    obtain ⟨u', hu'⟩ := get_of_mem he
    rw [← hs k] at hu'
    have hm := mem_of_get hu'
    rw [readJsonDir_eq] at ht
    by_cases hn : ∃ e ∈ dirEntries parse dirs, e.2 = none
    · rw [insertAll_err _ _ hn] at ht
      cases ht
    · obtain ⟨t', h1, h2⟩ := insertAll_ok (dirEntries parse dirs) [] (fun e he h0 => hn ⟨e, he, h0⟩)
      rw [h1] at ht
      cases ht
      rcases (h2 k u').1 hm with h | h
      · obtain ⟨d, es, f, c, hd, hfc, _, htr, _⟩ := mem_dirEntries.1 h
        have hw := (hl d f c).2 ⟨es, hd, hfc⟩
        obtain ⟨⟨⟨v, n⟩, w⟩, _, hp⟩ := List.mem_map.1 hw
        simp only [Prod.mk.injEq] at hp
        have hsl : (47 : UInt8) ∉ f := splitSlash_mem (s := assetPath v n) (by rw [hp.1]; simp)
        rw [← htr]
        exact ⟨fun hx => hsl (trimJson_mem f _ hx), trimJson_clean f⟩
      · cases h
  · intro hk
    exact C115_round_trip_partial json parse table hj hf (fun e he => ⟨hv e he, hk e he⟩) dirs hl

/-! ## C116: when the order of the listing matters -/

/-- The same directories in the same order, the entries of each in any order. [specification] -/
inductive SameDirs {A : Type} : List (Str × Option (List A)) → List (Str × Option (List A)) → Prop where
  | nil : SameDirs [] []
  | file {l m} (d : Str) : SameDirs l m → SameDirs ((d, none) :: l) ((d, none) :: m)
  | dir {l m} (d : Str) {x y : List A} : x.Perm y → SameDirs l m → SameDirs ((d, some x) :: l) ((d, some y) :: m)

/-- Two listings of the same directory: the directories in another order, and the entries of each in another order. [specification] -/
def Relisting {A : Type} (dirs dirs' : List (Str × Option (List A))) : Prop := ∃ mid, SameDirs dirs mid ∧ mid.Perm dirs'

theorem relisting_files {A : Type} {dirs dirs' : List (Str × Option (List A))} (h : Relisting dirs dirs') (d : Str) (e : A) :
    (∃ es, (d, some es) ∈ dirs ∧ e ∈ es) ↔ ∃ es, (d, some es) ∈ dirs' ∧ e ∈ es := by
  obtain ⟨mid, hf, hp⟩ := h
  have key : (∃ es, (d, some es) ∈ dirs ∧ e ∈ es) ↔ ∃ es, (d, some es) ∈ mid ∧ e ∈ es := by
    clear hp
    induction hf with
    | nil => simp
    | file d' _ ih =>
      simp only [List.mem_cons, Prod.mk.injEq, reduceCtorEq, and_false, false_or]
      exact ih
    | @dir l m d' x y hxy _ ih =>
      constructor
      · rintro ⟨es, h, h'⟩
        rcases List.mem_cons.1 h with h | h
        · simp only [Prod.mk.injEq, Option.some.injEq] at h
          obtain ⟨rfl, rfl⟩ := h
          exact ⟨y, List.mem_cons_self, hxy.mem_iff.1 h'⟩
        · obtain ⟨es', h1, h2⟩ := ih.1 ⟨es, h, h'⟩
          exact ⟨es', List.mem_cons_of_mem _ h1, h2⟩
      · rintro ⟨es, h, h'⟩
        rcases List.mem_cons.1 h with h | h
        · simp only [Prod.mk.injEq, Option.some.injEq] at h
          obtain ⟨rfl, rfl⟩ := h
          exact ⟨x, List.mem_cons_self, hxy.mem_iff.2 h'⟩
        · obtain ⟨es', h1, h2⟩ := ih.2 ⟨es, h, h'⟩
          exact ⟨es', List.mem_cons_of_mem _ h1, h2⟩
  rw [key]
  constructor
  · rintro ⟨es, h1, h2⟩
    exact ⟨es, hp.mem_iff.1 h1, h2⟩
  · rintro ⟨es, h1, h2⟩
    exact ⟨es, hp.mem_iff.2 h1, h2⟩

theorem sameDirs_self {A : Type} : ∀ (l : List (Str × Option (List A))), SameDirs l l
  | [] => .nil
  | (d, none) :: l => .file d (sameDirs_self l)
  | (d, some x) :: l => .dir d (List.Perm.refl x) (sameDirs_self l)

theorem sameDirs_append {A : Type} {c d : List (Str × Option (List A))} (h : SameDirs c d) : ∀ a, SameDirs (a ++ c) (a ++ d)
  | [] => h
  | (n, none) :: a => .file n (sameDirs_append h a)
  | (n, some x) :: a => .dir n (List.Perm.refl x) (sameDirs_append h a)

/-- Any file can be the last one that is read. -/
theorem relisting_last {A : Type} {dirs : List (Str × Option (List A))} {d : Str} {es : List A} {e : A} (hd : (d, some es) ∈ dirs) (he : e ∈ es) :
    ∃ pre fs, Relisting dirs (pre ++ [(d, some (fs ++ [e]))]) := by
  obtain ⟨a, b, rfl⟩ := List.append_of_mem hd
  obtain ⟨x, y, rfl⟩ := List.append_of_mem he
  refine ⟨a ++ b, x ++ y, a ++ (d, some (x ++ y ++ [e])) :: b, sameDirs_append (.dir d ?_ (sameDirs_self b)) a, ?_⟩
  · rw [List.append_assoc]
    exact List.Perm.append_left _ (List.perm_append_singleton _ _).symm
  · rw [List.append_assoc a b]
    exact List.Perm.append_left _ (List.perm_append_singleton _ _).symm

/-- A directory that can be read gives the same table in whatever order it is listed exactly when any two files for the same unit (directories
of the same number, names equal up to ".json") hold the same unit. -/
theorem C116_exactly {U : Type} (parse : List UInt8 → Option U) (dirs : List (Str × Option (List (Str × Option (List UInt8)))))
    (t : UnitTable U) (ht : readJsonDir parse dirs [] = .ok t) :
    (∀ dirs', Relisting dirs dirs' → ∃ t', readJsonDir parse dirs' [] = .ok t' ∧ SameTable t t') ↔
      ∀ d es f c d' es' f' c' v, (d, some es) ∈ dirs → (f, some c) ∈ es → (d', some es') ∈ dirs → (f', some c') ∈ es' →
        parseU32 d = some v → parseU32 d' = some v → trimJson f = trimJson f' → parse c = parse c' := by
  have hdec : ∀ d es f c v, (d, some es) ∈ dirs → (f, some c) ∈ es → parseU32 d = some v → ∃ u, parse c = some u := by
    intro d es f c v h1 h2 h3
    cases hp : parse c with
    | some u => exact ⟨u, rfl⟩
    | none =>
      rw [readJsonDir_eq, insertAll_err _ _ ⟨((v, trimJson f), none), mem_dirEntries.2 ⟨d, es, f, c, h1, h2, h3, rfl, hp⟩, rfl⟩] at ht
      cases ht
  constructor
  · intro h
    -- whatever is read last is what the table holds
    have last : ∀ d es f c v, (d, some es) ∈ dirs → (f, some c) ∈ es → parseU32 d = some v → t.get (v, trimJson f) = parse c := by
      intro d es f c v h1 h2 h3
      obtain ⟨u, hu⟩ := hdec d es f c v h1 h2 h3
      obtain ⟨pre, fs, hr⟩ := relisting_last h1 h2
      obtain ⟨t', ht', hs⟩ := h _ hr
      rw [hs, hu]
      have e : dirEntries parse (pre ++ [(d, some (fs ++ [(f, some c)]))]) =
          (dirEntries parse (pre ++ [(d, some fs)])) ++ [((v, trimJson f), some u)] := by
        simp only [dirEntries, List.flatMap_append, List.flatMap_cons, List.flatMap_nil, List.append_nil, h3, hu, List.append_assoc]
      rw [readJsonDir_eq, e, insertAll_append] at ht'
      obtain ⟨t0, _, h0⟩ := Res.bind_eq_ok.1 ht'
      simp only [insertAll, Res.ok.injEq] at h0
      subst h0
      simp [UnitTable.get]
    intro d es f c d' es' f' c' v h1 h2 h1' h2' h3 h3' hn
    rw [← last d es f c v h1 h2 h3, ← last d' es' f' c' v h1' h2' h3', hn]
  · intro h dirs' hr
    have hfun : ∀ k u u', (k, some u) ∈ dirEntries parse dirs → (k, some u') ∈ dirEntries parse dirs → u = u' := by
      intro k u u' hu hu'
      obtain ⟨d, es, f, c, h1, h2, h3, h4, h5⟩ := mem_dirEntries.1 hu
      obtain ⟨d', es', f', c', h1', h2', h3', h4', h5'⟩ := mem_dirEntries.1 hu'
      have := h d es f c d' es' f' c' k.1 h1 h2 h1' h2' h3 h3' (h4.trans h4'.symm)
      rw [h5, h5'] at this
      exact Option.some.inj this
    rcases C116_listing_order_partial parse dirs dirs' (fun d f c => relisting_files hr d (f, some c)) hfun with
      ⟨t1, t2, h1, h2, h3⟩ | ⟨h1, _⟩
    · rw [ht] at h1
      cases h1
      exact ⟨t2, h2, h3⟩
    · rw [ht] at h1
      cases h1

/-- The refutation of C116 has two such files, and a directory with a backup of one version does not. -/
example : parseU32 (str "1") = some 1 ∧ parseU32 (str "01") = some 1 ∧ trimJson (str "a.json") = trimJson (str "a") := by decide +kernel

/-! ## C81: births on an index in use -/

/-- A birth always succeeds.  Afterwards the unit has the type, owner and position of the event exactly when the index was free or the unit there
had them already: a unit in use only gets the creator ability and the loop of the event. -/
theorem C81_exactly (bld : Build) (s : SState) (loop : Int) (e : UnitBornEvent) :
    ∃ s' hint u, handleTracker bld s loop (.unitBorn e) = .ok (s', .unitBorn e, hint) ∧ s'.units e.unitTagIndex = some u ∧
      ((u.name = e.unitTypeName ∧ u.userId = some e.controlPlayerId ∧ u.pos = ⟨e.x, e.y, 0⟩) ↔
        ∀ u0, s.units e.unitTagIndex = some u0 → u0.name = e.unitTypeName ∧ u0.userId = some e.controlPlayerId ∧ u0.pos = ⟨e.x, e.y, 0⟩) ∧
      ∀ u0, s.units e.unitTagIndex = some u0 → u = { u0 with creatorAbilityName := e.creatorAbilityName, lastGameLoop := loop } := by
  cases h : s.units e.unitTagIndex with
  | none =>
    obtain ⟨s', hint, u, h1, h2, h3⟩ := C81_birth_partial bld s loop e h
    refine ⟨s', hint, u, h1, h2, ⟨fun _ u0 h0 => (by cases h0), fun _ => h3⟩, fun u0 h0 => (by cases h0)⟩
  | some u0 =>
    have ht : ∃ l, (touchCreator s loop e.creatorUnitTagIndex).1 e.unitTagIndex = some { u0 with lastGameLoop := l } := by
      unfold touchCreator
      cases e.creatorUnitTagIndex with
      | none => exact ⟨u0.lastGameLoop, h⟩
      | some c =>
        dsimp only
        cases hc : s.units c with
        | none => exact ⟨u0.lastGameLoop, h⟩
        | some uc =>
          dsimp only
          by_cases hce : e.unitTagIndex = c
          · subst hce
            rw [h] at hc
            cases hc
            exact ⟨loop, by simp [Units.set]⟩
          · exact ⟨u0.lastGameLoop, by simp [Units.set, hce, h]⟩
    obtain ⟨l, hl⟩ := ht
    refine ⟨(handleUnitBorn s loop e).1, (handleUnitBorn s loop e).2.2, { u0 with creatorAbilityName := e.creatorAbilityName, lastGameLoop := loop }, ?_, ?_, ?_, ?_⟩
    · unfold handleTracker handleUnitBorn
      dsimp only
      rw [hl]
    · unfold handleUnitBorn
      dsimp only
      rw [hl]
      simp [Units.set]
    · constructor
      · intro hx u1 h1
        cases h1
        exact hx
      · intro hx
        exact hx u0 rfl
    · intro u1 h1
      cases h1
      rfl

/-! ## C140: which commands `--quiet` silences -/

/-- `--quiet` silences `get transist-events` and changes nothing at all for the other commands. -/
theorem C140_exactly {D : Type} (w : World D) (bld : Build) (table : BalTable) (args : Cli.Args) (ty : Cli.ReadType) (path : Str) :
    Cli.getSource w bld table { args with quiet := true } ty path =
      (if ty = .transistEvents then [] else (Cli.getSource w bld table { args with quiet := false } ty path).1,
        (Cli.getSource w bld table { args with quiet := false } ty path).2) := by
  by_cases h : ty = .transistEvents
  · subst h
    rw [if_pos rfl]
    obtain ⟨h1, h2⟩ := Cli.C140_quiet_partial w bld table args path
    exact Prod.ext h1 h2
  · rw [if_neg h]
    unfold Cli.getSource
    cases w.file path with
    | err e => rfl
    | panic => rfl
    | ok c =>
      dsimp only
      cases w.mpq c with
      | err e => rfl
      | panic => rfl
      | ok a =>
        dsimp only
        cases utf8Ok path with
        | false => rfl
        | true =>
          simp only [if_true]
          cases InitFile.new w bld path 0 a c with
          | err e => rfl
          | panic => rfl
          | ok init => cases ty <;> first | rfl | exact absurd rfl h

/-! ## C125: how many bytes a generated blob parser returns -/

theorem takeBitArrayLoop_bytes (f : Nat) : ∀ (c : Cur) (rem : Nat) (acc : List UInt8) (c' : Cur) (bs : List UInt8),
    takeBitArrayLoop f c rem acc = .ok (c', bs) → bs.length = acc.length + max 1 ((rem + 7) / 8) := by
  induction f with
  | zero => intro c rem acc c' bs h; simp [takeBitArrayLoop] at h
  | succ f ih =>
    intro c rem acc c' bs h
    rw [takeBitArrayLoop] at h
    obtain ⟨x, _, h⟩ := Res.bind_eq_ok.1 h
    obtain ⟨⟨t, y⟩, _, h⟩ := Res.bind_eq_ok.1 h
    dsimp only at h
    by_cases h8 : rem > 8
    · rw [if_pos h8, if_neg (by omega)] at h
      have := ih t _ _ c' bs h
      simp only [List.length_append, List.length_cons, List.length_nil] at this
      omega
    · rw [if_neg h8, if_pos (by omega)] at h
      simp only [Res.pure_eq, Res.ok.injEq, Prod.mk.injEq] at h
      obtain ⟨_, rfl⟩ := h
      simp only [List.length_append, List.length_cons, List.length_nil]
      omega

/-- A generated parser for a blob of exactly `n` bytes returns as many bytes as the *number* `n` needs (one for zero): the right number of bytes
exactly for `n = 1`, and then it is one bit of the blob. -/
theorem C125_exactly (n : Nat) (pow : Option Nat) (c c' : Cur) (hc : c.WF) (bs : List UInt8)
    (h : Generator.blobParse ⟨n, true, n, true, pow⟩ c = .ok (c', bs)) :
    bs.length = (if n < 256 then 1 else (n.log2 + 8) / 8) ∧ (bs.length = n ↔ n = 1) ∧ (n = 1 → bs = [0] ∨ bs = [1]) := by
  unfold Generator.blobParse at h
  obtain ⟨⟨t, _⟩, ha, h⟩ := Res.bind_eq_ok.1 h
  dsimp only at h
  have ht : t.off < 8 := by
    obtain ⟨h1, _, h3⟩ := byteAlign_bits c hc
    rw [h1] at ha
    simp only [Res.ok.injEq, Prod.mk.injEq, and_true] at ha
    rw [← ha, h3]
    decide
  have e : Generator.maxBits ⟨n, true, n, true, pow⟩ = Generator.log2p1 n := by rw [Generator.maxBits_eq]; simp
  have e2 : Generator.log2p1 (n : Int) = if n = 0 then 0 else n.log2 + 1 := by
    unfold Generator.log2p1
    by_cases h0 : n = 0
    · subst h0; rfl
    · rw [if_neg (by omega), if_neg h0]; simp
  rw [e, e2] at h
  have hb := takeBitArrayLoop_bytes _ _ _ _ _ _ h
  simp only [List.length_nil, Nat.zero_add] at hb
  have hlen : bs.length = (if n < 256 then 1 else (n.log2 + 8) / 8) := by
    rw [hb]
    by_cases h0 : n = 0
    · subst h0; rfl
    · rw [if_neg h0]
      by_cases h1 : n < 256
      · rw [if_pos h1]
        have : n.log2 < 8 := (Nat.log2_lt h0).2 (by simpa using h1)
        omega
      · rw [if_neg h1]
        have : ¬ n.log2 < 8 := fun hc => h1 (by simpa using (Nat.log2_lt h0).1 hc)
        omega
  refine ⟨hlen, ?_, ?_⟩
  · rw [hlen]
    by_cases h1 : n < 256
    · rw [if_pos h1]; omega
    · rw [if_neg h1]
      have h2 : 2 ^ n.log2 ≤ n := Nat.log2_self_le (by omega)
      have h3 : n.log2 < 2 ^ n.log2 := Nat.lt_two_pow_self
      omega
  · rintro rfl
    have e3 : (if (1 : Nat) = 0 then 0 else Nat.log2 1 + 1) = 1 := by decide
    rw [e3] at h
    unfold takeBitArray at h
    rw [takeBitArrayLoop] at h
    obtain ⟨x, hx, h⟩ := Res.bind_eq_ok.1 h
    obtain ⟨⟨t', y⟩, _, h⟩ := Res.bind_eq_ok.1 h
    simp only [show ¬ (1 : Nat) > 8 by decide, if_false, Nat.sub_self, if_true, Res.pure_eq, Res.ok.injEq, Prod.mk.injEq, List.nil_append] at h hx
    obtain ⟨_, rfl⟩ := h
    have hlt : x < 2 := by
      obtain ⟨_, h2, h3⟩ := rtake_eq t 1 ht (by decide)
      by_cases hl : t.bytes.length * 8 < t.off + 1
      · rw [h2 (by decide) hl] at hx
        cases hx
      · rw [h3 (by decide) (by omega), Res.ok.injEq] at hx
        have := readBits_lt t.bytes t.off 1 ht
        omega
    rcases (by omega : x = 0 ∨ x = 1) with rfl | rfl
    · exact .inl rfl
    · exact .inr rfl

/-- One byte with all bits set is read as 1. -/
example : (Generator.blobParse ⟨1, true, 1, true, none⟩ ⟨[0xFF], 0⟩) = .ok (⟨[0xFF], 1⟩, [1]) := by decide +kernel

end S2
