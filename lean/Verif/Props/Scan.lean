import Verif.Spec.ScanSpec
import Verif.ResLemmas
import Verif.Props.Lobby
import Verif.Props.Files
/-! # Directory statistics (C53) and export selection (C60) -/
namespace S2

/-! ## Reading all files -/

theorem readInits_ok {α : Type} (read : Str → Nat → Res α) (ss : List Str) : ∀ (i : Nat) (xs : List α),
    readInits read i ss = .ok xs ↔ (∀ p ∈ ss.zipIdx i, read p.1 p.2 ≠ .panic) ∧ xs = readable read i ss := by
  induction ss with
  | nil => intro i xs; simp [readInits, readable, eq_comm]
  | cons s ss ih =>
    intro i xs
    unfold readInits readable
    simp only [List.zipIdx_cons, List.mem_cons, forall_eq_or_imp, List.filterMap_cons]
    cases h : read s i with
    | panic => simp
    | err e =>
      simp only [ih]
      simp [readable]
    | ok x =>
      simp only [Res.bind_eq_ok, ih, Res.pure_eq, Res.ok.injEq]
      constructor
      · rintro ⟨ys, ⟨h1, rfl⟩, rfl⟩
        exact ⟨⟨by simp, h1⟩, rfl⟩
      · rintro ⟨⟨_, h1⟩, rfl⟩
        exact ⟨_, ⟨h1, rfl⟩, rfl⟩

theorem readInits_panic {α : Type} (read : Str → Nat → Res α) (ss : List Str) : ∀ (i : Nat),
    readInits read i ss = .panic ↔ ∃ p ∈ ss.zipIdx i, read p.1 p.2 = .panic := by
  induction ss with
  | nil => intro i; simp [readInits]
  | cons s ss ih =>
    intro i
    unfold readInits
    simp only [List.zipIdx_cons, List.mem_cons, exists_eq_or_imp]
    cases h : read s i with
    | panic => simp
    | err e => simp [ih]
    | ok x =>
      simp only [Res.bind_eq_panic, ih, Res.pure_eq]
      simp

theorem readInits_ne_err {α : Type} (read : Str → Nat → Res α) (ss : List Str) : ∀ (i : Nat) (e : Err),
    readInits read i ss ≠ .err e := by
  induction ss with
  | nil => intro i e; simp [readInits]
  | cons s ss ih =>
    intro i e
    unfold readInits
    cases h : read s i with
    | panic => simp
    | err e' => simpa using ih (i + 1) e
    | ok x =>
      intro h'
      rcases Res.bind_eq_err.mp h' with h' | ⟨_, _, h'⟩
      · exact ih _ _ h'
      · cases h'

theorem readInits_append {α : Type} (read : Str → Nat → Res α) (a b : List Str) : ∀ (i : Nat),
    readInits read i (a ++ b) = (do
      let x ← readInits read i a
      let y ← readInits read (i + a.length) b
      pure (x ++ y)) := by
  induction a with
  | nil => intro i; simp [readInits]; cases readInits read i b <;> simp
  | cons s a ih =>
    intro i
    simp only [List.cons_append, readInits, List.length_cons]
    cases h : read s i with
    | panic => simp
    | err e => simp only [ih]; rw [show i + 1 + a.length = i + (a.length + 1) by omega]
    | ok x =>
      simp only [ih]
      rw [show i + 1 + a.length = i + (a.length + 1) by omega]
      cases readInits read (i + 1) a <;> simp
      cases readInits read (i + (a.length + 1)) b <;> simp

/-- Reading in parallel gives the serial result, however the work is cut. -/
theorem readInitsPar_eq {α : Type} (read : Str → Nat → Res α) (sp : Split) : ∀ (i : Nat) (ss : List Str),
    readInitsPar read sp i ss = readInits read i ss := by
  induction sp with
  | leaf => intro i ss; rfl
  | node k l r ihl ihr =>
    intro i ss
    unfold readInitsPar
    rw [ihl, ihr]
    conv => rhs; rw [← List.take_append_drop k ss, readInits_append]

/-! ## Frequencies -/

/-- Occurrences of a key in an association list. -/
def freqOf (m : List (Str × Nat)) (k : Str) : Nat := ((m.filter (fun e => e.1 = k)).map Prod.snd).sum

theorem freqOf_bump (k k' : Str) (m : List (Str × Nat)) :
    freqOf (bump k m) k' = freqOf m k' + if k = k' then 1 else 0 := by
  induction m with
  | nil => by_cases h : k = k' <;> simp [freqOf, bump, h]
  | cons e m ih =>
    obtain ⟨a, n⟩ := e
    unfold bump
    by_cases h : a = k
    · subst h
      by_cases h' : a = k'
      · subst h'; simp [freqOf]; omega
      · simp [freqOf, h']
    · by_cases h' : a = k'
      · subst h'
        have hk : k ≠ a := fun c => h c.symm
        have := ih
        simp only [freqOf, h, hk, if_false, Nat.add_zero] at this ⊢
        simp [this]
      · have := ih
        simp only [freqOf, h, if_false] at this ⊢
        simp only [List.filter_cons, h', decide_false, Bool.false_eq_true, if_false]
        exact this

theorem bump_keys (k : Str) (m : List (Str × Nat)) : ∀ x, x ∈ (bump k m).map Prod.fst ↔ x = k ∨ x ∈ m.map Prod.fst := by
  induction m with
  | nil => intro x; simp [bump]
  | cons e m ih =>
    obtain ⟨a, n⟩ := e
    intro x
    unfold bump
    by_cases h : a = k
    · subst h; simp
    · simp only [h, if_false, List.map_cons, List.mem_cons, ih]
      constructor
      · rintro (h | h | h) <;> simp [h]
      · rintro (h | h | h) <;> simp [h]

theorem bump_nodup (k : Str) (m : List (Str × Nat)) (h : (m.map Prod.fst).Nodup) : ((bump k m).map Prod.fst).Nodup := by
  induction m with
  | nil => simp [bump]
  | cons e m ih =>
    obtain ⟨a, n⟩ := e
    simp only [List.map_cons, List.nodup_cons] at h
    unfold bump
    by_cases hk : a = k
    · subst hk; simpa using h
    · simp only [hk, if_false, List.map_cons, List.nodup_cons]
      exact ⟨fun hm => (bump_keys k m a).mp hm |>.elim (fun c => hk c) h.1, ih h.2⟩

theorem bump_pos (k : Str) (m : List (Str × Nat)) (h : ∀ e ∈ m, 0 < e.2) : ∀ e ∈ bump k m, 0 < e.2 := by
  induction m with
  | nil => intro e he; simp [bump] at he; simp [he]
  | cons x m ih =>
    obtain ⟨a, n⟩ := x
    unfold bump
    intro e he
    by_cases hk : a = k
    · simp only [hk, if_true, List.mem_cons] at he
      rcases he with rfl | he
      · simp
      · exact h e (by simp [he])
    · simp only [hk, if_false, List.mem_cons] at he
      rcases he with rfl | he
      · exact h _ (by simp)
      · exact ih (fun e he => h e (by simp [he])) e he

/-- A frequency table of a list of names. -/
structure FreqTable (names : List Str) (m : List (Str × Nat)) : Prop where
  nodup : (m.map Prod.fst).Nodup
  pos : ∀ e ∈ m, 0 < e.2
  freq : ∀ k, freqOf m k = names.count k

theorem FreqTable.bump {names : List Str} {m : List (Str × Nat)} (h : FreqTable names m) (k : Str) :
    FreqTable (names ++ [k]) (bump k m) := by
  refine ⟨bump_nodup k m h.nodup, bump_pos k m h.pos, fun k' => ?_⟩
  rw [freqOf_bump, h.freq, List.count_append]
  simp [List.count_cons]

theorem FreqTable.foldl {names : List Str} {m : List (Str × Nat)} (h : FreqTable names m) (ks : List Str) :
    FreqTable (names ++ ks) (ks.foldl (fun m u => S2.bump u m) m) := by
  induction ks generalizing names m with
  | nil => simpa using h
  | cons k ks ih =>
    have := ih (h.bump k)
    simpa using this

theorem freqOf_mem {m : List (Str × Nat)} (h : (m.map Prod.fst).Nodup) {e : Str × Nat} (he : e ∈ m) : freqOf m e.1 = e.2 := by
  induction m with
  | nil => cases he
  | cons x m ih =>
    simp only [List.map_cons, List.nodup_cons] at h
    rcases List.mem_cons.mp he with rfl | he
    · have : m.filter (fun x => x.1 = e.1) = [] := by
        rw [List.filter_eq_nil_iff]
        intro y hy
        simp only [decide_eq_true_eq]
        intro c
        exact h.1 (c ▸ List.mem_map_of_mem hy)
      simp [freqOf, this]
    · have hx : x.1 ≠ e.1 := fun c => h.1 (c ▸ List.mem_map_of_mem he)
      have := ih h.2 he
      simp only [freqOf] at this ⊢
      simpa [List.filter_cons, hx] using this

theorem freqOf_not_mem {m : List (Str × Nat)} {k : Str} (h : k ∉ m.map Prod.fst) : freqOf m k = 0 := by
  have : m.filter (fun x => x.1 = k) = [] := by
    rw [List.filter_eq_nil_iff]
    intro y hy
    simp only [decide_eq_true_eq]
    exact fun c => h (c ▸ List.mem_map_of_mem hy)
  simp [freqOf, this]

/-! ## Sorting -/

theorem sortInsert_perm {α : Type} (le : α → α → Bool) (a : α) (l : List α) : (sortInsert le a l).Perm (a :: l) := by
  induction l with
  | nil => exact .refl _
  | cons b l ih =>
    unfold sortInsert
    split
    · exact .refl _
    · exact (ih.cons b).trans (.swap a b l)

theorem sortBy_perm {α : Type} (le : α → α → Bool) (l : List α) : (sortBy le l).Perm l := by
  induction l with
  | nil => exact .refl _
  | cons a l ih => exact (sortInsert_perm le a _).trans (ih.cons a)

theorem sortInsert_ordered {α : Type} (le : α → α → Bool) (htot : ∀ a b, le a b = true ∨ le b a = true)
    (htr : ∀ a b c, le a b = true → le b c = true → le a c = true) (a : α) (l : List α)
    (h : l.Pairwise (fun a b => le a b = true)) : (sortInsert le a l).Pairwise (fun a b => le a b = true) := by
  induction l with
  | nil => simp [sortInsert]
  | cons b l ih =>
    rw [List.pairwise_cons] at h
    unfold sortInsert
    split
    · rename_i hab
      refine List.pairwise_cons.mpr ⟨?_, List.pairwise_cons.mpr h⟩
      intro x hx
      rcases List.mem_cons.mp hx with rfl | hx
      · exact hab
      · exact htr a b x hab (h.1 x hx)
    · rename_i hab
      refine List.pairwise_cons.mpr ⟨?_, ih h.2⟩
      intro x hx
      rcases List.mem_cons.mp ((sortInsert_perm le a l).mem_iff.mp hx) with rfl | hx
      · exact (htot b x).resolve_right hab
      · exact h.1 x hx

theorem sortBy_ordered {α : Type} (le : α → α → Bool) (htot : ∀ a b, le a b = true ∨ le b a = true)
    (htr : ∀ a b c, le a b = true → le b c = true → le a c = true) (l : List α) :
    (sortBy le l).Pairwise (fun a b => le a b = true) := by
  induction l with
  | nil => simp [sortBy]
  | cons a l ih => exact sortInsert_ordered le htot htr a _ ih

theorem top_sorted (l : List (Str × Nat)) :
    (sortBy (fun a b => decide (b.2 ≤ a.2)) l).Pairwise (fun a b : Str × Nat => b.2 ≤ a.2) := by
  have := sortBy_ordered (fun a b : Str × Nat => decide (b.2 ≤ a.2)) (fun a b => by simp; omega)
    (fun a b c => by simp; omega) l
  simpa using this

theorem isTop10_of_freq {names : List Str} {m : List (Str × Nat)} (h : FreqTable names m)
    (ord : List (Str × Nat) → List (Str × Nat)) (ho : (ord m).Perm m) : IsTop10 names (top10 ord m) := by
  generalize hs : sortBy (fun a b : Str × Nat => decide (b.2 ≤ a.2)) (ord m) = s
  have hp : s.Perm m := by rw [← hs]; exact (sortBy_perm _ _).trans ho
  have hsort : s.Pairwise (fun a b : Str × Nat => b.2 ≤ a.2) := by rw [← hs]; exact top_sorted _
  have ht : top10 ord m = s.take 10 := by unfold top10; rw [hs]
  have hsn : (s.map Prod.fst).Nodup := (hp.map Prod.fst).nodup_iff.mpr h.nodup
  rw [ht]
  refine ⟨?_, ?_, ?_, ?_, ?_⟩
  · rw [List.map_take]; exact hsn.sublist (List.take_sublist _ _)
  · intro e he
    have hm : e ∈ m := hp.mem_iff.mp (List.mem_of_mem_take he)
    exact ⟨by rw [← h.freq, freqOf_mem h.nodup hm], h.pos e hm⟩
  · exact hsort.sublist (List.take_sublist _ _)
  · rw [List.length_take]; omega
  · intro n hn hnot
    have hin : n ∈ m.map Prod.fst := by
      apply Classical.byContradiction
      intro hc
      have := h.freq n
      rw [freqOf_not_mem hc] at this
      have := List.count_pos_iff.mpr hn
      omega
    obtain ⟨e, he, rfl⟩ := List.mem_map.mp hin
    have hs' : e ∈ s := hp.mem_iff.mpr he
    have hd : e ∈ s.drop 10 := by
      rw [← List.take_append_drop 10 s, List.mem_append] at hs'
      exact hs'.resolve_left (fun c => hnot (List.mem_map_of_mem c))
    refine ⟨?_, ?_⟩
    · have : 0 < (s.drop 10).length := List.length_pos_of_mem hd
      rw [List.length_drop] at this
      rw [List.length_take]; omega
    · intro x hx
      rw [← List.take_append_drop 10 s, List.pairwise_append] at hsort
      rw [← h.freq, freqOf_mem h.nodup he]
      exact hsort.2.2 x hx e hd

/-! ## The scan -/

theorem scanLoop_ok {D : Type} (w : World D) (bld : Build) (versions : List Int) (inits : List InitFile) :
    ∀ (acc acc' : ScanAcc) (us ms : List Str), scanLoop w bld versions inits acc = .ok acc' →
      FreqTable us acc.users → FreqTable ms acc.maps →
      (∀ i ∈ inits, DetailsFile.ofInit w bld i ≠ .panic) ∧
      acc'.abilitySupported = acc.abilitySupported + (inits.filter (fun i => decide (i.version ∈ versions))).length ∧
      FreqTable (us ++ (readableDetails w bld inits).flatMap (fun d => d.details.playerNames)) acc'.users ∧
      FreqTable (ms ++ (readableDetails w bld inits).map (fun d => d.details.title)) acc'.maps := by
  induction inits with
  | nil =>
    intro acc acc' us ms h hu hm
    simp only [scanLoop, Res.ok.injEq] at h
    subst h
    simpa [readableDetails] using ⟨hu, hm⟩
  | cons i inits ih =>
    intro acc acc' us ms h hu hm
    unfold scanLoop at h
    have hn : (if versions.contains i.version then acc.abilitySupported + 1 else acc.abilitySupported) +
        (inits.filter (fun i => decide (i.version ∈ versions))).length =
        acc.abilitySupported + ((i :: inits).filter (fun i => decide (i.version ∈ versions))).length := by
      by_cases hv : i.version ∈ versions
      · simp [hv]; omega
      · simp [hv]
    cases hd : DetailsFile.ofInit w bld i with
    | panic => simp only [hd] at h; cases h
    | err e =>
      simp only [hd] at h
      obtain ⟨h1, h2, h3, h4⟩ := ih _ _ us ms h hu hm
      refine ⟨?_, ?_, ?_, ?_⟩
      · intro j hj
        rcases List.mem_cons.mp hj with rfl | hj
        · rw [hd]; intro c; cases c
        · exact h1 j hj
      · rw [h2]; exact hn
      · simpa [readableDetails, hd] using h3
      · simpa [readableDetails, hd] using h4
    | ok det =>
      simp only [hd] at h
      obtain ⟨h1, h2, h3, h4⟩ := ih _ _ _ _ h (hu.foldl det.details.playerNames) (hm.bump det.details.title)
      refine ⟨?_, ?_, ?_, ?_⟩
      · intro j hj
        rcases List.mem_cons.mp hj with rfl | hj
        · rw [hd]; intro c; cases c
        · exact h1 j hj
      · rw [h2]; exact hn
      · simpa [readableDetails, hd, List.append_assoc] using h3
      · simpa [readableDetails, hd, List.append_assoc] using h4

theorem scanLoop_ne_err {D : Type} (w : World D) (bld : Build) (versions : List Int) (inits : List InitFile) :
    ∀ (acc : ScanAcc) (e : Err), scanLoop w bld versions inits acc ≠ .err e := by
  induction inits with
  | nil => intro acc e; simp [scanLoop]
  | cons i inits ih =>
    intro acc e
    unfold scanLoop
    cases hd : DetailsFile.ofInit w bld i with
    | panic => simp
    | err e' => exact ih _ e
    | ok det => exact ih _ e

theorem scanLoop_panic {D : Type} (w : World D) (bld : Build) (versions : List Int) (inits : List InitFile) :
    ∀ (acc : ScanAcc), scanLoop w bld versions inits acc = .panic ↔
      ∃ i ∈ inits, DetailsFile.ofInit w bld i = .panic := by
  induction inits with
  | nil => intro acc; simp [scanLoop]
  | cons i inits ih =>
    intro acc
    unfold scanLoop
    simp only [List.mem_cons, exists_eq_or_imp]
    cases hd : DetailsFile.ofInit w bld i with
    | panic => simp
    | err e' => simp [ih]
    | ok det => simp [ih]

theorem FreqTable.nil : FreqTable [] [] := ⟨by simp, by simp, by simp [freqOf]⟩

/-- **C53.** The parallel scan gives the same statistics as the serial one, however the work is cut into jobs. -/
theorem C53_parallel {D : Type} (w : World D) (bld : Build) (ord : List (Str × Nat) → List (Str × Nat))
    (table : BalTable) (sp : Split) (sources : List Str) :
    scanSources w bld ord table (some sp) sources = scanSources w bld ord table none sources := by
  unfold scanSources
  simp only [readInitsPar_eq]

/-- **C53.** The totals of a scan: all files; the ones that can be read; of these, the ones with balance data for
their version.  The top lists are the ten most frequent player names (observers left out) and map titles over
the replays whose details can be read, for every iteration order of the hash maps. -/
theorem C53_stats {D : Type} (w : World D) (bld : Build) (ord : List (Str × Nat) → List (Str × Nat))
    (hord : ∀ m, (ord m).Perm m) (table : BalTable) (split : Option Split) (sources : List Str) (st : DirStats)
    (h : scanSources w bld ord table split sources = .ok st) :
    let inits := readable (InitFile.tryRead w bld) 0 sources
    let dets := readableDetails w bld inits
    st.totalFiles = sources.length ∧ st.supported = inits.length ∧
    st.abilitySupported = (inits.filter (fun i => decide (i.version ∈ table.map (fun e => e.1.1)))).length ∧
    IsTop10 (dets.flatMap (fun d => d.details.playerNames)) st.topPlayers ∧
    IsTop10 (dets.map (fun d => d.details.title)) st.topMaps := by
  have h' : scanSources w bld ord table none sources = .ok st := by
    cases split with
    | none => exact h
    | some sp => rw [← C53_parallel w bld ord table sp]; exact h
  simp only [scanSources, Res.bind_eq_ok, Res.pure_eq, Res.ok.injEq] at h'
  obtain ⟨inits, h1, acc, h2, rfl⟩ := h'
  obtain ⟨_, rfl⟩ := (readInits_ok _ _ _ _).mp h1
  obtain ⟨_, h3, h4, h5⟩ := scanLoop_ok w bld _ _ _ _ [] [] h2 FreqTable.nil FreqTable.nil
  refine ⟨rfl, rfl, by simpa using h3, isTop10_of_freq (by simpa using h4) ord (hord _),
    isTop10_of_freq (by simpa using h5) ord (hord _)⟩

theorem readable_length {α : Type} (read : Str → Nat → Res α) (i : Nat) (ss : List Str) :
    (readable read i ss).length ≤ ss.length := by
  unfold readable
  have := List.length_filterMap_le (fun p : Str × Nat => match read p.1 p.2 with
    | .ok x => some x
    | _ => none) (ss.zipIdx i)
  rwa [List.length_zipIdx] at this

/-- **C53.** So the counters are ordered. -/
theorem C53_ordered {D : Type} (w : World D) (bld : Build) (ord : List (Str × Nat) → List (Str × Nat))
    (hord : ∀ m, (ord m).Perm m) (table : BalTable) (split : Option Split) (sources : List Str) (st : DirStats)
    (h : scanSources w bld ord table split sources = .ok st) :
    st.abilitySupported ≤ st.supported ∧ st.supported ≤ st.totalFiles := by
  obtain ⟨h1, h2, h3, _⟩ := C53_stats w bld ord hord table split sources st h
  rw [h1, h2, h3]
  exact ⟨List.length_filter_le _ _, readable_length _ _ _⟩

/-- **C53.** Scanning a directory gathers the statistics of the replay files in it and in the directories nested in
it, ten levels in all: each file once, at most a million of them, and all of them if there are fewer. -/
theorem C53_directory {D : Type} (w : World D) (bld : Build) (ord : List (Str × Nat) → List (Str × Nat))
    (table : BalTable) (split : Option Split) (dir : Str) (node : Files.Node) (hd : Files.Distinct node) :
    ∃ files : List Files.Path, files.Nodup ∧ files.length ≤ 1000000 ∧
      (∀ p ∈ files, ∃ rel, p = dir :: rel ∧ Files.Found node 10 rel) ∧
      (files.length < 1000000 → ∀ rel, Files.Found node 10 rel → dir :: rel ∈ files) ∧
      scanPath w bld ord table split dir node =
        scanSources w bld ord table split (files.map (fun p => (p.intersperse (str "/")).flatten)) := by
  obtain ⟨files, h1, h2, h3, h4, h5⟩ := Files.C50_limits bld [dir] node 1000000 10 hd
  refine ⟨files, h3, h2, h4, h5, ?_⟩
  unfold scanPath
  rw [h1]
  rfl

/-- The demo directory, ten levels down: every replay is counted. -/
example : ∃ files : List Files.Path, files.length = 3 ∧
    Files.getMatchingFiles .debug [str "games"] Files.demoTree 1000000 10 = .ok files ∧
    files.map (fun p => (p.intersperse (str "/")).flatten) =
      [str "games/a.SC2Replay", str "games/sub/b.SC2Replay", str "games/c.v2.SC2Replay"] :=
  ⟨[[str "games", str "a.SC2Replay"], [str "games", str "sub", str "b.SC2Replay"], [str "games", str "c.v2.SC2Replay"]],
    rfl, by decide +kernel, by decide +kernel⟩

/-! ## C98: determinism -/

theorem sorted_perm_unique : ∀ (a b : List Nat), a.Perm b → a.Pairwise (fun x y => y ≤ x) → b.Pairwise (fun x y => y ≤ x) →
    a = b := by
  intro a
  induction a with
  | nil => intro b h _ _; exact (List.nil_perm.mp h).symm
  | cons x a ih =>
    intro b h ha hb
    match b, h with
    | [], h => exact absurd (List.nil_perm.mp h.symm) (by simp)
    | y :: b, h =>
      rw [List.pairwise_cons] at ha hb
      have hxy : x = y := by
        have h1 : x ∈ y :: b := h.mem_iff.mp (by simp)
        have h2 : y ∈ x :: a := h.mem_iff.mpr (by simp)
        rcases List.mem_cons.mp h1 with h1 | h1
        · exact h1
        · rcases List.mem_cons.mp h2 with h2 | h2
          · exact h2.symm
          · have := ha.1 y h2
            have := hb.1 x h1
            omega
      subst hxy
      rw [ih b (List.perm_cons x |>.mp h) ha.2 hb.2]

/-- **C98, partial.** Two scans of the same files agree on everything but which of equally frequent names are
listed: same totals, and the same counts in both top lists.  Missing: the lists themselves. -/
theorem C98_deterministic_partial {D : Type} (w : World D) (bld : Build) (o1 o2 : List (Str × Nat) → List (Str × Nat))
    (h1 : ∀ m, (o1 m).Perm m) (h2 : ∀ m, (o2 m).Perm m) (table : BalTable) (s1 s2 : Option Split) (sources : List Str)
    (a b : DirStats) (ha : scanSources w bld o1 table s1 sources = .ok a)
    (hb : scanSources w bld o2 table s2 sources = .ok b) :
    a.totalFiles = b.totalFiles ∧ a.supported = b.supported ∧ a.abilitySupported = b.abilitySupported ∧
    a.topPlayers.map Prod.snd = b.topPlayers.map Prod.snd ∧ a.topMaps.map Prod.snd = b.topMaps.map Prod.snd := by
  have ser : ∀ o s, scanSources w bld o table s sources = scanSources w bld o table none sources := by
    intro o s
    cases s with
    | none => rfl
    | some sp => exact C53_parallel w bld o table sp sources
  rw [ser] at ha hb
  simp only [scanSources, Res.bind_eq_ok, Res.pure_eq, Res.ok.injEq] at ha hb
  obtain ⟨i1, e1, c1, f1, rfl⟩ := ha
  obtain ⟨i2, e2, c2, f2, rfl⟩ := hb
  rw [e1] at e2; cases e2
  rw [f1] at f2; cases f2
  have key : ∀ m : List (Str × Nat), (top10 o1 m).map Prod.snd = (top10 o2 m).map Prod.snd := by
    intro m
    unfold top10
    rw [List.map_take, List.map_take]
    congr 1
    apply sorted_perm_unique
    · exact (((sortBy_perm _ _).trans (h1 m)).trans ((sortBy_perm _ _).trans (h2 m)).symm).map _
    · exact List.pairwise_map.mpr (top_sorted _)
    · exact List.pairwise_map.mpr (top_sorted _)
  exact ⟨rfl, rfl, rfl, key _, key _⟩

/-- **C98, partial.** Names that are strictly more frequent than all but at most nine others are listed whatever
the order. -/
theorem C98_frequent_listed_partial {D : Type} (w : World D) (bld : Build) (ord : List (Str × Nat) → List (Str × Nat))
    (hord : ∀ m, (ord m).Perm m) (table : BalTable) (split : Option Split) (sources : List Str) (st : DirStats)
    (h : scanSources w bld ord table split sources = .ok st) (n : Str) (others : List Str) (ho : others.length ≤ 9) :
    let names := (readableDetails w bld (readable (InitFile.tryRead w bld) 0 sources)).flatMap
      (fun d => d.details.playerNames)
    n ∈ names → (∀ x ∈ names, x ≠ n → x ∉ others → names.count x < names.count n) →
      (n, names.count n) ∈ st.topPlayers := by
  intro names hn hlt
  obtain ⟨_, _, _, ht, _⟩ := C53_stats w bld ord hord table split sources st h
  change IsTop10 names _ at ht
  by_cases hm : n ∈ st.topPlayers.map Prod.fst
  · obtain ⟨e, he, rfl⟩ := List.mem_map.mp hm
    rw [← (ht.counts e he).1]
    exact he
  · exfalso
    obtain ⟨h10, hle⟩ := ht.best n hn hm
    have hsub : ∀ x ∈ st.topPlayers.map Prod.fst, x ∈ others := by
      intro x hx
      obtain ⟨e, he, rfl⟩ := List.mem_map.mp hx
      apply Classical.byContradiction
      intro hno
      have hc := ht.counts e he
      have hne : e.1 ≠ n := fun c => hm (c ▸ hx)
      have := hlt e.1 (List.count_pos_iff.mp (hc.1 ▸ hc.2)) hne hno
      have := hle e he
      omega
    have hlen := List.Nodup.length_le_of_subset ht.distinct hsub
    rw [List.length_map, h10] at hlen
    omega

/-! ## C99: unreadable files -/

/-- **C99, partial.** A scan never ends in an error, and it ends in a panic exactly when reading some file, or
reading the details of a readable one, panics; so files that merely give errors are skipped (and `C53_stats` says
what is counted).  Missing: files that make the readers panic (`C94`). -/
theorem C99_errors_skipped_partial {D : Type} (w : World D) (bld : Build) (ord : List (Str × Nat) → List (Str × Nat))
    (table : BalTable) (split : Option Split) (sources : List Str) :
    (∀ e, scanSources w bld ord table split sources ≠ .err e) ∧
    (scanSources w bld ord table split sources = .panic ↔
      (∃ p ∈ sources.zipIdx 0, InitFile.tryRead w bld p.1 p.2 = .panic) ∨
      (∃ i ∈ readable (InitFile.tryRead w bld) 0 sources, DetailsFile.ofInit w bld i = .panic)) := by
  have ser : scanSources w bld ord table split sources = scanSources w bld ord table none sources := by
    cases split with
    | none => rfl
    | some sp => exact C53_parallel w bld ord table sp sources
  rw [ser]
  unfold scanSources
  dsimp only
  constructor
  · intro e h
    rcases Res.bind_eq_err.mp h with h | ⟨_, _, h⟩
    · exact readInits_ne_err _ _ _ _ h
    · rcases Res.bind_eq_err.mp h with h | ⟨_, _, h⟩
      · exact scanLoop_ne_err _ _ _ _ _ _ h
      · cases h
  · rw [Res.bind_eq_panic, readInits_panic]
    constructor
    · rintro (h | ⟨inits, h1, h2⟩)
      · exact .inl h
      · obtain ⟨_, rfl⟩ := (readInits_ok _ _ _ _).mp h1
        rcases Res.bind_eq_panic.mp h2 with h2 | ⟨_, _, h2⟩
        · exact .inr ((scanLoop_panic _ _ _ _ _).mp h2)
        · cases h2
    · rintro (h | h)
      · exact .inl h
      · by_cases hp : ∃ p ∈ sources.zipIdx 0, InitFile.tryRead w bld p.1 p.2 = .panic
        · exact .inl hp
        · refine .inr ⟨_, (readInits_ok _ _ _ _).mpr ⟨fun p hp' c => hp ⟨p, hp', c⟩, rfl⟩, ?_⟩
          rw [Res.bind_eq_panic]
          exact .inl ((scanLoop_panic _ _ _ _ _).mpr h)

/-- A directory of the examples: a replay, a file that is not an archive, and (`map`) an archive without user
data. -/
def exDir : World Nat :=
  { exWorld exLobby with
    file := fun p => if p = str "bad" then .ok [0] else if p = str "map" then .ok [2] else .ok [1]
    mpq := fun c => if c = [0] then .err .tag else if c = [2] then .ok ⟨none, fun _ => .err .eof⟩
      else (exWorld exLobby).mpq c }

/-- The statistics of the example: the readable replays are counted, the broken one is not. -/
example : scanSources exDir .release id [((88500, str "Probe"), ⟨none, [], [], [], none⟩)] none
      [str "a", str "bad", str "b"] =
    .ok ⟨3, 2, 2, [(str "Ann", 2), (str "Bob", 2)], [(str "Map", 2)]⟩ := by decide +kernel

/-- The same in parallel. -/
example : scanSources exDir .release id [((88499, str "Probe"), ⟨none, [], [], [], none⟩)]
      (some (.node 2 (.node 1 .leaf .leaf) .leaf)) [str "a", str "bad", str "b"] =
    .ok ⟨3, 2, 0, [(str "Ann", 2), (str "Bob", 2)], [(str "Map", 2)]⟩ := by decide +kernel

/-- **C99.** In general a file in the directory that is an archive but not a replay makes the whole scan panic,
although the other files are fine. -/
theorem C99_panics_refuted :
    (scanSources exDir .release id [] none [str "a", str "bad"]).isOk = true ∧
    scanSources exDir .release id [] none [str "a", str "bad", str "map"] = .panic := by
  decide +kernel

/-- **C98.** The top lists themselves depend on the iteration order of the hash map when counts are equal. -/
theorem C98_order_refuted : ¬ ∀ (w : World Nat) (o1 o2 : List (Str × Nat) → List (Str × Nat)),
    (∀ m, (o1 m).Perm m) → (∀ m, (o2 m).Perm m) → ∀ sources : List Str,
      scanSources w .release o1 [] none sources = scanSources w .release o2 [] none sources := by
  intro h
  have := h exDir id List.reverse (fun m => .refl _) (fun m => List.reverse_perm m) [str "a"]
  revert this
  decide +kernel

/-! ## C60: which replays are exported -/

theorem versionOk_iff (minV maxV : Option Int) (i : InitFile) :
    versionOk minV maxV i = true ↔ (∀ m, minV = some m → m ≤ i.version) ∧ (∀ m, maxV = some m → i.version ≤ m) := by
  unfold versionOk
  cases minV <;> cases maxV <;> simp

theorem read_meta {D : Type} {w : World D} {bld : Build} {p : Str} {i : Nat} {x : InitFile}
    (h : InitFile.read w bld p i = .ok x) : x.fileName = pathOrDefault p ∧ x.fsId = i := by
  simp only [InitFile.read, InitFile.new, Res.bind_eq_ok, Res.pure_eq, Res.ok.injEq, Prod.exists] at h
  obtain ⟨_, _, _, _, _, _, _, rfl⟩ := h
  exact ⟨rfl, rfl⟩

theorem mem_readable {α : Type} {read : Str → Nat → Res α} {k : Nat} {ss : List Str} {x : α} :
    x ∈ readable read k ss ↔ ∃ (i : Nat) (p : Str), ss[i]? = some p ∧ read p (k + i) = .ok x := by
  unfold readable
  rw [List.mem_filterMap]
  constructor
  · rintro ⟨⟨p, j⟩, hm, h⟩
    obtain ⟨h1, h2, h3⟩ := List.mem_zipIdx hm
    refine ⟨j - k, p, ?_, ?_⟩
    · rw [h3]; exact List.getElem?_eq_getElem _
    · rw [show k + (j - k) = j by omega]
      revert h
      cases hr : read p j <;> simp [hr]
  · rintro ⟨i, p, hp, h⟩
    refine ⟨(p, k + i), ?_, by simp [h]⟩
    rw [List.mem_zipIdx_iff_le_and_getElem?_sub]
    exact ⟨by simp, by simpa using hp⟩

theorem readable_fsId {D : Type} (w : World D) (bld : Build) (ss : List Str) : ∀ k,
    (readable (InitFile.read w bld) k ss).Pairwise (fun a b => a.fsId < b.fsId) := by
  induction ss with
  | nil => intro k; simp [readable]
  | cons s ss ih =>
    intro k
    have hrest := ih (k + 1)
    unfold readable at hrest ⊢
    rw [List.zipIdx_cons, List.filterMap_cons]
    cases h : InitFile.read w bld s k with
    | panic => simpa [h] using hrest
    | err e => simpa [h] using hrest
    | ok x =>
      simp only [h]
      refine List.pairwise_cons.mpr ⟨?_, hrest⟩
      intro y hy
      obtain ⟨i, p, _, hr⟩ := mem_readable.mp hy
      rw [(read_meta h).2, (read_meta hr).2]
      omega

/-- **C60.** The exported replays: each is read from the file at its position in the file list (`fsId`) and its
version is in the asked range; there are at most `processMax` of them, in the order of the file list; and a readable
replay with a version in range is missing only if `processMax` others come before it. -/
theorem C60_selection {D : Type} (w : World D) (bld : Build) (minV maxV : Option Int) (processMax : Nat)
    (split : Option Split) (sources : List Str) (xs : List InitFile)
    (h : selectSources w bld minV maxV processMax split sources = .ok xs) :
    (∀ x ∈ xs, (∃ p, sources[x.fsId]? = some p ∧ InitFile.read w bld p x.fsId = .ok x ∧
        (utf8Ok p = true → x.fileName = p)) ∧
      (∀ m, minV = some m → m ≤ x.version) ∧ (∀ m, maxV = some m → x.version ≤ m)) ∧
    xs.length ≤ processMax ∧
    xs.Pairwise (fun a b => a.fsId < b.fsId) ∧
    (∀ (i : Nat) (p : Str) (x : InitFile), sources[i]? = some p → InitFile.read w bld p i = .ok x →
      (∀ m, minV = some m → m ≤ x.version) → (∀ m, maxV = some m → x.version ≤ m) →
      x ∈ xs ∨ (xs.length = processMax ∧ ∀ y ∈ xs, y.fsId < i)) := by
  have h' : selectSources w bld minV maxV processMax none sources = .ok xs := by
    cases split with
    | none => exact h
    | some sp => simpa only [selectSources, readInitsPar_eq] using h
  simp only [selectSources, Res.bind_eq_ok] at h'
  obtain ⟨inits, h1, h2⟩ := h'
  obtain ⟨_, rfl⟩ := (readInits_ok _ _ _ _).mp h1
  split at h2
  · cases h2
  · simp only [Res.pure_eq, Res.ok.injEq] at h2
    subst h2
    generalize hf : (readable (InitFile.read w bld) 0 sources).filter (versionOk minV maxV) = fs
    have hpw : fs.Pairwise (fun a b => a.fsId < b.fsId) := hf ▸ (readable_fsId w bld sources 0).filter _
    refine ⟨?_, ?_, hpw.sublist (List.take_sublist _ _), ?_⟩
    · intro x hx
      have hx := List.mem_of_mem_take hx
      rw [← hf, List.mem_filter, versionOk_iff, mem_readable] at hx
      obtain ⟨⟨i, p, hp, hr⟩, hv⟩ := hx
      obtain ⟨e1, e2⟩ := read_meta hr
      rw [Nat.zero_add] at e2 hr
      rw [e2]
      exact ⟨⟨p, hp, hr, fun hu => by rw [e1, pathOrDefault, if_pos hu]⟩, hv⟩
    · rw [List.length_take]; omega
    · intro i p x hp hr hmin hmax
      have hx : x ∈ fs := by
        rw [← hf, List.mem_filter, versionOk_iff, mem_readable]
        exact ⟨⟨i, p, hp, by rwa [Nat.zero_add]⟩, hmin, hmax⟩
      have hx' := hx
      rw [← List.take_append_drop processMax fs, List.mem_append] at hx'
      rcases hx' with hx' | hx'
      · exact .inl hx'
      · refine .inr ⟨?_, ?_⟩
        · have := List.length_pos_of_mem hx'
          rw [List.length_drop] at this
          rw [List.length_take]; omega
        · intro y hy
          rw [← List.take_append_drop processMax fs, List.pairwise_append] at hpw
          rw [← (read_meta hr).2]
          exact hpw.2.2 y hy x hx'

/-- **C60.** The selection is total: unless reading panics, it fails only when nothing is selected. -/
theorem C60_total {D : Type} (w : World D) (bld : Build) (minV maxV : Option Int) (processMax : Nat)
    (split : Option Split) (sources : List Str) (hp : ∀ p ∈ sources.zipIdx 0, InitFile.read w bld p.1 p.2 ≠ .panic)
    (i : Nat) (p : Str) (x : InitFile) (hs : sources[i]? = some p) (hr : InitFile.read w bld p i = .ok x)
    (hmin : ∀ m, minV = some m → m ≤ x.version) (hmax : ∀ m, maxV = some m → x.version ≤ m) (hn : 0 < processMax) :
    ∃ xs, selectSources w bld minV maxV processMax split sources = .ok xs := by
  have ser : selectSources w bld minV maxV processMax split sources =
      selectSources w bld minV maxV processMax none sources := by
    cases split with
    | none => rfl
    | some sp => simp only [selectSources, readInitsPar_eq]
  rw [ser]
  simp only [selectSources, (readInits_ok _ _ _ _).mpr ⟨hp, rfl⟩, Res.bind_ok]
  have hx : x ∈ (readable (InitFile.read w bld) 0 sources).filter (versionOk minV maxV) := by
    rw [List.mem_filter, versionOk_iff, mem_readable]
    exact ⟨⟨i, p, hs, by rwa [Nat.zero_add]⟩, hmin, hmax⟩
  refine ⟨_, if_neg ?_⟩
  rw [List.isEmpty_iff, List.take_eq_nil_iff]
  rintro (h | h)
  · omega
  · rw [h] at hx; cases hx

/-- Two of the three files are in range, and one is asked for. -/
example : selectSources exDir .release (some 88500) (some 90000) 1 none [str "bad", str "a", str "b"] =
    .ok [⟨1, str "0123", str "a", 88500, exLobby⟩] := by decide +kernel

/-- **C100, partial.** With nothing to export the selection is a panic, never an error: what is reported is only
that. -/
theorem C100_empty_partial {D : Type} (w : World D) (bld : Build) (minV maxV : Option Int) (processMax : Nat)
    (split : Option Split) (sources : List Str) :
    (∀ e, selectSources w bld minV maxV processMax split sources ≠ .err e) ∧
    ((∀ p ∈ sources.zipIdx 0, InitFile.read w bld p.1 p.2 ≠ .panic) →
      (selectSources w bld minV maxV processMax split sources = .panic ↔
        processMax = 0 ∨ ∀ (i : Nat) (p : Str) (x : InitFile), sources[i]? = some p → InitFile.read w bld p i = .ok x →
          (∃ m, minV = some m ∧ x.version < m) ∨ (∃ m, maxV = some m ∧ m < x.version))) := by
  have ser : selectSources w bld minV maxV processMax split sources =
      selectSources w bld minV maxV processMax none sources := by
    cases split with
    | none => rfl
    | some sp => simp only [selectSources, readInitsPar_eq]
  rw [ser]
  constructor
  · intro e h
    rcases Res.bind_eq_err.mp h with h | ⟨_, _, h⟩
    · exact readInits_ne_err _ _ _ _ h
    · dsimp only at h
      split at h <;> cases h
  · intro hp
    simp only [selectSources, (readInits_ok _ _ _ _).mpr ⟨hp, rfl⟩, Res.bind_ok]
    have hb : ∀ (c : Bool) (v : List InitFile), (if c = true then (Res.panic : Res (List InitFile)) else pure v) = .panic ↔ c = true := by
      intro c v; cases c <;> simp
    rw [hb, List.isEmpty_iff, List.take_eq_nil_iff]
    apply or_congr Iff.rfl
    rw [List.filter_eq_nil_iff]
    constructor
    · intro h i p x hs hr
      have := h x (mem_readable.mpr ⟨i, p, hs, by rwa [Nat.zero_add]⟩)
      rw [versionOk_iff] at this
      apply Classical.byContradiction
      intro hc
      apply this
      constructor
      · intro m hm
        apply Classical.byContradiction
        intro hlt
        exact hc (.inl ⟨m, hm, by omega⟩)
      · intro m hm
        apply Classical.byContradiction
        intro hlt
        exact hc (.inr ⟨m, hm, by omega⟩)
    · intro h x hx
      obtain ⟨i, p, hs, hr⟩ := mem_readable.mp hx
      rw [Nat.zero_add] at hr
      rw [versionOk_iff]
      rintro ⟨h1, h2⟩
      rcases h i p x hs hr with ⟨m, hm, hlt⟩ | ⟨m, hm, hlt⟩
      · have := h1 m hm; omega
      · have := h2 m hm; omega

/-- **C100.** An export for which no replay qualifies panics instead of returning an error. -/
theorem C100_empty_refuted : ¬ ∀ (w : World Nat) (minV : Option Int) (sources : List Str),
    (∀ p ∈ sources.zipIdx 0, InitFile.read w .release p.1 p.2 ≠ .panic) →
      selectSources w .release minV none 5 none sources ≠ .panic := by
  intro h
  refine h exDir (some 90000) [str "a"] ?_ ?_
  · decide +kernel
  · decide +kernel

end S2
