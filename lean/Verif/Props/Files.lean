import Verif.Spec.FilesSpec
import Verif.ResLemmas
/-! # Replay discovery (C50) -/
namespace S2.Files

open S2

theorem takeWhile_ne_append (a b : Str) (ha : ∀ x ∈ a, x ≠ 46) : (a ++ 46 :: b).takeWhile (fun x => x != 46) = a := by
  induction a with
  | nil => simp
  | cons x a ih =>
    have := ha x (by simp)
    simp [this]
    simpa using ih (fun y hy => ha y (by simp [hy]))

theorem takeWhile_split (l : Str) : (∃ r, l = l.takeWhile (fun x => x != 46) ++ 46 :: r) ∨ l.takeWhile (fun x => x != 46) = l := by
  induction l with
  | nil => right; rfl
  | cons a l ih =>
    by_cases h : a = 46
    · subst h; left; exact ⟨l, by simp⟩
    · have e : (a :: l).takeWhile (fun x => x != 46) = a :: l.takeWhile (fun x => x != 46) := by simp [h]
      rw [e]
      rcases ih with ⟨r, hr⟩ | hr
      · left; exact ⟨r, by rw [List.cons_append, ← hr]⟩
      · right; rw [hr]

/-- The extension test accepts exactly the replay names. -/
theorem extension_iff (name : Str) : extension name = some (str "SC2Replay") ↔ ReplayName name := by
  unfold extension ReplayName
  constructor
  · intro h
    rcases takeWhile_split name.reverse with ⟨r, hr⟩ | hr
    · generalize he : name.reverse.takeWhile (fun x => x != 46) = ext at h hr
      have hd : name.reverse.drop ext.length = 46 :: r := by
        rw [hr]; simp
      simp only [he, hd] at h
      match r, h with
      | b :: r, h =>
        simp only [Option.some.injEq] at h
        have hn : name = (b :: r).reverse ++ 46 :: ext.reverse := by
          have := congrArg List.reverse hr
          simpa using this
        refine ⟨(b :: r).reverse, by simp, ?_⟩
        rw [hn, h]; rfl
    · simp only [hr] at h
      have hd : name.reverse.drop name.reverse.length = [] := by simp
      simp only [hd] at h
      cases h
  · rintro ⟨base, hb, rfl⟩
    have hrev : (base ++ str ".SC2Replay").reverse = (str "SC2Replay").reverse ++ 46 :: base.reverse := by
      rw [List.reverse_append]
      have : (str ".SC2Replay").reverse = (str "SC2Replay").reverse ++ [46] := by decide
      rw [this]; simp
    have ht : ((str "SC2Replay").reverse ++ 46 :: base.reverse).takeWhile (fun x => x != 46) = (str "SC2Replay").reverse :=
      takeWhile_ne_append _ _ (by decide)
    rw [hrev]
    simp only [ht]
    have hd : ((str "SC2Replay").reverse ++ 46 :: base.reverse).drop (str "SC2Replay").reverse.length = 46 :: base.reverse := by
      simp
    rw [hd]
    match hbr : base.reverse with
    | [] => exact absurd (by simpa using hbr) hb
    | x :: l => simp

/-- All replay files of a directory listing, given those of a subdirectory. -/
def allEntries (rec : Node → List Path) : List (Str × Node) → List Path
  | [] => []
  | (name, .dir es) :: rest => (rec (.dir es)).map (name :: ·) ++ allEntries rec rest
  | (name, .file) :: rest =>
    if extension name = some (str "SC2Replay") then [name] :: allEntries rec rest else allEntries rec rest
  | (_, .other) :: rest => allEntries rec rest

/-- All replay files below a node, in traversal order. -/
def allFiles : Nat → Node → List Path
  | 0, _ => []
  | d + 1, .dir es => allEntries (allFiles d) es
  | _ + 1, _ => []

theorem scanEntries_spec (bld : Build) (rec : Path → Node → Nat → Res (List Path)) (all : Node → List Path)
    (hrec : ∀ p n m, rec p n m = .ok (((all n).map (p ++ ·)).take m)) (path : Path) (max : Nat)
    (es : List (Str × Node)) (sources : List Path) (hs : sources.length ≤ max) :
    scanEntries bld rec path max es sources =
      .ok ((sources ++ (allEntries all es).map (path ++ ·)).take max) := by
  induction es generalizing sources with
  | nil => simp [scanEntries, allEntries, List.take_of_length_le hs]
  | cons e es ih =>
    obtain ⟨name, n⟩ := e
    cases n with
    | file =>
      simp only [scanEntries, allEntries]
      split
      · split
        · rename_i h1 h2
          have : max = sources.length := by omega
          subst this
          simp
        · rename_i h1 h2
          rw [ih _ (by simp; omega)]
          simp
      · exact ih _ hs
    | other => exact ih _ hs
    | dir sub =>
      simp only [scanEntries, allEntries, subUsize, if_pos hs, Res.bind_ok, hrec]
      generalize hA : (all (.dir sub)).map (path ++ [name] ++ ·) = A
      have hA' : ((all (.dir sub)).map (name :: ·)).map (path ++ ·) = A := by
        rw [← hA, List.map_map]
        apply List.map_congr_left
        intro p _
        simp
      rw [List.map_append, hA']
      split
      · rename_i he
        rw [ih _ hs]
        have he : A.take (max - sources.length) = [] := by simpa using he
        congr 1
        rcases List.take_eq_nil_iff.1 he with h0 | h0
        · have : max = sources.length := by omega
          subst this; simp
        · rw [h0]; simp
      · rw [if_neg (by rw [List.length_take]; omega)]
        rw [ih _ (by rw [List.length_append, List.length_take]; omega)]
        congr 1
        rw [List.append_assoc, List.take_append, List.take_append, List.take_append, List.take_append]
        simp only [List.length_take, List.take_take, Nat.min_self]
        congr 2
        by_cases hle : A.length ≤ max - sources.length
        · rw [Nat.min_eq_right hle]
        · rw [Nat.min_eq_left (by omega)]
          have e1 : max - sources.length - (max - sources.length) = 0 := by omega
          have e2 : max - sources.length - A.length = 0 := by omega
          rw [e1, e2]

theorem getMatchingFiles_spec (bld : Build) (path : Path) (n : Node) (max d : Nat) :
    getMatchingFiles bld path n max d = .ok (((allFiles d n).map (path ++ ·)).take max) := by
  induction d generalizing path n max with
  | zero => simp [getMatchingFiles, allFiles]
  | succ d ih =>
    cases n with
    | file => simp [getMatchingFiles, allFiles]
    | other => simp [getMatchingFiles, allFiles]
    | dir es =>
      simp only [getMatchingFiles, allFiles]
      rw [scanEntries_spec bld _ (allFiles d) (fun p n m => ih p n m) path max es [] (by simp)]
      simp

theorem mem_allEntries {rec : Node → List Path} {es : List (Str × Node)} {p : Path} :
    p ∈ allEntries rec es ↔ (∃ name, (name, Node.file) ∈ es ∧ ReplayName name ∧ p = [name]) ∨
      (∃ name sub q, (name, Node.dir sub) ∈ es ∧ q ∈ rec (.dir sub) ∧ p = name :: q) := by
  induction es with
  | nil => simp [allEntries]
  | cons e es ih =>
    obtain ⟨name, n⟩ := e
    cases n with
    | file =>
      simp only [allEntries]
      constructor
      · intro h
        split at h
        · rename_i hx
          rcases List.mem_cons.1 h with rfl | h
          · exact .inl ⟨name, by simp, (extension_iff name).1 hx, rfl⟩
          · rcases ih.1 h with ⟨a, b, c⟩ | ⟨a, b, c, d, e⟩
            · exact .inl ⟨a, by simp [b], c⟩
            · exact .inr ⟨a, b, c, by simp [d], e⟩
        · rcases ih.1 h with ⟨a, b, c⟩ | ⟨a, b, c, d, e⟩
          · exact .inl ⟨a, by simp [b], c⟩
          · exact .inr ⟨a, b, c, by simp [d], e⟩
      · intro h
        have hx : (∃ name', (name', Node.file) = (name, Node.file) ∧ ReplayName name' ∧ p = [name']) ∨ p ∈ allEntries rec es := by
          rcases h with ⟨a, b, c⟩ | ⟨a, b, c, d, e⟩
          · rcases List.mem_cons.1 b with hb | hb
            · exact .inl ⟨a, hb, c⟩
            · exact .inr (ih.2 (.inl ⟨a, hb, c⟩))
          · rcases List.mem_cons.1 d with hb | hb
            · cases hb
            · exact .inr (ih.2 (.inr ⟨a, b, c, hb, e⟩))
        rcases hx with ⟨a, ha, hr, rfl⟩ | hx
        · cases ha
          rw [if_pos ((extension_iff name).2 hr)]; simp
        · split
          · exact List.mem_cons_of_mem _ hx
          · exact hx
    | other =>
      simp only [allEntries, ih]
      simp
    | dir sub =>
      simp only [allEntries, List.mem_append, List.mem_map, ih]
      constructor
      · rintro (⟨q, hq, rfl⟩ | ⟨a, b, c⟩ | ⟨a, b, c, d, e⟩)
        · exact .inr ⟨name, sub, q, by simp, hq, rfl⟩
        · exact .inl ⟨a, by simp [b], c⟩
        · exact .inr ⟨a, b, c, by simp [d], e⟩
      · rintro (⟨a, b, c⟩ | ⟨a, b, c, d, e, rfl⟩)
        · rcases List.mem_cons.1 b with hb | hb
          · cases hb
          · exact .inr (.inl ⟨a, hb, c⟩)
        · rcases List.mem_cons.1 d with hb | hb
          · cases hb; exact .inl ⟨c, e, rfl⟩
          · exact .inr (.inr ⟨a, b, c, hb, e, rfl⟩)

theorem mem_allFiles {d : Nat} {n : Node} {p : Path} : p ∈ allFiles d n ↔ Found n d p := by
  induction d generalizing n p with
  | zero =>
    simp only [allFiles, List.not_mem_nil, false_iff]
    intro h; cases h
  | succ d ih =>
    cases n with
    | file => simp only [allFiles, List.not_mem_nil, false_iff]; intro h; cases h
    | other => simp only [allFiles, List.not_mem_nil, false_iff]; intro h; cases h
    | dir es =>
      simp only [allFiles, mem_allEntries]
      constructor
      · rintro (⟨a, b, c, rfl⟩ | ⟨a, b, c, hd, he, rfl⟩)
        · exact .here b c
        · exact .inside hd (ih.1 he)
      · intro h
        cases h with
        | here h1 h2 => exact .inl ⟨_, h1, h2, rfl⟩
        | inside h1 h2 => exact .inr ⟨_, _, _, h1, ih.2 h2, rfl⟩

theorem nodup_allEntries {rec : Node → List Path} {es : List (Str × Node)} (hn : (es.map (·.1)).Nodup)
    (hr : ∀ e ∈ es, (rec e.2).Nodup) : (allEntries rec es).Nodup := by
  induction es with
  | nil => simp [allEntries]
  | cons e es ih =>
    obtain ⟨name, n⟩ := e
    simp only [List.map_cons, List.nodup_cons] at hn
    have ih := ih hn.2 (fun e he => hr e (by simp [he]))
    have hfresh : ∀ p ∈ allEntries rec es, p.head? ≠ some name := by
      intro p hp hh
      rcases mem_allEntries.1 hp with ⟨a, b, -, rfl⟩ | ⟨a, b, c, hd, -, rfl⟩
      · simp only [List.head?_cons, Option.some.injEq] at hh
        subst hh; exact hn.1 (List.mem_map.2 ⟨_, b, rfl⟩)
      · simp only [List.head?_cons, Option.some.injEq] at hh
        subst hh; exact hn.1 (List.mem_map.2 ⟨_, hd, rfl⟩)
    cases n with
    | other => exact ih
    | file =>
      simp only [allEntries]
      split
      · exact List.nodup_cons.2 ⟨fun h => hfresh _ h rfl, ih⟩
      · exact ih
    | dir sub =>
      simp only [allEntries]
      rw [List.nodup_append]
      refine ⟨?_, ih, ?_⟩
      · have := hr (name, .dir sub) (by simp)
        unfold List.Nodup at this ⊢
        rw [List.pairwise_map]
        exact this.imp (fun h h' => h (List.cons_inj_right _ |>.1 h'))
      · rintro p hp q hq rfl
        obtain ⟨r, -, rfl⟩ := List.mem_map.1 hp
        exact hfresh _ hq rfl

theorem nodup_allFiles {d : Nat} {n : Node} (h : Distinct n) : (allFiles d n).Nodup := by
  induction d generalizing n with
  | zero => simp [allFiles]
  | succ d ih =>
    cases h with
    | file => simp [allFiles]
    | other => simp [allFiles]
    | dir h1 h2 => exact nodup_allEntries h1 (fun e he => ih (h2 e he))

/-- There is one list holding every replay file within the depth limit exactly once, and whatever
`max_files` is, the search returns its first `max_files` elements (so at most that many, nothing
else, no file twice, and all of them when `max_files` is at least their number); it never panics.
-/
theorem C50_discovery (bld : Build) (source : Path) (node : Node) (depth : Nat) (hd : Distinct node) :
    ∃ all : List Path, all.Nodup ∧ (∀ p, p ∈ all ↔ ∃ rel, p = source ++ rel ∧ Found node depth rel) ∧
      ∀ maxFiles, getMatchingFiles bld source node maxFiles depth = .ok (all.take maxFiles) := by
  refine ⟨(allFiles depth node).map (source ++ ·), ?_, fun p => ?_, fun m => getMatchingFiles_spec _ _ _ _ _⟩
  · have := nodup_allFiles (d := depth) hd
    unfold List.Nodup at this ⊢
    rw [List.pairwise_map]
    exact this.imp (fun h h' => h (List.append_right_inj _ |>.1 h'))
  · simp only [List.mem_map, mem_allFiles]
    exact ⟨fun ⟨r, h, e⟩ => ⟨r, e.symm, h⟩, fun ⟨r, e, h⟩ => ⟨r, h, e.symm⟩⟩

/-- The four clauses one by one. -/
theorem C50_limits (bld : Build) (source : Path) (node : Node) (maxFiles depth : Nat) (hd : Distinct node) :
    ∃ files, getMatchingFiles bld source node maxFiles depth = .ok files ∧
      files.length ≤ maxFiles ∧ files.Nodup ∧
      (∀ p ∈ files, ∃ rel, p = source ++ rel ∧ Found node depth rel) ∧
      (files.length < maxFiles → ∀ rel, Found node depth rel → source ++ rel ∈ files) := by
  obtain ⟨all, h1, h2, h3⟩ := C50_discovery bld source node depth hd
  refine ⟨_, h3 maxFiles, List.length_take_le .., h1.sublist (List.take_sublist ..),
    fun p hp => (h2 p).1 (List.take_subset _ _ hp), fun hl rel hf => ?_⟩
  rw [List.take_of_length_le (by rw [List.length_take] at hl; omega)]
  exact (h2 _).2 ⟨rel, rfl, hf⟩

/-- A tree with replays at two depths, a non-replay, and a hidden ".SC2Replay". -/
def demoTree : Node :=
  .dir [(str "a.SC2Replay", .file), (str "notes.txt", .file),
    (str "sub", .dir [(str "b.SC2Replay", .file), (str ".SC2Replay", .file), (str "x.SC2Replay", .dir [])]),
    (str "c.v2.SC2Replay", .file)]

theorem demoTree_distinct : Distinct demoTree := by
  refine .dir (by decide) ?_
  intro e he
  simp only [List.mem_cons, List.not_mem_nil, or_false] at he
  rcases he with rfl | rfl | rfl | rfl
  · exact .file
  · exact .file
  · refine .dir (by decide) ?_
    intro e he
    simp only [List.mem_cons, List.not_mem_nil, or_false] at he
    rcases he with rfl | rfl | rfl
    · exact .file
    · exact .file
    · exact .dir (by simp) (by simp)
  · exact .file

example : getMatchingFiles .debug [] demoTree 2 10 = .ok [[str "a.SC2Replay"], [str "sub", str "b.SC2Replay"]] := by
  decide +kernel
example : getMatchingFiles .debug [] demoTree 5 1 = .ok [[str "a.SC2Replay"], [str "c.v2.SC2Replay"]] := by
  decide +kernel

end S2.Files
