import Verif.Misc.JsonDir
import Verif.Props.BalanceFiles
/-! # Converting balance data into a directory that holds something already -/
namespace S2.JsonDir

open S2

variable {U : Type}

/-! ## Specification -/

/-- [specification] A table as a `HashMap` holds it, whose units have plain names: every key once, versions are `u32`, no name has a
'/' in it or ends in ".json". -/
structure Plain (table : List ((Nat × Str) × U)) : Prop where
  nodup : (table.map Prod.fst).Nodup
  version : ∀ e ∈ table, e.1.1 < 2 ^ 32
  slash : ∀ e ∈ table, (47 : UInt8) ∉ e.1.2
  json : ∀ e ∈ table, ¬ str ".json" <:+ e.1.2

/-- [specification] The file of a unit: `<version>/<name>.json`. -/
def fileOf (k : Nat × Str) : List Str := [decimal k.1, k.2 ++ str ".json"]

/-- [specification] The directory itself and the directory of a version. -/
def dirOf (q : List Str) (k : Nat × Str) : Prop := q = [] ∨ q = [decimal k.1]

/-- [specification] Every file and directory is in a directory. -/
def Wf (t : Tree) : Prop := ∀ p x, t (p ++ [x]) ≠ none → t p = some .dir

/-- [specification] Nothing is in the way of the unit: there is no file where a directory is needed, no directory where the file goes. -/
structure Free (t : Tree) (k : Nat × Str) : Prop where
  root : ∀ c, t [] ≠ some (.file c)
  version : ∀ c, t [decimal k.1] ≠ some (.file c)
  file : t (fileOf k) ≠ some .dir

/-- [specification] What the tree is after a whole conversion: the files of the table, their directories, and everything else as before. -/
structure Converted (json : U → List (List UInt8)) (table : List ((Nat × Str) × U)) (t t' : Tree) : Prop where
  files : ∀ e ∈ table, t' (fileOf e.1) = some (.file (json e.2).flatten)
  dirs : ∀ e ∈ table, ∀ q, dirOf q e.1 → t' q = some .dir
  rest : ∀ q, (∀ e ∈ table, q ≠ fileOf e.1 ∧ ¬ dirOf q e.1) → t' q = t q

/-! ## One unit -/

theorem runOps_append : ∀ (a b : List Op) (t : Tree), runOps (a ++ b) t =
    if (runOps a t).2 then runOps b (runOps a t).1 else runOps a t
  | [], b, t => rfl
  | op :: a, b, t => by
    have : ∀ o, op.run t = o → runOps (op :: a ++ b) t =
        if (runOps (op :: a) t).2 then runOps b (runOps (op :: a) t).1 else runOps (op :: a) t := by
      intro o ho
      cases o with
      | none => simp [runOps, ho]
      | some t1 =>
        simp only [List.cons_append, runOps, ho]
        exact runOps_append a b t1
    exact this _ rfl

theorem unitPath_eq {k : Nat × Str} (h : (47 : UInt8) ∉ k.2) : unitPath k = fileOf k := writeJson_path h

theorem fileOf_inj {k k' : Nat × Str} (h1 : k.1 < 2 ^ 32) (h2 : k'.1 < 2 ^ 32) (h : fileOf k = fileOf k') : k = k' := by
  simp only [fileOf, List.cons.injEq, and_true] at h
  obtain ⟨ha, hb⟩ := h
  have h3 := parse_decimal h1
  rw [ha, parse_decimal h2, Option.some.injEq] at h3
  exact Prod.ext h3.symm (List.append_cancel_right hb)

theorem fileOf_not_dir {k k' : Nat × Str} : ¬ dirOf (fileOf k) k' := by
  unfold dirOf fileOf
  simp

theorem isPrefix_dir {q : List Str} {k : Nat × Str} : isPrefix q [decimal k.1] = true ↔ dirOf q k := by
  unfold isPrefix dirOf
  rw [List.isPrefixOf_iff_prefix]
  constructor
  · rintro ⟨r, h⟩
    cases q with
    | nil => exact .inl rfl
    | cons a q =>
      simp only [List.cons_append, List.cons.injEq, List.append_eq_nil_iff] at h
      exact .inr (by rw [h.1, h.2.1])
  · rintro (rfl | rfl)
    · exact List.nil_prefix
    · exact List.prefix_refl _

open Classical in
/-- `create_dir_all` of a version directory. -/
theorem mkdirs_run (t : Tree) (k : Nat × Str) : (Op.mkdirs [decimal k.1]).run t =
    if (∀ c, t [] ≠ some (.file c)) ∧ ∀ c, t [decimal k.1] ≠ some (.file c) then
      some (fun q => if isPrefix q [decimal k.1] then some .dir else t q) else none := by
  have hc : ((List.range ([decimal k.1].length + 1)).all (fun i => !isFile (t ([decimal k.1].take i)))) = true ↔
      (∀ c, t [] ≠ some (.file c)) ∧ ∀ c, t [decimal k.1] ≠ some (.file c) := by
    rw [show List.range ([decimal k.1].length + 1) = [0, 1] from rfl]
    simp only [List.all_cons, List.all_nil, Bool.and_true, Bool.and_eq_true, List.take_zero,
      show [decimal k.1].take 1 = [decimal k.1] from rfl]
    have one : ∀ o : Option Entry, (!isFile o) = true ↔ ∀ c, o ≠ some (.file c) := by
      intro o
      match o with
      | none => simp [isFile]
      | some .dir => simp [isFile]
      | some (.file c) => simp [isFile]
    rw [one, one]
  simp only [Op.run]
  by_cases h : (∀ c, t [] ≠ some (.file c)) ∧ ∀ c, t [decimal k.1] ≠ some (.file c)
  · rw [if_pos h, if_pos (hc.2 h)]
  · rw [if_neg h, if_neg (fun h' => h (hc.1 h'))]

theorem appends_run (p : List Str) : ∀ (pieces : List (List UInt8)) (t : Tree) (c : List UInt8), t p = some (.file c) →
    (runOps (pieces.map (.append p)) t).2 = true ∧
    (runOps (pieces.map (.append p)) t).1 = fun q => if q = p then some (.file (c ++ pieces.flatten)) else t q
  | [], t, c, h => by
    refine ⟨rfl, funext fun q => ?_⟩
    simp only [List.map_nil, runOps, List.flatten_nil, List.append_nil]
    split
    · rename_i hq; rw [hq, h]
    · rfl
  | b :: bs, t, c, h => by
    simp only [List.map_cons, runOps, Op.run, h]
    obtain ⟨h1, h2⟩ := appends_run p bs (fun q => if q = p then some (.file (c ++ b)) else t q) (c ++ b) (by simp)
    refine ⟨h1, ?_⟩
    rw [h2]
    funext q
    by_cases hq : q = p
    · simp [hq]
    · simp [hq]

/-- The tree once the file of a unit has been opened and `c` written to it. [proof device, no counterpart in /repo] -/
def opened (t : Tree) (k : Nat × Str) (c : List UInt8) : Tree := fun q =>
  if q = fileOf k then some (.file c) else if isPrefix q [decimal k.1] then some .dir else t q

theorem unitOps_eq (json : U → List (List UInt8)) (e : (Nat × Str) × U) (hs : (47 : UInt8) ∉ e.1.2) :
    unitOps json e = .mkdirs [decimal e.1.1] :: .create (fileOf e.1) :: (json e.2).map (.append (fileOf e.1)) := by
  unfold unitOps
  rw [unitPath_eq hs]
  rfl

open Classical in
/-- Opening the file: the first two calls. -/
theorem open_run (t : Tree) (k : Nat × Str) (ops : List Op) : runOps (.mkdirs [decimal k.1] :: .create (fileOf k) :: ops) t =
    (if (∀ c, t [] ≠ some (.file c)) ∧ ∀ c, t [decimal k.1] ≠ some (.file c) then
      (if t (fileOf k) = some .dir then ((fun q => if isPrefix q [decimal k.1] then some .dir else t q), false)
        else runOps ops (opened t k []))
      else (t, false)) := by
  rw [runOps, mkdirs_run]
  by_cases hc : (∀ c, t [] ≠ some (.file c)) ∧ ∀ c, t [decimal k.1] ≠ some (.file c)
  · rw [if_pos hc, if_pos hc]
    simp only [runOps, Op.run]
    have hp : isPrefix (fileOf k) [decimal k.1] = false := by
      rw [← Bool.not_eq_true, isPrefix_dir]
      exact fileOf_not_dir
    have hd : isPrefix (fileOf k).dropLast [decimal k.1] = true := by
      rw [isPrefix_dir]
      exact .inr rfl
    simp only [hp, hd, if_true, Bool.false_eq_true, if_false]
    have ho : (fun q => if q = fileOf k then some (.file []) else if isPrefix q [decimal k.1] = true then some .dir else t q) =
        opened t k [] := rfl
    rw [ho]
    match h : t (fileOf k) with
    | some .dir => simp
    | some (.file c) => simp
    | none => simp
  · rw [if_neg hc, if_neg hc]

/-- A unit whose place is free is written; one whose place is not free is not. -/
theorem unit_run (json : U → List (List UInt8)) (e : (Nat × Str) × U) (hs : (47 : UInt8) ∉ e.1.2) (t : Tree) :
    ((runOps (unitOps json e) t).2 = true ↔ Free t e.1) ∧
    (Free t e.1 → (runOps (unitOps json e) t).1 = opened t e.1 (json e.2).flatten) := by
  rw [unitOps_eq json e hs, open_run]
  have ho : opened t e.1 [] (fileOf e.1) = some (.file []) := by simp [opened]
  obtain ⟨h1, h2⟩ := appends_run (fileOf e.1) (json e.2) (opened t e.1 []) [] ho
  constructor
  · constructor
    · intro h
      split at h
      · rename_i hc
        split at h
        · cases h
        · rename_i hn
          exact ⟨hc.1, hc.2, hn⟩
      · cases h
    · intro h
      rw [if_pos ⟨h.root, h.version⟩, if_neg h.file]
      exact h1
  · intro h
    rw [if_pos ⟨h.root, h.version⟩, if_neg h.file, h2]
    funext q
    simp only [opened, List.nil_append]
    split <;> rfl

/-- However far the writing of a unit gets: its file is as before or has some of the pieces, everything else is as before except for the
directories. -/
theorem unit_prefix (json : U → List (List UInt8)) (e : (Nat × Str) × U) (hs : (47 : UInt8) ∉ e.1.2) (k : Nat) (t : Tree) :
    ∃ t', (runOps ((unitOps json e).take k) t).1 = t' ∧
    (t' (fileOf e.1) = t (fileOf e.1) ∨ ∃ m, t' (fileOf e.1) = some (.file ((json e.2).take m).flatten)) ∧
    ∀ q, q ≠ fileOf e.1 → t' q = t q ∨ (dirOf q e.1 ∧ (∀ c, t q ≠ some (.file c)) ∧ t' q = some .dir) := by
  refine ⟨_, rfl, ?_⟩
  rw [unitOps_eq json e hs]
  have hp : isPrefix (fileOf e.1) [decimal e.1.1] = false := by
    rw [← Bool.not_eq_true, isPrefix_dir]
    exact fileOf_not_dir
  have dirs : (∀ c, t [] ≠ some (.file c)) ∧ (∀ c, t [decimal e.1.1] ≠ some (.file c)) → ∀ q,
      (if isPrefix q [decimal e.1.1] then some .dir else t q) = t q ∨
        (dirOf q e.1 ∧ (∀ c, t q ≠ some (.file c)) ∧ (if isPrefix q [decimal e.1.1] then some Entry.dir else t q) = some .dir) := by
    intro h q
    split
    · rename_i hq
      have hq := isPrefix_dir.1 hq
      refine .inr ⟨hq, ?_, rfl⟩
      rcases hq with rfl | rfl
      · exact h.1
      · exact h.2
    · exact .inl rfl
  match k with
  | 0 => exact ⟨.inl rfl, fun q _ => .inl rfl⟩
  | 1 =>
    simp only [List.take_succ_cons, List.take_zero]
    rw [runOps, mkdirs_run]
    by_cases h : (∀ c, t [] ≠ some (.file c)) ∧ ∀ c, t [decimal e.1.1] ≠ some (.file c)
    · rw [if_pos h]
      simp only [runOps]
      refine ⟨.inl (by simp [hp]), fun q _ => dirs h q⟩
    · rw [if_neg h]
      exact ⟨.inl rfl, fun q _ => .inl rfl⟩
  | k + 2 =>
    simp only [List.take_succ_cons]
    rw [open_run]
    split
    · rename_i h
      split
      · exact ⟨.inl (by simp [hp]), fun q _ => dirs h q⟩
      · have ho : opened t e.1 [] (fileOf e.1) = some (.file []) := by simp [opened]
        rw [← List.map_take]
        obtain ⟨_, h2⟩ := appends_run (fileOf e.1) ((json e.2).take k) (opened t e.1 []) [] ho
        rw [h2]
        refine ⟨.inr ⟨k, by simp⟩, fun q hq => ?_⟩
        simp only [hq, if_false, opened]
        exact dirs h q
    · exact ⟨.inl rfl, fun q _ => .inl rfl⟩

/-! ## A whole table -/

theorem Plain.tail {e : (Nat × Str) × U} {es : List ((Nat × Str) × U)} (h : Plain (e :: es)) : Plain es :=
  ⟨(List.nodup_cons.1 h.nodup).2, fun x hx => h.version x (List.mem_cons_of_mem _ hx), fun x hx => h.slash x (List.mem_cons_of_mem _ hx),
    fun x hx => h.json x (List.mem_cons_of_mem _ hx)⟩

theorem Plain.head_ne {e : (Nat × Str) × U} {es : List ((Nat × Str) × U)} (h : Plain (e :: es)) {x : (Nat × Str) × U} (hx : x ∈ es) :
    fileOf e.1 ≠ fileOf x.1 := by
  intro hc
  have := fileOf_inj (h.version e List.mem_cons_self) (h.version x (List.mem_cons_of_mem _ hx)) hc
  exact (List.nodup_cons.1 h.nodup).1 (List.mem_map.2 ⟨x, hx, this.symm⟩)

/-- Writing one unit leaves the places of the others free, or not. -/
theorem free_opened {t : Tree} {k k' : Nat × Str} (c : List UInt8) (hf : Free t k) (hne : fileOf k ≠ fileOf k') :
    Free (opened t k c) k' ↔ Free t k' := by
  have e1 : ∀ q, (∀ c, t q ≠ some (.file c)) → q ≠ fileOf k → ∀ c', opened t k c q ≠ some (.file c') := by
    intro q hq hn c'
    unfold opened
    rw [if_neg hn]
    split
    · simp
    · exact hq c'
  have hr : ([] : List Str) ≠ fileOf k := by simp [fileOf]
  have hv : [decimal k'.1] ≠ fileOf k := by simp [fileOf]
  have hp : isPrefix (fileOf k') [decimal k.1] = false := by
    rw [← Bool.not_eq_true, isPrefix_dir]
    exact fileOf_not_dir
  have e2 : opened t k c (fileOf k') = t (fileOf k') := by
    unfold opened
    rw [if_neg (Ne.symm hne), hp]
    rfl
  constructor
  · intro h
    refine ⟨hf.root, fun c' hc => ?_, by rw [← e2]; exact h.file⟩
    refine h.version c' ?_
    unfold opened
    rw [if_neg hv]
    split
    · rename_i hq
      rcases isPrefix_dir.1 hq with h0 | h0
      · cases h0
      · rw [h0] at hc
        exact absurd hc (hf.version c')
    · exact hc
  · intro h
    exact ⟨e1 _ h.root hr, e1 _ h.version hv, by rw [e2]; exact h.file⟩

/-- The conversion writes everything exactly if nothing is in the way of any unit. -/
theorem C160_completes (json : U → List (List UInt8)) : ∀ (table : List ((Nat × Str) × U)), Plain table → ∀ t : Tree,
    ((runOps (writeOps json table) t).2 = true ↔ ∀ e ∈ table, Free t e.1)
  | [], _, t => by simp [writeOps, runOps]
  | e :: es, hp, t => by
    have hs := hp.slash e List.mem_cons_self
    rw [show writeOps json (e :: es) = unitOps json e ++ writeOps json es from rfl, runOps_append]
    obtain ⟨h1, h2⟩ := unit_run json e hs t
    by_cases hf : Free t e.1
    · rw [if_pos (h1.2 hf), C160_completes json es hp.tail, h2 hf]
      simp only [List.forall_mem_cons]
      constructor
      · intro h
        exact ⟨hf, fun x hx => (free_opened _ hf (hp.head_ne hx)).1 (h x hx)⟩
      · intro h x hx
        exact (free_opened _ hf (hp.head_ne hx)).2 (h.2 x hx)
    · have hn : ¬ (runOps (unitOps json e) t).2 = true := fun h => hf (h1.1 h)
      rw [if_neg hn]
      constructor
      · intro h; exact absurd h hn
      · intro h; exact absurd (h e List.mem_cons_self) hf

/-- After a whole conversion the tree has the files of the table, complete, in their directories, and is otherwise as before. -/
theorem C160_completed (json : U → List (List UInt8)) : ∀ (table : List ((Nat × Str) × U)), Plain table → ∀ t : Tree,
    (runOps (writeOps json table) t).2 = true → Converted json table t (runOps (writeOps json table) t).1
  | [], _, t, _ => ⟨fun e he => absurd he List.not_mem_nil, fun e he => absurd he List.not_mem_nil, fun q _ => rfl⟩
  | e :: es, hp, t, h => by
    have hs := hp.slash e List.mem_cons_self
    have hall := (C160_completes json _ hp t).1 h
    have hf := hall e List.mem_cons_self
    rw [show writeOps json (e :: es) = unitOps json e ++ writeOps json es from rfl, runOps_append] at h ⊢
    obtain ⟨h1, h2⟩ := unit_run json e hs t
    rw [if_pos (h1.2 hf), h2 hf] at h ⊢
    have ih := C160_completed json es hp.tail _ h
    have keep : ∀ q, (∀ c, q ≠ fileOf c) → ∀ x, opened t e.1 x q = some .dir →
        (runOps (writeOps json es) (opened t e.1 (json e.2).flatten)).1 q = some .dir := by
      intro q hq x hx
      by_cases hd : ∃ e' ∈ es, dirOf q e'.1
      · obtain ⟨e', he', hd⟩ := hd
        exact ih.dirs e' he' q hd
      · rw [ih.rest q (fun e' he' => ⟨hq _, fun hd' => hd ⟨e', he', hd'⟩⟩)]
        unfold opened at hx ⊢
        rw [if_neg (hq _)] at hx ⊢
        exact hx
    refine ⟨?_, ?_, ?_⟩
    · intro x hx
      rcases List.mem_cons.1 hx with rfl | hx
      · rw [ih.rest _ (fun e' he' => ⟨hp.head_ne he', fileOf_not_dir⟩)]
        simp [opened]
      · exact ih.files x hx
    · intro x hx q hq
      rcases List.mem_cons.1 hx with rfl | hx
      · refine keep q ?_ [] ?_
        · intro c hc
          rw [hc] at hq
          exact fileOf_not_dir hq
        · unfold opened
          rw [if_neg, if_pos (isPrefix_dir.2 hq)]
          intro hc
          rw [hc] at hq
          exact fileOf_not_dir hq
      · exact ih.dirs x hx q hq
    · intro q hq
      rw [ih.rest q (fun e' he' => hq e' (List.mem_cons_of_mem _ he'))]
      obtain ⟨h3, h4⟩ := hq e List.mem_cons_self
      unfold opened
      rw [if_neg h3, if_neg (fun hc => h4 (isPrefix_dir.1 hc))]

/-- Whenever the conversion stops - killed, or a call fails - the units split into those written completely, at most one that is as before
or cut off, and those that are exactly as before; nothing else has changed, except that directories may have been made. -/
theorem C160_crash_points (json : U → List (List UInt8)) : ∀ (table : List ((Nat × Str) × U)), Plain table → ∀ (k : Nat) (t : Tree),
    ∃ (done cur todo : List ((Nat × Str) × U)), table = done ++ cur ++ todo ∧ cur.length ≤ 1 ∧
      (∀ e ∈ done, (runOps ((writeOps json table).take k) t).1 (fileOf e.1) = some (.file (json e.2).flatten)) ∧
      (∀ e ∈ cur, (runOps ((writeOps json table).take k) t).1 (fileOf e.1) = t (fileOf e.1) ∨
        ∃ m, (runOps ((writeOps json table).take k) t).1 (fileOf e.1) = some (.file ((json e.2).take m).flatten)) ∧
      (∀ e ∈ todo, (runOps ((writeOps json table).take k) t).1 (fileOf e.1) = t (fileOf e.1)) ∧
      (∀ q, (∀ e ∈ table, q ≠ fileOf e.1) → (runOps ((writeOps json table).take k) t).1 q = t q ∨
        ((∃ e ∈ table, dirOf q e.1) ∧ (∀ c, t q ≠ some (.file c)) ∧ (runOps ((writeOps json table).take k) t).1 q = some .dir))
  | [], _, k, t => ⟨[], [], [], rfl, by simp, by simp, by simp, by simp, fun q _ => .inl (by simp [writeOps, runOps])⟩
  | e :: es, hp, k, t => by
    have hs := hp.slash e List.mem_cons_self
    rw [show writeOps json (e :: es) = unitOps json e ++ writeOps json es from rfl, List.take_append, runOps_append]
    by_cases hr : (runOps ((unitOps json e).take k) t).2 = true ∧ (unitOps json e).length ≤ k
    · obtain ⟨hr, hk⟩ := hr
      rw [if_pos hr]
      rw [List.take_of_length_le hk] at hr ⊢
      obtain ⟨h1, h2⟩ := unit_run json e hs t
      have hf := h1.1 hr
      rw [h2 hf]
      obtain ⟨done, cur, todo, hsp, hc, i1, i2, i3, i4⟩ :=
        C160_crash_points json es hp.tail (k - (unitOps json e).length) (opened t e.1 (json e.2).flatten)
      have hop : ∀ x ∈ es, opened t e.1 (json e.2).flatten (fileOf x.1) = t (fileOf x.1) := by
        intro x hx
        unfold opened
        rw [if_neg (Ne.symm (hp.head_ne hx)), if_neg]
        intro hc
        exact fileOf_not_dir (isPrefix_dir.1 hc)
      have hin : ∀ x, x ∈ done ++ cur ++ todo → x ∈ es := fun x hx => hsp ▸ hx
      refine ⟨e :: done, cur, todo, by rw [hsp]; rfl, hc, ?_, ?_, ?_, ?_⟩
      · intro x hx
        rcases List.mem_cons.1 hx with rfl | hx
        · rcases i4 (fileOf x.1) (fun e' he' => hp.head_ne he') with h | ⟨⟨e', _, h⟩, _⟩
          · rw [h]
            simp [opened]
          · exact absurd h fileOf_not_dir
        · exact i1 x hx
      · intro x hx
        rw [← hop x (hin x (by simp [hx]))]
        exact i2 x hx
      · intro x hx
        rw [← hop x (hin x (by simp [hx]))]
        exact i3 x hx
      · intro q hq
        have hqe := hq e List.mem_cons_self
        have ho : opened t e.1 (json e.2).flatten q = t q ∨ (dirOf q e.1 ∧ (∀ c, t q ≠ some (.file c)) ∧
            opened t e.1 (json e.2).flatten q = some .dir) := by
          unfold opened
          rw [if_neg hqe]
          split
          · rename_i hpre
            have hd := isPrefix_dir.1 hpre
            refine .inr ⟨hd, ?_, rfl⟩
            rcases hd with rfl | rfl
            · exact hf.root
            · exact hf.version
          · exact .inl rfl
        rcases i4 q (fun e' he' => hq e' (List.mem_cons_of_mem _ he')) with h | ⟨⟨e', he', hd⟩, hnf, h⟩
        · rw [h]
          rcases ho with h | ⟨ha, hb⟩
          · exact .inl h
          · exact .inr ⟨⟨e, List.mem_cons_self, ha⟩, hb⟩
        · rcases ho with h0 | ⟨_, hb, _⟩
          · exact .inr ⟨⟨e', List.mem_cons_of_mem _ he', hd⟩, by rw [← h0]; exact hnf, h⟩
          · exact .inr ⟨⟨e', List.mem_cons_of_mem _ he', hd⟩, hb, h⟩
    · have hstop : (if (runOps ((unitOps json e).take k) t).2 = true then
          runOps ((writeOps json es).take (k - (unitOps json e).length)) (runOps ((unitOps json e).take k) t).1
          else runOps ((unitOps json e).take k) t) = runOps ((unitOps json e).take k) t := by
        by_cases h2 : (runOps ((unitOps json e).take k) t).2 = true
        · rw [if_pos h2]
          have : k - (unitOps json e).length = 0 := by
            have : ¬ (unitOps json e).length ≤ k := fun h => hr ⟨h2, h⟩
            omega
          rw [this, List.take_zero, runOps, ← h2]
        · rw [if_neg h2]
      rw [hstop]
      obtain ⟨t', ht', h1, h2⟩ := unit_prefix json e hs k t
      rw [ht']
      refine ⟨[], [e], es, rfl, by simp, by simp, ?_, ?_, ?_⟩
      · intro x hx
        rw [List.mem_singleton.1 hx]
        exact h1
      · intro x hx
        rcases h2 (fileOf x.1) (Ne.symm (hp.head_ne hx)) with h | ⟨h, _⟩
        · exact h
        · exact absurd h fileOf_not_dir
      · intro q hq
        rcases h2 q (hq e List.mem_cons_self) with h | ⟨h, h'⟩
        · exact .inl h
        · exact .inr ⟨⟨e, List.mem_cons_self, h⟩, h'⟩

/-! ## Reading the result -/

/-- [specification] The directory has a file for the unit `k`, and decoding it gives `o`. -/
def Holds (parse : List UInt8 → Option U) (t : Tree) (k : Nat × Str) (o : Option U) : Prop :=
  ∃ d f c, t [d] = some .dir ∧ t [d, f] = some (.file c) ∧ parseU32 d = some k.1 ∧ trimJson f = k.2 ∧ parse c = o

/-- [specification] Every file of a version is where this program would put it: no "01/a.json", "1/a" or "1/a.json.json". -/
def Canonical (t : Tree) : Prop := ∀ d f c v, t [d] = some .dir → t [d, f] = some (.file c) → parseU32 d = some v →
  d = decimal v ∧ ∃ n, f = n ++ str ".json" ∧ ¬ str ".json" <:+ n

theorem holds_entries {parse : List UInt8 → Option U} {t : Tree} {dirs : Dirs} (hl : Lists t dirs) (k : Nat × Str) (o : Option U) :
    (k, o) ∈ dirEntries parse dirs ↔ Holds parse t k o := by
  rw [mem_dirEntries]
  constructor
  · rintro ⟨d, es, f, c, h1, h2, h3, h4, h5⟩
    obtain ⟨ha, hb⟩ := (hl.file d f c).2 ⟨es, h1, h2⟩
    exact ⟨d, f, c, ha, hb, h3, h4, h5⟩
  · rintro ⟨d, f, c, ha, hb, h3, h4, h5⟩
    obtain ⟨es, h1, h2⟩ := (hl.file d f c).1 ⟨ha, hb⟩
    exact ⟨d, es, f, c, h1, h2, h3, h4, h5⟩

/-- A destination is read exactly if it is a directory and every file of a version decodes. -/
theorem readDest_ok {parse : List UInt8 → Option U} {t : Tree} {dirs : Dirs} (hl : Lists t dirs) :
    (∃ T, readDest parse t dirs = .ok T) ↔ t [] = some .dir ∧ ∀ k, ¬ Holds parse t k none := by
  unfold readDest
  constructor
  · rintro ⟨T, h⟩
    split at h
    · rename_i hd
      refine ⟨hd, fun k hk => ?_⟩
      rw [readJsonDir_eq, insertAll_err _ _ ⟨(k, none), (holds_entries hl k none).2 hk, rfl⟩] at h
      cases h
    · cases h
  · rintro ⟨hd, h⟩
    rw [if_pos hd, readJsonDir_eq]
    obtain ⟨T, h1, _⟩ := insertAll_ok (dirEntries parse dirs) [] (by
      rintro ⟨k, o⟩ he h0
      rw [show o = none from h0] at he
      exact h k ((holds_entries hl k none).1 he))
    exact ⟨T, h1⟩

theorem readDest_err {parse : List UInt8 → Option U} {t : Tree} {dirs : Dirs} (hl : Lists t dirs)
    (h : t [] ≠ some .dir ∨ ∃ k, Holds parse t k none) : ∃ e, readDest parse t dirs = .err e := by
  unfold readDest
  by_cases hd : t [] = some .dir
  · rw [if_pos hd]
    rcases h with h | ⟨k, hk⟩
    · exact absurd hd h
    · exact ⟨_, by rw [readJsonDir_eq, insertAll_err _ _ ⟨(k, none), (holds_entries hl k none).2 hk, rfl⟩]⟩
  · exact ⟨_, by rw [if_neg hd]⟩

theorem readDest_mem {parse : List UInt8 → Option U} {t : Tree} {dirs : Dirs} (hl : Lists t dirs) {T : UnitTable U}
    (h : readDest parse t dirs = .ok T) (k : Nat × Str) (u : U) : (k, u) ∈ T ↔ Holds parse t k (some u) := by
  have hok := (readDest_ok hl).1 ⟨T, h⟩
  rw [readDest, if_pos hok.1, readJsonDir_eq] at h
  obtain ⟨T', h1, h2⟩ := insertAll_ok (dirEntries parse dirs) [] (by
    rintro ⟨k, o⟩ he h0
    rw [show o = none from h0] at he
    exact hok.2 k ((holds_entries hl k none).1 he))
  rw [h1] at h
  cases h
  rw [h2, holds_entries hl]
  simp

theorem canonical_holds {parse : List UInt8 → Option U} {t : Tree} (hc : Canonical t) {k : Nat × Str} {o : Option U}
    (h : Holds parse t k o) : ∃ c, t [decimal k.1] = some .dir ∧ t (fileOf k) = some (.file c) ∧ parse c = o := by
  obtain ⟨d, f, c, h1, h2, h3, h4, h5⟩ := h
  obtain ⟨rfl, n, rfl, hn⟩ := hc d f c k.1 h1 h2 h3
  rw [trimJson_json, (trimJson_id n).2 hn] at h4
  subst h4
  exact ⟨c, h1, h2, h5⟩

theorem canonical_functional {parse : List UInt8 → Option U} {t : Tree} (hc : Canonical t) {k : Nat × Str} {o o' : Option U}
    (h : Holds parse t k o) (h' : Holds parse t k o') : o = o' := by
  obtain ⟨c, _, h2, h3⟩ := canonical_holds hc h
  obtain ⟨c', _, h2', h3'⟩ := canonical_holds hc h'
  rw [h2] at h2'
  cases h2'
  rw [← h3, ← h3']

theorem parseDigits_lt : ∀ (s : Str) (acc v : Nat), acc < 2 ^ 32 → parseDigits acc s = some v → v < 2 ^ 32
  | [], acc, v, ha, h => by
    cases h
    exact ha
  | c :: cs, acc, v, ha, h => by
    rw [parseDigits] at h
    split at h
    · split at h
      · rename_i hb
        exact parseDigits_lt cs _ v hb h
      · cases h
    · cases h

theorem parseU32_lt {s : Str} {v : Nat} (h : parseU32 s = some v) : v < 2 ^ 32 := by
  unfold parseU32 at h
  split at h
  · cases h
  · cases h
  · exact parseDigits_lt _ _ _ (by decide) h
  · exact parseDigits_lt _ _ _ (by decide) h

/-- What a converted directory holds: the units of the table, and the units of before that are not in the table. -/
theorem holds_converted (json : U → List (List UInt8)) (parse : List UInt8 → Option U) {table : List ((Nat × Str) × U)} (hp : Plain table)
    (hj : ∀ e ∈ table, parse (json e.2).flatten = some e.2) {t t' : Tree} (hw : Wf t) (hc : Canonical t)
    (hcv : Converted json table t t') (k : Nat × Str) (o : Option U) :
    Holds parse t' k o ↔ (∃ u, o = some u ∧ (k, u) ∈ table) ∨ ((∀ e ∈ table, e.1 ≠ k) ∧ Holds parse t k o) := by
  constructor
  · rintro ⟨d, f, c, h1, h2, h3, h4, h5⟩
    by_cases he : ∃ e ∈ table, [d, f] = fileOf e.1
    · obtain ⟨e, he, hpath⟩ := he
      left
      rw [hpath, hcv.files e he] at h2
      cases h2
      simp only [fileOf, List.cons.injEq, and_true] at hpath
      obtain ⟨rfl, rfl⟩ := hpath
      rw [parse_decimal (hp.version e he), Option.some.injEq] at h3
      rw [trimJson_json, (trimJson_id _).2 (hp.json e he)] at h4
      refine ⟨e.2, by rw [← h5, hj e he], ?_⟩
      have : e.1 = k := Prod.ext h3 h4
      rw [← this]
      exact he
    · right
      have hrest : t' [d, f] = t [d, f] := hcv.rest _ (fun e he' => ⟨fun hc => he ⟨e, he', hc⟩, by
        unfold dirOf
        simp⟩)
      rw [hrest] at h2
      have hd : t [d] = some .dir := hw [d] f (by
        show t [d, f] ≠ none
        rw [h2]
        simp)
      have hh : Holds parse t k o := ⟨d, f, c, hd, h2, h3, h4, h5⟩
      refine ⟨fun e he' hk => ?_, hh⟩
      obtain ⟨rfl, n, rfl, hn⟩ := hc d f c k.1 hd h2 h3
      rw [trimJson_json, (trimJson_id n).2 hn] at h4
      refine he ⟨e, he', ?_⟩
      rw [hk, fileOf, ← h4]
  · rintro (⟨u, rfl, he⟩ | ⟨hk, hh⟩)
    · exact ⟨decimal k.1, k.2 ++ str ".json", _, hcv.dirs _ he _ (.inr rfl), hcv.files _ he, parse_decimal (hp.version _ he),
        by rw [trimJson_json, (trimJson_id _).2 (hp.json _ he)], hj _ he⟩
    · have hh0 := hh
      obtain ⟨d, f, c, h1, h2, h3, h4, h5⟩ := hh
      obtain ⟨rfl, n, rfl, hn⟩ := hc d f c k.1 h1 h2 h3
      rw [trimJson_json, (trimJson_id n).2 hn] at h4
      subst h4
      have hv : k.1 < 2 ^ 32 := by
        by_cases hv : k.1 < 2 ^ 32
        · exact hv
        · exact absurd h3 (by
            intro h3
            exact hv (parseU32_lt h3))
      refine ⟨_, _, c, ?_, ?_, h3, by rw [trimJson_json, (trimJson_id _).2 hn], h5⟩
      · by_cases hd : ∃ e ∈ table, dirOf [decimal k.1] e.1
        · obtain ⟨e, he, hd⟩ := hd
          exact hcv.dirs e he _ hd
        · rw [hcv.rest _ (fun e he => ⟨by simp [fileOf], fun h => hd ⟨e, he, h⟩⟩)]
          exact h1
      · rw [hcv.rest _ (fun e he => ⟨fun hc => ?_, by
          unfold dirOf
          simp⟩)]
        · exact h2
        · exact hk e he (fileOf_inj hv (hp.version e he) hc).symm

/-- After a conversion the directory is read as the converted units laid over what was there before: units that were converted before and no
longer exist are still there. -/
theorem C161_overlay_partial (json : U → List (List UInt8)) (parse : List UInt8 → Option U) (table : List ((Nat × Str) × U))
    (hp : Plain table) (hj : ∀ e ∈ table, parse (json e.2).flatten = some e.2) (t t' : Tree) (hw : Wf t) (hc : Canonical t)
    (hrun : runOps (writeOps json table) t = (t', true)) (dirs dirs' : Dirs) (hl : Lists t dirs) (hl' : Lists t' dirs')
    (before : UnitTable U) (hb : readDest parse t dirs = .ok before) :
    ∃ after, readDest parse t' dirs' = .ok after ∧ ∀ k, after.get k = (UnitTable.get table k).or (before.get k) := by
  have hcv := C160_completed json table hp t (by rw [hrun])
  rw [hrun] at hcv
  change Converted json table t t' at hcv
  have hold := holds_converted json parse hp hj hw hc hcv
  obtain ⟨hroot, hnone⟩ := (readDest_ok hl).1 ⟨_, hb⟩
  obtain ⟨after, ha⟩ := (readDest_ok (parse := parse) hl').2 ⟨by
      by_cases he : table = []
      · rw [hcv.rest [] (by rw [he]; simp)]
        exact hroot
      · obtain ⟨e, he⟩ := List.exists_mem_of_ne_nil _ he
        exact hcv.dirs e he [] (.inl rfl), by
      intro k hk
      rcases (hold k none).1 hk with ⟨u, h, _⟩ | ⟨_, h⟩
      · cases h
      · exact hnone k h⟩
  refine ⟨after, ha, fun k => ?_⟩
  have ft : Functional table := by
    intro k u u' h1 h2
    have := hp.nodup
    by_cases hu : u = u'
    · exact hu
    · exfalso
      have hpw : table.Pairwise (fun a b => a.1 ≠ b.1) := List.pairwise_map.1 this
      rcases List.pairwise_iff_getElem.1 hpw with h
      obtain ⟨i, hi, e1⟩ := List.mem_iff_getElem.1 h1
      obtain ⟨j, hj', e2⟩ := List.mem_iff_getElem.1 h2
      rcases Nat.lt_trichotomy i j with h0 | h0 | h0
      · exact h i j hi hj' h0 (by rw [e1, e2])
      · subst h0
        rw [e1] at e2
        cases e2
        exact hu rfl
      · exact h j i hj' hi h0 (by rw [e1, e2])
  have fb : Functional before := fun k u u' h1 h2 => by
    rw [readDest_mem hl hb] at h1 h2
    exact Option.some.inj (canonical_functional hc h1 h2)
  have fa : Functional after := fun k u u' h1 h2 => by
    rw [readDest_mem hl' ha, hold] at h1 h2
    rcases h1 with ⟨w, e1, m1⟩ | ⟨n1, m1⟩
    · rcases h2 with ⟨w', e2, m2⟩ | ⟨n2, m2⟩
      · cases e1; cases e2
        exact ft k _ _ m1 m2
      · exact absurd rfl (n2 _ m1)
    · rcases h2 with ⟨w', e2, m2⟩ | ⟨n2, m2⟩
      · exact absurd rfl (n1 _ m2)
      · exact Option.some.inj (canonical_functional hc m1 m2)
  apply Option.ext
  intro u
  rw [get_iff fa, readDest_mem hl' ha, hold]
  cases hk : UnitTable.get table k with
  | some w =>
    have hw' := (get_iff ft k w).1 hk
    simp only [Option.some_or, Option.some.injEq]
    constructor
    · rintro (⟨_, rfl, h⟩ | ⟨h, _⟩)
      · exact ft k _ _ hw' h
      · exact absurd rfl (h _ hw')
    · rintro rfl
      exact .inl ⟨w, rfl, hw'⟩
  | none =>
    simp only [Option.none_or]
    rw [get_iff fb, readDest_mem hl hb]
    have hno : ∀ w, (k, w) ∉ table := fun w hm => by
      rw [(get_iff ft k w).2 hm] at hk
      cases hk
    constructor
    · rintro (⟨_, _, h⟩ | ⟨_, h⟩)
      · exact absurd h (hno _)
      · exact h
    · intro h
      exact .inr ⟨fun e he hk => hno e.2 (by rw [← hk]; exact he), h⟩

/-- Into a directory without units: exactly the converted units. -/
theorem C161_empty_partial (json : U → List (List UInt8)) (parse : List UInt8 → Option U) (table : List ((Nat × Str) × U))
    (hp : Plain table) (hj : ∀ e ∈ table, parse (json e.2).flatten = some e.2) (t t' : Tree) (hw : Wf t) (hc : Canonical t)
    (hrun : runOps (writeOps json table) t = (t', true)) (dirs dirs' : Dirs) (hl : Lists t dirs) (hl' : Lists t' dirs')
    (hb : readDest parse t dirs = .ok []) :
    ∃ after, readDest parse t' dirs' = .ok after ∧ SameTable after table := by
  obtain ⟨after, h1, h2⟩ := C161_overlay_partial json parse table hp hj t t' hw hc hrun dirs dirs' hl hl' [] hb
  refine ⟨after, h1, fun k => ?_⟩
  rw [h2, show UnitTable.get ([] : UnitTable U) k = none from rfl, Option.or_none]

/-! ### Concrete trees -/

/-- A tree given by its entries; the first one for a path counts. [proof device, no counterpart in /repo] -/
def treeOf (l : List (List Str × Entry)) : Tree := fun q => (l.find? (fun x => decide (x.1 = q))).map Prod.snd

theorem treeOf_mem {l : List (List Str × Entry)} {q : List Str} {e : Entry} (h : treeOf l q = some e) : (q, e) ∈ l := by
  unfold treeOf at h
  rw [Option.map_eq_some_iff] at h
  obtain ⟨⟨q', e'⟩, h1, h2⟩ := h
  have := List.find?_some h1
  simp only [decide_eq_true_eq] at this h2
  subst this h2
  exact List.mem_of_find?_eq_some h1

theorem treeOf_cons (p : List Str) (e : Entry) (l : List (List Str × Entry)) (q : List Str) :
    treeOf ((p, e) :: l) q = if q = p then some e else treeOf l q := by
  unfold treeOf
  rw [List.find?_cons]
  by_cases h : q = p
  · subst h
    simp
  · simp [h, Ne.symm h]

theorem treeOf_opened (l : List (List Str × Entry)) (k : Nat × Str) (c : List UInt8) :
    opened (treeOf l) k c = treeOf ((fileOf k, .file c) :: ([], .dir) :: ([decimal k.1], .dir) :: l) := by
  funext q
  rw [treeOf_cons, treeOf_cons, treeOf_cons]
  unfold opened
  by_cases h1 : q = fileOf k
  · rw [if_pos h1, if_pos h1]
  · rw [if_neg h1, if_neg h1]
    by_cases h2 : q = []
    · rw [if_pos h2, if_pos (isPrefix_dir.2 (.inl h2))]
    · rw [if_neg h2]
      by_cases h3 : q = [decimal k.1]
      · rw [if_pos h3, if_pos (isPrefix_dir.2 (.inr h3))]
      · rw [if_neg h3, if_neg]
        intro h
        rcases isPrefix_dir.1 h with h | h
        · exact h2 h
        · exact h3 h

theorem wf_treeOf {l : List (List Str × Entry)} (h : ∀ x ∈ l, x.1 = [] ∨ treeOf l x.1.dropLast = some .dir) : Wf (treeOf l) := by
  intro p x hx
  cases hq : treeOf l (p ++ [x]) with
  | none => exact absurd hq hx
  | some e =>
    rcases h _ (treeOf_mem hq) with h | h
    · simp at h
    · simpa using h

/-- Does the list have the file? [proof device, no counterpart in /repo] -/
def hasFile (d f : Str) (c : List UInt8) (dirs : Dirs) : Bool :=
  dirs.any (fun y => decide (y.1 = d) && match y.2 with
    | some es => es.contains (f, some c)
    | none => false)

/-- Is every file of the list in the tree? [proof device, no counterpart in /repo] -/
def allThere (t : Tree) (dirs : Dirs) : Bool :=
  dirs.all (fun y => match y.2 with
    | some es => es.all (fun z => match z.2 with
      | some c => decide (t [y.1] = some .dir) && decide (t [y.1, z.1] = some (.file c))
      | none => true)
    | none => true)

theorem lists_treeOf {l : List (List Str × Entry)} {dirs : Dirs}
    (h1 : ∀ x ∈ l, ∀ d ∈ x.1.head?, ∀ f ∈ x.1.tail.head?, x.1 = [d, f] → ∀ c, x.2 = .file c → hasFile d f c dirs = true)
    (h2 : allThere (treeOf l) dirs = true) : Lists (treeOf l) dirs := by
  refine ⟨fun d f c => ⟨?_, ?_⟩⟩
  · rintro ⟨_, h⟩
    have := h1 _ (treeOf_mem h) d (by simp) f (by simp) rfl c rfl
    unfold hasFile at this
    obtain ⟨⟨d', oe⟩, hd, hm⟩ := List.any_eq_true.1 this
    simp only [Bool.and_eq_true, decide_eq_true_eq] at hm
    obtain ⟨rfl, hm⟩ := hm
    cases oe with
    | none => cases hm
    | some es => exact ⟨es, hd, by simpa using hm⟩
  · rintro ⟨es, hd, hf⟩
    have := List.all_eq_true.1 h2 _ hd
    simp only at this
    have := List.all_eq_true.1 this _ hf
    simpa using this

/-- A directory with one unit, as a conversion of that unit leaves it. [sample data] -/
def oldTree : List (List Str × Entry) := [([], .dir), ([str "1"], .dir), ([str "1", str "Old.json"], .file [7])]

/-- The same after a conversion of another unit. [sample data] -/
def newTree : List (List Str × Entry) :=
  (fileOf (1, str "New"), .file [8]) :: ([], .dir) :: ([decimal 1], .dir) :: oldTree

theorem oldTree_wf : Wf (treeOf oldTree) := wf_treeOf (by decide +kernel)

theorem oldTree_canonical : Canonical (treeOf oldTree) := by
  intro d f c v _ h2 h3
  have := treeOf_mem h2
  simp only [oldTree, List.mem_cons, Prod.mk.injEq, reduceCtorEq, false_and, List.cons.injEq, and_false, and_true, false_or,
    List.not_mem_nil, or_false] at this
  obtain ⟨⟨rfl, rfl⟩, _⟩ := this
  have : parseU32 (str "1") = some 1 := by decide +kernel
  rw [this] at h3
  cases h3
  exact ⟨by decide +kernel, str "Old", by decide +kernel, by decide +kernel⟩

theorem oldTree_lists : Lists (treeOf oldTree) [(str "1", some [(str "Old.json", some [7])])] :=
  lists_treeOf (by
    intro x hx d _ f _ hp c hc
    simp only [oldTree, List.mem_cons, List.not_mem_nil, or_false] at hx
    rcases hx with rfl | rfl | rfl
    · cases hp
    · simp at hp
    · simp only [List.cons.injEq, and_true] at hp
      obtain ⟨rfl, rfl⟩ := hp
      cases hc
      decide +kernel) (by decide +kernel)

theorem newTree_lists : Lists (treeOf newTree) [(str "1", some [(str "Old.json", some [7]), (str "New.json", some [8])])] :=
  lists_treeOf (by
    intro x hx d _ f _ hp c hc
    simp only [newTree, oldTree, List.mem_cons, List.not_mem_nil, or_false] at hx
    rcases hx with rfl | rfl | rfl | rfl | rfl | rfl
    · simp only [fileOf, List.cons.injEq, and_true] at hp
      obtain ⟨rfl, rfl⟩ := hp
      cases hc
      decide +kernel
    · cases hp
    · simp at hp
    · cases hp
    · simp at hp
    · simp only [List.cons.injEq, and_true] at hp
      obtain ⟨rfl, rfl⟩ := hp
      cases hc
      decide +kernel) (by decide +kernel)

/-- A table with one unit, and how it is written: one piece of one byte. -/
theorem oneUnit_plain : Plain [((1, str "New"), (8 : UInt8))] := ⟨by decide, by decide +kernel, by decide +kernel, by decide +kernel⟩

theorem oldTree_free : Free (treeOf oldTree) (1, str "New") :=
  ⟨by
    intro c
    rw [show treeOf oldTree [] = some .dir by decide +kernel]
    simp, by
    intro c
    rw [show treeOf oldTree [decimal (1, str "New").1] = some .dir by decide +kernel]
    simp, by decide +kernel⟩

theorem newTree_run : runOps (writeOps (fun u : UInt8 => [[u]]) [((1, str "New"), 8)]) (treeOf oldTree) = (treeOf newTree, true) := by
  have hf := oldTree_free
  obtain ⟨h1, h2⟩ := unit_run (fun u : UInt8 => [[u]]) ((1, str "New"), 8) (by decide +kernel) (treeOf oldTree)
  have : writeOps (fun u : UInt8 => [[u]]) [((1, str "New"), 8)] = unitOps (fun u => [[u]]) ((1, str "New"), 8) := by
    simp [writeOps]
  rw [this]
  refine Prod.ext ?_ (h1.2 hf)
  rw [h2 hf, treeOf_opened]
  rfl

/-- The hypotheses of `C161_overlay_partial` are met: a directory with an old unit, and a new one. -/
example : ∃ after, readDest List.head? (treeOf newTree) [(str "1", some [(str "Old.json", some [7]), (str "New.json", some [8])])] =
    .ok after ∧ ∀ k, after.get k = (UnitTable.get [((1, str "New"), (8 : UInt8))] k).or (UnitTable.get [((1, str "Old"), 7)] k) :=
  C161_overlay_partial (fun u => [[u]]) List.head? _ oneUnit_plain (fun _ _ => rfl) _ _ oldTree_wf oldTree_canonical newTree_run _ _
    oldTree_lists newTree_lists _ (by decide +kernel)

/-- A unit that no longer exists in the source is still read after a conversion. -/
theorem C161_refuted : ∃ (json : UInt8 → List (List UInt8)) (parse : List UInt8 → Option UInt8) (table : List ((Nat × Str) × UInt8))
    (t t' : Tree) (dirs' : Dirs) (after : UnitTable UInt8), Plain table ∧ (∀ u, parse (json u).flatten = some u) ∧ Wf t ∧ Canonical t ∧
      runOps (writeOps json table) t = (t', true) ∧ Lists t' dirs' ∧ readDest parse t' dirs' = .ok after ∧
      UnitTable.get table (1, str "Old") = none ∧ after.get (1, str "Old") = some 7 :=
  ⟨fun u => [[u]], List.head?, [((1, str "New"), 8)], treeOf oldTree, treeOf newTree,
    [(str "1", some [(str "Old.json", some [7]), (str "New.json", some [8])])], [((1, str "New"), 8), ((1, str "Old"), 7)],
    oneUnit_plain, fun _ => rfl, oldTree_wf, oldTree_canonical, newTree_run, newTree_lists, by decide +kernel, by decide +kernel, by decide +kernel⟩

/-! ## The command -/

/-- A destination that is not there: the command ends with an error before it reads the source, and writes nothing. -/
theorem C162_missing_destination (parse : List UInt8 → Option U) (json : U → List (List UInt8)) (assets : List (Str × List UInt8))
    (source : Bool) (xml : Res (List ((Nat × Str) × U))) (t : Tree) (dirs : Dirs) (h : t [] ≠ some .dir) :
    ∃ e, convert parse json assets ⟨source, true⟩ xml t dirs = .err e := by
  refine ⟨.other 10, ?_⟩
  unfold convert loadBalance readDest
  rw [if_pos rfl, if_neg h]
  rfl

/-- A destination with a file that does not decode: the same. -/
theorem C162_unreadable (parse : List UInt8 → Option U) (json : U → List (List UInt8)) (assets : List (Str × List UInt8))
    (source : Bool) (xml : Res (List ((Nat × Str) × U))) (t : Tree) (dirs : Dirs) (hl : Lists t dirs) (k : Nat × Str)
    (h : Holds parse t k none) : ∃ e, convert parse json assets ⟨source, true⟩ xml t dirs = .err e := by
  obtain ⟨e, he⟩ := readDest_err (parse := parse) hl (.inr ⟨k, h⟩)
  refine ⟨e, ?_⟩
  unfold convert loadBalance
  rw [if_pos rfl, he]
  rfl

/-- A conversion killed when it has just opened a file: from then on the command fails, whatever the source. -/
theorem C162_cut_off (parse : List UInt8 → Option U) (hempty : parse [] = none) (json : U → List (List UInt8))
    (a : List ((Nat × Str) × U)) (e : (Nat × Str) × U) (b : List ((Nat × Str) × U)) (hp : Plain (a ++ e :: b)) (t : Tree)
    (hfree : ∀ x ∈ a ++ e :: b, Free t x.1) :
    Holds parse (runOps ((writeOps json (a ++ e :: b)).take ((writeOps json a).length + 2)) t).1 e.1 none ∧
    ∀ (assets : List (Str × List UInt8)) (source : Bool) (xml : Res (List ((Nat × Str) × U))) (dirs : Dirs),
      Lists (runOps ((writeOps json (a ++ e :: b)).take ((writeOps json a).length + 2)) t).1 dirs →
      ∃ err, convert parse json assets ⟨source, true⟩ xml (runOps ((writeOps json (a ++ e :: b)).take ((writeOps json a).length + 2)) t).1
        dirs = .err err := by
  have key : Holds parse (runOps ((writeOps json (a ++ e :: b)).take ((writeOps json a).length + 2)) t).1 e.1 none := by
    have he : e ∈ a ++ e :: b := by simp
    have hops : (writeOps json (a ++ e :: b)).take ((writeOps json a).length + 2) =
        writeOps json a ++ [.mkdirs [decimal e.1.1], .create (fileOf e.1)] := by
      have : writeOps json (a ++ e :: b) = writeOps json a ++ (unitOps json e ++ writeOps json b) := by
        simp [writeOps, List.flatMap_append]
      rw [this, List.take_length_add_append, unitOps_eq json e (hp.slash e he)]
      rfl
    have hpa : Plain a := ⟨by
        have := hp.nodup
        rw [List.map_append] at this
        exact (List.nodup_append.1 this).1, fun x hx => hp.version x (by simp [hx]), fun x hx => hp.slash x (by simp [hx]),
      fun x hx => hp.json x (by simp [hx])⟩
    have hra := (C160_completes json a hpa t).2 (fun x hx => hfree x (by simp [hx]))
    have hca := C160_completed json a hpa t hra
    have hne : ∀ x ∈ a, fileOf x.1 ≠ fileOf e.1 := by
      intro x hx hc
      have hk := fileOf_inj (hp.version x (by simp [hx])) (hp.version e he) hc
      have := hp.nodup
      rw [List.map_append] at this
      exact (List.nodup_append.1 this).2.2 x.1 (List.mem_map.2 ⟨x, hx, rfl⟩) e.1 (by simp) hk
    have hfe := hfree e he
    have hfree' : Free (runOps (writeOps json a) t).1 e.1 := by
      have dircase : ∀ q, (∀ k, q ≠ fileOf k) → (∀ c, t q ≠ some (.file c)) → ∀ c, (runOps (writeOps json a) t).1 q ≠ some (.file c) := by
        intro q hq ht c
        by_cases hd : ∃ x ∈ a, dirOf q x.1
        · obtain ⟨x, hx, hd⟩ := hd
          rw [hca.dirs x hx q hd]
          simp
        · rw [hca.rest q (fun x hx => ⟨hq _, fun h => hd ⟨x, hx, h⟩⟩)]
          exact ht c
      refine ⟨dircase _ (by simp [fileOf]) hfe.root, dircase _ (by simp [fileOf]) hfe.version, ?_⟩
      rw [hca.rest _ (fun x hx => ⟨Ne.symm (hne x hx), fileOf_not_dir⟩)]
      exact hfe.file
    have hrun : (runOps ((writeOps json (a ++ e :: b)).take ((writeOps json a).length + 2)) t).1 =
        opened (runOps (writeOps json a) t).1 e.1 [] := by
      rw [hops, runOps_append, if_pos hra, open_run, if_pos ⟨hfree'.root, hfree'.version⟩, if_neg hfree'.file]
      rfl
    rw [hrun]
    refine ⟨decimal e.1.1, e.1.2 ++ str ".json", [], ?_, ?_, parse_decimal (hp.version e he), ?_, hempty⟩
    · unfold opened
      rw [if_neg (by simp [fileOf]), if_pos (isPrefix_dir.2 (.inr rfl))]
    · show opened _ e.1 [] (fileOf e.1) = _
      unfold opened
      rw [if_pos rfl]
    · rw [trimJson_json, (trimJson_id _).2 (hp.json e he)]
  exact ⟨key, fun assets source xml dirs hl => C162_unreadable parse json assets source xml _ dirs hl e.1 key⟩

/-- If the directory an interrupted conversion leaves can be read, the command can be repeated and gives exactly what an uninterrupted
conversion gives, in whatever order the units come this time. -/
theorem C162_repeat_partial (parse : List UInt8 → Option U) (json : U → List (List UInt8)) (assets : List (Str × List UInt8))
    (table table' : List ((Nat × Str) × U)) (hperm : table'.Perm table) (hp : Plain table) (t : Tree) (hfree : ∀ e ∈ table, Free t e.1)
    (k : Nat) (tk : Tree) (hk : (runOps ((writeOps json table).take k) t).1 = tk) (dirs : Dirs) (hl : Lists tk dirs)
    (hroot : tk [] = some .dir) (hread : ∀ key, ¬ Holds parse tk key none) :
    convert parse json assets ⟨true, true⟩ (.ok table') tk dirs = .ok (writeOps json table') ∧
    runOps (writeOps json table') tk = ((runOps (writeOps json table) t).1, true) := by
  have hp' : Plain table' := ⟨(hperm.map Prod.fst).nodup_iff.2 hp.nodup, fun e he => hp.version e (hperm.mem_iff.1 he),
    fun e he => hp.slash e (hperm.mem_iff.1 he), fun e he => hp.json e (hperm.mem_iff.1 he)⟩
  constructor
  · obtain ⟨T, hT⟩ := (readDest_ok (parse := parse) hl).2 ⟨hroot, hread⟩
    unfold convert loadBalance
    rw [if_pos rfl, hT]
    rfl
  · obtain ⟨done, cur, todo, hsp, _, i1, i2, i3, i4⟩ := C160_crash_points json table hp k t
    rw [hk] at i1 i2 i3 i4
    have hfree' : ∀ e ∈ table', Free tk e.1 := by
      intro e he
      have he := hperm.mem_iff.1 he
      have hf := hfree e he
      refine ⟨fun c => by rw [hroot]; simp, fun c => ?_, ?_⟩
      · rcases i4 [decimal e.1.1] (fun x _ => by simp [fileOf]) with h | ⟨_, _, h⟩
        · rw [h]
          exact hf.version c
        · rw [h]
          simp
      · rw [hsp] at he
        rcases List.mem_append.1 he with he | he
        · rcases List.mem_append.1 he with he | he
          · rw [i1 e he]
            simp
          · rcases i2 e he with h | ⟨m, h⟩
            · rw [h]
              exact hf.file
            · rw [h]
              simp
        · rw [i3 e he]
          exact hf.file
    have r1 := (C160_completes json table' hp' tk).2 hfree'
    have r0 := (C160_completes json table hp t).2 hfree
    have c1 := C160_completed json table' hp' tk r1
    have c0 := C160_completed json table hp t r0
    refine Prod.ext (funext fun q => ?_) r1
    show (runOps (writeOps json table') tk).1 q = (runOps (writeOps json table) t).1 q
    by_cases hf : ∃ e ∈ table, q = fileOf e.1
    · obtain ⟨e, he, rfl⟩ := hf
      rw [c1.files e (hperm.mem_iff.2 he), c0.files e he]
    · by_cases hd : ∃ e ∈ table, dirOf q e.1
      · obtain ⟨e, he, hd⟩ := hd
        rw [c1.dirs e (hperm.mem_iff.2 he) q hd, c0.dirs e he q hd]
      · rw [c1.rest q (fun e he => ⟨fun h => hf ⟨e, hperm.mem_iff.1 he, h⟩, fun h => hd ⟨e, hperm.mem_iff.1 he, h⟩⟩),
          c0.rest q (fun e he => ⟨fun h => hf ⟨e, he, h⟩, fun h => hd ⟨e, he, h⟩⟩)]
        rcases i4 q (fun e he h => hf ⟨e, he, h⟩) with h | ⟨h, _⟩
        · exact h
        · exact absurd h hd

/-- The hypotheses of `C162_repeat_partial` are met, e.g. after the whole conversion of the example. -/
example : convert List.head? (fun u : UInt8 => [[u]]) [] ⟨true, true⟩ (.ok [((1, str "New"), 8)]) (treeOf newTree)
      [(str "1", some [(str "Old.json", some [7]), (str "New.json", some [8])])] =
      .ok (writeOps (fun u : UInt8 => [[u]]) [((1, str "New"), 8)]) ∧
    runOps (writeOps (fun u : UInt8 => [[u]]) [((1, str "New"), 8)]) (treeOf newTree) = (treeOf newTree, true) := by
  have hr := (readDest_ok (parse := List.head?) newTree_lists).1 ⟨[((1, str "New"), 8), ((1, str "Old"), 7)], by decide +kernel⟩
  have := C162_repeat_partial List.head? (fun u : UInt8 => [[u]]) [] [((1, str "New"), 8)] _ (.refl _) oneUnit_plain (treeOf oldTree) (by
      intro e he
      rw [List.mem_singleton.1 he]
      exact oldTree_free) 3 (treeOf newTree) (by
      rw [List.take_of_length_le (by decide +kernel), newTree_run]) _ newTree_lists hr.1 hr.2
  rw [newTree_run] at this
  exact this

/-- A conversion that would complete is killed; repeated, it fails for every listing of what is there.  And the first conversion into a
directory that is not there yet fails as well. -/
theorem C162_refuted : ∃ (parse : List UInt8 → Option UInt8) (json : UInt8 → List (List UInt8)) (table : List ((Nat × Str) × UInt8))
    (t : Tree) (k : Nat), (∀ u, parse (json u).flatten = some u) ∧ Plain table ∧ Wf t ∧ (∀ e ∈ table, Free t e.1) ∧
      (∃ dirs, Lists t dirs ∧ ∃ T, readDest parse t dirs = .ok T) ∧
      (∀ assets dirs, Lists (runOps ((writeOps json table).take k) t).1 dirs →
        ∃ e, convert parse json assets ⟨true, true⟩ (.ok table) (runOps ((writeOps json table).take k) t).1 dirs = .err e) ∧
      ∀ assets dirs, ∃ e, convert parse json assets ⟨true, true⟩ (.ok table) (fun _ => none) dirs = .err e := by
  have hf := oldTree_free
  refine ⟨List.head?, fun u => [[u]], [((1, str "New"), 8)], treeOf oldTree, 2, fun _ => rfl, oneUnit_plain, oldTree_wf, ?_,
    ⟨_, oldTree_lists, [((1, str "Old"), 7)], by decide +kernel⟩, ?_, ?_⟩
  · intro e he
    rw [List.mem_singleton.1 he]
    exact hf
  · intro assets dirs hl
    exact (C162_cut_off List.head? rfl (fun u => [[u]]) [] ((1, str "New"), 8) [] oneUnit_plain (treeOf oldTree) (by
      intro e he
      rw [List.mem_singleton.1 he]
      exact hf)).2 assets true _ dirs hl
  · intro assets dirs
    exact C162_missing_destination _ _ _ _ _ _ _ (by simp)

end S2.JsonDir
