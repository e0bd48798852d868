import Verif.Misc.Main
import Verif.Props.JsonDir
import Verif.Props.Lobby
import Verif.State.TagLemmas
/-!
# Properties of the command line tool as a whole (C163-C166)
-/
namespace S2.Main

open S2 S2.JsonDir

variable {D : Type}

/-! ## The balance data as a table -/

theorem tableOf_fst : ∀ (t : UnitTable BalUnit) (e : (Int × Str) × BalUnit), e ∈ tableOf t →
    ∃ v : Nat, e.1.1 = (v : Int) ∧ t.get (v, e.1.2) = some e.2
  | [], e, h => by simp [tableOf] at h
  | ((v, n), u) :: rest, e, h => by
    rw [tableOf, List.mem_cons, List.mem_filter] at h
    rcases h with rfl | ⟨h, hne⟩
    · exact ⟨v, rfl, by simp [UnitTable.get]⟩
    · obtain ⟨v', h1, h2⟩ := tableOf_fst rest e h
      refine ⟨v', h1, ?_⟩
      have hne : e.1 ≠ ((v : Int), n) := of_decide_eq_true hne
      have : ¬ ((v, n) = (v', e.1.2)) := by
        intro hh
        apply hne
        rw [Prod.mk.injEq] at hh
        apply Prod.ext
        · rw [h1, hh.1]
        · exact hh.2.symm
      unfold UnitTable.get at h2 ⊢
      rw [List.find?_cons_of_neg (by simpa using this)]
      exact h2

theorem tableOf_get : ∀ (t : UnitTable BalUnit) (v : Nat) (n : Str) (u : BalUnit), t.get (v, n) = some u →
    (((v : Int), n), u) ∈ tableOf t
  | [], v, n, u, h => by simp [UnitTable.get] at h
  | ((v', n'), u') :: rest, v, n, u, h => by
    rw [tableOf, List.mem_cons, List.mem_filter]
    by_cases hk : (v', n') = (v, n)
    · left
      unfold UnitTable.get at h
      rw [List.find?_cons_of_pos (by simpa using hk)] at h
      cases h
      cases hk
      rfl
    · right
      unfold UnitTable.get at h
      rw [List.find?_cons_of_neg (by simpa using hk)] at h
      refine ⟨tableOf_get rest v n u h, decide_eq_true ?_⟩
      intro hh
      apply hk
      rw [Prod.mk.injEq] at hh ⊢
      exact ⟨by omega, hh.2.symm⟩

theorem tableOf_nodup : ∀ t : UnitTable BalUnit, ((tableOf t).map Prod.fst).Nodup
  | [] => by simp [tableOf]
  | ((v, n), u) :: rest => by
    rw [tableOf, List.map_cons, List.nodup_cons]
    constructor
    · intro h
      obtain ⟨e, he, h1⟩ := List.mem_map.1 h
      have := of_decide_eq_true (List.mem_filter.1 he).2
      exact this h1
    · exact (tableOf_nodup rest).sublist (List.filter_sublist.map _)

theorem tableOf_same {t t' : UnitTable BalUnit} (h : SameTable t t') (e : (Int × Str) × BalUnit) (he : e ∈ tableOf t) :
    e ∈ tableOf t' := by
  obtain ⟨v, h1, h2⟩ := tableOf_fst t e he
  rw [h] at h2
  obtain ⟨⟨v', n⟩, u⟩ := e
  cases h1
  exact tableOf_get t' v n u h2

theorem sameTable_symm {U : Type} {t t' : UnitTable U} (h : SameTable t t') : SameTable t' t := fun k => (h k).symm

theorem balanceOf_same {t t' : UnitTable BalUnit} (h : SameTable t t') (v : Int) :
    balanceOf v (tableOf t) = balanceOf v (tableOf t') := by
  funext n
  apply Option.ext
  intro u
  rw [balanceOf_iff v n u _ (tableOf_nodup t), balanceOf_iff v n u _ (tableOf_nodup t')]
  exact ⟨tableOf_same h _, tableOf_same (sameTable_symm h) _⟩

theorem openIterator_same (w : World D) (bld : Build) (init : InitFile) {t t' : UnitTable BalUnit} (h : SameTable t t')
    (f : Option Filters) : openIterator w bld init (tableOf t) f = openIterator w bld init (tableOf t') f := by
  unfold openIterator
  rw [balanceOf_same h]

theorem printReplay_same (w : World D) (bld : Build) {t t' : UnitTable BalUnit} (h : SameTable t t') (args : S2.Cli.Args)
    (ty : S2.Cli.ReadType) (a : Archive) (init : InitFile) :
    S2.Cli.printReplay w bld (tableOf t) args ty a init = S2.Cli.printReplay w bld (tableOf t') args ty a init := by
  unfold S2.Cli.printReplay S2.Cli.printEvents
  simp only [openIterator_same w bld init h]

theorem getLoop_same (w : World D) (bld : Build) {t t' : UnitTable BalUnit} (h : SameTable t t') (args : S2.Cli.Args)
    (ty : S2.Cli.ReadType) : ∀ ps : List Str,
    S2.Cli.getLoop w bld (tableOf t) args ty ps = S2.Cli.getLoop w bld (tableOf t') args ty ps
  | [] => rfl
  | p :: ps => by
    unfold S2.Cli.getLoop S2.Cli.getSource
    simp only [printReplay_same w bld h, getLoop_same w bld h args ty ps]

theorem versions_same {t t' : UnitTable BalUnit} (h : SameTable t t') (v : Int) :
    ((tableOf t).map (fun e => e.1.1)).contains v = ((tableOf t').map (fun e => e.1.1)).contains v := by
  rw [Bool.eq_iff_iff, List.contains_iff_mem, List.contains_iff_mem, List.mem_map, List.mem_map]
  exact ⟨fun ⟨e, h1, h2⟩ => ⟨e, tableOf_same h e h1, h2⟩, fun ⟨e, h1, h2⟩ => ⟨e, tableOf_same (sameTable_symm h) e h1, h2⟩⟩

theorem scanLoop_same (w : World D) (bld : Build) {vs vs' : List Int} (h : ∀ v, vs.contains v = vs'.contains v) :
    ∀ (is : List InitFile) (acc : ScanAcc), scanLoop w bld vs is acc = scanLoop w bld vs' is acc
  | [], _ => rfl
  | i :: is, acc => by
    unfold scanLoop
    simp only [h, scanLoop_same w bld h is]

theorem scanPath_same (w : World D) (bld : Build) (ord : List (Str × Nat) → List (Str × Nat)) {t t' : UnitTable BalUnit}
    (h : SameTable t t') (split : Option Split) (dir : Str) (node : Files.Node) :
    scanPath w bld ord (tableOf t) split dir node = scanPath w bld ord (tableOf t') split dir node := by
  unfold scanPath scanSources
  simp only [scanLoop_same w bld (versions_same h)]

theorem arrowJob_same (w : World D) (bld : Build) {t t' : UnitTable BalUnit} (h : SameTable t t')
    (arrow : List (SnapRow D) → Bool) (a b c : Nat) (x y : Option Int) (split : Option Split) (dir : Str) (node : Files.Node)
    (o : Bool) :
    S2.Cli.arrowJob w bld (tableOf t) arrow a b c x y split dir node o =
      S2.Cli.arrowJob w bld (tableOf t') arrow a b c x y split dir node o := by
  have : ∀ inits, snapshotJob w bld (tableOf t) arrow inits o = snapshotJob w bld (tableOf t') arrow inits o := by
    intro inits
    unfold snapshotJob
    congr 1
    funext f
    apply List.map_congr_left
    intro i _
    unfold tableWork
    rw [openIterator_same w bld i h]
  unfold S2.Cli.arrowJob
  simp only [this]

/-! ## A balance directory that cannot be read -/

/-- With a balance directory that is not there, or that holds a file which does not decode, every command ends with an error
before it has done anything. -/
theorem C163_unreadable_directory (e : Env D) (c : Cli) (hdir : c.jsonDir ≠ []) (hl : Lists e.tree e.listing)
    (h : e.tree [] ≠ some .dir ∨ ∃ k, Holds e.parse e.tree k none) : ∃ x, process e c = ([], .err x) := by
  obtain ⟨x, hx⟩ := readDest_err (parse := e.parse) hl h
  refine ⟨x, ?_⟩
  unfold process load
  rw [if_neg hdir, hx]

/-- Without `--json-balance-data-dir` the outcome does not depend on what is in any such directory. -/
theorem C163_built_in (e : Env D) (c : Cli) (hdir : c.jsonDir = []) (tree : Tree) (l l2 : Dirs) :
    process { e with tree := tree, listing := l, listing2 := l2 } c = process e c := by
  unfold process runCommand load
  simp only [if_pos hdir]

/-- With one, the assets in the binary do not matter: units that the directory lacks are not taken from there. -/
theorem C163_no_fallback (e : Env D) (c : Cli) (hdir : c.jsonDir ≠ []) (assets : List (Str × List UInt8)) :
    process { e with assets := assets } c = process e c := by
  unfold process runCommand load
  simp only [if_neg hdir]

/-! ## Commands that do not need balance data -/

/-- [specification] The commands whose work has nothing to do with the balance data that are loaded. -/
def NoBalance : Command → Prop
  | .generate => True
  | .balanceDataToJson => True
  | .util _ => True
  | _ => False

/-- If both can be loaded, the outcome of these commands is the same whatever the balance data are. -/
theorem C164_unused_partial (e : Env D) (c : Cli) (hc : NoBalance c.command) (tree : Tree) (l l2 : Dirs) (assets : List (Str × List UInt8))
    (t t' : UnitTable BalUnit) (h : load e c e.listing = .ok t)
    (h' : load { e with tree := tree, listing := l, listing2 := l2, assets := assets } c l = .ok t') :
    process { e with tree := tree, listing := l, listing2 := l2, assets := assets } c = process e c := by
  unfold process
  rw [h]
  simp only
  rw [h']
  unfold runCommand
  cases hcmd : c.command <;> rw [hcmd] at hc <;> first | rfl | exact hc.elim

theorem tagParts (t : Int) : ((unitTagIndex (BitVec.ofInt 64 t)).toNat : Int) = t / 2 ^ 18 % 2 ^ 14 ∧
    ((unitTagRecycle (BitVec.ofInt 64 t)).toNat : Int) = t % 2 ^ 18 := by
  have hn : ((BitVec.ofInt 64 t).toNat : Int) = t % 2 ^ 64 := by
    rw [BitVec.toNat_ofInt]
    omega
  constructor
  · have : unitTagIndex (BitVec.ofInt 64 t) = unitTagIndex (((BitVec.ofInt 64 t).setWidth 32).setWidth 64) := by
      unfold unitTagIndex
      congr 1
      apply BitVec.eq_of_getLsbD_eq
      intro i hi
      rw [BitVec.getLsbD_and, BitVec.getLsbD_and]
      by_cases h14 : i < 14
      · congr 1
        rw [BitVec.getLsbD_sshiftRight, BitVec.getLsbD_sshiftRight]
        have h1 : 18 + i < 64 := by omega
        have h2 : 18 + i < 32 := by omega
        have h3 : ¬ 64 ≤ i := by omega
        simp [h1, h2, h3]
      · have : (0x3fff#64).getLsbD i = false := by
          rw [show (0x3fff#64) = BitVec.ofNat 64 (2 ^ 14 - 1) from rfl, BitVec.getLsbD_ofNat, Nat.testBit_two_pow_sub_one]
          simp [h14]
        rw [this, Bool.and_false, Bool.and_false]
    rw [this, unitTagIndex_toNat _ (by rw [BitVec.toNat_setWidth, BitVec.toNat_setWidth]; omega), BitVec.toNat_setWidth, BitVec.toNat_setWidth]
    omega
  · rw [unitTagRecycle_toNat]
    omega

/-- `util xlate-tag-to-index-recycle` prints bits 18-31 and bits 0-17 of any `i64`, negative ones included. -/
theorem C164_util (e : Env D) (c : Cli) (tag : Int) (hc : c.command = .util tag) (t : UnitTable BalUnit) (h : load e c e.listing = .ok t) :
    ∃ i r : Nat, process e c = ([.tag i r], .ok ()) ∧ (i : Int) = tag / 2 ^ 18 % 2 ^ 14 ∧ (r : Int) = tag % 2 ^ 18 := by
  refine ⟨_, _, ?_, tagParts tag⟩
  unfold process runCommand
  rw [h, hc]

/-! ## The order of directory entries -/

/-- [specification] No two files hold the same unit of the same version differently ("1/a.json" and "01/a.json"). -/
def OneFileEach (parse : List UInt8 → Option BalUnit) (t : Tree) : Prop :=
  ∀ k u u', Holds parse t k (some u) → Holds parse t k (some u') → u = u'

theorem readDest_listing {parse : List UInt8 → Option BalUnit} {t : Tree} (hu : OneFileEach parse t) {l l' : Dirs} (hl : Lists t l)
    (hl' : Lists t l') : (∃ a b, readDest parse t l = .ok a ∧ readDest parse t l' = .ok b ∧ SameTable a b) ∨
      ∃ x, readDest parse t l = .err x ∧ readDest parse t l' = .err x := by
  unfold readDest
  by_cases hd : t [] = some .dir
  · rw [if_pos hd, if_pos hd]
    rcases C116_listing_order_partial parse l l' (fun d f c => by rw [← hl.file, ← hl'.file]) (fun k u u' h1 h2 =>
        hu k u u' ((holds_entries hl k _).1 h1) ((holds_entries hl k _).1 h2)) with ⟨a, b, h1, h2, h3⟩ | ⟨h1, h2⟩
    · exact .inl ⟨a, b, h1, h2, h3⟩
    · exact .inr ⟨_, h1, h2⟩
  · rw [if_neg hd, if_neg hd]
    exact .inr ⟨_, rfl, rfl⟩

/-- The outcome of every command is the same in whatever order the balance directory is listed, each of the times it is read. -/
theorem C165_listing_order (e : Env D) (c : Cli) (hu : OneFileEach e.parse e.tree) (l l2 : Dirs) (h1 : Lists e.tree e.listing)
    (h2 : Lists e.tree e.listing2) (h3 : Lists e.tree l) (h4 : Lists e.tree l2) :
    process { e with listing := l, listing2 := l2 } c = process e c := by
  by_cases hdir : c.jsonDir = []
  · exact C163_built_in e c hdir e.tree l l2
  have key : ∀ t t' : UnitTable BalUnit, SameTable t t' →
      runCommand { e with listing := l, listing2 := l2 } c (tableOf t) = runCommand e c (tableOf t') := by
    intro t t' hs
    unfold runCommand
    cases hcmd : c.command with
    | generate => rfl
    | balanceDataToJson => rfl
    | util tag => rfl
    | scan => simp only [scanPath_same e.world e.bld e.ord hs]
    | writeArrowIpc a b d x y => simp only [arrowJob_same e.world e.bld hs]
    | get ty =>
      simp only [load, if_neg hdir]
      rcases readDest_listing hu h4 h2 with ⟨a, b, ha, hb, hab⟩ | ⟨x, ha, hb⟩
      · rw [ha, hb]
        simp only [S2.Cli.handleGet, getLoop_same e.world e.bld hab]
      · rw [ha, hb]
  unfold process load
  simp only [if_neg hdir]
  rcases readDest_listing hu h3 h1 with ⟨a, b, ha, hb, hab⟩ | ⟨x, ha, hb⟩
  · rw [ha, hb]
    exact key a b hab
  · rw [ha, hb]

/-! ## Missing options -/

/-- `balance-data-to-json` without a source or a destination ends with an error and writes nothing. -/
theorem C166_balance_partial (e : Env D) (c : Cli) (hc : c.command = .balanceDataToJson) (hm : c.source = [] ∨ c.jsonDir = [])
    (t : UnitTable BalUnit) (h : load e c e.listing = .ok t) : ∃ x, process e c = ([], .err x) := by
  refine ⟨.other 11, ?_⟩
  unfold process runCommand
  rw [h, hc]
  simp only
  by_cases hs : c.source = []
  · rw [if_pos hs]
  · rw [if_neg hs, if_pos (hm.resolve_left hs)]

/-- With both it does what `convert` does (`C160`-`C162`). -/
theorem C166_balance_convert (e : Env D) (c : Cli) (hc : c.command = .balanceDataToJson) (hs : c.source ≠ []) (hd : c.jsonDir ≠ []) :
    process e c = done Effect.write (convert e.parse e.json e.assets ⟨true, true⟩ e.xml e.tree e.listing) := by
  unfold process runCommand load convert loadBalance
  rw [if_neg hd, if_pos rfl, hc]
  cases readDest e.parse e.tree e.listing with
  | ok t =>
    simp only [if_neg hs, if_neg hd, if_true]
    cases e.xml <;> rfl
  | err x => rfl
  | panic => rfl

/-- The same for `convert` itself: it writes only with both options. -/
theorem C162_options {U : Type} (parse : List UInt8 → Option U) (json : U → List (List UInt8)) (assets : List (Str × List UInt8)) (o : Options)
    (ho : o.source = false ∨ o.dest = false) (xml : Res (List ((Nat × Str) × U))) (t : Tree) (dirs : Dirs) (ops : List Op) :
    convert parse json assets o xml t dirs ≠ .ok ops := by
  intro h
  unfold convert at h
  obtain ⟨T, _, h⟩ := Res.bind_eq_ok.1 h
  obtain ⟨s, d⟩ := o
  cases s <;> cases d <;> simp at h ho

/-- `generate` and `write-arrow-ipc` without `--output` crash, before they have done anything. -/
theorem C166_output_crash (e : Env D) (c : Cli) (ho : c.output = none)
    (hc : c.command = .generate ∨ ∃ a b d x y, c.command = .writeArrowIpc a b d x y)
    (t : UnitTable BalUnit) (h : load e c e.listing = .ok t) : process e c = ([], .panic) := by
  unfold process runCommand
  rw [h]
  rcases hc with hc | ⟨a, b, d, x, y, hc⟩ <;> rw [hc] <;> simp only <;> rw [ho]

/-! ## Concrete cases -/

/-- [sample data] A process beside the example replay, with version 1 of one unit below `--json-balance-data-dir` (file "1/Old.json"
with the byte 7). -/
def exEnv (parse : List UInt8 → Option BalUnit) : Env Nat where
  world := exWorld exLobby
  bld := .release
  parse := parse
  json := fun _ => [[7]]
  assets := []
  tree := treeOf oldTree
  listing := [(str "1", some [(str "Old.json", some [7])])]
  listing2 := [(str "1", some [(str "Old.json", some [7])])]
  node := .file
  xml := .ok []
  outputIsDir := true
  arrow := fun _ => true
  ord := id
  split := .leaf

/-- [sample data] A unit without abilities. -/
def exBare : BalUnit := ⟨none, [], [], [], none⟩

/-- [sample data] The options `--source a --json-balance-data-dir b`. -/
def exCli (c : Command) : Cli := ⟨str "a", str "b", none, false, S2.Cli.Args.none, c⟩

/-- [sample data] A decoder that accepts the bytes 7 and 8. -/
def exParse (b : List UInt8) : Option BalUnit :=
  if b = [7] then some exBare else if b = [8] then some { exBare with radius := some 2 } else none

example : process (exEnv exParse) (exCli (.util 262145)) = ([.tag 1 1], .ok ()) := by
  have h : load (exEnv exParse) (exCli (.util 262145)) (exEnv exParse).listing = .ok [((1, str "Old"), exBare)] := by decide +kernel
  unfold process runCommand
  rw [h]
  rfl

/-- A file in the balance directory that does not decode, and even the translation of a number fails. -/
theorem C164_refuted : ∃ (e : Env Nat) (c : Cli) (tag : Int), c.command = .util tag ∧ Lists e.tree e.listing ∧ e.tree [] = some .dir ∧
    process e { c with jsonDir := [] } = ([.tag 1 1], .ok ()) ∧ ∃ x, process e c = ([], .err x) := by
  refine ⟨exEnv (fun _ => none), exCli (.util 262145), 262145, rfl, oldTree_lists, rfl, rfl, ?_⟩
  exact C163_unreadable_directory _ _ (by decide) oldTree_lists (.inr ⟨(1, str "Old"), str "1", str "Old.json", [7], by decide +kernel,
    by decide +kernel, by decide +kernel, by decide +kernel, rfl⟩)

/-- So `generate` without `--output` is a crash, not an error message. -/
theorem C166_refuted : ∃ (e : Env Nat) (c : Cli), c.command = .generate ∧ c.output = none ∧ (∃ t, load e c e.listing = .ok t) ∧
    process e c = ([], .panic) := by
  have h : load (exEnv exParse) (exCli .generate) (exEnv exParse).listing = .ok [((1, str "Old"), exBare)] := by decide +kernel
  exact ⟨exEnv exParse, exCli .generate, rfl, rfl, ⟨_, h⟩, C166_output_crash _ _ rfl (.inl rfl) _ h⟩

example : ∃ x, process (exEnv exParse) { exCli .balanceDataToJson with source := [] } = ([], .err x) :=
  C166_balance_partial _ _ rfl (.inl rfl) [((1, str "Old"), exBare)] (by decide +kernel)

theorem newTree_oneFile : OneFileEach exParse (treeOf newTree) := by
  rintro k u u' ⟨d, f, c, _, h2, _, h4, h5⟩ ⟨d', f', c', _, h2', _, h4', h5'⟩
  have m := treeOf_mem h2
  have m' := treeOf_mem h2'
  simp only [newTree, oldTree, fileOf, List.mem_cons, Prod.mk.injEq, reduceCtorEq, false_and, List.cons.injEq, and_false, and_true, false_or,
    Entry.file.injEq, List.not_mem_nil, or_false] at m m'
  rcases m with ⟨⟨_, rfl⟩, rfl⟩ | ⟨⟨_, rfl⟩, rfl⟩ <;> rcases m' with ⟨⟨_, rfl⟩, rfl⟩ | ⟨⟨_, rfl⟩, rfl⟩
  · exact Option.some.inj (h5.symm.trans h5')
  · exact absurd (h4.trans h4'.symm) (by decide +kernel)
  · exact absurd (h4.trans h4'.symm) (by decide +kernel)
  · exact Option.some.inj (h5.symm.trans h5')

/-- Two units in one directory, listed in either order. -/
example (c : Cli) :
    process { exEnv exParse with tree := treeOf newTree, listing := [(str "1", some [(str "Old.json", some [7]), (str "New.json", some [8])])],
                                 listing2 := [(str "1", some [(str "New.json", some [8]), (str "Old.json", some [7])])] } c =
    process { exEnv exParse with tree := treeOf newTree, listing := [(str "1", some [(str "Old.json", some [7]), (str "New.json", some [8])])],
                                 listing2 := [(str "1", some [(str "Old.json", some [7]), (str "New.json", some [8])])] } c := by
  refine C165_listing_order { exEnv exParse with
      tree := treeOf newTree, listing := [(str "1", some [(str "Old.json", some [7]), (str "New.json", some [8])])],
      listing2 := [(str "1", some [(str "Old.json", some [7]), (str "New.json", some [8])])] } c newTree_oneFile _ _
    newTree_lists newTree_lists newTree_lists ⟨fun d f c => ?_⟩
  rw [newTree_lists.file]
  constructor <;> rintro ⟨es, h1, h2⟩ <;> rw [List.mem_singleton] at h1 <;> cases h1
  · exact ⟨_, List.mem_singleton.2 rfl, (List.Perm.swap _ _ _).mem_iff.1 h2⟩
  · exact ⟨_, List.mem_singleton.2 rfl, (List.Perm.swap _ _ _).mem_iff.1 h2⟩

end S2.Main
