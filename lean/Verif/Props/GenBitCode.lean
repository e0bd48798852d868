import Verif.Spec.GenBitCodeSpec
import Verif.Props.GenDecls
import Verif.Props.GenText
/-! # What the generated bit-packed code does (C176) -/
namespace S2.Generator
open S2

theorem lit_inj (a b : String) : lit a = lit b ↔ a = b := by
  unfold lit
  exact ⟨fun h => String.toList_inj.1 h, fun h => by rw [h]⟩

theorem andThen_none {α β : Type} (k : α → Option (Res β)) : andThen none k = none := rfl
theorem andThen_ok {α β : Type} (a : α) (k : α → Option (Res β)) : andThen (some (.ok a)) k = k a := rfl
theorem andThen_err {α β : Type} (e : Err) (k : α → Option (Res β)) : andThen (some (.err e)) k = some (.err e) := rfl
theorem andThen_panic {α β : Type} (k : α → Option (Res β)) : andThen (some .panic) k = some .panic := rfl

theorem set_same (σ : Vars) (x : Txt) (mt : Bool) (v : RVal) : (σ.set x mt v) x = some (mt, v) := by simp [Vars.set]
theorem set_other (σ : Vars) (x y : Txt) (mt : Bool) (v : RVal) (h : y ≠ x) : (σ.set x mt v) y = σ y := by simp [Vars.set, h]

/-- [proof device, no counterpart in /repo] -/
macro "exec" "[" ts:term,* "]" : tactic => do
  let hs := ts.getElems
  `(tactic| simp [Fn.run, runStmts, Stmt.run, Call.run, Ret.run, Arg.run, Vars.cur, Vars.int, Vars.val, Vars.set, lit_inj, andThen_ok, andThen_err, andThen_panic, lift, $[$hs:term],*])

/-- A program does what a parser does. [proof device, no counterpart in /repo] -/
def Does (p : Prog) (q : Cur → Res (Cur × Val)) : Prop := ∀ c, p c = some (q c)

theorem repeat_does (p : Prog) (q : Cur → Res (Cur × Val)) (h : Does p q) : ∀ n c, repeatProg p n c = some (repeatN q n c) := by
  intro n
  induction n with
  | zero => intro c; rfl
  | succ n ih =>
    intro c
    rw [repeatProg, h c, repeatN]
    cases hq : q c with
    | ok r =>
      rw [andThen_ok, ih]
      simp only [Res.bind_ok]
      cases repeatN q n r.1 with
      | ok s => rfl
      | err e => rfl
      | panic => rfl
    | err e => rfl
    | panic => rfl

/-- The elements of an array, as values. [proof device, no counterpart in /repo] -/
def listOf (q : Cur → Res (Cur × Val)) (n : Nat) (c : Cur) : Res (Cur × Val) := do
  let (tail, vs) ← repeatN q n c
  pure (tail, .list vs)

/-- [proof device, no counterpart in /repo] -/
def bytesOf (n : Nat) (c : Cur) : Res (Cur × Val) := do
  let (tail, bs) ← repeatN S2.takeUnalignedByte n c
  pure (tail, .bytes bs)

theorem many_does (env self : Txt → Prog) (f : Callee) (q : Cur → Res (Cur × Val)) (hf : f ≠ .takeUnalignedByte) (h : Does (f.run env self) q) (n : Nat) :
    Does (f.many env self n) (listOf q n) := by
  intro c
  unfold Callee.many listOf
  rw [if_neg hf]
  simp only [repeat_does _ q h]
  cases repeatN q n c with
  | ok s => rfl
  | err e => rfl
  | panic => rfl

theorem many_bytes (env self : Txt → Prog) (n : Nat) : Does (Callee.many env self .takeUnalignedByte n) (bytesOf n) := by
  intro c
  rw [Callee.many, if_pos rfl]
  rfl

/-! ## Members -/

theorem plainOne_fn (bld : Build) (env self : Txt → Prog) (f : Txt) (hf : f ≠ lit "tail") (g : Callee) (q : Cur → Res (Cur × Val))
    (h : Does (g.run env self) q) : Does ((plainOne f (.fn g (lit "input"))).run bld env self) q := by
  intro c
  have h' := h c
  have hf' : lit "tail" ≠ f := fun e => hf e.symm
  cases hq : q c with
  | ok r => rw [hq] at h'; exec [plainOne, hf, hf', h']
  | err e => rw [hq] at h'; exec [plainOne, hf, hf', h']
  | panic => rw [hq] at h'; exec [plainOne, hf, hf', h']

theorem plainOne_int (bld : Build) (env self : Txt → Prog) (f : Txt) (hf : f ≠ lit "tail") (o : Int) (n : Nat) :
    Does ((plainOne f (.packed (lit "input") (.int o) (.usize n))).run bld env self) (bparse bld (.int o n)) := by
  intro c
  have hf' : lit "tail" ≠ f := fun e => hf e.symm
  rw [bparse]
  cases hq : parsePackedInt bld c o n with
  | ok r => exec [plainOne, hf, hf', hq]
  | err e => exec [plainOne, hf, hf', hq]
  | panic => exec [plainOne, hf, hf', hq]

theorem plainVec_does (bld : Build) (env self : Txt → Prog) (max : Int) (g : Callee) (q : Nat → Cur → Res (Cur × Val)) (h : ∀ n, Does (g.many env self n) (q n)) :
    Does ((plainVec max g).run bld env self) (fun c => do
      let (tail, len) ← takeI64 c (log2p1 max)
      q (asUsize len) tail) := by
  intro c
  cases hq : takeI64 c (log2p1 max) with
  | ok r =>
    have h' := h (asUsize r.2) r.1
    cases hs : q (asUsize r.2) r.1 with
    | ok s => rw [hs] at h'; exec [plainVec, hq, h', hs]
    | err e => rw [hs] at h'; exec [plainVec, hq, h', hs]
    | panic => rw [hs] at h'; exec [plainVec, hq, h', hs]
  | err e => exec [plainVec, hq]
  | panic => exec [plainVec, hq]

theorem run_parseBool (env self : Txt → Prog) : Callee.run env self .parseBool = lift S2.parseBool .bool := rfl

theorem optionalOne_fn (bld : Build) (env self : Txt → Prog) (f : Txt) (hf : f ≠ lit "tail") (g : Callee) (ty : BTy)
    (h : Does (g.run env self) (bparse bld ty)) : Does ((optionalOne f (.fn g (lit "tail"))).run bld env self) (bparse bld (.opt ty)) := by
  intro c
  rw [bparse]
  cases hb : S2.parseBool c with
  | ok r =>
    obtain ⟨tail, b⟩ := r
    cases b with
    | false => exec [optionalOne, hf, hb, run_parseBool]
    | true =>
      have h' := h tail
      cases hq : bparse bld ty tail with
      | ok s => rw [hq] at h'; exec [optionalOne, hf, hb, run_parseBool, h', hq]
      | err e => rw [hq] at h'; exec [optionalOne, hf, hb, run_parseBool, h', hq]
      | panic => rw [hq] at h'; exec [optionalOne, hf, hb, run_parseBool, h', hq]
  | err e => exec [optionalOne, hf, hb, run_parseBool]
  | panic => exec [optionalOne, hf, hb, run_parseBool]

theorem optionalOne_int (bld : Build) (env self : Txt → Prog) (f : Txt) (hf : f ≠ lit "tail") (o : Int) (n : Nat) :
    Does ((optionalOne f (.packed (lit "input") (.int o) (.usize n))).run bld env self) (bparse bld (.optRewind (.int o n))) := by
  intro c
  rw [bparse, bparse]
  cases hb : S2.parseBool c with
  | ok r =>
    obtain ⟨tail, b⟩ := r
    cases b with
    | false => exec [optionalOne, hf, hb, run_parseBool]
    | true =>
      cases hq : parsePackedInt bld c o n with
      | ok s => exec [optionalOne, hf, hb, run_parseBool, hq]
      | err e => exec [optionalOne, hf, hb, run_parseBool, hq]
      | panic => exec [optionalOne, hf, hb, run_parseBool, hq]
  | err e => exec [optionalOne, hf, hb, run_parseBool]
  | panic => exec [optionalOne, hf, hb, run_parseBool]

theorem optionalVec_does (bld : Build) (env self : Txt → Prog) (nm : Naming) (f : Txt) (hf : f ≠ lit "tail") (max : Int) (g : Callee) (ty : BTy)
    (q : Nat → Cur → Res (Cur × Val)) (h : ∀ n, Does (g.many env self n) (q n))
    (hty : ∀ c, bparse bld ty c = (do
      let (tail, len) ← takeI64 c (log2p1 max)
      q (asUsize len) tail)) :
    Does ((optionalVec f max g nm).run bld env self) (bparse bld (.optRewind ty)) := by
  intro c
  rw [bparse, hty]
  cases hb : S2.parseBool c with
  | ok r =>
    obtain ⟨tail, b⟩ := r
    cases b with
    | false => exec [optionalVec, hf, hb, run_parseBool]
    | true =>
      cases hq : takeI64 c (log2p1 max) with
      | ok r =>
        have h' := h (asUsize r.2) r.1
        cases hs : q (asUsize r.2) r.1 with
        | ok s => rw [hs] at h'; exec [optionalVec, hf, hb, run_parseBool, hq, h', hs]
        | err e => rw [hs] at h'; exec [optionalVec, hf, hb, run_parseBool, hq, h', hs]
        | panic => rw [hs] at h'; exec [optionalVec, hf, hb, run_parseBool, hq, h', hs]
      | err e => exec [optionalVec, hf, hb, run_parseBool, hq]
      | panic => exec [optionalVec, hf, hb, run_parseBool, hq]
  | err e => exec [optionalVec, hf, hb, run_parseBool]
  | panic => exec [optionalVec, hf, hb, run_parseBool]

/-! ## Structs -/

/-- The readers of the members, and the types they read. [proof device, no counterpart in /repo] -/
def FieldsDo (bld : Build) (self : Txt → Prog) : List Member → BFields → Prop
  | [], .nil => True
  | m :: ms, .cons _ ty rest => Does (self m.field) (bparse bld ty) ∧ FieldsDo bld self ms rest
  | _, _ => False

theorem runStmts_append (bld : Build) (env self : Txt → Prog) : ∀ (a b : List Stmt) (σ : Vars),
    runStmts bld env self (a ++ b) σ = andThen (runStmts bld env self a σ) (runStmts bld env self b) := by
  intro a
  induction a with
  | nil => intro b σ; rfl
  | cons s a ih =>
    intro b σ
    rw [List.cons_append, runStmts, runStmts]
    cases s.run bld env self σ with
    | none => rfl
    | some r =>
      cases r with
      | ok σ' => rw [andThen_ok, andThen_ok, ih]
      | err e => rfl
      | panic => rfl

theorem lets_run (bld : Build) (env self : Txt → Prog) : ∀ (ms : List Member) (σ : Vars), (ms.map Member.field).Nodup → ∃ σ',
    runStmts bld env self (ms.map (fun m => Stmt.letAcc m.field m.ty m.opt)) σ = some (.ok σ') ∧
    (∀ x, x ∉ ms.map Member.field → σ' x = σ x) ∧
    ∀ m ∈ ms, σ' m.field = some (true, .acc (if m.opt then some .none else none)) := by
  intro ms
  induction ms with
  | nil => intro σ _; exact ⟨σ, rfl, fun _ _ => rfl, fun m hm => nomatch hm⟩
  | cons m ms ih =>
    intro σ hn
    rw [List.map_cons, List.nodup_cons] at hn
    obtain ⟨σ', h1, h2, h3⟩ := ih (σ.set m.field true (.acc (if m.opt then some .none else none))) hn.2
    refine ⟨σ', ?_, ?_, ?_⟩
    · rw [List.map_cons, runStmts, Stmt.run, andThen_ok]; exact h1
    · intro x hx
      rw [List.map_cons, List.mem_cons, not_or] at hx
      rw [h2 x hx.2, set_other _ _ _ _ _ hx.1]
    · intro m' hm'
      rcases List.mem_cons.1 hm' with rfl | hm'
      · rw [h2 _ hn.1, set_same]
      · exact h3 m' hm'

theorem guard_initial (opt : Bool) : guardHolds opt (if opt then some .none else none) = true := by cases opt <;> rfl

theorem fills_run (bld : Build) (env self : Txt → Prog) : ∀ (ms : List Member) (bfs : BFields) (σ : Vars) (c : Cur),
    (ms.map Member.field).Nodup → lit "tail" ∉ ms.map Member.field → lit "new_tail" ∉ ms.map Member.field →
    FieldsDo bld self ms bfs → σ (lit "tail") = some (true, .cur c) →
    (∀ m ∈ ms, σ m.field = some (true, .acc (if m.opt then some .none else none))) →
    match bfields bld bfs c with
    | .ok (c', vs) => ∃ σ', runStmts bld env self (ms.map (fun m => Stmt.fill m.field m.opt)) σ = some (.ok σ') ∧
        σ' (lit "tail") = some (true, .cur c') ∧ collectFields σ' (ms.map Member.field) = some (.ok vs) ∧
        ∀ x, x ∉ ms.map Member.field → x ≠ lit "tail" → σ' x = σ x
    | .err e => runStmts bld env self (ms.map (fun m => Stmt.fill m.field m.opt)) σ = some (.err e)
    | .panic => runStmts bld env self (ms.map (fun m => Stmt.fill m.field m.opt)) σ = some .panic := by
  intro ms
  induction ms with
  | nil =>
    intro bfs σ c _ _ _ hd ht _
    cases bfs with
    | nil => rw [bfields]; exact ⟨σ, rfl, ht, rfl, fun _ _ _ => rfl⟩
    | cons _ _ _ => exact absurd hd (by simp [FieldsDo])
  | cons m ms ih =>
    intro bfs σ c hn ht1 ht2 hd ht ha
    cases bfs with
    | nil => exact absurd hd (by simp [FieldsDo])
    | cons nme ty rest =>
      obtain ⟨hd1, hd2⟩ := hd
      rw [List.map_cons, List.nodup_cons] at hn
      rw [List.map_cons, List.mem_cons, not_or] at ht1 ht2
      have step : (Stmt.fill m.field m.opt).run bld env self σ = andThen (some (bparse bld ty c))
          (fun r => some (.ok ((σ.set (lit "tail") true (.cur r.1)).set m.field true (.acc (some r.2))))) := by
        rw [Stmt.run, if_neg (fun e => ht2.1 e.symm)]
        simp only [ha m List.mem_cons_self, ht, guard_initial, if_true, hd1 c]
      rw [bfields, List.map_cons, runStmts, step]
      cases hp : bparse bld ty c with
      | err e => rfl
      | panic => rfl
      | ok r =>
        obtain ⟨c1, v⟩ := r
        simp only [Res.bind_ok, andThen_ok]
        have IH := ih rest ((σ.set (lit "tail") true (.cur c1)).set m.field true (.acc (some v))) c1 hn.2 ht1.2 ht2.2 hd2
          (by rw [set_other _ _ _ _ _ ht1.1, set_same])
          (fun m' hm' => by
            have n1 : m'.field ≠ m.field := fun e => hn.1 (e ▸ List.mem_map_of_mem hm')
            have n2 : m'.field ≠ lit "tail" := fun e => ht1.2 (e ▸ List.mem_map_of_mem hm')
            rw [set_other _ _ _ _ _ n1, set_other _ _ _ _ _ n2]; exact ha m' (List.mem_cons_of_mem _ hm'))
        cases hr : bfields bld rest c1 with
        | err e => rw [hr] at IH; exact IH
        | panic => rw [hr] at IH; exact IH
        | ok s =>
          obtain ⟨c2, vs⟩ := s
          rw [hr] at IH
          obtain ⟨σ', e1, e2, e3, e4⟩ := IH
          refine ⟨σ', e1, e2, ?_, ?_⟩
          · have : σ' m.field = some (true, .acc (some v)) := by
              rw [e4 _ hn.1 (fun e => ht1.1 e.symm), set_same]
            rw [List.map_cons, collectFields, this]
            simp only [e3, andThen_ok]
          · intro x hx hx2
            rw [List.map_cons, List.mem_cons, not_or] at hx
            rw [e4 x hx.2 hx2, set_other _ _ _ _ _ hx.1, set_other _ _ _ _ _ hx2]

theorem structFn_does (bld : Build) (env self : Txt → Prog) (ms : List Member) (bfs : BFields) (hn : (ms.map Member.field).Nodup)
    (ht1 : lit "tail" ∉ ms.map Member.field) (ht2 : lit "new_tail" ∉ ms.map Member.field) (hd : FieldsDo bld self ms bfs) :
    Does ((structFn ms).run bld env self) (bparse bld (.struct bfs)) := by
  intro c
  rw [bparse]
  have e0 : (Stmt.letTail (!ms.isEmpty)).run bld env self (Vars.set (fun _ => none) (lit "input") false (.cur c)) =
      some (.ok (Vars.set (Vars.set (fun _ => none) (lit "input") false (.cur c)) (lit "tail") (!ms.isEmpty) (.cur c))) := by
    simp [Stmt.run, Vars.cur, Vars.set]
  generalize hσ : Vars.set (Vars.set (fun _ => none) (lit "input") false (.cur c)) (lit "tail") (!ms.isEmpty) (.cur c) = σ0 at e0
  have ht : σ0 (lit "tail") = some (!ms.isEmpty, .cur c) := by rw [← hσ, set_same]
  rw [Fn.run, structFn, runStmts, e0, andThen_ok, runStmts_append]
  obtain ⟨σ1, h1, h2, h3⟩ := lets_run bld env self ms σ0 hn
  rw [h1, andThen_ok]
  cases ms with
  | nil =>
    cases bfs with
    | cons _ _ _ => exact absurd hd (by simp [FieldsDo])
    | nil =>
      have : σ1 (lit "tail") = some (false, .cur c) := by rw [h2 _ ht1, ht]; rfl
      simp [runStmts, andThen_ok, Ret.run, Vars.cur, this, collectFields, bfields]
  | cons m ms =>
    have ht' : σ1 (lit "tail") = some (true, .cur c) := by rw [h2 _ ht1, ht]; rfl
    have F := fills_run bld env self (m :: ms) bfs σ1 c hn ht1 ht2 hd ht' h3
    cases hb : bfields bld bfs c with
    | err e => rw [hb] at F; rw [F]; rfl
    | panic => rw [hb] at F; rw [F]; rfl
    | ok s =>
      obtain ⟨c2, vs⟩ := s
      rw [hb] at F
      obtain ⟨σ', e1, e2, e3, _⟩ := F
      rw [e1, andThen_ok]
      simp only [Ret.run, Vars.cur, e2, e3, Option.bind_eq_bind, Option.bind_some, andThen_ok, Res.bind_ok]
      rfl

/-! ## Choices and enums -/

/-- The arms, and what their payloads read. [proof device, no counterpart in /repo] -/
def ArmsDo (bld : Build) (env self : Txt → Prog) : List Arm → BAlts → Prop
  | [], .nil => True
  | a :: as, .cons tag ty rest => a.tag = tag ∧ Does (a.body.run env self) (bparse bld ty) ∧ ArmsDo bld env self as rest
  | _, _ => False

theorem arms_run (bld : Build) (env self : Txt → Prog) (tag : Int) : ∀ (as : List Arm) (alts : BAlts), ArmsDo bld env self as alts →
    Does (runArms env self tag as) (balt bld alts tag) := by
  intro as
  induction as with
  | nil =>
    intro alts h c
    cases alts with
    | nil => rw [balt]; rfl
    | cons _ _ _ => exact absurd h (by simp [ArmsDo])
  | cons a as ih =>
    intro alts h c
    cases alts with
    | nil => exact absurd h (by simp [ArmsDo])
    | cons t ty rest =>
      obtain ⟨h1, h2, h3⟩ := h
      rw [runArms, balt, h1]
      by_cases e : tag = t
      · rw [if_pos e, if_pos e]; exact h2 c
      · rw [if_neg e, if_neg e]; exact ih rest h3 c

theorem choiceFn_does (bld : Build) (env self : Txt → Prog) (nm : Naming) (n : Nat) (as : List Arm) (alts : BAlts) (h : ArmsDo bld env self as alts) :
    Does ((choiceFn nm n as).run bld env self) (bparse bld (.choice (tagBits n) alts)) := by
  intro c
  rw [bparse]
  cases hq : parsePackedInt bld c 0 (tagBits n) with
  | ok r =>
    have h' := arms_run bld env self r.2 as alts h r.1
    cases hs : balt bld alts r.2 r.1 with
    | ok s => rw [hs] at h'; exec [choiceFn, hq, h', hs]
    | err e => rw [hs] at h'; exec [choiceFn, hq, h', hs]
    | panic => rw [hs] at h'; exec [choiceFn, hq, h', hs]
  | err e => exec [choiceFn, hq]
  | panic => exec [choiceFn, hq]

theorem enumFn_does (bld : Build) (env self : Txt → Prog) (nm : Naming) (n : Nat) (as : List Arm) (alts : BAlts) (h : ArmsDo bld env self as alts) :
    Does ((enumFn nm n as).run bld env self) (bparse bld (.choice (tagBits n) alts)) := by
  intro c
  rw [bparse]
  cases hq : parsePackedInt bld c 0 (tagBits n) with
  | ok r =>
    have h' := arms_run bld env self r.2 as alts h r.1
    cases hs : balt bld alts r.2 r.1 with
    | ok s => rw [hs] at h'; exec [enumFn, hq, h', hs]
    | err e => rw [hs] at h'; exec [enumFn, hq, h', hs]
    | panic => rw [hs] at h'; exec [enumFn, hq, h', hs]
  | err e => exec [enumFn, hq]
  | panic => exec [enumFn, hq]

theorem optionalArm_does (bld : Build) (env self : Txt → Prog) (g : Callee) (ty : BTy) (h : Does (g.run env self) (bparse bld ty)) :
    Does ((ArmBody.optional g).run env self) (bparse bld (.opt ty)) := by
  intro c
  rw [bparse, ArmBody.run]
  cases hb : S2.parseBool c with
  | ok r =>
    obtain ⟨tail, b⟩ := r
    cases b with
    | false => simp [lift, hb, andThen_ok]
    | true =>
      have h' := h tail
      cases hq : bparse bld ty tail with
      | ok s => rw [hq] at h'; simp [lift, hb, andThen_ok, h', hq]
      | err e => rw [hq] at h'; simp [lift, hb, andThen_ok, andThen_err, h', hq]
      | panic => rw [hq] at h'; simp [lift, hb, andThen_ok, andThen_panic, h', hq]
  | err e => simp [lift, hb, andThen_err]
  | panic => simp [lift, hb, andThen_panic]

/-! ## Single values -/

theorem intFn_does (bld : Build) (env self : Txt → Prog) (b : Bounds) : Does ((intFn b).run bld env self) (bparse bld (intType b)) := by
  intro c
  rw [intType, bparse]
  cases hq : parsePackedInt bld c b.min (intBits b) with
  | ok r => exec [intFn, hq]
  | err e => exec [intFn, hq]
  | panic => exec [intFn, hq]

theorem bitArrayFn_does (bld : Build) (env self : Txt → Prog) (b : Bounds) : Does ((bitArrayFn b).run bld env self) (bparse bld (bitArrayType b)) := by
  intro c
  rw [bitArrayType, bparse]
  cases hq : takeI64 c (maxBits b) with
  | ok r =>
    cases hs : takeBitArray r.1 (asUsize r.2) with
    | ok s => exec [bitArrayFn, hq, hs]
    | err e => exec [bitArrayFn, hq, hs]
    | panic => exec [bitArrayFn, hq, hs]
  | err e => exec [bitArrayFn, hq]
  | panic => exec [bitArrayFn, hq]

theorem userFn_does (bld : Build) (env self : Txt → Prog) (n : Txt) (q : Cur → Res (Cur × Val)) (h : Does (env n) q) : Does ((userFn n).run bld env self) q := by
  intro c
  have h' := h c
  cases hq : q c with
  | ok r => rw [hq] at h'; exec [userFn, Callee.run, h']
  | err e => rw [hq] at h'; exec [userFn, Callee.run, h']
  | panic => rw [hq] at h'; exec [userFn, Callee.run, h']

theorem blobFn_does (bld : Build) (env self : Txt → Prog) (b : Bounds) (h8 : maxBits b % 8 = 0) :
    Does ((blobFn b).run bld env self) (bparse bld (.aligned (maxBits b / 8))) := by
  intro c
  rw [bparse]
  have e8 : maxBits b / 8 * 8 = maxBits b := by omega
  rw [e8]
  cases hq : byteAlign c with
  | ok r =>
    cases hs : takeBitArray r.1 (maxBits b) with
    | ok s => exec [blobFn, hq, hs]
    | err e => exec [blobFn, hq, hs]
    | panic => exec [blobFn, hq, hs]
  | err e => exec [blobFn, hq]
  | panic => exec [blobFn, hq]

theorem stringFn_does (bld : Build) (env self : Txt → Prog) (b : Bounds) : Does ((stringFn b).run bld env self) (bparse bld (stringType b)) := by
  intro c
  rw [stringType, bparse]
  have k1 : ((arrayBits b : Int) + 2).toNat = arrayBits b + 2 := by omega
  have k2 : ∀ i : Int, ((asUsize i : Int) * 8).toNat = asUsize i * 8 := fun i => by omega
  cases hq : parsePackedInt bld c 0 (arrayBits b + 2) with
  | ok r =>
    cases ha : byteAlign r.1 with
    | ok t =>
      cases hs : takeBitArray t.1 (asUsize r.2 * 8) with
      | ok s => exec [stringFn, k1, k2, hq, ha, hs]
      | err e => exec [stringFn, k1, k2, hq, ha, hs]
      | panic => exec [stringFn, k1, k2, hq, ha, hs]
    | err e => exec [stringFn, k1, k2, hq, ha]
    | panic => exec [stringFn, k1, k2, hq, ha]
  | err e => exec [stringFn, k1, k2, hq]
  | panic => exec [stringFn, k1, k2, hq]

theorem takeI64_range (c : Cur) (n : Nat) (c' : Cur) (x : Int) (h : takeI64 c n = .ok (c', x)) : inI64 x := by
  unfold takeI64 at h
  split at h
  · cases h
  · obtain ⟨⟨t, r⟩, _, e⟩ := Res.bind_eq_ok.1 h
    simp only [] at e
    rw [Res.pure_eq, Res.ok.injEq, Prod.mk.injEq] at e
    rw [← e.2]
    exact toI64_range r

theorem packed_zero (bld : Build) (c : Cur) (n : Nat) : parsePackedInt bld c 0 n = takeI64 c n := by
  unfold parsePackedInt
  cases h : takeI64 c n with
  | ok r =>
    obtain ⟨c', x⟩ := r
    have := takeI64_range c n c' x h
    simp [addI64, this]
  | err e => rfl
  | panic => rfl

theorem arrayFn_does (bld : Build) (env self : Txt → Prog) (b : Bounds) (n : Txt) (ty : BTy) (h : Does (env n) (bparse bld ty)) :
    Does ((arrayFn b n).run bld env self) (bparse bld (arrayType b ty)) := by
  intro c
  rw [arrayType, bparse]
  cases hq : takeI64 c (arrayBits b) with
  | ok r =>
    have hm := many_does env self (.decl n) (bparse bld ty) (by simp) h (asUsize r.2) r.1
    unfold listOf at hm
    cases hs : repeatN (fun c => bparse bld ty c) (asUsize r.2) r.1 with
    | ok s => rw [hs] at hm; exec [arrayFn, packed_zero, hq, hm, hs]
    | err e => rw [hs] at hm; exec [arrayFn, packed_zero, hq, hm, hs]
    | panic => rw [hs] at hm; exec [arrayFn, packed_zero, hq, hm, hs]
  | err e => exec [arrayFn, packed_zero, hq]
  | panic => exec [arrayFn, packed_zero, hq]

/-! ## Declarations -/

theorem named_of {nm : Naming} {n : String} {d : TDecl} {m : BMorph} (h : bitMorph nm (.named n d) = some m) :
    m = { rustTy := nm.rust n, parser := .decl (nm.rust n) } := by
  simp only [bitMorph] at h
  split at h
  · exact (Option.some.inj h).symm
  · cases h

/-- The parser that stands for a description that is not read in place. -/
theorem callee_does (bld : Build) (nm : Naming) (env self : Txt → Prog) (t : TDesc) (m : BMorph) (hm : bitMorph nm t = some m)
    (ty : BTy) (hty : genPayload t.erase = some ty) (ho : ∀ u, t ≠ .optional u)
    (hr : ∀ n d, t = .named n d → Does (env (nm.rust n)) (bparse bld ty)) : Does (m.parser.run env self) (bparse bld ty) := by
  cases t with
  | named n d => rw [named_of hm]; exact hr n d rfl
  | optional u => exact absurd rfl (ho u)
  | bool =>
    simp only [bitMorph, TDesc.erase, genPayload, Option.some.injEq] at hm hty
    subst hm; subst hty
    intro c; rw [bparse]; rfl
  | null =>
    simp only [bitMorph, TDesc.erase, genPayload, Option.some.injEq] at hm hty
    subst hm; subst hty
    intro c; rw [bparse]; rfl
  | fourcc =>
    simp only [bitMorph, TDesc.erase, genPayload, Option.some.injEq] at hm hty
    subst hm; subst hty
    intro c; rw [bparse]; rfl
  | _ => simp [TDesc.erase, genPayload] at hty

/-- What is known of the module when a declaration is considered: the references of `rs` do what they should. [proof device, no counterpart in /repo] -/
def RefsDo (bld : Build) (nm : Naming) (env : Txt → Prog) (rs : List (String × TDecl)) : Prop :=
  ∀ n d, (n, d) ∈ rs → ∀ ty, genDecl d.erase = some ty → Does (env (nm.rust n)) (bparse bld ty)

theorem member_does (bld : Build) (nm : Naming) (hev : nm.rust "m_eventData" = lit "MEventData") (env self : Txt → Prog) (name : String)
    (hf : nm.snake name ≠ lit "tail") (t : TDesc) (m : Member) (hm : memberCode nm name t = some m) (ty : BTy)
    (hty : genMember name t.erase = some ty) (hr : RefsDo bld nm env t.refs) :
    m.field = nm.snake name ∧ Does (m.body.run bld env self) (bparse bld ty) := by
  cases t with
  | named n d =>
    simp only [memberCode, Option.bind_eq_bind, Option.bind_eq_some_iff] at hm
    obtain ⟨mo, h1, h2⟩ := hm
    have := named_of h1
    subst this
    simp only [Bool.false_eq_true, if_false, readCall, Option.some.injEq] at h2
    subst h2
    simp only [TDesc.erase, genMember] at hty
    exact ⟨rfl, plainOne_fn bld env self _ hf _ _ (hr n d (by simp [TDesc.refs]) ty hty)⟩
  | bool =>
    simp [memberCode, bitMorph, readCall] at hm
    subst hm
    simp only [TDesc.erase, genMember, Option.some.injEq] at hty
    subst hty
    exact ⟨rfl, plainOne_fn bld env self _ hf _ _ (fun c => by rw [bparse]; rfl)⟩
  | null =>
    simp [memberCode, bitMorph, readCall] at hm
    subst hm
    simp only [TDesc.erase, genMember, Option.some.injEq] at hty
    subst hty
    exact ⟨rfl, plainOne_fn bld env self _ hf _ _ (fun c => by rw [bparse]; rfl)⟩
  | fourcc =>
    simp [memberCode, bitMorph, readCall] at hm
    subst hm
    simp only [TDesc.erase, genMember, Option.some.injEq] at hty
    subst hty
    exact ⟨rfl, plainOne_fn bld env self _ hf _ _ (fun c => by rw [bparse]; rfl)⟩
  | int b =>
    simp [memberCode, bitMorph, readCall] at hm
    subst hm
    simp only [TDesc.erase, genMember, Option.some.injEq] at hty
    subst hty
    exact ⟨rfl, plainOne_int bld env self _ hf _ _⟩
  | blob b =>
    simp [memberCode, bitMorph, TDesc.maxBound] at hm
    subst hm
    simp only [TDesc.erase, genMember, Option.some.injEq] at hty
    subst hty
    refine ⟨rfl, ?_⟩
    intro c
    rw [plainVec_does bld env self b.max _ bytesOf (many_bytes env self) c, bparse]; rfl
  | string b =>
    simp [memberCode, bitMorph, TDesc.maxBound] at hm
    subst hm
    simp only [TDesc.erase, genMember, Option.some.injEq] at hty
    subst hty
    refine ⟨rfl, ?_⟩
    intro c
    rw [plainVec_does bld env self b.max _ bytesOf (many_bytes env self) c, bparse]; rfl
  | ascii b =>
    simp [memberCode, bitMorph, TDesc.maxBound] at hm
    subst hm
    simp only [TDesc.erase, genMember, Option.some.injEq] at hty
    subst hty
    refine ⟨rfl, ?_⟩
    intro c
    rw [plainVec_does bld env self b.max _ bytesOf (many_bytes env self) c, bparse]; rfl
  | bitArray b => simp [memberCode] at hm
  | array b e =>
    cases e with
    | named n d =>
      simp only [memberCode, elemBitMorph, Option.bind_eq_bind, Option.bind_eq_some_iff] at hm
      obtain ⟨mo, h1, h2⟩ := hm
      have := named_of h1
      subst this
      simp only [Option.some.injEq] at h2
      subst h2
      simp only [TDesc.erase, genMember, Option.map_eq_some_iff] at hty
      obtain ⟨t', h3, h4⟩ := hty
      subst h4
      refine ⟨rfl, ?_⟩
      intro c
      rw [plainVec_does bld env self b.max _ (listOf (bparse bld t'))
        (fun k => many_does env self (.decl (nm.rust n)) _ (by simp) (hr n d (by simp [TDesc.refs]) t' h3) k) c, bparse]; rfl
    | _ => simp [memberCode, elemBitMorph] at hm
  | dynArray b e =>
    cases e with
    | named n d =>
      simp only [memberCode, elemBitMorph, Option.bind_eq_bind, Option.bind_eq_some_iff] at hm
      obtain ⟨mo, h1, h2⟩ := hm
      have := named_of h1
      subst this
      simp only [Option.some.injEq] at h2
      subst h2
      simp only [TDesc.erase, genMember, Option.map_eq_some_iff] at hty
      obtain ⟨t', h3, h4⟩ := hty
      subst h4
      refine ⟨rfl, ?_⟩
      intro c
      rw [plainVec_does bld env self b.max _ (listOf (bparse bld t'))
        (fun k => many_does env self (.decl (nm.rust n)) _ (by simp) (hr n d (by simp [TDesc.refs]) t' h3) k) c, bparse]; rfl
    | _ => simp [memberCode, elemBitMorph] at hm
  | choice vs =>
    simp only [memberCode] at hm
    split at hm
    · rename_i hname
      simp only [Option.some.injEq] at hm
      subst hm
      simp only [TDesc.erase, genMember, if_pos hname] at hty
      refine ⟨rfl, plainOne_fn bld env self _ hf _ _ ?_⟩
      have := hr "m_eventData" (.choice vs) (by simp [TDesc.refs]) ty (by simpa [TDecl.erase, genDecl] using hty)
      rw [hev] at this
      exact this
    · cases hm
  | other k => simp [memberCode, bitMorph] at hm
  | optional t =>
    cases t with
    | named n d =>
      simp only [memberCode, enclosedBitMorph, Option.bind_eq_bind, Option.bind_eq_some_iff] at hm
      obtain ⟨mo, h1, h2⟩ := hm
      have := named_of h1
      subst this
      simp only [Bool.false_eq_true, if_false, readCall, Option.some.injEq] at h2
      subst h2
      simp only [TDesc.erase, genMember, genOptional, Option.map_eq_some_iff] at hty
      obtain ⟨t', h3, h4⟩ := hty
      subst h4
      exact ⟨rfl, optionalOne_fn bld env self _ hf _ _ (hr n d (by simp [TDesc.refs]) t' h3)⟩
    | bool =>
      simp [memberCode, enclosedBitMorph, bitMorph, readCall] at hm
      subst hm
      simp only [TDesc.erase, genMember, genOptional, Option.some.injEq] at hty
      subst hty
      exact ⟨rfl, optionalOne_fn bld env self _ hf _ _ (fun c => by rw [bparse]; rfl)⟩
    | null =>
      simp [memberCode, enclosedBitMorph, bitMorph, readCall] at hm
      subst hm
      simp only [TDesc.erase, genMember, genOptional, Option.some.injEq] at hty
      subst hty
      exact ⟨rfl, optionalOne_fn bld env self _ hf _ _ (fun c => by rw [bparse]; rfl)⟩
    | fourcc =>
      simp [memberCode, enclosedBitMorph, bitMorph, readCall] at hm
      subst hm
      simp only [TDesc.erase, genMember, genOptional, Option.some.injEq] at hty
      subst hty
      exact ⟨rfl, optionalOne_fn bld env self _ hf _ _ (fun c => by rw [bparse]; rfl)⟩
    | int b =>
      simp [memberCode, enclosedBitMorph, bitMorph, readCall] at hm
      subst hm
      simp only [TDesc.erase, genMember, genOptional, Option.some.injEq] at hty
      subst hty
      exact ⟨rfl, optionalOne_int bld env self _ hf _ _⟩
    | blob b =>
      simp [memberCode, enclosedBitMorph, bitMorph, TDesc.maxBound] at hm
      subst hm
      simp only [TDesc.erase, genMember, genOptional, Option.some.injEq] at hty
      subst hty
      exact ⟨rfl, optionalVec_does bld env self nm _ hf b.max _ _ bytesOf (many_bytes env self) (fun c => by rw [bparse]; rfl)⟩
    | string b =>
      simp [memberCode, enclosedBitMorph, bitMorph, TDesc.maxBound] at hm
      subst hm
      simp only [TDesc.erase, genMember, genOptional, Option.some.injEq] at hty
      subst hty
      exact ⟨rfl, optionalVec_does bld env self nm _ hf b.max _ _ bytesOf (many_bytes env self) (fun c => by rw [bparse]; rfl)⟩
    | ascii b =>
      simp [memberCode, enclosedBitMorph, bitMorph, TDesc.maxBound] at hm
      subst hm
      simp only [TDesc.erase, genMember, genOptional, Option.some.injEq] at hty
      subst hty
      exact ⟨rfl, optionalVec_does bld env self nm _ hf b.max _ _ bytesOf (many_bytes env self) (fun c => by rw [bparse]; rfl)⟩
    | array b e =>
      cases e with
      | named n d =>
        simp only [memberCode, enclosedBitMorph, elemBitMorph, Option.bind_eq_bind, Option.bind_eq_some_iff, Option.map_eq_some_iff] at hm
        obtain ⟨mo, ⟨m1, h1, h1'⟩, h2⟩ := hm
        have := named_of h1
        subst this
        subst h1'
        simp only [if_true, TDesc.maxBound, Option.bind_some, Option.some.injEq] at h2
        subst h2
        simp only [TDesc.erase, genMember, genOptional, Option.map_eq_some_iff] at hty
        obtain ⟨t', h3, h4⟩ := hty
        subst h4
        exact ⟨rfl, optionalVec_does bld env self nm _ hf b.max _ _ (listOf (bparse bld t'))
          (fun k => many_does env self (.decl (nm.rust n)) _ (by simp) (hr n d (by simp [TDesc.refs]) t' h3) k) (fun c => by rw [bparse]; rfl)⟩
      | _ => simp [memberCode, enclosedBitMorph, elemBitMorph] at hm
    | _ => simp [TDesc.erase, genMember, genOptional] at hty

theorem member_name (nm : Naming) (name : String) (t : TDesc) (m : Member) (hm : memberCode nm name t = some m) : m.field = nm.snake name := by
  cases t <;> simp only [memberCode, Option.bind_eq_bind] at hm <;> (try split at hm) <;>
    simp only [Option.bind_eq_some_iff, reduceCtorEq, Option.some.injEq] at hm <;> (try (subst hm; rfl)) <;>
    (obtain ⟨i, _, hm⟩ := hm; first | (subst hm; rfl) | (split at hm <;> (try simp only [Option.bind_eq_some_iff, Option.some.injEq] at hm) <;> first | (subst hm; rfl) | (obtain ⟨_, _, hm⟩ := hm; subst hm; rfl)))

theorem filter_one : ∀ (all : List Member), (all.map Member.field).Nodup → ∀ m ∈ all, all.filter (fun m' => decide (m'.field = m.field)) = [m] := by
  intro all
  induction all with
  | nil => intro _ m hm; cases hm
  | cons a as ih =>
    intro hn m hm
    rw [List.map_cons, List.nodup_cons] at hn
    rcases List.mem_cons.1 hm with rfl | hm
    · rw [List.filter_cons_of_pos (by simp)]
      congr 1
      rw [List.filter_eq_nil_iff]
      intro x hx he
      exact hn.1 (by rw [← of_decide_eq_true he]; exact List.mem_map_of_mem hx)
    · rw [List.filter_cons_of_neg, ih hn.2 m hm]
      intro he
      exact hn.1 (by rw [of_decide_eq_true he]; exact List.mem_map_of_mem hm)

theorem members_names (nm : Naming) : ∀ (fs : TMembers) (ms : List Member) (bfs : BFields), membersCode nm fs = some ms → genMembers fs.erase = some bfs →
    ms.map Member.field = fs.names.map nm.snake := by
  intro fs
  induction fs using TMembers.rec (motive_1 := fun _ => True) (motive_2 := fun _ => True) (motive_4 := fun _ => True) (motive_5 := fun _ => True) with
  | nil =>
    intro ms bfs hm hb
    simp only [membersCode, Option.some.injEq] at hm
    subst hm; rfl
  | const rest ih => intro ms bfs hm hb; exact ih ms bfs hm hb
  | member name t rest _ ih =>
    intro ms bfs hm hb
    simp only [membersCode, Option.bind_eq_bind, Option.bind_eq_some_iff, Option.some.injEq] at hm
    obtain ⟨m, h1, ms', h2, rfl⟩ := hm
    simp only [TMembers.erase, genMembers] at hb
    split at hb
    · rename_i ty fs' h3 h4
      rw [List.map_cons, TMembers.names, List.map_cons, ih ms' fs' h2 h4, member_name nm name t m h1]
    · cases hb
  | _ => trivial

theorem members_fields (bld : Build) (nm : Naming) (hev : nm.rust "m_eventData" = lit "MEventData") (env : Txt → Prog) (all : List Member)
    (hall : (all.map Member.field).Nodup) : ∀ (fs : TMembers) (ms : List Member) (bfs : BFields),
    membersCode nm fs = some ms → genMembers fs.erase = some bfs → RefsDo bld nm env fs.refs → lit "tail" ∉ fs.names.map nm.snake →
    (∀ m ∈ ms, m ∈ all) → FieldsDo bld (selfOf bld env all) ms bfs := by
  intro fs
  induction fs using TMembers.rec (motive_1 := fun _ => True) (motive_2 := fun _ => True) (motive_4 := fun _ => True) (motive_5 := fun _ => True) with
  | nil =>
    intro ms bfs hm hb _ _ _
    simp only [membersCode, Option.some.injEq] at hm
    simp only [TMembers.erase, genMembers, Option.some.injEq] at hb
    subst hm; subst hb; trivial
  | const rest ih =>
    intro ms bfs hm hb hr ht ha
    exact ih ms bfs hm hb hr ht ha
  | member name t rest _ ih =>
    intro ms bfs hm hb hr ht ha
    simp only [membersCode, Option.bind_eq_bind, Option.bind_eq_some_iff, Option.some.injEq] at hm
    obtain ⟨m, h1, ms', h2, rfl⟩ := hm
    simp only [TMembers.erase, genMembers] at hb
    split at hb
    · rename_i ty fs' h3 h4
      simp only [Option.some.injEq] at hb
      subst hb
      simp only [TMembers.names, List.map_cons, List.mem_cons, not_or] at ht
      have hself : ∀ self, m.field = nm.snake name ∧ Does (m.body.run bld env self) (bparse bld ty) := fun self =>
        member_does bld nm hev env self name (fun e => ht.1 e.symm) t m h1 ty h3
          (fun n d h => hr n d (by simp only [TMembers.refs]; exact List.mem_append_left _ h))
      refine ⟨?_, ih ms' fs' h2 h4 (fun n d h => hr n d (by simp only [TMembers.refs]; exact List.mem_append_right _ h)) ht.2
        (fun m' h => ha m' (List.mem_cons_of_mem _ h))⟩
      rw [selfOf, filter_one all hall m (ha m List.mem_cons_self)]
      exact (hself _).2
    · cases hb
  | _ => trivial

theorem payload_does (bld : Build) (nm : Naming) (env self : Txt → Prog) (tag : Int) (name : String) (t : TDesc) (x : Txt × Arm)
    (hm : variantCode nm tag name t = some x) (ty : BTy) (hty : genPayload t.erase = some ty) (hr : RefsDo bld nm env t.refs) :
    x.2.tag = tag ∧ Does (x.2.body.run env self) (bparse bld ty) := by
  have plain : (∀ u, t ≠ .optional u) → x.2.tag = tag ∧ Does (x.2.body.run env self) (bparse bld ty) := by
    intro ho
    have e : variantCode nm tag name t = (bitMorph nm t).bind (fun m => some (m.rustTy, ⟨tag, nm.rust name, .plain m.parser⟩)) := by
      cases t <;> first | rfl | exact absurd rfl (ho _)
    rw [e, Option.bind_eq_some_iff] at hm
    obtain ⟨m, h1, h2⟩ := hm
    rw [Option.some.injEq] at h2
    subst h2
    refine ⟨rfl, callee_does bld nm env self t m h1 ty hty ho ?_⟩
    intro n d e
    subst e
    exact hr n d (by simp [TDesc.refs]) ty (by simpa [TDesc.erase, genPayload] using hty)
  cases t with
  | optional u =>
    cases u with
    | named n d =>
      simp only [variantCode, Option.some.injEq] at hm
      subst hm
      simp only [TDesc.erase, genPayload, Option.map_eq_some_iff] at hty
      obtain ⟨t', h3, h4⟩ := hty
      subst h4
      exact ⟨rfl, optionalArm_does bld env self (.decl (nm.rust n)) t' (hr n d (by simp [TDesc.refs]) t' h3)⟩
    | _ => simp [TDesc.erase, genPayload] at hty
  | _ => exact plain (fun u => by simp)

theorem variants_do (bld : Build) (nm : Naming) (env self : Txt → Prog) : ∀ (vs : TVariants) (x : Txt × List Arm) (alts : BAlts),
    variantsCode nm vs = some x → genVariants vs.erase = some alts → RefsDo bld nm env vs.refs → ArmsDo bld env self x.2 alts
  | .nil, x, alts, hm, hb, _ => by
    simp only [variantsCode, Option.some.injEq] at hm
    simp only [TVariants.erase, genVariants, Option.some.injEq] at hb
    subst hm; subst hb; trivial
  | .cons tag name t rest, x, alts, hm, hb, hr => by
    simp only [variantsCode, Option.bind_eq_bind, Option.bind_eq_some_iff] at hm
    obtain ⟨⟨ty, arm⟩, h1, ⟨tys, arms⟩, h2, h5⟩ := hm
    simp only [Option.some.injEq] at h5
    subst h5
    simp only [TVariants.erase, genVariants] at hb
    split at hb
    · rename_i t' as' h3 h4
      simp only [Option.some.injEq] at hb
      subst hb
      have P := payload_does bld nm env self tag name t _ h1 t' h3
          (fun n d h => hr n d (by simp only [TVariants.refs]; exact List.mem_append_left _ h))
      exact ⟨P.1, P.2, variants_do bld nm env self rest _ as' h2 h4 (fun n d h => hr n d (by simp only [TVariants.refs]; exact List.mem_append_right _ h))⟩
    · cases hb

theorem values_do (bld : Build) (nm : Naming) (env self : Txt → Prog) : ∀ (vs : TValues) (alts : BAlts),
    genValues vs.erase = some alts → RefsDo bld nm env vs.refs → ArmsDo bld env self (valuesCode nm vs).2 alts
  | .nil, alts, hb, _ => by
    simp only [TValues.erase, genValues, Option.some.injEq] at hb
    subst hb; trivial
  | .plain value name rest, alts, hb, hr => by
    simp only [TValues.erase, genValues, Option.map_eq_some_iff] at hb
    obtain ⟨as', h4, rfl⟩ := hb
    exact ⟨rfl, fun c => by rw [bparse]; rfl, values_do bld nm env self rest as' h4 hr⟩
  | .event value name str d rest, alts, hb, hr => by
    simp only [TValues.erase, genValues] at hb
    split at hb
    · rename_i t' as' h3 h4
      simp only [Option.some.injEq] at hb
      subst hb
      exact ⟨rfl, hr str d (by simp [TValues.refs]) t' h3,
        values_do bld nm env self rest as' h4 (fun n d h => hr n d (by simp only [TValues.refs]; exact List.mem_cons_of_mem _ (List.mem_append_right _ h)))⟩
    · cases hb

theorem variants_count : ∀ vs : TVariants, vs.erase.count = vs.count
  | .nil => rfl
  | .cons _ _ _ rest => by simp only [TVariants.erase, Variants.count, TVariants.count, variants_count rest]

theorem values_count : ∀ vs : TValues, vs.erase.count = vs.count
  | .nil => rfl
  | .plain _ _ rest => by simp only [TValues.erase, Values.count, TValues.count, values_count rest]
  | .event _ _ _ _ rest => by simp only [TValues.erase, Values.count, TValues.count, values_count rest]

/-- One declaration, when those it refers to do what they should. -/
theorem decl_does (bld : Build) (nm : Naming) (hev : nm.rust "m_eventData" = lit "MEventData") (env : Txt → Prog) (d : TDecl)
    (hf : ∀ fs, d = .struct fs → (fs.names.map nm.snake).Nodup ∧ lit "tail" ∉ fs.names.map nm.snake ∧ lit "new_tail" ∉ fs.names.map nm.snake)
    (k : Code) (hk : declCode nm d = some k) (ty : BTy) (hty : genDecl d.erase = some ty) (hr : RefsDo bld nm env d.refs) :
    Does (k.run bld env) (bparse bld ty) := by
  unfold Code.run
  cases d with
  | struct fs =>
    simp only [declCode, Option.bind_eq_bind, Option.bind_eq_some_iff, Option.some.injEq] at hk
    obtain ⟨ms, h1, rfl⟩ := hk
    simp only [TDecl.erase, genDecl, Option.map_eq_some_iff] at hty
    obtain ⟨bfs, h2, rfl⟩ := hty
    obtain ⟨n1, n2, n3⟩ := hf fs rfl
    have e := members_names nm fs ms bfs h1 h2
    rw [← e] at n1 n2 n3
    exact structFn_does bld env _ ms bfs n1 n2 n3
      (members_fields bld nm hev env ms n1 fs ms bfs h1 h2 hr (by rw [← e]; exact n2) (fun _ h => h))
  | choice vs =>
    simp only [declCode, Option.bind_eq_bind, Option.bind_eq_some_iff] at hk
    obtain ⟨⟨t, arms⟩, h1, h2⟩ := hk
    simp only [Option.some.injEq] at h2
    subst h2
    simp only [TDecl.erase, genDecl, Option.map_eq_some_iff] at hty
    obtain ⟨alts, h3, rfl⟩ := hty
    rw [variants_count]
    exact choiceFn_does bld env _ nm _ arms alts (variants_do bld nm env _ vs _ alts h1 h3 hr)
  | «enum» vs =>
    simp only [declCode, Option.some.injEq] at hk
    subst hk
    simp only [TDecl.erase, genDecl, Option.map_eq_some_iff] at hty
    obtain ⟨alts, h3, rfl⟩ := hty
    rw [values_count]
    exact enumFn_does bld env _ nm _ _ alts (values_do bld nm env _ vs alts h3 hr)
  | int b =>
    simp only [declCode, Option.some.injEq] at hk
    subst hk
    simp only [TDecl.erase, genDecl, Option.some.injEq] at hty
    subst hty
    exact intFn_does bld env _ b
  | bitArray b =>
    simp only [TDecl.erase, genDecl] at hty
    split at hty
    · rename_i h0
      simp only [declCode, if_pos h0, Option.some.injEq] at hk hty
      subst hk; subst hty
      exact bitArrayFn_does bld env _ b
    · cases hty
  | user n d =>
    simp only [declCode, Option.some.injEq] at hk
    subst hk
    exact userFn_does bld env _ _ _ (hr n d (by simp [TDecl.refs]) ty hty)
  | blob b =>
    simp only [TDecl.erase, genDecl] at hty
    split at hty
    · rename_i h0
      simp only [declCode, if_pos h0.1, Option.some.injEq] at hk hty
      subst hk; subst hty
      exact blobFn_does bld env _ b h0.2
    · cases hty
  | string b =>
    simp only [TDecl.erase, genDecl] at hty
    split at hty
    · rename_i h0
      simp only [declCode, if_pos h0, Option.some.injEq] at hk hty
      subst hk; subst hty
      exact stringFn_does bld env _ b
    · cases hty
  | array b e =>
    cases e with
    | named n d =>
      simp only [declCode, Option.some.injEq] at hk
      subst hk
      simp only [TDecl.erase, TDesc.erase, genDecl, Option.map_eq_some_iff] at hty
      obtain ⟨t', h3, rfl⟩ := hty
      exact arrayFn_does bld env _ b _ t' (hr n d (by simp [TDecl.refs, TDesc.refs]) t' h3)
    | _ => simp [declCode] at hk

mutual
theorem TDesc.refs_le : ∀ (t : TDesc) (r : String × TDecl), r ∈ t.refs → sizeOf r.2 ≤ sizeOf t
  | .named n d, r, h => by
    simp only [TDesc.refs, List.mem_cons] at h
    rcases h with rfl | h
    · simp
    · have := TDecl.refs_lt d r h; simp; omega
  | .array _ e, r, h => by simp only [TDesc.refs] at h; have := TDesc.refs_le e r h; simp; omega
  | .dynArray _ e, r, h => by simp only [TDesc.refs] at h; have := TDesc.refs_le e r h; simp; omega
  | .optional t, r, h => by simp only [TDesc.refs] at h; have := TDesc.refs_le t r h; simp; omega
  | .choice vs, r, h => by
    simp only [TDesc.refs, List.mem_cons] at h
    rcases h with rfl | h
    · simp
    · have := TVariants.refs_lt vs r h; simp; omega
  | .bool, r, h => by simp [TDesc.refs] at h
  | .null, r, h => by simp [TDesc.refs] at h
  | .fourcc, r, h => by simp [TDesc.refs] at h
  | .int _, r, h => by simp [TDesc.refs] at h
  | .blob _, r, h => by simp [TDesc.refs] at h
  | .string _, r, h => by simp [TDesc.refs] at h
  | .ascii _, r, h => by simp [TDesc.refs] at h
  | .bitArray _, r, h => by simp [TDesc.refs] at h
  | .other _, r, h => by simp [TDesc.refs] at h
theorem TDecl.refs_lt : ∀ (d : TDecl) (r : String × TDecl), r ∈ d.refs → sizeOf r.2 < sizeOf d
  | .struct fs, r, h => by simp only [TDecl.refs] at h; have := TMembers.refs_lt fs r h; simp; omega
  | .choice vs, r, h => by simp only [TDecl.refs] at h; have := TVariants.refs_lt vs r h; simp; omega
  | .enum vs, r, h => by simp only [TDecl.refs] at h; have := TValues.refs_lt vs r h; simp; omega
  | .user n d, r, h => by
    simp only [TDecl.refs, List.mem_cons] at h
    rcases h with rfl | h
    · simp; omega
    · have := TDecl.refs_lt d r h; simp; omega
  | .array _ e, r, h => by simp only [TDecl.refs] at h; have := TDesc.refs_le e r h; simp; omega
  | .int _, r, h => by simp [TDecl.refs] at h
  | .bitArray _, r, h => by simp [TDecl.refs] at h
  | .blob _, r, h => by simp [TDecl.refs] at h
  | .string _, r, h => by simp [TDecl.refs] at h
theorem TMembers.refs_lt : ∀ (fs : TMembers) (r : String × TDecl), r ∈ fs.refs → sizeOf r.2 < sizeOf fs
  | .nil, r, h => by simp [TMembers.refs] at h
  | .const rest, r, h => by simp only [TMembers.refs] at h; have := TMembers.refs_lt rest r h; simp; omega
  | .member _ t rest, r, h => by
    simp only [TMembers.refs, List.mem_append] at h
    rcases h with h | h
    · have := TDesc.refs_le t r h; simp; omega
    · have := TMembers.refs_lt rest r h; simp; omega
theorem TVariants.refs_lt : ∀ (vs : TVariants) (r : String × TDecl), r ∈ vs.refs → sizeOf r.2 < sizeOf vs
  | .nil, r, h => by simp [TVariants.refs] at h
  | .cons _ _ t rest, r, h => by
    simp only [TVariants.refs, List.mem_append] at h
    rcases h with h | h
    · have := TDesc.refs_le t r h; simp; omega
    · have := TVariants.refs_lt rest r h; simp; omega
theorem TValues.refs_lt : ∀ (vs : TValues) (r : String × TDecl), r ∈ vs.refs → sizeOf r.2 < sizeOf vs
  | .nil, r, h => by simp [TValues.refs] at h
  | .plain _ _ rest, r, h => by simp only [TValues.refs] at h; have := TValues.refs_lt rest r h; simp; omega
  | .event _ _ s d rest, r, h => by
    simp only [TValues.refs, List.mem_cons, List.mem_append] at h
    rcases h with rfl | h | h
    · simp; omega
    · have := TDecl.refs_lt d r h; simp; omega
    · have := TValues.refs_lt rest r h; simp; omega
end

theorem module_does (bld : Build) {nm : Naming} (M : BitModule nm) (env : Txt → Prog) (hC : M.Compiled bld env) : ∀ (s : Nat) (n : String) (d : TDecl),
    sizeOf d < s → (n, d) ∈ M.decls → ∀ ty, genDecl d.erase = some ty → Does (env (nm.rust n)) (bparse bld ty) := by
  intro s
  induction s with
  | zero => intro n d h; omega
  | succ s ih =>
    intro n d hs hd ty hty
    obtain ⟨k, hk⟩ := M.written _ hd
    rw [hC n d k hd hk]
    refine decl_does bld nm M.eventData env d (fun fs e => M.fields n fs (e ▸ hd)) k hk ty hty ?_
    intro n' d' hr
    exact ih n' d' (by have := TDecl.refs_lt d _ hr; simp only at this; omega) (M.closed _ hd _ hr)

/-- **C176, partial.** In every module of written bit-packed code, compiled (each function runs the code that is written for its declaration and calls the others
by name), the function of a good declaration reads every described value without empty strings back from its described wire
form, wherever that starts and whatever follows it, and stops exactly at its end.  Missing: the other declarations and empty strings, see the refutations. -/
theorem C176_written_partial (bld : Build) {nm : Naming} (M : BitModule nm) (env : Txt → Prog) (hC : M.Compiled bld env) (n : String) (d : TDecl)
    (hd : (n, d) ∈ M.decls) (hg : d.erase.Good) :
    ∀ v, d.erase.Has false v → ∀ (c : Cur), c.WF → ∀ rest, c.bits = d.erase.wire c.off v ++ rest →
      env (nm.rust n) c = some (.ok (c.advance (d.erase.wire c.off v).length, v)) := by
  intro v hv c hc rest hr
  obtain ⟨ty, h1, h2⟩ := C142_generated_partial bld d.erase hg
  rw [module_does bld M env hC (sizeOf d + 1) n d (by omega) hd ty h1 c, h2 v hv c hc rest hr]

/-- **C176, on any input.** The function of a declaration whose description has a parser does what that parser does, on every
input, also on input that is no described value: the same value, the same rest, the same error or panic. -/
theorem C176_same (bld : Build) {nm : Naming} (M : BitModule nm) (env : Txt → Prog) (hC : M.Compiled bld env) (n : String) (d : TDecl)
    (hd : (n, d) ∈ M.decls) (ty : BTy) (hty : genDecl d.erase = some ty) (c : Cur) : env (nm.rust n) c = some (bparse bld ty c) :=
  module_does bld M env hC (sizeOf d + 1) n d (by omega) hd ty hty c

/-- **C176, such functions exist.** A module of good declarations with different names has compiled functions. -/
theorem C176_exists (bld : Build) {nm : Naming} (M : BitModule nm) (hg : ∀ p ∈ M.decls, ∃ ty, genDecl p.2.erase = some ty)
    (hn : ∀ p ∈ M.decls, ∀ q ∈ M.decls, nm.rust p.1 = nm.rust q.1 → p = q) : ∃ env, M.Compiled bld env := by
  have key : ∀ x : Txt, ∃ p : Prog, ∀ n d, (n, d) ∈ M.decls → nm.rust n = x → ∀ ty, genDecl d.erase = some ty → Does p (bparse bld ty) := by
    intro x
    by_cases h : ∃ n d, (n, d) ∈ M.decls ∧ nm.rust n = x
    · obtain ⟨n, d, h1, h2⟩ := h
      obtain ⟨ty, hty⟩ := hg _ h1
      refine ⟨fun c => some (bparse bld ty c), fun n' d' h1' h2' ty' hty' => ?_⟩
      have := hn _ h1 _ h1' (h2.trans h2'.symm)
      rw [Prod.mk.injEq] at this
      obtain ⟨_, rfl⟩ := this
      rw [hty, Option.some.injEq] at hty'
      subst hty'
      exact fun c => rfl
    · exact ⟨fun _ => none, fun n d h1 h2 => absurd ⟨n, d, h1, h2⟩ h⟩
  refine ⟨fun x => (key x).choose, fun n d k hd hk => funext fun c => ?_⟩
  have E : ∀ n d, (n, d) ∈ M.decls → ∀ ty, genDecl d.erase = some ty → Does ((key (nm.rust n)).choose) (bparse bld ty) :=
    fun n d h ty hty => (key (nm.rust n)).choose_spec n d h rfl ty hty
  obtain ⟨ty, hty⟩ := hg _ hd
  refine (E n d hd ty hty c).trans ?_
  exact (decl_does bld nm M.eventData _ d (fun fs e => M.fields n fs (e ▸ hd)) k hk ty hty (fun n' d' hr => E n' d' (M.closed _ hd _ hr)) c).symm

/-! ## Examples -/

/-- Names with the punctuation removed. [sample data] -/
def bitNaming : Naming := { plainNaming with rust := fun n => if n = "m_eventData" then lit "MEventData" else plainNaming.rust n }

/-- [sample data] -/
def exLink : TDecl := .int ⟨0, true, 65536, false, some 16⟩
/-- [sample data] -/
def exAbil : TDecl := .struct (.member "m_abilLink" (.named "NNet.uint16" exLink) (.member "m_fast" .bool .nil))
/-- [sample data] -/
def exCmd : TDecl := .struct (.const (.member "m_cmdFlags" (.int ⟨0, true, 26, false, none⟩)
  (.member "m_abil" (.optional (.named "NNet.Game.SCmdAbil" exAbil))
  (.member "m_units" (.array ⟨0, true, 500, true, none⟩ (.named "NNet.uint16" exLink)) .nil))))

/-- [sample data] -/
def exModule : BitModule bitNaming where
  decls := [("NNet.uint16", exLink), ("NNet.Game.SCmdAbil", exAbil), ("NNet.Game.SCmdEvent", exCmd)]
  written := by
    intro p hp
    simp only [List.mem_cons, List.not_mem_nil, or_false] at hp
    rcases hp with rfl | rfl | rfl <;> exact Option.isSome_iff_exists.1 (by decide +kernel)
  closed := by
    intro p hp r hr
    simp only [List.mem_cons, List.not_mem_nil, or_false] at hp
    rcases hp with rfl | rfl | rfl <;> simp [exLink, exAbil, exCmd, TDecl.refs, TMembers.refs, TDesc.refs] at hr ⊢
    · subst hr; simp
    · rcases hr with rfl | rfl <;> simp
  fields := by
    intro n fs h
    simp only [List.mem_cons, Prod.mk.injEq, List.not_mem_nil, or_false] at h
    rcases h with ⟨_, h⟩ | ⟨_, h⟩ | ⟨_, h⟩
    · cases h
    · cases h; decide +kernel
    · cases h; decide +kernel
  eventData := rfl

theorem exModule_names : ∀ p ∈ exModule.decls, ∀ q ∈ exModule.decls, bitNaming.rust p.1 = bitNaming.rust q.1 → p = q := by
  intro p hp q hq h
  simp only [exModule, List.mem_cons, List.not_mem_nil, or_false] at hp hq
  rcases hp with rfl | rfl | rfl <;> rcases hq with rfl | rfl | rfl <;> first | rfl | exact absurd h (by decide +kernel)

/-- The declarations of the module are good. -/
theorem exModule_good : ∀ p ∈ exModule.decls, p.2.erase.Good := by
  intro p hp
  simp only [exModule, List.mem_cons, List.not_mem_nil, or_false] at hp
  have L : exLink.erase.Good := ⟨by decide, .inl ⟨by decide, by decide, .inr ⟨16, by decide, rfl, by decide, rfl⟩⟩⟩
  have A : exAbil.erase.Good := ⟨L, trivial, trivial⟩
  rcases hp with rfl | rfl | rfl
  · exact L
  · exact A
  · exact ⟨⟨by decide, by decide, by decide, by decide⟩, A, ⟨⟨rfl, rfl, by decide, by decide⟩, .inl (by simp), L⟩, trivial⟩

/-- The hypotheses of `C176_written_partial` are met: the module has compiled functions in either build. -/
example (bld : Build) : ∃ env, exModule.Compiled bld env :=
  C176_exists bld exModule (fun p hp => by
    obtain ⟨ty, h, _⟩ := decl_right bld _ (exModule_good p hp)
    exact ⟨ty, h⟩) exModule_names

/-- A value of the command: flags 5, ability 200, two units. [sample data] -/
def exCmdValue : Val := .struct [.int 5, .some (.struct [.int 200, .bool true]), .list [.int 7, .int 9]]

example : exCmd.erase.Has false exCmdValue := by
  simp only [exCmd, exCmdValue, exAbil, exLink, TDecl.erase, TMembers.erase, TDesc.erase, Decl.Has, Members.Has]
  refine ⟨_, rfl, _, _, rfl, ⟨5, rfl, by decide, by decide⟩, _, _, rfl, .inr ⟨_, rfl, ⟨_, rfl, _, _, rfl, ⟨200, rfl, by decide, by decide⟩,
    _, _, rfl, ⟨true, rfl⟩, rfl⟩⟩, _, _, rfl, ?_, rfl⟩
  rw [Desc.Has]
  refine ⟨_, rfl, by decide, by decide, ?_⟩
  intro w hw
  simp at hw
  rcases hw with rfl | rfl <;> exact ⟨_, rfl, by decide, by decide⟩

/-- The module of one struct with one member. [sample data] -/
def loneModule (t : TDesc) (h1 : (memberCode bitNaming "m_x" t).isSome = true) (h2 : t.refs = []) : BitModule bitNaming where
  decls := [("NNet.Game.SX", .struct (.member "m_x" t .nil))]
  written := by
    intro p hp
    simp only [List.mem_cons, List.not_mem_nil, or_false] at hp
    subst hp
    obtain ⟨m, hm⟩ := Option.isSome_iff_exists.1 h1
    simp [declCode, membersCode, hm]
  closed := by
    intro p hp r hr
    simp only [List.mem_cons, List.not_mem_nil, or_false] at hp
    subst hp
    simp [TDecl.refs, TMembers.refs, h2] at hr
  fields := by
    intro n fs h
    simp only [List.mem_cons, Prod.mk.injEq, List.not_mem_nil, or_false] at h
    cases h.2
    refine ⟨by simp [TMembers.names], ?_, ?_⟩
    · show lit "tail" ∉ [bitNaming.snake "m_x"]
      decide +kernel
    · show lit "new_tail" ∉ [bitNaming.snake "m_x"]
      decide +kernel
  eventData := rfl

/-- The compiled functions of the module misread a value of its struct. [specification] -/
def CodeMisreads (t : TDesc) : Prop :=
  ∃ h1 h2, (∃ env, (loneModule t h1 h2).Compiled .release env) ∧ ∀ env, (loneModule t h1 h2).Compiled .release env →
    ∃ (v : Val) (c : Cur) (rest : List Bool), (TDecl.struct (.member "m_x" t .nil)).erase.Has false v ∧ c.WF ∧
      c.bits = (TDecl.struct (.member "m_x" t .nil)).erase.wire c.off v ++ rest ∧
      ∀ c', env (bitNaming.rust "NNet.Game.SX") c ≠ some (.ok (c', v))

theorem codeMisreads_of (t : TDesc) (v : Val) (h1 : (memberCode bitNaming "m_x" t).isSome = true) (h2 : t.refs = [])
    (h : Misread (TDecl.struct (.member "m_x" t .nil)).erase v) : CodeMisreads t := by
  obtain ⟨hv, c, rest, ty, hc, hb, hg, hp⟩ := h
  refine ⟨h1, h2, ?_, ?_⟩
  · refine C176_exists .release _ ?_ ?_
    · intro p hp
      simp only [loneModule, List.mem_cons, List.not_mem_nil, or_false] at hp
      subst hp
      exact ⟨ty, hg⟩
    · intro p hp q hq _
      simp only [loneModule, List.mem_cons, List.not_mem_nil, or_false] at hp hq
      rw [hp, hq]
  · intro env hC
    refine ⟨v, c, rest, hv, hc, hb, fun c' e => ?_⟩
    rw [C176_same .release _ env hC "NNet.Game.SX" _ List.mem_cons_self ty hg c, Option.some.injEq] at e
    exact hp c' e

/-- **C176.** In general not.  (1) An optional integer is read from before its presence bit.  (2) A string inside a struct is
read without going to the next byte boundary.  (3) A signed integer inside a struct is read with one bit too few.  (4) The code
of a struct with a member called `tail` does not compile. -/
theorem C176_written_refuted :
    CodeMisreads (.optional (.int ⟨0, true, 255, true, none⟩)) ∧ CodeMisreads (.ascii ⟨0, true, 31, true, none⟩) ∧
    CodeMisreads (.int ⟨-128, true, 127, true, none⟩) ∧
    ∃ k, declCode bitNaming (.struct (.member "tail" .bool .nil)) = some k ∧ ∀ bld env c, k.run bld env c = none := by
  obtain ⟨m1, m2, _, m4, _⟩ := C142_generated_refuted
  refine ⟨codeMisreads_of _ _ (by decide +kernel) rfl m1, codeMisreads_of _ _ (by decide +kernel) rfl m2, codeMisreads_of _ _ (by decide +kernel) rfl m4,
    _, rfl, fun bld env c => ?_⟩
  have e : plainNaming.snake "tail" = lit "tail" := by decide +kernel
  exec [Code.run, structFn, bitNaming, e, andThen_none]

end S2.Generator
