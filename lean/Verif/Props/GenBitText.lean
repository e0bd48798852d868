import Verif.Props.GenBitLits
import Verif.Props.GenBitCode
/-! # The text of the generated bit-packed module (C175) -/
namespace S2.Generator
open S2

/-! ## Pieces -/

theorem callee_neutral : (f : Callee) → (∀ k, f = .quoted k → Neutral (lit k)) → (∀ n, f = .decl n → Neutral n) → (∀ n, f = .member n → Neutral n) → Neutral f.text
  | .parseBool, _, _, _, s => by rw [Callee.text]; read_bits []
  | .takeNull, _, _, _, s => by rw [Callee.text]; read_bits []
  | .takeFourcc, _, _, _, s => by rw [Callee.text]; read_bits []
  | .takeUnalignedByte, _, _, _, s => by rw [Callee.text]; read_bits []
  | .hole, _, _, _, s => by rw [Callee.text]; read_bits []
  | .packedHole, _, _, _, s => by rw [Callee.text]; read_bits []
  | .quoted k, h, _, _, s => by rw [Callee.text]; have := h k rfl; read_bits [this _]
  | .decl n, _, h, _, s => by rw [Callee.text]; have := h n rfl; read_bits [this _]
  | .member n, _, _, h, s => by rw [Callee.text]; have := h n rfl; read_bits [this _]

theorem decl_neutral (n : Txt) (h : Neutral n) : Neutral (Callee.decl n).text :=
  callee_neutral _ (fun _ e => nomatch e) (fun _ e => by cases e; exact h) (fun _ e => nomatch e)

theorem arg_neutral (nm : Naming) (hn : nm.Plain) : (a : Arg) → (∀ x, a = .var x ∨ a = .cast x ∨ a = .castBits x → Neutral x) → Neutral (a.text nm)
  | .var x, h, s => by rw [Arg.text]; exact h x (.inl rfl) s
  | .int i, _, s => by rw [Arg.text]; exact neutral_of_plain _ (hn.2.2 i) s
  | .usize n, _, s => by rw [Arg.text]; have := neutral_of_plain _ (hn.2.2 n); read_bits [this _]
  | .cast x, h, s => by rw [Arg.text]; have := h x (.inr (.inl rfl)); read_bits [this _]
  | .castBits x, h, s => by rw [Arg.text]; have := h x (.inr (.inr rfl)); read_bits [this _]

theorem var_neutral (nm : Naming) (x : Txt) (h : Neutral x) : Neutral (Arg.text nm (.var x)) := by intro s; rw [Arg.text]; exact h s
theorem int_neutral (nm : Naming) (hn : nm.Plain) (i : Int) : Neutral (Arg.text nm (.int i)) := by intro s; rw [Arg.text]; exact neutral_of_plain _ (hn.2.2 i) s
theorem usize_neutral (nm : Naming) (hn : nm.Plain) (n : Nat) : Neutral (Arg.text nm (.usize n)) := by
  intro s; rw [Arg.text]; have := neutral_of_plain _ (hn.2.2 n); read_bits [this _]
theorem cast_neutral (nm : Naming) (x : Txt) (h : Neutral x) : Neutral (Arg.text nm (.cast x)) := by intro s; rw [Arg.text]; read_bits [h _]
theorem castBits_neutral (nm : Naming) (x : Txt) (h : Neutral x) : Neutral (Arg.text nm (.castBits x)) := by intro s; rw [Arg.text]; read_bits [h _]

theorem fn_neutral (nm : Naming) (f : Callee) (a : Txt) (hf : Neutral f.text) (ha : Neutral a) : Neutral (Call.text nm (.fn f a)) := by
  intro s; rw [Call.text]; read_bits [hf _, ha _]
theorem packed_neutral (nm : Naming) (a : Txt) (o b : Arg) (ha : Neutral a) (ho : Neutral (o.text nm)) (hb : Neutral (b.text nm)) :
    Neutral (Call.text nm (.packed a o b)) := by
  intro s; rw [Call.text]; read_bits [ha _, ho _, hb _]
theorem takeN_neutral (nm : Naming) (a : Txt) (b : Arg) (ha : Neutral a) (hb : Neutral (b.text nm)) : Neutral (Call.text nm (.takeN a b)) := by
  intro s; rw [Call.text]; read_bits [ha _, hb _]
theorem bitArray_neutral (nm : Naming) (a : Txt) (b : Arg) (ha : Neutral a) (hb : Neutral (b.text nm)) : Neutral (Call.text nm (.bitArray a b)) := by
  intro s; rw [Call.text]; read_bits [ha _, hb _]
theorem align_neutral (nm : Naming) (a : Txt) (ha : Neutral a) : Neutral (Call.text nm (.align a)) := by
  intro s; rw [Call.text]; read_bits [ha _]
theorem count_neutral (nm : Naming) (f : Callee) (n : Arg) (a : Txt) (hf : Neutral f.text) (hn : Neutral (n.text nm)) (ha : Neutral a) :
    Neutral (Call.text nm (.count f n a)) := by
  intro s; rw [Call.text]; read_bits [hf _, hn _, ha _]

theorem letNum_neutral (nm : Naming) (hn : nm.Plain) (x ty : Txt) (v : Int) (hx : Neutral x) (ht : Neutral ty) : Neutral (Stmt.text nm (.letNum x ty v)) := by
  intro s; rw [Stmt.text]; have := neutral_of_plain _ (hn.2.2 v); read_bits [hx _, ht _, this _]
theorem letOffset_neutral (nm : Naming) : Neutral (Stmt.text nm .letOffset) := by intro s; rw [Stmt.text]; read_bits []
theorem letCast_neutral (nm : Naming) (x : Txt) (hx : Neutral x) : Neutral (Stmt.text nm (.letCast x)) := by intro s; rw [Stmt.text]; read_bits [hx _]
theorem letPair_neutral (nm : Naming) (mt : Bool) (t x : Txt) (c : Call) (ht : Neutral t) (hx : Neutral x) (hc : Neutral (c.text nm)) :
    Neutral (Stmt.text nm (.letPair mt t x c)) := by
  intro s; rw [Stmt.text]; read_bits [ht _, hx _, hc _]
theorem letProvided_neutral (nm : Naming) (a : Txt) (ha : Neutral a) : Neutral (Stmt.text nm (.letProvided a)) := by intro s; rw [Stmt.text]; read_bits [ha _]
theorem letTail_neutral (nm : Naming) (mt : Bool) : Neutral (Stmt.text nm (.letTail mt)) := by intro s; rw [Stmt.text]; read_bits []
theorem debug_neutral (nm : Naming) (t : Txt) (ht : Neutral t) : Neutral (Stmt.text nm (.debug t)) := by intro s; rw [Stmt.text]; read_bits [ht _]
theorem comment_neutral (nm : Naming) (t : Txt) (ht : Neutral t) : Neutral (Stmt.text nm (.comment t)) := by intro s; rw [Stmt.text]; read_bits [ht _]
theorem newVec_neutral (nm : Naming) : Neutral (Stmt.text nm .newVec) := by intro s; rw [Stmt.text]; read_bits []
theorem loop_neutral (nm : Naming) (f : Callee) (hf : Neutral f.text) : Neutral (Stmt.text nm (.loop f)) := by intro s; rw [Stmt.text]; read_bits [hf _]
theorem letAcc_neutral (nm : Naming) (f ty : Txt) (opt : Bool) (hf : Neutral f) (ht : Neutral ty) : Neutral (Stmt.text nm (.letAcc f ty opt)) := by
  intro s; rw [Stmt.text]; read_bits [hf _, ht _]
theorem fill_neutral (nm : Naming) (f : Txt) (opt : Bool) (hf : Neutral f) : Neutral (Stmt.text nm (.fill f opt)) := by
  intro s; rw [Stmt.text]; read_bits [hf _]

theorem stmts_nil (nm : Naming) : Neutral (stmtsText nm []) := fun _ => rfl
theorem stmts_cons (nm : Naming) (x : Stmt) (xs : List Stmt) (h : Neutral (x.text nm)) (hs : Neutral (stmtsText nm xs)) : Neutral (stmtsText nm (x :: xs)) := by
  have e : stmtsText nm (x :: xs) = x.text nm ++ stmtsText nm xs := by simp only [stmtsText, List.flatMap_cons]
  rw [e]
  exact append_neutral h hs
theorem stmts_map {α : Type} (nm : Naming) (g : α → Stmt) : (xs : List α) → (∀ x ∈ xs, Neutral ((g x).text nm)) → Neutral (stmtsText nm (xs.map g))
  | [], _ => stmts_nil nm
  | x :: xs, h => stmts_cons nm _ _ (h x List.mem_cons_self) (stmts_map nm g xs (fun y hy => h y (List.mem_cons_of_mem _ hy)))
theorem stmts_append (nm : Naming) (xs ys : List Stmt) (hx : Neutral (stmtsText nm xs)) (hy : Neutral (stmtsText nm ys)) : Neutral (stmtsText nm (xs ++ ys)) := by
  have e : stmtsText nm (xs ++ ys) = stmtsText nm xs ++ stmtsText nm ys := by simp only [stmtsText, List.flatMap_append]
  rw [e]
  exact append_neutral hx hy
theorem flat_neutral {α : Type} (g : α → Txt) : (xs : List α) → (∀ x ∈ xs, Neutral (g x)) → Neutral (xs.flatMap g)
  | [], _ => nil_neutral
  | x :: xs, h => by
    rw [List.flatMap_cons]
    exact append_neutral (h x List.mem_cons_self) (flat_neutral g xs (fun y hy => h y (List.mem_cons_of_mem _ hy)))

/-- The parser of an arm is closed. [proof device, no counterpart in /repo] -/
def ArmBody.Closed : ArmBody → Prop
  | .plain f => Neutral f.text
  | .optional f => Neutral f.text
  | .event f => Neutral f.text
  | .unit => True

theorem arm_neutral (nm : Naming) (hn : nm.Plain) (a : Arm) (hv : Neutral a.variant) (hb : a.body.Closed) : Neutral (a.text nm) := by
  intro s
  have ht := neutral_of_plain _ (hn.2.2 a.tag)
  unfold Arm.text
  cases h : a.body with
  | plain f => rw [h] at hb; have hf : Neutral f.text := hb; dsimp only; read_bits [hv _, ht _, hf _]
  | optional f => rw [h] at hb; have hf : Neutral f.text := hb; dsimp only; read_bits [hv _, ht _, hf _]
  | event f => rw [h] at hb; have hf : Neutral f.text := hb; dsimp only; read_bits [hv _, ht _, hf _]
  | unit => dsimp only; read_bits [hv _, ht _]

theorem retVar_neutral (nm : Naming) (x : Txt) (hx : Neutral x) : Neutral (Ret.text nm (.var x)) := by intro s; rw [Ret.text]; read_bits [hx _]
theorem retValue_neutral (nm : Naming) : Neutral (Ret.text nm .value) := by intro s; rw [Ret.text]; read_bits []
theorem retFrom_neutral (nm : Naming) : Neutral (Ret.text nm .valueFrom) := by intro s; rw [Ret.text]; read_bits []
theorem retStruct_neutral (nm : Naming) (fs : List Txt) (h : ∀ f ∈ fs, Neutral f) : Neutral (Ret.text nm (.struct fs)) := by
  intro s
  have hf : Neutral (fs.flatMap (fun f => f ++ lit ": ok_or_return_missing_field_err!(" ++ f ++ lit "),\n")) :=
    flat_neutral _ fs (fun f hf => by intro s; have := h f hf; read_bits [this _])
  rw [Ret.text]; read_bits [hf _]
theorem retOptional_neutral (nm : Naming) (f : Txt) (ss : List Stmt) (x : Txt) (hf : Neutral f) (hs : Neutral (stmtsText nm ss)) (hx : Neutral x) :
    Neutral (Ret.text nm (.optional f ss x)) := by
  intro s; rw [Ret.text]; read_bits [hf _, hs _, hx _]
theorem retMatch_neutral (nm : Naming) (arms : List Arm) (h : ∀ a ∈ arms, Neutral (a.text nm)) : Neutral (Ret.text nm (.matchTag arms)) := by
  intro s
  have := flat_neutral (Arm.text nm) arms h
  rw [Ret.text]; read_bits [this _]

theorem fnText_neutral (nm : Naming) (ss : List Stmt) (r : Ret) (hs : Neutral (stmtsText nm ss)) (hr : Neutral (r.text nm)) : Neutral (Fn.text nm ⟨ss, r⟩) := by
  rw [Fn.text]
  exact append_neutral hs hr

/-- [proof device, no counterpart in /repo] -/
macro "neut" : tactic => `(tactic| repeat first
  | with_reducible assumption | with_reducible exact stmts_nil _ | with_reducible exact letOffset_neutral _ | with_reducible exact newVec_neutral _
  | with_reducible exact letTail_neutral _ _ | with_reducible exact retValue_neutral _ | with_reducible exact retFrom_neutral _
  | with_reducible apply fnText_neutral | with_reducible apply stmts_cons
  | with_reducible apply letNum_neutral | with_reducible apply letCast_neutral | with_reducible apply letPair_neutral | with_reducible apply letProvided_neutral
  | with_reducible apply debug_neutral | with_reducible apply comment_neutral | with_reducible apply loop_neutral
  | with_reducible apply retVar_neutral | with_reducible apply retOptional_neutral
  | with_reducible apply fn_neutral | with_reducible apply packed_neutral | with_reducible apply takeN_neutral | with_reducible apply bitArray_neutral
  | with_reducible apply align_neutral | with_reducible apply count_neutral
  | with_reducible apply decl_neutral
  | with_reducible apply var_neutral | with_reducible apply int_neutral | with_reducible apply usize_neutral | with_reducible apply cast_neutral
  | with_reducible apply castBits_neutral
  | with_reducible apply append_neutral
  | exact neutral_of_balanced (by decide +kernel))

/-! ## Functions -/

theorem num_neutral {nm : Naming} (hn : nm.Plain) (i : Int) : Neutral (nm.num i) := neutral_of_plain _ (hn.2.2 i)
theorem rust_neutral {nm : Naming} (hn : nm.Plain) (n : String) : Neutral (nm.rust n) := neutral_of_plain _ (hn.1 n)
theorem snake_neutral {nm : Naming} (hn : nm.Plain) (n : String) : Neutral (nm.snake n) := neutral_of_plain _ (hn.2.1 n)

theorem optionalVec_neutral (nm : Naming) (hn : nm.Plain) (f : Txt) (max : Int) (p : Callee) (hf : Neutral f) (hp : Neutral p.text) :
    Neutral ((optionalVec f max p nm).text nm) := by
  have := num_neutral hn max
  unfold optionalVec
  neut

theorem optionalOne_neutral (nm : Naming) (f : Txt) (c : Call) (hf : Neutral f) (hc : Neutral (c.text nm)) : Neutral ((optionalOne f c).text nm) := by
  unfold optionalOne
  neut

theorem plainVec_neutral (nm : Naming) (hn : nm.Plain) (max : Int) (p : Callee) (hp : Neutral p.text) : Neutral ((plainVec max p).text nm) := by
  unfold plainVec
  neut

theorem plainOne_neutral (nm : Naming) (f : Txt) (c : Call) (hf : Neutral f) (hc : Neutral (c.text nm)) : Neutral ((plainOne f c).text nm) := by
  unfold plainOne
  neut

theorem choiceFn_neutral (nm : Naming) (hn : nm.Plain) (n : Nat) (arms : List Arm) (h : ∀ a ∈ arms, Neutral (a.text nm)) : Neutral ((choiceFn nm n arms).text nm) := by
  have := num_neutral hn n
  have hr := retMatch_neutral nm arms h
  unfold choiceFn
  neut

theorem enumFn_neutral (nm : Naming) (hn : nm.Plain) (n : Nat) (arms : List Arm) (h : ∀ a ∈ arms, Neutral (a.text nm)) : Neutral ((enumFn nm n arms).text nm) := by
  have := num_neutral hn n
  have hr := retMatch_neutral nm arms h
  unfold enumFn
  neut

theorem intFn_neutral (nm : Naming) (hn : nm.Plain) (b : Bounds) : Neutral ((intFn b).text nm) := by
  unfold intFn
  neut

theorem bitArrayFn_neutral (nm : Naming) (hn : nm.Plain) (b : Bounds) : Neutral ((bitArrayFn b).text nm) := by
  unfold bitArrayFn
  neut

theorem userFn_neutral (nm : Naming) (n : Txt) (h : Neutral n) : Neutral ((userFn n).text nm) := by
  unfold userFn
  neut

theorem blobFn_neutral (nm : Naming) (hn : nm.Plain) (b : Bounds) : Neutral ((blobFn b).text nm) := by
  unfold blobFn
  neut

theorem stringFn_neutral (nm : Naming) (hn : nm.Plain) (b : Bounds) : Neutral ((stringFn b).text nm) := by
  unfold stringFn
  neut

theorem arrayFn_neutral (nm : Naming) (hn : nm.Plain) (b : Bounds) (n : Txt) (h : Neutral n) : Neutral ((arrayFn b n).text nm) := by
  unfold arrayFn
  neut

theorem structFn_neutral (nm : Naming) (ms : List Member) (h : ∀ m ∈ ms, Neutral m.field ∧ Neutral m.ty) : Neutral ((structFn ms).text nm) := by
  unfold structFn
  refine fnText_neutral nm _ _ (stmts_cons nm _ _ (letTail_neutral nm _) (stmts_append nm _ _ ?_ ?_)) ?_
  · exact stmts_map nm _ ms (fun m hm => letAcc_neutral nm _ _ _ (h m hm).1 (h m hm).2)
  · exact stmts_map nm _ ms (fun m hm => fill_neutral nm _ _ (h m hm).1)
  · refine retStruct_neutral nm _ ?_
    intro f hf
    obtain ⟨m, hm, rfl⟩ := List.mem_map.1 hf
    exact (h m hm).1

/-! ## Members -/

theorem bitMorph_neutral (nm : Naming) (hn : nm.Plain) (t : TDesc) (m : BMorph) (h : bitMorph nm t = some m) : Neutral m.rustTy ∧ Neutral m.parser.text := by
  cases t with
  | named n d =>
    simp only [bitMorph] at h
    split at h
    · rw [Option.some.injEq] at h
      subst h
      exact ⟨rust_neutral hn n, decl_neutral _ (rust_neutral hn n)⟩
    · cases h
  | choice _ => cases h
  | other _ => cases h
  | _ =>
    simp only [bitMorph, Option.some.injEq] at h
    subst h
    exact ⟨neutral_of_balanced (by decide +kernel), neutral_of_balanced (by decide +kernel)⟩

theorem elemBit_neutral (nm : Naming) (hn : nm.Plain) (t : TDesc) (m : BMorph) (h : elemBitMorph nm t = some m) : Neutral m.rustTy ∧ Neutral m.parser.text := by
  cases t with
  | named n d => rw [elemBitMorph] at h; exact bitMorph_neutral nm hn _ m h
  | _ => cases h

theorem enclosedBit_neutral (nm : Naming) (hn : nm.Plain) (t : TDesc) (m : BMorph) (h : enclosedBitMorph nm t = some m) : Neutral m.rustTy ∧ Neutral m.parser.text := by
  cases t with
  | array b e =>
    rw [enclosedBitMorph, Option.map_eq_some_iff] at h
    obtain ⟨m', h1, rfl⟩ := h
    obtain ⟨k1, k2⟩ := elemBit_neutral nm hn e m' h1
    exact ⟨fun s => by dsimp only; read_bits [k1 _], k2⟩
  | bitArray _ => cases h
  | _ => simp only [enclosedBitMorph] at h; exact bitMorph_neutral nm hn _ m h

theorem readCall_neutral (nm : Naming) (hn : nm.Plain) (t : TDesc) (m : BMorph) (a : Txt) (hm : Neutral m.parser.text) (ha : Neutral a) :
    Neutral ((readCall t m a).text nm) := by
  have h : Neutral (Call.text nm (.fn m.parser a)) := fn_neutral nm _ _ hm ha
  cases t with
  | int b => unfold readCall; dsimp only; neut
  | _ => exact h

/-- A member is closed. [proof device, no counterpart in /repo] -/
def Member.Closed (nm : Naming) (m : Member) : Prop := Neutral m.field ∧ Neutral m.ty ∧ Neutral (m.body.text nm)

theorem lits_neutral : Neutral (lit "input") ∧ Neutral (lit "tail") ∧ Neutral (lit "MEventData") :=
  ⟨neutral_of_balanced (by decide +kernel), neutral_of_balanced (by decide +kernel), neutral_of_balanced (by decide +kernel)⟩

theorem memberCode_neutral (nm : Naming) (hn : nm.Plain) (name : String) (t : TDesc) (m : Member) (h : memberCode nm name t = some m) : m.Closed nm := by
  have hs := snake_neutral hn name
  obtain ⟨li, lt, le⟩ := lits_neutral
  have plain : ∀ t : TDesc, ((bitMorph nm t).bind (fun m => if m.isVec then t.maxBound.bind (fun max => some (Member.mk (nm.snake name) m.rustTy false (plainVec max m.parser)))
      else some ⟨nm.snake name, m.rustTy, false, plainOne (nm.snake name) (readCall t m (lit "input"))⟩)) = some m → m.Closed nm := by
    intro t h
    rw [Option.bind_eq_some_iff] at h
    obtain ⟨i, h1, h2⟩ := h
    obtain ⟨k1, k2⟩ := bitMorph_neutral nm hn t i h1
    split at h2
    · rw [Option.bind_eq_some_iff] at h2
      obtain ⟨mx, _, h2⟩ := h2
      rw [Option.some.injEq] at h2
      subst h2
      exact ⟨hs, k1, plainVec_neutral nm hn _ _ k2⟩
    · rw [Option.some.injEq] at h2
      subst h2
      exact ⟨hs, k1, plainOne_neutral nm _ _ hs (readCall_neutral nm hn t i _ k2 li)⟩
  have vec : ∀ (b : Bounds) (e : TDesc), ((elemBitMorph nm e).bind (fun i => some (Member.mk (nm.snake name) (replaceHole i.rustTy (lit "Vec<{}>")) false (plainVec b.max i.parser)))) = some m →
      m.Closed nm := by
    intro b e h
    rw [Option.bind_eq_some_iff] at h
    obtain ⟨i, h1, h2⟩ := h
    obtain ⟨k1, k2⟩ := elemBit_neutral nm hn e i h1
    rw [Option.some.injEq] at h2
    subst h2
    exact ⟨hs, (hole_neutral _ k1).2.1, plainVec_neutral nm hn _ _ k2⟩
  cases t with
  | choice vs =>
    simp only [memberCode] at h
    split at h
    · rw [Option.some.injEq] at h
      subst h
      exact ⟨hs, le, plainOne_neutral nm _ _ hs (fn_neutral nm _ _ (decl_neutral _ le) li)⟩
    · cases h
  | bitArray b => cases h
  | array b e => exact vec b e h
  | dynArray b e => exact vec b e h
  | optional t =>
    simp only [memberCode, Option.bind_eq_bind, Option.bind_eq_some_iff] at h
    obtain ⟨i, h1, h2⟩ := h
    obtain ⟨k1, k2⟩ := enclosedBit_neutral nm hn t i h1
    split at h2
    · rw [Option.bind_eq_some_iff] at h2
      obtain ⟨mx, _, h2⟩ := h2
      rw [Option.some.injEq] at h2
      subst h2
      exact ⟨hs, (hole_neutral _ k1).1, optionalVec_neutral nm hn _ _ _ hs k2⟩
    · rw [Option.some.injEq] at h2
      subst h2
      exact ⟨hs, (hole_neutral _ k1).1, optionalOne_neutral nm _ _ hs (readCall_neutral nm hn t i _ k2 lt)⟩
  | named n d => exact plain (.named n d) h
  | bool => exact plain (.bool) h
  | null => exact plain (.null) h
  | fourcc => exact plain (.fourcc) h
  | int b => exact plain (.int b) h
  | blob b => exact plain (.blob b) h
  | string b => exact plain (.string b) h
  | ascii b => exact plain (.ascii b) h
  | other k => exact plain (.other k) h

theorem membersCode_neutral (nm : Naming) (hn : nm.Plain) : (fs : TMembers) → ∀ ms, membersCode nm fs = some ms → ∀ m ∈ ms, m.Closed nm
  | .nil, ms, h => by rw [membersCode] at h; cases h; intro m hm; cases hm
  | .const rest, ms, h => by rw [membersCode] at h; exact membersCode_neutral nm hn rest ms h
  | .member name t rest, ms, h => by
    simp only [membersCode, Option.bind_eq_bind, Option.bind_eq_some_iff, Option.some.injEq] at h
    obtain ⟨m, h1, ms', h2, rfl⟩ := h
    intro m' hm'
    rcases List.mem_cons.1 hm' with rfl | hm'
    · exact memberCode_neutral nm hn name t _ h1
    · exact membersCode_neutral nm hn rest ms' h2 m' hm'

/-! ## Variants and values -/

theorem kindText_neutral (t : TDesc) (h : ∀ k, t = .other k → NoDelimiters (lit k)) : Neutral (lit t.kind) := by
  cases t with
  | other k => exact neutral_of_plain _ (h k rfl)
  | _ => rw [TDesc.kind]; exact neutral_of_balanced (by decide +kernel)

theorem variantCode_neutral (nm : Naming) (hn : nm.Plain) (tag : Int) (name : String) (t : TDesc) (x : Txt × Arm) (h : variantCode nm tag name t = some x)
    (hk : ∀ k, t = .optional (.other k) → NoDelimiters (lit k)) : Neutral x.1 ∧ Neutral (x.2.text nm) := by
  have hv := rust_neutral hn name
  have plain : (∀ u, t ≠ .optional u) → Neutral x.1 ∧ Neutral (x.2.text nm) := by
    intro ho
    have e : variantCode nm tag name t = (bitMorph nm t).bind (fun m => some (m.rustTy, ⟨tag, nm.rust name, .plain m.parser⟩)) := by
      cases t <;> first | rfl | exact absurd rfl (ho _)
    rw [e, Option.bind_eq_some_iff] at h
    obtain ⟨m, h1, h2⟩ := h
    rw [Option.some.injEq] at h2
    subst h2
    obtain ⟨k1, k2⟩ := bitMorph_neutral nm hn t m h1
    exact ⟨k1, arm_neutral nm hn _ hv k2⟩
  cases t with
  | optional u =>
    have quoted : (∀ n d, u ≠ .named n d) → Neutral x.1 ∧ Neutral (x.2.text nm) := by
      intro hu
      have e : variantCode nm tag name (.optional u) =
          some (replaceHole (lit "\"" ++ lit u.kind ++ lit "\"") (lit "Option<{}>"), ⟨tag, nm.rust name, .optional (.quoted u.kind)⟩) := by
        cases u <;> first | rfl | exact absurd rfl (hu _ _)
      rw [e, Option.some.injEq] at h
      subst h
      have hq := kindText_neutral u (fun k e => hk k (by rw [e]))
      refine ⟨(hole_neutral _ (fun s => by read_bits [hq _])).1, arm_neutral nm hn _ hv ?_⟩
      exact callee_neutral _ (fun k e => by cases e; exact hq) (fun _ e => nomatch e) (fun _ e => nomatch e)
    cases u with
    | named n d =>
      simp only [variantCode, Option.some.injEq] at h
      subst h
      exact ⟨(hole_neutral _ (rust_neutral hn n)).1, arm_neutral nm hn _ hv (decl_neutral _ (rust_neutral hn n))⟩
    | _ => exact quoted (fun _ _ => by simp)
  | _ => exact plain (fun u => by simp)

theorem variantsCode_neutral (nm : Naming) (hn : nm.Plain) : (vs : TVariants) → ∀ x, variantsCode nm vs = some x → (∀ k ∈ vs.otherKinds, NoDelimiters (lit k)) →
    Neutral x.1 ∧ ∀ a ∈ x.2, Neutral (a.text nm)
  | .nil, x, h, _ => by
    simp only [variantsCode, Option.some.injEq] at h
    subst h
    exact ⟨nil_neutral, fun a ha => nomatch ha⟩
  | .cons tag name t rest, x, h, hk => by
    simp only [variantsCode, Option.bind_eq_bind, Option.bind_eq_some_iff] at h
    obtain ⟨⟨ty, arm⟩, h1, ⟨tys, arms⟩, h2, h5⟩ := h
    simp only [Option.some.injEq] at h5
    subst h5
    have hr : ∀ k ∈ rest.otherKinds, NoDelimiters (lit k) := by
      intro k hk'
      refine hk k ?_
      unfold TVariants.otherKinds
      split
      · rename_i e; cases e
      · rename_i e; cases e; exact List.mem_cons_of_mem _ hk'
      · rename_i e; cases e; exact hk'
    have hk1 : ∀ k, t = .optional (.other k) → NoDelimiters (lit k) := by
      intro k e
      subst e
      exact hk k (by simp [TVariants.otherKinds])
    obtain ⟨k1, k2⟩ := variantCode_neutral nm hn tag name t _ h1 hk1
    obtain ⟨k3, k4⟩ := variantsCode_neutral nm hn rest _ h2 hr
    have hv := rust_neutral hn name
    refine ⟨fun s => ?_, ?_⟩
    · dsimp only at k1 k3 ⊢
      read_bits [k1 _, k3 _, hv _]
    · intro a ha
      rcases List.mem_cons.1 ha with rfl | ha
      · exact k2
      · exact k4 a ha

theorem valuesCode_neutral (nm : Naming) (hn : nm.Plain) : (vs : TValues) → Neutral (valuesCode nm vs).1 ∧ ∀ a ∈ (valuesCode nm vs).2, Neutral (a.text nm)
  | .nil => ⟨nil_neutral, fun a ha => nomatch ha⟩
  | .plain value name rest => by
    obtain ⟨k3, k4⟩ := valuesCode_neutral nm hn rest
    have hv := rust_neutral hn name
    rw [valuesCode]
    refine ⟨fun s => ?_, ?_⟩
    · dsimp only
      read_bits [k3 _, hv _]
    · intro a ha
      rcases List.mem_cons.1 ha with rfl | ha
      · exact arm_neutral nm hn _ hv trivial
      · exact k4 a ha
  | .event value name str d rest => by
    obtain ⟨k3, k4⟩ := valuesCode_neutral nm hn rest
    have hv := rust_neutral hn name
    have hs := rust_neutral hn str
    rw [valuesCode]
    refine ⟨fun s => ?_, ?_⟩
    · dsimp only
      read_bits [k3 _, hv _, hs _]
    · intro a ha
      rcases List.mem_cons.1 ha with rfl | ha
      · exact arm_neutral nm hn _ hv (decl_neutral _ hs)
      · exact k4 a ha

/-! ## Items -/

/-- [proof device, no counterpart in /repo] -/
structure Code.Closed (nm : Naming) (k : Code) : Prop where
  ty : Neutral k.typeText
  ms : ∀ m ∈ k.members, m.Closed nm
  before : Neutral k.before
  after : Neutral k.after
  parse : Neutral (k.parse.text nm)

theorem declCode_closed (nm : Naming) (hn : nm.Plain) (d : TDecl) (k : Code) (h : declCode nm d = some k) (hk : ∀ k ∈ d.otherKinds, NoDelimiters (lit k)) :
    k.Closed nm := by
  have none_ : ∀ m ∈ ([] : List Member), m.Closed nm := fun m hm => nomatch hm
  cases d with
  | struct fs =>
    simp only [declCode, Option.bind_eq_bind, Option.bind_eq_some_iff, Option.some.injEq] at h
    obtain ⟨ms, h1, rfl⟩ := h
    have hm := membersCode_neutral nm hn fs ms h1
    refine ⟨flat_neutral _ ms (fun m hx s => ?_), hm, neutral_of_balanced (by dsimp only; decide +kernel), neutral_of_balanced (by dsimp only; decide +kernel),
      structFn_neutral nm ms (fun m hx => ⟨(hm m hx).1, (hm m hx).2.1⟩)⟩
    have k1 := (hm m hx).1
    have k2 := (hm m hx).2.1
    read_bits [k1 _, k2 _]
  | choice vs =>
    simp only [declCode, Option.bind_eq_bind, Option.bind_eq_some_iff] at h
    obtain ⟨⟨t, arms⟩, h1, h2⟩ := h
    simp only [Option.some.injEq] at h2
    subst h2
    obtain ⟨k1, k2⟩ := variantsCode_neutral nm hn vs _ h1 hk
    exact ⟨k1, none_, nil_neutral, neutral_of_balanced (by dsimp only; decide +kernel), choiceFn_neutral nm hn _ _ k2⟩
  | «enum» vs =>
    simp only [declCode, Option.some.injEq] at h
    subst h
    obtain ⟨k1, k2⟩ := valuesCode_neutral nm hn vs
    exact ⟨k1, none_, nil_neutral, neutral_of_balanced (by dsimp only; decide +kernel), enumFn_neutral nm hn _ _ k2⟩
  | int b =>
    simp only [declCode, Option.some.injEq] at h
    subst h
    refine ⟨neutral_of_balanced (by dsimp only; decide +kernel), none_, nil_neutral, fun s => ?_, intFn_neutral nm hn b⟩
    dsimp only
    read_bits []
  | bitArray b =>
    simp only [declCode] at h
    split at h
    · rw [Option.some.injEq] at h
      subst h
      exact ⟨neutral_of_balanced (by dsimp only; decide +kernel), none_, nil_neutral, neutral_of_balanced (by dsimp only; decide +kernel), bitArrayFn_neutral nm hn b⟩
    · cases h
  | user n d =>
    simp only [declCode, Option.some.injEq] at h
    subst h
    have hv := rust_neutral hn n
    refine ⟨fun s => ?_, none_, nil_neutral, neutral_of_balanced (by dsimp only; decide +kernel), userFn_neutral nm _ hv⟩
    dsimp only
    read_bits [hv _]
  | blob b =>
    simp only [declCode] at h
    split at h
    · rw [Option.some.injEq] at h
      subst h
      exact ⟨neutral_of_balanced (by dsimp only; decide +kernel), none_, nil_neutral, neutral_of_balanced (by dsimp only; decide +kernel), blobFn_neutral nm hn b⟩
    · cases h
  | string b =>
    simp only [declCode] at h
    split at h
    · rw [Option.some.injEq] at h
      subst h
      exact ⟨neutral_of_balanced (by dsimp only; decide +kernel), none_, nil_neutral, neutral_of_balanced (by dsimp only; decide +kernel), stringFn_neutral nm hn b⟩
    · cases h
  | array b e =>
    cases e with
    | named n d =>
      simp only [declCode, Option.some.injEq] at h
      subst h
      have hv := rust_neutral hn n
      refine ⟨fun s => ?_, none_, nil_neutral, neutral_of_balanced (by dsimp only; decide +kernel), arrayFn_neutral nm hn b _ hv⟩
      dsimp only
      read_bits [hv _]
    | _ => cases h

theorem memberText_neutral (nm : Naming) (m : Member) (h : m.Closed nm) : Neutral (m.text nm) := by
  intro s
  obtain ⟨h1, h2, h3⟩ := h
  unfold Member.text
  read_bits [h1 _, h2 _, h3 _]

theorem codeText_neutral (nm : Naming) (proto name : Txt) (hp : Neutral proto) (hname : Neutral name) (k : Code) (h : k.Closed nm) :
    Neutral (k.text nm proto name) := by
  intro s
  obtain ⟨h1, h2, h3, h4, h5⟩ := h
  have hm := flat_neutral (Member.text nm) k.members (fun m hx => memberText_neutral nm m (h2 m hx))
  unfold Code.text
  read_bits [h1 _, h3 _, h4 _, h5 _, hm _, hp _, hname _]

theorem bitDeclsText_neutral (nm : Naming) (hn : nm.Plain) (proto : Txt) (hp : Neutral proto) : (ds : List (String × TDecl)) → ∀ t,
    bitDeclsText nm proto ds = some t → (∀ p ∈ ds, ∀ k ∈ p.2.otherKinds, NoDelimiters (lit k)) → Neutral t
  | [], t, h, _ => by rw [bitDeclsText] at h; cases h; exact nil_neutral
  | (n, d) :: rest, t, h, hk => by
    simp only [bitDeclsText, Option.bind_eq_bind, Option.bind_eq_some_iff, Option.some.injEq] at h
    obtain ⟨k, h1, ts, h2, rfl⟩ := h
    exact append_neutral (codeText_neutral nm proto _ hp (rust_neutral hn n) k (declCode_closed nm hn d k h1 (hk _ List.mem_cons_self)))
      (bitDeclsText_neutral nm hn proto hp rest ts h2 (fun p hx => hk p (List.mem_cons_of_mem _ hx)))

/-! ## C175 -/

/-- **C175.** Whatever is described — any number of declarations, members, variants and values, of any types the generator does not refuse — the bit-packed module
it writes closes every brace, bracket and parenthesis in order, if the names, numbers and kinds of the description contain none. -/
theorem C175_balanced (nm : Naming) (hn : nm.Plain) (proto : Txt) (hp : NoDelimiters proto) (ds : List (String × TDecl))
    (hk : ∀ p ∈ ds, ∀ k ∈ p.2.otherKinds, NoDelimiters (lit k)) (t : Txt) (h : bitModuleText nm proto ds = some t) : Balanced t := by
  simp only [bitModuleText, Option.bind_eq_bind, Option.bind_eq_some_iff, Option.some.injEq] at h
  obtain ⟨ts, h1, rfl⟩ := h
  have hts := bitDeclsText_neutral nm hn proto (neutral_of_plain _ hp) ds ts h1 hk
  unfold Balanced
  read_bits [hts _]

/-- **C175.** Each declaration is closed by itself, so that leaving one out or adding one does not disturb the others. -/
theorem C175_each_item (nm : Naming) (hn : nm.Plain) (proto : Txt) (hp : NoDelimiters proto) (n : String) (d : TDecl)
    (hk : ∀ k ∈ d.otherKinds, NoDelimiters (lit k)) (k : Code) (h : declCode nm d = some k) : Balanced (k.text nm proto (nm.rust n)) :=
  codeText_neutral nm proto _ (neutral_of_plain _ hp) (rust_neutral hn n) k (declCode_closed nm hn d k h hk) []

theorem bitNaming_plain : bitNaming.Plain := by
  refine ⟨fun n => ?_, plainNaming_plain.2.1, plainNaming_plain.2.2⟩
  show NoDelimiters (if n = "m_eventData" then lit "MEventData" else plainNaming.rust n)
  split
  · intro c hc
    have : ∀ c ∈ lit "MEventData", closer c = none ∧ isCloser c = false := by decide +kernel
    exact this c hc
  · exact plainNaming_plain.1 n

/-- The hypotheses are met by the module of `Verif/Props/GenBitCode.lean` and one with a choice whose optional variant has an unknown kind. -/
example : (bitModuleText bitNaming (lit "protocol87702") exModule.decls).isSome = true ∧ (∀ p ∈ exModule.decls, ∀ k ∈ p.2.otherKinds, NoDelimiters (lit k)) := by
  refine ⟨by decide +kernel, ?_⟩
  intro p hp k hk
  simp only [exModule, List.mem_cons, List.not_mem_nil, or_false] at hp
  rcases hp with rfl | rfl | rfl <;> simp [exLink, exAbil, exCmd, TDecl.otherKinds] at hk

example : (bitModuleText bitNaming (lit "protocol87702") [("NNet.Game.CChoice", .choice (.cons 0 "None" .null (.cons 1 "Some" (.optional (.other "RealType")) .nil)))]).isSome = true := by
  decide +kernel

end S2.Generator
