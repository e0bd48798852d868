import Verif.Props.Rows
import Verif.Props.MergedFilters
import Verif.Misc.Cli
import Verif.Misc.Tui
import Verif.Misc.Coords
import Verif.Misc.QuickHeader
/-!
# C158: debug and release builds agree

A debug build checks integer overflow, a release build does not.  `Agrees d r`: the debug outcome `d` is a panic, or it
is the release outcome `r`.  So a program tested in debug mode without a crash behaves the same in release mode.
-/
namespace S2

/-- What the debug build gives, against what the release build gives. [specification] -/
def Agrees {α : Type} (d r : Res α) : Prop := d = .panic ∨ d = r

/-- The same for a call that may still be running. [specification] -/
def AgreesCall {α : Type} (d r : Option (Res α)) : Prop := d = some .panic ∨ d = r

/-- The same for a call that also changes its object: after a panic the object is lost, otherwise result and object
are the same. [specification] -/
def AgreesStep {α σ : Type} (d r : Option (Res α × σ)) : Prop := (∃ s, d = some (.panic, s)) ∨ d = r

/-- The same for a program that prints: printing may stop in the middle, with a panic. [specification] -/
def AgreesRun {o α : Type} (d r : List o × Res α) : Prop := (d.2 = .panic ∧ d.1 <+: r.1) ∨ d = r

theorem Agrees.refl {α : Type} (x : Res α) : Agrees x x := .inr rfl

theorem Agrees.bind {α β : Type} {x y : Res α} {f g : α → Res β} (h : Agrees x y) (hf : ∀ a, Agrees (f a) (g a)) :
    Agrees (x >>= f) (y >>= g) := by
  rcases h with rfl | rfl
  · exact .inl rfl
  · cases x with
    | ok a => exact hf a
    | err e => exact .inr rfl
    | panic => exact .inl rfl

theorem Agrees.same {α β : Type} (x : Res α) {f g : α → Res β} (hf : ∀ a, Agrees (f a) (g a)) :
    Agrees (x >>= f) (x >>= g) := (Agrees.refl x).bind hf

theorem Agrees.ite {α : Type} {c : Prop} [Decidable c] {x y x' y' : Res α} (h1 : Agrees x x') (h2 : Agrees y y') :
    Agrees (if c then x else y) (if c then x' else y') := by
  split <;> assumption

theorem Agrees.ok {α : Type} {d r : Res α} {a : α} (h : Agrees d r) (hd : d = .ok a) : r = .ok a := by
  rcases h with h | h
  · rw [hd] at h; cases h
  · rw [← h, hd]

/-! ## Integers -/

theorem shlI64_agrees (x s : Nat) : Agrees (shlI64 .debug x s) (shlI64 .release x s) := by
  unfold shlI64; split
  · exact .inr rfl
  · exact .inl rfl

theorem negI64_agrees (x : Int) : Agrees (negI64 .debug x) (negI64 .release x) := by
  unfold negI64; split
  · exact .inl rfl
  · exact .inr rfl

theorem addI64_agrees (x y : Int) : Agrees (addI64 .debug x y) (addI64 .release x y) := by
  unfold addI64; split
  · exact .inr rfl
  · exact .inl rfl

theorem addI32_agrees (x y : Int) : Agrees (addI32 .debug x y) (addI32 .release x y) := by
  unfold addI32; split
  · exact .inr rfl
  · exact .inl rfl

theorem mul4I32_agrees (x : Int) : Agrees (mul4I32 .debug x) (mul4I32 .release x) := by
  unfold mul4I32; split
  · exact .inr rfl
  · exact .inl rfl

theorem i64Op_agrees (x : Int) : Agrees (Time.i64Op .debug x) (Time.i64Op .release x) := by
  unfold Time.i64Op; split
  · exact .inr rfl
  · exact .inl rfl

theorem subUsize_agrees (a b : Nat) : Agrees (Files.subUsize .debug a b) (Files.subUsize .release a b) := by
  unfold Files.subUsize; split
  · exact .inr rfl
  · exact .inl rfl

theorem vlqLoop_agrees : ∀ (tail : List UInt8) (v : UInt8) (r b : Nat),
    Agrees (vlqLoop .debug tail v r b) (vlqLoop .release tail v r b)
  | [], v, r, b => by unfold vlqLoop; split <;> exact .inr rfl
  | nv :: t, v, r, b => by
    unfold vlqLoop; split
    · exact .inr rfl
    · exact (shlI64_agrees _ _).bind fun _ => vlqLoop_agrees t nv _ _

theorem parseVlq_agrees (i : List UInt8) : Agrees (parseVlq .debug i) (parseVlq .release i) := by
  unfold parseVlq
  cases i with
  | nil => exact .inr rfl
  | cons b t =>
    refine (vlqLoop_agrees _ _ _ _).bind fun p => ?_
    obtain ⟨tail, res⟩ := p
    exact Agrees.ite ((negI64_agrees _).bind fun _ => .refl _) (.refl _)

theorem taggedVlq_agrees (i : List UInt8) : Agrees (taggedVlq .debug i) (taggedVlq .release i) :=
  Agrees.same _ fun _ => parseVlq_agrees _

theorem taggedBlob_agrees (i : List UInt8) : Agrees (taggedBlob .debug i) (taggedBlob .release i) :=
  Agrees.same _ fun _ => (parseVlq_agrees _).bind fun _ => .refl _

theorem taggedBitarray_agrees (i : List UInt8) : Agrees (taggedBitarray .debug i) (taggedBitarray .release i) :=
  Agrees.same _ fun _ => (parseVlq_agrees _).bind fun _ => .refl _

theorem repeatN_agrees {σ α : Type} {f g : σ → Res (σ × α)} (h : ∀ i, Agrees (f i) (g i)) :
    ∀ n i, Agrees (repeatN f n i) (repeatN g n i)
  | 0, _ => .refl _
  | n + 1, i => (h i).bind fun _ => (repeatN_agrees h n _).bind fun _ => .refl _

theorem iterN_agrees {σ τ : Type} {f g : τ → σ → Res (σ × τ)} (h : ∀ s i, Agrees (f s i) (g s i)) :
    ∀ n s i, Agrees (iterN f n s i) (iterN g n s i)
  | 0, _, _ => .refl _
  | n + 1, s, i => (h s i).bind fun _ => iterN_agrees h n _ _

/-! ## The generated decoders -/

mutual
theorem vparse_agrees : ∀ (t : VTy) (i : List UInt8), Agrees (vparse .debug t i) (vparse .release t i)
  | .int k, i => by
    rw [vparse, vparse]
    exact (taggedVlq_agrees i).bind fun _ => .refl _
  | .blob, i => by
    rw [vparse, vparse]
    exact (taggedBlob_agrees i).bind fun _ => .refl _
  | .bool, i => by rw [vparse, vparse]; exact .refl _
  | .fourcc, i => by rw [vparse, vparse]; exact .refl _
  | .null, i => by rw [vparse, vparse]; exact .refl _
  | .opt t, i => by
    rw [vparse, vparse]
    exact Agrees.same _ fun _ => Agrees.same _ fun _ => Agrees.ite ((vparse_agrees t _).bind fun _ => .refl _) (.refl _)
  | .arr t, i => by
    rw [vparse, vparse]
    exact Agrees.same _ fun _ => (parseVlq_agrees _).bind fun _ =>
      (repeatN_agrees (fun i => vparse_agrees t i) _ _).bind fun _ => .refl _
  | .struct fs, i => by
    rw [vparse, vparse]
    exact Agrees.same _ fun _ => (parseVlq_agrees _).bind fun _ =>
      (iterN_agrees (fun s i => (parseVlq_agrees i).bind fun _ => vfield_agrees fs _ _ _) _ _ _).bind fun _ => .refl _
  | .choice isInt alts, i => by
    rw [vparse, vparse]
    exact Agrees.same _ fun _ => (parseVlq_agrees _).bind fun _ => (valt_agrees alts _ _).bind fun _ => .refl _
theorem vfield_agrees : ∀ (fs : VFields) (tag : Int) (ss : List (Option Val)) (i : List UInt8),
    Agrees (vfield .debug fs tag ss i) (vfield .release fs tag ss i)
  | .nil, tag, ss, i => by rw [vfield, vfield]; exact .refl _
  | .cons t name dup kind ty rest, tag, s :: ss, i => by
    rw [vfield, vfield]
    exact Agrees.ite (Agrees.ite ((vparse_agrees ty i).bind fun _ => .refl _) (.refl _))
      ((vfield_agrees rest tag ss i).bind fun _ => .refl _)
  | .cons t name dup kind ty rest, tag, [], i => by rw [vfield, vfield]; exact .refl _
theorem valt_agrees : ∀ (alts : VAlts) (tag : Int) (i : List UInt8),
    Agrees (valt .debug alts tag i) (valt .release alts tag i)
  | .nil, tag, i => by rw [valt, valt]; exact .refl _
  | .cons t ty rest, tag, i => by
    rw [valt, valt]
    exact Agrees.ite (vparse_agrees ty i) (valt_agrees rest tag i)
end

theorem parsePackedInt_agrees (c : Cur) (k : Int) (n : Nat) :
    Agrees (parsePackedInt .debug c k n) (parsePackedInt .release c k n) :=
  Agrees.same _ fun _ => (addI64_agrees _ _).bind fun _ => .refl _

mutual
theorem bparse_agrees : ∀ (t : BTy) (c : Cur), Agrees (bparse .debug t c) (bparse .release t c)
  | .int k n, c => by
    rw [bparse, bparse]
    exact (parsePackedInt_agrees _ _ _).bind fun _ => .refl _
  | .bool, c => by rw [bparse, bparse]; exact .refl _
  | .null, c => by rw [bparse, bparse]; exact .refl _
  | .fourcc, c => by rw [bparse, bparse]; exact .refl _
  | .blob n, c => by
    rw [bparse, bparse]
    exact (parsePackedInt_agrees _ _ _).bind fun _ => .refl _
  | .aligned k, c => by rw [bparse, bparse]; exact .refl _
  | .bitsI64 n, c => by rw [bparse, bparse]; exact .refl _
  | .bitsVec n, c => by rw [bparse, bparse]; exact .refl _
  | .byteArr n, c => by rw [bparse, bparse]; exact .refl _
  | .arr n t, c => by
    rw [bparse, bparse]
    exact Agrees.same _ fun _ => (repeatN_agrees (fun c => bparse_agrees t c) _ _).bind fun _ => .refl _
  | .opt t, c => by
    rw [bparse, bparse]
    exact Agrees.same _ fun _ => Agrees.ite ((bparse_agrees t _).bind fun _ => .refl _) (.refl _)
  | .optRewind t, c => by
    rw [bparse, bparse]
    exact Agrees.same _ fun _ => Agrees.ite ((bparse_agrees t _).bind fun _ => .refl _) (.refl _)
  | .struct fs, c => by
    rw [bparse, bparse]
    exact (bfields_agrees fs c).bind fun _ => .refl _
  | .choice n alts, c => by
    rw [bparse, bparse]
    exact (parsePackedInt_agrees _ _ _).bind fun _ => (balt_agrees alts _ _).bind fun _ => .refl _
theorem bfields_agrees : ∀ (fs : BFields) (c : Cur), Agrees (bfields .debug fs c) (bfields .release fs c)
  | .nil, c => by rw [bfields, bfields]; exact .refl _
  | .cons _ t rest, c => by
    rw [bfields, bfields]
    exact (bparse_agrees t c).bind fun _ => (bfields_agrees rest _).bind fun _ => .refl _
theorem balt_agrees : ∀ (alts : BAlts) (tag : Int) (c : Cur),
    Agrees (balt .debug alts tag c) (balt .release alts tag c)
  | .nil, tag, c => by rw [balt, balt]; exact .refl _
  | .cons t ty rest, tag, c => by
    rw [balt, balt]
    exact Agrees.ite (bparse_agrees ty c) (balt_agrees rest tag c)
end

/-! ## Events -/

theorem parsePair_agrees (i : List UInt8) : Agrees (parsePair .debug i) (parsePair .release i) :=
  (vparse_agrees _ _).bind fun _ => (vparse_agrees _ _).bind fun _ => .refl _

theorem parseTriplet_agrees (ty : BTy) (c : Cur) : Agrees (parseTriplet .debug ty c) (parseTriplet .release ty c) :=
  (bparse_agrees _ _).bind fun _ => (bparse_agrees _ _).bind fun _ => (bparse_agrees _ _).bind fun _ => .refl _

theorem readLoop_agrees {σ α β : Type} {f g : σ → Res (σ × α)} (conv : α → Res β) (empty : σ → Bool)
    (h : ∀ s, Agrees (f s) (g s)) : ∀ n s res, AgreesCall (readLoop f conv empty n s res) (readLoop g conv empty n s res)
  | 0, _, _ => .inr rfl
  | n + 1, s, res => by
    unfold readLoop
    rcases h s with e | e
    · rw [e]; exact .inl rfl
    · rw [e]
      cases g s with
      | err e => exact .inr rfl
      | panic => exact .inr rfl
      | ok p =>
        obtain ⟨s', a⟩ := p
        dsimp only
        cases conv a with
        | panic => exact .inr rfl
        | ok b =>
          dsimp only
          split
          · exact .inr rfl
          · exact readLoop_agrees conv empty h n s' _
        | err e =>
          dsimp only
          split
          · exact .inr rfl
          · exact readLoop_agrees conv empty h n s' _

theorem nextLoop_agrees {β : Type} {f g : IterState → Res β × IterState}
    (h : ∀ st, (∃ s, f st = (.panic, s)) ∨ f st = g st) :
    ∀ n st, AgreesStep (nextLoop f n st) (nextLoop g n st)
  | 0, _ => .inr rfl
  | n + 1, st => by
    unfold nextLoop
    split
    · exact .inr rfl
    · rcases h st with ⟨s, e⟩ | e
      · rw [e]; exact .inl ⟨s, rfl⟩
      · rw [e]
        split
        · exact .inr rfl
        · exact .inr rfl
        · exact nextLoop_agrees h n _
        · exact .inr rfl

theorem trackerNext_agrees (n : Nat) (st : IterState) :
    AgreesStep (trackerNext .debug n st) (trackerNext .release n st) := by
  refine nextLoop_agrees (fun st => ?_) n st
  unfold readVersionedTrackerEvent
  rcases parsePair_agrees st.slice with e | e
  · rw [e]; exact .inl ⟨_, rfl⟩
  · rw [e]; exact .inr rfl

theorem gameNext_agrees (version n : Nat) (st : IterState) :
    AgreesStep (gameNext .debug version n st) (gameNext .release version n st) := by
  refine nextLoop_agrees (fun st => ?_) n st
  unfold readVersionedGameEvent
  rcases parseTriplet_agrees (gameEventTy version) ⟨st.slice, st.bitIndex⟩ with e | e
  · rw [e]; exact .inl ⟨_, rfl⟩
  · rw [e]; exact .inr rfl

/-! ## State -/

theorem positionsLoop_agrees : ∀ (items : List Int) (idx : Int),
    Agrees (positionsLoop .debug items idx) (positionsLoop .release items idx)
  | [], _ => by rw [positionsLoop, positionsLoop] <;> first | exact .refl _ | simp
  | [_], _ => by rw [positionsLoop, positionsLoop] <;> first | exact .refl _ | simp
  | [_, _], _ => by rw [positionsLoop, positionsLoop] <;> first | exact .refl _ | simp
  | d :: x :: y :: rest, idx => by
    rw [positionsLoop, positionsLoop]
    exact (addI32_agrees _ _).bind fun _ => (mul4I32_agrees _).bind fun _ => (mul4I32_agrees _).bind fun _ =>
      (positionsLoop_agrees rest _).bind fun _ => .refl _

theorem handleTracker_agrees (s : SState) (l : Int) (e : TrackerEvt) :
    Agrees (handleTracker .debug s l e) (handleTracker .release s l e) := by
  cases e with
  | unitPosition e => exact (positionsLoop_agrees _ _).bind fun _ => .refl _
  | _ => exact .refl _

theorem transition_agrees (s : SState) (e : SEvent) : Agrees (transition .debug s e) (transition .release s e) := by
  cases e with
  | tracker l e => exact (handleTracker_agrees s l e).bind fun _ => .refl _
  | game l u n e => exact .refl _

theorem runEvents_agrees : ∀ (es : List SEvent) (s : SState), Agrees (runEvents .debug s es) (runEvents .release s es)
  | [], s => .refl _
  | e :: es, s => by
    rw [runEvents, runEvents]
    rcases transition_agrees s e with h | h
    · rw [h]; exact .inl rfl
    · rw [h]
      cases transition .release s e with
      | ok p => exact runEvents_agrees es p.1
      | err e => exact .inr rfl
      | panic => exact .inl rfl

theorem fillT_agrees (m : MState) : Agrees (fillT .debug m) (fillT .release m) := by
  unfold fillT
  cases m.nextT with
  | some x => exact .refl _
  | none =>
    dsimp only
    rcases trackerNext_agrees (m.trk.data.length + 1) m.trk with ⟨s, e⟩ | e
    · rw [e]; exact .inl rfl
    · rw [e]; exact .inr rfl

theorem fillG_agrees (version : Nat) (m : MState) : Agrees (fillG .debug version m) (fillG .release version m) := by
  unfold fillG
  cases m.nextG with
  | some x => exact .refl _
  | none =>
    dsimp only
    rcases gameNext_agrees version (m.game.data.length + 1) m.game with ⟨s, e⟩ | e
    · rw [e]; exact .inl rfl
    · rw [e]; exact .inr rfl

theorem pull_agrees (version : Nat) (m : MState) : Agrees (pull .debug version m) (pull .release version m) := by
  refine (fillT_agrees m).bind fun m => (fillG_agrees version m).bind fun m => ?_
  cases pick m with
  | none => exact .refl _
  | some p => exact (transition_agrees _ _).bind fun _ => .refl _

theorem mnext_agrees (version : Nat) : ∀ n m, AgreesStep (mnext .debug version n m) (mnext .release version n m)
  | 0, _ => .inr rfl
  | n + 1, m => by
    unfold mnext
    rcases pull_agrees version m with e | e
    · rw [e]; exact .inl ⟨_, rfl⟩
    · rw [e]
      split
      · exact .inr rfl
      · exact .inr rfl
      · exact .inr rfl
      · split
        · exact .inr rfl
        · split
          · exact mnext_agrees version n _
          · exact .inr rfl

theorem calls_agrees {ω σ : Type} {f g : Nat → σ → Option (Res (Option ω) × σ)} (h : ∀ n st, AgreesStep (f n st) (g n st))
    {st st' : σ} {rs : List (Res (Option ω))} (hc : Calls f st rs st') (hp : ∀ r ∈ rs, r ≠ .panic) : Calls g st rs st' := by
  induction hc with
  | nil st => exact .nil st
  | @cons st st1 st2 n r rs h1 _ ih =>
    refine .cons (n := n) ?_ (ih fun r hr => hp r (List.mem_cons_of_mem _ hr))
    rcases h n st with ⟨s, e⟩ | e
    · rw [h1] at e
      exact absurd (congrArg Prod.fst (Option.some.inj e)) (hp r List.mem_cons_self)
    · rw [← e, h1]

/-! ## Whole files -/

theorem andThenRead_agrees {α β : Type} {x y : Res α} {f g : α → Option (Res β)} (h : Agrees x y)
    (hf : ∀ a, AgreesCall (f a) (g a)) : AgreesCall (andThenRead x f) (andThenRead y g) := by
  rcases h with rfl | rfl
  · exact .inl rfl
  · cases x with
    | ok a => exact hf a
    | err e => exact .inr rfl
    | panic => exact .inl rfl

theorem checkedBuild_agrees (a : Archive) : Agrees (checkedBuild .debug a) (checkedBuild .release a) := by
  refine Agrees.bind ?_ fun _ => .refl _
  unfold readHeader
  cases a.userData with
  | none => exact .refl _
  | some c => exact (vparse_agrees _ _).bind fun _ => .refl _

theorem timestampParts_agrees (utc off : Int) :
    Agrees (Time.timestampParts .debug utc off) (Time.timestampParts .release utc off) := by
  refine (i64Op_agrees _).bind fun a => (i64Op_agrees _).bind fun micros => ?_
  dsimp only
  split
  · exact .refl _
  · exact .inl rfl

theorem readDetailsOf_agrees (a : Archive) : Agrees (readDetailsOf .debug a) (readDetailsOf .release a) :=
  (checkedBuild_agrees a).bind fun _ => Agrees.same _ fun _ => (vparse_agrees _ _).bind fun _ => .refl _

theorem readInitOf_agrees (a : Archive) : Agrees (readInitOf .debug a) (readInitOf .release a) :=
  (checkedBuild_agrees a).bind fun _ => Agrees.same _ fun _ =>
    Agrees.bind ((bparse_agrees _ _).bind fun _ => .refl _) fun _ => .refl _

theorem initNew_agrees {D : Type} (w : World D) (name : Str) (fsId : Nat) (a : Archive) (content : List UInt8) :
    Agrees (InitFile.new w .debug name fsId a content) (InitFile.new w .release name fsId a content) :=
  (readInitOf_agrees a).bind fun _ => .refl _

theorem initRead_agrees {D : Type} (w : World D) (path : Str) (fsId : Nat) :
    Agrees (InitFile.read w .debug path fsId) (InitFile.read w .release path fsId) :=
  Agrees.same _ fun _ => Agrees.same _ fun _ => initNew_agrees _ _ _ _ _

theorem initTryRead_agrees {D : Type} (w : World D) (path : Str) (fsId : Nat) :
    Agrees (InitFile.tryRead w .debug path fsId) (InitFile.tryRead w .release path fsId) :=
  Agrees.same _ fun _ => Agrees.same _ fun _ => Agrees.ite (initNew_agrees _ _ _ _ _) (.refl _)

theorem detailsOfInit_agrees {D : Type} (w : World D) (init : InitFile) :
    Agrees (DetailsFile.ofInit w .debug init) (DetailsFile.ofInit w .release init) :=
  Agrees.same _ fun _ => Agrees.same _ fun _ => (readDetailsOf_agrees _).bind fun _ =>
    Agrees.bind ((timestampParts_agrees _ _).bind fun _ => .refl _) fun _ => .refl _

theorem lobbyJoin_agrees {D : Type} (w : World D) (init : InitFile) :
    Agrees (lobbyJoin w .debug init) (lobbyJoin w .release init) :=
  (detailsOfInit_agrees w init).bind fun _ => .refl _

theorem openIterator_agrees {D : Type} (w : World D) (init : InitFile) (table : BalTable) (f : Option Filters) :
    Agrees (openIterator w .debug init table f) (openIterator w .release init table f) :=
  Agrees.same _ fun _ => Agrees.same _ fun _ => Agrees.same _ fun _ => Agrees.same _ fun _ =>
    (detailsOfInit_agrees w init).bind fun _ => (lobbyJoin_agrees w init).bind fun _ => .refl _

theorem collectItems_agrees (version : Nat) : ∀ n m,
    AgreesCall (collectItems .debug version n m) (collectItems .release version n m)
  | 0, _ => .inr rfl
  | n + 1, m => by
    unfold collectItems
    rcases mnext_agrees version (n + 1) m with ⟨s, e⟩ | e
    · rw [e]; exact .inl rfl
    · rw [e]
      split
      · exact .inr rfl
      · exact .inl rfl
      · exact .inr rfl
      · exact .inr rfl
      · rename_i it m' _
        rcases collectItems_agrees version n m' with h | h
        · rw [h]; exact .inl rfl
        · rw [h]; exact .inr rfl

theorem collectRows_agrees {ρ : Type} (rows : Item → List ρ) (version n : Nat) (m : MState) :
    AgreesCall (collectRows rows .debug version n m) (collectRows rows .release version n m) := by
  unfold collectRows
  rcases collectItems_agrees version n m with h | h
  · rw [h]; exact .inl rfl
  · rw [h]; exact .inr rfl

theorem readInits_agrees {α : Type} {f g : Str → Nat → Res α} (h : ∀ s i, Agrees (f s i) (g s i)) :
    ∀ i ss, Agrees (readInits f i ss) (readInits g i ss)
  | _, [] => .refl _
  | i, s :: ss => by
    unfold readInits
    rcases h s i with e | e
    · rw [e]; exact .inl rfl
    · rw [e]
      cases g s i with
      | panic => exact .refl _
      | err e => exact readInits_agrees h (i + 1) ss
      | ok x => exact (readInits_agrees h (i + 1) ss).bind fun _ => .refl _

theorem readInitsPar_agrees {α : Type} {f g : Str → Nat → Res α} (h : ∀ s i, Agrees (f s i) (g s i)) :
    ∀ sp i ss, Agrees (readInitsPar f sp i ss) (readInitsPar g sp i ss)
  | .leaf, i, ss => readInits_agrees h i ss
  | .node k l r, i, ss =>
    (readInitsPar_agrees h l i _).bind fun _ => (readInitsPar_agrees h r _ _).bind fun _ => .refl _

theorem scanLoop_agrees {D : Type} (w : World D) (versions : List Int) : ∀ inits acc,
    Agrees (scanLoop w .debug versions inits acc) (scanLoop w .release versions inits acc)
  | [], _ => .refl _
  | init :: rest, acc => by
    unfold scanLoop
    dsimp only
    rcases detailsOfInit_agrees w init with e | e
    · rw [e]; exact .inl rfl
    · rw [e]
      cases DetailsFile.ofInit w .release init with
      | panic => exact .refl _
      | err e => exact scanLoop_agrees w versions rest _
      | ok x => exact scanLoop_agrees w versions rest _

theorem detailsTable_agrees {D : Type} (w : World D) : ∀ inits,
    Agrees (detailsTable w .debug inits) (detailsTable w .release inits)
  | [] => .refl _
  | init :: rest => by
    unfold detailsTable
    rcases lobbyJoin_agrees w init with e | e
    · rw [e]; exact .inl rfl
    · rw [e]
      cases lobbyJoin w .release init with
      | panic => exact .refl _
      | err e => exact detailsTable_agrees w rest
      | ok x => exact Agrees.same _ fun _ => (detailsTable_agrees w rest).bind fun _ => .refl _

theorem scanEntries_agrees {f g : Files.Path → Files.Node → Nat → Res (List Files.Path)}
    (h : ∀ p n m, Agrees (f p n m) (g p n m)) (path : Files.Path) (max : Nat) :
    ∀ es sources, Agrees (Files.scanEntries .debug f path max es sources) (Files.scanEntries .release g path max es sources)
  | [], _ => by rw [Files.scanEntries, Files.scanEntries]; exact .refl _
  | (name, .dir es) :: rest, sources => by
    rw [Files.scanEntries, Files.scanEntries]
    exact (subUsize_agrees _ _).bind fun _ => (h _ _ _).bind fun _ =>
      Agrees.ite (scanEntries_agrees h path max rest _)
        ((subUsize_agrees _ _).bind fun _ => scanEntries_agrees h path max rest _)
  | (name, .file) :: rest, sources => by
    rw [Files.scanEntries, Files.scanEntries]
    exact Agrees.ite (Agrees.ite (.refl _) (scanEntries_agrees h path max rest _)) (scanEntries_agrees h path max rest _)
  | (name, .other) :: rest, sources => by
    rw [Files.scanEntries, Files.scanEntries]
    exact scanEntries_agrees h path max rest _

theorem getMatchingFiles_agrees : ∀ (d : Nat) (source : Files.Path) (node : Files.Node) (max : Nat),
    Agrees (Files.getMatchingFiles .debug source node max d) (Files.getMatchingFiles .release source node max d)
  | 0, _, _, _ => .refl _
  | d + 1, source, node, max => by
    unfold Files.getMatchingFiles
    cases node with
    | dir es => exact scanEntries_agrees (fun p n m => getMatchingFiles_agrees d p n m) source max es []
    | _ => exact .refl _

theorem selectSources_agrees {D : Type} (w : World D) (minV maxV : Option Int) (processMax : Nat)
    (split : Option Split) (sources : List Str) :
    Agrees (selectSources w .debug minV maxV processMax split sources)
      (selectSources w .release minV maxV processMax split sources) := by
  cases split with
  | none => exact (readInits_agrees (initRead_agrees w) _ _).bind fun _ => .refl _
  | some sp => exact (readInitsPar_agrees (initRead_agrees w) _ _ _).bind fun _ => .refl _

/-! ## The command line -/

theorem AgreesRun.refl {o α : Type} (x : List o × Res α) : AgreesRun x x := .inr rfl

theorem forEach_agrees (version : Nat) : ∀ n m,
    AgreesRun (Cli.forEach .debug version n m) (Cli.forEach .release version n m)
  | 0, _ => .inr rfl
  | n + 1, m => by
    unfold Cli.forEach
    rcases mnext_agrees version (n + 1) m with ⟨s, e⟩ | e
    · rw [e]; exact .inl ⟨rfl, List.nil_prefix⟩
    · rw [e]
      split
      · exact .inr rfl
      · exact .inr rfl
      · exact .inr rfl
      · exact .inr rfl
      · rename_i it m' _
        rcases forEach_agrees version n m' with ⟨h1, h2⟩ | h
        · exact .inl ⟨h1, by simpa [List.cons_prefix_cons] using h2⟩
        · rw [h]; exact .inr rfl

theorem printLoop_agrees (f : List Item → List Cli.Out) (hf : ∀ a b, a <+: b → f a <+: f b) (version n : Nat) (m : MState) :
    AgreesRun (.lb :: f (Cli.forEach .debug version n m).1 ++ Cli.closing (Cli.forEach .debug version n m).2,
        (Cli.forEach .debug version n m).2)
      (.lb :: f (Cli.forEach .release version n m).1 ++ Cli.closing (Cli.forEach .release version n m).2,
        (Cli.forEach .release version n m).2) := by
  rcases forEach_agrees version n m with ⟨h1, h2⟩ | h
  · refine .inl ⟨h1, ?_⟩
    rw [h1]
    simp only [Cli.closing, List.append_nil]
    rw [List.cons_append, List.cons_prefix_cons]
    exact ⟨rfl, (hf _ _ h2).trans (List.prefix_append _ _)⟩
  · rw [h]; exact .inr rfl

theorem printEvents_agrees {D : Type} (w : World D) (table : BalTable) (init : InitFile) (keep : Item → Bool) :
    AgreesRun (Cli.printEvents w .debug table init keep) (Cli.printEvents w .release table init keep) := by
  unfold Cli.printEvents
  rcases openIterator_agrees w init table none with e | e
  · rw [e]; exact .inl ⟨rfl, List.nil_prefix⟩
  · rw [e]
    cases openIterator w .release init table none with
    | ok m =>
      exact printLoop_agrees (fun its => (its.filter keep).map (fun i => .json (.item i)))
        (fun a b h => by obtain ⟨t, rfl⟩ := h; simp) _ _ m
    | err e => exact .inr rfl
    | panic => exact .inr rfl

theorem printReplay_agrees {D : Type} (w : World D) (table : BalTable) (args : Cli.Args) (ty : Cli.ReadType) (a : Archive)
    (init : InitFile) :
    AgreesRun (Cli.printReplay w .debug table args ty a init) (Cli.printReplay w .release table args ty a init) := by
  unfold Cli.printReplay
  cases ty with
  | trackerEvents => exact printEvents_agrees _ _ _ _
  | gameEvents => exact printEvents_agrees _ _ _ _
  | messageEvents =>
    dsimp only
    have h : AgreesCall (readMessageEventsOf .debug (Cli.messageRounds a) a) (readMessageEventsOf .release (Cli.messageRounds a) a) :=
      andThenRead_agrees (checkedBuild_agrees a) fun _ => andThenRead_agrees (.refl _) fun _ =>
        readLoop_agrees _ _ (parseTriplet_agrees _) _ _ _
    rcases h with h | h
    · rw [h]; exact .inl ⟨rfl, List.nil_prefix⟩
    · rw [h]; exact .inr rfl
  | details =>
    dsimp only
    rcases readDetailsOf_agrees a with h | h
    · rw [h]; exact .inl ⟨rfl, List.nil_prefix⟩
    · rw [h]; exact .inr rfl
  | initData => exact .inr rfl
  | transistEvents =>
    dsimp only
    rcases openIterator_agrees w init table (some args.filters) with e | e
    · rw [e]; exact .inl ⟨rfl, List.nil_prefix⟩
    · rw [e]
      cases openIterator w .release init table (some args.filters) with
      | ok m =>
        dsimp only
        split
        · rcases forEach_agrees init.version.toNat (m.trk.data.length + m.game.data.length + 1) m with ⟨h1, _⟩ | h
          · exact .inl ⟨h1, List.nil_prefix⟩
          · rw [h]; exact .inr rfl
        · exact printLoop_agrees (fun its => its.flatMap (fun i => [.json (.item i), .comma]))
            (fun a b h => by obtain ⟨t, rfl⟩ := h; simp) _ _ m
      | err e => exact .inr rfl
      | panic => exact .inr rfl

theorem getSource_agrees {D : Type} (w : World D) (table : BalTable) (args : Cli.Args) (ty : Cli.ReadType) (path : Str) :
    AgreesRun (Cli.getSource w .debug table args ty path) (Cli.getSource w .release table args ty path) := by
  unfold Cli.getSource
  cases w.file path with
  | err e => exact .inr rfl
  | panic => exact .inr rfl
  | ok content =>
    dsimp only
    cases w.mpq content with
    | err e => exact .inr rfl
    | panic => exact .inr rfl
    | ok a =>
      dsimp only
      split
      · rcases initNew_agrees w path 0 a content with h | h
        · rw [h]; exact .inl ⟨rfl, List.nil_prefix⟩
        · rw [h]
          cases InitFile.new w .release path 0 a content with
          | ok init => exact printReplay_agrees _ _ _ _ _ _
          | err e => exact .inr rfl
          | panic => exact .inr rfl
      · exact .inr rfl

theorem getLoop_agrees {D : Type} (w : World D) (table : BalTable) (args : Cli.Args) (ty : Cli.ReadType) : ∀ ps,
    AgreesRun (Cli.getLoop w .debug table args ty ps) (Cli.getLoop w .release table args ty ps)
  | [] => .inr rfl
  | p :: ps => by
    have ih := getLoop_agrees w table args ty ps
    unfold Cli.getLoop
    rcases getSource_agrees w table args ty p with ⟨h1, h2⟩ | h
    · generalize Cli.getSource w .debug table args ty p = d at h1 h2
      generalize Cli.getSource w .release table args ty p = r at h2
      obtain ⟨d1, d2⟩ := d
      obtain ⟨r1, r2⟩ := r
      dsimp only at h1 h2
      subst h1
      refine .inl ⟨rfl, ?_⟩
      cases r2 with
      | ok u => exact h2.trans (List.prefix_append _ _)
      | err e => exact h2
      | panic => exact h2
    · rw [h]
      generalize Cli.getSource w .release table args ty p = r
      obtain ⟨r1, r2⟩ := r
      cases r2 with
      | ok u =>
        dsimp only
        rcases ih with ⟨h1, h2⟩ | h
        · exact .inl ⟨h1, (List.prefix_append_right_inj _).2 h2⟩
        · rw [h]; exact .inr rfl
      | err e => exact .inr rfl
      | panic => exact .inr rfl

theorem start_agrees (version : Nat) : ∀ n m, AgreesStep (Tui.start .debug version n m) (Tui.start .release version n m)
  | 0, _ => .inr rfl
  | n + 1, m => by
    unfold Tui.start
    rcases mnext_agrees version (m.trk.data.length + m.game.data.length + 3) m with ⟨s, e⟩ | e
    · unfold Tui.call
      rw [e]; exact .inl ⟨s, rfl⟩
    · unfold Tui.call
      rw [e]
      split
      · split
        · exact start_agrees version n _
        · exact .inr rfl
      · exact .inr rfl

theorem press_agrees (version : Nat) (a : Tui.App) (k : Tui.Key) :
    AgreesCall (a.press .debug version k) (a.press .release version k) := by
  unfold Tui.App.press
  cases k with
  | quit => exact .inr rfl
  | other => exact .inr rfl
  | next =>
    dsimp only
    unfold Tui.call
    rcases mnext_agrees version (a.iter.trk.data.length + a.iter.game.data.length + 3) a.iter with ⟨s, e⟩ | e
    · rw [e]; exact .inl rfl
    · rw [e]; exact .inr rfl

theorem presses_agrees (version : Nat) : ∀ ks a,
    AgreesCall (Tui.App.presses .debug version a ks) (Tui.App.presses .release version a ks)
  | [], _ => .inr rfl
  | k :: ks, a => by
    unfold Tui.App.presses
    split
    · exact .inr rfl
    · rcases press_agrees version a k with e | e
      · rw [e]; exact .inl rfl
      · rw [e]
        split
        · exact presses_agrees version ks _
        · exact .inr rfl

/-! ## C158 -/

/-- The event lists of a replay. -/
theorem C158_event_lists (n : Nat) (a : Archive) :
    AgreesCall (readTrackerEventsOf .debug n a) (readTrackerEventsOf .release n a) ∧
    AgreesCall (readGameEventsOf .debug n a) (readGameEventsOf .release n a) ∧
    AgreesCall (readMessageEventsOf .debug n a) (readMessageEventsOf .release n a) :=
  ⟨andThenRead_agrees (checkedBuild_agrees a) fun _ => andThenRead_agrees (.refl _) fun _ =>
      readLoop_agrees _ _ parsePair_agrees _ _ _,
    andThenRead_agrees (checkedBuild_agrees a) fun _ => andThenRead_agrees (.refl _) fun _ =>
      readLoop_agrees _ _ (parseTriplet_agrees _) _ _ _,
    andThenRead_agrees (checkedBuild_agrees a) fun _ => andThenRead_agrees (.refl _) fun _ =>
      readLoop_agrees _ _ (parseTriplet_agrees _) _ _ _⟩

/-- Details, lobby, the joined players and the opened iterator of a replay. -/
theorem C158_metadata {D : Type} (w : World D) (path : Str) (fsId : Nat) (init : InitFile) (table : BalTable)
    (f : Option Filters) :
    Agrees (InitFile.read w .debug path fsId) (InitFile.read w .release path fsId) ∧
    Agrees (DetailsFile.ofInit w .debug init) (DetailsFile.ofInit w .release init) ∧
    Agrees (lobbyJoin w .debug init) (lobbyJoin w .release init) ∧
    Agrees (openIterator w .debug init table f) (openIterator w .release init table f) :=
  ⟨initRead_agrees w path fsId, detailsOfInit_agrees w init, lobbyJoin_agrees w init, openIterator_agrees w init table f⟩

/-- Any number of calls of an iterator, from any state: if no call panics in the debug build, the calls give the same
results in the release build and leave the same iterator. -/
theorem C158_iterators (version : Nat) :
    (∀ st rs st', Calls (trackerNext .debug) st rs st' → (∀ r ∈ rs, r ≠ .panic) → Calls (trackerNext .release) st rs st') ∧
    (∀ st rs st', Calls (gameNext .debug version) st rs st' → (∀ r ∈ rs, r ≠ .panic) →
      Calls (gameNext .release version) st rs st') ∧
    (∀ m rs m', Calls (mnext .debug version) m rs m' → (∀ r ∈ rs, r ≠ .panic) → Calls (mnext .release version) m rs m') :=
  ⟨fun _ _ _ h hp => calls_agrees trackerNext_agrees h hp, fun _ _ _ h hp => calls_agrees (gameNext_agrees version) h hp,
    fun _ _ _ h hp => calls_agrees (mnext_agrees version) h hp⟩

/-- The game state after any history of events. -/
theorem C158_state (s : SState) (es : List SEvent) : Agrees (runEvents .debug s es) (runEvents .release s es) :=
  runEvents_agrees es s

/-- Every table of a replay, and the task that writes it. -/
theorem C158_tables {D ρ : Type} (w : World D) (table : BalTable) (rows : Nat → Item → List ρ) (arrow : List ρ → Bool)
    (init : InitFile) (version n fsId : Nat) (m : MState) :
    AgreesCall (collectRows (rows fsId) .debug version n m) (collectRows (rows fsId) .release version n m) ∧
    (tableWork w .debug table rows arrow init = .crash ∨
      tableWork w .debug table rows arrow init = tableWork w .release table rows arrow init) := by
  refine ⟨collectRows_agrees _ _ _ _, ?_⟩
  unfold tableWork
  rcases openIterator_agrees w init table none with e | e
  · rw [e]; exact .inl rfl
  · rw [e]
    cases openIterator w .release init table none with
    | err e => exact .inr rfl
    | panic => exact .inr rfl
    | ok m =>
      dsimp only
      rcases collectRows_agrees (rows init.fsId) init.version.toNat (m.trk.data.length + m.game.data.length + 1) m with h | h
      · rw [h]; exact .inl rfl
      · rw [h]; exact .inr rfl

/-- The details table, the files found in a directory, the replays chosen for export and the statistics of a
directory, computed serially or in parallel. -/
theorem C158_directories {D : Type} (w : World D) (table : BalTable) (ord : List (Str × Nat) → List (Str × Nat))
    (inits : List InitFile) (minV maxV : Option Int) (processMax scanMax depth : Nat) (split : Option Split)
    (dir : Str) (node : Files.Node) (sources : List Str) :
    Agrees (detailsTable w .debug inits) (detailsTable w .release inits) ∧
    Agrees (Files.getMatchingFiles .debug [dir] node scanMax depth) (Files.getMatchingFiles .release [dir] node scanMax depth) ∧
    Agrees (selectSources w .debug minV maxV processMax split sources)
      (selectSources w .release minV maxV processMax split sources) ∧
    Agrees (scanPath w .debug ord table split dir node) (scanPath w .release ord table split dir node) := by
  refine ⟨detailsTable_agrees w inits, getMatchingFiles_agrees depth _ _ _, selectSources_agrees w _ _ _ _ _, ?_⟩
  refine (getMatchingFiles_agrees _ _ _ _).bind fun paths => ?_
  cases split with
  | none =>
    exact (readInits_agrees (initTryRead_agrees w) _ _).bind fun _ => (scanLoop_agrees w _ _ _).bind fun _ => .refl _
  | some sp =>
    exact (readInitsPar_agrees (initTryRead_agrees w) _ _ _).bind fun _ => (scanLoop_agrees w _ _ _).bind fun _ => .refl _

/-- The command `get`: what is printed, and how it ends.  A debug build that panics has printed a part of what the
release build prints. -/
theorem C158_get {D : Type} (w : World D) (table : BalTable) (args : Cli.Args) (ty : Cli.ReadType) (source : Str)
    (node : Files.Node) :
    AgreesRun (Cli.handleGet w .debug table args ty source node) (Cli.handleGet w .release table args ty source node) :=
  getLoop_agrees w table args ty _

/-- The terminal interface after any keys. -/
theorem C158_tui (version : Nat) (m : MState) (keys : List Tui.Key) :
    AgreesCall (Tui.run .debug version m keys) (Tui.run .release version m keys) := by
  unfold Tui.run Tui.App.new
  rcases start_agrees version (m.trk.data.length + m.game.data.length + 3) m with ⟨s, e⟩ | e
  · rw [e]; exact .inl rfl
  · rw [e]
    split
    · exact presses_agrees version keys _
    · exact .inr rfl

/-- Map files: the map information derived from a map, and the height map. -/
theorem C158_map_files (m : Cache.MapInfo) (input : List UInt8) (x y : Int) :
    Agrees (m.terrainDimMap .debug) (m.terrainDimMap .release) ∧
    Agrees (m.cellDimPlayable .debug) (m.cellDimPlayable .release) ∧
    Agrees (m.terrainDimPlayable .debug) (m.terrainDimPlayable .release) ∧
    Agrees (Cache.T3HeightMap.parse .debug input m) (Cache.T3HeightMap.parse .release input m) ∧
    Agrees (Coords.fromMapTerrain .debug m x y) (Coords.fromMapTerrain .release m x y) := by
  have op : ∀ x, Agrees (Cache.i32Op .debug x) (Cache.i32Op .release x) := by
    intro x; unfold Cache.i32Op; split
    · exact .inr rfl
    · exact .inl rfl
  have dim : Agrees (m.terrainDimMap .debug) (m.terrainDimMap .release) :=
    (op _).bind fun _ => (op _).bind fun _ => .refl _
  have cell : Agrees (m.cellDimPlayable .debug) (m.cellDimPlayable .release) :=
    (op _).bind fun _ => (op _).bind fun _ => .refl _
  refine ⟨dim, cell, cell.bind fun _ => (op _).bind fun _ => (op _).bind fun _ => .refl _, ?_, ?_⟩
  · refine Agrees.same _ fun _ => Agrees.same _ fun _ => Agrees.same _ fun _ => Agrees.same _ fun _ => dim.bind fun _ => ?_
    exact Agrees.ite (.refl _) (Agrees.same _ fun _ => (op _).bind fun _ => (op _).bind fun _ => .refl _)
  · exact (op _).bind fun _ => (op _).bind fun _ => .refl _

/-- The header of a replay, and its quick form. -/
theorem C158_header (a : Archive) (input : List UInt8) :
    Agrees (checkedBuild .debug a) (checkedBuild .release a) ∧
    Agrees (quickHeader .debug input) (quickHeader .release input) :=
  ⟨checkedBuild_agrees a, Agrees.same _ fun _ => Agrees.same _ fun _ =>
    Agrees.bind (Agrees.same _ fun _ => taggedBlob_agrees _) fun _ => Agrees.same _ fun _ =>
    (vparse_agrees _ _).bind fun _ => .refl _⟩

/-- `wDone` with the same number written in eleven bytes. [witness, no counterpart in /repo] -/
def wLongDone : List UInt8 :=
  [3, 0, 9, 10, 9, 14, 5, 4, 0, 9, 2, 2, 9, 0x84, 0x80, 0x80, 0x80, 0x80, 0x80, 0x80, 0x80, 0x80, 0x80, 0]

/-- Both cases of the agreement occur: an event both builds read, and one only the release build reads. -/
theorem C158_both_occur :
    readTrackerEvents .debug 100 wDone = some (.ok [(5, .unitDone ⟨1, 2⟩)]) ∧
    readTrackerEvents .release 100 wDone = some (.ok [(5, .unitDone ⟨1, 2⟩)]) ∧
    readTrackerEvents .debug 100 wLongDone = some .panic ∧
    readTrackerEvents .release 100 wLongDone = some (.ok [(5, .unitDone ⟨1, 2⟩)]) := by
  decide +kernel

/-- Three debug calls without a panic meet the hypothesis of `C158_iterators`. -/
example : ∃ st, Calls (trackerNext .debug) (IterState.new (wDone ++ wDone))
    [.ok (some (5, .unitDone ⟨1, 2⟩)), .ok (some (10, .unitDone ⟨1, 2⟩)), .ok none] st := by
  refine ⟨⟨wDone ++ wDone, 10, 28, 0⟩, ?_⟩
  refine .cons (n := 50) (st1 := ⟨wDone ++ wDone, 5, 14, 0⟩) (by decide +kernel) ?_
  refine .cons (n := 50) (st1 := ⟨wDone ++ wDone, 10, 28, 0⟩) (by decide +kernel) ?_
  exact .cons (n := 50) (st1 := ⟨wDone ++ wDone, 10, 28, 0⟩) (by decide +kernel) (.nil _)

end S2
