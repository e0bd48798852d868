import Verif.Schema.BitPackedLemmas
import Verif.ResLemmas
import Verif.Schema.ByteAlignedSafe
/-! # Panics and build profiles of bit-packed parsers -/
namespace S2

/-- No panic, and the cursor stays well-formed. [proof device, no counterpart in /repo] -/
def Safe {α : Type} (f : Cur → Res (Cur × α)) : Prop :=
  ∀ c : Cur, c.WF → f c ≠ .panic ∧ ∀ c' a, f c = .ok (c', a) → c'.WF

theorem Safe.bind {α β : Type} {f : Cur → Res (Cur × α)} {g : α → Cur → Res (Cur × β)}
    (hf : Safe f) (hg : ∀ a, Safe (g a)) : Safe (fun c => f c >>= fun p => g p.2 p.1) := by
  intro c hc
  obtain ⟨h1, h2⟩ := hf c hc
  refine ⟨Res.bind_ne_panic h1 fun p hp => (hg p.2 p.1 (h2 p.1 p.2 hp)).1, ?_⟩
  intro c' b h
  rw [Res.bind_eq_ok] at h
  obtain ⟨p, hp, h⟩ := h
  exact (hg p.2 p.1 (h2 p.1 p.2 hp)).2 _ _ h

theorem Safe.pure {α : Type} (a : α) : Safe (fun c => (Pure.pure (c, a) : Res (Cur × α))) := by
  intro c hc
  refine ⟨by simp, ?_⟩
  intro c' b h
  simp only [Res.pure_eq, Res.ok.injEq, Prod.mk.injEq] at h
  rw [← h.1]; exact hc

theorem Safe.map {α β : Type} {f : Cur → Res (Cur × α)} (hf : Safe f) (k : α → β) :
    Safe (fun c => f c >>= fun p => (Pure.pure (p.1, k p.2) : Res (Cur × β))) :=
  hf.bind (fun a => Safe.pure (k a))

theorem Safe.repeatN {α : Type} {f : Cur → Res (Cur × α)} (hf : Safe f) (n : Nat) :
    Safe (fun c => S2.repeatN f n c) := by
  induction n with
  | zero => exact Safe.pure []
  | succ n ih => exact hf.bind (fun a => ih.map (fun l => a :: l))

theorem Safe.of_parses {α : Type} {f : Cur → Res (Cur × α)} {R : Nat → α → List Bool → Prop}
    (hf : Parses f R) (h : ∀ c : Cur, c.WF → f c ≠ .panic) : Safe f := by
  intro c hc
  refine ⟨h c hc, ?_⟩
  intro c' a he
  obtain ⟨u, r, e, _, rfl⟩ := (hf c hc _ _).1 he
  exact (advance_append hc e).1

theorem takeI64_safe (n : Nat) : Safe (fun c => takeI64 c n) :=
  Safe.of_parses (takeI64_parses n) (fun c hc => by
    simp only [takeI64_bits c n hc]
    split
    · simp
    · split <;> simp)

theorem parseBool_safe : Safe parseBool :=
  Safe.of_parses parseBool_parses (fun c hc => by
    simp only [parseBool_bits c hc]; split <;> simp)

theorem byteAlign_safe : Safe byteAlign :=
  Safe.of_parses byteAlign_parses (fun c hc => by simp [(byteAlign_bits c hc).1])

theorem takeBitArray_safe (n : Nat) : Safe (fun c => takeBitArray c n) :=
  Safe.of_parses (takeBitArray_parses n) (fun c hc => by
    rcases Nat.eq_zero_or_pos n with rfl | hn
    · simp [takeBitArray_zero c hc]
    · simp only [takeBitArray_bits c n hc hn]; split <;> simp)

theorem takeUnalignedByte_safe : Safe takeUnalignedByte :=
  Safe.of_parses takeUnalignedByte_parses (fun c hc => by
    unfold takeUnalignedByte
    refine Res.bind_ne_panic (takeBitArray_safe 8 c hc).1 ?_
    rintro ⟨c', l⟩ h
    obtain ⟨u, r, e, ⟨h1, h2⟩, rfl⟩ := (takeBitArray_parses 8 c hc _ _).1 h
    have hu : u ≠ [] := by rintro rfl; simp at h1
    rw [if_neg hu, bitArr_single _ _ hu (by omega)] at h2
    subst h2; simp)

/-- `offset + value` fits `i64` for every `numBits`-bit value. [proof device, no counterpart in /repo] -/
def packedFits (offset : Int) (numBits : Nat) : Bool :=
  decide (offset = 0) ||
    (decide (numBits ≤ 62) && decide (i64Min ≤ offset) && decide (offset ≤ 2 ^ 62))

theorem addI64_fits {off : Int} {n w : Nat} (h : packedFits off n = true) (hw : w < 2 ^ n) :
    inI64 (off + toI64 w) := by
  simp only [packedFits, Bool.or_eq_true, Bool.and_eq_true, decide_eq_true_eq] at h
  rcases h with rfl | ⟨⟨h1, h2⟩, h3⟩
  · rw [Int.zero_add]; exact toI64_range w
  · have : w < 2 ^ 62 := Nat.lt_of_lt_of_le hw (Nat.pow_le_pow_right (by omega) h1)
    rw [toI64_of_lt (by omega)]
    unfold inI64 i64Max
    unfold i64Min at *
    omega

theorem parsePackedInt_safe (bld : Build) (k : Int) (n : Nat)
    (h : bld = .release ∨ packedFits k n = true) : Safe (fun c => parsePackedInt bld c k n) :=
  Safe.of_parses (parsePackedInt_parses bld k n) (fun c hc => by
    simp only [parsePackedInt]
    refine Res.bind_ne_panic (takeI64_safe n c hc).1 ?_
    rintro ⟨c', x⟩ hx
    refine Res.bind_ne_panic ?_ (fun _ _ => by simp)
    unfold addI64
    split
    · simp
    · rename_i hno
      rcases h with rfl | h
      · simp
      · obtain ⟨u, r, e, ⟨h1, h2, rfl⟩, rfl⟩ := (takeI64_parses n c hc _ _).1 hx
        exact absurd (addI64_fits h (h2 ▸ bitsVal_lt c.off u hc.1)) hno)

mutual
/-- No integer field can overflow `i64` when its excess is added. [proof device, no counterpart in /repo] -/
def BTy.noOverflow : BTy → Bool
  | .int k n => packedFits k n
  | .arr _ t => t.noOverflow
  | .opt t => t.noOverflow
  | .optRewind t => t.noOverflow
  | .struct fs => fs.noOverflow
  | .choice _ alts => alts.noOverflow
  | _ => true
/-- [proof device, no counterpart in /repo] -/
def BFields.noOverflow : BFields → Bool
  | .nil => true
  | .cons _ t rest => t.noOverflow && rest.noOverflow
/-- [proof device, no counterpart in /repo] -/
def BAlts.noOverflow : BAlts → Bool
  | .nil => true
  | .cons _ t rest => t.noOverflow && rest.noOverflow
end

theorem packedFits_zero (n : Nat) : packedFits 0 n = true := by simp [packedFits]

mutual
theorem bparse_safe (bld : Build) : ∀ (t : BTy), (bld = .release ∨ t.noOverflow = true) → Safe (bparse bld t)
  | .int k n, h => by
    have := (parsePackedInt_safe bld k n (by simpa [BTy.noOverflow] using h)).map Val.int
    intro c hc; simp only [bparse]; exact this c hc
  | .bool, h => by
    have := parseBool_safe.map Val.bool
    intro c hc; simp only [bparse]; exact this c hc
  | .null, h => by
    have := Safe.pure Val.unit
    intro c hc; simp only [bparse]; exact this c hc
  | .fourcc, h => by
    have := (takeBitArray_safe 32).map Val.bytes
    intro c hc; simp only [bparse]; exact this c hc
  | .blob n, h => by
    have := (parsePackedInt_safe bld 0 n (Or.inr (packedFits_zero n))).bind (fun size =>
      byteAlign_safe.bind (fun _ => (takeBitArray_safe (asUsize size * 8)).map Val.bytes))
    intro c hc; simp only [bparse]; exact this c hc
  | .aligned k, h => by
    have := byteAlign_safe.bind (fun _ => (takeBitArray_safe (k * 8)).map Val.bytes)
    intro c hc; simp only [bparse]; exact this c hc
  | .bitsI64 n, h => by
    have := (takeI64_safe n).bind (fun len => (takeI64_safe (asUsize len)).map Val.int)
    intro c hc; simp only [bparse]; exact this c hc
  | .bitsVec n, h => by
    have := (takeI64_safe n).bind (fun len => (takeBitArray_safe (asUsize len)).map Val.bytes)
    intro c hc; simp only [bparse]; exact this c hc
  | .byteArr n, h => by
    have := (takeI64_safe n).bind (fun len => (takeUnalignedByte_safe.repeatN (asUsize len)).map Val.bytes)
    intro c hc; simp only [bparse]; exact this c hc
  | .arr n t, h => by
    have ih := bparse_safe bld t (by simpa [BTy.noOverflow] using h)
    have := (takeI64_safe n).bind (fun len => (ih.repeatN (asUsize len)).map Val.list)
    intro c hc; simp only [bparse]; exact this c hc
  | .opt t, h => by
    have ih := bparse_safe bld t (by simpa [BTy.noOverflow] using h)
    have hb : ∀ p : Bool, Safe (fun c => if p then (bparse bld t c >>= fun q => (pure (q.1, Val.some q.2) : Res (Cur × Val))) else pure (c, Val.none)) := by
      intro p
      cases p
      · simpa using Safe.pure Val.none
      · simpa using ih.map Val.some
    have := parseBool_safe.bind hb
    intro c hc; simp only [bparse]; exact this c hc
  | .optRewind t, h => by
    have ih := bparse_safe bld t (by simpa [BTy.noOverflow] using h)
    intro c hc
    simp only [bparse]
    obtain ⟨h1, h2⟩ := parseBool_safe c hc
    have h3 := ih.map Val.some c hc
    cases hp : parseBool c with
    | panic => exact absurd hp h1
    | err e => simp
    | ok p =>
      obtain ⟨c1, b⟩ := p
      cases b
      · simp only [Res.bind_ok, Bool.false_eq_true, if_false]
        exact Safe.pure Val.none c1 (h2 _ _ hp)
      · simp only [Res.bind_ok, if_true]; exact h3
  | .struct fs, h => by
    have := (bfields_safe bld fs (by simpa [BTy.noOverflow] using h)).map Val.struct
    intro c hc; simp only [bparse]; exact this c hc
  | .choice n alts, h => by
    have ih := balt_safe bld alts (by simpa [BTy.noOverflow] using h)
    have := (parsePackedInt_safe bld 0 n (Or.inr (packedFits_zero n))).bind (fun tag =>
      (ih tag).map (Val.choice tag))
    intro c hc; simp only [bparse]; exact this c hc
theorem bfields_safe (bld : Build) : ∀ (fs : BFields), (bld = .release ∨ fs.noOverflow = true) →
    Safe (bfields bld fs)
  | .nil, _ => by
    have := Safe.pure ([] : List Val)
    intro c hc; simp only [bfields]; exact this c hc
  | .cons name t rest, h => by
    simp only [BFields.noOverflow, Bool.and_eq_true] at h
    have h1 := bparse_safe bld t (h.imp_right And.left)
    have h2 := bfields_safe bld rest (h.imp_right And.right)
    have := h1.bind (fun v => h2.map (fun vs => v :: vs))
    intro c hc; simp only [bfields]; exact this c hc
theorem balt_safe (bld : Build) : ∀ (alts : BAlts), (bld = .release ∨ alts.noOverflow = true) → ∀ tag,
    Safe (balt bld alts tag)
  | .nil, _, tag => by intro c hc; simp [balt]
  | .cons t ty rest, h, tag => by
    simp only [BAlts.noOverflow, Bool.and_eq_true] at h
    have h1 := bparse_safe bld ty (h.imp_right And.left)
    have h2 := balt_safe bld rest (h.imp_right And.right) tag
    intro c hc
    simp only [balt]
    split
    · exact h1 c hc
    · exact h2 c hc
end

theorem addI64_le (a b : Int) : (addI64 .debug a b).Le (addI64 .release a b) := by
  unfold addI64; split
  · exact Or.inr rfl
  · exact Or.inl rfl

theorem parsePackedInt_le (c : Cur) (k : Int) (n : Nat) :
    (parsePackedInt .debug c k n).Le (parsePackedInt .release c k n) := by
  simp only [parsePackedInt]
  exact Res.Le.bind (Res.Le.refl _) fun _ => Res.Le.bind (addI64_le _ _) fun _ => Res.Le.refl _

mutual
/-- A debug run equals the release run unless it panics. -/
theorem bparse_le : ∀ (t : BTy) (c : Cur), (bparse .debug t c).Le (bparse .release t c)
  | .int k n, c => by
    simp only [bparse]
    exact Res.Le.bind (parsePackedInt_le _ _ _) fun _ => Res.Le.refl _
  | .bool, c => by simp only [bparse]; exact Res.Le.refl _
  | .null, c => by simp only [bparse]; exact Res.Le.refl _
  | .fourcc, c => by simp only [bparse]; exact Res.Le.refl _
  | .blob n, c => by
    simp only [bparse]
    exact Res.Le.bind (parsePackedInt_le _ _ _) fun _ => Res.Le.refl _
  | .aligned k, c => by simp only [bparse]; exact Res.Le.refl _
  | .bitsI64 n, c => by simp only [bparse]; exact Res.Le.refl _
  | .bitsVec n, c => by simp only [bparse]; exact Res.Le.refl _
  | .byteArr n, c => by simp only [bparse]; exact Res.Le.refl _
  | .arr n t, c => by
    simp only [bparse]
    exact Res.Le.bind (Res.Le.refl _) fun _ =>
      Res.Le.bind (repeatN_le _ _ (fun i => bparse_le t i) _ _) fun _ => Res.Le.refl _
  | .opt t, c => by
    simp only [bparse]
    refine Res.Le.bind (Res.Le.refl _) fun p => ?_
    rcases p with ⟨c', b⟩
    cases b
    · exact Res.Le.refl _
    · exact Res.Le.bind (bparse_le t _) fun _ => Res.Le.refl _
  | .optRewind t, c => by
    simp only [bparse]
    refine Res.Le.bind (Res.Le.refl _) fun p => ?_
    rcases p with ⟨c', b⟩
    cases b
    · exact Res.Le.refl _
    · exact Res.Le.bind (bparse_le t _) fun _ => Res.Le.refl _
  | .struct fs, c => by
    simp only [bparse]
    exact Res.Le.bind (bfields_le fs c) fun _ => Res.Le.refl _
  | .choice n alts, c => by
    simp only [bparse]
    exact Res.Le.bind (parsePackedInt_le _ _ _) fun _ =>
      Res.Le.bind (balt_le alts _ _) fun _ => Res.Le.refl _
theorem bfields_le : ∀ (fs : BFields) (c : Cur), (bfields .debug fs c).Le (bfields .release fs c)
  | .nil, c => by simp only [bfields]; exact Res.Le.refl _
  | .cons _ t rest, c => by
    simp only [bfields]
    exact Res.Le.bind (bparse_le t c) fun _ => Res.Le.bind (bfields_le rest _) fun _ => Res.Le.refl _
theorem balt_le : ∀ (alts : BAlts) (tag : Int) (c : Cur), (balt .debug alts tag c).Le (balt .release alts tag c)
  | .nil, tag, c => by simp only [balt]; exact Res.Le.refl _
  | .cons t ty rest, tag, c => by
    simp only [balt]
    split
    · exact bparse_le ty c
    · exact balt_le rest tag c
end

theorem bparse_release_ne_panic (t : BTy) (c : Cur) (hc : c.WF) : bparse .release t c ≠ .panic :=
  (bparse_safe .release t (Or.inl rfl) c hc).1

theorem bparse_debug_ne_panic (t : BTy) (h : t.noOverflow = true) (c : Cur) (hc : c.WF) :
    bparse .debug t c ≠ .panic :=
  (bparse_safe .debug t (Or.inr h) c hc).1

theorem bparse_debug_eq_release (t : BTy) (h : t.noOverflow = true) (c : Cur) (hc : c.WF) :
    bparse .debug t c = bparse .release t c :=
  (bparse_le t c).resolve_left (bparse_debug_ne_panic t h c hc)

end S2
