import Verif.Schema.ByteAlignedLemmas
import Verif.ResLemmas
/-! # Helper lemmas: panics and build profiles of byte-aligned parsers -/
namespace S2

theorem tagByte_ne_panic (t : UInt8) (i : List UInt8) : tagByte t i ≠ .panic := by
  unfold tagByte
  split
  · split <;> simp
  · simp

theorem takeBytes_ne_panic (n : Nat) (i : List UInt8) : takeBytes n i ≠ .panic := by
  unfold takeBytes; split <;> simp

theorem takeU8_ne_panic (i : List UInt8) : takeU8 i ≠ .panic := by
  unfold takeU8; split <;> simp

theorem tryFrom_ne_panic (k : IntKind) (x : Int) : tryFrom k x ≠ .panic := by
  unfold tryFrom; split <;> simp

theorem repeatN_ne_panic {σ α : Type} (f : σ → Res (σ × α)) (hf : ∀ i, f i ≠ .panic) (n : Nat) :
    ∀ i, repeatN f n i ≠ .panic := by
  induction n with
  | zero => intro i; simp [repeatN]
  | succ n ih =>
    intro i
    simp only [repeatN]
    refine Res.bind_ne_panic (hf i) fun a _ => Res.bind_ne_panic (ih _) fun b _ => by simp

theorem iterN_ne_panic {σ τ : Type} (f : τ → σ → Res (σ × τ)) (P : τ → Prop)
    (hf : ∀ s i, P s → f s i ≠ .panic) (hp : ∀ s i i' s', P s → f s i = .ok (i', s') → P s') (n : Nat) :
    ∀ s i, P s → iterN f n s i ≠ .panic ∧ ∀ i' s', iterN f n s i = .ok (i', s') → P s' := by
  induction n with
  | zero => intro s i h; simp only [iterN]; refine ⟨by simp, ?_⟩; rintro i' s' h2; simp at h2; exact h2.2 ▸ h
  | succ n ih =>
    intro s i h
    simp only [iterN]
    refine ⟨Res.bind_ne_panic (hf s i h) fun a ha => (ih _ _ (hp s i a.1 a.2 h ha)).1, ?_⟩
    intro i' s' h2
    rw [Res.bind_eq_ok] at h2
    obtain ⟨a, ha, h3⟩ := h2
    exact (ih _ _ (hp s i a.1 a.2 h ha)).2 i' s' h3

theorem repeatN_le {σ α : Type} (f g : σ → Res (σ × α)) (h : ∀ i, (f i).Le (g i)) (n : Nat) :
    ∀ i, (repeatN f n i).Le (repeatN g n i) := by
  induction n with
  | zero => intro i; exact Res.Le.refl _
  | succ n ih =>
    intro i
    simp only [repeatN]
    exact Res.Le.bind (h i) fun a => Res.Le.bind (ih _) fun b => Res.Le.refl _

theorem iterN_le {σ τ : Type} (f g : τ → σ → Res (σ × τ)) (h : ∀ s i, (f s i).Le (g s i)) (n : Nat) :
    ∀ s i, (iterN f n s i).Le (iterN g n s i) := by
  induction n with
  | zero => intro s i; exact Res.Le.refl _
  | succ n ih =>
    intro s i
    simp only [iterN]
    exact Res.Le.bind (h s i) fun a => ih _ _

/-- Number of fields. [proof device, no counterpart in /repo] -/
def VFields.len : VFields → Nat
  | .nil => 0
  | .cons _ _ _ _ _ rest => rest.len + 1

theorem initSlots_length : (fs : VFields) → (initSlots fs).length = fs.len
  | .nil => rfl
  | .cons _ _ _ kind _ rest => by
    rw [initSlots_cons, List.length_cons, initSlots_length rest]; rfl

theorem finishSlots_ne_panic : (fs : VFields) → ∀ (ss : List (Option Val)), ss.length = fs.len →
    finishSlots fs ss ≠ .panic
  | .nil => by intro ss _; simp [finishSlots]
  | .cons t name dup kind ty rest => by
    intro ss h
    cases ss with
    | nil => simp [VFields.len] at h
    | cons s ss =>
      simp only [VFields.len, List.length_cons, Nat.add_right_cancel_iff] at h
      have ih := finishSlots_ne_panic rest ss h
      cases s <;> cases kind <;> simp only [finishSlots, Res.bind_ok, Res.bind_err] <;>
        first
          | exact Res.bind_ne_panic ih fun _ _ => by simp
          | simp

theorem slotSet_length : (fs : VFields) → ∀ tag ss v ss', slotSet fs tag ss v = some ss' → ss'.length = ss.length
  | .nil => by intro tag ss v ss' h; simp [slotSet] at h
  | .cons t name dup kind ty rest => by
    intro tag ss v ss' h
    cases ss with
    | nil => simp [slotSet] at h
    | cons s ss =>
      simp only [slotSet] at h
      split at h
      · split at h
        · simp at h; subst h; simp
        · simp at h
      · cases hs : slotSet rest tag ss v with
        | none => rw [hs] at h; simp at h
        | some ss1 =>
          rw [hs] at h
          simp only [Option.map_some, Option.some.injEq] at h
          subst h
          simp [slotSet_length rest tag ss v ss1 hs]

theorem vfield_length {bld : Build} {fs : VFields} {tag : Int} {ss : List (Option Val)} {i tail : List UInt8}
    {ss' : List (Option Val)} (h : vfield bld fs tag ss i = .ok (tail, ss')) : ss'.length = ss.length := by
  rw [vfield_iff] at h
  obtain ⟨u, v, _, _, hs⟩ := h
  exact slotSet_length _ _ _ _ _ hs

mutual
/-- Release builds never panic in a byte-aligned parser. -/
theorem vparse_release_ne_panic : (t : VTy) → ∀ i, vparse .release t i ≠ .panic
  | .int k => by
    intro i
    simp only [vparse, taggedVlq]
    exact Res.bind_ne_panic (Res.bind_ne_panic (tagByte_ne_panic _ _) fun _ _ => parseVlq_release_ne_panic _)
      fun _ _ => Res.bind_ne_panic (tryFrom_ne_panic _ _) fun _ _ => by simp
  | .blob => by
    intro i
    simp only [vparse, taggedBlob]
    exact Res.bind_ne_panic (Res.bind_ne_panic (tagByte_ne_panic _ _) fun _ _ =>
      Res.bind_ne_panic (parseVlq_release_ne_panic _) fun _ _ => takeBytes_ne_panic _ _) fun _ _ => by simp
  | .bool => by
    intro i
    simp only [vparse, taggedBool]
    exact Res.bind_ne_panic (Res.bind_ne_panic (tagByte_ne_panic _ _) fun _ _ =>
      Res.bind_ne_panic (takeU8_ne_panic _) fun _ _ => by simp) fun _ _ => by simp
  | .fourcc => by
    intro i
    simp only [vparse, taggedFourcc]
    exact Res.bind_ne_panic (Res.bind_ne_panic (tagByte_ne_panic _ _) fun _ _ =>
      Res.bind_ne_panic (takeBytes_ne_panic _ _) fun _ _ => by simp) fun _ _ => by simp
  | .null => by intro i; simp [vparse]
  | .opt t => by
    intro i
    have ih := vparse_release_ne_panic t
    simp only [vparse]
    refine Res.bind_ne_panic (tagByte_ne_panic _ _) fun _ _ => Res.bind_ne_panic (takeU8_ne_panic _) fun _ _ => ?_
    split
    · exact Res.bind_ne_panic (ih _) fun _ _ => by simp
    · simp
  | .arr t => by
    intro i
    have ih := vparse_release_ne_panic t
    simp only [vparse]
    exact Res.bind_ne_panic (tagByte_ne_panic _ _) fun _ _ =>
      Res.bind_ne_panic (parseVlq_release_ne_panic _) fun _ _ =>
        Res.bind_ne_panic (repeatN_ne_panic _ ih _ _) fun _ _ => by simp
  | .struct fs => by
    intro i
    have ih := vfield_release_ne_panic fs
    simp only [vparse]
    refine Res.bind_ne_panic (tagByte_ne_panic _ _) fun _ _ =>
      Res.bind_ne_panic (parseVlq_release_ne_panic _) fun _ _ => ?_
    have hit := iterN_ne_panic (fun s i => (do
        let (i, tag) ← parseVlq .release i
        vfield .release fs tag s i : Res (List UInt8 × List (Option Val)))) (fun s => s.length = fs.len)
      (fun s i hs => Res.bind_ne_panic (parseVlq_release_ne_panic _) fun a _ => ih a.2 s a.1 hs)
      (fun s i i' s' hs h => by
        rw [Res.bind_eq_ok] at h
        obtain ⟨a, _, h⟩ := h
        rw [vfield_length h]; exact hs)
    refine Res.bind_ne_panic (hit _ _ _ (initSlots_length fs)).1 fun a ha => ?_
    have hlen := (hit _ _ _ (initSlots_length fs)).2 a.1 a.2 ha
    exact Res.bind_ne_panic (finishSlots_ne_panic fs _ hlen) fun _ _ => by simp
  | .choice isInt alts => by
    intro i
    have ih := valt_release_ne_panic alts
    simp only [vparse]
    exact Res.bind_ne_panic (tagByte_ne_panic _ _) fun _ _ =>
      Res.bind_ne_panic (parseVlq_release_ne_panic _) fun _ _ =>
        Res.bind_ne_panic (ih _ _) fun _ _ => by simp

theorem vfield_release_ne_panic : (fs : VFields) → ∀ tag ss i, ss.length = fs.len →
    vfield .release fs tag ss i ≠ .panic
  | .nil => by intro tag ss i _; simp [vfield]
  | .cons t name dup kind ty rest => by
    intro tag ss i h
    have ih1 := vparse_release_ne_panic ty
    have ih2 := vfield_release_ne_panic rest
    cases ss with
    | nil => simp [VFields.len] at h
    | cons s ss =>
      simp only [VFields.len, List.length_cons, Nat.add_right_cancel_iff] at h
      simp only [vfield]
      split
      · split
        · exact Res.bind_ne_panic (ih1 _) fun _ _ => by simp
        · simp
      · exact Res.bind_ne_panic (ih2 _ _ _ h) fun _ _ => by simp

theorem valt_release_ne_panic : (alts : VAlts) → ∀ tag i, valt .release alts tag i ≠ .panic
  | .nil => by intro tag i; simp [valt]
  | .cons t ty rest => by
    intro tag i
    have ih1 := vparse_release_ne_panic ty
    have ih2 := valt_release_ne_panic rest
    simp only [valt]
    split
    · exact ih1 _
    · exact ih2 _ _
end

theorem parseVlq_le (i : List UInt8) : (parseVlq .debug i).Le (parseVlq .release i) :=
  parseVlq_debug_release i

mutual
/-- Debug and release builds agree unless debug panics. -/
theorem vparse_le : (t : VTy) → ∀ i, (vparse .debug t i).Le (vparse .release t i)
  | .int k => by
    intro i
    simp only [vparse, taggedVlq]
    exact Res.Le.bind (Res.Le.bind (Res.Le.refl _) fun _ => parseVlq_le _) fun _ => Res.Le.refl _
  | .blob => by
    intro i
    simp only [vparse, taggedBlob]
    exact Res.Le.bind (Res.Le.bind (Res.Le.refl _) fun _ =>
      Res.Le.bind (parseVlq_le _) fun _ => Res.Le.refl _) fun _ => Res.Le.refl _
  | .bool => by intro i; exact Res.Le.refl _
  | .fourcc => by intro i; exact Res.Le.refl _
  | .null => by intro i; exact Res.Le.refl _
  | .opt t => by
    intro i
    have ih := vparse_le t
    simp only [vparse]
    refine Res.Le.bind (Res.Le.refl _) fun _ => Res.Le.bind (Res.Le.refl _) fun _ => ?_
    split
    · exact Res.Le.bind (ih _) fun _ => Res.Le.refl _
    · exact Res.Le.refl _
  | .arr t => by
    intro i
    have ih := vparse_le t
    simp only [vparse]
    exact Res.Le.bind (Res.Le.refl _) fun _ => Res.Le.bind (parseVlq_le _) fun _ =>
      Res.Le.bind (repeatN_le _ _ ih _ _) fun _ => Res.Le.refl _
  | .struct fs => by
    intro i
    have ih := vfield_le fs
    simp only [vparse]
    refine Res.Le.bind (Res.Le.refl _) fun _ => Res.Le.bind (parseVlq_le _) fun _ => ?_
    exact Res.Le.bind (iterN_le _ _ (fun s i => Res.Le.bind (parseVlq_le _) fun a => ih _ _ _) _ _ _)
      fun _ => Res.Le.refl _
  | .choice isInt alts => by
    intro i
    have ih := valt_le alts
    simp only [vparse]
    exact Res.Le.bind (Res.Le.refl _) fun _ => Res.Le.bind (parseVlq_le _) fun _ =>
      Res.Le.bind (ih _ _) fun _ => Res.Le.refl _

theorem vfield_le : (fs : VFields) → ∀ tag ss i, (vfield .debug fs tag ss i).Le (vfield .release fs tag ss i)
  | .nil => by intro tag ss i; exact Res.Le.refl _
  | .cons t name dup kind ty rest => by
    intro tag ss i
    have ih1 := vparse_le ty
    have ih2 := vfield_le rest
    cases ss with
    | nil => exact Res.Le.refl _
    | cons s ss =>
      simp only [vfield]
      split
      · split
        · exact Res.Le.bind (ih1 _) fun _ => Res.Le.refl _
        · exact Res.Le.refl _
      · exact Res.Le.bind (ih2 _ _ _) fun _ => Res.Le.refl _

theorem valt_le : (alts : VAlts) → ∀ tag i, (valt .debug alts tag i).Le (valt .release alts tag i)
  | .nil => by intro tag i; exact Res.Le.refl _
  | .cons t ty rest => by
    intro tag i
    have ih1 := vparse_le ty
    have ih2 := valt_le rest
    simp only [valt]
    split
    · exact ih1 _
    · exact ih2 _ _
end

end S2
