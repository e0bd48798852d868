import Verif.Spec.GameFieldSpec
import Verif.Schema.Ranged
import Verif.Props.Events
import Verif.Props.Fields
/-! # Public game and chat events carry the values of their wire fields (C102, C103) -/
namespace S2
open P87702.BitPacked

theorem asU_rng {n N : Nat} {x : Int} (h : -(2 ^ 32) ≤ (0 : Int) → (0 : Int) ≤ 2 ^ 32 → n ≤ 32 → 0 ≤ x ∧ x < 0 + 2 ^ n)
    (hn : n ≤ 32) (hN : n ≤ N) : asU N x = x := by
  obtain ⟨h1, h2⟩ := h (by decide) (by decide) hn
  have : (2 : Int) ^ n ≤ 2 ^ N := by
    have : (2 : Nat) ^ n ≤ 2 ^ N := Nat.pow_le_pow_right (by decide) hN
    exact_mod_cast this
  unfold asU
  exact Int.emod_eq_of_lt h1 (by omega)

theorem asI8_rng {x : Int} (h : -(2 ^ 32) ≤ (-128 : Int) → (-128 : Int) ≤ 2 ^ 32 → 8 ≤ 32 → -128 ≤ x ∧ x < -128 + 2 ^ 8) :
    asI8 x = x := by
  obtain ⟨h1, h2⟩ := h (by decide) (by decide) (by decide)
  unfold asI8
  split <;> omega

theorem asI16_rng {x : Int} (h : -(2 ^ 32) ≤ (-32768 : Int) → (-32768 : Int) ≤ 2 ^ 32 → 16 ≤ 32 → -32768 ≤ x ∧ x < -32768 + 2 ^ 16) :
    asI16 x = x := by
  obtain ⟨h1, h2⟩ := h (by decide) (by decide) (by decide)
  unfold asI16
  split <;> omega

theorem asI32_rng {x : Int} (h : -(2 ^ 32) ≤ (-2147483648 : Int) → (-2147483648 : Int) ≤ 2 ^ 32 → 32 ≤ 32 →
    -2147483648 ≤ x ∧ x < -2147483648 + 2 ^ 32) : asI32 x = x := by
  obtain ⟨h1, h2⟩ := h (by decide) (by decide) (by decide)
  unfold asI32
  split <;> omega

/-- An optional number with a narrowing conversion that keeps it. -/
theorem optRng {k : Int} {n : Nat} {v : Val} {o : Option Int} {f : Int → Int} (h : BRng (.opt (.int k n)) v)
    (ho : v.optInt = .ok o)
    (hf : ∀ x, (-(2 ^ 32) ≤ k → k ≤ 2 ^ 32 → n ≤ 32 → k ≤ x ∧ x < k + 2 ^ n) → f x = x) : v = optNum (o.map f) := by
  have ho := optNum_ok.1 ho
  subst ho
  rcases h with h | ⟨w, h1, x, rfl, hx⟩
  · cases o with
    | none => rfl
    | some y => cases h
  · cases o with
    | none => cases h1
    | some y =>
      simp only [optNum, Val.some.injEq, Val.int.injEq] at h1
      subst h1
      simp only [Option.map_some, optNum, hf y hx]

theorem listRng {k : Int} {n : Nat} {f : Int → Int}
    (hf : ∀ x, (-(2 ^ 32) ≤ k → k ≤ 2 ^ 32 → n ≤ 32 → k ≤ x ∧ x < k + 2 ^ n) → f x = x) :
    ∀ {vs : List Val} {xs : List Int}, (∀ w ∈ vs, BRng (.int k n) w) → Val.ints vs = .ok xs → vs = (xs.map f).map .int := by
  intro vs xs h ho
  have ho := intsVal_ok.1 ho
  subst ho
  congr 1
  symm
  rw [List.map_congr_left (g := id)]
  · simp
  · intro x hx
    obtain ⟨y, hy, hr⟩ := h (.int x) (List.mem_map.2 ⟨x, hx, rfl⟩)
    cases hy
    exact hf x hr

theorem coord_fields {v : Val} {c : MapCoord} (h : BRng GameSMapCoord3D v) (hc : convCoord v = .ok c) : IsCoord c v := by
  obtain ⟨vs, rfl, v0, _, rfl, ⟨x0, rfl, _⟩, v1, _, rfl, ⟨x1, rfl, _⟩, v2, _, rfl, ⟨x2, rfl, h2⟩, rfl⟩ := h
  simp only [convCoord, Res.ok.injEq] at hc
  subst hc
  refine ⟨⟨rfl, rfl⟩, ⟨rfl, rfl⟩, ⟨rfl, ?_⟩⟩
  simp only [asI32_rng h2]; rfl

theorem targetUnit_fields {v : Val} {u : CmdTargetUnit} (h : BRng GameSCmdDataTargetUnit v) (hc : convTargetUnit v = .ok u) :
    IsTargetUnit u v := by
  obtain ⟨vs, rfl, v0, _, rfl, ⟨x0, rfl, h0⟩, v1, _, rfl, ⟨x1, rfl, h1⟩, v2, _, rfl, ⟨x2, rfl, h2⟩, v3, _, rfl, ⟨x3, rfl, h3⟩,
    v4, _, rfl, h4, v5, _, rfl, h5, v6, _, rfl, h6, rfl⟩ := h
  simp only [convTargetUnit, Res.bind_eq_ok, Res.pure_eq, Res.ok.injEq] at hc
  obtain ⟨o4, e4, o5, e5, p, e6, rfl⟩ := hc
  have e4 := optNum_ok.1 e4
  have e5 := optNum_ok.1 e5
  subst e4 e5
  simp only [asU_rng (n := 16) (N := 16) h0 (by decide) (by decide), asU_rng (n := 8) (N := 8) h1 (by decide) (by decide),
    asU_rng (n := 32) (N := 32) h2 (by decide) (by decide), asU_rng (n := 16) (N := 16) h3 (by decide) (by decide)]
  exact ⟨⟨rfl, rfl⟩, ⟨rfl, rfl⟩, ⟨rfl, rfl⟩, ⟨rfl, rfl⟩, ⟨rfl, rfl⟩, ⟨rfl, rfl⟩, _, ⟨rfl, rfl⟩, coord_fields h6 e6⟩

theorem cmdData_fields {v : Val} {d : CmdData} (h : BRng GameSCmdData v) (hc : convCmdData v = .ok d) : IsCmdData d v := by
  obtain ⟨tag, w, rfl, h⟩ := h
  simp only [BAltRng] at h
  split at h
  · subst tag; cases hc; exact ⟨_, _, rfl, by decide +kernel⟩
  split at h
  · subst tag
    simp only [convCmdData, Res.bind_eq_ok, Res.pure_eq, Res.ok.injEq] at hc
    obtain ⟨c, hc, rfl⟩ := hc
    exact ⟨_, ⟨_, rfl, by decide +kernel⟩, coord_fields h hc⟩
  split at h
  · subst tag
    simp only [convCmdData, Res.bind_eq_ok, Res.pure_eq, Res.ok.injEq] at hc
    obtain ⟨c, hc, rfl⟩ := hc
    exact ⟨_, ⟨_, rfl, by decide +kernel⟩, targetUnit_fields h hc⟩
  split at h
  · subst tag
    obtain ⟨x, rfl, hx⟩ := h
    simp only [convCmdData, Res.ok.injEq] at hc
    subst hc
    simp only [asU_rng (n := 32) (N := 32) hx (by decide) (by decide)]
    exact ⟨_, rfl, by decide +kernel⟩
  · exact h.elim

theorem abil_fields {v : Val} {a : CmdAbil} (h : BRng GameSCmdAbil v) (hc : convAbil v = .ok a) : IsAbil a v := by
  obtain ⟨vs, rfl, v0, _, rfl, ⟨x0, rfl, h0⟩, v1, _, rfl, ⟨x1, rfl, _⟩, v2, _, rfl, h2, rfl⟩ := h
  simp only [convAbil, Res.bind_eq_ok, Res.pure_eq, Res.ok.injEq] at hc
  obtain ⟨o, ho, rfl⟩ := hc
  have := optRng (f := asU 8) h2 ho (fun x hx => asU_rng (n := 8) hx (by decide) (by decide))
  simp only [asU_rng (n := 16) (N := 16) h0 (by decide) (by decide)]
  exact ⟨⟨rfl, rfl⟩, ⟨rfl, rfl⟩, ⟨rfl, by rw [← this]; rfl⟩, rfl⟩

theorem mask_fields {v : Val} {m : SelectionMask} (h : BRng GameSSelectionMask v) (hc : convMask v = .ok m) : IsMask m v := by
  obtain ⟨tag, w, rfl, h⟩ := h
  simp only [BAltRng] at h
  split at h
  · subst tag; cases hc; exact ⟨_, _, rfl, by decide +kernel⟩
  split at h
  · subst tag
    obtain ⟨bs, rfl⟩ := h
    cases hc
    exact ⟨_, rfl, by decide +kernel⟩
  split at h
  · subst tag
    obtain ⟨l, rfl, h⟩ := h
    simp only [convMask, Res.bind_eq_ok, Res.pure_eq, Res.ok.injEq] at hc
    obtain ⟨xs, hx, rfl⟩ := hc
    exact ⟨_, by rw [← listRng (f := asU 16) (fun x hx => asU_rng (n := 9) hx (by decide) (by decide)) h hx], by decide +kernel⟩
  split at h
  · subst tag
    obtain ⟨l, rfl, h⟩ := h
    simp only [convMask, Res.bind_eq_ok, Res.pure_eq, Res.ok.injEq] at hc
    obtain ⟨xs, hx, rfl⟩ := hc
    exact ⟨_, by rw [← listRng (f := asU 16) (fun x hx => asU_rng (n := 9) hx (by decide) (by decide)) h hx], by decide +kernel⟩
  · exact h.elim

theorem subgroups_fields : ∀ (vs : List Val) (gs : List SelectionSubgroup),
    (∀ w ∈ vs, BRng GameSSelectionDeltaSubgroup w) → convSubgroups vs = .ok gs → Each IsSubgroup gs vs
  | [], gs, _, hc => by cases hc; exact .nil
  | v :: vs, gs, h, hc => by
    simp only [convSubgroups, Res.bind_eq_ok, Res.pure_eq, Res.ok.injEq] at hc
    obtain ⟨g, h1, gs', h2, rfl⟩ := hc
    refine .cons ?_ (subgroups_fields vs gs' (fun w hw => h w (by simp [hw])) h2)
    obtain ⟨ws, rfl, w0, _, rfl, ⟨y0, rfl, r0⟩, w1, _, rfl, ⟨y1, rfl, r1⟩, w2, _, rfl, ⟨y2, rfl, r2⟩, w3, _, rfl, ⟨y3, rfl, r3⟩, rfl⟩ := h v (by simp)
    simp only [convSubgroup, Res.ok.injEq] at h1
    subst h1
    simp only [asU_rng (n := 16) (N := 16) r0 (by decide) (by decide), asU_rng (n := 8) (N := 8) r1 (by decide) (by decide),
      asU_rng (n := 8) (N := 8) r2 (by decide) (by decide), asU_rng (n := 9) (N := 16) r3 (by decide) (by decide)]
    exact ⟨⟨rfl, rfl⟩, ⟨rfl, rfl⟩, ⟨rfl, rfl⟩, ⟨rfl, rfl⟩⟩

theorem ui_fields {v : Val} {c : UiCoord} (h : BRng GameSuiCoord v) (hc : convUi v = .ok c) : IsUi c v := by
  obtain ⟨vs, rfl, v0, _, rfl, ⟨x0, rfl, h0⟩, v1, _, rfl, ⟨x1, rfl, h1⟩, rfl⟩ := h
  simp only [convUi, Res.ok.injEq] at hc
  subst hc
  simp only [asU_rng (n := 11) (N := 16) h0 (by decide) (by decide), asU_rng (n := 11) (N := 16) h1 (by decide) (by decide)]
  exact ⟨⟨rfl, rfl⟩, ⟨rfl, rfl⟩⟩

theorem groupUpdate_fields {v : Val} {u : GroupUpdate} (hc : convGroupUpdate v = .ok u) :
    ∃ x, IsVariant GameEControlGroupUpdate.variants v (groupUpdateName u) x := by
  unfold convGroupUpdate at hc
  split at hc
  · split at hc <;> first | (cases hc; exact ⟨_, _, rfl, by decide +kernel⟩) | cases hc
  · cases hc

theorem leaveReason_fields {v : Val} {u : LeaveReason} (hc : convLeaveReason v = .ok u) :
    ∃ x, IsVariant ELeaveReason.variants v (leaveReasonName u) x := by
  unfold convLeaveReason at hc
  split at hc
  · split at hc <;> first | (cases hc; exact ⟨_, _, rfl, by decide +kernel⟩) | cases hc
  · cases hc

theorem commandState_fields {v : Val} {u : CommandManagerState} (hc : convCommandState v = .ok u) :
    ∃ x, IsVariant GameECommandManagerState.variants v (commandStateName u) x := by
  unfold convCommandState at hc
  split at hc
  · split at hc <;> first | (cases hc; exact ⟨_, _, rfl, by decide +kernel⟩) | cases hc
  · cases hc

theorem BAltRng_find : ∀ (alts : BAlts) (tag : Int) (v : Val), BAltRng alts tag v →
    ∃ ty, alts.find tag = some ty ∧ BRng ty v
  | .nil, _, _, h => h.elim
  | .cons t ty rest, tag, v, h => by
    simp only [BAltRng] at h
    simp only [BAlts.find]
    split at h
    · exact ⟨ty, by simp [*], h⟩
    · obtain ⟨ty', h1, h2⟩ := BAltRng_find rest tag v h
      exact ⟨ty', by simp [*], h2⟩

theorem other_fields {alts : BAlts} (hs : ∀ q ∈ supportedTypes, alts.find q.1 = some q.2) (tag : Int) (w : Val) (ty : BTy)
    (o : OtherEvt) (hty : alts.find tag = some ty) (hw : BRng ty w) (hc : convOther tag w = .ok o) :
    OtherFields o (.choice tag w) := by
  unfold convOther at hc
  split at hc
  · cases supported_ty (i := 0) hs hty rfl
    obtain ⟨vs, rfl, v0, _, rfl, ⟨x0, rfl, r0⟩, v1, _, rfl, h1, rfl⟩ := hw
    simp only [convDropUser, Res.bind_eq_ok, Res.pure_eq, Res.ok.injEq] at hc
    obtain ⟨r, hr, rfl⟩ := hc
    obtain ⟨x, hx⟩ := leaveReason_fields hr
    simp only [asU_rng (n := 4) (N := 8) r0 (by decide) (by decide)]
    exact ⟨_, _, _, ⟨_, rfl, by decide +kernel⟩, ⟨rfl, rfl⟩, ⟨rfl, rfl⟩, hx⟩
  · cases supported_ty (i := 4) hs hty rfl
    obtain ⟨vs, rfl, v0, _, rfl, ⟨x0, rfl, r0⟩, v1, _, rfl, ⟨ws, rfl, w0, _, rfl, ⟨y0, rfl, q0⟩, w1, _, rfl, ⟨y1, rfl, q1⟩, w2, _, rfl, ⟨y2, rfl, q2⟩,
      w3, _, rfl, ⟨y3, rfl, q3⟩, w4, _, rfl, ⟨y4, rfl, q4⟩, w5, _, rfl, ⟨y5, rfl, q5⟩, rfl⟩, rfl⟩ := hw
    simp only [convSyncCheck, Res.ok.injEq] at hc
    subst hc
    simp only [asU_rng (n := 4) (N := 8) r0 (by decide) (by decide), asU_rng (n := 9) (N := 16) q0 (by decide) (by decide),
      asU_rng (n := 9) (N := 16) q1 (by decide) (by decide), asU_rng (n := 9) (N := 16) q2 (by decide) (by decide),
      asU_rng (n := 32) (N := 32) q3 (by decide) (by decide), asU_rng (n := 32) (N := 32) q4 (by decide) (by decide),
      asU_rng (n := 32) (N := 32) q5 (by decide) (by decide)]
    exact ⟨_, _, ⟨_, rfl, by decide +kernel⟩, ⟨rfl, rfl⟩, ⟨rfl, rfl⟩, ⟨rfl, rfl⟩, ⟨rfl, rfl⟩, ⟨rfl, rfl⟩, ⟨rfl, rfl⟩, ⟨rfl, rfl⟩, ⟨rfl, rfl⟩⟩
  · cases supported_ty (i := 5) hs hty rfl
    obtain ⟨vs, rfl, v0, _, rfl, ⟨x0, rfl⟩, rfl⟩ := hw
    simp only [convTriggerChat, Res.ok.injEq] at hc
    subst hc
    exact ⟨_, _, ⟨_, rfl, by decide +kernel⟩, ⟨rfl, rfl⟩, rfl⟩
  · cases supported_ty (i := 6) hs hty rfl
    obtain ⟨vs, rfl, v0, _, rfl, ⟨x0, rfl, r0⟩, rfl⟩ := hw
    simp only [convUnitClick, Res.ok.injEq, asU_rng (n := 32) (N := 32) r0 (by decide) (by decide)] at hc
    subst hc
    exact ⟨_, ⟨_, rfl, by decide +kernel⟩, ⟨rfl, rfl⟩⟩
  · cases supported_ty (i := 7) hs hty rfl
    obtain ⟨vs, rfl, v0, _, rfl, ⟨x0, rfl, r0⟩, v1, _, rfl, ⟨x1, rfl, r1⟩, rfl⟩ := hw
    simp only [convUnitHighlight, Res.ok.injEq, asU_rng (n := 32) (N := 32) r0 (by decide) (by decide),
      asU_rng (n := 8) (N := 8) r1 (by decide) (by decide)] at hc
    subst hc
    exact ⟨_, ⟨_, rfl, by decide +kernel⟩, ⟨rfl, rfl⟩, ⟨rfl, rfl⟩⟩
  · cases supported_ty (i := 8) hs hty rfl
    obtain ⟨vs, rfl, v0, _, rfl, ⟨x0, rfl, r0⟩, v1, _, rfl, ⟨x1, rfl, r1⟩, rfl⟩ := hw
    simp only [convReplySelected, Res.ok.injEq, asI32_rng r0, asI32_rng r1] at hc
    subst hc
    exact ⟨_, ⟨_, rfl, by decide +kernel⟩, ⟨rfl, rfl⟩, ⟨rfl, rfl⟩⟩
  · cases supported_ty (i := 10) hs hty rfl
    obtain ⟨vs, rfl, v0, _, rfl, ⟨x0, rfl, r0⟩, v1, _, rfl, ⟨x1, rfl⟩, v2, _, rfl, h2, v3, _, rfl, h3, v4, _, rfl, ⟨x4, rfl, r4⟩, rfl⟩ := hw
    simp only [convMouseClicked, Res.bind_eq_ok, Res.pure_eq, Res.ok.injEq, asI8_rng r4,
      asU_rng (n := 32) (N := 32) r0 (by decide) (by decide)] at hc
    obtain ⟨ui, hu, c, hc', rfl⟩ := hc
    exact ⟨_, _, _, ⟨_, rfl, by decide +kernel⟩, ⟨rfl, rfl⟩, ⟨rfl, rfl⟩, ⟨rfl, rfl⟩, ui_fields h2 hu, ⟨rfl, rfl⟩, coord_fields h3 hc', ⟨rfl, rfl⟩⟩
  · cases supported_ty (i := 11) hs hty rfl
    obtain ⟨vs, rfl, v2, _, rfl, h2, v3, _, rfl, h3, v4, _, rfl, ⟨x4, rfl, r4⟩, rfl⟩ := hw
    simp only [convMouseMoved, Res.bind_eq_ok, Res.pure_eq, Res.ok.injEq, asI8_rng r4] at hc
    obtain ⟨ui, hu, c, hc', rfl⟩ := hc
    exact ⟨_, _, _, ⟨_, rfl, by decide +kernel⟩, ⟨rfl, rfl⟩, ui_fields h2 hu, ⟨rfl, rfl⟩, coord_fields h3 hc', ⟨rfl, rfl⟩⟩
  · cases supported_ty (i := 12) hs hty rfl
    obtain ⟨vs, rfl, v0, _, rfl, ⟨x0, rfl, r0⟩, v1, _, rfl, ⟨x1, rfl⟩, rfl⟩ := hw
    simp only [convHotkey, Res.ok.injEq, asU_rng (n := 32) (N := 32) r0 (by decide) (by decide)] at hc
    subst hc
    exact ⟨_, ⟨_, rfl, by decide +kernel⟩, ⟨rfl, rfl⟩, ⟨rfl, rfl⟩⟩
  · cases supported_ty (i := 13) hs hty rfl
    obtain ⟨vs, rfl, v0, _, rfl, ⟨x0, rfl, r0⟩, v1, _, rfl, ⟨x1, rfl, r1⟩, v2, _, rfl, ⟨x2, rfl, r2⟩, rfl⟩ := hw
    simp only [convTargetMode, Res.ok.injEq, asU_rng (n := 16) (N := 16) r0 (by decide) (by decide), asI8_rng r2] at hc
    subst hc
    exact ⟨_, ⟨_, rfl, by decide +kernel⟩, ⟨rfl, rfl⟩, rfl, ⟨rfl, rfl⟩, ⟨rfl, rfl⟩⟩
  · cases supported_ty (i := 14) hs hty rfl
    obtain ⟨vs, rfl, v0, _, rfl, ⟨x0, rfl, r0⟩, v1, _, rfl, ⟨x1, rfl, r1⟩, rfl⟩ := hw
    simp only [convKey, Res.ok.injEq, asI8_rng r0, asI8_rng r1] at hc
    subst hc
    exact ⟨_, ⟨_, rfl, by decide +kernel⟩, ⟨rfl, rfl⟩, ⟨rfl, rfl⟩⟩
  · cases supported_ty (i := 15) hs hty rfl
    obtain ⟨vs, rfl, v0, _, rfl, ⟨x0, rfl, r0⟩, v1, _, rfl, ⟨x1, rfl, r1⟩, rfl⟩ := hw
    simp only [convMouseWheel, Res.ok.injEq, asI16_rng r0, asI8_rng r1] at hc
    subst hc
    exact ⟨_, ⟨_, rfl, by decide +kernel⟩, ⟨rfl, rfl⟩, ⟨rfl, rfl⟩⟩
  · cases supported_ty (i := 16) hs hty rfl
    obtain ⟨vs, rfl, v0, _, rfl, ⟨x0, rfl, r0⟩, rfl⟩ := hw
    simp only [convButton, Res.ok.injEq, asU_rng (n := 16) (N := 16) r0 (by decide) (by decide)] at hc
    subst hc
    exact ⟨_, ⟨_, rfl, by decide +kernel⟩, ⟨rfl, rfl⟩⟩
  · cases supported_ty (i := 17) hs hty rfl
    obtain ⟨vs, rfl, v0, _, rfl, h0, v1, _, rfl, h1, rfl⟩ := hw
    simp only [convCommandManager, Res.bind_eq_ok, Res.pure_eq, Res.ok.injEq] at hc
    obtain ⟨st, hst, q, hq, rfl⟩ := hc
    obtain ⟨y, hy⟩ := commandState_fields hst
    have hq := optNum_ok.1 hq
    subst hq
    exact ⟨_, _, _, ⟨_, rfl, by decide +kernel⟩, ⟨rfl, rfl⟩, hy, ⟨rfl, rfl⟩⟩
  · cases hc

theorem cmd_fields {w : Val} {e : GameEvt} {k0 : Int} {n0 : Nat} {v0 v1 v2 v3 v4 v5 : Val}
    (hv : w = .struct [v0, v1, v2, v3, v4, v5]) (h0 : BRng (.int k0 n0) v0) (h1 : BRng (.opt GameSCmdAbil) v1)
    (h2 : BRng GameSCmdData v2) (h3 : BRng (.int 1 32) v3) (h4 : BRng (.opt (.int 0 32)) v4) (h5 : BRng (.opt (.int 0 32)) v5)
    (hc : convCmd w = .ok e) : GameFields e (.choice 27 w) := by
  subst hv
  obtain ⟨x0, rfl, _⟩ := h0
  obtain ⟨x3, rfl, _⟩ := h3
  simp only [convCmd, Res.bind_eq_ok, Res.pure_eq, Res.ok.injEq] at hc
  obtain ⟨a, ha, d, hd, o, ho, g, hg, rfl⟩ := hc
  have e4 := optRng (f := asU 32) h4 ho (fun x hx => asU_rng (n := 32) hx (by decide) (by decide))
  have e5 := optRng (f := asU 32) h5 hg (fun x hx => asU_rng (n := 32) hx (by decide) (by decide))
  refine ⟨_, _, _, ⟨_, rfl, by decide +kernel⟩, ⟨rfl, rfl⟩, ⟨rfl, rfl⟩, ?_, ⟨rfl, rfl⟩, cmdData_fields h2 hd, ⟨rfl, rfl⟩,
    ⟨rfl, by rw [← e4]; rfl⟩, ⟨rfl, by rw [← e5]; rfl⟩⟩
  rcases h1 with rfl | ⟨w, rfl, h1⟩
  · simp only [Res.ok.injEq] at ha
    subst ha; rfl
  · simp only [Res.bind_eq_ok, Res.ok.injEq] at ha
    obtain ⟨b, hb, rfl⟩ := ha
    exact ⟨_, rfl, abil_fields h1 hb⟩

theorem convGame_fields (version : Nat) (v : Val) (e : GameEvt) (h : BRng (gameEventTy version) v) (hc : convGame v = .ok e) :
    GameFields e v := by
  obtain ⟨alts, n, ha, f27, hs⟩ := gameEventTy_alts version
  rw [ha] at h
  obtain ⟨tag, w, rfl, h⟩ := h
  obtain ⟨ty, hty, hw⟩ := BAltRng_find _ _ _ h
  simp only [convGame] at hc
  split at hc
  · subst tag
    cases supported_ty (i := 1) hs hty rfl
    obtain ⟨vs, rfl, v0, _, rfl, ⟨x0, rfl, _⟩, v1, _, rfl, ⟨ws, rfl, w0, _, rfl, ⟨y0, rfl, _⟩, w1, _, rfl, ⟨y1, rfl, _⟩, rfl⟩, rfl⟩ := hw
    cases hc
    exact ⟨_, _, ⟨_, rfl, by decide +kernel⟩, ⟨rfl, rfl⟩, ⟨rfl, rfl⟩, ⟨rfl, rfl⟩, ⟨rfl, rfl⟩⟩
  split at hc
  · subst tag
    rcases f27 with f27 | f27 <;> rw [f27] at hty <;> cases hty
    · obtain ⟨vs, rfl, v0, _, rfl, h0, v1, _, rfl, h1, v2, _, rfl, h2, v3, _, rfl, h3, v4, _, rfl, h4, v5, _, rfl, h5, rfl⟩ := hw
      exact cmd_fields rfl h0 h1 h2 h3 h4 h5 hc
    · obtain ⟨vs, rfl, v0, _, rfl, h0, v1, _, rfl, h1, v2, _, rfl, h2, v3, _, rfl, h3, v4, _, rfl, h4, v5, _, rfl, h5, rfl⟩ := hw
      exact cmd_fields rfl h0 h1 h2 h3 h4 h5 hc
  split at hc
  · subst tag
    cases supported_ty (i := 2) hs hty rfl
    obtain ⟨vs, rfl, v0, _, rfl, ⟨x0, rfl, r0⟩, v1, _, rfl, ⟨ws, rfl, w0, _, rfl, ⟨y0, rfl, q0⟩, w1, _, rfl, h1,
      w2, _, rfl, ⟨ss, rfl, h2⟩, w3, _, rfl, ⟨ts, rfl, h3⟩, rfl⟩, rfl⟩ := hw
    simp only [convSelectionDelta, Res.bind_eq_ok, Res.pure_eq, Res.ok.injEq, asU_rng (n := 4) (N := 8) r0 (by decide) (by decide),
      asU_rng (n := 9) (N := 16) q0 (by decide) (by decide)] at hc
    obtain ⟨gs, hg, xs, hx, m, hm, rfl⟩ := hc
    exact ⟨_, _, _, _, ⟨_, rfl, by decide +kernel⟩, ⟨rfl, rfl⟩, ⟨rfl, rfl⟩, ⟨rfl, rfl⟩, ⟨rfl, rfl⟩, mask_fields h1 hm, ⟨rfl, rfl⟩,
      subgroups_fields _ _ h2 hg,
      ⟨rfl, by rw [← listRng (f := asU 32) (fun x hx => asU_rng (n := 32) hx (by decide) (by decide)) h3 hx]; rfl⟩⟩
  split at hc
  · subst tag
    cases supported_ty (i := 3) hs hty rfl
    obtain ⟨vs, rfl, v0, _, rfl, ⟨x0, rfl, r0⟩, v1, _, rfl, h1, v2, _, rfl, h2, rfl⟩ := hw
    simp only [convControlGroup, Res.bind_eq_ok, Res.pure_eq, Res.ok.injEq, asU_rng (n := 4) (N := 8) r0 (by decide) (by decide)] at hc
    obtain ⟨u, hu, m, hm, rfl⟩ := hc
    obtain ⟨x, hx⟩ := groupUpdate_fields hu
    exact ⟨_, _, _, _, ⟨_, rfl, by decide +kernel⟩, ⟨rfl, rfl⟩, ⟨rfl, rfl⟩, hx, ⟨rfl, rfl⟩, mask_fields h2 hm⟩
  split at hc
  · subst tag
    cases supported_ty (i := 9) hs hty rfl
    obtain ⟨vs, rfl, v0, _, rfl, h0, v1, _, rfl, h1, v2, _, rfl, h2, v3, _, rfl, h3, v4, _, rfl, h4, v5, _, rfl, ⟨b, rfl⟩, rfl⟩ := hw
    simp only [convCameraUpdate, Res.bind_eq_ok, Res.pure_eq, Res.ok.injEq] at hc
    obtain ⟨t, ht, o1, e1, o2, e2, o3, e3, o4, e4, rfl⟩ := hc
    have e1 := optNum_ok.1 e1
    have e2 := optNum_ok.1 e2
    have e3 := optNum_ok.1 e3
    have e4 := optRng (f := asI8) h4 e4 (fun x hx => asI8_rng hx)
    subst e1 e2 e3
    refine ⟨_, _, ⟨_, rfl, by decide +kernel⟩, ⟨rfl, rfl⟩, ?_, ⟨rfl, rfl⟩, ⟨rfl, rfl⟩, ⟨rfl, rfl⟩, ⟨rfl, by rw [← e4]; rfl⟩, ⟨rfl, rfl⟩⟩
    rcases h0 with rfl | ⟨w, rfl, ⟨ws, rfl, w0, _, rfl, ⟨y0, rfl, _⟩, w1, _, rfl, ⟨y1, rfl, _⟩, rfl⟩⟩
    · cases ht; rfl
    · cases ht; exact ⟨_, rfl, ⟨rfl, rfl⟩, ⟨rfl, rfl⟩⟩
  split at hc
  · subst tag
    cases supported_ty (i := 18) hs hty rfl
    obtain ⟨vs, rfl, v0, _, rfl, h0, rfl⟩ := hw
    simp only [convTargetPointEvt, Res.bind_eq_ok, Res.pure_eq, Res.ok.injEq] at hc
    obtain ⟨c, hcc, rfl⟩ := hc
    exact ⟨_, _, ⟨_, rfl, by decide +kernel⟩, ⟨rfl, rfl⟩, coord_fields h0 hcc⟩
  split at hc
  · subst tag
    cases supported_ty (i := 19) hs hty rfl
    obtain ⟨vs, rfl, v0, _, rfl, h0, rfl⟩ := hw
    simp only [convTargetUnitEvt, Res.bind_eq_ok, Res.pure_eq, Res.ok.injEq] at hc
    obtain ⟨c, hcc, rfl⟩ := hc
    exact ⟨_, _, ⟨_, rfl, by decide +kernel⟩, ⟨rfl, rfl⟩, targetUnit_fields h0 hcc⟩
  · simp only [Res.bind_eq_ok, Res.pure_eq, Res.ok.injEq] at hc
    obtain ⟨o, ho, rfl⟩ := hc
    exact other_fields hs _ _ _ _ hty hw ho

theorem HasField_inj {t : BTy} {v x y : Val} {n : String} (h1 : HasField t v n x) (h2 : HasField t v n y) : x = y := by
  cases t <;> first | exact h1.elim | skip
  cases v <;> first | exact h1.elim | skip
  exact Option.some.inj (h1.2.symm.trans h2.2)

theorem stream_mem {α : Type} {W : α → List UInt8 → Prop} : ∀ {items : List α} {data : List UInt8}, Stream W items data →
    ∀ a ∈ items, ∃ u, W a u
  | [], _, _, _, h => by cases h
  | b :: rest, data, hs, a, h => by
    obtain ⟨u, d, _, hb, hr⟩ := hs
    rcases List.mem_cons.1 h with rfl | h
    · exact ⟨u, hb⟩
    · exact stream_mem hr a h

/-- Any bytes, any protocol: every event in the list of game events is one of the events in the file, with the
delta and the user of that event; its kind is the kind of the same name, and every member has the value of the
wire field of the same name, never a truncated one. -/
theorem C102_game_fields (bld : Build) (version : Nat) (data : List UInt8) (n : Nat) (out : List (Int × Int × GameEvt))
    (h : readGameEvents bld version n data = some (.ok out)) :
    ∃ items, Stream (TripletWire bld (gameEventTy version)) items data ∧
      ∀ (d user : Int) (e : GameEvt), (d, user, e) ∈ out → ∃ v, (d, user, v) ∈ items ∧ GameFields e v := by
  obtain ⟨items, _, hs, rfl⟩ := C30_game_only_streams bld version data n out h
  refine ⟨items, hs, ?_⟩
  intro d u e he
  obtain ⟨⟨d', u', v⟩, hp, hq⟩ := List.mem_filterMap.1 he
  simp only [gameOf] at hq
  cases hc : convGame v with
  | ok x =>
    rw [hc] at hq
    simp only [Res.toOpt, Option.map_some, Option.some.injEq, Prod.mk.injEq] at hq
    obtain ⟨rfl, rfl, rfl⟩ := hq
    refine ⟨v, hp, ?_⟩
    obtain ⟨uu, hw⟩ := stream_mem hs _ hp
    obtain ⟨k, b1, b2, b3, pad, _, _, _, hb, _⟩ := hw
    exact convGame_fields version v x (BEnc_rng _ _ _ _ (Nat.mod_lt _ (by decide)) hb) hc
  | err x => rw [hc] at hq; simp [Res.toOpt] at hq
  | panic => rw [hc] at hq; simp [Res.toOpt] at hq

theorem convMessage_fields (v : Val) (e : ChatEvt) (h : BShape GameEMessageId v) (hc : convMessage v = .ok e) : ChatFields e v := by
  obtain ⟨tag, w, rfl, h⟩ := h
  simp only [BAltShape] at h
  simp only [convMessage] at hc
  split at h
  · subst tag
    obtain ⟨vs, rfl, v0, _, rfl, ⟨r, x, rfl, _⟩, v1, _, rfl, ⟨bs, rfl⟩, rfl⟩ := h
    rw [if_pos rfl] at hc
    simp only [Res.bind_eq_ok, Res.pure_eq, Res.ok.injEq, fromUtf8_eq_ok] at hc
    obtain ⟨t, ⟨rfl, hu⟩, rfl⟩ := hc
    exact ⟨_, _, ⟨_, rfl, by decide +kernel⟩, ⟨rfl, rfl⟩, ⟨rfl, rfl⟩, hu⟩
  · rename_i h0
    rw [if_neg h0] at hc; cases hc

theorem chat_converts (v : Val) (h : BShape GameEMessageId v) (w : Val) (b : List UInt8)
    (hv : IsVariant GameEMessageId.variants v "EChat" w) (hb : HasField GameSChatMessage w "m_string" (.bytes b))
    (hu : utf8Ok b = true) : ∃ e, convMessage v = .ok e := by
  obtain ⟨t, rfl, ht⟩ := hv
  have ht0 : t = 0 := by
    simp only [GameEMessageId.variants, List.mem_cons, List.not_mem_nil, or_false, Prod.mk.injEq, String.reduceEq, and_false, and_true] at ht
    exact ht
  subst ht0
  obtain ⟨tag, w', hw, h⟩ := h
  cases hw
  simp only [BAltShape] at h
  rw [if_pos trivial] at h
  obtain ⟨vs, rfl, v0, _, rfl, ⟨r, x, rfl, _⟩, v1, _, rfl, ⟨bs, rfl⟩, rfl⟩ := h
  have : bs = b := by
    have := hb.2
    have h2 : (some (Val.bytes bs)) = some (.bytes b) := this
    cases h2; rfl
  subst this
  simp only [convMessage, if_pos rfl, fromUtf8_eq_ok.2 ⟨rfl, hu⟩, Res.bind_ok, Res.pure_eq]
  exact ⟨_, rfl⟩

/-- Any bytes: every entry in the list of message events is a chat message of the file, with its delta, its user,
its recipient and its text; and every chat message whose text is UTF-8 is in the list. -/
theorem C103_chat_fields (bld : Build) (data : List UInt8) (n : Nat) (out : List (Int × Int × ChatEvt))
    (h : readMessageEvents bld n data = some (.ok out)) :
    ∃ items, Stream (TripletWire bld GameEMessageId) items data ∧
      (∀ (d user : Int) (e : ChatEvt), (d, user, e) ∈ out → ∃ v, (d, user, v) ∈ items ∧ ChatFields e v) ∧
      (∀ (d user : Int) (v w : Val) (b : List UInt8), (d, user, v) ∈ items → IsVariant GameEMessageId.variants v "EChat" w →
        HasField GameSChatMessage w "m_string" (.bytes b) → utf8Ok b = true → ∃ e, (d, user, e) ∈ out ∧ ChatFields e v ∧ e.text = b) := by
  obtain ⟨items, _, hs, rfl⟩ := C30_message_only_streams bld data n out h
  have shape : ∀ (d u : Int) (v : Val), (d, u, v) ∈ items → BShape GameEMessageId v := by
    intro d u v hp
    obtain ⟨uu, hw⟩ := stream_mem hs _ hp
    obtain ⟨k, b1, b2, b3, pad, _, _, _, hb, _⟩ := hw
    exact BEnc_shape _ _ _ _ hb
  refine ⟨items, hs, ?_, ?_⟩
  · intro d u e he
    obtain ⟨⟨d', u', v⟩, hp, hq⟩ := List.mem_filterMap.1 he
    simp only [messageOf] at hq
    cases hc : convMessage v with
    | ok x =>
      rw [hc] at hq
      simp only [Res.toOpt, Option.map_some, Option.some.injEq, Prod.mk.injEq] at hq
      obtain ⟨rfl, rfl, rfl⟩ := hq
      exact ⟨v, hp, convMessage_fields v x (shape _ _ _ hp) hc⟩
    | err x => rw [hc] at hq; simp [Res.toOpt] at hq
    | panic => rw [hc] at hq; simp [Res.toOpt] at hq
  · intro d u v w b hp hv hb hu
    obtain ⟨e, he⟩ := chat_converts v (shape _ _ _ hp) w b hv hb hu
    have hf := convMessage_fields v e (shape _ _ _ hp) he
    refine ⟨e, List.mem_filterMap.2 ⟨_, hp, by simp [messageOf, he, Res.toOpt]⟩, hf, ?_⟩
    obtain ⟨w', x, ⟨t, hv1, _⟩, _, ht, _⟩ := hf
    obtain ⟨t', hv2, _⟩ := hv
    rw [hv1] at hv2
    cases hv2
    cases HasField_inj hb ht
    rfl

/-- A command on a point, as decoded, and the public event. -/
example : GameFields (.cmd ⟨256, some ⟨42, [], 1, none⟩, .targetPoint ⟨7, 8, -9⟩, 5, none, some 3⟩)
    (.choice 27 (.struct [.int 256, .some (.struct [.int 42, .int 1, .none]), .choice 1 (.struct [.int 7, .int 8, .int (-9)]), .int 5,
      .none, .some (.int 3)])) := by
  refine ⟨_, _, _, ⟨_, rfl, by decide +kernel⟩, ⟨rfl, rfl⟩, ⟨rfl, rfl⟩, ⟨_, rfl, ⟨rfl, rfl⟩, ⟨rfl, rfl⟩, ⟨rfl, rfl⟩, rfl⟩, ⟨rfl, rfl⟩,
    ⟨_, ⟨_, rfl, by decide +kernel⟩, ⟨rfl, rfl⟩, ⟨rfl, rfl⟩, ⟨rfl, rfl⟩⟩, ⟨rfl, rfl⟩, ⟨rfl, rfl⟩, ⟨rfl, rfl⟩⟩

/-- `(delta 5, user 3, chat "hi" to all)`. -/
example (bld : Build) : readMessageEvents bld 100 [0x14, 3, 0, 2, 104, 105] = some (.ok [(5, 3, ⟨0, [104, 105]⟩)]) := by
  cases bld <;> decide +kernel

end S2
