import Verif.Events.ConvertLemmas
import Verif.Spec.EventSpec
import Verif.Schema.ByteAlignedSize
import Verif.Schema.BitPackedSafe
import Verif.Gen.Facts
/-! # One event: the parsers recognise exactly the wire forms -/
namespace S2

theorem deltaOf_ok {v : Val} {d : Int} : deltaOf v = .ok d ↔ ∃ k, v = .choice k (.int d) := by
  constructor
  · intro h
    unfold deltaOf at h
    split at h <;> simp at h
    subst h; exact ⟨_, rfl⟩
  · rintro ⟨k, rfl⟩; rfl

theorem userIdOf_ok {v : Val} {d : Int} : userIdOf v = .ok d ↔ v = .struct [.int d] := by
  constructor
  · intro h
    unfold userIdOf at h
    split at h <;> simp at h
    subst h; rfl
  · rintro rfl; rfl

theorem parsePair_iff (bld : Build) (i r : List UInt8) (e : Int × Val) :
    parsePair bld i = .ok (r, e) ↔ ∃ u, i = u ++ r ∧ TrackerWire bld e u := by
  simp only [parsePair, Res.bind_eq_ok, Res.pure_eq, Res.ok.injEq, Prod.mk.injEq, TrackerWire]
  constructor
  · rintro ⟨⟨t1, dv⟩, h1, ⟨t2, ev⟩, h2, d, h3, rfl, rfl⟩
    obtain ⟨u1, rfl, h1'⟩ := (vparse_iff ..).1 h1
    obtain ⟨u2, rfl, h2'⟩ := (vparse_iff ..).1 h2
    obtain ⟨k, rfl⟩ := deltaOf_ok.1 h3
    exact ⟨u1 ++ u2, by simp, k, u1, u2, rfl, h1', h2'⟩
  · rintro ⟨u, rfl, k, u1, u2, rfl, h1, h2⟩
    refine ⟨(u2 ++ r, _), (vparse_iff ..).2 ⟨u1, by simp, h1⟩, (r, _), (vparse_iff ..).2 ⟨u2, rfl, h2⟩,
      e.1, rfl, rfl, rfl⟩

theorem TrackerWire_ne_nil {bld : Build} {e : Int × Val} {u : List UInt8} (h : TrackerWire bld e u) : u ≠ [] := by
  obtain ⟨k, u1, u2, rfl, h1, _⟩ := h
  have := VEnc_ne_nil (by decide) h1
  simp [this]

theorem TrackerWire_delta {bld : Build} {e : Int × Val} {u : List UInt8} (h : TrackerWire bld e u) :
    0 ≤ e.1 ∧ e.1 < 2 ^ 32 := by
  obtain ⟨k, u1, u2, rfl, h1, _⟩ := h
  obtain ⟨tag, w, hv, h⟩ := VEnc_shape _ _ _ h1
  cases hv
  simp only [VAltShape] at h
  have key : ∀ k : IntKind, (k = .u8 ∨ k = .u32) → VShape (.int k) (.int e.1) → 0 ≤ e.1 ∧ e.1 < 2 ^ 32 := by
    intro k hk hs
    obtain ⟨x, hx, h1, h2⟩ := hs
    cases hx
    rcases hk with rfl | rfl <;> simp only [IntKind.lo, IntKind.hi] at h1 h2 <;> omega
  split at h
  · exact key _ (.inl rfl) h
  split at h
  · exact key _ (.inr rfl) h
  split at h
  · exact key _ (.inr rfl) h
  split at h
  · exact key _ (.inr rfl) h
  · exact h.elim

theorem TrackerWire_shape {bld : Build} {e : Int × Val} {u : List UInt8} (h : TrackerWire bld e u) :
    Conv.okOr .utf8 (convTracker e.2) := by
  obtain ⟨k, u1, u2, rfl, _, h2⟩ := h
  exact convTracker_shape _ (VEnc_shape _ _ _ h2)

/-- A pure step in a bit parser. -/
theorem Parses.lift {α β : Type} {r : Res α} {g : α → Cur → Res (Cur × β)} {S : α → Nat → β → List Bool → Prop}
    (hg : ∀ a, Parses (g a) (S a)) :
    Parses (fun c => r >>= fun a => g a c) (fun off b u => ∃ a, r = .ok a ∧ S a off b u) := by
  intro c hc c' b
  simp only [Res.bind_eq_ok]
  constructor
  · rintro ⟨a, h1, h2⟩
    obtain ⟨u, rest, e, h, rfl⟩ := (hg a c hc _ _).1 h2
    exact ⟨u, rest, e, ⟨a, h1, h⟩, rfl⟩
  · rintro ⟨u, rest, e, ⟨a, h1, h⟩, rfl⟩
    exact ⟨a, h1, (hg a c hc _ _).2 ⟨u, rest, e, h, rfl⟩⟩

/-- The bits of one triplet. -/
def TripletBits (bld : Build) (ty : BTy) (off : Nat) (e : Int × Int × Val) (u : List Bool) : Prop :=
  ∃ k b1 b2 b3 pad, u = b1 ++ (b2 ++ (b3 ++ pad)) ∧
    BEnc bld P87702.BitPacked.SVarUint32 off (.choice k (.int e.1)) b1 ∧
    BEnc bld P87702.BitPacked.ReplaySGameUserId ((off + b1.length) % 8) (.struct [.int e.2.1]) b2 ∧
    BEnc bld ty ((off + b1.length + b2.length) % 8) e.2.2 b3 ∧
    pad.length = padLen ((off + b1.length + b2.length + b3.length) % 8)

theorem parseTriplet_parses (bld : Build) (ty : BTy) (hw : ty.wf = true) :
    Parses (parseTriplet bld ty) (TripletBits bld ty) := by
  have h := Parses.bind (bparse_parses bld P87702.BitPacked.SVarUint32 (by decide +kernel)) (fun dv =>
    Parses.bind (bparse_parses bld P87702.BitPacked.ReplaySGameUserId (by decide +kernel)) (fun uv =>
    Parses.bind (bparse_parses bld ty hw) (fun ev =>
    Parses.lift (r := deltaOf dv) (fun d =>
    Parses.bind byteAlign_parses (fun _ =>
    Parses.lift (r := userIdOf uv) (fun u =>
    Parses.pure (d, u, ev)))))))
  refine h.congr (fun c _ => rfl) ?_
  intro off e u _
  constructor
  · rintro ⟨dv, b1, r1, rfl, h1, uv, b2, r2, rfl, h2, ev, b3, r3, rfl, h3, d, h4, _, pad, r4, rfl, h5, uid, h6, rfl, rfl⟩
    obtain ⟨k, rfl⟩ := deltaOf_ok.1 h4
    rw [userIdOf_ok] at h6
    subst h6
    refine ⟨k, b1, b2, b3, pad, by simp, h1, h2, ?_, ?_⟩
    · rwa [Nat.mod_add_mod] at h3
    · rw [h5]; congr 1; omega
  · rintro ⟨k, b1, b2, b3, pad, rfl, h1, h2, h3, h4⟩
    refine ⟨_, b1, _, rfl, h1, _, b2, _, rfl, h2, e.2.2, b3, _, rfl, ?_, e.1, rfl, (), pad, [], by simp, ?_, e.2.1, rfl, rfl, rfl⟩
    · rwa [Nat.mod_add_mod]
    · rw [h4]; congr 1; omega

theorem TripletBits_length {bld : Build} {ty : BTy} {e : Int × Int × Val} {u : List Bool}
    (h : TripletBits bld ty 0 e u) : u.length % 8 = 0 := by
  obtain ⟨k, b1, b2, b3, pad, rfl, _, _, _, h4⟩ := h
  simp only [List.length_append, h4, padLen]
  omega

theorem parseTriplet_iff (bld : Build) (ty : BTy) (hw : ty.wf = true) (i : List UInt8) (c' : Cur)
    (e : Int × Int × Val) :
    parseTriplet bld ty ⟨i, 0⟩ = .ok (c', e) ↔ ∃ u r, i = u ++ r ∧ c' = ⟨r, 0⟩ ∧ TripletWire bld ty e u := by
  have hc : (⟨i, 0⟩ : Cur).WF := ⟨Nat.zero_lt_succ 7, fun _ => rfl⟩
  rw [parseTriplet_parses bld ty hw _ hc]
  have hbits : (⟨i, 0⟩ : Cur).bits = bytesBits i := rfl
  have hTW : ∀ u, TripletWire bld ty e u ↔ TripletBits bld ty 0 e (bytesBits u) := by
    intro u; simp only [TripletWire, TripletBits, Nat.zero_add]
  constructor
  · rintro ⟨u, rest, h1, h2, rfl⟩
    rw [hbits] at h1
    have hm := TripletBits_length h2
    obtain ⟨k, hk⟩ : ∃ k, u.length = 8 * k := ⟨u.length / 8, by omega⟩
    have hl : 8 * i.length = u.length + rest.length := by rw [← bytesBits_length, h1]; simp
    have hki : k ≤ i.length := by omega
    have hu : u = bytesBits (i.take k) := by
      have h3 : bytesBits (i.take k) ++ bytesBits (i.drop k) = u ++ rest := by
        rw [← bytesBits_append, List.take_append_drop, h1]
      exact (List.append_inj_left h3 (by rw [bytesBits_length, List.length_take]; omega)).symm
    refine ⟨i.take k, i.drop k, (List.take_append_drop k i).symm, ?_, ?_⟩
    · simp only [Cur.advance, hk]; simp
    · rw [hTW, ← hu]; exact h2
  · rintro ⟨u, r, rfl, rfl, h⟩
    refine ⟨bytesBits u, bytesBits r, by rw [hbits, bytesBits_append], (hTW u).1 h, ?_⟩
    simp only [Cur.advance, bytesBits_length]; simp

theorem bitlen_ne_nil {u : List UInt8} (h : 0 < (bytesBits u).length) : u ≠ [] := by
  rintro rfl; simp [bytesBits] at h

theorem BEnc_choice_length {bld : Build} {n : Nat} {alts : BAlts} {off : Nat} {v : Val} {u : List Bool}
    (h : BEnc bld (.choice n alts) off v u) : n ≤ u.length := by
  obtain ⟨l, d, w, rfl, h1, _⟩ := h
  simp only [List.length_append]; omega

theorem TripletWire_ne_nil {bld : Build} {ty : BTy} {e : Int × Int × Val} {u : List UInt8}
    (h : TripletWire bld ty e u) : u ≠ [] := by
  obtain ⟨k, b1, b2, b3, pad, h0, h1, _⟩ := h
  apply bitlen_ne_nil
  have := BEnc_choice_length h1
  rw [h0]; simp only [List.length_append]; omega

theorem bint_range {bld : Build} {n off : Nat} {x : Int} {u : List Bool} (ho : off < 8) (hn : n ≤ 32)
    (h : BEnc bld (.int 0 n) off (.int x) u) : 0 ≤ x ∧ x < 2 ^ 32 := by
  obtain ⟨_, hl, y, hy, hp⟩ := h
  cases hy
  have hb := bitsVal_lt off u ho
  have hp2 : (2 : Nat) ^ u.length ≤ 2 ^ 32 := Nat.pow_le_pow_right (by decide) (by omega)
  have hv : bitsVal off u < 2 ^ 32 := by omega
  have : toI64 (bitsVal off u) = (bitsVal off u : Int) := by
    unfold toI64
    have h1 : bitsVal off u % 2 ^ 64 = bitsVal off u := Nat.mod_eq_of_lt (by omega)
    simp only [h1]
    rw [if_pos (by omega)]
  rw [this] at hp
  rcases hp with ⟨_, hx⟩ | ⟨_, hn, _⟩
  · omega
  · exfalso; apply hn; unfold inI64 i64Min i64Max; omega

theorem TripletWire_delta {bld : Build} {ty : BTy} {e : Int × Int × Val} {u : List UInt8}
    (h : TripletWire bld ty e u) : 0 ≤ e.1 ∧ e.1 < 2 ^ 32 := by
  obtain ⟨k, b1, b2, b3, pad, h0, h1, _⟩ := h
  obtain ⟨l, d, w, rfl, hl, _, hv, h⟩ := h1
  cases hv
  simp only [BAltEnc] at h
  have ho : (0 + 2) % 8 < 8 := by decide
  split at h
  · exact bint_range ho (by decide) h
  split at h
  · exact bint_range ho (by decide) h
  split at h
  · exact bint_range ho (by decide) h
  split at h
  · exact bint_range ho (by decide) h
  · exact h.elim

theorem TripletWire_user {bld : Build} {ty : BTy} {e : Int × Int × Val} {u : List UInt8}
    (h : TripletWire bld ty e u) : 0 ≤ e.2.1 ∧ e.2.1 < 32 := by
  obtain ⟨k, b1, b2, b3, pad, h0, _, h1, _⟩ := h
  obtain ⟨vs, hv, v, vs', u1, u2, rfl, rfl, h, _⟩ := h1
  cases hv
  obtain ⟨_, hl, y, hy, hp⟩ := h
  cases hy
  have hb := bitsVal_lt (b1.length % 8) u1 (Nat.mod_lt _ (by decide))
  rw [hl] at hb
  have : toI64 (bitsVal (b1.length % 8) u1) = (bitsVal (b1.length % 8) u1 : Int) := by
    unfold toI64
    have h1 : bitsVal (b1.length % 8) u1 % 2 ^ 64 = bitsVal (b1.length % 8) u1 := Nat.mod_eq_of_lt (by omega)
    simp only [h1]
    rw [if_pos (by omega)]
  rw [this] at hp
  rcases hp with ⟨_, hx⟩ | ⟨_, hn, _⟩
  · omega
  · exfalso; apply hn; unfold inI64 i64Min i64Max; omega

theorem gameEventTy_wf (version : Nat) : (gameEventTy version).wf = true := by
  unfold gameEventTy; split
  · decide +kernel
  · decide +kernel

theorem TripletWire_game_shape {bld : Build} {version : Nat} {e : Int × Int × Val} {u : List UInt8}
    (h : TripletWire bld (gameEventTy version) e u) : Conv.okOr .unsupportedEvent (convGame e.2.2) := by
  obtain ⟨k, b1, b2, b3, pad, _, _, _, h, _⟩ := h
  exact convGame_shape version _ (BEnc_shape _ _ _ _ h)

theorem TripletWire_message_shape {bld : Build} {e : Int × Int × Val} {u : List UInt8}
    (h : TripletWire bld P87702.BitPacked.GameEMessageId e u) : convMessage e.2.2 ≠ .panic := by
  obtain ⟨k, b1, b2, b3, pad, _, _, _, h, _⟩ := h
  exact convMessage_shape _ (BEnc_shape _ _ _ _ h)

/-- The parser of single tracker events does not panic in a release build. -/
theorem parsePair_release_ne_panic (i : List UInt8) : parsePair .release i ≠ .panic := by
  unfold parsePair
  refine Res.bind_ne_panic (vparse_release_ne_panic _ _) ?_
  rintro ⟨t1, dv⟩ h1
  refine Res.bind_ne_panic (vparse_release_ne_panic _ _) ?_
  rintro ⟨t2, ev⟩ h2
  refine Res.bind_ne_panic ?_ (fun _ _ => by simp)
  obtain ⟨u, _, h1⟩ := (vparse_iff ..).1 h1
  obtain ⟨k, w, rfl, h⟩ := VEnc_shape _ _ _ h1
  simp only [VAltShape] at h
  have key : ∀ kd : IntKind, VShape (.int kd) w → deltaOf (.choice k w) ≠ .panic := by
    rintro kd ⟨x, rfl, _⟩; simp [deltaOf]
  split at h
  · exact key _ h
  split at h
  · exact key _ h
  split at h
  · exact key _ h
  split at h
  · exact key _ h
  · exact h.elim

/-- Nor does the parser of game and message events. -/
theorem parseTriplet_ne_panic (bld : Build) (ty : BTy) (hn : bld = .release ∨ ty.noOverflow = true)
    (c : Cur) (hc : c.WF) : parseTriplet bld ty c ≠ .panic := by
  unfold parseTriplet
  have hs1 := bparse_safe bld P87702.BitPacked.SVarUint32 (.inr (by decide +kernel)) c hc
  refine Res.bind_ne_panic hs1.1 ?_
  rintro ⟨c1, dv⟩ h1
  have hc1 := hs1.2 _ _ h1
  have hs2 := bparse_safe bld P87702.BitPacked.ReplaySGameUserId (.inr (by decide +kernel)) c1 hc1
  refine Res.bind_ne_panic hs2.1 ?_
  rintro ⟨c2, uv⟩ h2
  have hc2 := hs2.2 _ _ h2
  have hs3 := bparse_safe bld ty hn c2 hc2
  refine Res.bind_ne_panic hs3.1 ?_
  rintro ⟨c3, ev⟩ h3
  have hc3 := hs3.2 _ _ h3
  refine Res.bind_ne_panic ?_ ?_
  · obtain ⟨u, _, _, h1, _⟩ := (bparse_iff _ _ (by decide +kernel) _ hc _ _).1 h1
    obtain ⟨k, w, rfl, h⟩ := BEnc_shape _ _ _ _ h1
    simp only [BAltShape] at h
    have key : ∀ a b, BShape (.int a b) w → deltaOf (.choice k w) ≠ .panic := by
      rintro a b ⟨x, rfl⟩; simp [deltaOf]
    split at h
    · exact key _ _ h
    split at h
    · exact key _ _ h
    split at h
    · exact key _ _ h
    split at h
    · exact key _ _ h
    · exact h.elim
  · intro d hd
    have hs4 := byteAlign_safe c3 hc3
    refine Res.bind_ne_panic hs4.1 ?_
    rintro ⟨c4, _⟩ _
    refine Res.bind_ne_panic ?_ (fun _ _ => by simp)
    obtain ⟨u, _, _, h2, _⟩ := (bparse_iff _ _ (by decide +kernel) _ hc1 _ _).1 h2
    obtain ⟨vs, rfl, v, _, rfl, ⟨x, rfl⟩, rfl⟩ := BEnc_shape _ _ _ _ h2
    simp [userIdOf]

end S2
