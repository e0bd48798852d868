import Verif.Gen.Facts
import Verif.Schema.BitPackedRoundTrip
import Verif.Spec.BitPackedIdeal
/-!
# C22 – C27, C64: bit-packed protocol types

`allBitPacked` is every type extracted from the two generated protocol modules.
-/
namespace S2

/-- Every extracted bit-packed type of both protocols. -/
def allBitPacked : List (String × BTy) := P87702.BitPacked.all ++ P75689.BitPacked.all

theorem allBitPacked_wf (p : String × BTy) (hp : p ∈ allBitPacked) : p.2.wf = true := by
  rcases List.mem_append.mp hp with h | h
  · exact bitPacked_all_wf p h
  · exact bitPacked75689_all_wf p h

/-- **C22** parsing succeeds exactly on bit-level wire forms and consumes exactly them. -/
theorem C22_grammar (bld : Build) (p : String × BTy) (hp : p ∈ allBitPacked) (c : Cur) (hc : c.WF)
    (c' : Cur) (v : Val) :
    bparse bld p.2 c = .ok (c', v) ↔
      ∃ used rest, c.bits = used ++ rest ∧ BEnc bld p.2 c.off v used ∧ c' = c.advance used.length :=
  bparse_iff bld p.2 (allBitPacked_wf p hp) c hc c' v

set_option maxRecDepth 100000 in
theorem cms_mem : ("GameSCommandManagerStateEvent", P87702.BitPacked.GameSCommandManagerStateEvent) ∈ allBitPacked :=
  List.mem_append_left _ (List.mem_of_getElem? (i := 210) rfl)

/-- `GameSCommandManagerStateEvent` without a sequence number. -/
example : bparse .debug P87702.BitPacked.GameSCommandManagerStateEvent ⟨[0x01, 7], 0⟩ =
    .ok (⟨[0x01, 7], 3⟩, .struct [.choice 1 .unit, .none]) := by decide +kernel

/-- **C23 (partial)** every value the format can carry is read back, at every bit offset, whatever
follows.  `BHas` leaves out what the code does not read back: empty blobs (`C04_refuted`), `Some` in the
two re-reading options (`C24_refuted`), overflowing 64-bit numbers in debug builds (`C06_refuted`). -/
theorem C23_partial (bld : Build) (p : String × BTy) (hp : p ∈ allBitPacked) (v : Val) (hv : BHas bld p.2 v)
    (c : Cur) (hc : c.WF) (rest : List Bool) (h : c.bits = benc p.2 c.off v ++ rest) :
    bparse bld p.2 c = .ok (c.advance (benc p.2 c.off v).length, v) :=
  bparse_benc bld p.2 (allBitPacked_wf p hp) v hv c hc rest h

/-- Command manager state `EFireOnce` with sequence number 5. -/
def cmsValue : Val := .struct [.choice 1 .unit, .some (.int 5)]

/-- The value is carried by the protocol's own description of the type. -/
theorem cmsValue_has : BHas .debug P87702.BitPacked.GameSCommandManagerStateEvent.ideal cmsValue := by
  refine ⟨_, rfl, _, _, rfl, ⟨1, .unit, rfl, by decide, by decide, by decide, by decide, ?_⟩, _, _, rfl, ?_, rfl⟩
  · simp [BAltHas, BAlts.ideal, BTy.ideal, BHas]
  · right; exact ⟨_, rfl, 5, rfl, by decide, by decide, by decide, by decide, .inl (by decide)⟩

/-- **C23 (refuted)** there is a type, a value and a cursor positioned at an encoding of that value
from which the parser does not return the value. -/
theorem C23_refuted : ¬ ∀ (p : String × BTy), p ∈ allBitPacked → ∀ (v : Val), BHas .debug p.2.ideal v →
    ∀ (c : Cur), c.WF → ∀ rest, c.bits = benc p.2.ideal c.off v ++ rest →
      ∃ c', bparse .debug p.2 c = .ok (c', v) := by
  intro h
  obtain ⟨c', h1⟩ := h ("GameSCommandManagerStateEvent", P87702.BitPacked.GameSCommandManagerStateEvent)
    cms_mem cmsValue cmsValue_has
    ⟨[0x05, 0, 0, 0, 0x04, 0], 0⟩ (by decide) (List.replicate 13 false) (by decide +kernel)
  have h2 : bparse .debug P87702.BitPacked.GameSCommandManagerStateEvent ⟨[0x05, 0, 0, 0, 0x04, 0], 0⟩ ≠
      .ok (c', cmsValue) := by
    intro h
    have h3 : bparse .debug P87702.BitPacked.GameSCommandManagerStateEvent ⟨[0x05, 0, 0, 0, 0x04, 0], 0⟩ =
      .ok (⟨[0x04, 0], 2⟩, .struct [.choice 1 .unit, .some (.int 67108865)]) := by decide +kernel
    rw [h3] at h
    simp [cmsValue] at h
  exact h2 h1

theorem parseBool_cons (c : Cur) (hc : c.WF) (b : Bool) (r : List Bool) (h : c.bits = b :: r) :
    parseBool c = .ok (c.advance 1, b) := by rw [parseBool_bits c hc, h]

/-- **C24 (partial)** an ordinary optional field is one presence bit, then (if set) the value read from
behind that bit.  Missing: the two re-reading fields, see `C24_refuted`. -/
theorem C24_partial (bld : Build) (t : BTy) (c : Cur) (hc : c.WF) :
    (∀ r, c.bits = false :: r → bparse bld (.opt t) c = .ok (c.advance 1, .none)) ∧
    (∀ r c' v, c.bits = true :: r → bparse bld t (c.advance 1) = .ok (c', v) →
      bparse bld (.opt t) c = .ok (c', .some v)) ∧
    (∀ r e, c.bits = true :: r → bparse bld t (c.advance 1) = .err e → bparse bld (.opt t) c = .err e) := by
  refine ⟨?_, ?_, ?_⟩
  · intro r h; simp [bparse, parseBool_cons c hc _ r h]
  · intro r c' v h hv; simp [bparse, parseBool_cons c hc _ r h, hv]
  · intro r e h hv; simp [bparse, parseBool_cons c hc _ r h, hv]

/-- **C24** which extracted types contain a re-reading field: exactly these. -/
theorem C24_extent : (allBitPacked.filter (fun p => p.2.rewinds)).map Prod.fst =
    ["Smd5", "GameSCommandManagerStateEvent", "GameEEventId", "GameEEventId"] := by
  rw [allBitPacked, List.filter_append, List.map_append, bitPacked_rewinding, bitPacked75689_rewinding]; rfl

/-- **C24 (refuted)** `GameSCommandManagerStateEvent.m_sequence`: the two state bits `01`, the presence
bit and the 32-bit number 5 (stored as 4) decode as 67108865, and the cursor ends one bit early. -/
theorem C24_refuted : ¬ ∀ (c : Cur), c.WF → ∀ (t : BTy) (r : List Bool) (c' : Cur) (v : Val),
    c.bits = true :: r → bparse .debug t (c.advance 1) = .ok (c', v) →
    bparse .debug (.optRewind t) c = .ok (c', .some v) := by
  intro h
  have h1 := h ⟨[0x05, 0, 0, 0, 0x04, 0], 2⟩ (by decide) (.int 1 32)
    ((bytesBits [0x05, 0, 0, 0, 0x04, 0]).drop 3) ⟨[0x04, 0], 3⟩ (.int 5) (by decide) (by decide +kernel)
  have h2 : bparse .debug (.optRewind (.int 1 32)) ⟨[0x05, 0, 0, 0, 0x04, 0], 2⟩ =
      .ok (⟨[0x04, 0], 2⟩, .some (.int 67108865)) := by decide +kernel
  rw [h1] at h2
  simp at h2

example : (⟨[0x05, 0], 2⟩ : Cur).bits = true :: (bytesBits [0x05, 0]).drop 3 ∧
    bparse .debug (.opt (.int 0 3)) ⟨[0x05, 0], 2⟩ = .ok (⟨[0x05, 0], 6⟩, .some (.int 0)) := by
  decide +kernel

/-- **C25** release builds never panic; on `Ok` the cursor moved forward by at most the number of unread
bits and is again a legal cursor. -/
theorem C25_forward (p : String × BTy) (hp : p ∈ allBitPacked) (c : Cur) (hc : c.WF) :
    bparse .release p.2 c ≠ .panic ∧
    ∀ c' v, bparse .release p.2 c = .ok (c', v) →
      ∃ k, k ≤ c.bits.length ∧ c' = c.advance k ∧ c'.WF ∧ c'.bits = c.bits.drop k := by
  refine ⟨bparse_release_ne_panic p.2 c hc, ?_⟩
  intro c' v h
  obtain ⟨u, r, hb, _, rfl⟩ := (C22_grammar .release p hp c hc c' v).1 h
  have hk : u.length ≤ c.bits.length := by rw [hb]; simp
  exact ⟨u.length, hk, rfl, Cur.advance_WF c _ hk hc, Cur.advance_bits c _⟩

/-- **C25** the same for debug builds, for all types but the two with a 64-bit excess-`2^63` number
(`Int64`, `GameSDetails`), for which see `C06_refuted`; and there debug and release agree. -/
theorem C25_debug (p : String × BTy) (hp : p ∈ allBitPacked)
    (hname : p.1 ≠ "Int64" ∧ p.1 ≠ "GameSDetails") (c : Cur) (hc : c.WF) :
    bparse .debug p.2 c ≠ .panic ∧ bparse .debug p.2 c = bparse .release p.2 c := by
  have hn : p.2.noOverflow = true := by
    cases hno : p.2.noOverflow with
    | true => rfl
    | false =>
      exfalso
      have hmem : p.1 ∈ (allBitPacked.filter (fun p => !p.2.noOverflow)).map Prod.fst :=
        List.mem_map_of_mem (List.mem_filter.mpr ⟨hp, by simp [hno]⟩)
      rw [allBitPacked, List.filter_append, List.map_append, bitPacked_overflowing,
        bitPacked75689_overflowing] at hmem
      simp only [List.append_nil, List.mem_cons, List.not_mem_nil, or_false] at hmem
      rcases hmem with h | h
      · exact hname.1 h
      · exact hname.2 h
  exact ⟨bparse_debug_ne_panic p.2 hn c hc, bparse_debug_eq_release p.2 hn c hc⟩

example : bparse .debug P87702.BitPacked.Int64 ⟨[0x80, 0, 0, 0, 0, 0, 0, 0], 0⟩ = .panic := by decide +kernel
example : bparse .release P87702.BitPacked.Int64 ⟨[0x80, 0, 0, 0, 0, 0, 0, 5], 0⟩ = .ok (⟨[], 0⟩, .int 5) := by
  decide +kernel

/-- The cursor over the same unread bytes with more bytes appended to the buffer. -/
def Cur.extend (c : Cur) (extra : List UInt8) : Cur := ⟨c.bytes ++ extra, c.off⟩

/-- **C26** appending bytes to the buffer changes nothing: same value, same number of bits consumed,
the appended bytes unread. -/
theorem C26_local (bld : Build) (p : String × BTy) (hp : p ∈ allBitPacked) (c : Cur) (hc : c.WF)
    (extra : List UInt8) (c' : Cur) (v : Val) (h : bparse bld p.2 c = .ok (c', v)) :
    bparse bld p.2 (c.extend extra) = .ok (c'.extend extra, v) := by
  obtain ⟨u, r, hb, he, rfl⟩ := (C22_grammar bld p hp c hc c' v).1 h
  have hlen : c.bits.length = 8 * c.bytes.length - c.off := by
    rw [Cur.bits, List.length_drop, bytesBits_length]
  have hu : u.length ≤ c.bits.length := by rw [hb]; simp
  have hoff : c.off ≤ 8 * c.bytes.length := by
    cases hbs : c.bytes with
    | nil => rw [hc.2 hbs]; simp
    | cons _ _ => have := hc.1; simp; omega
  have hc2 : (c.extend extra).WF := by
    refine ⟨hc.1, ?_⟩
    intro h
    simp only [Cur.extend, List.append_eq_nil_iff] at h
    exact hc.2 h.1
  have hb2 : (c.extend extra).bits = u ++ (r ++ bytesBits extra) := by
    rw [← List.append_assoc, ← hb]
    simp only [Cur.bits, Cur.extend, bytesBits, List.flatMap_append]
    rw [List.drop_append_of_le_length]
    have := bytesBits_length c.bytes
    unfold bytesBits at this
    omega
  refine (C22_grammar bld p hp (c.extend extra) hc2 _ v).2 ⟨u, _, hb2, he, ?_⟩
  simp only [Cur.advance, Cur.extend, Cur.mk.injEq, and_true]
  rw [List.drop_append_of_le_length]
  omega

example : bparse .debug P87702.BitPacked.GameSCommandManagerStateEvent ((⟨[0x01], 0⟩ : Cur).extend [9, 9]) =
    .ok ((⟨[0x01], 3⟩ : Cur).extend [9, 9], .struct [.choice 1 .unit, .none]) :=
  C26_local .debug _ cms_mem ⟨[0x01], 0⟩ (by decide) [9, 9] _ _ (by decide +kernel)

/-- **C27** (bit-packed part) a variant tag without a variant is `UnknownTag`. -/
theorem C27_bit_packed (bld : Build) (n : Nat) (alts : BAlts) (c c1 : Cur) (tag : Int)
    (ht : parsePackedInt bld c 0 n = .ok (c1, tag)) (hno : tag ∉ alts.tags) :
    bparse bld (.choice n alts) c = .err (.unknownTag tag) := by
  have gen : balt bld alts tag c1 = .err (.unknownTag tag) := by
    revert hno
    exact BAlts.rec (motive_1 := fun _ => True) (motive_2 := fun _ => True)
      (motive_3 := fun alts => tag ∉ alts.tags → balt bld alts tag c1 = .err (.unknownTag tag))
      (fun _ _ => trivial) trivial trivial trivial (fun _ => trivial) (fun _ => trivial) (fun _ => trivial)
      (fun _ => trivial) (fun _ => trivial) (fun _ _ _ => trivial) (fun _ _ => trivial) (fun _ _ => trivial)
      (fun _ _ => trivial) (fun _ _ _ => trivial) trivial (fun _ _ _ _ _ => trivial)
      (fun _ => by simp [balt])
      (fun t ty rest _ ih h => by
        simp only [BAlts.tags, List.mem_cons, not_or] at h
        simp [balt, h.1, ih h.2]) alts
  simp only [bparse, ht, Res.bind_ok, gen]
  rfl

/-- **C27** and nothing of a choice is returned without a variant of that tag. -/
theorem C27_known (bld : Build) (n : Nat) (alts : BAlts) (c c' : Cur) (v : Val)
    (h : bparse bld (.choice n alts) c = .ok (c', v)) : ∃ tag w, v = .choice tag w ∧ tag ∈ alts.tags := by
  simp only [bparse] at h
  rw [Res.bind_eq_ok] at h
  obtain ⟨⟨c1, tag⟩, h1, h⟩ := h
  rw [Res.bind_eq_ok] at h
  obtain ⟨⟨c2, w⟩, h2, h⟩ := h
  simp only [Res.pure_eq, Res.ok.injEq, Prod.mk.injEq] at h
  refine ⟨tag, w, h.2.symm, ?_⟩
  apply Classical.byContradiction
  intro hno
  have := C27_bit_packed bld n alts c c1 tag h1 hno
  simp only [bparse, h1, Res.bind_ok, h2] at this
  simp at this

/-- Game event id 127 does not exist. -/
example : bparse .debug P87702.BitPacked.GameEEventId ⟨[0x7f, 0], 0⟩ = .err (.unknownTag 127) := by
  decide +kernel

/-- The lobby-slot parser reached by `read_init_data` for base builds up to 75689:
`protocol75689::bit_packed::ReplaySInitData` is a re-export of the 87702 type
(/repo/src/versions/protocol75689/mod.rs:30-320, /repo/src/versions/mod.rs:113-131), whose lobby slots
are 87702's `GameSLobbySlot`. -/
def lobbySlotUsed75689 : BTy := P87702.BitPacked.GameSLobbySlot

/-- A lobby slot on the wire for the witness below. -/
def slotBytes : List UInt8 := List.replicate 9 0 ++ [1] ++ List.replicate 70 0

/-- **C64 (refuted)** the lobby slots of base builds up to 75689 are not decoded with that protocol's own
layout: there is a wire form of a 75689 lobby slot from which the parser in use reads other values for
the common fields (whatever it reads for the fields 75689 does not have). -/
theorem C64_refuted : ¬ ∀ (c c' : Cur) (vs : List Val), c.WF →
    bparse .release P75689.BitPacked.GameSLobbySlot c = .ok (c', .struct vs) →
    ∃ c'' extra, bparse .release lobbySlotUsed75689 c = .ok (c'', .struct (vs ++ extra)) := by
  intro h
  let fields : Res (Cur × Val) → List Val := fun r => match r with
    | .ok (_, .struct vs) => vs
    | _ => []
  have hok : bparse .release P75689.BitPacked.GameSLobbySlot ⟨slotBytes, 0⟩ =
      .ok ((match bparse .release P75689.BitPacked.GameSLobbySlot ⟨slotBytes, 0⟩ with
        | .ok (c, _) => c | _ => ⟨[], 0⟩),
        .struct (fields (bparse .release P75689.BitPacked.GameSLobbySlot ⟨slotBytes, 0⟩))) := by
    decide +kernel
  obtain ⟨c'', extra, h1⟩ := h ⟨slotBytes, 0⟩ _ _ (by decide) hok
  have h2 := congrArg fields h1
  simp only [fields] at h2
  have h3 := congrArg (List.take 27) h2
  have h4 : ((fields (bparse .release lobbySlotUsed75689 ⟨slotBytes, 0⟩)).take 27) ≠
      fields (bparse .release P75689.BitPacked.GameSLobbySlot ⟨slotBytes, 0⟩) := by decide +kernel
  have h5 : (fields (bparse .release P75689.BitPacked.GameSLobbySlot ⟨slotBytes, 0⟩)).length = 27 := by
    decide +kernel
  apply h4
  refine h3.trans ?_
  rw [List.take_left' h5]

/-- The first `k` fields. -/
def BFields.takeN : Nat → BFields → BFields
  | 0, _ => .nil
  | _ + 1, .nil => .nil
  | k + 1, .cons n t rest => .cons n t (rest.takeN k)

theorem bfields_takeN (bld : Build) : ∀ (k : Nat) (fs gs : BFields) (c c' c'' : Cur) (vs ws : List Val),
    fs.takeN k = gs.takeN k → bfields bld fs c = .ok (c', vs) → bfields bld gs c = .ok (c'', ws) →
    vs.take k = ws.take k
  | 0, _, _, _, _, _, _, _, _, _, _ => by simp
  | k + 1, .nil, .nil, c, c', c'', vs, ws, _, h1, h2 => by simp_all [bfields]
  | k + 1, .nil, .cons .., c, c', c'', vs, ws, h, _, _ => by simp [BFields.takeN] at h
  | k + 1, .cons .., .nil, c, c', c'', vs, ws, h, _, _ => by simp [BFields.takeN] at h
  | k + 1, .cons n t fs, .cons m u gs, c, c', c'', vs, ws, h, h1, h2 => by
    simp only [BFields.takeN, BFields.cons.injEq] at h
    obtain ⟨rfl, rfl, h⟩ := h
    simp only [bfields] at h1 h2
    rw [Res.bind_eq_ok] at h1 h2
    obtain ⟨⟨c1, v⟩, hv, h1⟩ := h1
    obtain ⟨⟨d1, w⟩, hw, h2⟩ := h2
    rw [hv] at hw
    simp only [Res.ok.injEq, Prod.mk.injEq] at hw
    obtain ⟨rfl, rfl⟩ := hw
    rw [Res.bind_eq_ok] at h1 h2
    obtain ⟨⟨c2, vs'⟩, hvs, h1⟩ := h1
    obtain ⟨⟨d2, ws'⟩, hws, h2⟩ := h2
    simp only [Res.pure_eq, Res.ok.injEq, Prod.mk.injEq] at h1 h2
    rw [← h1.2, ← h2.2]
    simp [bfields_takeN bld k fs gs c1 c2 d2 vs' ws' h hvs hws]

/-- Fields of a struct type. -/
def BTy.fields : BTy → BFields
  | .struct fs => fs
  | _ => .nil

/-- **C64 (partial)** the seven fields before `m_handicap` (control, user id, team, colour, race,
difficulty, AI build) are those of the 75689 layout.  Missing: all fields from `m_handicap` on, see
`C64_refuted`. -/
theorem C64_partial (bld : Build) (c c' c'' : Cur) (vs ws : List Val)
    (h1 : bparse bld P75689.BitPacked.GameSLobbySlot c = .ok (c', .struct vs))
    (h2 : bparse bld lobbySlotUsed75689 c = .ok (c'', .struct ws)) : vs.take 7 = ws.take 7 := by
  have key : ∀ (fs : BFields) (c' : Cur) (vs : List Val), bparse bld (.struct fs) c = .ok (c', .struct vs) →
      bfields bld fs c = .ok (c', vs) := by
    intro fs c' vs h
    simp only [bparse] at h
    rw [Res.bind_eq_ok] at h
    obtain ⟨⟨c1, v⟩, hv, h⟩ := h
    simp only [Res.pure_eq, Res.ok.injEq, Prod.mk.injEq, Val.struct.injEq] at h
    rw [hv, h.1, h.2]
  exact bfields_takeN bld 7 P75689.BitPacked.GameSLobbySlot.fields lobbySlotUsed75689.fields c c' c'' vs ws rfl
    (key _ _ _ h1) (key _ _ _ h2)

example : (bparse .release P75689.BitPacked.GameSLobbySlot ⟨slotBytes, 0⟩).isOk = true ∧
    (bparse .release lobbySlotUsed75689 ⟨slotBytes, 0⟩).isOk = true := by decide +kernel

end S2
