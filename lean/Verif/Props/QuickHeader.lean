import Verif.Misc.QuickHeader
import Verif.Props.ByteAligned
/-! # C143: the quick header parser and the full one -/
namespace S2
open P87702.ByteAligned

theorem quickHeader_ok {bld : Build} {i tail sig : List UInt8} {ver : Val} (h : quickHeader bld i = .ok (tail, (sig, ver))) :
    ∃ ub uv, VEnc bld .blob (.bytes sig) ub ∧ VEnc bld SVersion ver uv ∧
      i = STRUCT_TAG :: 0x12 :: 0x00 :: (ub ++ 0x02 :: (uv ++ tail)) := by
  simp only [quickHeader, quickSignature, Res.bind_eq_ok, Prod.exists, Res.pure_eq, Res.ok.injEq, Prod.mk.injEq, tagByte_ok] at h
  obtain ⟨t1, _, rfl, t2, _, rfl, t3, b, ⟨t4, _, rfl, h1⟩, t5, _, rfl, t6, v, h2, rfl, rfl, rfl⟩ := h
  have hb : vparse bld .blob t4 = .ok (0x02 :: t5, .bytes b) := by
    rw [vparse, h1]; rfl
  obtain ⟨ub, rfl, hb'⟩ := (vparse_iff bld _ _ _ _).1 hb
  obtain ⟨uv, rfl, hv⟩ := (vparse_iff bld _ _ _ _).1 h2
  exact ⟨ub, uv, hb', hv, by simp⟩

/-- One byte below 128 is a whole number. -/
theorem vlq_byte (bld : Build) : VlqEnc bld 9 [0x12] ∧ VlqEnc bld 0 [0x00] ∧ VlqEnc bld 1 [0x02] := by
  cases bld <;> refine ⟨⟨by decide, ?_⟩, ⟨by decide, ?_⟩, ⟨by decide, ?_⟩⟩ <;> decide +kernel

/-- **C143.** Whatever both parsers accept, they agree on: the signature and the version of the full header are those
of the quick one. -/
theorem C143_agree (bld : Build) (i tail tail' sig : List UInt8) (ver : Val) (vs : List Val)
    (hq : quickHeader bld i = .ok (tail, (sig, ver))) (hf : vparse bld ReplaySHeader i = .ok (tail', .struct vs)) :
    vs[0]? = some (.bytes sig) ∧ vs[1]? = some ver := by
  obtain ⟨ub, uv, hb, hv, rfl⟩ := quickHeader_ok hq
  obtain ⟨used, e0, hu⟩ := (vparse_iff bld _ _ _ _).1 hf
  rw [ReplaySHeader, VEnc] at hu
  obtain ⟨n, e, vs', es, hn, hl, h1, rfl, hes, hsv⟩ := hu
  cases h1
  simp only [List.cons_append, List.cons.injEq, true_and, List.append_assoc] at e0
  obtain ⟨rfl, e1⟩ := VlqEnc_det (vlq_byte bld).1 hn (r := 0x00 :: (ub ++ 0x02 :: (uv ++ tail))) (by simpa using e0)
  have hl9 : es.length = 9 := by rw [← hl]; decide
  match es, hl9 with
  | en0 :: en1 :: es, _ =>
    obtain ⟨te0, fe0, b0, c0, d0⟩ := hes en0 (by simp)
    obtain ⟨te1, fe1, b1, c1, d1⟩ := hes en1 (by simp)
    simp only [List.flatMap_cons, b0, b1, List.append_assoc] at e1
    obtain ⟨t0, e2⟩ := VlqEnc_det (vlq_byte bld).2.1 c0 (r := ub ++ 0x02 :: (uv ++ tail)) (by simpa using e1)
    rw [← t0, VFieldEnc, if_pos rfl] at d0
    obtain ⟨v0, e3⟩ := VEnc_det hb d0 e2
    obtain ⟨t1, e4⟩ := VlqEnc_det (vlq_byte bld).2.2 c1 (r := uv ++ tail) (by simpa using e3)
    rw [← t1, VFieldEnc, if_neg (by decide), VFieldEnc, if_pos rfl] at d1
    obtain ⟨v1, _⟩ := VEnc_det hv d1 e4
    rw [StructVals] at hsv
    obtain ⟨w0, ws, rfl, f0, hsv⟩ := hsv
    rw [StructVals] at hsv
    obtain ⟨w1, ws, rfl, f1, _⟩ := hsv
    simp only [FieldResult] at f0 f1
    constructor
    · simp only [List.filter_cons, ← t0, decide_true, if_true, List.map_cons, List.cons.injEq] at f0
      simp [← f0.1, v0]
    · simp [← t0, ← t1] at f1
      simp [← f1.1, v1]

/-- **C143, partial.** Of a header written field by field in the order of the format, the quick parser gives signature and version, whatever follows.
Missing: other orders, see the refutation. -/
theorem C143_complete_partial (bld : Build) (sig : List UInt8) (ver : Val) (vs : List Val) (rest : List UInt8)
    (h : VHas ReplaySHeader (.struct (.bytes sig :: ver :: vs))) :
    ∃ tail, quickHeader bld (venc ReplaySHeader (.struct (.bytes sig :: ver :: vs)) ++ rest) = .ok (tail, (sig, ver)) := by
  rw [ReplaySHeader, VHas] at h
  obtain ⟨_, h0, h⟩ := h
  cases h0
  simp only [VFieldsHas] at h
  obtain ⟨_, _, h0, hb, h⟩ := h
  cases h0
  obtain ⟨_, _, h0, hv, h⟩ := h
  cases h0
  have hl : vs.length = 7 := by
    obtain ⟨_, _, rfl, _, _, _, rfl, _, _, _, rfl, _, _, _, rfl, _, _, _, rfl, _, _, _, rfl, _, _, _, rfl, _, rfl⟩ := h
    rfl
  have hbl := fun tail => vparse_venc bld .blob _ rfl hb tail
  have hvl := fun tail => vparse_venc bld SVersion _ (byteAligned_all_wf ("SVersion", SVersion) (by simp [all])) hv tail
  have e9 : encVlq ((((.bytes sig :: ver :: vs) : List Val).length : Nat) : Int) = [0x12] := by
    simp only [List.length_cons, hl]; decide
  refine ⟨((vencFields (.cons 2 "m_type" 2 .mandatory (.int .u8) <| .cons 3 "m_elapsed_game_loops" 3 .mandatory (.int .u32) <|
    .cons 4 "m_use_scaled_time" 4 .mandatory (.bool) <| .cons 5 "m_ngdp_root_key" 5 .mandatory (Smd5) <|
    .cons 6 "m_data_build_num" 6 .mandatory (.int .u32) <| .cons 7 "m_replay_compatibility_hash" 7 .mandatory (Smd5) <|
    .cons 8 "m_ngdp_root_key_is_dev_data" 8 .mandatory (.bool) .nil) vs).flatMap Entry.bytes) ++ rest, ?_⟩
  have z0 : encVlq 0 = [0x00] := by decide
  have z1 : encVlq 1 = [0x02] := by decide
  have hbl' : ∀ tail, taggedBlob bld (venc .blob (.bytes sig) ++ tail) = .ok (tail, sig) := by
    intro tail
    have := hbl tail
    rw [vparse] at this
    simp only [Res.bind_eq_ok, Prod.exists, Res.pure_eq, Res.ok.injEq, Prod.mk.injEq, Val.bytes.injEq] at this
    obtain ⟨t, b, h, rfl, rfl⟩ := this
    exact h
  rw [ReplaySHeader, venc, e9, vencFields, vencFields]
  simp only [List.flatMap_cons, z0, z1, List.cons_append, List.nil_append, List.append_assoc]
  simp only [quickHeader, quickSignature, tagByte, if_true, Res.bind_ok, hbl', hvl]
  rfl

/-- A header: build 87702, 100 game loops. -/
def sampleHeader : Val := .struct [.bytes [0x53, 0x43], sampleVersion, .int 2, .int 100, .bool true,
  .struct [.none, .bytes [1, 2]], .int 87702, .struct [.none, .bytes [3]], .bool false]

theorem sampleHeader_has : VHas ReplaySHeader sampleHeader := by
  have hv : VHas SVersion sampleVersion := by
    refine ⟨_, rfl, _, _, rfl, ⟨1, rfl, by decide, by decide⟩, _, _, rfl, ⟨5, rfl, by decide, by decide⟩,
      _, _, rfl, ⟨0, rfl, by decide, by decide⟩, _, _, rfl, ⟨9, rfl, by decide, by decide⟩,
      _, _, rfl, ⟨87702, rfl, by decide, by decide⟩, _, _, rfl, ⟨87702, rfl, by decide, by decide⟩, rfl⟩
  refine ⟨_, rfl, _, _, rfl, ⟨_, rfl, by decide⟩, _, _, rfl, hv, _, _, rfl, ⟨2, rfl, by decide, by decide⟩,
    _, _, rfl, ⟨100, rfl, by decide, by decide⟩, _, _, rfl, ⟨_, rfl⟩,
    _, _, rfl, ⟨_, rfl, _, _, rfl, .inl rfl, _, _, rfl, ⟨_, rfl, by decide⟩, rfl⟩,
    _, _, rfl, ⟨87702, rfl, by decide, by decide⟩,
    _, _, rfl, ⟨_, rfl, _, _, rfl, .inl rfl, _, _, rfl, ⟨_, rfl, by decide⟩, rfl⟩, _, _, rfl, ⟨_, rfl⟩, rfl⟩

example : (match quickHeader .release (venc ReplaySHeader sampleHeader ++ [7]) with
    | .ok (_, sig, v) => decide (sig = [0x53, 0x43] ∧ v = sampleVersion)
    | _ => false) = true := by decide +kernel

/-- The same header with the version before the signature. -/
def swappedHeader : List UInt8 :=
  [5, 0x12] ++ ([2] ++ sampleVersionBytes) ++ [0, 2, 4, 0x53, 0x43] ++ (venc ReplaySHeader sampleHeader).drop 32

/-- **C143, refuted.** The quick parser does not accept every header: it wants the signature first and the version second, while the order of the
fields does not matter to the full parser; and it accepts headers whose rest is missing. -/
theorem C143_complete_refuted :
    vparse .release ReplaySHeader swappedHeader = .ok ([], sampleHeader) ∧
    quickHeader .release swappedHeader = .err .tag ∧
    (quickHeader .release ([5, 0x12, 0, 2, 4, 0x53, 0x43, 2] ++ sampleVersionBytes)).isOk = true ∧
    (vparse .release ReplaySHeader ([5, 0x12, 0, 2, 4, 0x53, 0x43, 2] ++ sampleVersionBytes)).isOk = false := by
  decide +kernel

end S2
