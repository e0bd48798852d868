import Verif.Misc.InitDataLemmas
import Verif.Schema.BitPackedSafe
import Verif.Spec.BitPackedEnc
import Verif.Schema.BitPackedRoundTrip
import Verif.Gen.Facts
/-! # `replay.initData` -/
namespace S2

set_option maxRecDepth 100000 in
theorem initData_wf : P87702.BitPacked.ReplaySInitData.wf = true := by decide +kernel

/-- **C92.** Reading the init data: it succeeds with `d` exactly when the bits start with an encoding of the
protocol value that `d` writes back to, with the cache handles in hexadecimal, and all its texts are UTF-8: no
number is truncated, no member is dropped or moved. -/
theorem C92_init_faithful (bld : Build) (sector : List UInt8) (d : LobbySync) :
    readInit bld sector = .ok d ↔
      ∃ (handles : List (List UInt8)) (used rest : List Bool), bytesBits sector = used ++ rest ∧
        BEnc bld P87702.BitPacked.ReplaySInitData 0 (wireInit d handles) used ∧
        d.description.cacheHandles = handles.map hexText ∧ ∀ t ∈ d.texts, utf8Ok t = true := by
  have hc : (Cur.mk sector 0).WF := ⟨by simp, fun _ => rfl⟩
  have hb : (Cur.mk sector 0).bits = bytesBits sector := rfl
  unfold readInit
  simp only [Res.bind_eq_ok, Prod.exists, bparse_iff bld _ initData_wf _ hc, hb]
  constructor
  · rintro ⟨c', v, ⟨used, rest, h1, h2, _⟩, h3⟩
    obtain ⟨d', hs, rfl, hh, hu⟩ := convInit_spec (BEnc_rng _ _ _ _ (by decide) h2)
    obtain ⟨rfl, ht⟩ := hu.ok.mp h3
    exact ⟨hs, used, rest, h1, h2, hh, by simpa [List.all_eq_true] using ht⟩
  · rintro ⟨hs, used, rest, h1, h2, hh, ht⟩
    refine ⟨_, _, ⟨used, rest, h1, h2, rfl⟩, ?_⟩
    obtain ⟨d', hs', hw, hh', hu⟩ := convInit_spec (BEnc_rng _ _ _ _ (by decide) h2)
    have hd : d = d' := wireInit_inj hw hh hh'
    subst hd
    exact hu.ok.mpr ⟨rfl, by simpa [List.all_eq_true] using ht⟩

/-- **C92.** An encoding of a protocol value is read when all its texts are UTF-8, otherwise it gives the UTF-8
error. -/
theorem C92_init_total (bld : Build) (sector : List UInt8) (v : Val) (used rest : List Bool)
    (hs : bytesBits sector = used ++ rest) (henc : BEnc bld P87702.BitPacked.ReplaySInitData 0 v used) :
    ∃ d handles, v = wireInit d handles ∧
      readInit bld sector = if d.texts.all utf8Ok then .ok d else .err .utf8 := by
  have hc : (Cur.mk sector 0).WF := ⟨by simp, fun _ => rfl⟩
  have hp := (bparse_iff bld _ initData_wf _ hc _ _).mpr ⟨used, rest, hs, henc, rfl⟩
  obtain ⟨d, h, hv, _, hu⟩ := convInit_spec (BEnc_rng _ _ _ _ (by decide) henc)
  refine ⟨d, h, hv, ?_⟩
  simp only [readInit, hp, Res.bind_ok]
  exact hu

/-- **C92.** In release builds no bytes make the reader panic. -/
theorem C92_init_no_panic (sector : List UInt8) : readInit .release sector ≠ .panic := by
  have hc : (Cur.mk sector 0).WF := ⟨by simp, fun _ => rfl⟩
  unfold readInit
  refine Res.bind_ne_panic (bparse_release_ne_panic _ _ hc) fun a ha => ?_
  obtain ⟨t, v⟩ := a
  obtain ⟨used, rest, _, henc, _⟩ := (bparse_iff _ _ initData_wf _ hc _ _).mp ha
  obtain ⟨d, h, hv, _, hu⟩ := convInit_spec (BEnc_rng _ _ _ _ (by decide : (0 : Nat) < 8) henc)
  simp only
  rw [show convInit v = _ from hu]
  split <;> simp

/-- Bits as bytes, least significant first, padded with zeros (for the examples). -/
def packBits (bs : List Bool) : List UInt8 :=
  go bs.length bs
where
  go : Nat → List Bool → List UInt8
    | 0, _ => []
    | _, [] => []
    | f + 1, b :: bs =>
      UInt8.ofNat (((b :: bs).take 8).foldr (fun b n => 2 * n + (if b then 1 else 0)) 0) :: go f (bs.drop 7)

/-- An example user. -/
def exUser (name : String) (tag : Option String) : UserInit :=
  ⟨str name, tag.map str, none, some 5, some 300, 4000000000, some 2, none, false, false, true, false, 0, 0, str "h",
    str "s", str "m", str "1-S2-1-5000", some (-5)⟩

/-- An example slot. -/
def exSlot (user slot : Option Int) (hero : String) : LobbySlot :=
  ⟨2, user, 0, some 3, none, 7, 1, 100, 0, 12, str hero, str "s", str "m", [str "a", str "b"], slot, [4000000000, 7],
    str "t", [66], none, str "c", 1, false, none, 0, [1, 2], 0, [⟨3, [9]⟩], 0, [], 0, 0, 0⟩

/-- An example game description. -/
def exDesc (cacheName : String) (handles : List (List UInt8)) : GameDescription :=
  ⟨123456, str cacheName, ⟨true, false, false, false, true, true, true, false, false, false, false, 0, 1, 2, 5, true⟩,
    4, 1, 2, 0, 2, 2, 16, 4, 5, 176, 184, 3000000000, str "f", str "Blizzard", 77, [], 3, 0, handles.map hexText, false,
    false, true, false, false, true⟩

/-- An example of init data. -/
def exInit (users : List UserInit) (slots : List LobbySlot) (cacheName : String) (handles : List (List UInt8)) :
    LobbySync :=
  ⟨users, exDesc cacheName handles, ⟨0, 16, 16, slots, 999, some 0, false, 200, 12345, 3, 0⟩⟩

/-- Its bytes. -/
def exInitBytes (d : LobbySync) (handles : List (List UInt8)) : List UInt8 :=
  packBits (benc P87702.BitPacked.ReplaySInitData 0 (wireInit d handles))

set_option maxRecDepth 100000 in
example : readInit .debug (exInitBytes (exInit [exUser "Ann" (some "TAG"), exUser "Bob" none]
      [exSlot (some 0) (some 0) "h", exSlot (some 1) (some 1) "h"] "cache" [List.replicate 40 7])
      [List.replicate 40 7]) =
    .ok (exInit [exUser "Ann" (some "TAG"), exUser "Bob" none]
      [exSlot (some 0) (some 0) "h", exSlot (some 1) (some 1) "h"] "cache" [List.replicate 40 7]) := by
  decide +kernel

/-- **C93 (partial).** Writing init data and reading it back gives the same init data, for all init data the wire
format can carry in which every text and blob is non-empty (`BHas`) and all texts are UTF-8.  What is missing: empty
texts, see the refutation below. -/
theorem C93_write_read_partial (bld : Build) (d : LobbySync) (handles : List (List UInt8)) (sector : List UInt8)
    (rest : List Bool) (hd : BHas bld P87702.BitPacked.ReplaySInitData (wireInit d handles))
    (hh : d.description.cacheHandles = handles.map hexText) (ht : ∀ t ∈ d.texts, utf8Ok t = true)
    (hs : bytesBits sector = benc P87702.BitPacked.ReplaySInitData 0 (wireInit d handles) ++ rest) :
    readInit bld sector = .ok d :=
  (C92_init_faithful bld sector d).mpr
    ⟨handles, _, rest, hs, benc_enc bld _ 0 _ (by decide) hd, hh, ht⟩

/-- **C93.** The name of the game cache (as any text of the init data) that is empty in the file is not empty in
the result: it is the one-character text U+0000. -/
theorem C93_empty_text_refuted : ¬ ∀ (d : LobbySync) (d' : LobbySync),
    readInit .release (exInitBytes d []) = .ok d' → d.description.gameCacheName = [] →
      d'.description.gameCacheName = [] := by
  intro h
  have := h (exInit [] [] "" []) { exInit [] [] "" [] with description := { exDesc "" [] with gameCacheName := [0] } }
    (by decide +kernel) rfl
  revert this
  decide

end S2
