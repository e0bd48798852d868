import Verif.Misc.DetailsLemmas
import Verif.Misc.Handles
import Verif.Schema.ByteAlignedRoundTrip
/-! # `replay.details` and its cache handles -/
namespace S2

/-- **C90.** Reading the details: it succeeds with `d` exactly when the bytes start with an encoding of a
protocol value `v` and `d` says what `v` says. -/
theorem C90_details_faithful (bld : Build) (sector : List UInt8) (d : Details) :
    readDetails bld sector = .ok d ↔
      ∃ (v : Val) (used tail : List UInt8), sector = used ++ tail ∧
        VEnc bld P87702.ByteAligned.GameSDetails v used ∧ DetailsSays v d := by
  unfold readDetails
  simp only [Res.bind_eq_ok, Prod.exists, convDetails_ok, vparse_iff]
  constructor
  · rintro ⟨tail, v, ⟨used, h1, h2⟩, h3⟩; exact ⟨v, used, tail, h1, h2, h3⟩
  · rintro ⟨v, used, tail, h1, h2, h3⟩; exact ⟨tail, v, ⟨used, h1, h2⟩, h3⟩

/-- **C90.** A details value of the protocol converts when all its texts are UTF-8, and otherwise gives the
UTF-8 error: no value makes the conversion panic or fail in another way. -/
theorem C90_details_total (bld : Build) (sector used tail : List UInt8) (v : Val)
    (hs : sector = used ++ tail) (henc : VEnc bld P87702.ByteAligned.GameSDetails v used) :
    if ∀ t ∈ detailsTexts v, utf8Ok t = true then ∃ d, readDetails bld sector = .ok d
    else readDetails bld sector = .err .utf8 := by
  have h := convDetails_total (VEnc_shape _ _ _ henc)
  have hp := (vparse_iff bld _ _ _ _).mpr ⟨used, hs, henc⟩
  simp only [readDetails, hp, Res.bind_ok]
  unfold Utf8Iff at h
  simpa [List.all_eq_true] using h

/-- **C90.** In release builds no bytes make the reader panic. -/
theorem C90_details_no_panic (sector : List UInt8) : readDetails .release sector ≠ .panic := by
  unfold readDetails
  refine Res.bind_ne_panic (vparse_release_ne_panic _ _) fun a ha => ?_
  obtain ⟨t, v⟩ := a
  obtain ⟨used, _, henc⟩ := (vparse_iff _ _ _ _ _).mp ha
  have h := convDetails_total (VEnc_shape _ _ _ henc)
  unfold Utf8Iff at h
  split at h
  · obtain ⟨d, h⟩ := h; simp [h]
  · simp [h]

/-- A player of the example. -/
def exPlayer (name : String) (slot result : Int) : Val :=
  .struct [.bytes (str name), .struct [.int 2, .int 21298, .int 1, .bytes [], .int 5000], .bytes (str "Zerg"),
    .struct [.int 255, .int 180, .int 20, .int 30], .int 2, .int 0, .int 100, .choice 0 .unit, .choice result .unit,
    .some (.int slot), .bytes []]

/-- An example with two players. -/
def exDetails (title : List UInt8) : Val :=
  .struct [.some (.list [exPlayer "Ann" 0 1, exPlayer "Bob" 1 2]), .bytes title, .bytes [],
    .struct [.bytes (str "Minimap.tga")], .bool true, .int 132000000000000000, .int (-36000000000), .none, .bool false,
    .bytes [], .bytes [], .int 0, .bytes [], .some (.list [.bytes [115, 50, 109, 97, 0, 0, 69, 85, 0xab]]), .bool false,
    .choice 4 .unit, .int 3, .none]

/-- What the player of the example becomes. -/
def exPlayerDetails (name : String) (slot : Int) (result : String) : PlayerDetails :=
  ⟨str name, ⟨2, 21298, 1, 5000⟩, str "Zerg", ⟨255, 180, 20, 30⟩, 2, 0, 100, 0, str result, some slot, []⟩

example : readDetails .release (venc P87702.ByteAligned.GameSDetails (exDetails (str "Map"))) = .ok
    { playerList := [exPlayerDetails "Ann" 0 "Win", exPlayerDetails "Bob" 1 "Loss"]
      title := str "Map", difficulty := [], thumbnail := str "Minimap.tga", isBlizzardMap := true
      timeUtc := 132000000000000000, timeLocalOffset := -36000000000, restartAsTransitionMap := none
      disableRecoverGame := false, description := [], imageFilePath := [], campaignIndex := 0, mapFileName := []
      cacheHandles := [str "73326d6100004555ab"], miniSave := false, gameSpeed := str "Faster"
      defaultDifficulty := 3, modPaths := [] } := by
  decide +kernel

/-- A title that is not UTF-8 is an error. -/
example : readDetails .release (venc P87702.ByteAligned.GameSDetails (exDetails [0xff])) = .err .utf8 := by
  decide +kernel

/-- **C90.** The names listed by `get_player_names` are those of the players that do not observe, in order. -/
theorem C90_player_names (d : Details) :
    d.playerNames = (d.playerList.filter (fun u => u.observe = 0)).map (·.name) := by
  unfold Details.playerNames
  induction d.playerList with
  | nil => rfl
  | cons p ps ih => by_cases h : p.observe = 0 <;> simp [h, ih]

/-! ## Cache handles -/

theorem digitValue_hexDigit {i : Nat} (h : i < 16) : digitValue (hexDigit i) = some i := by
  have : ∀ j : Fin 16, digitValue (hexDigit j.val) = some j.val := by decide
  exact this ⟨i, h⟩

theorem toDigit16_hexDigit {i : Nat} (h : i < 16) : toDigit16 (hexDigit i) = some i := by
  have : ∀ j : Fin 16, toDigit16 (hexDigit j.val) = some j.val := by decide
  exact this ⟨i, h⟩

theorem hexDigit_ascii {i : Nat} (h : i < 16) : hexDigit i < 128 := by
  have : ∀ j : Fin 16, hexDigit j.val < 128 := by decide
  exact this ⟨i, h⟩

theorem hexDigit_plus {i : Nat} (h : i < 16) : hexDigit i ≠ 43 := by
  have : ∀ j : Fin 16, hexDigit j.val ≠ 43 := by decide
  exact this ⟨i, h⟩

theorem byte_div (b : UInt8) : b.toNat / 16 < 16 := by have := b.toNat_lt; omega

theorem hexText_length : ∀ bs : List UInt8, (hexText bs).length = 2 * bs.length
  | [] => rfl
  | b :: bs => by simp [hexText, hexByte, hexText_length bs]; omega

theorem hexText_append : ∀ as bs : List UInt8, hexText (as ++ bs) = hexText as ++ hexText bs
  | [], _ => rfl
  | a :: as, bs => by simp [hexText, hexText_append as bs]

/-- **C55.** The text of a byte string has two characters per byte, reads back as the bytes with the ordinary
reading of lowercase hexadecimal digits, and therefore differs for different byte strings. -/
theorem C55_hex_text (bs cs : List UInt8) :
    (hexText bs).length = 2 * bs.length ∧ readHex (hexText bs) = some bs ∧
      (hexText bs = hexText cs → bs = cs) := by
  have key : ∀ l : List UInt8, readHex (hexText l) = some l := by
    intro l
    induction l with
    | nil => rfl
    | cons b l ih =>
      have hb : UInt8.ofNat (16 * (b.toNat / 16) + b.toNat % 16) = b := by
        have : 16 * (b.toNat / 16) + b.toNat % 16 = b.toNat := by omega
        rw [this]; exact UInt8.ofNat_toNat
      simp only [hexText, hexByte, List.cons_append, List.nil_append, readHex, digitValue_hexDigit (byte_div b),
        digitValue_hexDigit (Nat.mod_lt b.toNat (by decide : 16 > 0)), ih]
      exact congrArg (fun x => some (x :: l)) hb
  refine ⟨hexText_length bs, key bs, fun h => ?_⟩
  have := congrArg readHex h
  rw [key, key] at this
  exact Option.some.inj this

theorem hexText_ascii : ∀ (bs : List UInt8) (c : UInt8), c ∈ hexText bs → c < 128
  | [], c, h => by simp [hexText] at h
  | b :: bs, c, h => by
    simp only [hexText, hexByte, List.cons_append, List.nil_append, List.mem_cons] at h
    rcases h with rfl | rfl | h
    · exact hexDigit_ascii (byte_div b)
    · exact hexDigit_ascii (Nat.mod_lt _ (by decide))
    · exact hexText_ascii bs c h

theorem isBoundary_ascii {s : Str} {i : Nat} (h : ∀ c ∈ s, c < 128) (hi : i ≤ s.length) : isBoundary s i = true := by
  unfold isBoundary
  by_cases h1 : i = s.length
  · simp [h1]
  · have h2 : i < s.length := by omega
    have h3 : s[i] < 128 := h _ (List.getElem_mem h2)
    have h4 : ¬ (128 ≤ s[i]) := by
      rw [UInt8.le_iff_toNat_le]; rw [UInt8.lt_iff_toNat_lt] at h3; omega
    simp [List.getElem?_eq_getElem h2, h4]

theorem hexChars_hexText : ∀ bs : List UInt8, hexChars (hexText bs) = .ok (bs.flatMap (fun b => latin1 b.toNat))
  | [] => rfl
  | b :: bs => by
    have hb : 16 * (b.toNat / 16) + b.toNat % 16 = b.toNat := by omega
    simp only [hexText, hexByte, List.cons_append, List.nil_append, hexChars, hexPair,
      if_neg (hexDigit_plus (byte_div b)), toDigit16_hexDigit (byte_div b),
      toDigit16_hexDigit (Nat.mod_lt b.toNat (by decide : 16 > 0)), hexChars_hexText bs, hb, Res.bind_ok, Res.pure_eq,
      List.flatMap_cons]

theorem splitAt_hex {a b : List UInt8} {n : Nat} (h : 2 * a.length = n) :
    splitAt (hexText (a ++ b)) n = .ok (hexText a, hexText b) := by
  unfold splitAt
  rw [if_pos (isBoundary_ascii (hexText_ascii _) (by rw [hexText_length, List.length_append]; omega)), hexText_append,
    List.take_left' (by rw [hexText_length, h]), List.drop_left' (by rw [hexText_length, h])]

/-- Bytes as characters (`U+0000` to `U+00FF`), written in UTF-8. [specification] -/
def asCharacters (bs : List UInt8) : Str := bs.flatMap (fun b => String.utf8EncodeChar (Char.ofNat b.toNat))

theorem latin1_eq (b : UInt8) : latin1 b.toNat = String.utf8EncodeChar (Char.ofNat b.toNat) := by
  have h : ∀ j : Fin 256, latin1 j.val = String.utf8EncodeChar (Char.ofNat j.val) := by decide +kernel
  exact h ⟨b.toNat, b.toNat_lt⟩

theorem latin1_all (bs : List UInt8) : bs.flatMap (fun b => latin1 b.toNat) = asCharacters bs := by
  unfold asCharacters
  congr 1
  funext b
  exact latin1_eq b

/-- **C55.** Of the text of a handle - four bytes extension, two bytes that are skipped, two bytes region, then the
hash - the flat row gets the extension and the region as text and the hash in hexadecimal, unchanged. -/
theorem C55_handle_parts (ext skip region hash : List UInt8) (h1 : ext.length = 4) (h2 : skip.length = 2)
    (h3 : region.length = 2) :
    handleParts (hexText (ext ++ (skip ++ (region ++ hash)))) =
      .ok (asCharacters ext, asCharacters region, hexText hash) := by
  rw [← latin1_all, ← latin1_all]
  unfold handleParts
  rw [splitAt_hex (by omega)]
  simp only [Res.bind_ok, hexChars_hexText]
  rw [splitAt_hex (by omega)]
  simp only [Res.bind_ok]
  rw [splitAt_hex (by omega)]
  simp only [Res.bind_ok, hexChars_hexText, Res.pure_eq]

/-- The upper case form of an ASCII letter. -/
def asciiUpper (c : UInt8) : UInt8 := if 97 ≤ c ∧ c ≤ 122 then c - 32 else c

theorem toDigit16_upper (c : UInt8) : toDigit16 (asciiUpper c) = toDigit16 c ∧ (asciiUpper c = 43 ↔ c = 43) := by
  have h : ∀ j : Fin 256, toDigit16 (asciiUpper (UInt8.ofNat j.val)) = toDigit16 (UInt8.ofNat j.val) ∧
      (asciiUpper (UInt8.ofNat j.val) = 43 ↔ UInt8.ofNat j.val = 43) := by decide +kernel
  have := h ⟨c.toNat, c.toNat_lt⟩
  rwa [UInt8.ofNat_toNat] at this

/-- **C55.** A text of hexadecimal digits is read the same in upper and in lower case. -/
theorem C55_either_case : ∀ (s : Str), hexChars (s.map asciiUpper) = hexChars s
  | [] => rfl
  | [a] => by simp only [List.map_cons, List.map_nil, hexChars, (toDigit16_upper a).1]
  | a :: b :: rest => by
    have h : (asciiUpper a = 43) = (a = 43) := propext (toDigit16_upper a).2
    simp only [List.map_cons, hexChars, hexPair, (toDigit16_upper a).1, (toDigit16_upper b).1, h, C55_either_case rest]

example : handleParts (str "73326d6100004555abcd") = .ok (str "s2ma", str "EU", str "abcd") := by decide +kernel

theorem handleParts_long {b : List UInt8} (h : 8 ≤ b.length) :
    handleParts (hexText b) = .ok (asCharacters (b.take 4),
      asCharacters ((b.drop 6).take 2), hexText (b.drop 8)) := by
  have e : b = b.take 4 ++ ((b.drop 4).take 2 ++ ((b.drop 6).take 2 ++ b.drop 8)) := by
    have e1 := List.take_append_drop 4 b
    have e2 := List.take_append_drop 2 (b.drop 4)
    have e3 := List.take_append_drop 2 (b.drop 6)
    rw [List.drop_drop] at e2 e3
    rw [e3, e2, e1]
  have := C55_handle_parts (b.take 4) ((b.drop 4).take 2) ((b.drop 6).take 2) (b.drop 8)
    (by simp; omega) (by simp; omega) (by simp; omega)
  rwa [← e] at this

theorem handleLoop_long : ∀ (hs : List (List UInt8)) (acc : HandleRow), (∀ b ∈ hs, 8 ≤ b.length) →
    handleLoop (hs.map hexText) acc = .ok
      { extension := acc.extension.or (hs.head?.map fun b => asCharacters (b.take 4))
        region := acc.region.or (hs.head?.map fun b => asCharacters ((b.drop 6).take 2))
        handles := acc.handles ++ hs.flatMap (fun b => hexText (b.drop 8) ++ [44]) }
  | [], acc, _ => by cases acc; simp [handleLoop]
  | b :: hs, acc, h => by
    simp only [List.map_cons, handleLoop, handleParts_long (h b (by simp)), Res.bind_ok]
    rw [handleLoop_long hs _ (fun c hc => h c (by simp [hc]))]
    cases acc with
    | mk r e t => cases r <;> cases e <;> simp

theorem dropLast_commas : ∀ hs : List (List UInt8),
    (hs.flatMap (fun b => b ++ [44])).dropLast = [(44 : UInt8)].intercalate hs
  | [] => rfl
  | [a] => by simp [List.intercalate]
  | a :: b :: hs => by
    have h := dropLast_commas (b :: hs)
    have hne : (b :: hs).flatMap (fun b => b ++ [(44 : UInt8)]) ≠ [] := by simp
    rw [List.flatMap_cons, List.dropLast_append_of_ne_nil hne, h]
    simp [List.intercalate, List.intersperse]

/-- **C91.** When every handle has at least eight bytes the flat row is built: its extension and region are
those of the first handle, and its handles are the hashes of all handles in order, separated by commas. -/
theorem C91_flat_row_partial (hs : List (List UInt8)) (h : ∀ b ∈ hs, 8 ≤ b.length) :
    handleRow (hs.map hexText) = .ok
      { extension := hs.head?.map fun b => asCharacters (b.take 4)
        region := hs.head?.map fun b => asCharacters ((b.drop 6).take 2)
        handles := [(44 : UInt8)].intercalate (hs.map fun b => hexText (b.drop 8)) } := by
  unfold handleRow
  rw [handleLoop_long hs _ h]
  have := dropLast_commas (hs.map fun b => hexText (b.drop 8))
  simp only [List.flatMap_map] at this
  simp [this]

example : handleRow [str "73326d6100004555abcd", str "73326d610000555301"] =
    .ok ⟨some (str "EU"), some (str "s2ma"), str "abcd,01"⟩ := by decide +kernel

theorem splitAt_short {s : Str} {n : Nat} (h : s.length < n) : splitAt s n = .panic := by
  unfold splitAt isBoundary
  rw [List.getElem?_eq_none (by omega)]
  have : (n == s.length) = false := by simp; omega
  simp [this]

theorem handleParts_short {b : List UInt8} (h : b.length < 8) : handleParts (hexText b) = .panic := by
  unfold handleParts
  by_cases h4 : b.length < 4
  · rw [splitAt_short (by rw [hexText_length]; omega)]
    rfl
  · have e : b = b.take 4 ++ b.drop 4 := (List.take_append_drop 4 b).symm
    rw [e, splitAt_hex (by rw [List.length_take]; omega)]
    simp only [Res.bind_ok, hexChars_hexText]
    by_cases h6 : b.length < 6
    · rw [splitAt_short (by rw [hexText_length, List.length_drop]; omega)]
      rfl
    · have e2 : b.drop 4 = (b.drop 4).take 2 ++ (b.drop 4).drop 2 := (List.take_append_drop 2 _).symm
      rw [e2, splitAt_hex (by rw [List.length_take, List.length_drop]; omega)]
      simp only [Res.bind_ok]
      rw [splitAt_short (by rw [hexText_length, List.length_drop, List.length_drop]; omega)]
      rfl

theorem handleLoop_short : ∀ (hs : List (List UInt8)) (acc : HandleRow), (∃ b ∈ hs, b.length < 8) →
    handleLoop (hs.map hexText) acc = .panic
  | [], _, h => by obtain ⟨_, h, _⟩ := h; cases h
  | b :: hs, acc, h => by
    rw [List.map_cons, handleLoop]
    by_cases hb : b.length < 8
    · rw [handleParts_short hb]
      rfl
    · rw [handleParts_long (by omega)]
      simp only [Res.bind_ok]
      refine handleLoop_short hs _ ?_
      obtain ⟨c, hc, hl⟩ := h
      rcases List.mem_cons.1 hc with rfl | hc
      · exact absurd hl hb
      · exact ⟨c, hc, hl⟩

/-- **C91.** The flat row of handles (as bytes) panics exactly when one of them has fewer than eight bytes. -/
theorem C91_panics_exactly (hs : List (List UInt8)) : handleRow (hs.map hexText) = .panic ↔ ∃ b ∈ hs, b.length < 8 := by
  constructor
  · intro h
    apply Classical.byContradiction
    intro hc
    rw [C91_flat_row_partial hs (fun b hb => Nat.le_of_not_lt fun c => hc ⟨b, hb, c⟩)] at h
    cases h
  · intro h
    unfold handleRow
    rw [handleLoop_short hs _ h]
    rfl

/-- **C91.** A details sector is accepted although one of its handles has fewer than eight bytes; building the
flat row of any of its players panics. -/
theorem C91_short_handle_panics_refuted : ¬ ∀ (sector : List UInt8) (d : Details),
    readDetails .release sector = .ok d → handleRow d.cacheHandles ≠ .panic := by
  intro h
  have := h (venc P87702.ByteAligned.GameSDetails (.struct [.none, .bytes [], .bytes [],
    .struct [.bytes []], .bool true, .int 0, .int 0, .none, .bool false,
    .bytes [], .bytes [], .int 0, .bytes [], .some (.list [.bytes [115, 50, 109, 97, 0, 0, 69]]), .bool false,
    .choice 4 .unit, .int 3, .none]))
    ⟨[], [], [], [], true, 0, 0, none, false, [], [], 0, [], [str "73326d61000045"], false, str "Faster", 3, []⟩
    (by decide +kernel)
  exact this (by decide +kernel)

end S2
