import Verif.Misc.CacheLemmas
/-! # Cache file readers (C56, C57, C58, C86, C87) -/
namespace S2.Cache

open S2 S2.CacheSpec

/-- What a parsed `MapInfo` says, field by field. -/
def MapInfo.file (m : MapInfo) : MapFile :=
  { version := m.fileVersion, width := m.cellWidth, height := m.cellHeight,
    s1 := m.firstString, s2 := m.secondString, s3 := m.thirdString, s4 := m.fourthString,
    left := m.cellLeft, bottom := m.cellBottom, right := m.cellRight, top := m.cellTop }

theorem checkBounds_ok {m m' : MapInfo} :
    checkBounds m = .ok m' ↔ m' = m ∧ m.cellLeft < m.cellRight ∧ m.cellBottom < m.cellTop ∧
      m.cellRight ≤ m.cellWidth ∧ m.cellTop ≤ m.cellHeight := by
  unfold checkBounds
  constructor
  · intro h
    split at h; · cases h
    split at h; · cases h
    split at h; · cases h
    split at h; · cases h
    simp only [Res.ok.injEq] at h
    exact ⟨h.symm, by omega, by omega, by omega, by omega⟩
  · rintro ⟨rfl, h1, h2, h3, h4⟩
    rw [if_neg (by omega), if_neg (by omega), if_neg (by omega), if_neg (by omega)]

theorem checkSize_ok {w h : Int} {u : Unit} : checkSize w h = .ok u ↔ w ≤ 256 ∧ h ≤ 256 := by
  unfold checkSize
  split
  · simp; omega
  · simp; omega

/-- `MapInfo::parse` accepts exactly the files that start with the MapInfo layout and whose bounds
are acceptable; it returns what they say and the bytes after the layout. -/
theorem C86_map_info_iff (i tail : List UInt8) (m : MapInfo) :
    MapInfo.parse i = .ok (tail, m) ↔
      (∃ used, i = used ++ tail ∧ MapLayout m.file used) ∧ MapOk m.file := by
  unfold MapInfo.parse
  simp only [Res.bind_eq_ok, Prod.exists, takeB_ok, tagB_ok, leI32_ok, zstr_ok, skipExtra_ok,
    checkBounds_ok, checkSize_ok, takeWhileB_ok, Res.pure_eq, Res.ok.injEq, Prod.mk.injEq]
  constructor
  · rintro ⟨t1, _, ⟨rfl, rfl⟩, t2, ver, ⟨rfl, hver⟩, t3, extra, ⟨rfl, hextra⟩, t4, w, ⟨rfl, hw⟩,
      t5, h, ⟨rfl, hh⟩, _, ⟨hw256, hh256⟩, t6, u8, ⟨rfl, hu8⟩, t7, zeros, ⟨rfl, hz, hz2⟩,
      t8, s1, ⟨rfl, hs1⟩, t9, s2, ⟨rfl, hs2⟩, t10, u5, ⟨rfl, hu5⟩, t11, s3, ⟨rfl, hs3⟩,
      t12, s4, ⟨rfl, hs4⟩, t13, l, ⟨rfl, hl⟩, t14, b, ⟨rfl, hb⟩, t15, r, ⟨rfl, hr⟩,
      t16, tp, ⟨rfl, htp⟩, m', ⟨rfl, hlr, hbt, hrw, hth⟩, rfl, rfl⟩
    refine ⟨⟨_, ?_, extra, u8, zeros, u5, rfl, ?_⟩, ?_⟩
    · simp only [MapInfo.file, List.append_assoc]
    · refine ⟨hextra, hu8, fun x hx => by simpa using hz x hx, ?_, hs1, hs2, hu5, hs3, hs4,
        hver, hw, hh, hl, hb, hr, htp⟩
      rintro (rfl : s1 = [])
      have := hz2 0 rfl
      simp at this
    · exact ⟨hlr, hrw, hw256, hbt, hth, hh256⟩
  · rintro ⟨⟨used, rfl, extra, u8, zeros, u5, rfl, hextra, hu8, hz, hne, hs1, hs2, hu5, hs3, hs4,
        hver, hw, hh, hl, hb, hr, htp⟩, hlr, hrw, hw256, hbt, hth, hh256⟩
    simp only [List.append_assoc]
    refine ⟨_, _, ⟨rfl, rfl⟩, _, _, ⟨rfl, hver⟩, _, extra, ⟨rfl, hextra⟩, _, _, ⟨rfl, hw⟩,
      _, _, ⟨rfl, hh⟩, (), ⟨hw256, hh256⟩, _, u8, ⟨rfl, hu8⟩, _, zeros,
      ⟨rfl, fun x hx => by simp [hz x hx], ?_⟩,
      _, _, ⟨rfl, hs1⟩, _, _, ⟨rfl, hs2⟩, _, u5, ⟨rfl, hu5⟩, _, _, ⟨rfl, hs3⟩, _, _, ⟨rfl, hs4⟩,
      _, _, ⟨rfl, hl⟩, _, _, ⟨rfl, hb⟩, _, _, ⟨rfl, hr⟩, tail, m.cellTop, ⟨rfl, htp⟩,
      m, ⟨rfl, hlr, hbt, hrw, hth⟩, rfl, rfl⟩
    intro x hx
    change (m.firstString ++ _).head? = some x at hx
    match hs : m.firstString with
    | [] => exact absurd hs hne
    | a :: s =>
      rw [hs] at hx
      simp only [List.cons_append, List.head?_cons, Option.some.injEq] at hx
      subst hx
      have : a ≠ 0 := hs1 a (by simp [MapInfo.file, hs])
      simpa using this

theorem takeB_ne_panic (n : Nat) (i : List UInt8) : takeB n i ≠ .panic := by
  unfold takeB; split <;> simp

theorem tagB_ne_panic (g i : List UInt8) : tagB g i ≠ .panic := by
  unfold tagB; split <;> simp

theorem leI32_ne_panic (i : List UInt8) : leI32 i ≠ .panic := by
  simp [leI32, Res.bind_eq_panic, takeB_ne_panic]

theorem leU16_ne_panic (i : List UInt8) : leU16 i ≠ .panic := by
  simp [leU16, Res.bind_eq_panic, takeB_ne_panic]

theorem zstr_ne_panic (i : List UInt8) : zstr i ≠ .panic := by
  simp [zstr, Res.bind_eq_panic, takeB_ne_panic, takeWhileB]

/-- No byte string makes `MapInfo::parse` panic. -/
theorem C86_map_info_no_panic (i : List UInt8) : MapInfo.parse i ≠ .panic := by
  have h1 : ∀ w h, checkSize w h ≠ .panic := by intro w h; unfold checkSize; split <;> simp
  have h2 : ∀ m, checkBounds m ≠ .panic := by
    intro m; unfold checkBounds; repeat' split
    all_goals simp
  have h3 : ∀ v i, skipExtra v i ≠ .panic := by
    intro v i; unfold skipExtra; split
    · exact takeB_ne_panic _ _
    · simp
  simp [MapInfo.parse, Res.bind_eq_panic, takeB_ne_panic, tagB_ne_panic, leI32_ne_panic, zstr_ne_panic,
    takeWhileB, h1, h2, h3]

/-- A version-20 MapInfo: strings "a","","Dark","Zerus", the given size and bounds, one byte left. -/
def mapBytesOf (w h l b r t : Int) : List UInt8 :=
  str "IpaM" ++ leBytes 4 20 ++ leBytes 4 w ++ leBytes 4 h ++ [1, 0, 0, 0, 1, 0, 0, 0] ++ [0, 0] ++
    [97, 0] ++ [0] ++ [0, 0, 0, 0, 0] ++ str "Dark" ++ [0] ++ str "Zerus" ++ [0] ++
    leBytes 4 l ++ leBytes 4 b ++ leBytes 4 r ++ leBytes 4 t ++ [77]

/-- 10 x 12, bounds left,3,8,9. -/
def mapBytes (left : Int) : List UInt8 := mapBytesOf 10 12 left 3 8 9

/-- Non-vacuity of `C86_map_info_iff`. -/
example : MapInfo.parse (mapBytes 2) = .ok ([77], MapInfo.mk 20 10 12 [97] [] (str "Dark") (str "Zerus") 2 3 8 9) := by
  decide +kernel

/-! ## C56 -/

/-- Every `MapInfo` that parses satisfies the bounds
`left < right ≤ width ≤ 256`, `bottom < top ≤ height ≤ 256`.  Missing from "the playable area lies
inside the map": `0 ≤ left` and `0 ≤ bottom`, see `C56_negative_left_refuted`. -/
theorem C56_bounds_partial (i tail : List UInt8) (m : MapInfo) (h : MapInfo.parse i = .ok (tail, m)) :
    m.cellLeft < m.cellRight ∧ m.cellRight ≤ m.cellWidth ∧ m.cellWidth ≤ 256 ∧
    m.cellBottom < m.cellTop ∧ m.cellTop ≤ m.cellHeight ∧ m.cellHeight ≤ 256 :=
  ((C86_map_info_iff i tail m).1 h).2

/-- A file whose playable area starts outside the map (left = -5), or has a negative width, is
accepted. -/
theorem C56_negative_left_refuted :
    ¬ ∀ (i tail : List UInt8) (m : MapInfo), MapInfo.parse i = .ok (tail, m) → 0 ≤ m.cellLeft ∧ 0 ≤ m.cellBottom := by
  intro h
  have := h (mapBytes (-5)) [77] (MapInfo.mk 20 10 12 [97] [] (str "Dark") (str "Zerus") (-5) 3 8 9)
    (by decide +kernel)
  exact absurd this.1 (by decide)

/-- With non-negative left and bottom, the playable size is positive and fits in the map, in every
build: `cell_dim_playable` and `terrain_dim_playable` are exact. -/
theorem C56_playable_dims_partial (bld : Build) (i tail : List UInt8) (m : MapInfo)
    (h : MapInfo.parse i = .ok (tail, m)) (hl : 0 ≤ m.cellLeft) (hb : 0 ≤ m.cellBottom) :
    m.cellDimPlayable bld = .ok (m.cellRight - m.cellLeft, m.cellTop - m.cellBottom) ∧
    m.terrainDimPlayable bld = .ok (m.cellRight - m.cellLeft + 1, m.cellTop - m.cellBottom + 1) ∧
    m.terrainDimMap bld = .ok (m.cellWidth + 1, m.cellHeight + 1) ∧
    0 < m.cellRight - m.cellLeft ∧ m.cellRight - m.cellLeft ≤ m.cellWidth ∧
    0 < m.cellTop - m.cellBottom ∧ m.cellTop - m.cellBottom ≤ m.cellHeight := by
  obtain ⟨h1, h2, h3, h4, h5, h6⟩ := C56_bounds_partial i tail m h
  have e1 : m.cellDimPlayable bld = .ok (m.cellRight - m.cellLeft, m.cellTop - m.cellBottom) := by
    simp only [MapInfo.cellDimPlayable, i32Op]
    rw [if_pos (by omega), if_pos (by omega)]; rfl
  refine ⟨e1, ?_, ?_, by omega, by omega, by omega, by omega⟩
  · simp only [MapInfo.terrainDimPlayable, e1, Res.bind_ok, i32Op]
    rw [if_pos (by omega), if_pos (by omega)]; rfl
  · simp only [MapInfo.terrainDimMap, i32Op]
    rw [if_pos (by omega), if_pos (by omega)]; rfl

/-! ## C57, C87 -/

theorem heightCells_ok {n : Nat} {i data t d : List UInt8} :
    heightCells n i data = .ok (t, d) ↔ ∃ cells : List (List UInt8), cells.length = n ∧
      (∀ c ∈ cells, c.length = 6 ∧ c.getD 4 0 ≤ 4) ∧ i = cells.flatten ++ t ∧
      d = data ++ cells.map (fun c => c.getD 4 0) := by
  induction n generalizing i data with
  | zero =>
    simp only [heightCells, Res.ok.injEq, Prod.mk.injEq]
    constructor
    · rintro ⟨rfl, rfl⟩; exact ⟨[], rfl, by simp, rfl, by simp⟩
    · rintro ⟨cells, hc, -, rfl, rfl⟩
      have := List.eq_nil_of_length_eq_zero hc
      subst this; simp
  | succ n ih =>
    simp only [heightCells, Res.bind_eq_ok, Prod.exists, takeB_ok]
    constructor
    · rintro ⟨t', b, ⟨rfl, hb⟩, h⟩
      split at h
      · cases h
      · rename_i h4
        obtain ⟨cells, hn, hc, rfl, rfl⟩ := ih.1 h
        refine ⟨b :: cells, by simp [hn], ?_, by simp, by simp⟩
        intro c hcm
        rcases List.mem_cons.1 hcm with rfl | hcm
        · exact ⟨hb, UInt8.not_lt.1 h4⟩
        · exact hc c hcm
    · rintro ⟨cells, hn, hc, rfl, rfl⟩
      match cells, hn with
      | b :: cells, hn =>
        have hb := hc b (by simp)
        refine ⟨cells.flatten ++ t, b, ⟨by simp, hb.1⟩, ?_⟩
        rw [if_neg (UInt8.not_lt.2 hb.2)]
        exact ih.2 ⟨cells, by simpa using hn, fun c h => hc c (by simp [h]), rfl, by simp⟩

theorem flatten_length_six {cells : List (List UInt8)} (h : ∀ c ∈ cells, c.length = 6) :
    cells.flatten.length = 6 * cells.length := by
  induction cells with
  | nil => rfl
  | cons a l ih =>
    have := h a (by simp)
    have := ih (fun c hc => h c (by simp [hc]))
    rw [List.flatten_cons, List.length_append, List.length_cons]; omega

theorem mul_bound {a b : Int} (ha : 0 ≤ a) (ha' : a ≤ 257) (hb : 0 ≤ b) (hb' : b ≤ 257) :
    0 ≤ a * b ∧ a * b ≤ 66049 :=
  ⟨Int.mul_nonneg ha hb, Int.le_trans (Int.mul_le_mul ha' hb' hb (by omega)) (by decide)⟩

/-- For a map of sane size (at most 256 cells each way, not negative), the height map reader
accepts exactly the files that start with the layout of a map of `(width+1) × (height+1)` terrain
points whose cliff levels are all at most 4, and returns the cliff levels in file order, the same
in every build. -/
theorem C87_height_map_iff (bld : Build) (mi : MapInfo) (i tail : List UInt8) (t : T3HeightMap)
    (hw : 0 ≤ mi.cellWidth ∧ mi.cellWidth ≤ 256) (hh : 0 ≤ mi.cellHeight ∧ mi.cellHeight ≤ 256) :
    T3HeightMap.parse bld i mi = .ok (tail, t) ↔
      ∃ cells used, i = used ++ tail ∧ HeightLayout t.width t.height cells used ∧
        t.width = mi.cellWidth + 1 ∧ t.height = mi.cellHeight + 1 ∧
        (cells.length : Int) = t.width * t.height ∧
        (∀ c ∈ cells, c.getD 4 0 ≤ 4) ∧ t.data = cells.map (fun c => c.getD 4 0) := by
  have e65 : leBytes 4 0x65 = [0x65, 0, 0, 0] := by decide
  have hdim : mi.terrainDimMap bld = .ok (mi.cellWidth + 1, mi.cellHeight + 1) := by
    simp only [MapInfo.terrainDimMap, i32Op]
    rw [if_pos (by omega), if_pos (by omega)]; rfl
  obtain ⟨hm0, hm1⟩ := mul_bound (a := mi.cellWidth + 1) (b := mi.cellHeight + 1)
    (by omega) (by omega) (by omega) (by omega)
  generalize hP : (mi.cellWidth + 1) * (mi.cellHeight + 1) = P at hm0 hm1
  have hop : i32Op bld P = .ok P := by unfold i32Op; rw [if_pos (by omega)]
  have hop6 : i32Op bld (P * 6) = .ok (P * 6) := by unfold i32Op; rw [if_pos (by omega)]
  have hus : i32AsUsize (P * 6) = 6 * P.toNat := by unfold i32AsUsize; omega
  unfold T3HeightMap.parse
  simp only [Res.bind_eq_ok, Prod.exists, tagB_ok, leI32_ok, hdim, Res.ok.injEq, Prod.mk.injEq]
  constructor
  · rintro ⟨t1, _, ⟨rfl, rfl⟩, t2, _, ⟨rfl, rfl⟩, t3, w, ⟨rfl, hwi⟩, t4, h, ⟨rfl, hhi⟩, _, _, ⟨rfl, rfl⟩, hr⟩
    split at hr
    · cases hr
    · rename_i hne
      simp only [ne_eq, Prod.mk.injEq, Classical.not_not] at hne
      obtain ⟨rfl, rfl⟩ := hne
      simp only [Res.bind_eq_ok, Prod.exists, takeB_ok, hP, hop, Res.ok.injEq] at hr
      obtain ⟨t5, u, ⟨rfl, hu⟩, _, rfl, _, hw6, hr⟩ := hr
      rw [hop6] at hw6
      simp only [Res.ok.injEq] at hw6
      subst hw6
      split at hr
      · cases hr
      · simp only [Res.bind_eq_ok, Prod.exists, heightCells_ok, Res.pure_eq, Res.ok.injEq, Prod.mk.injEq] at hr
        obtain ⟨t6, d, ⟨cells, hn, hc, rfl, rfl⟩, rfl, rfl⟩ := hr
        refine ⟨cells, _, ?_, ⟨u, rfl, hu, fun c h => (hc c h).1⟩, rfl, rfl, ?_, fun c h => (hc c h).2, by simp⟩
        · simp only [e65, List.append_assoc]
        · show (cells.length : Int) = (mi.cellWidth + 1) * (mi.cellHeight + 1)
          rw [hP]; omega
  · rintro ⟨cells, used, rfl, ⟨u, rfl, hu, hc6⟩, htw, hth, hlen, hc4, hd⟩
    obtain ⟨tw, th, td⟩ := t
    simp only at htw hth hlen hd
    subst htw hth hd
    rw [hP] at hlen
    simp only [e65, List.append_assoc]
    refine ⟨_, _, ⟨rfl, rfl⟩, _, _, ⟨rfl, rfl⟩, _, mi.cellWidth + 1, ⟨rfl, by unfold inI32; omega⟩, _, mi.cellHeight + 1,
      ⟨rfl, by unfold inI32; omega⟩, _, _, ⟨rfl, rfl⟩, ?_⟩
    · rw [if_neg (by simp)]
      simp only [Res.bind_eq_ok, Prod.exists, takeB_ok, hP, hop, Res.ok.injEq]
      refine ⟨_, u, ⟨rfl, hu⟩, _, rfl, _, hop6, ?_⟩
      have hl : (cells.flatten ++ tail).length ≥ 6 * P.toNat := by
        rw [List.length_append, flatten_length_six hc6]; omega
      rw [if_neg (by rw [hus]; omega)]
      simp only [Res.bind_eq_ok, Prod.exists, heightCells_ok, Res.pure_eq, Res.ok.injEq, Prod.mk.injEq]
      exact ⟨_, _, ⟨cells, by omega, fun c h => ⟨hc6 c h, hc4 c h⟩, rfl, rfl⟩, rfl, by simp⟩

theorem T3_width {bld : Build} {i tail : List UInt8} {mi : MapInfo} {t : T3HeightMap}
    (h : T3HeightMap.parse bld i mi = .ok (tail, t)) :
    mi.terrainDimMap bld = .ok (t.width, t.height) ∧ ∀ x ∈ t.data, x ≤ 4 := by
  unfold T3HeightMap.parse at h
  simp only [Res.bind_eq_ok, Prod.exists] at h
  obtain ⟨t1, _, -, t2, _, -, t3, w, -, t4, hh, -, a, b, hd, hr⟩ := h
  split at hr
  · cases hr
  · rename_i hne
    simp only [ne_eq, Prod.mk.injEq, Classical.not_not] at hne
    obtain ⟨rfl, rfl⟩ := hne
    simp only [Res.bind_eq_ok, Prod.exists] at hr
    obtain ⟨_, _, -, _, -, _, -, hr⟩ := hr
    split at hr
    · cases hr
    · simp only [Res.bind_eq_ok, Prod.exists, heightCells_ok, Res.pure_eq, Res.ok.injEq, Prod.mk.injEq] at hr
      obtain ⟨_, _, ⟨cells, _, hc, -, rfl⟩, -, rfl⟩ := hr
      refine ⟨hd, fun x hx => ?_⟩
      simp only [List.nil_append, List.mem_map] at hx
      obtain ⟨c, hcm, rfl⟩ := hx
      exact (hc c hcm).2

/-- Whatever the build, the bytes and the map, a height map that parses has the map's terrain
dimensions and only cliff levels up to 4. -/
theorem C57_levels_and_dims_partial (bld : Build) (j i tail tail' : List UInt8) (mi : MapInfo) (t : T3HeightMap)
    (hm : MapInfo.parse j = .ok (tail', mi)) (h : T3HeightMap.parse bld i mi = .ok (tail, t)) :
    t.width = mi.cellWidth + 1 ∧ t.height = mi.cellHeight + 1 ∧ ∀ x ∈ t.data, x ≤ 4 := by
  obtain ⟨h1, h2⟩ := T3_width h
  obtain ⟨⟨used, -, -, -, -, -, -, -, -, -, -, -, -, -, -, -, -, hw, hh, -⟩, b⟩ := (C86_map_info_iff j tail' mi).1 hm
  unfold inI32 at hw hh
  obtain ⟨-, -, b3, -, -, b6⟩ := b
  simp only [MapInfo.file] at hw hh b3 b6
  simp only [MapInfo.terrainDimMap, i32Op] at h1
  rw [if_pos (by omega), if_pos (by omega)] at h1
  simp only [Res.bind_ok, Res.pure_eq, Res.ok.injEq, Prod.mk.injEq] at h1
  exact ⟨h1.1.symm, h1.2.symm, h2⟩

/-- For a parsed map with non-negative size, the height map has exactly one cell per terrain point.
Missing: negative sizes, see `C57_negative_size_refuted`. -/
theorem C57_cell_count_partial (bld : Build) (j i tail tail' : List UInt8) (mi : MapInfo) (t : T3HeightMap)
    (hm : MapInfo.parse j = .ok (tail', mi)) (hw : 0 ≤ mi.cellWidth) (hh : 0 ≤ mi.cellHeight)
    (h : T3HeightMap.parse bld i mi = .ok (tail, t)) :
    (t.data.length : Int) = (mi.cellWidth + 1) * (mi.cellHeight + 1) := by
  obtain ⟨-, -, h3, -, -, h6⟩ := C56_bounds_partial j tail' mi hm
  obtain ⟨cells, used, -, -, e1, e2, hl, -, hd⟩ :=
    (C87_height_map_iff bld mi i tail t ⟨hw, h3⟩ ⟨hh, h6⟩).1 h
  rw [hd, List.length_map, hl, e1, e2]

/-- In a release build a MapInfo of size -65537 x -65537 is accepted, and with it a height map of
no cells at all, although its dimensions multiply to 2^32. -/
theorem C57_negative_size_refuted :
    ∃ (j i tail tail' : List UInt8) (mi : MapInfo) (t : T3HeightMap),
      MapInfo.parse j = .ok (tail', mi) ∧ T3HeightMap.parse .release i mi = .ok (tail, t) ∧
      t.data = [] ∧ (mi.cellWidth + 1) * (mi.cellHeight + 1) = 4294967296 := by
  refine ⟨mapBytesOf (-65537) (-65537) (-65540) (-65540) (-65537) (-65537),
    str "HMAP" ++ [0x65, 0, 0, 0] ++ leBytes 4 (-65536) ++ leBytes 4 (-65536) ++ List.replicate 16 0, [], [77],
    MapInfo.mk 20 (-65537) (-65537) [97] [] (str "Dark") (str "Zerus") (-65540) (-65540) (-65537) (-65537),
    T3HeightMap.mk (-65536) (-65536) [], ?_, ?_, rfl, by decide⟩ <;> decide +kernel

/-- The same files make a debug build panic in the height map reader. -/
theorem C57_negative_size_panics_refuted :
    ∃ (j i tail' : List UInt8) (mi : MapInfo),
      MapInfo.parse j = .ok (tail', mi) ∧ T3HeightMap.parse .debug i mi = .panic := by
  refine ⟨mapBytesOf (-65537) (-65537) (-65540) (-65540) (-65537) (-65537),
    str "HMAP" ++ [0x65, 0, 0, 0] ++ leBytes 4 (-65536) ++ leBytes 4 (-65536) ++ List.replicate 16 0, [77],
    MapInfo.mk 20 (-65537) (-65537) [97] [] (str "Dark") (str "Zerus") (-65540) (-65540) (-65537) (-65537),
    ?_, ?_⟩ <;> decide +kernel

/-- Non-vacuity: a 1 x 0 map has a 2 x 1 height map. -/
example : T3HeightMap.parse .debug
    (str "HMAP" ++ leBytes 4 0x65 ++ leBytes 4 2 ++ leBytes 4 1 ++ List.replicate 16 0 ++
      [9, 9, 9, 9, 3, 9] ++ [9, 9, 9, 9, 1, 9] ++ [5])
    (MapInfo.mk 20 1 0 [] [] [] [] 0 (-1) 1 0) = .ok ([5], T3HeightMap.mk 2 1 [3, 1]) := by decide +kernel

/-! ## C58, C88 -/

theorem docFields_ok {n : Nat} {i t : List UInt8} {d d' : DocumentHeader} :
    docFields n i d = .ok (t, d') ↔ ∃ fields : List (List UInt8 × List UInt8), fields.length = n ∧
      (∀ f ∈ fields, f.1.length < 2 ^ 16 ∧ f.2.length < 2 ^ 16) ∧
      i = (fields.map fieldBytes).flatten ++ t ∧
      d' = fields.foldl (fun d f => d.setFieldByName f.1 f.2) d := by
  induction n generalizing i d with
  | zero =>
    simp only [docFields, Res.ok.injEq, Prod.mk.injEq]
    constructor
    · rintro ⟨rfl, rfl⟩; exact ⟨[], rfl, by simp, rfl, rfl⟩
    · rintro ⟨fields, hc, -, rfl, rfl⟩
      have := List.eq_nil_of_length_eq_zero hc
      subst this; simp
  | succ n ih =>
    simp only [docFields, Res.bind_eq_ok, Prod.exists, takeB_ok, tagB_ok, leU16_ok]
    constructor
    · rintro ⟨t1, k, ⟨rfl, hk⟩, t2, nm, ⟨rfl, rfl⟩, t3, _, ⟨rfl, rfl⟩, t4, k', ⟨rfl, hk'⟩, t5, v, ⟨rfl, rfl⟩, h⟩
      obtain ⟨fields, hn, hc, rfl, rfl⟩ := ih.1 h
      refine ⟨(nm, v) :: fields, by simp [hn], ?_, by simp [fieldBytes], by simp⟩
      intro f hf
      rcases List.mem_cons.1 hf with rfl | hf
      · exact ⟨hk, hk'⟩
      · exact hc f hf
    · rintro ⟨fields, hn, hc, rfl, rfl⟩
      match fields, hn with
      | (nm, v) :: fields, hn =>
        have hf := hc (nm, v) (by simp)
        simp only [List.map_cons, List.flatten_cons, fieldBytes, List.append_assoc]
        refine ⟨_, _, ⟨rfl, hf.1⟩, _, nm, ⟨rfl, rfl⟩, _, _, ⟨rfl, rfl⟩, _, _, ⟨rfl, hf.2⟩, _, v, ⟨rfl, rfl⟩, ?_⟩
        exact ih.2 ⟨fields, by simpa using hn, fun f h => hc f (by simp [h]), rfl, rfl⟩

/-- What the attributes make of the three text fields. -/
theorem setFields_spec (fields : List (List UInt8 × List UInt8)) (d : DocumentHeader) :
    fields.foldl (fun d f => d.setFieldByName f.1 f.2) d =
      { d with
        name := (((fields.filter (fun f => f.1 == str "DocInfo/Name")).map (·.2)).getLast?).getD d.name
        descriptionLong := (((fields.filter (fun f => f.1 == str "DocInfo/DescLong")).map (·.2)).getLast?).getD d.descriptionLong
        descriptionShort := (((fields.filter (fun f => f.1 == str "DocInfo/DescShort")).map (·.2)).getLast?).getD d.descriptionShort } := by
  have n1 : str "DocInfo/DescLong" ≠ str "DocInfo/Name" := by decide
  have n2 : str "DocInfo/DescShort" ≠ str "DocInfo/Name" := by decide
  have n3 : str "DocInfo/DescShort" ≠ str "DocInfo/DescLong" := by decide
  have hl : ∀ (v x : List UInt8) (l : List (List UInt8)), ((v :: l).getLast?).getD x = (l.getLast?).getD v := by
    intro v x l
    cases l with
    | nil => rfl
    | cons a l => simp [List.getLast?_cons_cons, List.getLast?_cons]
  induction fields generalizing d with
  | nil => simp
  | cons f fields ih =>
    obtain ⟨nm, v⟩ := f
    rw [List.foldl_cons, ih]
    simp only [DocumentHeader.setFieldByName]
    by_cases h1 : nm = str "DocInfo/Name"
    · subst h1; simp [n1.symm, n2.symm, hl]
    · by_cases h2 : nm = str "DocInfo/DescLong"
      · subst h2; simp [n1, n3.symm, hl]
      · by_cases h3 : nm = str "DocInfo/DescShort"
        · subst h3; simp [n2, n3, hl]
        · simp [h1, h2, h3]

theorem checkMod_ok {s : Str} {u : Unit} : checkMod s = .ok u ↔ s = voidMod := by
  unfold checkMod; split <;> simp_all

/-- `DocumentHeader::parse` accepts exactly the inputs that start with a document header of the
Void mod; it reports the four numbers and, for each of the three text fields, the last value given
(empty when absent).  The tail it returns starts right after the field *count*. -/
theorem C88_document_header_iff (i tail : List UInt8) (d : DocumentHeader) :
    DocumentHeader.parse i = .ok (tail, d) ↔
      ∃ pre fields body rest, i = pre ++ tail ∧ tail = body ++ rest ∧
        DocPrefix d.maybeDimensionX1 d.maybeDimensionY1 d.someEpoch1 d.someEpoch2 fields.length pre ∧
        DocFields fields body ∧
        d.modInfo = str "bnet:Void (Mod)/0.0/999,file:Mods/Void.SC2Mod" ∧
        d.name = lastValue (str "DocInfo/Name") fields ∧
        d.descriptionLong = lastValue (str "DocInfo/DescLong") fields ∧
        d.descriptionShort = lastValue (str "DocInfo/DescShort") fields := by
  unfold DocumentHeader.parse
  simp only [Res.bind_eq_ok, Prod.exists, takeB_ok, tagB_ok, leI32_ok, leU16_ok, checkMod_ok,
    docFields_ok, takeWhileB_ok, Res.pure_eq, Res.ok.injEq, Prod.mk.injEq, setFields_spec]
  constructor
  · rintro ⟨t0, _, ⟨rfl, rfl⟩, t1, a, ⟨rfl, ha⟩, t2, b, ⟨rfl, hb⟩, t3, c, ⟨rfl, hc⟩, t4, x1, ⟨rfl, hx1⟩,
      t5, y1, ⟨rfl, hy1⟩, t6, dd, ⟨rfl, hdd⟩, t7, e1, ⟨rfl, he1⟩, t8, e2, ⟨rfl, he2⟩, t9, e, ⟨rfl, he⟩,
      t10, md, ⟨rfl, hmd, hmd2⟩, _, rfl, t11, z, ⟨rfl, hz⟩, t12, cnt, ⟨rfl, hcnt⟩, t13, _, ⟨rfl, rfl⟩,
      t14, d', ⟨fields, hn, hf, rfl, rfl⟩, rfl, rfl⟩
    match z, hz with
    | [z], _ =>
      have := hmd2 z rfl
      simp at this
      subst this hn
      refine ⟨_, fields, _, t14, ?_, ?_, ⟨a, b, c, dd, e, rfl, ha, hb, hc, hdd, he, hx1, hy1, he1, he2, hcnt⟩,
        ⟨rfl, hf⟩, rfl, rfl, rfl, rfl⟩
      · simp only [voidMod, List.append_assoc]
      · simp only [List.append_assoc]
  · rintro ⟨pre, fields, body, rest, rfl, rfl, ⟨a, b, c, dd, e, rfl, ha, hb, hc, hdd, he, hx1, hy1, he1, he2, hcnt⟩,
      ⟨rfl, hf⟩, hmod, hname, hlong, hshort⟩
    simp only [List.append_assoc]
    refine ⟨_, _, ⟨rfl, rfl⟩, _, a, ⟨rfl, ha⟩, _, b, ⟨rfl, hb⟩, _, c, ⟨rfl, hc⟩, _, _, ⟨rfl, hx1⟩,
      _, _, ⟨rfl, hy1⟩, _, dd, ⟨rfl, hdd⟩, _, _, ⟨rfl, he1⟩, _, _, ⟨rfl, he2⟩, _, e, ⟨rfl, he⟩,
      _, voidMod, ⟨rfl, ?_, ?_⟩, (), rfl, _, [0], ⟨rfl, rfl⟩, _, _, ⟨rfl, hcnt⟩, _, _, ⟨rfl, rfl⟩,
      rest, d, ⟨fields, rfl, hf, rfl, ?_⟩, rfl, rfl⟩
    · decide
    · intro x hx
      simp at hx; subst hx; rfl
    · obtain ⟨f1, f2, f3, f4, f5, f6, f7, f8⟩ := d
      simp only at hmod hname hlong hshort
      subst hmod hname hlong hshort
      rfl

/-- No byte string makes it panic. -/
theorem C88_document_header_no_panic (i : List UInt8) : DocumentHeader.parse i ≠ .panic := by
  have h1 : ∀ s, checkMod s ≠ .panic := by intro s; unfold checkMod; split <;> simp
  have h2 : ∀ n i d, docFields n i d ≠ .panic := by
    intro n
    induction n with
    | zero => intro i d; simp [docFields]
    | succ n ih =>
      intro i d
      simp [docFields, Res.bind_eq_panic, takeB_ne_panic, tagB_ne_panic, leU16_ne_panic, ih]
  simp [DocumentHeader.parse, Res.bind_eq_panic, takeB_ne_panic, tagB_ne_panic, leI32_ne_panic, leU16_ne_panic,
    takeWhileB, h1, h2]

/-- A header with one attribute, "DocInfo/Name" = "Map", and one byte after it. -/
def docBytes : List UInt8 :=
  str "H2CS" ++ leBytes 4 8 ++ leBytes 4 21298 ++ leBytes 4 7 ++ leBytes 4 100 ++ leBytes 4 (-2) ++ leBytes 4 0 ++
    leBytes 4 5 ++ leBytes 4 6 ++ List.replicate 12 1 ++ voidMod ++ [0] ++ leBytes 2 1 ++ [0, 0] ++
    fieldBytes (str "DocInfo/Name", str "Map") ++ [42]

theorem docBytes_parse : DocumentHeader.parse docBytes =
    .ok ([0, 0] ++ fieldBytes (str "DocInfo/Name", str "Map") ++ [42],
      DocumentHeader.mk 100 (-2) 5 6 voidMod (str "Map") [] []) := by decide +kernel

/-- The returned tail is not the input after the header: the header of `docBytes` is followed by
the single byte 42 (its prefix says one attribute, and one attribute precedes the 42), yet the tail
returned still begins with that attribute. -/
theorem C58_tail_refuted :
    ∃ (i tail : List UInt8) (d : DocumentHeader) (pre body : List UInt8) (fields : List (List UInt8 × List UInt8)),
      DocumentHeader.parse i = .ok (tail, d) ∧ i = pre ++ (body ++ [42]) ∧
      DocPrefix d.maybeDimensionX1 d.maybeDimensionY1 d.someEpoch1 d.someEpoch2 fields.length pre ∧
      DocFields fields body ∧ tail ≠ [42] := by
  refine ⟨docBytes, _, _, docBytes.take 96, _, [(str "DocInfo/Name", str "Map")], docBytes_parse, ?_,
    ⟨leBytes 4 8, leBytes 4 21298, leBytes 4 7, leBytes 4 0, List.replicate 12 1, by decide +kernel, rfl, rfl, rfl, rfl, rfl,
      by unfold inI32; decide, by unfold inI32; decide, by unfold inI32; decide, by unfold inI32; decide, by decide⟩,
    ⟨rfl, by decide⟩, by decide⟩
  decide +kernel

/-- What does hold, of every accepted input: it is a header with as many attributes as its prefix says, then the rest;
the returned tail is the attributes followed by the rest.  So a caller has to skip two bytes and every attribute to get
behind the header.  Missing: that this was done; it never is (the tail is longer than the rest). -/
theorem C58_tail_partial (i tail : List UInt8) (d : DocumentHeader) (h : DocumentHeader.parse i = .ok (tail, d)) :
    ∃ pre fields body rest, i = pre ++ (body ++ rest) ∧
      DocPrefix d.maybeDimensionX1 d.maybeDimensionY1 d.someEpoch1 d.someEpoch2 fields.length pre ∧
      DocFields fields body ∧ tail = body ++ rest ∧ rest.length + 2 ≤ tail.length := by
  obtain ⟨pre, fields, body, rest, h1, h2, h3, h4, -⟩ := (C88_document_header_iff i tail d).1 h
  refine ⟨pre, fields, body, rest, h2 ▸ h1, h3, h4, h2, ?_⟩
  rw [h2, h4.1]
  simp only [List.length_append, List.length_cons, List.length_nil]
  omega

end S2.Cache
