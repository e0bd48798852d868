import Verif.Text
import Verif.Events.Convert
/-!
# The s2ma cache readers: MapInfo, t3HeightMap, DocumentHeader

Parsers take the unread bytes and return `(tail, value)` as the nom parsers do.
`String::from_utf8_lossy(bytes)` results are represented by the raw bytes.  (The lossy decoding
of `bytes` equals an ASCII literal exactly when `bytes` are the ASCII codes of that literal, because
every ill-formed sequence turns into U+FFFD; so comparing raw bytes is the same test.)
-/
namespace S2.Cache

open S2

/-- nom `bytes::complete::take(n)`. [e.g. /repo/src/cache_handles/map_info.rs:52-55] -/
def takeB (n : Nat) (i : List UInt8) : Res (List UInt8 × List UInt8) :=
  if i.length < n then .err .eof else .ok (i.drop n, i.take n)

/-- nom `bytes::complete::tag(t)`. [e.g. /repo/src/cache_handles/map_info.rs:50-52] -/
def tagB (t : List UInt8) (i : List UInt8) : Res (List UInt8 × List UInt8) :=
  if t.isPrefixOf i then .ok (i.drop t.length, t) else .err .tag

/-- nom `bytes::complete::take_while(p)`; never fails. [e.g. /repo/src/cache_handles/map_info.rs:87-93] -/
def takeWhileB (p : UInt8 → Bool) (i : List UInt8) : Res (List UInt8 × List UInt8) :=
  .ok (i.dropWhile p, i.takeWhile p)

/-- The natural number a little-endian byte string spells. [e.g. /repo/src/cache_handles/map_info.rs:53-55] -/
def leNat : List UInt8 → Nat
  | [] => 0
  | b :: bs => b.toNat + 256 * leNat bs

/-- `take(4usize)` then nom `number::complete::i32(Endianness::Little)` on the four bytes
(/repo/src/cache_handles/map_info.rs:53-55 and every other `i32` read in the three files). -/
def leI32 (i : List UInt8) : Res (List UInt8 × Int) := do
  let (tail, bs) ← takeB 4 i
  pure (tail, asI32 (leNat bs))

/-- `take(2usize)` then nom `number::complete::u16(Endianness::Little)`
(/repo/src/cache_handles/document_header.rs:134-137, 153-156, 167-169). -/
def leU16 (i : List UInt8) : Res (List UInt8 × Nat) := do
  let (tail, bs) ← takeB 2 i
  pure (tail, leNat bs)

/-- `take_while(|x| x != 0)` then `take(1)`: a zero-terminated string
(/repo/src/cache_handles/map_info.rs:87-93 and the three others). -/
def zstr (i : List UInt8) : Res (List UInt8 × Str) := do
  let (tail, s) ← takeWhileB (fun x => x != 0) i
  let (tail, _) ← takeB 1 tail
  pure (tail, s)

/-- /repo/src/cache_handles/map_info.rs:22-39 -/
structure MapInfo where
  fileVersion : Int
  cellWidth : Int
  cellHeight : Int
  firstString : Str
  secondString : Str
  thirdString : Str
  fourthString : Str
  cellLeft : Int
  cellBottom : Int
  cellRight : Int
  cellTop : Int
  deriving DecidableEq, Repr

/-- The bound checks at /repo/src/cache_handles/map_info.rs:137-171.  Payloads of the error are dropped. -/
def checkBounds (m : MapInfo) : Res MapInfo :=
  if m.cellLeft ≥ m.cellRight then .err (.other 1)
  else if m.cellBottom ≥ m.cellTop then .err (.other 1)
  else if m.cellRight > m.cellWidth then .err (.other 1)
  else if m.cellTop > m.cellHeight then .err (.other 1)
  else .ok m

/-- /repo/src/cache_handles/map_info.rs:56-61: file versions above 24 have 8 more bytes. -/
def skipExtra (v : Int) (i : List UInt8) : Res (List UInt8 × List UInt8) :=
  if v > 24 then takeB 8 i else .ok (i, [])

/-- /repo/src/cache_handles/map_info.rs:70-79 -/
def checkSize (w h : Int) : Res Unit :=
  if w > 256 ∨ h > 256 then .err (.other 2) else .ok ()

/-- `MapInfo::parse`, /repo/src/cache_handles/map_info.rs:50-189.
`String::from_utf8_lossy` is left out: the string fields hold raw bytes. -/
def MapInfo.parse (input : List UInt8) : Res (List UInt8 × MapInfo) := do
  let (tail, _) ← tagB (str "IpaM") input
  let (tail, fileVersion) ← leI32 tail
  let (tail, _) ← skipExtra fileVersion tail
  let (tail, cellWidth) ← leI32 tail
  let (tail, cellHeight) ← leI32 tail
  let _ ← checkSize cellWidth cellHeight
  let (tail, _) ← takeB 8 tail
  let (tail, _) ← takeWhileB (fun x => x == 0) tail
  let (tail, firstString) ← zstr tail
  let (tail, secondString) ← zstr tail
  let (tail, _) ← takeB 5 tail
  let (tail, thirdString) ← zstr tail
  let (tail, fourthString) ← zstr tail
  let (tail, cellLeft) ← leI32 tail
  let (tail, cellBottom) ← leI32 tail
  let (tail, cellRight) ← leI32 tail
  let (tail, cellTop) ← leI32 tail
  let m ← checkBounds (MapInfo.mk fileVersion cellWidth cellHeight firstString secondString
    thirdString fourthString cellLeft cellBottom cellRight cellTop)
  pure (tail, m)

/-- Result of an `i32` arithmetic operation whose exact value is `x`: overflow panics in debug
builds and wraps in release builds. [e.g. /repo/src/cache_handles/map_info.rs:198-216] -/
def i32Op (bld : Build) (x : Int) : Res Int :=
  if -(2 ^ 31) ≤ x ∧ x < 2 ^ 31 then .ok x
  else match bld with
    | .debug => .panic
    | .release => .ok (asI32 x)

/-- `MapInfo::terrain_dim_map`, /repo/src/cache_handles/map_info.rs:198-201 -/
def MapInfo.terrainDimMap (bld : Build) (m : MapInfo) : Res (Int × Int) := do
  let x ← i32Op bld (m.cellWidth + 1)
  let y ← i32Op bld (m.cellHeight + 1)
  pure (x, y)

/-- `MapInfo::cell_dim_playable`, /repo/src/cache_handles/map_info.rs:203-209 -/
def MapInfo.cellDimPlayable (bld : Build) (m : MapInfo) : Res (Int × Int) := do
  let x ← i32Op bld (m.cellRight - m.cellLeft)
  let y ← i32Op bld (m.cellTop - m.cellBottom)
  pure (x, y)

/-- `MapInfo::terrain_dim_playable`, /repo/src/cache_handles/map_info.rs:212-216 -/
def MapInfo.terrainDimPlayable (bld : Build) (m : MapInfo) : Res (Int × Int) := do
  let (cx, cy) ← m.cellDimPlayable bld
  let x ← i32Op bld (cx + 1)
  let y ← i32Op bld (cy + 1)
  pure (x, y)

/-- /repo/src/cache_handles/t3_height_map.rs:12-17 -/
structure T3HeightMap where
  width : Int
  height : Int
  data : List UInt8
  deriving DecidableEq, Repr

/-- The loop `for _ in 0..(width * height)` of /repo/src/cache_handles/t3_height_map.rs:72-86, with `n` rounds left. -/
def heightCells : Nat → List UInt8 → List UInt8 → Res (List UInt8 × List UInt8)
  | 0, tail, data => .ok (tail, data)
  | n + 1, tail, data => do
    let (newTail, bs) ← takeB 6 tail
    let hb := bs.getD 4 0
    if hb > 4 then .err (.other 3) else heightCells n newTail (data ++ [hb])

/-- `x as usize` of an `i32` on a 64-bit target (sign extends). [/repo/src/cache_handles/t3_height_map.rs:72-86] -/
def i32AsUsize (x : Int) : Nat := (x % 2 ^ 64).toNat

/-- `T3HeightMap::parse`, /repo/src/cache_handles/t3_height_map.rs:33-97.  `width * height * 6`
and `width * height` are `i32` products, evaluated left to right.  The `Vec::with_capacity`
reservation is left out. -/
def T3HeightMap.parse (bld : Build) (input : List UInt8) (mi : MapInfo) :
    Res (List UInt8 × T3HeightMap) := do
  let (tail, _) ← tagB (str "HMAP") input
  let (tail, _) ← tagB [0x65, 0, 0, 0] tail
  let (tail, width) ← leI32 tail
  let (tail, height) ← leI32 tail
  let dims ← mi.terrainDimMap bld
  if (width, height) ≠ dims then .err (.other 4) else do
    let (tail, _) ← takeB 16 tail
    let wh ← i32Op bld (width * height)
    let wh6 ← i32Op bld (wh * 6)
    if tail.length < i32AsUsize wh6 then .err (.other 5) else do
      let (tail, data) ← heightCells wh.toNat tail []
      pure (tail, T3HeightMap.mk width height data)

/-- /repo/src/cache_handles/document_header.rs:14-27 -/
structure DocumentHeader where
  maybeDimensionX1 : Int
  maybeDimensionY1 : Int
  someEpoch1 : Int
  someEpoch2 : Int
  modInfo : Str
  name : Str
  descriptionLong : Str
  descriptionShort : Str
  deriving DecidableEq, Repr

/-- `DocumentHeader::set_field_by_name`, /repo/src/cache_handles/document_header.rs:31-61 (the ignored names only log). -/
def DocumentHeader.setFieldByName (d : DocumentHeader) (name value : Str) : DocumentHeader :=
  if name = str "DocInfo/Name" then { d with name := value }
  else if name = str "DocInfo/DescLong" then { d with descriptionLong := value }
  else if name = str "DocInfo/DescShort" then { d with descriptionShort := value }
  else d

/-- The only accepted `mod_info`, /repo/src/cache_handles/document_header.rs:120 -/
def voidMod : Str := str "bnet:Void (Mod)/0.0/999,file:Mods/Void.SC2Mod"

/-- The loop body of /repo/src/cache_handles/document_header.rs:148-177 run `n` times from `newTail`; the loop-local
`tail` shadows the outer one. -/
def docFields : Nat → List UInt8 → DocumentHeader → Res (List UInt8 × DocumentHeader)
  | 0, newTail, d => .ok (newTail, d)
  | n + 1, newTail, d => do
    let (tail, sz) ← leU16 newTail
    let (tail, fname) ← takeB sz tail
    let (tail, _) ← tagB (str "SUne") tail
    let (tail, sz) ← leU16 tail
    let (tail, fvalue) ← takeB sz tail
    docFields n tail (d.setFieldByName fname fvalue)

/-- /repo/src/cache_handles/document_header.rs:120-124 -/
def checkMod (s : Str) : Res Unit := if s ≠ voidMod then .err (.other 6) else .ok ()

/-- `DocumentHeader::parse`, /repo/src/cache_handles/document_header.rs:72-180.  The tail returned
is the *outer* `tail` (the input just after the two field-count bytes), not the loop's `new_tail`. -/
def DocumentHeader.parse (input : List UInt8) : Res (List UInt8 × DocumentHeader) := do
  let (tail, _) ← tagB (str "H2CS") input
  let (tail, _) ← takeB 4 tail
  let (tail, _) ← takeB 4 tail
  let (tail, _) ← takeB 4 tail
  let (tail, x1) ← leI32 tail
  let (tail, y1) ← leI32 tail
  let (tail, _) ← takeB 4 tail
  let (tail, e1) ← leI32 tail
  let (tail, e2) ← leI32 tail
  let (tail, _) ← takeB 12 tail
  let (tail, modInfo) ← takeWhileB (fun x => x != 0) tail
  let _ ← checkMod modInfo
  let (tail, _) ← takeB 1 tail
  let (tail, count) ← leU16 tail
  let (newTail, _) ← tagB [0, 0] tail
  let (_, d) ← docFields count newTail
    { maybeDimensionX1 := x1, maybeDimensionY1 := y1, someEpoch1 := e1, someEpoch2 := e2,
      modInfo := modInfo, name := [], descriptionLong := [], descriptionShort := [] }
  pure (tail, d)

end S2.Cache
