import Verif.Misc.Cache
import Verif.State.F32
/-!
# Map coordinates (/repo/src/cache_handles/map/coords.rs) and the corners of `MapInfo`

A finite `f32` is an integer multiple of `2^-149`, so it is modelled by that integer: `n : Int` stands
for `n / 2^149`.  The sum of two floats is the exact sum rounded to 24 significant bits, ties to even
(sums below `2^24` units, i.e. subnormals, are exact).  Not modelled: NaN and infinities.
-/
namespace S2.Coords
open S2 S2.Cache

/-- One, in units of `2^-149`. [the type `f32` of /repo/src/cache_handles/map/coords.rs:1-202] -/
def unit : Int := 2 ^ 149

/-- `0.5`. [/repo/src/cache_handles/map/coords.rs:142-149] -/
def half : Int := 2 ^ 148

/-- `a + b` on `f32`. [/repo/src/cache_handles/map/coords.rs:142-149] -/
def fadd (a b : Int) : Int := f32OfInt (a + b)

/-- `i as f32` for `i: i32`. [/repo/src/cache_handles/map/coords.rs:93-100] -/
def ofI32 (i : Int) : Int := f32OfInt i * unit

/-- `f as i32`: truncation towards zero, saturating. [/repo/src/cache_handles/map/coords.rs:132-139] -/
def toI32 (n : Int) : Int :=
  let t := n.tdiv unit
  if t < -(2 ^ 31) then -(2 ^ 31) else if t ≥ 2 ^ 31 then 2 ^ 31 - 1 else t

/-- `From<MapCoord> for MapTerrainCoord`, each coordinate (/repo/src/cache_handles/map/coords.rs:82-89). -/
def mapToTerrain (x : Int) : Int := toI32 (fadd x half)

/-- `From<MapTerrainCoord> for MapCoord` (/repo/src/cache_handles/map/coords.rs:93-100). -/
def terrainToMap (t : Int) : Int := ofI32 t

/-- `From<MapCoord> for MapCellCoord` (/repo/src/cache_handles/map/coords.rs:132-139). -/
def mapToCell (x : Int) : Int := toI32 x

/-- `From<MapCellCoord> for MapCoord` (/repo/src/cache_handles/map/coords.rs:142-149). -/
def cellToMap (c : Int) : Int := fadd (ofI32 c) half

/-- `PlayableTerrainCoord::from_map_terrain` (/repo/src/cache_handles/map/coords.rs:166-171). -/
def fromMapTerrain (bld : Build) (m : MapInfo) (x y : Int) : Res (Int × Int) := do
  let px ← i32Op bld (x - m.cellLeft)
  let py ← i32Op bld (y - m.cellBottom)
  pure (px, py)

/-- `MapInfo::cell_dim_map` (/repo/src/cache_handles/map_info.rs:192-195). -/
def cellDimMap (m : MapInfo) : Int × Int := (m.cellWidth, m.cellHeight)

/-- `MapInfo::cell_left_bottom` (/repo/src/cache_handles/map_info.rs:218-221). -/
def cellLeftBottom (m : MapInfo) : Int × Int := (m.cellLeft, m.cellBottom)

/-- `MapInfo::cell_right_top` (/repo/src/cache_handles/map_info.rs:223-226). -/
def cellRightTop (m : MapInfo) : Int × Int := (m.cellRight, m.cellTop)

/-- `MapInfo::terrain_left_bottom` (/repo/src/cache_handles/map_info.rs:228-231). -/
def terrainLeftBottom (m : MapInfo) : Int × Int := (m.cellLeft, m.cellBottom)

/-- `MapInfo::terrain_right_top` (/repo/src/cache_handles/map_info.rs:233-236). -/
def terrainRightTop (bld : Build) (m : MapInfo) : Res (Int × Int) := do
  let x ← i32Op bld (m.cellWidth + 1)
  let y ← i32Op bld (m.cellHeight + 1)
  pure (x, y)

end S2.Coords
