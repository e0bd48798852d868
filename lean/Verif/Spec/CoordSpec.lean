import Verif.Misc.Coords
/-!
# Map geometry

Distances are in units of `2^-149` of a map cell, the grain of `f32`.
-/
namespace S2.Coords
open S2

/-- `n / 2^149` is a finite `f32` (24 significant bits). -/
def IsF32 (n : Int) : Prop := ∃ (m e : Nat), m < 2 ^ 24 ∧ n.natAbs = m * 2 ^ e

/-- The coordinate lies in column (row) `i` of the cell grid. -/
def InCell (n i : Int) : Prop := i * 2 ^ 149 ≤ n ∧ n < (i + 1) * 2 ^ 149

/-- `t` is a terrain grid line nearest to the coordinate: at most half a cell away. -/
def Nearest (n t : Int) : Prop := 2 * (t * 2 ^ 149 - n).natAbs ≤ 2 ^ 149

/-- Centre of cell `i`. -/
def centre (i : Int) : Int := i * 2 ^ 149 + 2 ^ 148

/-- Position of terrain line `t`. -/
def line (t : Int) : Int := t * 2 ^ 149

end S2.Coords
