import Verif.Base
import Mathlib.Data.Real.Basic
import Mathlib.Algebra.Order.Floor.Ring
import Mathlib.Analysis.SpecialFunctions.Exp
import Mathlib.Analysis.SpecialFunctions.Sqrt
import Mathlib.Analysis.Real.Pi.Bounds

/-!
# Smoothing in the plane

`lib/smoothing/WeightedAverage2d.hpp` and `py/WeightedAverage2d.cpp` (`GaussAverage`).  Real numbers for floating point ones; "not a
number" is `none`.  Undefined: divisions by a zero size of cells, conversions to `int` out of its range, indices outside the grid.
-/
namespace Verif.Avg

/-- A point with its value, `Scalar2d`, WeightedAverage2d.hpp 112-115. -/
structure Pt where
  x : ℝ
  y : ℝ
  val : ℝ

/-- `GridContainer<Scalar2d>`, WeightedAverage2d.hpp 12-27. -/
structure Grid where
  lox : ℝ
  loy : ℝ
  hix : ℝ
  hiy : ℝ
  nx : ℤ
  ny : ℤ
  cells : ℤ → ℤ → List Pt

/-- `cellSizes[0]`, line 25. -/
noncomputable def Grid.sx (g : Grid) : ℝ := (g.hix - g.lox) / g.nx

/-- `cellSizes[1]`, line 25. -/
noncomputable def Grid.sy (g : Grid) : ℝ := (g.hiy - g.loy) / g.ny

open Classical in
/-- `(int)(floor(x))`, line 30: `int` has 32 bits. -/
noncomputable def toInt (x : ℝ) : Res ℤ := if -2147483648 ≤ x ∧ x < 2147483648 then .ok ⌊x⌋ else .ub

open Classical in
/-- `xy2cell`, lines 29-35, when asked to say whether the cell is in the grid. -/
noncomputable def Grid.cell (g : Grid) (x y : ℝ) : Res (ℤ × ℤ) :=
  if g.nx = 0 ∨ g.ny = 0 ∨ g.sx = 0 ∨ g.sy = 0 then .ub
  else (toInt ((x - g.lox) / g.sx)).bind fun i => (toInt ((y - g.loy) / g.sy)).bind fun j => .ok (i, j)

/-- Whether a cell is in the grid, line 31. -/
def Grid.has (g : Grid) (c : ℤ × ℤ) : Bool := decide (0 ≤ c.1 ∧ c.1 < g.nx ∧ 0 ≤ c.2 ∧ c.2 < g.ny)

/-- A coordinate of a cell moved into the grid, line 40. -/
def clamp (c n : ℤ) : ℤ :=
  let c := if c < 0 then 0 else c
  if c ≥ n then n - 1 else c

/-- `push_back` to a cell, line 40. -/
def Grid.push (g : Grid) (p : Pt) (i j : ℤ) : Grid :=
  { g with cells := fun a b => if a = i ∧ b = j then g.cells a b ++ [p] else g.cells a b }

/-- `add`, line 40. -/
noncomputable def Grid.add (g : Grid) (p : Pt) : Res Grid :=
  (g.cell p.x p.y).bind fun c =>
    if g.has c then .ok (g.push p c.1 c.2) else .ok (g.push p (clamp c.1 g.nx) (clamp c.2 g.ny))

/-- The integers from `a` to `b`, the loops of line 45. -/
def span (a b : ℤ) : List ℤ := (List.range (b - a + 1).toNat).map fun k : ℕ => a + (k : ℤ)

/-- `rectangleFilter`, lines 43-47. -/
noncomputable def Grid.rectangle (g : Grid) (x0 y0 x1 y1 : ℝ) : Res (List (ℤ × ℤ)) :=
  (g.cell x0 y0).bind fun a => (g.cell x1 y1).bind fun b =>
    .ok (((span a.1 b.1).flatMap fun i => (span a.2 b.2).map fun j => (i, j)).filter g.has)

/-- Lines 56-60: the point of a cell compared with the ellipse; `c` is the cell of the middle.  Line 60 changes the first coordinate, not
the second. -/
noncomputable def Grid.near (g : Grid) (x0 y0 : ℝ) (c m : ℤ × ℤ) : ℝ × ℝ :=
  let x := g.lox + g.sx * (0.5 + m.1) - x0
  let y := g.loy + g.sy * (0.5 + m.2) - y0
  let x := if m.1 ≠ c.1 then x + (if m.1 < c.1 then 1 else -1) * 0.5 * g.sx else 0
  if m.2 ≠ c.2 then (x + (if m.2 < c.2 then 1 else -1) * 0.5 * g.sy, y) else (x, 0)

open Classical in
/-- Lines 54-62: whether a cell passes.  Comparisons with quotients by zero are false. -/
noncomputable def Grid.passes (g : Grid) (x0 y0 rx ry : ℝ) (c m : ℤ × ℤ) : Bool :=
  (g.has c && decide (m = c)) ||
    decide (rx ≠ 0 ∧ ry ≠ 0 ∧
      (g.near x0 y0 c m).1 ^ 2 / rx ^ 2 + (g.near x0 y0 c m).2 ^ 2 / ry ^ 2 ≤ 1)

/-- `ellipseFilter`, lines 49-65. -/
noncomputable def Grid.ellipse (g : Grid) (x0 y0 rx ry : ℝ) : Res (List (ℤ × ℤ)) :=
  (g.rectangle (x0 - rx) (y0 - ry) (x0 + rx) (y0 + ry)).bind fun l =>
    (g.cell x0 y0).bind fun c => .ok (l.filter (g.passes x0 y0 rx ry c))

/-! ## Polygons -/

/-- A point of the plane. -/
structure P2 where
  x : ℝ
  y : ℝ

open Classical in
/-- The condition of py/WeightedAverage2d.cpp 12 for the current vertex `i` and the one before, `j`. -/
noncomputable def crosses (t i j : P2) : Bool :=
  (decide (i.y > t.y) != decide (j.y > t.y)) && decide (t.x < (j.x - i.x) * (t.y - i.y) / (j.y - i.y) + i.x)

/-- The loop of py/WeightedAverage2d.cpp 10-13 from a vertex on, `j` being the one before. -/
noncomputable def parity (t : P2) : P2 → List P2 → Bool
  | _, [] => false
  | j, i :: l => crosses t i j ^^ parity t i l

/-- `pointInsidePolygon`, py/WeightedAverage2d.cpp 7-15. -/
noncomputable def inside (t : P2) (vs : List P2) : Bool :=
  match vs.getLast? with
  | none => false
  | some j => parity t j vs

/-- `Poly2d`, WeightedAverage2d.hpp 159. -/
structure Poly where
  vertices : List P2
  inclusive : Bool

/-- `ptIsClipped`, WeightedAverage2d.hpp 168-174. -/
noncomputable def clipped (clips : List Poly) (t : P2) : Bool :=
  clips.any fun p => (inside t p.vertices && !p.inclusive) || (!inside t p.vertices && p.inclusive)

/-! ## Averages -/

/-- `pyGaussAverage` with its `SGDA_Scalar2d`, WeightedAverage2d.hpp 82-86, 119-120, 154-160: `sd0` is the deviation in `distrib`,
`area` is `weightedSupportArea`. -/
structure GA where
  grid : Grid
  sd : ℝ
  rt : ℝ
  sd0 : ℝ
  area : ℝ
  clips : List Poly

/-- `weightedSupportArea`, lines 128-130; `Φ` is the distribution function of the standard normal distribution (`boost::math::cdf`),
about which nothing is assumed. -/
noncomputable def supportArea (Φ : ℝ → ℝ) (sd rt : ℝ) : ℝ := (1 - 2 * Φ (-sd * rt / sd)) * (Real.pi * (rt * sd) ^ 2)

open Classical in
/-- The constructors, lines 24-27, 121-132 and 162-166.  `resize` with negative sizes and a normal distribution without positive
deviation throw.  The threshold is set after the area was computed for the default, 3. -/
noncomputable def GA.new (Φ : ℝ → ℝ) (lox loy hix hiy : ℝ) (nx ny : ℤ) (sd rt : ℝ) : Res GA :=
  if nx < 0 ∨ (0 < nx ∧ ny < 0) ∨ sd ≤ 0 then .throws
  else .ok ⟨⟨lox, loy, hix, hiy, nx, ny, fun _ _ => []⟩, sd, rt, sd, supportArea Φ sd 3, []⟩

open Classical in
/-- `getWeight`, lines 133-139; `boost::math::pdf` is the density of the normal distribution with deviation `sd0`. -/
noncomputable def GA.weight (a : GA) (x y : ℝ) (p : Pt) : ℝ :=
  if (x - p.x) ^ 2 + (y - p.y) ^ 2 > (a.rt * a.sd) ^ 2 then 0
  else Real.exp (-((x - p.x) ^ 2 + (y - p.y) ^ 2) / (2 * a.sd0 ^ 2)) / (a.sd0 * √(2 * Real.pi))

/-- The elements visited by `sumValuesWeights`, lines 100-103 and 140. -/
noncomputable def GA.used (a : GA) (x y : ℝ) : Res (List Pt) :=
  (a.grid.ellipse x y (a.sd * a.rt) (a.sd * a.rt)).bind fun l => .ok (l.flatMap fun c => a.grid.cells c.1 c.2)

/-- `sumValuesWeights`, lines 99-108. -/
noncomputable def GA.sums (a : GA) (x y : ℝ) : Res (ℝ × ℝ) :=
  (a.used x y).bind fun l => .ok ((l.map fun p => a.weight x y p * p.val).sum, (l.map (a.weight x y)).sum)

open Classical in
/-- `avg`, lines 91-94 and 176; quotients by zero are not a number. -/
noncomputable def GA.avg (a : GA) (x y : ℝ) : Res (Option ℝ) :=
  if clipped a.clips ⟨x, y⟩ then .ok none
  else (a.sums x y).bind fun s => .ok (if s.2 = 0 then none else some (s.1 / s.2))

open Classical in
/-- `avgPerUnitArea`, lines 95-98 and 177. -/
noncomputable def GA.perArea (a : GA) (x y : ℝ) : Res (Option ℝ) :=
  if clipped a.clips ⟨x, y⟩ then .ok none
  else (a.sums x y).bind fun s => .ok (if a.area = 0 then none else some (s.1 / a.area))

/-- `addPt`, line 175: the new container and what is returned. -/
noncomputable def GA.addPt (a : GA) (p : Pt) : Res (GA × Bool) :=
  if clipped a.clips ⟨p.x, p.y⟩ then .ok (a, false)
  else (a.grid.add p).bind fun g => .ok ({ a with grid := g }, true)

/-- `stDev_set`, line 178. -/
def GA.setSd (a : GA) (s : ℝ) : GA := { a with sd := s }

/-- `relThreshold_set`, line 179. -/
def GA.setRt (a : GA) (r : ℝ) : GA := { a with rt := r }

/-- `clips_set`, lines 190-202. -/
def GA.setClips (a : GA) (c : List Poly) : GA := { a with clips := c }

/-- `data_get`, lines 203-214, as one list. -/
def GA.data (a : GA) : List Pt :=
  (span 0 (a.grid.nx - 1)).flatMap fun i => (span 0 (a.grid.ny - 1)).flatMap fun j => a.grid.cells i j

/-- `cellNum`, line 216; `operator[]` is not checked. -/
def GA.cellNum (a : GA) (c : ℤ × ℤ) : Res ℕ := if a.grid.has c then .ok (a.grid.cells c.1 c.2).length else .ub

/-- `cellSum`, line 217. -/
noncomputable def GA.cellSum (a : GA) (c : ℤ × ℤ) : Res ℝ :=
  if a.grid.has c then .ok ((a.grid.cells c.1 c.2).map Pt.val).sum else .ub

/-- `cellAvg`, line 218. -/
noncomputable def GA.cellAvg (a : GA) (c : ℤ × ℤ) : Res (Option ℝ) :=
  (a.cellSum c).bind fun s => (a.cellNum c).bind fun n => .ok (if n = 0 then none else some (s / n))

end Verif.Avg
