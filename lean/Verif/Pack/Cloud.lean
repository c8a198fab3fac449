import Verif.Base
import Verif.Mech.Vec
import Mathlib.Analysis.SpecialFunctions.Pow.Real
import Mathlib.Analysis.Real.Pi.Bounds
import Mathlib.LinearAlgebra.Matrix.NonsingularInverse
import Mathlib.Algebra.Order.Floor.Ring

/-!
# Random sphere packings: `SpherePack::makeCloud`

Transcription of pkg/dem/SpherePack.{hpp,cpp}.  Numbers are real.  Results that would be infinite
or not a number (division by zero, powers of negative numbers) are the outcome `ub`, as are reads
outside of vectors.  The random generator is a stream of numbers; what is assumed of it (numbers
from 0 up to but without 1) is a hypothesis of the theorems.  Warnings are not modelled.
-/
namespace Verif.Pack
open Verif.Mech
open scoped Classical

/-- `SpherePack::Sph`, SpherePack.hpp 25-33. -/
structure Sph where
  c : V3
  r : ℝ
  clumpId : Int := -1

/-- The data of a `SpherePack`, SpherePack.hpp 34-37. -/
structure SpherePack where
  pack : List Sph
  cellSize : V3
  scaling : ℝ
  isPeriodic : Bool

/-- `SpherePack()`, SpherePack.hpp 38. -/
def SpherePack.empty : SpherePack := ⟨[], 0, 1, false⟩

/-- The numbers still to come from the generator `rnd`, SpherePack.cpp 88-89. -/
abbrev Rnd := Nat → ℝ

/-- The generator after `k` numbers were taken from it, SpherePack.cpp 89. -/
def skip (k : Nat) (g : Rnd) : Rnd := fun n => g (n + k)

/-- Arguments of `makeCloud`, SpherePack.cpp 86 (the seed apart); a zero `hSize` means none is
given (93). -/
structure Args where
  mn : V3
  mx : V3
  rMean : ℝ := -1
  fuzz : ℝ := 0
  num : Int := -1
  periodic : Bool := false
  porosity : ℝ := 0.65
  psdSizes : List ℝ := []
  psdCumm : List ℝ := []
  distributeMass : Bool := false
  hSize : M3 := 0

/-- `size`, SpherePack.cpp 92. -/
def Args.size (a : Args) : V3 := a.mx - a.mn

/-- `hSize` after SpherePack.cpp 93-94. -/
noncomputable def Args.cell (a : Args) : M3 := if a.hSize = 0 then Matrix.diagonal a.size else a.hSize

/-- `area`, SpherePack.cpp 98. -/
noncomputable def Args.area (a : Args) : ℝ := |a.size 0 * a.size 2 + a.size 0 * a.size 1 + a.size 1 * a.size 2|

/-- `porosity` after SpherePack.cpp 104. -/
noncomputable def Args.poro (a : Args) : ℝ := if a.porosity ≤ 0 then 0.5 else a.porosity

/-- `pow(x,y)` as used in SpherePack.cpp 110, 113, 137, 143: not a number for negative `x`. -/
noncomputable def power (x y : ℝ) : Res ℝ := if x < 0 then .ub else .ok (x ^ y)

/-- `a/b` as used in SpherePack.cpp 127, 142, 289: not a number or infinite for `b` zero. -/
noncomputable def quot (a b : ℝ) : Res ℝ := if b = 0 then .ub else .ok (a / b)

/-- The ways of finding radii, `mode` in SpherePack.cpp 102-149 with their data. -/
inductive Dist where
  | rmean (m : ℝ)
  | num (m : ℝ)
  | psd (radii cumm : List ℝ)

/-- `mode!=RDIST_RMEAN`, SpherePack.cpp 234. -/
def Dist.retries : Dist → Bool
  | .rmean _ => false
  | _ => true

/-- `psdCumm2` without its first entry, SpherePack.cpp 122-128; `V` is `volume` or, for a flat box,
`area` times the largest size. -/
noncomputable def massCumm (V poro acc : ℝ) : List ℝ → List ℝ → Res (List ℝ)
  | s0 :: s1 :: ss, c0 :: c1 :: cs =>
    (quot 1 (s1 - s0)).bind fun d => (quot 1 (s0 ^ 2)).bind fun p0 => (quot 1 (s1 ^ 2)).bind fun p1 =>
      let acc' := acc + 3 * V * (1 - poro) / Real.pi * (c1 - c0) * d * (p0 - p1)
      (massCumm V poro acc' (s1 :: ss) (c1 :: cs)).bind fun l => .ok (acc' :: l)
  | _, _ => .ok []

/-- `totVol`, SpherePack.cpp 139-141; `4/3` is an integer division. -/
noncomputable def totVol (num : Int) : List ℝ → List ℝ → ℝ
  | s0 :: s1 :: ss, c0 :: c1 :: cs =>
    1 * Real.pi * (c1 - c0) * num * (0.5 * (s1 + s0)) ^ 3 * (1 + (0.5 * (s1 - s0)) ^ 2) + totVol num (s1 :: ss) (c1 :: cs)
  | _, _ => 0

/-- The size distribution, SpherePack.cpp 116-149, with the new scaling: checks, radii, cumulated
fractions by number. -/
noncomputable def psdPlan (a : Args) (volume scaling : ℝ) : Res (Dist × ℝ) :=
  if a.psdSizes.length ≠ a.psdCumm.length then .throws
  else if a.psdSizes.length ≤ 1 then .throws
  else if a.psdCumm.head? ≠ some 0 ∧ a.psdCumm.getLast? ≠ some 1 then .throws
  else if ¬ a.psdSizes.Pairwise (· ≤ ·) ∨ ¬ a.psdCumm.Pairwise (· ≤ ·) then .throws
  else
    let V := if volume ≠ 0 then volume else a.area * a.psdSizes.getLastD 0
    (if a.distributeMass then (massCumm V a.poro 0 a.psdSizes a.psdCumm).bind fun l => .ok (0 :: l) else .ok a.psdCumm).bind fun cumm =>
    (if a.num > 1 then
        if a.distributeMass then
          if cumm.getLastD 0 < a.num then power (cumm.getLastD 0 / a.num) (1 / 3) else .ok 1
        else (quot (totVol a.num a.psdSizes a.psdCumm) ((1 - a.poro) * V)).bind fun ratio =>
          if ratio > 1 then power ratio (-1 / 3) else .ok 1
      else .ok scaling).bind fun scaling =>
    let radii := a.psdSizes.map (0.5 * ·)
    let radii := if a.num > 1 ∧ scaling < 1 then radii.map (· * scaling) else radii
    if a.distributeMass then
      if cumm.getLastD 0 = 0 then .ub else .ok (.psd radii (cumm.map (· / cumm.getLastD 0)), scaling)
    else .ok (.psd radii cumm, scaling)

/-- How radii are found, SpherePack.cpp 96-150, with the new scaling. -/
noncomputable def plan (a : Args) (scaling : ℝ) : Res (Dist × ℝ) :=
  let volume := a.cell.det
  if volume = 0 ∧ a.hSize ≠ 0 then .throws
  else if 0 < a.rMean then
    if a.psdSizes = [] then .ok (.rmean a.rMean, scaling)
    else (psdPlan a volume scaling).bind fun _ => .throws
  else if 0 < a.num ∧ a.psdSizes = [] then
    if volume ≠ 0 then
      (power (volume * (1 - a.poro) / (Real.pi * (4 / 3) * (1 + a.fuzz * a.fuzz) * a.num)) (1 / 3)).bind fun m => .ok (.num m, scaling)
    else if a.area = 0 then .throws
    else (power (a.area * (1 - a.poro) / (Real.pi * (1 + a.fuzz * a.fuzz) * a.num)) 0.5).bind fun m => .ok (.num m, scaling)
  else if a.psdSizes = [] then .throws
  else psdPlan a volume scaling

/-- The loop of `psdGetPiece`, SpherePack.cpp 286: index of the first value above `x`. -/
noncomputable def upperIndex (x : ℝ) : List ℝ → Nat 
  | [] => 0
  | v :: vs => if v ≤ x then upperIndex x vs + 1 else 0

/-- `SpherePack::psdGetPiece`, SpherePack.cpp 284-292: the piece and the place in it.  The test of
line 287 is never true (the loop ended because `i` is the length or `cumm[i]>x`). -/
noncomputable def psdGetPiece (x : ℝ) (cumm : List ℝ) : Res (Nat × ℝ) :=
  match upperIndex x cumm with
  | 0 => .ub
  | i + 1 =>
    match cumm[i]?, cumm[i + 1]? with
    | some c0, some c1 => (quot (x - c0) (c1 - c0)).bind fun norm => .ok (i, norm)
    | _, _ => .ub

/-- `pow3Interp`, SpherePack.hpp 58. -/
noncomputable def pow3Interp (x a b : ℝ) : Res ℝ :=
  (quot 1 (a ^ 2)).bind fun a2 => (quot 1 (b ^ 2)).bind fun b2 => power (x * (b2 - a2) + a2) (-1 / 2)

/-- The radius for a random number, SpherePack.cpp 161-176. -/
noncomputable def radius (a : Args) (d : Dist) (rand : ℝ) : Res ℝ :=
  match d with
  | .rmean m | .num m =>
    if a.distributeMass then pow3Interp rand (m * (1 - a.fuzz)) (m * (1 + a.fuzz))
    else .ok (m * (2 * (rand - 0.5) * a.fuzz + 1))
  | .psd radii cumm =>
    (psdGetPiece rand cumm).bind fun (piece, norm) =>
      match radii[piece]?, radii[piece + 1]? with
      | some r0, some r1 => if a.distributeMass then pow3Interp norm r0 r1 else .ok (r0 + norm * (r1 - r0))
      | _, _ => .ub

/-- `cellWrapRel`, SpherePack.hpp 12-15. -/
noncomputable def cellWrapRel (x x0 x1 : ℝ) : ℝ :=
  let xNorm := (x - x0) / (x1 - x0)
  (xNorm - ⌊xNorm⌋) * (x1 - x0)

/-- The centre tried, SpherePack.cpp 179-190, and the generator after it. -/
noncomputable def candidate (a : Args) (r : ℝ) (g : Rnd) : V3 × Rnd :=
  if a.periodic then (a.cell.mulVec ![g 0, g 1, g 2] + a.mn, skip 3 g)
  else
    let k0 := if a.size 0 ≠ 0 then 1 else 0
    let k1 := if a.size 1 ≠ 0 then k0 + 1 else k0
    let k2 := if a.size 2 ≠ 0 then k1 + 1 else k1
    (a.mn + ![if a.size 0 ≠ 0 then (a.size 0 - 2 * r) * g 0 + r else 0,
              if a.size 1 ≠ 0 then (a.size 1 - 2 * r) * g k0 + r else 0,
              if a.size 2 ≠ 0 then (a.size 2 - 2 * r) * g k1 + r else 0], skip k2 g)

/-- `Mathr::Sign`, lib/base/Math.hpp 160. -/
noncomputable def sign (x : ℝ) : ℝ := if x < 0 then -1 else if 0 < x then 1 else 0

/-- The vector between two centres tested in SpherePack.cpp 194-221. -/
noncomputable def between (a : Args) (p c : V3) : V3 :=
  if ¬ a.periodic then p - c
  else if a.hSize = 0 then fun axis =>
    if a.size axis ≠ 0 then
      min (cellWrapRel (c axis) (p axis) (p axis + a.size axis)) (cellWrapRel (p axis) (c axis) (c axis + a.size axis))
    else 0
  else a.hSize.mulVec fun axis =>
    let x := (a.hSize⁻¹.mulVec (p - c)) axis
    if |x| < |x - sign x| then x else x - sign x

/-- One test of SpherePack.cpp 196 and 221. -/
def overlaps (a : Args) (c : V3) (r : ℝ) (s : Sph) : Prop := (s.r + r) ^ 2 ≥ sqNorm (between a s.c c)

/-- The tries to place a sphere, SpherePack.cpp 178-231: the centre, if one was found, and the
generator after it. -/
noncomputable def place (a : Args) (r : ℝ) (pack : List Sph) : Nat → Rnd → Option V3 × Rnd
  | 0, g => (none, g)
  | t + 1, g =>
    let (c, g') := candidate a r g
    if ∃ s ∈ pack, overlaps a c r s then place a r pack t g' else (some c, g')

/-- `maxTry`, SpherePack.cpp 152. -/
def maxTry : Nat := 1000

/-- The number the radius is made from, SpherePack.cpp 158-159. -/
noncomputable def sizeNumber (a : Args) (i : Nat) (g : Rnd) : ℝ × Rnd :=
  if a.num > 0 then (((a.num : ℝ) - i + 0.5) / (a.num + 1), g) else (g 0, skip 1 g)

/-- How the loop of SpherePack.cpp 155-253 ends: all spheres are placed, or one could not be. -/
inductive Ended where
  | all
  | stuck (i : Nat)

/-- The loop of SpherePack.cpp 155-253; it is given at most `n` rounds and has no outcome if they
do not suffice. -/
noncomputable def cloudLoop (a : Args) (d : Dist) : Nat → Nat → List Sph → Rnd → Option (Res (Ended × List Sph × Rnd))
  | 0, _, _, _ => none
  | n + 1, i, pack, g =>
    if (i : Int) < a.num ∨ a.num < 0 then
      let (rand, g) := sizeNumber a i g
      match radius a d rand with
      | .ub => some .ub
      | .throws => some .throws
      | .ok r =>
        match place a r pack maxTry g with
        | (some c, g) => cloudLoop a d n (i + 1) (pack ++ [{ c := c, r := r }]) g
        | (none, g) => some (.ok (.stuck i, pack, g))
    else some (.ok (.all, pack, g))

/-- `SpherePack::makeCloud`, SpherePack.cpp 86-256: the new packing, the number returned and the
generator after it.  It is given at most `n` recursive calls of at most `n` rounds each. -/
noncomputable def makeCloud : Nat → Args → SpherePack → Rnd → Option (Res (SpherePack × Int × Rnd))
  | 0, _, _, _ => none
  | n + 1, a, sp, g =>
    match plan a sp.scaling with
    | .ub => some .ub
    | .throws => some .throws
    | .ok (d, scaling) =>
      let cellSize := if a.periodic ∧ a.cell.det ≠ 0 ∧ a.hSize = 0 then a.size else sp.cellSize
      let sp := { sp with isPeriodic := a.periodic, cellSize := cellSize, scaling := scaling }
      match cloudLoop a d (n + 1) 0 sp.pack g with
      | none => none
      | some .ub => some .ub
      | some .throws => some .throws
      | some (.ok (.all, pack, g)) => some (.ok ({ sp with pack := pack }, (pack.length : Int), g))
      | some (.ok (.stuck i, pack, g)) =>
        if a.num > 0 ∧ d.retries then
          makeCloud n { a with rMean := -1, porosity := a.poro + (1 - a.poro) / 10 } { sp with pack := [] } g
        else some (.ok ({ sp with pack := pack }, (i : Int), g))

/-- The static generator of `makeCloud`, SpherePack.cpp 88-89: made from the seed by the first call
of the process and kept from then on.  `stream` gives the numbers for a seed. -/
def generator (stream : Int → Rnd) (static : Option Rnd) (seed : Int) : Rnd :=
  match static with
  | none => stream seed
  | some g => g

/-- A call of `makeCloud` from Python, SpherePack.cpp 86-256, with the static generator. -/
noncomputable def call (stream : Int → Rnd) (n : Nat) (a : Args) (seed : Int) (sp : SpherePack) (static : Option Rnd) :
    Option (Res (SpherePack × Int × Option Rnd)) :=
  (makeCloud n a sp (generator stream static seed)).map fun r =>
    r.bind fun (sp, k, g) => .ok (sp, k, some g)

end Verif.Pack
