import Verif.Base
import Verif.Mech.Vec
import Mathlib.Data.EReal.Operations
import Mathlib.Algebra.Order.Floor.Ring

/-!
# Solids given by predicates and regular packings in them

Transcription of py/pack/_packPredicates.cpp (all but `inGtsSurface` and predicates written in
Python) and of `regularOrtho`, `regularHexa` of py/pack/pack.py.  Numbers are real; where the code
divides by zero or takes the root of a negative number, the outcome of its comparisons (false, as
one side is not a number) is written out.
-/
namespace Verif.Pack
open Verif.Mech
open scoped Classical

/-- The predicates with the arguments of their constructors, _packPredicates.cpp 54-278. -/
inductive Solid where
  | union (A B : Solid)
  | inter (A B : Solid)
  | diff (A B : Solid)
  | xor (A B : Solid)
  | sphere (center : V3) (radius : ℝ)
  | box (mn mx : V3)
  | parallelepiped (o a b c : V3)
  | cylinder (c1 c2 : V3) (radius : ℝ)
  | hyperboloid (c1 c2 : V3) (R a : ℝ)
  | ellipsoid (c abc : V3)
  | notch (c edge normal : V3) (aperture : ℝ)

/-- Eigen `v.normalized()`: the zero vector is left alone (Eigen 3.3), as by division by zero in `ℝ`. -/
noncomputable def normalized (v : V3) : V3 := (norm3 v)⁻¹ • v

/-- The normals `n[i]`, _packPredicates.cpp 136-139. -/
noncomputable def pipedNormal (o a b c : V3) : Fin 6 → V3 :=
  let x := a - o
  let y := b - o
  let z := c - o
  let n0 := -normalized (cross y z)
  let n2 := -normalized (cross z x)
  let n4 := -normalized (cross x y)
  ![n0, -n0, n2, -n2, n4, -n4]

/-- The points `pts[i]`, _packPredicates.cpp 135-139. -/
def pipedPoint (o a b c : V3) : Fin 6 → V3 := ![o, a, o, b, o, c]

/-- `vertices`, _packPredicates.cpp 135, 141. -/
def pipedVertices (o a b c : V3) : Fin 8 → V3 :=
  ![o, a, a + (b - o), b, c, c + (a - o), c + (a - o) + (b - o), c + (b - o)]

/-- The coordinate along the axis times `ht`, `u*ht` in _packPredicates.cpp 161-162, 193-194, for
`ht` not zero. -/
noncomputable def along (c1 c2 pt : V3) : ℝ :=
  let ht := norm3 (c2 - c1)
  (dot pt (c2 - c1) - dot c1 (c2 - c1)) / (ht * ht) * ht

/-- `axisDist`, _packPredicates.cpp 163, 197, for `ht` not zero. -/
noncomputable def axisDist (c1 c2 pt : V3) : ℝ := norm3 (cross (pt - c1) (pt - c2)) / norm3 (c2 - c1)

/-- `rHere`, _packPredicates.cpp 189, 195-196, for `ht` not zero and `v` times `ht` given; none if it
is not a number: the root of a negative number for `R` below `a`, and `0*inf` for zero `a`.  For
`R` equal to `a`, `c` is infinite and `u` zero. -/
noncomputable def skirt (ht R a vht : ℝ) : Option ℝ :=
  if a = 0 then none
  else
    let q := (R / a) ^ 2 - 1
    if q < 0 then none
    else if q = 0 then some a
    else
      let c := ht / (2 * Real.sqrt q)
      let u := (vht / ht - 0.5) * ht / c
      some (a * Real.sqrt (1 + u * u))

/-- `edge`, `normal` and `inside` of a notch, _packPredicates.cpp 254-256. -/
noncomputable def notchFrame (edge normal : V3) : V3 × V3 × V3 :=
  let e := normalized edge
  let n := normalized (normal - dot e normal • e)
  (e, n, cross e n)

/-- `operator()` of the predicates, _packPredicates.cpp 57, 70, 83, 91, 111, 120-125, 148-151,
160-166, 192-200, 212-219, 260-271.  For a cylinder or hyperboloid with `ht` zero all numbers
compared are not numbers, and `true` is returned. -/
noncomputable def Solid.inside : Solid → V3 → ℝ → Prop
  | .union A B, pt, pad => A.inside pt pad ∨ B.inside pt pad
  | .inter A B, pt, pad => A.inside pt pad ∧ B.inside pt pad
  | .diff A B, pt, pad => A.inside pt pad ∧ ¬ B.inside pt (-pad)
  | .xor A B, pt, pad => (A.inside pt pad ∧ ¬ B.inside pt pad) ∨ (¬ A.inside pt pad ∧ B.inside pt pad)
  | .sphere center radius, pt, pad => norm3 (pt - center) ≤ radius - pad
  | .box mn mx, pt, pad => ∀ i, mn i + pad ≤ pt i ∧ mx i - pad ≥ pt i
  | .parallelepiped o a b c, pt, pad => ∀ i, ¬ dot (pt - pipedPoint o a b c i) (pipedNormal o a b c i) > -pad
  | .cylinder c1 c2 radius, pt, pad =>
    let ht := norm3 (c2 - c1)
    if ht = 0 then True
    else if along c1 c2 pt < 0 + pad ∨ along c1 c2 pt > ht - pad then False
    else if axisDist c1 c2 pt > radius - pad then False
    else True
  | .hyperboloid c1 c2 R a, pt, pad =>
    let ht := norm3 (c2 - c1)
    if ht = 0 then True
    else if along c1 c2 pt < 0 + pad ∨ along c1 c2 pt > ht - pad then False
    else match skirt ht R a (along c1 c2 pt) with
      | none => True
      | some rHere => if axisDist c1 c2 pt > rHere - pad then False else True
  | .ellipsoid c abc, pt, pad =>
    if abc 1 - pad = 0 ∨ abc 2 - pad = 0 then False
    else
      let d := (1 - (pt 1 - c 1) ^ 2 / ((abc 1 - pad) * (abc 1 - pad)) - (pt 2 - c 2) ^ 2 / ((abc 2 - pad) * (abc 2 - pad))) *
        ((abc 0 - pad) * (abc 0 - pad))
      if d < 0 then False
      else norm3 (pt - c) ≤ norm3 (![Real.sqrt d + c 0, pt 1, pt 2] - c)
  | .notch c edge normal aperture, pt, pad =>
    let (_, n, ins) := notchFrame edge normal
    let distUp := dot n (pt - c) - aperture / 2
    let distDown := -dot n (pt - c) - aperture / 2
    let distInPlane := -dot ins (pt - c)
    if distInPlane ≥ pad then True
    else if distUp ≥ pad then True
    else if distDown ≥ pad then True
    else if distInPlane < 0 then False
    else if distUp > 0 then Real.sqrt (distInPlane ^ 2 + distUp ^ 2) ≥ pad
    else if distDown > 0 then Real.sqrt (distInPlane ^ 2 + distUp ^ 2) ≥ pad
    else False

/-- A box as returned by `aabb()`, _packPredicates.cpp 28: its corners, which may be infinite; none
if they are not numbers. -/
abbrev Box := Option ((Fin 3 → EReal) × (Fin 3 → EReal))

/-- A corner with finite coordinates (`Vector3r`, e.g. _packPredicates.cpp 112). -/
def fin (v : V3) : Fin 3 → EReal := fun i => (v i : EReal)

/-- `inCylinder::aabb`, _packPredicates.cpp 167-176. -/
noncomputable def cylinderBox (A B : V3) (radius : ℝ) : Box :=
  let ht := norm3 (B - A)
  let k : V3 := ![Real.sqrt ((A 1 - B 1) ^ 2 + (A 2 - B 2) ^ 2) / ht, Real.sqrt ((A 0 - B 0) ^ 2 + (A 2 - B 2) ^ 2) / ht,
    Real.sqrt ((A 0 - B 0) ^ 2 + (A 1 - B 1) ^ 2) / ht]
  if ht = 0 then none
  else some (fin fun i => min (A i) (B i) - radius * k i, fin fun i => max (A i) (B i) + radius * k i)

/-- The corners of boxes joined or intersected coordinate by coordinate, _packPredicates.cpp 59-62,
72-75, 93-96. -/
def combine (f g : EReal → EReal → EReal) (a b : Box) : Box :=
  a.bind fun a => b.bind fun b => some (fun i => f (a.1 i) (b.1 i), fun i => g (a.2 i) (b.2 i))

/-- `aabb()` of the predicates, _packPredicates.cpp 58-63, 71-76, 84, 92-97, 112, 126, 142-146 and 152,
167-176, 201-204, 220-223, 273-276.  The loop over the vertices of a parallelepiped takes in the first
one twice, which makes no difference. -/
noncomputable def Solid.aabb : Solid → Box
  | .union A B => combine min max A.aabb B.aabb
  | .inter A B => combine max min A.aabb B.aabb
  | .diff A _ => A.aabb
  | .xor A B => combine min max A.aabb B.aabb
  | .sphere center radius => some (fin fun i => center i - radius, fin fun i => center i + radius)
  | .box mn mx => some (fin mn, fin mx)
  | .parallelepiped o a b c =>
    let v := pipedVertices o a b c
    some (fin fun i => (List.finRange 8).foldl (fun m k => min m (v k i)) (v 0 i),
      fin fun i => (List.finRange 8).foldl (fun m k => max m (v k i)) (v 0 i))
  | .cylinder c1 c2 radius => cylinderBox c1 c2 radius
  | .hyperboloid c1 c2 R _ => cylinderBox c1 c2 R
  | .ellipsoid c abc => some (fin fun i => c i - abc i, fin fun i => c i + abc i)
  | .notch _ _ _ _ => some (fun _ => ⊥, fun _ => ⊤)

/-! ## Regular packings -/

/-- numpy `arange(start,stop,step)` as used in pack.py 334; a zero step is a `ZeroDivisionError`. -/
noncomputable def arange (start stop step : ℝ) : Res (List ℝ) :=
  if step = 0 then .throws
  else .ok ((List.range ⌈(stop - start) / step⌉.toNat).map fun (i : Nat) => start + i * step)

/-- The corners of the box of a predicate, pack.py 332-333 and 347-349; an infinite box is refused,
and corners that are not numbers end in a `ValueError` of `arange` or `int`. -/
noncomputable def finiteBox (s : Solid) : Res (V3 × V3) :=
  match s.aabb with
  | none => .throws
  | some (mn, mx) =>
    if ∃ i, mx i - mn i = ⊤ then .throws else .ok (fun i => (mn i).toReal, fun i => (mx i).toReal)

/-- `itertools.product` of three lists, pack.py 335 and 351. -/
def product {α β γ : Type} (l : List α) (m : List β) (n : List γ) : List (α × β × γ) :=
  l.flatMap fun x => m.flatMap fun y => n.map fun z => (x, y, z)

/-- `regularOrtho`, pack.py 328-339: the centres of the spheres. -/
noncomputable def regularOrtho (s : Solid) (radius gap : ℝ) : Res (List V3) :=
  (finiteBox s).bind fun (mn, mx) =>
    (arange (mn 0 + radius) (mx 0 - radius) (2 * radius + gap)).bind fun xx =>
    (arange (mn 1 + radius) (mx 1 - radius) (2 * radius + gap)).bind fun yy =>
    (arange (mn 2 + radius) (mx 2 - radius) (2 * radius + gap)).bind fun zz =>
    .ok (((product xx yy zz).map fun (x, y, z) => ![x, y, z]).filter fun c => s.inside c radius)

/-- Python `int(x)`, pack.py 350. -/
noncomputable def toInt (x : ℝ) : Int := if 0 ≤ x then ⌊x⌋ else ⌈x⌉

/-- Python 2 `range(0,int(x)+1)`, pack.py 350. -/
noncomputable def rangeTo (x : ℝ) : List Nat := List.range (toInt x + 1).toNat

/-- The centre with indices `i,j,k`, pack.py 354-356. -/
noncomputable def hexaPoint (a : ℝ) (mn : V3) (i j k : Nat) : V3 :=
  (a / 2) • ![(2 * i + ((j + k) % 2 : Nat) : ℝ), Real.sqrt 3 * (j + 1 / 3 * ((k % 2 : Nat) : ℝ)), 2 * Real.sqrt 6 / 3 * k] + mn

/-- `regularHexa`, pack.py 341-360: the centres of the spheres. -/
noncomputable def regularHexa (s : Solid) (radius gap : ℝ) : Res (List V3) :=
  let a := 2 * radius + gap
  let hy := a * Real.sqrt 3 / 2
  let hz := a * Real.sqrt 6 / 3
  (finiteBox s).bind fun (mn, mx) =>
    if a = 0 then .throws
    else .ok (((product (rangeTo ((mx 0 - mn 0) / a)) (rangeTo ((mx 1 - mn 1) / hy)) (rangeTo ((mx 2 - mn 2) / hz))).map
      fun (i, j, k) => hexaPoint a mn i j k).filter fun c => s.inside c radius)

end Verif.Pack
