import Verif.Mech.Contact

/-!
# Contact geometry of boxes and facets with spheres

`Ig2_Box_Sphere_ScGeom`, `Ig2_Facet_Sphere_ScGeom`, `Facet` and the facet helpers of the Python module `utils`.  Radii and
coordinates are real numbers; timing and log output are left out.
-/
namespace Verif.Mech

/-! ## Box -/

/-- One of the three clamping line pairs, Ig2_Box_Sphere_ScGeom.cpp 45-50. -/
noncomputable def clampTo (e x : ℝ) : ℝ :=
  let x := if x < -e then -e else x
  if x > e then e else x

/-- `inside`, Ig2_Box_Sphere_ScGeom.cpp 45-50: no coordinate had to be clamped. -/
def boxInside (e x : V3) : Prop := ∀ i, ¬ x i < -e i ∧ ¬ x i > e i

/-- Search for the nearest face, Ig2_Box_Sphere_ScGeom.cpp 57-58: index and distance. -/
noncomputable def nearestFace (e x : V3) : Fin 3 × ℝ :=
  let d (i : Fin 3) : ℝ := e i - |x i|
  let s : Fin 3 × ℝ := (0, d 0)
  let s := if d 1 < s.2 then (1, d 1) else s
  if d 2 < s.2 then (2, d 2) else s

/-- Eigen `v.normalize()`; a zero vector is left alone by Eigen 3.3 and becomes NaN before: callers check. -/
noncomputable def normalized (v : V3) : V3 := (1 / norm3 v) • v

/-- `Ig2_Box_Sphere_ScGeom::go`, Ig2_Box_Sphere_ScGeom.cpp 22-137.  `none`: the functor returned false.  The inner `normal` of
line 82 hides the outer one; `pt1`, `pt2` of lines 80-81 are taken without `shift2`, as in the code. -/
noncomputable def boxSphere (extents : V3) (radius : ℝ) (old : Option ScGeom) (isReal force : Bool) (s1 s2 : State)
    (c : GeomCtx) : Option ScGeom :=
  let rel := s2.pos + c.shift2 - s1.pos
  let loc := s1.ori.toMat.transpose.mulVec rel
  let onBox : V3 := fun i => clampTo (extents i) (loc i)
  let g := old.getD ScGeom.new
  open Classical in
  if boxInside extents loc then
    let (i, dist) := nearestFace extents loc
    let n := s1.ori.toMat.mulVec (Function.update (0 : V3) i (if loc i > 0 then 1 else -1))
    let n := normalized n
    let pt1 := s2.pos + dist • n
    let pt2 := s2.pos - radius • n
    let g := { g with contactPoint := (0.5 : ℝ) • (pt1 + pt2), pd := norm3 (pt1 - pt2), r1 := radius, r2 := radius }
    some (precompute g s1 s2 { c with avoidRatcheting := true } (normalized (pt1 - pt2)) old.isNone)
  else
    let onBoxG := s1.ori.toMat.mulVec onBox
    let toBox := onBoxG - rel
    let depth := radius - norm3 toBox
    if depth < 0 ∧ ¬ isReal ∧ ¬ force then none
    else
      let pt1 := onBoxG + s1.pos
      let dir := normalized toBox
      let pt2 := s2.pos + c.shift2 + radius • dir
      let g := { g with contactPoint := (0.5 : ℝ) • (pt1 + pt2), pd := depth, r1 := radius, r2 := radius }
      some (precompute g s1 s2 { c with avoidRatcheting := false } (-dir) old.isNone)

/-! ## Facet -/

/-- `Facet`, Facet.hpp 18-48: vertices and what `postLoad` derives from them. -/
structure Facet where
  vertices : Fin 3 → V3
  normal : V3
  ne : Fin 3 → V3
  icr : ℝ
  vl : Fin 3 → ℝ
  vu : Fin 3 → V3

/-- The edges, Facet.cpp 24. -/
def facetEdge (v : Fin 3 → V3) (i : Fin 3) : V3 := v (i + 1) - v i

/-- The facet normal, Facet.cpp 28-30. -/
noncomputable def facetNormal (v : Fin 3 → V3) : V3 :=
  let n := cross (facetEdge v 0) (facetEdge v 1)
  let area := 0.5 * norm3 n
  (1 / (2 * area)) • n

/-- Normal of an edge, Facet.cpp 32. -/
noncomputable def edgeNormal (v : Fin 3 → V3) (i : Fin 3) : V3 := normalized (cross (facetEdge v i) (facetNormal v))

/-- `Facet::postLoad`, Facet.cpp 17-38; coinciding vertices are only logged. -/
noncomputable def facetPostLoad (v : Fin 3 → V3) : Facet :=
  { vertices := v, normal := facetNormal v, ne := edgeNormal v,
    icr := norm3 (facetEdge v 0) * dot (edgeNormal v 0) (facetEdge v 2) /
      (norm3 (facetEdge v 0) + norm3 (facetEdge v 1) + norm3 (facetEdge v 2)),
    vl := fun i => norm3 (v i), vu := fun i => (1 / norm3 (v i)) • v i }

/-- `Shop::inscribedCircleCenter`, Shop_02.cpp 129-132. -/
noncomputable def inscribedCircleCenter (v : Fin 3 → V3) : V3 :=
  v 0 + (1 / (norm3 (v 1 - v 0) + norm3 (v 2 - v 1) + norm3 (v 0 - v 2))) •
    (norm3 (v 1 - v 0) • (v 2 - v 0) + norm3 (v 2 - v 0) • (v 1 - v 0))

/-- `utils.facet`, py/utils.py 249-266: shape and position (the orientation is the identity). -/
noncomputable def utilsFacet (v : Fin 3 → V3) : Facet × V3 :=
  let c := inscribedCircleCenter v
  (facetPostLoad fun i => v i - c, c)

/-- `setNewVerticesOfFacet`, py/_utils.cpp 369-376: writes the vertices and the position; `postLoad` does not run. -/
noncomputable def setNewVertices (f : Facet) (v : Fin 3 → V3) : Facet × V3 :=
  let c := inscribedCircleCenter v
  ({ f with vertices := fun i => v i - c }, c)

/-- The edge whose normal reaches farthest, Ig2_Facet_Sphere_ScGeom.cpp 60-66. -/
noncomputable def farEdge (f : Facet) (cp : V3) : Fin 3 × ℝ :=
  let b (i : Fin 3) : ℝ := dot (f.ne i) cp
  let s : Fin 3 × ℝ := (0, b 0)
  let s := if s.2 < b 1 then (1, b 1) else s
  if s.2 < b 2 then (2, b 2) else s

/-- Lines 87-93 of Ig2_Facet_Sphere_ScGeom.cpp: the point of the facet's boundary; `m` is the far edge. -/
noncomputable def boundaryPoint (f : Facet) (sh icr : ℝ) (cp : V3) (m : Fin 3) (bm : ℝ) : V3 :=
  let cp := cp + (icr - bm) • f.ne m
  if dot cp (f.ne (m + 2)) > icr then (f.vl m - sh) • f.vu m
  else if dot cp (f.ne (m + 1)) > icr then (f.vl (m + 1) - sh) • f.vu (m + 1)
  else cp

/-- Lines 80-97 of Ig2_Facet_Sphere_ScGeom.cpp in facet coordinates: contact normal and depth.  A sphere centre on the boundary of
the facet divides zero by zero: `ub`. -/
noncomputable def facetLocal (f : Facet) (sh icr radius : ℝ) (cl normal : V3) (L : ℝ) : Res (V3 × ℝ) :=
  let cp := cl - L • normal
  let (m, bm) := farEdge f cp
  if bm < icr then .ok (normalized normal, radius - L)
  else
    let d := cl - boundaryPoint f sh icr cp m bm
    open Classical in
    if norm3 d = 0 then .ub else .ok ((1 / norm3 d) • d, radius - norm3 d)

/-- `Ig2_Facet_Sphere_ScGeom::go`, Ig2_Facet_Sphere_ScGeom.cpp 22-118.  `shrink` is the current `shrinkFactor`; the
assignment of zero in line 73 persists in the functor, the model does not return the new value. -/
noncomputable def facetSphere (shrink : ℝ) (f : Facet) (radius : ℝ) (old : Option ScGeom) (isReal force : Bool)
    (s1 s2 : State) (c : GeomCtx) : Res (Option ScGeom) :=
  let cl := s1.ori.toMat.transpose.mulVec (s2.pos + c.shift2 - s1.pos)
  let L := dot f.normal cl
  let normal := if L < 0 then -f.normal else f.normal
  let L := if L < 0 then -L else L
  if L > radius ∧ ¬ isReal ∧ ¬ force then .ok none
  else
    let sh := radius * shrink
    let icr := if f.icr - sh < 0 then f.icr else f.icr - sh
    let sh := if f.icr - sh < 0 then 0 else sh
    match facetLocal f sh icr radius cl normal L with
    | .ok (n, pd) =>
      if pd > 0 ∨ isReal then
        let g := old.getD ScGeom.new
        let n := s1.ori.toMat.mulVec n
        let g := { g with contactPoint := s2.pos + c.shift2 - (radius - 0.5 * pd) • n, pd := pd, r1 := 2 * radius,
                          r2 := radius }
        .ok (some (precompute g s1 s2 { c with avoidRatcheting := false } n old.isNone))
      else .ok none
    | .throws => .throws
    | .ub => .ub

end Verif.Mech
