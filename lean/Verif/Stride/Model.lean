import Verif.Mech.Newton
import Verif.Peri.Cell
/-!
# Bounding boxes and the decision to skip the collider

Transcribes the box functors (`pkg/common/Bo1_Aabb.cpp`), the bound dispatcher (`pkg/common/Dispatching.cpp` 15–58) and the part of
`pkg/common/InsertionSortCollider.cpp` that decides whether to run and updates the boxes (174–284), on top of the integrator of
`Verif.Mech` and the cell of `Verif.Peri`.  The sorting itself is in `Verif.Collide` and `Verif.Peri`.

Simplifications: real numbers; shapes other than spheres, facets and boxes have no functor here; the OpenMP loop over the bodies runs in
the order of ids (each iteration touches its own body only).
-/
namespace Verif.Stride
open Verif Verif.Mech Matrix
open Verif.Peri (Cell)

/-- the shapes with a box functor in Bo1_Aabb.cpp; `other` stands for a shape without a functor -/
inductive Shp where
  | sphere (radius : ℝ)
  | facet (vertices : Fin 3 → V3)
  | box (extents : V3)
  | other

/-- Cell.cpp 23–28 `_cos`: squared sine of the angle between the other two base vectors -/
noncomputable def skew (c : Cell) (i : Fin 3) : ℝ := sqNorm (cross (Peri.col c.shear (i + 1)) (Peri.col c.shear (i + 2)))

/-- Bo1_Aabb.cpp 17, 23–32: half size of the box of a sphere.  Axis `i` is enlarged in the rounds of the other two axes. -/
noncomputable def sphereHalf (enlarge : ℝ) (cell : Option Cell) (r : ℝ) : V3 :=
  let half := (if 0 < enlarge then enlarge else 1) * r
  match cell with
  | none => fun _ => half
  | some c =>
    if c.hasShear then fun i => half + 0.5 * half * (1 / skew c (i + 1) - 1) + 0.5 * half * (1 / skew c (i + 2) - 1)
    else fun _ => half

/-- `unshearPt` in a periodic scene (Cell.hpp 75), the point itself otherwise -/
noncomputable def unshearPt (cell : Option Cell) (p : V3) : V3 :=
  match cell with
  | none => p
  | some c => c.unshear *ᵥ p

/-- Bo1_Aabb.cpp 13–36 `Bo1_Sphere_Aabb::go` -/
noncomputable def sphereBox (enlarge : ℝ) (cell : Option Cell) (r : ℝ) (pos : V3) : V3 × V3 :=
  (unshearPt cell pos - sphereHalf enlarge cell r, unshearPt cell pos + sphereHalf enlarge cell r)

/-- Bo1_Aabb.cpp 38–66 `Bo1_Facet_Aabb::go`; the infinite start values of the periodic case (58–59) disappear in the first round -/
noncomputable def facetBox (cell : Option Cell) (v : Fin 3 → V3) (pos : V3) (ori : Quat) : V3 × V3 :=
  let p : Fin 3 → V3 := fun k => unshearPt cell (pos + ori.toMat *ᵥ v k)
  (fun a => min (min (p 0 a) (p 1 a)) (p 2 a), fun a => max (max (p 0 a) (p 1 a)) (p 2 a))

/-- Bo1_Aabb.cpp 79–83: half size of the box of a box -/
noncomputable def boxHalf (ext : V3) (ori : Quat) : V3 :=
  fun i => |ori.toMat i 0 * ext 0| + |ori.toMat i 1 * ext 1| + |ori.toMat i 2 * ext 2|

/-- Bo1_Aabb.cpp 68–87 `Bo1_Box_Aabb::go` -/
noncomputable def boxBox (cell : Option Cell) (ext : V3) (pos : V3) (ori : Quat) : Res (V3 × V3) :=
  match cell with
  | some c => if c.hasShear then .throws else .ok (pos - boxHalf ext ori, pos + boxHalf ext ori)
  | none => .ok (pos - boxHalf ext ori, pos + boxHalf ext ori)

/-- the functor found for the shape, Dispatching.cpp 35–38; `none` when there is none -/
noncomputable def shapeBox (enlarge : ℝ) (cell : Option Cell) (sh : Shp) (st : State) : Res (Option (V3 × V3)) :=
  match sh with
  | .sphere r => .ok (some (sphereBox enlarge cell r st.pos))
  | .facet v => .ok (some (facetBox cell v st.pos st.ori))
  | .box e => (boxBox cell e st.pos st.ori).bind fun b => .ok (some b)
  | .other => .ok none

/-- the scene, the integrator's memory (`w`) and the attributes of the collider and of its bound dispatcher that matter here.
`cell` is `none` in a non-periodic scene; `shape`, `bounded` are `Body::shape`, `Body::isBounded`; `box`, `last` are `Bound::min`,
`Bound::max`, `Bound::lastUpdateIter` of bodies with a bound (Bound.hpp 27–34; `refPos` and `sweepLength` are in `w`); `nBB` is half of
`BB[0].size`; `hasNewton` says whether the collider has found the integrator and `newtonInEngines` whether there is one to find. -/
structure Scn where
  w : World
  cell : Option Cell
  size : Nat
  iter : Int
  shape : Nat → Option Shp
  bounded : Nat → Bool
  box : Nat → V3 × V3
  last : Nat → Int
  doSort : Bool
  dirty : Bool
  verletDist : ℝ
  targetInterv : Int
  minSweepDistFactor : ℝ
  enlarge : ℝ
  nBB : Nat
  hasNewton : Bool
  newtonInEngines : Bool
  strideActive : Bool

/-- Dispatching.cpp 43–44: largest displacement component since the last update -/
def maxDisp (b : Bod) (bd : BoundInfo) : ℝ :=
  max |(b.st.pos - bd.refPos) 0| (max |(b.st.pos - bd.refPos) 1| |(b.st.pos - bd.refPos) 2|)

/-- Dispatching.cpp 41–50: the new sweep length.  A bound that was just created has `refPos` NaN, `sweepLength` 0 and
`lastUpdateIter` 0 (Bound.hpp 27–30): the comparisons with NaN then give a `newLength` of 0. -/
noncomputable def newSweep (s : Scn) (id : Nat) (b : Bod) : ℝ :=
  match b.bound with
  | some bd =>
    if 0 ≤ s.targetInterv ∧ s.last id < s.iter then
      let dist := maxDisp b bd
      if dist ≠ 0 then
        let newLength := max (0.9 * bd.sweepLength) (dist * s.targetInterv / ((s.iter - s.last id : Int) : ℝ))
        max (s.minSweepDistFactor * s.verletDist) (min newLength s.verletDist)
      else 0
    else s.verletDist
  | none =>
    if 0 ≤ s.targetInterv ∧ 0 < s.iter then max (s.minSweepDistFactor * s.verletDist) (min 0 s.verletDist)
    else s.verletDist

/-- Dispatching.cpp 53–57: the box enlarged by the sweep length if that is positive -/
noncomputable def swept (bx : V3 × V3) (l : ℝ) : V3 × V3 :=
  if 0 < l then (fun a => bx.1 a - l, fun a => bx.2 a + l) else bx

/-- Dispatching.cpp 30–58 `BoundDispatcher::processBody` (and 24, 35: vanished bodies and shapes without functor are skipped) -/
noncomputable def processBody (id : Nat) (s : Scn) : Res Scn :=
  match s.w.bodies id, s.bounded id, s.shape id with
  | some b, true, some sh =>
    match shapeBox s.enlarge s.cell sh b.st with
    | .throws => .throws
    | .ub => .ub
    | .ok none => .ok s
    | .ok (some bx) =>
      let l := newSweep s id b
      .ok { s with
        w := s.w.setBody id { b with bound := some ⟨b.st.pos, l⟩ }
        last := fun j => if j = id then s.iter else s.last j
        box := fun j => if j = id then swept bx l else s.box j }
  | _, _, _ => .ok s

/-- Dispatching.cpp 15–28 `BoundDispatcher::action` -/
noncomputable def boundLoop : List Nat → Scn → Res Scn
  | [], s => .ok s
  | id :: ids, s => (processBody id s).bind (boundLoop ids)

/-- InsertionSortCollider.cpp 240–251: automatic Verlet distance.  `none` for the infinite minimum without spheres. -/
noncomputable def minRadius (shape : Nat → Option Shp) (alive : Nat → Bool) : List Nat → Option ℝ
  | [] => none
  | id :: ids =>
    match alive id, shape id, minRadius shape alive ids with
    | true, some (.sphere r), some m => some (min r m)
    | true, some (.sphere r), none => some r
    | _, _, m => m

/-- InsertionSortCollider.cpp 240–251 -/
noncomputable def autoVerlet (s : Scn) : ℝ :=
  if s.verletDist < 0 then
    match minRadius s.shape (fun id => (s.w.bodies id).isSome) (List.range s.size) with
    | none => 0
    | some m => |s.verletDist| * m
  else s.verletDist

/-- InsertionSortCollider.cpp 174–185 `isActivated` -/
noncomputable def isActivated (s : Scn) : Bool :=
  if !s.strideActive then true
  else if !s.hasNewton then true
  else if 1 ≤ s.w.maxVelocitySq ∨ s.w.maxVelocitySq = 0 then true
  else if s.nBB ≠ s.size then true
  else if s.dirty then true
  else s.doSort

/-- InsertionSortCollider.cpp 187–284, the part of `action` before the sorting (the collider then copies the boxes, 286–311, and sorts
them) -/
noncomputable def colliderAction (s : Scn) : Res Scn :=
  let s := { s with doSort := false, nBB := s.size, verletDist := autoVerlet s, dirty := false }
  (boundLoop (List.range s.size) s).bind fun s =>
  if 0 < s.verletDist then
    if s.hasNewton || s.newtonInEngines then .ok { s with hasNewton := true, strideActive := true } else .throws
  else .ok s

/-- the collider's turn in a step, core/Scene.cpp 94–97, 131: run if activated -/
noncomputable def colliderTurn (s : Scn) : Res Scn := if isActivated s then colliderAction s else .ok s

/-- Shop_02.cpp 819–843 `growParticles` with `dynamicOnly=false`, `updateMass=false`: radii of spheres and positions inside clumps
(the update of contacts, 844–857, is left out).  A body without a shape or a vanished one is dereferenced (826). -/
noncomputable def growParticles (m : ℝ) (s : Scn) : Scn :=
  { s with
    shape := fun j => match s.w.bodies j, s.shape j with
      | some _, some (.sphere r) => some (.sphere (r * m))
      | _, sh => sh
    w := { s.w with bodies := fun j => (s.w.bodies j).map fun b =>
      match b.kind with
      | .clump ms => { b with kind := .clump (ms.map fun p => (p.1, { p.2 with pos := m • p.2.pos })) }
      | .member c => match s.shape j with
        | some (.sphere _) => match s.w.bodies c with
          | some cb => { b with st := { b.st with pos := b.st.pos + (m - 1) • (b.st.pos - cb.st.pos) } }
          | none => b
        | _ => b
      | .standalone => b } }

/-- Shop_02.cpp 860–865 `growParticle` with `updateMass=false` for a sphere -/
noncomputable def growParticle (id : Nat) (m : ℝ) (s : Scn) : Scn :=
  { s with shape := fun j => if j = id then
      (match s.shape j with | some (.sphere r) => some (.sphere (r * m)) | sh => sh) else s.shape j }

/-- core/Scene.cpp 89, 129: the cell advances at the beginning of a step; the integrator sees its new lengths -/
noncomputable def cellTurn (dt : ℝ) (s : Scn) : Res Scn :=
  match s.cell with
  | none => .ok s
  | some c => (Peri.integrate dt { c with velGrad := s.w.cell.velGrad }).bind fun c =>
    .ok { s with cell := some c, w := { s.w with cell := { s.w.cell with size := c.size } } }

end Verif.Stride
