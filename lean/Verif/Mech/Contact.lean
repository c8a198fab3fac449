import Verif.Base
import Verif.Mech.Newton

/-!
# Contact geometry and the elastic-frictional contact law

`pkg/dem/Ig2_Sphere_Sphere_ScGeom.cpp`, `pkg/dem/ScGeom.cpp`, `pkg/dem/FrictPhys.cpp`,
`pkg/dem/ElasticContactLaw.cpp` and `applyForceAtContactPoint` of `pkg/common/Dispatching.hpp`; the order in which
they are called on one interaction is the one of `pkg/common/InteractionLoop.cpp`.
Real numbers instead of floating point.
-/
namespace Verif.Mech

/-- `ScGeom`, pkg/dem/ScGeom.hpp 18-72 (`refR1`, `refR2` are `radius1`, `radius2`). -/
structure ScGeom where
  normal : V3
  contactPoint : V3
  pd : ℝ
  r1 : ℝ
  r2 : ℝ
  twist : V3
  ortho : V3
  shearInc : V3

/-- What a geometry functor receives besides the two bodies: `scene->dt`, `shift2`, the velocity of the periodic image
`scene->cell->intrShiftVel(cellDist)` (zero when not periodic), and `avoidGranularRatcheting`. -/
structure GeomCtx where
  dt : ℝ
  shift2 : V3
  shiftVel : V3
  avoidRatcheting : Bool

/-- `ScGeom::getIncidentVel`, ScGeom.cpp 55-81. -/
noncomputable def incidentVel (g : ScGeom) (s1 s2 : State) (c : GeomCtx) : V3 :=
  if c.avoidRatcheting then
    let alpha := (g.r1 + g.r2) / (g.r1 + g.r2 - g.pd)
    (alpha • (s2.vel - s1.vel) + cross s2.angVel (-g.r2 • g.normal) - cross s1.angVel (g.r1 • g.normal))
      + alpha • c.shiftVel
  else
    let c1x := g.contactPoint - s1.pos
    let c2x := g.contactPoint - (s2.pos + c.shift2)
    ((s2.vel + cross s2.angVel c2x) - (s1.vel + cross s1.angVel c1x)) + c.shiftVel

/-- `ScGeom::precompute`, ScGeom.cpp 38-51.  `g` already holds contact point, depth and radii; its normal is still the one
of the previous step. -/
noncomputable def precompute (g : ScGeom) (s1 s2 : State) (c : GeomCtx) (n : V3) (isNew : Bool) : ScGeom :=
  let g := if isNew then { g with twist := 0, ortho := 0 } else
    { g with ortho := cross g.normal n,
             twist := (c.dt * 0.5 * dot g.normal (s1.angVel + s2.angVel)) • g.normal }
  let g := { g with normal := n }
  let rel := incidentVel g s1 s2 c
  let rel := rel - dot g.normal rel • g.normal
  { g with shearInc := c.dt • rel }

/-- A new `ScGeom`; its normal is read only after being assigned. -/
def ScGeom.new : ScGeom :=
  { normal := 0, contactPoint := 0, pd := 0, r1 := 0, r2 := 0, twist := 0, ortho := 0, shearInc := 0 }

/-- `Ig2_Sphere_Sphere_ScGeom::go`, Ig2_Sphere_Sphere_ScGeom.cpp 13-43.  `none`: the functor returned false.  Coinciding
centres throw with YADE_DEBUG and divide zero by zero otherwise: `ub`. -/
noncomputable def sphereSphere (factor : ℝ) (old : Option ScGeom) (isReal force : Bool) (r1 r2 : ℝ)
    (s1 s2 : State) (c : GeomCtx) : Res (Option ScGeom) :=
  let d := (s2.pos + c.shift2) - s1.pos
  if ¬ isReal ∧ ¬ force ∧ (factor * (r1 + r2)) ^ 2 - sqNorm d < 0 then .ok none
  else
    open Classical in
    if norm3 d = 0 then .ub
    else
      let n := (1 / norm3 d) • d
      let pd := r1 + r2 - norm3 d
      let g := old.getD ScGeom.new
      let g := { g with contactPoint := s1.pos + (r1 - 0.5 * pd) • n, pd := pd, r1 := r1, r2 := r2 }
      .ok (some (precompute g s1 s2 c n old.isNone))

/-- `Ig2_Wall_Sphere_ScGeom::go`, Ig2_Facet_Sphere_ScGeom.cpp 178-202; `sense` is -1, 0 or 1 (asserted). -/
noncomputable def wallSphere (axis : Fin 3) (sense : Int) (old : Option ScGeom) (isReal force : Bool) (radius : ℝ)
    (s1 s2 : State) (c : GeomCtx) : Option ScGeom :=
  let dist := s2.pos axis + c.shift2 axis - s1.pos axis
  if ¬ isReal ∧ |dist| > radius ∧ ¬ force then none
  else
    let contPt := Function.update (s2.pos + c.shift2) axis (s1.pos axis)
    let n : V3 := Function.update 0 axis
      (if sense = 0 then (if dist > 0 then 1 else -1) else (if sense = 1 then 1 else -1))
    let g := old.getD ScGeom.new
    let g := { g with r1 := radius, r2 := radius, contactPoint := contPt, pd := -(|dist| - radius) }
    some (precompute g s1 s2 c n old.isNone)

/-- `FrictPhys`: stiffnesses, tangent of the friction angle, forces. -/
structure FrictPhys where
  kn : ℝ
  ks : ℝ
  tan : ℝ
  Fn : V3
  Fs : V3

/-- `FrictMat`: the attributes read by the functor. -/
structure FrictMat where
  young : ℝ
  poisson : ℝ
  frictionAngle : ℝ

/-- `Ip2_FrictMat_FrictMat_FrictPhys::go` without `frictAngle`, FrictPhys.cpp 7-41: keeps existing physics; division by zero
(both Young moduli zero) is not distinguished. -/
noncomputable def frictPhys (old : Option FrictPhys) (m1 m2 : FrictMat) (g : ScGeom) : FrictPhys :=
  match old with
  | some p => p
  | none =>
    let Ra := if g.r1 > 0 then g.r1 else g.r2
    let Rb := if g.r2 > 0 then g.r2 else g.r1
    { kn := 2 * m1.young * Ra * m2.young * Rb / (m1.young * Ra + m2.young * Rb),
      ks := 2 * m1.young * Ra * m1.poisson * m2.young * Rb * m2.poisson /
        (m1.young * Ra * m1.poisson + m2.young * Rb * m2.poisson),
      tan := Real.tan (min m1.frictionAngle m2.frictionAngle), Fn := 0, Fs := 0 }

/-- `ScGeom::rotate`, ScGeom.cpp 15-22. -/
def ScGeom.rotate (g : ScGeom) (f : V3) : V3 :=
  let f := f - cross f g.ortho
  f - cross f g.twist

/-- Options of the law and of the scene. -/
structure LawCfg where
  neverErase : Bool
  sphericalBodies : Bool
  periodic : Bool

/-- Forces and torques added to both bodies. -/
structure Loads where
  f1 : V3
  t1 : V3
  f2 : V3
  t2 : V3

/-- No force at all. -/
def Loads.zero : Loads := ⟨0, 0, 0, 0⟩

/-- What the law does: return value, new forces in the physics, loads on the bodies, plastic work. -/
structure LawOut where
  keep : Bool
  phys : FrictPhys
  loads : Loads
  dissip : ℝ

/-- The shear force before the friction limit, ElasticContactLaw.cpp 64-66. -/
def trialShear (g : ScGeom) (p : FrictPhys) : V3 := g.rotate p.Fs - p.ks • g.shearInc

/-- `kn*max(un,0)*normal`, ElasticContactLaw.cpp 62. -/
def normalForce (g : ScGeom) (p : FrictPhys) : V3 := (p.kn * max g.pd 0) • g.normal

/-- The friction limit, ElasticContactLaw.cpp 67-73 (and 76-80). -/
noncomputable def slip (maxFs : ℝ) (trial : V3) : V3 :=
  if sqNorm trial > maxFs then (Real.sqrt maxFs / norm3 trial) • trial else trial

/-- The plastic work, ElasticContactLaw.cpp 76-83. -/
noncomputable def plastic (ks maxFs : ℝ) (trial : V3) : ℝ :=
  if sqNorm trial > maxFs then dot ((1 / ks) • (trial - slip maxFs trial)) (slip maxFs trial) else 0

/-- Lines 88-97 of ElasticContactLaw.cpp; `applyForceAtContactPoint` is Dispatching.hpp 63-66. -/
noncomputable def applyLoads (cfg : LawCfg) (g : ScGeom) (F pos1 pos2 : V3) : Loads :=
  if ¬ cfg.periodic ∧ ¬ cfg.sphericalBodies then
    { f1 := F, t1 := cross (g.contactPoint - pos1) F, f2 := -F, t2 := -cross (g.contactPoint - pos2) F }
  else
    { f1 := F, t1 := (g.r1 - 0.5 * g.pd) • cross g.normal F, f2 := -F,
      t2 := (g.r2 - 0.5 * g.pd) • cross g.normal F }

/-- `Law2_ScGeom_FrictPhys_CundallStrack::go`, ElasticContactLaw.cpp 49-100; both variants of the energy block update the
force in the same way, `dissip` is what the second one adds. -/
noncomputable def lawGo (cfg : LawCfg) (g : ScGeom) (p : FrictPhys) (pos1 pos2 : V3) : LawOut :=
  if g.pd < 0 ∧ ¬ cfg.neverErase then
    { keep := false, phys := p, loads := Loads.zero, dissip := 0 }
  else
    let p := if g.pd < 0 then { p with Fs := 0, Fn := 0 } else p
    let Fn := normalForce g p
    let trial := trialShear g p
    let maxFs := sqNorm Fn * p.tan ^ 2
    let Fs := slip maxFs trial
    { keep := true, phys := { p with Fn := Fn, Fs := Fs }, loads := applyLoads cfg g (-Fn - Fs) pos1 pos2,
      dissip := plastic p.ks maxFs trial }

/-- Geometry and physics of an interaction. -/
structure Contact where
  geom : Option ScGeom
  phys : Option FrictPhys

/-- A pair of spheres with their materials. -/
structure Pair where
  r1 : ℝ
  r2 : ℝ
  m1 : FrictMat
  m2 : FrictMat
  factor : ℝ
  cfg : LawCfg

/-- One pass of `InteractionLoop::action` over an interaction of two spheres, InteractionLoop.cpp 100-160: geometry functor
(a real interaction whose geometry functor fails is reset), physics functor, law (false: reset, as `requestErase` does). -/
noncomputable def contactStep (P : Pair) (k : Contact) (s1 s2 : State) (c : GeomCtx) : Res (Contact × Loads) :=
  match sphereSphere P.factor k.geom (k.geom.isSome && k.phys.isSome) false P.r1 P.r2 s1 s2 c with
  | .ub => .ub
  | .throws => .throws
  | .ok none =>
    .ok (if k.geom.isSome && k.phys.isSome then ⟨none, none⟩ else k, Loads.zero)
  | .ok (some g) =>
    let p := frictPhys k.phys P.m1 P.m2 g
    let o := lawGo P.cfg g p s1.pos s2.pos
    .ok (if o.keep then ⟨some g, some o.phys⟩ else ⟨none, none⟩, o.loads)

end Verif.Mech
