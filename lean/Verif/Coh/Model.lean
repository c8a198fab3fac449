import Verif.Mech.Contact
import Mathlib.Analysis.SpecialFunctions.Trigonometric.Inverse

/-!
# Cohesive-frictional contacts with moments

`pkg/dem/CohesiveFrictionalContactLaw.{hpp,cpp}`, `ScGeom6D` of `pkg/dem/ScGeom.{hpp,cpp}` and
`Ig2_Sphere_Sphere_ScGeom6D` of `pkg/dem/Ig2_Sphere_Sphere_ScGeom.cpp`, on top of the contact geometry of
`Verif.Mech`.  Real numbers instead of floating point.  `twist_creep` and `twistCreep` are left out (creep of the twist
is off, the default); the `LOG_WARN`s too.
-/
namespace Verif.Coh

open Verif.Mech

/-! ## Relative rotations -/

/-- Angle times axis of Eigen's `AngleAxis(q)` for a unit quaternion, the angle brought to the range from -π to π,
ScGeom.cpp 117-135; a rotation by nothing has angle zero. -/
noncomputable def rotVec (q : Quat) : V3 :=
  ((if q.w < 0 then -1 else 1) * (2 * Real.arccos |q.w|) / norm3 q.vec) • q.vec

/-- `ScGeom6D`, ScGeom.hpp 66-90, without `twistCreep`. -/
structure Geom6 where
  g : ScGeom
  ori1 : Quat
  ori2 : Quat
  twist : ℝ
  bending : V3

/-- `ScGeom6D::initRotations`, ScGeom.cpp 141-148. -/
def initRotations (G : Geom6) (s1 s2 : State) : Geom6 :=
  { G with ori1 := s1.ori, ori2 := s2.ori, twist := 0, bending := 0 }

/-- The quaternion `delta`, ScGeom.cpp 114-115. -/
noncomputable def delta (G : Geom6) (s1 s2 : State) : Quat :=
  ((s1.ori.mul G.ori1.conj).mul (G.ori2.mul s2.ori.conj)).normalize

/-- `ScGeom6D::precomputeRotations` of an existing contact, ScGeom.cpp 110-139; `creep` is off. -/
noncomputable def updateRotations (G : Geom6) (s1 s2 : State) : Geom6 :=
  let v := rotVec (delta G s1 s2)
  let t := dot v G.g.normal
  { G with twist := t, bending := v - t • G.g.normal }

/-- `Ig2_Sphere_Sphere_ScGeom6D::go` with `updateRotations`, Ig2_Sphere_Sphere_ScGeom.cpp 60-72. -/
noncomputable def sphereSphere6 (factor : ℝ) (old : Option Geom6) (isReal : Bool) (r1 r2 : ℝ) (s1 s2 : State)
    (c : GeomCtx) : Res (Option Geom6) :=
  match sphereSphere factor (old.map (·.g)) isReal false r1 r2 s1 s2 c with
  | .ub => .ub
  | .throws => .throws
  | .ok none => .ok none
  | .ok (some g) =>
    match old with
    | none => .ok (some (initRotations ⟨g, Quat.one, Quat.one, 0, 0⟩ s1 s2))
    | some G => .ok (some (updateRotations { G with g := g } s1 s2))

/-! ## Materials and physics -/

/-- `CohFrictMat`, CohesiveFrictionalContactLaw.hpp 21-41, on top of `FrictMat`. -/
structure Mat where
  young : ℝ
  poisson : ℝ
  frictionAngle : ℝ
  isCohesive : Bool
  alphaKr : ℝ
  alphaKtw : ℝ
  etaRoll : ℝ
  etaTwist : ℝ
  normalCohesion : ℝ
  shearCohesion : ℝ
  fragile : Bool
  momentLaw : Bool

/-- `CohFrictPhys`, CohesiveFrictionalContactLaw.hpp 46-77, on top of `FrictPhys`; `creep_viscosity` is read nowhere. -/
structure Phys where
  kn : ℝ
  ks : ℝ
  tan : ℝ
  /-- `normalForce` -/
  Fn : V3
  /-- `shearForce` -/
  Fs : V3
  /-- `cohesionDisablesFriction` -/
  noFriction : Bool
  /-- `cohesionBroken` -/
  broken : Bool
  fragile : Bool
  kr : ℝ
  ktw : ℝ
  maxRoll : ℝ
  maxTwist : ℝ
  /-- `normalAdhesion` -/
  aN : ℝ
  /-- `shearAdhesion` -/
  aS : ℝ
  unp : ℝ
  unpMax : ℝ
  momentLaw : Bool
  initCohesion : Bool
  /-- `moment_twist` -/
  Mt : V3
  /-- `moment_bending` -/
  Mb : V3

/-- A new `CohFrictPhys`, the defaults of CohesiveFrictionalContactLaw.hpp 54-71. -/
def Phys.new : Phys :=
  { kn := 0, ks := 0, tan := 0, Fn := 0, Fs := 0, noFriction := false, broken := true, fragile := true, kr := 0,
    ktw := 0, maxRoll := 0, maxTwist := 0, aN := 0, aS := 0, unp := 0, unpMax := 0, momentLaw := false,
    initCohesion := false, Mt := 0, Mb := 0 }

/-- `SetBreakingState`, CohesiveFrictionalContactLaw.hpp 50. -/
def Phys.breakUp (p : Phys) : Phys := { p with broken := true, aN := 0, aS := 0 }

/-- The functor's attributes, CohesiveFrictionalContactLaw.hpp 139-155; `cohN` and `cohS` are the values of the matchmakers
`normalCohesion` and `shearCohesion` for the two materials, if there are any, `angle` that of `frictAngle`. -/
structure Ip2 where
  setNow : Bool
  onNew : Bool
  defIter : ℤ
  cohN : Option ℝ
  cohS : Option ℝ
  angle : Option ℝ

/-- What every call does with `setCohesionNow`, CohesiveFrictionalContactLaw.cpp 245-248. -/
def Ip2.tick (f : Ip2) (iter : ℤ) : Ip2 :=
  let f := if f.setNow ∧ f.defIter = -1 then { f with defIter := iter } else f
  if f.setNow ∧ f.defIter ≠ -1 ∧ f.defIter ≠ iter then { f with defIter := -1, setNow := false } else f

/-- The harmonic mean of lines 271-274, nothing if one of the two is zero. -/
noncomputable def harm0 (a b : ℝ) : ℝ :=
  open Classical in if a ≠ 0 ∧ b ≠ 0 then 2 * a * b / (a + b) else 0

/-- The shear stiffness, lines 276-278. -/
noncomputable def shearStiffness (m1 m2 : Mat) (Da Db : ℝ) : ℝ :=
  open Classical in
  if m1.poisson ≠ 0 ∧ m2.poisson ≠ 0 then
    2 * m1.young * Da * m1.poisson * m2.young * Db * m2.poisson /
      (m1.young * Da * m1.poisson + m2.young * Db * m2.poisson)
  else 0

/-- Lines 286-290 and 303-308: the bond, the present orientations becoming those of reference. -/
noncomputable def bond (f : Ip2) (m1 m2 : Mat) (G : Geom6) (p : Phys) : Phys :=
  let aN := f.cohN.getD (min m1.normalCohesion m2.normalCohesion)
  let aS := f.cohS.getD (min m1.shearCohesion m2.shearCohesion)
  { p with broken := false, aN := aN * min G.g.r2 G.g.r1 ^ 2, aS := aS * min G.g.r2 G.g.r1 ^ 2,
           fragile := m1.fragile || m2.fragile, initCohesion := false }

/-- `Ip2_CohFrictMat_CohFrictMat_CohFrictPhys::go` after `tick`, CohesiveFrictionalContactLaw.cpp 250-312.  Division by zero (both
Young moduli zero) is not distinguished. -/
noncomputable def ip2Go (f : Ip2) (m1 m2 : Mat) (old : Option Phys) (G : Geom6) (s1 s2 : State) : Phys × Geom6 :=
  let Da := G.g.r1
  let Db := G.g.r2
  match old with
  | none =>
    let ks := shearStiffness m1 m2 Da Db
    let p := { Phys.new with
      kn := 2 * m1.young * Da * m2.young * Db / (m1.young * Da + m2.young * Db), ks := ks,
      kr := Da * Db * ks * harm0 m1.alphaKr m2.alphaKr, ktw := Da * Db * ks * harm0 m1.alphaKtw m2.alphaKtw,
      tan := Real.tan (f.angle.getD (min m1.frictionAngle m2.frictionAngle)),
      maxRoll := min (m1.etaRoll * Da) (m2.etaRoll * Db), maxTwist := min (m1.etaTwist * Da) (m2.etaTwist * Db),
      momentLaw := m1.momentLaw && m2.momentLaw }
    if (f.onNew || f.setNow) && m1.isCohesive && m2.isCohesive then
      (bond f m1 m2 G p, initRotations G s1 s2)
    else (p, G)
  | some p =>
    if (f.setNow && m1.isCohesive && m2.isCohesive) || p.initCohesion then
      (bond f m1 m2 G p, initRotations G s1 s2)
    else (p, G)

/-! ## The law -/

/-- Attributes of `Law2_ScGeom6D_CohFrictPhys_CohesionMoment`, CohesiveFrictionalContactLaw.hpp 92-103, and `scene->dt`;
`neverErase` is declared there and read nowhere. -/
structure Cfg where
  dt : ℝ
  neverErase : Bool
  alwaysMoment : Bool
  shearCreep : Bool
  viscosity : ℝ
  incremental : Bool

/-- What the law does: return value, new physics, loads, and what is added to the dissipated energies. -/
structure Out where
  keep : Bool
  phys : Phys
  loads : Loads
  dissip : ℝ
  bendDissip : ℝ
  twistDissip : ℝ

/-- Lines 114-127: normal force (positive in compression) and plastic displacement; `none`: return false. -/
noncomputable def normalPart (un : ℝ) (p : Phys) : Option (ℝ × ℝ) :=
  let F := p.kn * (un - p.unp)
  if p.fragile ∧ -F > p.aN then none
  else if -F > p.aN then
    let unp := un + p.aN / p.kn
    if p.unpMax ≥ 0 ∧ -unp > p.unpMax then none else some (-p.aN, unp)
  else some (F, p.unp)

/-- Lines 131-139: the trial shear force. -/
noncomputable def trial (cfg : Cfg) (g : ScGeom) (p : Phys) (fresh : Bool) : V3 :=
  let Fs := if fresh then 0 else p.Fs
  let Fs := if cfg.shearCreep then Fs - p.ks • ((cfg.dt / cfg.viscosity) • Fs) else Fs
  g.rotate Fs - p.ks • g.shearInc

/-- Lines 142-145: the shear strength. -/
noncomputable def strength (p : Phys) (F : ℝ) : ℝ :=
  open Classical in max 0 (if p.noFriction = false ∨ p.aS = 0 then p.aS + F * p.tan else p.aS)

/-- Lines 141-161: plasticity of the shear force and the dissipated energy. -/
noncomputable def shearPart (g : ScGeom) (p : Phys) (F : ℝ) (t : V3) : Phys × ℝ :=
  let p := { p with Fn := F • g.normal, Fs := t }
  if norm3 t > strength p F then
    let brk := p.fragile && !p.broken
    let maxFs := if brk then max 0 (F * p.tan) else strength p F
    let p := if brk then p.breakUp else p
    let Fs := (maxFs / norm3 t) • t
    let d := dot ((1 / p.ks) • (t - Fs)) Fs
    ({ p with Fs := Fs, Fn := if F < 0 then 0 else p.Fn }, if d > 0 then d else 0)
  else (p, 0)

/-- Lines 167-197: elastic moments (twist, bending). -/
noncomputable def elasticMoments (cfg : Cfg) (G : Geom6) (p : Phys) (s1 s2 : State) : V3 × V3 :=
  if cfg.incremental then
    let w := s2.angVel - s1.angVel
    let n := G.g.normal
    (G.g.rotate p.Mt - p.ktw • (cfg.dt • (dot n w • n)), G.g.rotate p.Mb - p.kr • (cfg.dt • (w - dot n w • n)))
  else ((G.twist * p.ktw) • G.g.normal, p.kr • G.bending)

/-- Lines 200-211 and 213-224: a moment limited by a multiple of the normal force, and the energy dissipated. -/
noncomputable def limitMoment (eta k N : ℝ) (M : V3) : V3 × ℝ :=
  if eta ≥ 0 then
    let m := eta * N
    if norm3 M > m then
      let d := 1 / k * (norm3 M - m) * m
      ((m / norm3 M) • M, if d > 0 then d else 0)
    else (M, 0)
  else (M, 0)

/-- `applyForceAtContactPoint`, Dispatching.hpp 63-66; `x2` is the position of the second body's image next to the first. -/
def atContactPoint (cp F x1 x2 : V3) : Loads :=
  { f1 := F, t1 := cross (cp - x1) F, f2 := -F, t2 := -cross (cp - x2) F }

/-- `Law2_ScGeom6D_CohFrictPhys_CohesionMoment::go`, CohesiveFrictionalContactLaw.cpp 105-233, without creep of the twist. -/
noncomputable def lawGo (cfg : Cfg) (fresh : Bool) (G : Geom6) (p : Phys) (s1 s2 : State) (x2 : V3) : Out :=
  match normalPart G.g.pd p with
  | none => { keep := false, phys := p, loads := Loads.zero, dissip := 0, bendDissip := 0, twistDissip := 0 }
  | some (F, unp) =>
    let t := trial cfg G.g p fresh
    let (p, d) := shearPart G.g { p with unp := unp } F t
    let L := atContactPoint G.g.contactPoint (-p.Fn - p.Fs) s1.pos x2
    if p.momentLaw && (!p.broken || cfg.alwaysMoment) then
      let M := elasticMoments cfg G p s1 s2
      let b := limitMoment p.maxRoll p.kr (norm3 p.Fn) M.2
      let w := limitMoment p.maxTwist p.ktw (norm3 p.Fn) M.1
      let m := w.1 + b.1
      { keep := true, phys := { p with Mt := w.1, Mb := b.1 },
        loads := { L with t1 := L.t1 + -m, t2 := L.t2 + m }, dissip := d, bendDissip := b.2, twistDissip := w.2 }
    else { keep := true, phys := p, loads := L, dissip := d, bendDissip := 0, twistDissip := 0 }

/-! ## One pass of the interaction loop -/

/-- Geometry and physics of an interaction. -/
structure Contact where
  geom : Option Geom6
  phys : Option Phys

/-- A pair of spheres with their materials. -/
structure Pair where
  r1 : ℝ
  r2 : ℝ
  m1 : Mat
  m2 : Mat
  factor : ℝ
  cfg : Cfg

/-- One pass of `InteractionLoop::action` over an interaction of two spheres, InteractionLoop.cpp 100-160, the functor of
physics being `f`, already told the iteration; an interaction is fresh if it was not real before (`iterMadeReal`). -/
noncomputable def pass (P : Pair) (f : Ip2) (k : Contact) (s1 s2 : State) (c : GeomCtx) : Res (Contact × Loads) :=
  let real := k.geom.isSome && k.phys.isSome
  match sphereSphere6 P.factor k.geom real P.r1 P.r2 s1 s2 c with
  | .ub => .ub
  | .throws => .throws
  | .ok none => .ok (if real then ⟨none, none⟩ else k, Loads.zero)
  | .ok (some G) =>
    let pG := ip2Go f P.m1 P.m2 k.phys G s1 s2
    let o := lawGo { P.cfg with dt := c.dt } (!real) pG.2 pG.1 s1 s2 (s2.pos + c.shift2)
    .ok (if o.keep then ⟨some pG.2, some o.phys⟩ else ⟨none, none⟩, o.loads)

/-! ## Energies -/

/-- One term `0.5*(x.squaredNorm()/k)`, CohesiveFrictionalContactLaw.cpp 30, 43, 57, 71, 86-89: `none` is the "not a number" (or
infinity) that a division by zero gives. -/
noncomputable def term (x : V3) (k : ℝ) : Option ℝ :=
  open Classical in if k = 0 then none else some (0.5 * (sqNorm x / k))

/-- The sum of two terms; not a number if one is. -/
noncomputable def plus (a b : Option ℝ) : Option ℝ := a.bind fun x => b.map fun y => x + y

/-- `totalElastEnergy`, CohesiveFrictionalContactLaw.cpp 74-88. -/
noncomputable def totalElastEnergy : List Phys → Option ℝ
  | [] => some 0
  | p :: l => plus (plus (plus (plus (term p.Fn p.kn) (term p.Fs p.ks)) (term p.Mb p.kr)) (term p.Mt p.ktw))
      (totalElastEnergy l)

/-- `shearElastEnergy`, CohesiveFrictionalContactLaw.cpp 35-46. -/
noncomputable def shearElastEnergy : List Phys → Option ℝ
  | [] => some 0
  | p :: l => plus (term p.Fs p.ks) (shearElastEnergy l)

/-! ## `setCohesionNow` over iterations -/

/-- The calls of the functor in one iteration: each contact is given by its two materials and its present state; the
result tells for each whether it was given cohesion (lines 245-312).  One thread. -/
def callIter (f : Ip2) (iter : ℤ) : List (Mat × Mat × Option Phys) → Ip2 × List Bool
  | [] => (f, [])
  | (m1, m2, old) :: l =>
    let f := f.tick iter
    let b := match old with
      | none => (f.onNew || f.setNow) && m1.isCohesive && m2.isCohesive
      | some p => (f.setNow && m1.isCohesive && m2.isCohesive) || p.initCohesion
    let r := callIter f iter l
    (r.1, b :: r.2)

end Verif.Coh
