import Verif.Mech.Contact
import Mathlib.Analysis.SpecialFunctions.Pow.Real

/-!
# The laws of Hertz and Mindlin, pkg/dem/HertzMindlin.*

Real numbers.  The incident velocity and the relative angular velocity, which `ScGeom` computes (`Verif.Mech.incidentVel`), are inputs of a step.
The capillary variant of the functor (lines 530-597), which computes the same parameters, and `adhesionEnergy` are not modelled.
-/
namespace Verif.Hertz

open Verif.Mech

/-- Parameters in `MindlinPhys`, HertzMindlin.hpp 29-57 and `tangensOfFrictionAngle` of `FrictPhys`; `adh` is `adhesionForce`. -/
structure Par where
  kno : ℝ
  kso : ℝ
  kr : ℝ
  ktw : ℝ
  maxBend : ℝ
  adh : ℝ
  betan : ℝ
  betas : ℝ
  alpha : ℝ
  tan : ℝ

/-- Variables in `MindlinPhys`, HertzMindlin.hpp 35-51; `FsE` is `shearElastic`. -/
structure St where
  Fn : V3
  Fs : V3
  FsE : V3
  usE : V3
  usT : V3
  visN : V3
  visS : V3
  mB : V3
  mT : V3
  kn : ℝ
  ks : ℝ
  sliding : Bool
  adhesive : Bool

/-- Initial values, HertzMindlin.hpp 35-51. -/
def St.init : St := ⟨0, 0, 0, 0, 0, 0, 0, 0, 0, 0, 0, false, false⟩

/-- Attributes of the functor: `MatchMaker`s by the value they give. -/
structure Opts where
  gamma : ℝ
  eta : ℝ
  krot : ℝ
  ktwist : ℝ
  en : Option ℝ
  es : Option ℝ
  betan : Option ℝ
  betas : Option ℝ
  frict : Option ℝ

/-- The equivalent modulus, HertzMindlin.cpp 54. -/
noncomputable def youngOf (Ea Eb Va Vb : ℝ) : ℝ := Ea * Eb / ((1 - Va ^ 2) * Eb + (1 - Vb ^ 2) * Ea)

/-- `alpha` from a coefficient of restitution, HertzMindlin.cpp 80-81. -/
noncomputable def alphaOf (e E R : ℝ) : ℝ :=
  -Real.sqrt (5 / 6) * 2 * Real.log e / Real.sqrt (Real.log e ^ 2 + Real.pi ^ 2) * Real.sqrt (2 * E * Real.sqrt R)

/-- `Ip2_FrictMat_FrictMat_MindlinPhys::go` for new contacts, HertzMindlin.cpp 26-89.  Divisions by zero, roots of negative numbers, the logarithm of a number
which is not positive, and the value of a null `MatchMaker` (line 80) are undefined. -/
noncomputable def ip2 (o : Opts) (a b : FrictMat) (g : ScGeom) : Res Par :=
  let Da := if g.r1 > 0 then g.r1 else g.r2
  let Db := g.r2
  let V := (a.poisson + b.poisson) / 2
  let R := Da * Db / (Da + Db)
  let E := youngOf a.young b.young a.poisson b.poisson
  open Classical in
  if 1 + a.poisson = 0 ∨ 1 + b.poisson = 0 ∨ 2 - V = 0 ∨ (1 - a.poisson ^ 2) * b.young + (1 - b.poisson ^ 2) * a.young = 0 ∨ Da + Db = 0 ∨ R < 0 then .ub
  else if (o.en.isSome ∧ o.betan.isSome) ∨ (o.es.isSome ∧ o.betas.isSome) then .throws
  else
    let p : Par :=
      { kno := 4 / 3 * E * Real.sqrt R
        kso := 2 * Real.sqrt (4 * R) * ((a.young / (2 * (1 + a.poisson)) + b.young / (2 * (1 + b.poisson))) / 2) / (2 - V)
        kr := o.krot, ktw := o.ktwist, maxBend := o.eta * ((Da + Db) / 2), adh := 4 * Real.pi * R * o.gamma
        betan := 0, betas := 0, alpha := 0, tan := Real.tan (o.frict.getD (min a.frictionAngle b.frictionAngle)) }
    if o.en.isSome ∨ o.es.isSome then
      match o.en with
      | none => .ub
      | some e => if e ≤ 0 ∨ 2 * E * Real.sqrt R < 0 then .ub else .ok { p with alpha := alphaOf e E R }
    else
      let bn := o.betan.getD 0
      .ok { p with betan := bn, betas := o.betas.getD bn }

/-- Attributes of `Law2_ScGeom_MindlinPhys_Mindlin`, and whether the scene is periodic. -/
structure Cfg where
  adhesion : Bool
  moment : Bool
  neverErase : Bool
  periodic : Bool

/-- What a step reads: geometry, incident velocity, relative angular velocity, time step, masses, whether bodies are dynamic, positions. -/
structure In where
  g : ScGeom
  v : V3
  w : V3
  dt : ℝ
  m1 : ℝ
  m2 : ℝ
  dyn1 : Bool
  dyn2 : Bool
  pos1 : V3
  pos2 : V3

/-- The equivalent mass, HertzMindlin.cpp 304 and 314. -/
noncomputable def In.mbar (i : In) : Res ℝ :=
  open Classical in
  if ¬ i.dyn1 ∧ i.dyn2 then .ok i.m2
  else if ¬ i.dyn2 ∧ i.dyn1 then .ok i.m1
  else if i.m1 + i.m2 = 0 then .ub
  else .ok (i.m1 * i.m2 / (i.m1 + i.m2))

/-- `useDamping`, HertzMindlin.cpp 254. -/
def Par.damped (P : Par) : Prop := P.betan ≠ 0 ∨ P.betas ≠ 0 ∨ P.alpha ≠ 0

/-- Normal stiffness, HertzMindlin.cpp 289. -/
noncomputable def Par.kn (P : Par) (u : ℝ) : ℝ := 3 / 2 * P.kno * u ^ (1 / 2 : ℝ)

/-- Shear stiffness, HertzMindlin.cpp 295. -/
noncomputable def Par.ks (P : Par) (u : ℝ) : ℝ := P.kso * u ^ (1 / 2 : ℝ)

/-- Coefficients of damping, HertzMindlin.cpp 303-317. -/
noncomputable def coeffs (P : Par) (m u : ℝ) : ℝ × ℝ :=
  open Classical in
  if P.alpha = 0 then (2 * Real.sqrt (m * P.kn u) * P.betan, 2 * Real.sqrt (m * P.ks u) * P.betas)
  else (P.alpha * Real.sqrt m * u ^ (1 / 4 : ℝ), P.alpha * Real.sqrt m * u ^ (1 / 4 : ℝ))

/-- The elastic normal force, HertzMindlin.cpp 273-277. -/
noncomputable def elasticN (c : Cfg) (P : Par) (u : ℝ) : ℝ := P.kno * u ^ (3 / 2 : ℝ) - (if c.adhesion then P.adh else 0)

/-- Normal force and viscous component with damping, HertzMindlin.cpp 342-364. -/
noncomputable def dampN (c : Cfg) (P : Par) (cn : ℝ) (n F vn : V3) : V3 × V3 :=
  let vis := cn • vn
  let tmp := F - vis
  open Classical in
  if P.adh = 0 ∨ ¬ c.adhesion then
    if dot tmp n < 0 then (0, vis + tmp) else (F - vis, vis)
  else if dot tmp n < 0 ∧ norm3 vis > P.adh then
    let vis := P.adh • ((1 / norm3 vis) • vis)
    (F - vis, vis)
  else (F - vis, vis)

/-- The limit of friction, HertzMindlin.cpp 396 and 410. -/
noncomputable def limit (c : Cfg) (P : Par) (F : V3) : ℝ :=
  if ¬ c.adhesion then norm3 F * P.tan else P.tan * (P.adh + norm3 F)

/-- What friction changes. -/
structure Shear where
  FsE : V3
  Fs : V3
  usE : V3
  visS : V3
  sliding : Bool

/-- Friction and shear damping, HertzMindlin.cpp 391-421, the same with and without adhesion. -/
noncomputable def friction (damped : Prop) (max cs : ℝ) (FsE usE vs : V3) : Shear :=
  open Classical in
  if sqNorm FsE > max * max then
    let r := max / norm3 FsE
    ⟨r • FsE, r • FsE, r • usE, 0, true⟩
  else if damped then ⟨FsE, FsE - cs • vs, usE, cs • vs, false⟩
  else ⟨FsE, FsE, usE, 0, false⟩

/-- Bending with its limit, HertzMindlin.cpp 509-517. -/
noncomputable def bend (P : Par) (F m : V3) : V3 :=
  let M := P.maxBend * norm3 F
  if M > 0 then (if norm3 m > M then (M / norm3 m) • m else m) else m

/-- What a step adds to the energies with `calcEnergy`, HertzMindlin.cpp 365, 402, 415, 429 and 437. -/
structure Ener where
  friction : ℝ
  shear : ℝ
  dampN : ℝ
  dampS : ℝ

/-- The result of a law. -/
structure Out where
  keep : Bool
  st : St
  loads : Loads
  ener : Ener

/-- `Law2_ScGeom_MindlinPhys_Mindlin::go`, HertzMindlin.cpp 239-526. -/
noncomputable def go (c : Cfg) (P : Par) (s : St) (i : In) : Res Out :=
  open Classical in
  let g := i.g
  let u := g.pd
  if u < 0 then
    if c.neverErase then .ok ⟨true, { s with Fs := 0, Fn := 0, kn := 0, ks := 0 }, Loads.zero, ⟨0, 0, 0, 0⟩⟩
    else .ok ⟨false, s, Loads.zero, ⟨0, 0, 0, 0⟩⟩
  else
    (if P.damped then i.mbar.bind fun m => .ok (coeffs P m u) else .ok (0, 0)).bind fun cc =>
      let F := elasticN c P u • g.normal
      let prevF := g.rotate s.FsE
      let vn := dot g.normal i.v • g.normal
      let vs := i.v - vn
      let FsE := prevF - P.ks u • (i.dt • vs)
      let N := if P.damped then dampN c P cc.1 g.normal F vn else (F, s.visN)
      let prevE := g.rotate s.usE
      let prevT := g.rotate s.usT
      let usT := prevT - i.dt • vs
      let S := friction P.damped (limit c P N.1) cc.2 FsE (prevE - i.dt • vs) vs
      let w := dot g.normal i.w • g.normal
      let mB := if c.moment then bend P N.1 (g.rotate s.mB - P.kr • (i.dt • (i.w - w))) else s.mB
      let mT := if c.moment then g.rotate s.mT - P.ktw • (i.dt • w) else s.mT
      let L := applyLoads ⟨c.neverErase, false, c.periodic⟩ g (-N.1 - S.Fs) i.pos1 i.pos2
      .ok
        { keep := true
          st :=
            { Fn := N.1, Fs := S.Fs, FsE := S.FsE, usE := S.usE, usT := usT, visN := N.2, visS := S.visS, mB := mB, mT := mT
              kn := P.kn u, ks := P.ks u, sliding := S.sliding
              adhesive := if c.adhesion then decide (elasticN c P u < 0) else s.adhesive }
          loads := if c.moment then { L with t1 := L.t1 - (mT + mB), t2 := L.t2 + (mT + mB) } else L
          ener :=
            { friction := if S.sliding then dot (usT - prevT) S.FsE else 0
              shear := dot (S.usE - prevE) ((1 / 2 : ℝ) • (S.FsE + prevF))
              dampN := if P.damped then dot N.2 (i.dt • vn) else 0
              dampS := if P.damped ∧ ¬ S.sliding then dot S.visS (i.dt • vs) else 0 } }

/-- Steps of an interaction, which ends where the law returns false. -/
noncomputable def run (c : Cfg) (P : Par) : St → List In → Res (List Out)
  | _, [] => .ok []
  | s, i :: is => (go c P s i).bind fun o => if o.keep then (run c P o.st is).bind fun os => .ok (o :: os) else .ok [o]

/-- `Law2_ScGeom_MindlinPhys_Mindlin::normElastEnergy`, HertzMindlin.cpp 118-131, over overlaps and parameters of contacts; NaN, that is `none`, if
a power of a negative number is taken. -/
noncomputable def normEnergy (c : Cfg) : List (ℝ × Par) → Option ℝ
  | [] => some 0
  | (u, P) :: xs =>
    if u < 0 then none
    else (normEnergy c xs).map fun e => u ^ (5 / 2 : ℝ) * 2 / 5 * P.kno - (if c.adhesion then P.adh * u else 0) + e

/-- `Law2_ScGeom_MindlinPhys_MindlinDeresiewitz::go`, HertzMindlin.cpp 149-190, without the contact radius, which nothing reads. -/
noncomputable def partialSlip (neverErase : Bool) (P : Par) (s : St) (g : ScGeom) : Bool × St × Loads :=
  open Classical in
  if g.pd < 0 then
    if neverErase then (true, { s with Fs := 0, Fn := 0, kn := 0, ks := 0 }, Loads.zero) else (false, s, Loads.zero)
  else
    let Fn := P.kno * g.pd ^ (3 / 2 : ℝ)
    let s := { s with Fn := Fn • g.normal }
    if Fn = 0 then (true, s, Loads.zero)
    else (true, { s with usT := g.rotate s.usT - g.shearInc }, applyLoads ⟨neverErase, true, false⟩ g (-s.Fn - s.Fs) 0 0)

/-- `Law2_ScGeom_MindlinPhys_HertzWithLinearShear::go`, HertzMindlin.cpp 192-233; `v` is the incident velocity, read if `nonLin` is larger than one. -/
noncomputable def linear (neverErase : Bool) (nonLin : ℤ) (P : Par) (s : St) (g : ScGeom) (v : V3) (dt : ℝ) : Bool × St × Loads :=
  if g.pd < 0 then
    if neverErase then (true, { s with Fs := 0, Fn := 0, kn := 0, ks := 0 }, Loads.zero) else (false, s, Loads.zero)
  else
    let Fn := P.kno * g.pd ^ (3 / 2 : ℝ)
    let ks := if nonLin > 0 then P.kso * g.pd ^ (1 / 2 : ℝ) else P.kso
    let inc := if nonLin > 1 then dt • (v - dot g.normal v • g.normal) else g.shearInc
    let Fs := slip (Fn ^ 2 * P.tan ^ 2) (g.rotate s.Fs - ks • inc)
    (true, { s with Fn := Fn • g.normal, Fs := Fs }, applyLoads ⟨neverErase, true, false⟩ g (-(Fn • g.normal) - Fs) 0 0)

end Verif.Hertz
