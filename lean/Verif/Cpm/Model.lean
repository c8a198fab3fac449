import Verif.Mech.Contact
import Mathlib.Analysis.SpecialFunctions.Exp
import Mathlib.Analysis.SpecialFunctions.Trigonometric.Basic

/-!
# The concrete particle model, pkg/dem/ConcretePM.*

The public model, that is without `CPM_MATERIAL_MODEL`.  Real numbers, with the contact geometry of `Verif.Mech`; divisions by zero are
undefined.  Rate dependence (lines 114-156) is not used by the public model and is not modelled, nor is display.
-/
namespace Verif.Cpm

open Verif.Mech

/-- `CpmMat`, ConcretePM.hpp 97-121, without the attributes of rate dependence; `id` is the index of a material shared by bodies, negative if there is none. -/
structure Mat where
  id : ℤ
  young : ℝ
  poisson : ℝ
  angle : ℝ
  sigmaT : ℝ
  never : Bool
  e0 : ℝ
  duct : ℝ
  shear : ℝ
  law : ℤ
  iso : ℝ

/-- The parameters in `CpmPhys`, ConcretePM.hpp 164-185: `e0` is `epsCrackOnset`, `ef` is `epsFracture`, `shear` is `equivStrainShearContrib`. -/
structure Par where
  E : ℝ
  G : ℝ
  tan : ℝ
  coh : ℝ
  e0 : ℝ
  duct : ℝ
  ef : ℝ
  shear : ℝ
  never : Bool
  law : ℤ
  iso : ℝ
  cohesive : Bool
  area : ℝ
  refLen : ℝ
  refPD : ℝ
  kn : ℝ
  ks : ℝ

/-- The variables in `CpmPhys`, ConcretePM.hpp 144-145. -/
structure St where
  omega : ℝ
  kappa : ℝ
  epsN : ℝ
  epsNPl : ℝ
  epsT : V3
  epsTPl : V3
  sigN : ℝ
  sigT : V3
  Fn : ℝ
  Fs : V3
  resid : ℝ

/-- Initial values, ConcretePM.hpp 145-146 and 188-190; `sigmaN`, `sigmaT` and `relResidualStrength` are not initialized and are not read before they are set by the law: zero, zero and one in the model. -/
def St.init : St :=
  { omega := 0, kappa := 0, epsN := 0, epsNPl := 0, epsT := 0, epsTPl := 0, sigN := 0, sigT := 0, Fn := 0, Fs := 0, resid := 1 }

/-- Attributes of `Law2_ScGeom_CpmPhys_Cpm`, ConcretePM.hpp 282-284. -/
structure Law where
  threshold : ℝ
  epsSoft : ℝ
  relKnSoft : ℝ

/-- `Ip2_CpmMat_CpmMat_CpmPhys::go`, ConcretePM.cpp 37-99: existing physics are kept; `thr` is `cohesiveThresholdIter`, `mm` is the value of the `MatchMaker` `E`, if there is one.  What needs geometry is set by the law; it is zero here. -/
noncomputable def ip2 (old : Option Par) (thr iter : ℤ) (mm : Option ℝ) (a b : Mat) : Par :=
  match old with
  | some p => p
  | none =>
    let coh := decide (thr < 0) || decide (iter < thr)
    if a.id ≥ 0 ∧ a.id = b.id then
      { E := a.young, G := a.young * a.poisson, tan := Real.tan a.angle, coh := a.sigmaT, e0 := a.e0, duct := a.duct, ef := 0,
        shear := a.shear, never := a.never, law := a.law, iso := a.iso, cohesive := coh, area := 0, refLen := 0, refPD := 0,
        kn := 0, ks := 0 }
    else
      let e := mm.getD (1 / 2 * (a.young + b.young))
      { E := e, G := 1 / 2 * (a.poisson + b.poisson) * e, tan := Real.tan (1 / 2 * (a.angle + b.angle)),
        coh := 1 / 2 * (a.sigmaT + b.sigmaT), e0 := 1 / 2 * (a.e0 + b.e0), duct := 1 / 2 * (a.duct + b.duct), ef := 0,
        shear := 1 / 2 * (a.shear + b.shear), never := a.never || b.never, law := a.law, iso := 1 / 2 * (a.iso + b.iso),
        cohesive := coh, area := 0, refLen := 0, refPD := 0, kn := 0, ks := 0 }

/-- `CpmPhys::funcG`, ConcretePM.cpp 158-167. -/
noncomputable def funcG (k e0 ef : ℝ) (never : Bool) (law : ℤ) : Res ℝ :=
  open Classical in
  if k < e0 ∨ never then .ok 0
  else if law = 0 then
    if k = 0 ∨ ef = 0 ∨ 1 - e0 / ef = 0 then .ub else .ok ((1 - e0 / k) / (1 - e0 / ef))
  else if law = 1 then
    if k = 0 ∨ ef = 0 then .ub else .ok (1 - e0 / k * Real.exp (-(k - e0) / ef))
  else .throws

/-- `CpmPhys::funcGDKappa`, ConcretePM.cpp 169-177. -/
noncomputable def funcGD (k e0 ef : ℝ) (law : ℤ) : Res ℝ :=
  open Classical in
  if law = 0 then
    if k = 0 ∨ ef = 0 ∨ 1 - e0 / ef = 0 then .ub else .ok (e0 / ((1 - e0 / ef) * k * k))
  else if law = 1 then
    if k = 0 ∨ ef = 0 then .ub else .ok (e0 / k * (1 / k + 1 / ef) * Real.exp (-(k - e0) / ef))
  else .throws

/-- Newton's iterations of `CpmPhys::funcGInv`, ConcretePM.cpp 186-198; the first argument is the number of iterations left. -/
noncomputable def invLoop (om e0 ef : ℝ) : ℕ → ℝ → Res ℝ
  | 0, _ => .throws
  | n + 1, k =>
    (funcGD k e0 ef 1).bind fun d =>
      open Classical in
      if d = 0 ∨ e0 = 0 then .ub
      else
        let decr := (-om + 1 - e0 / k * Real.exp (-(k - e0) / ef)) / d
        if |decr / e0| < 1 / 1000 then .ok (k - decr) else invLoop om e0 ef n (k - decr)

/-- `CpmPhys::funcGInv`, ConcretePM.cpp 179-201. -/
noncomputable def funcGInv (om e0 ef : ℝ) (never : Bool) (law : ℤ) : Res ℝ :=
  open Classical in
  if om = 0 ∨ never then .ok 0
  else if law = 0 then
    if ef = 0 ∨ 1 - om * (1 - e0 / ef) = 0 then .ub else .ok (e0 / (1 - om * (1 - e0 / ef)))
  else if law = 1 then invLoop om e0 ef 100 e0
  else .throws

/-- `CpmPhys::setDamage`, ConcretePM.cpp 203-207: the variables left behind, and how it ends. -/
noncomputable def setDamage (P : Par) (s : St) (dmg : ℝ) : St × Res Unit :=
  if P.never then (s, .ok ())
  else
    let s := { s with omega := dmg }
    match funcGInv dmg P.e0 P.ef P.never P.law with
    | .ok k => ({ s with kappa := k }, .ok ())
    | .throws => (s, .throws)
    | .ub => (s, .ub)

/-- Newton's iterations of `CpmPhys::setRelResidualStrength`, ConcretePM.cpp 216-234: the strain and the damage at the end. -/
noncomputable def residLoop (P : Par) (r : ℝ) : ℕ → ℝ → Res (ℝ × ℝ)
  | 0, _ => .throws
  | n + 1, k =>
    (funcG k P.e0 P.ef P.never P.law).bind fun g =>
    (funcGD k P.e0 P.ef P.law).bind fun dg =>
      open Classical in
      if P.e0 = 0 ∨ 1 / P.e0 * (1 - g - k * dg) = 0 then .ub
      else
        let decr := (-r + (1 - g) * k * (1 / P.e0)) / (1 / P.e0 * (1 - g - k * dg))
        if |decr| < 1 / 1000 then (funcG (k - decr) P.e0 P.ef P.never P.law).bind fun o => .ok (k - decr, o)
        else residLoop P r n (k - decr)

/-- `CpmPhys::setRelResidualStrength`, ConcretePM.cpp 209-235. -/
noncomputable def setResid (P : Par) (s : St) (r : ℝ) : St × Res Unit :=
  open Classical in
  if P.never then (s, .ok ())
  else if r = 1 then ({ s with resid := r, kappa := 0, omega := 0 }, .ok ())
  else
    match residLoop P r 100 P.ef with
    | .ok x => ({ s with kappa := x.1, omega := x.2, resid := r }, .ok ())
    | .throws => (s, .throws)
    | .ub => (s, .ub)

/-- Shapes which the law distinguishes, ConcretePM.cpp 302-308: spheres with their radius; facets, walls and boxes; others. -/
inductive Shape where
  | sphere (r : ℝ)
  | plane
  | other

/-- The smaller of two positive radii, ConcretePM.cpp 312. -/
noncomputable def minRad (r1 r2 : ℝ) : ℝ := if r1 ≤ 0 then r2 else if r2 ≤ 0 then r1 else min r1 r2

/-- Reference length, cross-section and penetration, then stiffnesses, ConcretePM.cpp 326-328. -/
noncomputable def Par.withRef (P : Par) (len area pd : ℝ) : Par :=
  { P with refLen := len, area := area, refPD := pd, kn := area * P.E / len, ks := area * P.G / len, ef := P.e0 * P.duct }

/-- The first time an interaction is seen, ConcretePM.cpp 299-329; `d` is the vector between centres.  A plane with something which is not a sphere is cast wrongly: undefined; other shapes leave NaN, on which the law stops: `throws`. -/
noncomputable def fresh (P : Par) (a b : Shape) (g : ScGeom) (d : V3) : Res Par :=
  open Classical in
  match a, b with
  | .sphere _, .sphere _ =>
    if norm3 d = 0 then .ub else .ok (P.withRef (norm3 d) (Real.pi * minRad g.r1 g.r2 ^ 2) (g.r1 + g.r2 - norm3 d))
  | .plane, .sphere r => if r = 0 then .ub else .ok (P.withRef r (Real.pi * r ^ 2) 0)
  | .sphere r, .plane => if r = 0 then .ub else .ok (P.withRef r (Real.pi * r ^ 2) 0)
  | .plane, _ => .ub
  | _, .plane => .ub
  | _, _ => .throws

/-- The equivalent strain, ConcretePM.cpp 389-390. -/
noncomputable def epsNorm (P : Par) (eN eNPl : ℝ) (eT : V3) : ℝ :=
  Real.sqrt (max (eN - eNPl) 0 ^ 2 + P.shear ^ 2 * sqNorm eT)

/-- Normal stress and plastic strain, ConcretePM.cpp 393-397. -/
noncomputable def normalLaw (L : Law) (E om eN eNPl : ℝ) : ℝ × ℝ :=
  let sig := (1 - (if eN - eNPl > 0 then om else 0)) * E * (eN - eNPl)
  if L.epsSoft < 0 ∧ eN - eNPl < L.epsSoft then
    let soft := E * (L.epsSoft + L.relKnSoft * (eN - eNPl - L.epsSoft))
    if soft > sig then (soft, eNPl + (sig - soft) / E) else (sig, eNPl)
  else (sig, eNPl)

/-- The radius of the yield surface, ConcretePM.cpp 399. -/
def yieldT (P : Par) (om sig : ℝ) : ℝ := max 0 (P.coh * (1 - om) - sig * P.tan)

/-- Shear stress and plastic strain, ConcretePM.cpp 398-404. -/
noncomputable def shearLaw (G y : ℝ) (eT eTPl : V3) : V3 × V3 :=
  let sig := G • (eT - eTPl)
  if sqNorm sig > y * y then
    let scale := y / norm3 sig
    let sig := scale • sig
    (sig, eTPl + ((1 - scale) / G) • sig)
  else (sig, eTPl)

/-- Relative residual strength, ConcretePM.cpp 405. -/
noncomputable def residOf (P : Par) (om k : ℝ) : ℝ :=
  if P.cohesive then (if k < P.e0 then 1 else (1 - om) * k / P.e0) else 0

/-- The constitutive law at given strains, ConcretePM.cpp 386-408. -/
noncomputable def material (L : Law) (P : Par) (s : St) (eN0 : ℝ) (eT : V3) : Res St :=
  open Classical in
  if P.E = 0 then .ub
  else
    let eN := eN0 + P.iso / P.E
    let k := max (epsNorm P eN s.epsNPl eT) s.kappa
    (if P.cohesive then funcG k P.e0 P.ef P.never P.law else .ok 1).bind fun om =>
      if P.cohesive ∧ ¬ k < P.e0 ∧ P.e0 = 0 then .ub
      else
        let n := normalLaw L P.E om eN s.epsNPl
        let t := shearLaw P.G (yieldT P om n.1) eT s.epsTPl
        .ok { s with
          omega := om, kappa := k, epsN := eN, epsNPl := n.2, epsT := eT, epsTPl := t.2, sigN := n.1 - P.iso, sigT := t.1
          resid := residOf P om k }

/-- Whether an interaction is to be deleted, ConcretePM.cpp 420. -/
def broken (L : Law) (P : Par) (s : St) : Prop := s.epsN > 0 ∧ ((P.cohesive ∧ s.omega > L.threshold) ∨ ¬ P.cohesive)

/-- The result of the law: whether the interaction is kept, its variables, the loads, and by how much the number of broken contacts of each body grows. -/
structure Out where
  keep : Bool
  st : St
  loads : Loads
  nBroken : ℕ

/-- The loads on both bodies, ConcretePM.cpp 442-450. -/
noncomputable def loadsOf (periodic : Bool) (P : Par) (g : ScGeom) (f pos1 pos2 : V3) : Loads :=
  if ¬ periodic then ⟨f, cross (g.contactPoint - pos1) f, -f, -cross (g.contactPoint - pos2) f⟩
  else ⟨f, (g.r1 + 1 / 2 * (P.refPD - g.pd)) • cross g.normal f, -f, (g.r2 + 1 / 2 * (P.refPD - g.pd)) • cross g.normal f⟩

/-- `Law2_ScGeom_CpmPhys_Cpm::go` after the first time, ConcretePM.cpp 371-452. -/
noncomputable def go (L : Law) (periodic : Bool) (P : Par) (s : St) (g : ScGeom) (pos1 pos2 : V3) : Res Out :=
  open Classical in
  if P.refLen = 0 then .ub
  else
    (material L P s (-(-P.refPD + g.pd) / P.refLen) (g.rotate s.epsT + (1 / P.refLen) • g.shearInc)).bind fun s =>
      if broken L P s then .ok ⟨false, s, Loads.zero, 1⟩
      else
        let s := { s with Fn := s.sigN * P.area, Fs := P.area • s.sigT }
        .ok ⟨true, s, loadsOf periodic P g (s.Fn • g.normal + s.Fs) pos1 pos2, 0⟩

/-- Steps of an interaction; it ends where the law returns false. -/
noncomputable def run (L : Law) (periodic : Bool) (P : Par) : St → List (ScGeom × V3 × V3) → Res (Option St)
  | s, [] => .ok (some s)
  | s, x :: xs => (go L periodic P s x.1 x.2.1 x.2.2).bind fun o => if o.keep then run L periodic P o.st xs else .ok none

end Verif.Cpm
