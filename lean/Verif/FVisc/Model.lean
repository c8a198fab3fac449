import Verif.Mech.Contact

/-!
# Frictional contacts with viscous damping along the normal

`pkg/dem/FrictViscoPM.cpp` and `.hpp`, and the choice of the physics functor in `pkg/common/InteractionLoop.cpp`.  Real
numbers instead of floating point; a result that the code leaves as NaN is `ub`.  A `MatchMaker` is the value it gives
for the pair at hand.  `assert`s are absent, as in a release build.
-/
namespace Verif.FVisc
open Verif Verif.Mech

/-- A material: `FrictMat`, or `FrictViscoMat` with its `betan`, FrictViscoPM.hpp 30-40. -/
inductive Mat where
  | frict (m : FrictMat)
  | visco (m : FrictMat) (betan : ℝ)

/-- `isDynamic()` and `state->mass` of a body. -/
structure Bd where
  dynamic : Bool
  mass : ℝ

/-- The attributes `kn`, `kRatio` and `frictAngle` of the functors, FrictViscoPM.hpp 69-71 and 86-88. -/
structure Match where
  kn : Option ℝ
  kRatio : Option ℝ
  frictAngle : Option ℝ

/-- `FrictViscoPhys`, FrictViscoPM.hpp 45-58. -/
structure Phys where
  kn : ℝ
  ks : ℝ
  tan : ℝ
  cnCrit : Option ℝ
  cn : ℝ
  Fn : V3
  Fs : V3
  visc : V3

/-- `2ab/(a+b)`, FrictViscoPM.cpp 47-48 and 104-105; zero over zero (or over a sum that vanishes) is `ub`. -/
noncomputable def harm (a b : ℝ) : Res ℝ := open Classical in if a + b = 0 then .ub else .ok (2 * a * b / (a + b))

/-- `Kn`, FrictViscoPM.cpp 43-47 and 100-104. -/
noncomputable def normalStiff (mk : Match) (m1 m2 : FrictMat) (r1 r2 : ℝ) : Res ℝ :=
  match mk.kn with
  | some k => .ok k
  | none => harm (m1.young * (if r1 > 0 then r1 else r2)) (m2.young * (if r2 > 0 then r2 else r1))

/-- `Ks`, FrictViscoPM.cpp 48 and 105. -/
noncomputable def shearStiff (mk : Match) (m1 m2 : FrictMat) (r1 r2 Kn : ℝ) : Res ℝ :=
  match mk.kRatio with
  | some k => .ok (k * Kn)
  | none => harm (m1.young * (if r1 > 0 then r1 else r2) * m1.poisson)
      (m2.young * (if r2 > 0 then r2 else r1) * m2.poisson)

/-- `frictionAngle` and its tangent, FrictViscoPM.cpp 50-51 and 107-108. -/
noncomputable def tangent (mk : Match) (m1 m2 : FrictMat) : ℝ :=
  Real.tan (match mk.frictAngle with | some a => a | none => min m1.frictionAngle m2.frictionAngle)

/-- `mbar`, FrictViscoPM.cpp 69 and 125. -/
noncomputable def eqMass (a b : Bd) : Res ℝ :=
  if a.dynamic = false ∧ b.dynamic = true then .ok b.mass
  else if b.dynamic = false ∧ a.dynamic = true then .ok a.mass
  else open Classical in if a.mass + b.mass = 0 then .ub else .ok (a.mass * b.mass / (a.mass + b.mass))

/-- `cn_crit`, FrictViscoPM.cpp 71 and 127; the root of a negative number is `ub`. -/
noncomputable def critical (mbar Kn : ℝ) : Res ℝ :=
  if mbar * Kn < 0 then .ub else .ok (2 * Real.sqrt (mbar * Kn))

/-- The new physics with damping fraction `beta`; no fraction leaves `cn_crit` as it was (NaN) and sets `cn` to zero,
FrictViscoPM.cpp 51-53, 62-75 and 108-110, 118-131. -/
noncomputable def withDamping (a b : Bd) (Kn Ks tan : ℝ) (beta : Option ℝ) : Res Phys :=
  match beta with
  | none => .ok ⟨Kn, Ks, tan, none, 0, 0, 0, 0⟩
  | some be => do
    let mbar ← eqMass a b
    let c ← critical mbar Kn
    return ⟨Kn, Ks, tan, some c, c * be, 0, 0, 0⟩

/-- The fraction used by the functor of two viscous materials, FrictViscoPM.cpp 58-62 and 72. -/
noncomputable def fracBoth (ba bb : ℝ) : Option ℝ :=
  open Classical in
  if ba ≠ 0 ∨ bb ≠ 0 then
    some (if ba ≠ 0 ∧ bb ≠ 0 then (ba + bb) / 2 else if bb = 0 then ba else bb)
  else none

/-- `Ip2_FrictViscoMat_FrictViscoMat_FrictViscoPhys::go`, FrictViscoPM.cpp 26-78. -/
noncomputable def ip2Both (mk : Match) (old : Option Phys) (m1 : FrictMat) (b1 : ℝ) (m2 : FrictMat) (b2 : ℝ)
    (r1 r2 : ℝ) (a b : Bd) : Res Phys :=
  match old with
  | some p => .ok p
  | none => do
    let Kn ← normalStiff mk m1 m2 r1 r2
    let Ks ← shearStiff mk m1 m2 r1 r2 Kn
    withDamping a b Kn Ks (tangent mk m1 m2) (fracBoth b1 b2)

/-- `Ip2_FrictMat_FrictViscoMat_FrictViscoPhys::go`, FrictViscoPM.cpp 83-134. -/
noncomputable def ip2One (mk : Match) (old : Option Phys) (m1 : FrictMat) (m2 : FrictMat) (b2 : ℝ)
    (r1 r2 : ℝ) (a b : Bd) : Res Phys :=
  match old with
  | some p => .ok p
  | none => do
    let Kn ← normalStiff mk m1 m2 r1 r2
    let Ks ← shearStiff mk m1 m2 r1 r2 Kn
    withDamping a b Kn Ks (tangent mk m1 m2)
      (open Classical in if b2 ≠ 0 then some b2 else none)

/-- Physics of a pair whose dispatcher has these two functors, InteractionLoop.cpp 131-140.  For a viscous first and a plain
second material the second functor is found with `swap` set (DynLibDispatcher.hpp 238-250; the functor's order is the one of
FrictViscoPM.hpp 82-83), but `swap` is only looked at by the assertion: `go` casts the plain material to the viscous class
and reads its `betan`, which is `ub`, unless it returns before because there is physics (FrictViscoPM.cpp 87).  Two plain
materials have no functor here: `throws`. -/
noncomputable def ip2 (mk : Match) (old : Option Phys) (x1 x2 : Mat) (r1 r2 : ℝ) (a b : Bd) : Res Phys :=
  match x1, x2 with
  | .visco m1 b1, .visco m2 b2 => ip2Both mk old m1 b1 m2 b2 r1 r2 a b
  | .frict m1, .visco m2 b2 => ip2One mk old m1 m2 b2 r1 r2 a b
  | .visco _ _, .frict _ => match old with | some p => .ok p | none => .ub
  | .frict _, .frict _ => .throws

/-- `phys->normalViscous`, FrictViscoPM.cpp 186-188; `getIncidentVel` is called with its default for
`avoidGranularRatcheting`, true (ScGeom.hpp 44). -/
noncomputable def viscous (g : ScGeom) (p : Phys) (s1 s2 : State) (c : GeomCtx) : V3 :=
  p.cn • (dot g.normal (incidentVel g s1 s2 { c with avoidRatcheting := true }) • g.normal)

/-- Energy kept by the law and the scene: `plasticDissipation`, `plastDissip` and `elastPotential`. -/
structure Energy where
  traced : ℝ
  plast : ℝ
  elast : ℝ

/-- Options: those of the law, `traceEnergy`, and `scene->trackEnergy`. -/
structure Cfg where
  law : LawCfg
  trace : Bool
  track : Bool

/-- The elastic energy of a contact, FrictViscoPM.cpp 148 and 215. -/
noncomputable def stored (p : Phys) : ℝ := 0.5 * (sqNorm p.Fn / p.kn + sqNorm p.Fs / p.ks)

/-- Lines 197-216 of FrictViscoPM.cpp, energies only. -/
noncomputable def energyStep (cfg : Cfg) (ks maxFs : ℝ) (trial : V3) (p : Phys) (e : Energy) : Energy :=
  if cfg.track = false ∧ cfg.trace = false then e
  else
    let e := if sqNorm trial > maxFs then
        let d := dot ((1 / ks) • (trial - p.Fs)) p.Fs
        if cfg.trace then { e with traced := e.traced + d } else if d > 0 then { e with plast := e.plast + d } else e
      else e
    { e with elast := e.elast + stored p }

/-- What the law does. -/
structure Out where
  keep : Bool
  phys : Phys
  loads : Loads
  energy : Energy

/-- `Law2_ScGeom_FrictViscoPhys_CundallStrackVisco::go`, FrictViscoPM.cpp 157-227. -/
noncomputable def lawGo (cfg : Cfg) (g : ScGeom) (p : Phys) (s1 s2 : State) (c : GeomCtx) (e : Energy) : Out :=
  if g.pd < 0 ∧ ¬ cfg.law.neverErase then
    { keep := false, phys := p, loads := Loads.zero, energy := e }
  else
    let p := if g.pd < 0 then { p with Fs := 0, Fn := 0 } else p
    let v := viscous g p s1 s2 c
    let Fn := (p.kn * max g.pd 0) • g.normal - v
    let trial := g.rotate p.Fs - p.ks • g.shearInc
    let maxFs := sqNorm Fn * p.tan ^ 2
    let Fs := slip maxFs trial
    let q := { p with Fn := Fn, Fs := Fs, visc := v }
    { keep := true, phys := q, loads := applyLoads cfg.law g (-Fn - Fs) s1.pos s2.pos,
      energy := energyStep cfg p.ks maxFs trial q e }

/-- `elasticEnergy()`, FrictViscoPM.cpp 141-151, over the real interactions whose physics is a `FrictPhys`. -/
noncomputable def elasticEnergy (ps : List Phys) : ℝ := ps.foldl (fun e p => e + stored p) 0

end Verif.FVisc
