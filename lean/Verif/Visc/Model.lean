import Verif.Mech.Contact
import Mathlib.Analysis.SpecialFunctions.Trigonometric.Basic
import Mathlib.Analysis.SpecialFunctions.Log.Basic

/-!
# Viscoelastic contacts

`pkg/dem/ViscoelasticPM.{hpp,cpp}` and `pkg/dem/LudingPM.{hpp,cpp}`, with the contact geometry of `Verif.Mech`.  Real numbers; `none` is a number of a material
which is not finite, and undefined stands for results which are not numbers too.  SPH and deformable particles, which are off by default, and the
search of `find_cn_from_en` are not modelled; the latter is any function.
-/
namespace Verif.Visc

open Verif.Mech

/-! ## What both laws share -/

/-- What a law is given besides geometry and bodies: time step, `intrShiftPos` and `intrShiftVel` (zero if not periodic), `isFresh`, `isActive`. -/
structure Ctx where
  dt : ℝ
  shift2 : V3
  shiftVel : V3
  fresh : Bool
  active : Bool

/-- The velocity of the first body relative to the second one, ViscoelasticPM.cpp 104-111, LudingPM.cpp 178-186. -/
def relVel (g : ScGeom) (s1 s2 : State) (c : Ctx) : V3 :=
  (s1.vel + cross s1.angVel (g.contactPoint - s1.pos)) - (s2.vel + cross s2.angVel (g.contactPoint - s2.pos - c.shift2)) + c.shiftVel

/-- Line 112 of ViscoelasticPM.cpp, 187 of LudingPM.cpp. -/
def normalVel (g : ScGeom) (s1 s2 : State) (c : Ctx) : ℝ := dot g.normal (relVel g s1 s2 c)

/-- Line 113 of ViscoelasticPM.cpp, 188 of LudingPM.cpp. -/
def shearVel (g : ScGeom) (s1 s2 : State) (c : Ctx) : V3 := relVel g s1 s2 c - normalVel g s1 s2 c • g.normal

/-- The shear force before the limit, ViscoelasticPM.cpp 99-102 and 118, LudingPM.cpp 170-173 and 190. -/
def trial (ks : ℝ) (Fs : V3) (g : ScGeom) (s1 s2 : State) (c : Ctx) : V3 :=
  g.rotate (if c.fresh then 0 else Fs) + (ks * c.dt) • shearVel g s1 s2 c

/-- The limit, ViscoelasticPM.cpp 146-159, LudingPM.cpp 197-207: the shear force kept, and the viscous one. -/
noncomputable def limit (tan cs : ℝ) (Fn t v : V3) : V3 × V3 :=
  if sqNorm t > sqNorm Fn * tan ^ 2 then ((Real.sqrt (sqNorm Fn * tan ^ 2) / norm3 t) • t, 0) else (t, cs • v)

/-- Loads of a force and a moment, ViscoelasticPM.cpp 160-162 and 52-55, LudingPM.cpp 213-219. -/
def loads (g : ScGeom) (s1 s2 : State) (c : Ctx) (f m : V3) : Loads :=
  { f1 := -f, t1 := -cross (g.contactPoint - s1.pos) f + m, f2 := f, t2 := cross (g.contactPoint - s2.pos - c.shift2) f - m }

/-! ## The viscoelastic law -/

/-- `ViscElPhys`, ViscoelasticPM.hpp 57-84. -/
structure Phys where
  kn : ℝ
  cn : ℝ
  ks : ℝ
  cs : ℝ
  mR : ℝ
  mRtype : ℤ
  tan : ℝ
  Fn : V3
  Fs : V3

/-- The normal force, lines 125-132. -/
noncomputable def push (p : Phys) (pd vn : ℝ) : ℝ := if p.kn * pd + p.cn * vn < 0 then 0 else p.kn * pd + p.cn * vn

/-- The rolling resistance, lines 134-144; `relAngVel.normalized()` has no effect. -/
noncomputable def roll (p : Phys) (g : ScGeom) (s1 s2 : State) (c : Ctx) (Fn : V3) : V3 :=
  if p.mR > 0 then
    if p.mRtype = 1 then -(p.mR * norm3 Fn) • (s1.angVel - s2.angVel)
    else if p.mRtype = 2 then
      -(p.mR * norm3 (cross (g.contactPoint - s1.pos) s1.angVel - cross (g.contactPoint - s2.pos - c.shift2) s2.angVel) * norm3 Fn) • (s1.angVel - s2.angVel)
    else 0
  else 0

/-- What the law does. -/
structure Out where
  keep : Bool
  phys : Phys
  loads : Loads

/-- `Law2_ScGeom_ViscElPhys_Basic::go` with `computeForceTorqueViscEl`, lines 44-165. -/
noncomputable def go (p : Phys) (g : ScGeom) (s1 s2 : State) (c : Ctx) : Out :=
  if g.pd < 0 then { keep := false, phys := p, loads := Loads.zero }
  else
    let Fn := push p g.pd (normalVel g s1 s2 c) • g.normal
    let r := limit p.tan p.cs Fn (trial p.ks p.Fs g s1 s2 c) (shearVel g s1 s2 c)
    { keep := c.active
      phys := { p with Fn := Fn, Fs := r.1 }
      loads := if c.active then loads g s1 s2 c (Fn + r.1 + r.2) (roll p g s1 s2 c Fn) else Loads.zero }

/-! ## Its parameters -/

/-- `ViscElMat`, ViscoelasticPM.hpp 28-53. -/
structure Mat where
  tc : Option ℝ
  en : Option ℝ
  et : Option ℝ
  kn : Option ℝ
  cn : Option ℝ
  ks : Option ℝ
  cs : Option ℝ
  young : ℝ
  poisson : ℝ
  mR : ℝ
  mRtype : ℤ
  angle : ℝ

/-- Whether both or none are finite, lines 173-188. -/
def Mat.alike (a b : Mat) : Bool :=
  a.kn.isSome == b.kn.isSome && a.ks.isSome == b.ks.isSome && a.cn.isSome == b.cn.isSome && a.cs.isSome == b.cs.isSome &&
    a.tc.isSome == b.tc.isSome && a.en.isSome == b.en.isSome && a.et.isSome == b.et.isSome

/-- `contactParameterCalculation`, lines 302-307. -/
noncomputable def serial (a b : ℝ) : ℝ :=
  let s := (if a ≠ 0 then 1 / a else 0) + (if b ≠ 0 then 1 / b else 0)
  if s ≠ 0 then 1 / s else 0

/-- Values of the `MatchMaker`s for the pair, where they are set, ViscoelasticPM.hpp 95-99. -/
structure Match where
  tc : Option ℝ
  en : Option ℝ
  et : Option ℝ
  angle : Option ℝ

/-- The value of the matcher or else the mean of both materials, lines 213-215. -/
noncomputable def mean (m a b : Option ℝ) : ℝ := m.getD ((a.getD 0 + b.getD 0) / 2)

/-- Masses of bodies without mass, lines 190-196. -/
noncomputable def masses (m1 m2 : ℝ) : ℝ × ℝ := if m1 = 0 ∧ m2 > 0 then (m2, m2) else if m2 = 0 ∧ m1 > 0 then (m1, m1) else (m1, m2)

/-- Line 199. -/
noncomputable def reducedMass (m1 m2 : ℝ) : ℝ := (masses m1 m2).1 * (masses m1 m2).2 / ((masses m1 m2).1 + (masses m1 m2).2)

/-- `Mathr::ZERO_TOLERANCE`, lib/base/Math.cpp 3, as used in lines 229-232. -/
noncomputable def drop (x : ℝ) : ℝ := if |x| ≤ 1e-20 then 0 else x

/-- Stiffness and damping of both materials, in the order `kn, ks, cn, cs`. -/
structure Four where
  kn : ℝ × ℝ
  ks : ℝ × ℝ
  cn : ℝ × ℝ
  cs : ℝ × ℝ

/-- Lines 211-232: contact time and restitution. -/
noncomputable def pournin (Tc En Et m : ℝ) : Four :=
  let kn := 1 / Tc / Tc * (Real.pi * Real.pi + Real.log En ^ 2) * m * 2
  let cn := drop (-2 / Tc * Real.log En * m * 2)
  let ks := 2 / 7 / Tc / Tc * (Real.pi * Real.pi + Real.log Et ^ 2) * m * 2
  let cs := drop (-4 / 7 / Tc * Real.log Et * m * 2)
  ⟨(kn, kn), (ks, ks), (cn, cn), (cs, cs)⟩

/-- Lines 244-259: Young's modulus; `find` is `find_cn_from_en`. -/
noncomputable def elastic (find : ℝ → ℝ → ℝ → ℝ) (q : Match) (a b : Mat) (m R1 R2 : ℝ) : Four :=
  let kn := (2 * a.young * R1, 2 * b.young * R2)
  let ks := (kn.1 * a.poisson, kn.2 * b.poisson)
  if a.cn.isSome ∧ a.cs.isSome then ⟨kn, ks, (a.cn.getD 0, b.cn.getD 0), (a.cs.getD 0, b.cs.getD 0)⟩
  else if a.en.isSome ∧ a.et.isSome then
    let cn := 2 * find (mean q.en a.en b.en) m (serial kn.1 kn.2)
    ⟨kn, ks, (cn, cn), (0, 0)⟩
  else ⟨kn, ks, (0, 0), (0, 0)⟩

/-- Whether contact time and restitution are used, line 210. -/
def timed (q : Match) (a : Mat) : Bool :=
  (a.tc.isSome && a.en.isSome && a.et.isSome) || (q.tc.isSome && q.en.isSome && q.et.isSome)

/-- Lines 201-260; undefined without masses, and for contact times and restitutions which are not positive. -/
noncomputable def four (find : ℝ → ℝ → ℝ → ℝ) (q : Match) (a b : Mat) (m1 m2 R1 R2 : ℝ) : Res Four :=
  if timed q a then
    if (masses m1 m2).1 + (masses m1 m2).2 = 0 ∨ mean q.tc a.tc b.tc ≤ 0 ∨ mean q.en a.en b.en ≤ 0 ∨ mean q.et a.et b.et ≤ 0 then .ub
    else .ok (pournin (mean q.tc a.tc b.tc) (mean q.en a.en b.en) (mean q.et a.et b.et) (reducedMass m1 m2))
  else if a.kn.isSome ∧ a.ks.isSome ∧ a.cn.isSome ∧ a.cs.isSome then
    .ok ⟨(a.kn.getD 0, b.kn.getD 0), (a.ks.getD 0, b.ks.getD 0), (a.cn.getD 0, b.cn.getD 0), (a.cs.getD 0, b.cs.getD 0)⟩
  else if (masses m1 m2).1 + (masses m1 m2).2 = 0 ∧ a.en.isSome then .ub
  else .ok (elastic find q a b (reducedMass m1 m2) (if R1 > 0 then R1 else R2) (if R2 > 0 then R2 else R1))

/-- Lines 271-275. -/
noncomputable def rolling (a b : ℝ) : ℝ :=
  if a > 0 ∨ b > 0 then 2 / ((if a > 0 then 1 / a else 0) + (if b > 0 then 1 / b else 0)) else 0

/-- `Calculate_ViscElMat_ViscElMat_ViscElPhys`, lines 167-288; `R1`, `R2` are `refR1` and `refR2`. -/
noncomputable def make (find : ℝ → ℝ → ℝ → ℝ) (q : Match) (a b : Mat) (m1 m2 R1 R2 : ℝ) : Res Phys :=
  if a.alike b then
    (four find q a b m1 m2 R1 R2).bind fun x =>
      if a.mRtype ≠ b.mRtype ∨ a.mRtype > 2 ∨ a.mRtype < 1 then .throws
      else .ok { kn := serial x.kn.1 x.kn.2, cn := serial x.cn.1 x.cn.2, ks := serial x.ks.1 x.ks.2, cs := serial x.cs.1 x.cs.2, mR := rolling a.mR b.mR,
                 mRtype := a.mRtype, tan := Real.tan (q.angle.getD (min a.angle b.angle)), Fn := 0, Fs := 0 }
  else .throws

end Verif.Visc
