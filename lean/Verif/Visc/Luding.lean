import Verif.Visc.Model

/-! # Luding's law, `pkg/dem/LudingPM.{hpp,cpp}` -/
namespace Verif.Visc

open Verif.Mech

/-- `LudingMat`, LudingPM.hpp 12-22. -/
structure LMat where
  k1 : ℝ
  kp : ℝ
  kc : ℝ
  ks : ℝ
  phi : ℝ
  G0 : ℝ
  angle : ℝ

/-- `LudingPhys`, LudingPM.hpp 31-43; `R` and `DeltMin`, which are not read, are left out. -/
structure LPhys where
  k1 : ℝ
  k2 : ℝ
  kp : ℝ
  kc : ℝ
  ks : ℝ
  G0 : ℝ
  tan : ℝ
  max : ℝ
  null : ℝ
  pmax : ℝ
  pnull : ℝ
  prev : ℝ
  Fn : V3
  Fs : V3

/-- `reduced`, LudingPM.cpp 91-94. -/
noncomputable def reduced (a b : ℝ) : ℝ := 2 * serial a b

/-- `Ip2_LudingMat_LudingMat_LudingPhys::go`, LudingPM.cpp 14-89; radii of the shapes which are spheres.  Undefined: no sphere, no radius. -/
noncomputable def lmake (a b : LMat) (r1 r2 : Option ℝ) : Res LPhys :=
  if r1 = none ∧ r2 = none then .ub
  else if reduced a.k1 b.k1 ≥ reduced a.kp b.kp then .throws
  else if r1.getD 0 + r2.getD 0 = 0 then .ub
  else .ok
    { k1 := reduced a.k1 b.k1, k2 := 0, kp := reduced a.kp b.kp, kc := reduced a.kc b.kc, ks := reduced a.ks b.ks, G0 := reduced a.G0 b.G0
      tan := Real.tan (min a.angle b.angle), max := 0, null := 0
      pmax := reduced a.kp b.kp / (reduced a.kp b.kp - reduced a.k1 b.k1) * reduced a.phi b.phi * 2 * r1.getD 0 * r2.getD 0 / (r1.getD 0 + r2.getD 0)
      pnull := reduced a.phi b.phi * 2 * r1.getD 0 * r2.getD 0 / (r1.getD 0 + r2.getD 0)
      prev := 0, Fn := 0, Fs := 0 }

/-- The stiffness of unloading, lines 118-126. -/
noncomputable def unload (p : LPhys) : ℝ :=
  let k := if p.max / p.pmax ≥ 1 then p.kp else p.k1 + (p.kp - p.k1) * p.max / p.pmax
  if k > p.kp then p.kp else k

/-- Lines 118-130: both stiffnesses. -/
noncomputable def stiffen (p : LPhys) : LPhys :=
  { p with k2 := unload p, k1 := if p.k1 > unload p then unload p else p.k1 }

/-- The overlap without force, lines 136 and 155. -/
noncomputable def free (p : LPhys) (m : ℝ) : ℝ := min ((1 - p.k1 / p.k2) * m) p.pnull

/-- Lines 134-138. -/
noncomputable def reach (p : LPhys) (d : ℝ) : LPhys := if d > p.max then { p with max := d, null := free p d } else p

/-- Lines 140-162: the force; on the adhesive branch, the division of line 154 by zero is undefined. -/
noncomputable def branch (p : LPhys) (d : ℝ) : Res (LPhys × ℝ) :=
  let t := p.k2 * (d - p.null)
  if t ≥ p.k1 * d then .ok ({ p with prev := d }, if d < p.pmax then p.k1 * d else t)
  else if t > -p.kc * d then .ok ({ p with prev := d }, t)
  else if d - p.prev < 0 then
    if p.k2 - p.k1 = 0 then .ub
    else .ok ({ p with max := d * (p.k2 + p.kc) / (p.k2 - p.k1), null := free p (d * (p.k2 + p.kc) / (p.k2 - p.k1)), prev := d }, -p.kc * d)
  else .ok ({ p with prev := d }, t)

/-- The force of an overlap which is not negative, lines 116-162.  Undefined: line 118 without a limit, where zero is divided by zero in the first step,
and the division by `k2` in line 136. -/
noncomputable def hys (p : LPhys) (d : ℝ) : Res (LPhys × ℝ) :=
  if p.pmax = 0 ∨ unload p = 0 then .ub else branch (reach (stiffen p) d) d

/-- What the law does. -/
structure LOut where
  keep : Bool
  phys : LPhys
  loads : Loads

/-- `Law2_ScGeom_LudingPhys_Basic::go`, lines 96-222. -/
noncomputable def lgo (p : LPhys) (g : ScGeom) (s1 s2 : State) (c : Ctx) : Res LOut :=
  if g.pd < 0 then .ok { keep := false, phys := p, loads := Loads.zero }
  else (hys p g.pd).bind fun x =>
    let Fn := (x.2 + p.G0 * normalVel g s1 s2 c) • g.normal
    let r := limit p.tan p.G0 Fn (trial p.ks p.Fs g s1 s2 c) (shearVel g s1 s2 c)
    .ok { keep := true, phys := { x.1 with Fn := Fn, Fs := r.1 }, loads := if c.active then loads g s1 s2 c (Fn + r.1 + r.2) 0 else Loads.zero }

end Verif.Visc
