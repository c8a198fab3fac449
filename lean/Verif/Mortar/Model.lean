import Verif.Mech.Contact
import Mathlib.Analysis.SpecialFunctions.Trigonometric.Basic

/-!
# Mortar between blocks, pkg/dem/MortarMat.*

Real numbers, with the contact geometry of `Verif.Mech`; `std::tan` is the tangent.  Divisions by zero are undefined.
-/
namespace Verif.Mortar

open Verif.Mech

/-- `MortarMat`, MortarMat.hpp 17-35; `id` is the index of a material shared by bodies, negative if there is none. -/
structure Mat where
  id : ℤ
  young : ℝ
  poisson : ℝ
  angle : ℝ
  ft : ℝ
  fc : ℝ
  coh : ℝ
  ell : ℝ
  never : Bool

/-- `MortarPhys`, MortarMat.hpp 42-66. -/
structure Phys where
  kn : ℝ
  ks : ℝ
  tan : ℝ
  ft : ℝ
  fc : ℝ
  coh : ℝ
  ell : ℝ
  area : ℝ
  never : Bool
  Fn : V3
  Fs : V3
  sigN : ℝ
  sigT : V3

/-- The radius of the smaller body which has one, MortarMat.cpp 44. -/
noncomputable def minRad (r1 r2 : ℝ) : ℝ := if r1 ≤ 0 then r2 else if r2 ≤ 0 then r1 else min r1 r2

/-- `Ip2_MortarMat_MortarMat_MortarPhys::go`, MortarMat.cpp 9-53; after the iteration `thr` an error is logged, line 12.  `sigmaN` and `sigmaT` are not set here, and are zero in the model; they are not read before they are set. -/
noncomputable def ip2 (old : Option Phys) (_iter _thr : ℤ) (a b : Mat) (r1 r2 : ℝ) : Res Phys :=
  match old with
  | some p => .ok p
  | none =>
    let same := a.id ≥ 0 ∧ a.id = b.id
    open Classical in
    if a.young * r1 + b.young * r2 = 0 ∨ a.young * r1 * a.poisson + b.young * r2 * b.poisson = 0 then .ub
    else .ok
      { kn := 2 * a.young * r1 * b.young * r2 / (a.young * r1 + b.young * r2)
        ks := 2 * a.young * r1 * a.poisson * b.young * r2 * b.poisson / (a.young * r1 * a.poisson + b.young * r2 * b.poisson)
        tan := if same then Real.tan a.angle else Real.tan (1 / 2 * (a.angle + b.angle))
        ft := if same then a.ft else min a.ft b.ft
        fc := if same then a.fc else min a.fc b.fc
        coh := if same then a.coh else min a.coh b.coh
        ell := if same then a.ell else 1 / 2 * (a.ell + b.ell)
        area := minRad r1 r2 ^ 2
        never := if same then a.never else a.never || b.never
        Fn := 0, Fs := 0, sigN := 0, sigT := 0 }

open Classical in
/-- `MortarPhys::failureCondition`, MortarMat.cpp 62-67. -/
noncomputable def fails (p : Phys) (sn st : ℝ) : Bool :=
  decide (sn - p.ft > 0) || decide (st + sn * p.tan - p.coh > 0) || decide (sn ^ 2 + (p.ell * st) ^ 2 - p.fc ^ 2 > 0)

/-- Forces and stresses, MortarMat.cpp 95-100. -/
noncomputable def stress (p : Phys) (g : ScGeom) : Phys :=
  let Fn := (p.kn * g.pd) • g.normal
  let Fs := g.rotate p.Fs - p.ks • g.shearInc
  { p with Fn := Fn, Fs := Fs, sigN := -dot Fn g.normal / p.area, sigT := (-(1 / p.area)) • Fs }

/-- `Law2_ScGeom_MortarPhys_Lourenco::go`, MortarMat.cpp 77-120: whether the interaction is kept, its physics, and the loads. -/
noncomputable def go (periodic : Bool) (p : Phys) (g : ScGeom) (pos1 pos2 : V3) : Bool × Phys × Loads :=
  let q := stress p g
  if ¬ q.never ∧ fails q q.sigN (norm3 q.sigT) then (false, q, Loads.zero)
  else (true, q, applyLoads ⟨false, false, periodic⟩ g (-q.Fn - q.Fs) pos1 pos2)

/-- Steps of an interaction, with the geometry of each; it ends where the law returns false. -/
noncomputable def run (periodic : Bool) : Phys → List (ScGeom × V3 × V3) → Option (Phys × List Loads)
  | p, [] => some (p, [])
  | p, x :: xs =>
    let o := go periodic p x.1 x.2.1 x.2.2
    if o.1 then (run periodic o.2.1 xs).map fun r => (r.1, o.2.2 :: r.2) else none

end Verif.Mortar
