import Verif.Base
import Mathlib.Data.Real.Basic
import Mathlib.LinearAlgebra.Matrix.NonsingularInverse
import Mathlib.Data.Finset.Lattice.Fold

/-!
# Peri3dController

`pkg/dem/PeriIsoCompressor.cpp` lines 235-414, `.hpp` lines 77-113.  Real numbers for floating point ones.  The stress of the cell, its deformation and the
polar decomposition of the deformation are given; the logging is not modelled.  Undefined: indices outside of paths, paths which end at
time zero, steps or a number of steps that are not positive (assertion of line 238, divisions by zero), cells without inverse, and use without a periodic cell (`throw`
without exception in line 236).
-/
namespace Verif.P3d

/-- Six components, in the order xx, yy, zz, yz, zx, xy. -/
abbrev V6 := Fin 6 → ℝ

/-- Matrices. -/
abbrev M3 := Matrix (Fin 3) (Fin 3) ℝ

/-- Attributes, PeriIsoCompressor.hpp 79-113: `mask` are the bits of `stressMask`, `hook` whether `doneHook` is set; `ps` and `pe` without the zeros
at their ends, so that `lenPs` and `lenPe` are their lengths. -/
structure Eng where
  stress : V6
  stressOld : V6
  strain : V6
  strainRate : V6
  stressRate : V6
  stressIdeal : V6
  goal : V6
  mask : Fin 6 → Bool
  nSteps : ℤ
  progress : ℝ
  mod : ℝ
  maxRate : ℝ
  maxStrain : ℝ
  young : ℝ
  poisson : ℝ
  paths : Fin 6 → List (ℝ × ℝ)
  stressGoal : V6
  strainGoal : V6
  ps : List (Fin 6)
  pe : List (Fin 6)
  counter : Fin 6 → ℕ
  hook : Bool
  dead : Bool

/-- Defaults, PeriIsoCompressor.hpp 84-113. -/
noncomputable def Eng.new : Eng :=
  { stress := 0, stressOld := 0, strain := 0, strainRate := 0, stressRate := 0, stressIdeal := 0, goal := 0, mask := fun _ => false, nSteps := 1000,
    progress := 0, mod := 0.1, maxRate := 1e3, maxStrain := 1e6, young := 1e20, poisson := 0.25, paths := fun _ => [(1, 1)], stressGoal := 0, strainGoal := 0,
    ps := [], pe := [], counter := fun _ => 0, hook := false, dead := false }

open Classical in
/-- Lines 277-282: whether times increase. -/
noncomputable def increasing : List (ℝ × ℝ) → Bool
  | x :: y :: l => decide (x.1 < y.1) && increasing (y :: l)
  | _ => true

open Classical in
/-- Lines 283-290: times relative to the last one, values relative to the last one unless it is zero. -/
noncomputable def scale (g : ℝ) (p : List (ℝ × ℝ)) : List (ℝ × ℝ) :=
  p.map fun x => (x.1 * (1 / (p.getLastD (0, 0)).1), if |(p.getLastD (0, 0)).2| ≥ 1e-9 then x.2 * (g / (p.getLastD (0, 0)).2) else x.2)

open Classical in
/-- Lines 294-298: whether the simulation is called stress based; the second point of paths is read. -/
noncomputable def based (paths : Fin 6 → List (ℝ × ℝ)) : List (Fin 6) → Res Bool
  | [] => .ok true
  | j :: l =>
    if (paths j).length < 2 then .ub
    else if ((paths j).getD 1 (0, 0)).2 < 1e9 then based paths l else .ok false

/-- Lines 249-290, what is set at the beginning. -/
noncomputable def Eng.setup (e : Eng) : Eng :=
  { e with
    ps := (List.finRange 6).filter fun i => e.mask i
    pe := (List.finRange 6).filter fun i => !e.mask i
    stressGoal := fun i => if e.mask i then e.goal i else 0
    strainGoal := fun i => if e.mask i then 0 else e.goal i
    counter := fun _ => 0
    paths := fun i => scale (e.goal i) (e.paths i) }

open Classical in
/-- Lines 247-299: the engine and `stressBasedSimulation`. -/
noncomputable def Eng.start (e : Eng) : Res (Eng × Bool) :=
  if e.progress = 0 then
    if ∃ i, increasing (e.paths i) = false then .throws
    else if ∃ i, e.paths i ≠ [] ∧ ((e.paths i).getLastD (0, 0)).1 = 0 then .ub
    else (based e.setup.paths e.setup.pe).bind fun b => .ok (e.setup, b)
  else .ok (e, false)

/-- The result, or a default. -/
def val {α : Type} (d : α) : Res α → α
  | .ok a => a
  | _ => d

open Classical in
/-- One result of each component; undefined if one of them is. -/
noncomputable def gather {α : Type} (d : α) (f : Fin 6 → Res α) : Res (Fin 6 → α) :=
  if ∀ i, f i ≠ .ub then .ok fun i => val d (f i) else .ub

open Classical in
/-- Lines 302-304: the part of a path. -/
noncomputable def count (progress : ℝ) (p : List (ℝ × ℝ)) (c : ℕ) : Res ℕ :=
  if c < p.length then .ok (if progress ≥ (p.getD c (0, 0)).1 then c + 1 else c) else .ub

open Classical in
/-- Lines 308-341: the rate prescribed in a component. -/
noncomputable def rate (progress : ℝ) (n : ℤ) (dt g : ℝ) (p : List (ℝ × ℝ)) (c : ℕ) : Res ℝ :=
  if p.length = 1 then .ok (g / (n * dt))
  else if c = 0 then .ok ((p.getD 0 (0, 0)).2 / ((p.getD 0 (0, 0)).1 * n * dt))
  else if progress < 1 then
    if c < p.length then
      .ok (((p.getD c (0, 0)).2 - (p.getD (c - 1) (0, 0)).2) / (((p.getD c (0, 0)).1 - (p.getD (c - 1) (0, 0)).1) * n * dt))
    else .ub
  else .ok 0

/-- The greatest absolute value, `cwiseAbs().maxCoeff()`. -/
noncomputable def top (v : V6) : ℝ := Finset.univ.sup' Finset.univ_nonempty fun i => |v i|

/-- The compliance of lines 361-367. -/
noncomputable def Eng.compliance (e : Eng) (i j : Fin 6) : ℝ :=
  if i.val < 3 ∧ j.val < 3 then (if i = j then 1 / e.young else -e.poisson / e.young)
  else if i = j then (1 + e.poisson) / e.young else 0

/-- Lines 368-372: the estimate of the first step; the second loop goes up to the number of strains but uses the indices of stresses, which are zero at the
end. -/
noncomputable def Eng.estimate (e : Eng) : V6 := fun i =>
  if i ∈ e.ps then
    (e.ps.map fun j => e.compliance i j * e.stressRate j).sum +
      ((List.range e.pe.length).map fun k : ℕ => e.compliance i (e.ps.getD k 0) * e.stressRate (e.ps.getD k 0)).sum
  else e.strainRate i

open Classical in
/-- Lines 376-384: the predictor. -/
noncomputable def Eng.predict (e : Eng) (dt : ℝ) : V6 := fun j =>
  if j ∈ e.ps then
    if 2 * (e.stress j - e.stressIdeal j) - (e.stressOld j - (e.stressIdeal j - e.stressRate j * dt)) > 0 then e.strainRate j - top e.strainRate * e.mod
    else e.strainRate j + top e.strainRate * e.mod
  else e.strainRate j

/-- Lines 308-350: rates of the path, stresses and strains of the present step. -/
noncomputable def Eng.update (e : Eng) (dt : ℝ) (sig : V6) (cs : Fin 6 → ℕ) (rates : V6) : Eng :=
  let strainRate : V6 := fun j => if j ∈ e.pe then rates j else e.strainRate j
  let stressRate : V6 := fun j => if j ∈ e.ps then rates j else e.stressRate j
  { e with
    counter := cs
    strainRate := strainRate
    stressRate := stressRate
    stressOld := e.stress
    stress := sig
    stressIdeal := fun j => e.stressIdeal j + stressRate j * dt
    strain := fun j => e.strain j + strainRate j * dt }

open Classical in
/-- Lines 359-386: strain rates where stress is prescribed. -/
noncomputable def Eng.control (e : Eng) (b : Bool) (dt : ℝ) : Eng :=
  { e with strainRate := if e.ps = [] then e.strainRate else if e.progress = 0 ∧ b = true then e.estimate else e.predict dt }

open Classical in
/-- Line 389. -/
noncomputable def Eng.corr (e : Eng) : ℝ := if top e.strainRate > e.maxRate then e.maxRate / top e.strainRate else 1

open Classical in
/-- Lines 390 and 408-413. -/
noncomputable def Eng.finish (e : Eng) : Eng :=
  let p := e.progress + e.corr / e.nSteps
  { e with
    strainRate := fun i => e.strainRate i * e.corr
    progress := p
    dead := if (p ≥ 1 ∨ top e.strain > e.maxStrain) ∧ e.hook = false then true else e.dead }

/-- `voigt_toSymmTensor` for strains, lib/base/Math.hpp 201-204. -/
noncomputable def tensor (v : V6) : M3 :=
  !![v 0, 0.5 * v 5, 0.5 * v 4; 0.5 * v 5, v 1, 0.5 * v 3; 0.5 * v 4, 0.5 * v 3, v 2]

/-- Lines 398-407: the velocity gradient; `rot` and `nonrot` are the parts of `trsf`. -/
noncomputable def velGrad (dt : ℝ) (rates : V6) (trsf rot nonrot : M3) : M3 :=
  (1 / dt) • (rot * (nonrot + rot.transpose * (dt • tensor rates) * rot) * trsf⁻¹ - 1)

/-- What a step is given: the stress of the cell, its deformation with its parts, the time step. -/
structure Inp where
  sig : V6
  trsf : M3
  rot : M3
  nonrot : M3
  dt : ℝ

/-- Lines 302-413, after the beginning. -/
noncomputable def Eng.advance (e : Eng) (b : Bool) (i : Inp) : Res Eng :=
  (gather 0 fun j => count e.progress (e.paths j) (e.counter j)).bind fun cs =>
    (gather 0 fun j => rate e.progress e.nSteps i.dt (if j ∈ e.ps then e.stressGoal j else e.strainGoal j) (e.paths j) (cs j)).bind fun rates =>
      .ok (((e.update i.dt i.sig cs rates).control b i.dt).finish)

open Classical in
/-- `action`, lines 235-414: the engine and the velocity gradient of the cell. -/
noncomputable def Eng.action (e : Eng) (i : Inp) : Res (Eng × M3) :=
  if i.dt ≤ 0 ∨ e.nSteps ≤ 0 ∨ i.trsf.det = 0 then .ub
  else e.start.bind fun x => (x.1.advance x.2 i).bind fun e' => .ok (e', velGrad i.dt e'.strainRate i.trsf i.rot i.nonrot)

end Verif.P3d
