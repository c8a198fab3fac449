import Verif.Base
import Verif.Mech.Vec
import Mathlib.Analysis.SpecialFunctions.Log.Basic
import Mathlib.Analysis.SpecialFunctions.Trigonometric.Basic
import Mathlib.Analysis.SpecialFunctions.Pow.Real

/-!
# Bubbles, pkg/dem/BubbleMat.*

Real numbers.  Uninitialised members are `none`, and reading them is `ub`; so is what divides by zero, and the logarithm of what is not positive (the code goes on with infinities or what is not a number).
-/
namespace Verif.Bubble

open Verif.Mech

/-- `BubblePhys`, BubbleMat.hpp 25-50: `fN`, `rAvg`, `Dmax`, `newtonIter`, `newtonTol` and the private `coeffA`, `coeffB`, which are not saved. -/
structure Phys where
  fN : ℝ
  rAvg : ℝ
  dmax : ℝ
  newtonIter : ℕ
  newtonTol : ℝ
  coef : Option (ℝ × ℝ)

/-- `Law2_ScGeom_BubblePhys_Bubble`, BubbleMat.hpp 67-84: `pctMaxForce`, `surfaceTension` and the private `c1`, which is not saved. -/
structure Law where
  pct : ℝ
  tension : ℝ
  c1 : Option ℝ

/-- `BubbleMat`, BubbleMat.hpp 12-21. -/
structure Mat where
  tension : ℝ

/-- `Ip2_BubbleMat_BubbleMat_BubblePhys::go`, BubbleMat.cpp 10-16, with the defaults of BubbleMat.hpp 36-41 (not a number is 0 here, set before it is read). -/
noncomputable def ip2 (_ _ : Mat) (old : Option Phys) : Phys := old.getD ⟨0, 0, 0, 50, 1 / 1000000, none⟩

open Classical in
/-- `BubblePhys::computeCoeffs`, BubbleMat.cpp 20-29. -/
noncomputable def Phys.coeffs (p : Phys) (pct c1 : ℝ) : Res Phys :=
  let fmax := pct * c1 * p.rAvg
  let logPct := Real.log (pct / 4)
  let dmax := pct * p.rAvg * logPct
  if pct ≤ 0 ∨ logPct + 1 = 0 ∨ fmax = 0 then .ub
  else
    let dfdd := c1 / (logPct + 1)
    let b := dfdd / fmax
    .ok { p with dmax := dmax, coef := some (fmax / Real.exp (b * dmax), b), fN := 1 / 10 * fmax }

open Classical in
/-- One turn of the loop, BubbleMat.cpp 39-49: the force and the residual. -/
noncomputable def turn (sep c1 r tol ret : ℝ) : Res (ℝ × ℝ) :=
  let y := ret * (1 / (4 * c1 * r))
  if y ≤ 0 ∨ Real.log y + 1 = 0 then .ub
  else
    let ret' := ret + (sep * c1 - ret * Real.log y) / (Real.log y + 1)
    if ret' ≤ 0 then .ok (9 / 10 * |ret'|, tol * 2) else .ok (ret', |ret' - ret| / ret)

open Classical in
/-- The loop, BubbleMat.cpp 38-53, with the number of turns left before the exception. -/
noncomputable def loop (sep c1 r tol : ℝ) : ℕ → ℝ → Res ℝ
  | 0, ret => (turn sep c1 r tol ret).bind fun _ => .throws
  | k + 1, ret => (turn sep c1 r tol ret).bind fun x => if x.2 > tol then loop sep c1 r tol k x.1 else .ok x.1

open Classical in
/-- `BubblePhys::computeForce`, BubbleMat.cpp 31-59. -/
noncomputable def Phys.force (p : Phys) (sep c1 : ℝ) : Res ℝ :=
  if sep ≥ p.dmax then loop sep c1 p.rAvg p.newtonTol (p.newtonIter + 1) p.fN
  else
    match p.coef with
    | none => .ub
    | some (a, b) => .ok (a * Real.exp (b * sep))

/-- What is set for a fresh interaction, BubbleMat.cpp 72-76. -/
noncomputable def start (l : Law) (p : Phys) (r1 r2 : ℝ) : Res (Law × Phys) :=
  let c1 := 2 * Real.pi * l.tension
  (Phys.coeffs { p with rAvg := 1 / 2 * (r1 + r2) } l.pct c1).bind fun q => .ok ({ l with c1 := some c1 }, q)

/-- The force is computed and kept, BubbleMat.cpp 78-80. -/
noncomputable def keep (l : Law) (p : Phys) (depth : ℝ) : Res (Law × Phys) :=
  match l.c1 with
  | none => .ub
  | some c1 => (p.force (-depth) c1).bind fun f => .ok (l, { p with fN := f })

open Classical in
/-- `Law2_ScGeom_BubblePhys_Bubble::go`, BubbleMat.cpp 64-80; `none`: the interaction is deleted. -/
noncomputable def go (l : Law) (p : Phys) (fresh : Bool) (r1 r2 depth : ℝ) : Res (Option (Law × Phys)) :=
  if depth ≤ 0 then .ok none
  else if fresh then (start l p r1 r2).bind fun s => (keep s.1 s.2 depth).bind fun x => .ok (some x)
  else (keep l p depth).bind fun x => .ok (some x)

/-- Forces and torques on both bodies, BubbleMat.cpp 81-94 (`applyForceAtContactPoint`, pkg/common/Dispatching.hpp 63-68: force on the first, its opposite on the second, with arms to the contact point). -/
noncomputable def loads (periodic : Bool) (fN : ℝ) (n contact pos1 pos2 : V3) (rad1 rad2 depth : ℝ) : (V3 × V3) × (V3 × V3) :=
  let f : V3 := fN • n
  if periodic then ((-f, (rad1 - 1 / 2 * depth) • cross n f), (f, (rad2 - 1 / 2 * depth) • cross n f))
  else ((-f, cross (contact - pos1) (-f)), (f, -cross (contact - pos2) (-f)))

/-- Saving and loading, which loses what is private, BubbleMat.hpp 27, 70. -/
def reload (s : Law × Phys) : Law × Phys := ({ s.1 with c1 := none }, { s.2 with coef := none })

/-- Steps of an interaction that persists, with the depths of penetration: the forces. -/
noncomputable def steps : Law × Phys → List ℝ → Res (List ℝ × (Law × Phys))
  | s, [] => .ok ([], s)
  | s, d :: ds => (keep s.1 s.2 d).bind fun x => (steps x ds).bind fun r => .ok (x.2.fN :: r.1, r.2)

end Verif.Bubble
