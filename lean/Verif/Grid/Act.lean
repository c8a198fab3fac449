import Verif.Mech.Newton
import Mathlib.Analysis.SpecialFunctions.Pow.Real
/-!
# Model of the decision of the grid collider whether to run

Transcribes `FlatGridCollider::isActivated` (pkg/dem/FlatGridCollider.cpp) over the reals, on top of the integrator of Verif.Mech.Newton,
whose `maxVelocitySq` it reads.
-/
namespace Verif.Grid
open Verif Verif.Mech

/-- pkg/dem/FlatGridCollider.cpp 12–20 `isActivated`: `newton` is the integrator's `maxVelocitySq`, `none` before the first run; the answer and
the new `fastestBodyMaxDist` -/
noncomputable def gridActivated (newton : Option ℝ) (dt verlet fast : ℝ) : Bool × ℝ :=
  match newton with
  | none => (true, fast)
  | some m => let fast := fast + Real.sqrt m * dt; (decide (verlet < fast), fast)

/-- pkg/dem/FlatGridCollider.cpp 12–37, core/Scene.cpp (an engine runs if it is activated): the collider's turn in one step; whether it ran, and
`fastestBodyMaxDist` afterwards -/
noncomputable def gridTurn (newton : Option ℝ) (dt verlet fast : ℝ) : Bool × ℝ :=
  let r := gridActivated newton dt verlet fast
  (r.1, if r.1 then 0 else r.2)

end Verif.Grid
