import Verif.Drive.Kin
import Mathlib.Analysis.SpecialFunctions.Complex.Arg

/-!
# Engines that put forces on bodies or displace them

pkg/common/ForceEngine.cpp, GravityEngines.cpp, TorqueEngine.hpp, StepDisplacer.hpp.

Simplifications: over the reals; the force container is its synchronised totals (`Verif.Forces` models
the container itself); the tracking of energy and the accelerometer of laptops are left out.
`Vector3::normalize` leaves the zero vector alone (Eigen 3.3).
-/
namespace Verif.Drive
open Verif.Mech

/-- `scene->forces.addForce(id,f)`, core/ForceContainerParallel.cpp 54-58: the vector is indexed with the
id after growing it; a negative id is outside. -/
def addForceTo (id : Int) (f : V3) (w : World) : Res World :=
  if 0 ≤ id then .ok { w with force := fun j => if j = id.toNat then w.force j + f else w.force j } else .ub

/-- `scene->forces.addTorque(id,t)`, core/ForceContainerParallel.cpp 65-69. -/
def addTorqueTo (id : Int) (t : V3) (w : World) : Res World :=
  if 0 ≤ id then .ok { w with torque := fun j => if j = id.toNat then w.torque j + t else w.torque j } else .ub

/-- `scene->bodies->exists(id)`, core/BodyContainer.hpp 74-76. -/
def existsBody (c : Ctx) (w : World) (id : Int) : Bool :=
  decide (0 ≤ id) && decide (id < c.size) && (w.bodies id.toNat).isSome

/-- `ForceEngine::action`, ForceEngine.cpp 19-24. -/
def forceEngine (c : Ctx) (f : V3) : List Int → World → Res World
  | [], w => .ok w
  | id :: ids, w =>
    if existsBody c w id then (addForceTo id f w).bind (forceEngine c f ids) else forceEngine c f ids w

/-- `InterpolatingDirectedForceEngine::action`, ForceEngine.cpp 26-31, with the new `_pos`. -/
noncomputable def interpForceEngine (c : Ctx) (times mags : List ℝ) (wrap : Bool) (direction : V3) (pos : Nat) (ids : List Int)
    (w : World) : Res (Nat × World) :=
  (reading wrap c.time times mags pos).bind fun
    | (none, _) => .ub
    | (some m, pos) => (forceEngine c (m • normalized direction) ids w).bind fun w => .ok (pos, w)

/-- `RadialForceEngine::action`, ForceEngine.cpp 35-43 (`exists` has been checked when the body is
read). -/
noncomputable def radialForceEngine (c : Ctx) (axisPt axisDir : V3) (fNorm : ℝ) : List Int → World → Res World
  | [], w => .ok w
  | id :: ids, w =>
    if existsBody c w id then
      (byId c w id).bind fun
        | none => .ub
        | some b =>
          let radial := normalized (b.st.pos - (axisPt + dot (b.st.pos - axisPt) axisDir • axisDir))
          if sqNorm radial = 0 then radialForceEngine c axisPt axisDir fNorm ids w
          else (addForceTo id (fNorm • radial) w).bind (radialForceEngine c axisPt axisDir fNorm ids)
    else radialForceEngine c axisPt axisDir fNorm ids w

/-- The force in `DragEngine::action`, ForceEngine.cpp 52-58. -/
noncomputable def dragForce (Rho Cd radius : ℝ) (vel : V3) : V3 :=
  let A := radius * radius * Real.pi
  if vel ≠ 0 then (-(0.5 : ℝ) * Rho * A * Cd * sqNorm vel) • normalized vel else 0

/-- The force in `LinearDragEngine::action`, ForceEngine.cpp 71-78. -/
noncomputable def linearDragForce (nu radius : ℝ) (vel : V3) : V3 :=
  let b := 6 * Real.pi * nu * radius
  if vel ≠ 0 then (-b) • vel else 0

/-- `DragEngine::action` and `LinearDragEngine::action`, ForceEngine.cpp 45-62 and 64-82; `radius` is
`none` for bodies whose shape is no sphere. -/
def dragEngine (c : Ctx) (force : ℝ → V3 → V3) (radius : Nat → Option ℝ) : List Int → World → Res World
  | [], w => .ok w
  | id :: ids, w => (byId c w id).bind fun
    | none => dragEngine c force radius ids w
    | some b =>
      match radius id.toNat with
      | none => dragEngine c force radius ids w
      | some r => (addForceTo id (force r b.st.vel) w).bind (dragEngine c force radius ids)

/-- `TorqueEngine::action`, TorqueEngine.hpp 16-21. -/
def torqueEngine (t : V3) : List Int → World → Res World
  | [], w => .ok w
  | id :: ids, w => (addTorqueTo id t w).bind (torqueEngine t ids)

/-- A loop over all bodies that exist (`YADE_PARALLEL_FOREACH_BODY_BEGIN`, core/BodyContainer.hpp 14, or
`FOREACH` with the iterator of lines 37-68, modelled in `Verif.Bodies.Iter`). -/
def overBodies (f : Nat → Bod → World → Res World) : List Nat → World → Res World
  | [], w => .ok w
  | id :: ids, w =>
    match w.bodies id with
    | none => overBodies f ids w
    | some b => (f id b w).bind (overBodies f ids)

/-- `Body::isClump`, core/Body.hpp. -/
def Kind.isClump : Kind → Bool
  | .clump _ => true
  | _ => false

/-- `GravityEngine::action`, GravityEngines.cpp 18-30; `inMask` says whether the mask lets the body
pass (line 25). -/
noncomputable def gravityEngine (c : Ctx) (g : V3) (inMask : Nat → Bool) (w : World) : Res World :=
  overBodies (fun id b w => if Kind.isClump b.kind || !inMask id then .ok w else addForceTo id (b.st.mass • g) w)
    (List.range c.size) w

/-- `CentralGravityEngine::action`, GravityEngines.cpp 32-42: a central body that is missing is
dereferenced. -/
noncomputable def centralGravity (c : Ctx) (accel : ℝ) (central : Int) (reciprocal : Bool) (inMask : Nat → Bool) (w : World) :
    Res World :=
  (byId c w central).bind fun
    | none => .ub
    | some cb =>
      overBodies (fun id b w =>
        if Kind.isClump b.kind || decide ((id : Int) = central) then .ok w
        else if !inMask id then .ok w
        else
          let F := accel * b.st.mass
          let toCenter := normalized (cb.st.pos - b.st.pos)
          (addForceTo id (F • toCenter) w).bind fun w =>
            if reciprocal then addForceTo central ((-F) • toCenter) w else .ok w)
        (List.range c.size) w

/-- `AxialGravityEngine::action`, GravityEngines.cpp 44-57. -/
noncomputable def axialGravity (c : Ctx) (axisPoint axisDirection : V3) (acceleration : ℝ) (inMask : Nat → Bool) (w : World) :
    Res World :=
  overBodies (fun id b w =>
    if Kind.isClump b.kind || !inMask id then .ok w
    else
      let x0 := b.st.pos
      let x1 := axisPoint
      let x2 := axisPoint + axisDirection
      let closest := x1 + (-dot (x1 - x0) (x2 - x1) / sqNorm (x2 - x1)) • (x2 - x1)
      let toAxis := normalized (closest - x0)
      if sqNorm toAxis = 0 then .ok w
      else addForceTo id ((acceleration * b.st.mass) • toAxis) w) (List.range c.size) w

/-- Eigen's `AngleAxis(q)`: the angle `2 atan2(|vec|, |w|)` and the axis. -/
noncomputable def toAngleAxis (q : Quat) : ℝ × V3 :=
  let v : V3 := ![q.x, q.y, q.z]
  let n := norm3 v
  if n = 0 then (0, ![1, 0, 0])
  else (2 * Complex.arg ⟨|q.w|, n⟩, (1 / (if q.w < 0 then -n else n)) • v)

/-- `StepDisplacer::action`, StepDisplacer.hpp 9-23: a missing body is dereferenced. -/
noncomputable def stepDisplacer (c : Ctx) (mov : V3) (rot : Quat) (setVelocities : Bool) : List Int → World → Res World
  | [], w => .ok w
  | id :: ids, w => (byId c w id).bind fun
    | none => .ub
    | some b =>
      let st := b.st
      let st := if setVelocities then
          let aa := toAngleAxis rot
          { st with vel := (1 / c.dt) • mov, angVel := (aa.1 / c.dt) • normalized aa.2 }
        else { st with pos := st.pos + mov, ori := rot.mul st.ori }
      stepDisplacer c mov rot setVelocities ids (w.setBody id.toNat { b with st := st })

end Verif.Drive
