import Verif.Base
import Verif.Mech.Vec
import Mathlib.Analysis.SpecialFunctions.Trigonometric.Basic
import Mathlib.Tactic.NormNum
import Mathlib.Tactic.Positivity

/-!
# NewtonIntegrator, pkg/dem/NewtonIntegrator.cpp

The integrator's arithmetic over the reals and its loop over the bodies.  Division by a zero mass
or inertia gives infinities in the code and `0` in `ℝ`; the theorems that depend on it assume a
non-zero mass.  Energy tracking, callbacks and log output are left out; the loop runs over an
arbitrary order of ids, standing for the schedule of the OpenMP loop (each iteration is atomic).
-/
namespace Verif.Mech

/-! ## Degrees of freedom, core/State.hpp 9-27 and core/State.cpp 15-41 -/

/-- `State::axisDOF`, core/State.hpp 27. -/
def axisDOF (axis : Fin 3) (rotational : Bool) : Nat := 1 <<< (axis.val + if rotational then 3 else 0)

/-- `State::DOF_ALL`, core/State.hpp 20. -/
def dofAll : Nat := 63

/-- `State::DOF_RXRYRZ`, core/State.hpp 24. -/
def dofRot : Nat := 8 ||| 16 ||| 32

/-- One character of the argument of `State::blockedDOFs_vec_set`, core/State.cpp 31-40: unknown
characters are ignored. -/
def dofOfChar (b : Nat) (c : Char) : Nat :=
  if c = 'x' then b ||| 1
  else if c = 'y' then b ||| 2
  else if c = 'z' then b ||| 4
  else if c = 'X' then b ||| 8
  else if c = 'Y' then b ||| 16
  else if c = 'Z' then b ||| 32
  else b

/-- `State::blockedDOFs_vec_set`, core/State.cpp 29-41. -/
def dofSet (s : List Char) : Nat := s.foldl dofOfChar 0

/-- `State::blockedDOFs_vec_get`, core/State.cpp 15-27. -/
def dofGet (b : Nat) : List Char :=
  (if b &&& 1 ≠ 0 then ['x'] else []) ++ (if b &&& 2 ≠ 0 then ['y'] else []) ++
  (if b &&& 4 ≠ 0 then ['z'] else []) ++ (if b &&& 8 ≠ 0 then ['X'] else []) ++
  (if b &&& 16 ≠ 0 then ['Y'] else []) ++ (if b &&& 32 ≠ 0 then ['Z'] else [])

/-! ## The arithmetic -/

/-- `State`, core/State.hpp 46-57 (the attributes the integrator uses). -/
structure State where
  pos : V3
  ori : Quat
  vel : V3
  angVel : V3
  angMom : V3
  mass : ℝ
  inertia : V3
  blocked : Nat
  isDamped : Bool
  densityScaling : ℝ

/-- Parameters of the integrator, NewtonIntegrator.hpp 64-80. -/
structure Params where
  dt : ℝ
  damping : ℝ
  gravity : V3
  mask : Int
  densityScaling : Bool
  exactAsphericalRot : Bool

/-- What the cell contributes in one step, NewtonIntegrator.cpp 97-100, 121. -/
structure Deform where
  periodic : Bool
  homoDeform : Int
  dVelGrad : M3
  prevVelGrad : M3

/-- What the force container and the body contribute in one step: imposed displacement and
rotation (ForceContainer `getMove`, `getRot`, `getMoveRotUsed`), `Body::isAspherical` and
`Body::maskCompatible`. -/
structure Extern where
  moveRotUsed : Bool
  move : V3
  rot : V3
  aspherical : Bool
  maskCompatible : Bool

/-- `Mathr::Sign`, lib/base/Math.hpp 160. -/
noncomputable def sign (f : ℝ) : ℝ := if f < 0 then -1 else if f > 0 then 1 else 0

/-- `cundallDamp1st`, NewtonIntegrator.cpp 19-21. -/
noncomputable def cundallDamp1st (damping : ℝ) (force vel : V3) : V3 :=
  fun i => force i * (1 - damping * sign (force i * vel i))

/-- `cundallDamp2nd`, NewtonIntegrator.cpp 23-25. -/
noncomputable def cundallDamp2nd (damping dt : ℝ) (vel accel : V3) : V3 :=
  fun i => accel i * (1 - damping * sign (accel i * (vel i + 0.5 * dt * accel i)))

/-- `computeAccel`, NewtonIntegrator.cpp 27-32. -/
noncomputable def computeAccel (gravity force : V3) (mass : ℝ) (blocked : Nat) : V3 :=
  if blocked = 0 then fun i => force i / mass + gravity i
  else fun i => if blocked &&& axisDOF i false = 0 then 0 + (force i / mass + gravity i) else 0

/-- `computeAngAccel`, NewtonIntegrator.cpp 33-38. -/
noncomputable def computeAngAccel (torque inertia : V3) (blocked : Nat) : V3 :=
  if blocked = 0 then fun i => torque i / inertia i
  else fun i => if blocked &&& axisDOF i true = 0 then 0 + torque i / inertia i else 0

/-- `Quaternionr(AngleAxisr(angle,axis))` (Eigen). -/
noncomputable def ofAngleAxis (angle : ℝ) (axis : V3) : Quat :=
  ⟨Real.cos (0.5 * angle), Real.sin (0.5 * angle) * axis 0, Real.sin (0.5 * angle) * axis 1,
    Real.sin (0.5 * angle) * axis 2⟩

/-- `DotQ`, NewtonIntegrator.cpp 295-302. -/
noncomputable def dotQ (angVel : V3) (Q : Quat) : Quat :=
  ⟨(-Q.x * angVel 0 - Q.y * angVel 1 - Q.z * angVel 2) / 2,
   (Q.w * angVel 0 - Q.z * angVel 1 + Q.y * angVel 2) / 2,
   (Q.z * angVel 0 + Q.w * angVel 1 - Q.x * angVel 2) / 2,
   (-Q.y * angVel 0 + Q.x * angVel 1 + Q.w * angVel 2) / 2⟩

/-- `Quaternionr(a.coeffs()+c*b.coeffs())`, NewtonIntegrator.cpp 255, 261. -/
def addScaled (a : Quat) (c : ℝ) (b : Quat) : Quat :=
  ⟨a.w + c * b.w, a.x + c * b.x, a.y + c * b.y, a.z + c * b.z⟩

/-- The test on the mask in lines 222, 231 and 237 of NewtonIntegrator.cpp. -/
def moves (P : Params) (I : Extern) : Bool := decide (P.mask ≤ 0) || I.maskCompatible

/-- `leapfrogTranslate`, NewtonIntegrator.cpp 214-225. -/
noncomputable def leapfrogTranslate (P : Params) (D : Deform) (I : Extern) (s : State) : State :=
  let s := if I.moveRotUsed then { s with pos := s.pos + I.move } else s
  let s := if D.periodic && D.homoDeform != 0 then
      { s with vel := s.vel + D.dVelGrad.mulVec s.pos } else s
  if moves P I then { s with pos := s.pos + P.dt • s.vel } else s

/-- `dSpin`, NewtonIntegrator.cpp 99-100. -/
noncomputable def dSpin (D : Deform) : V3 :=
  let R : M3 := (0.5 : ℝ) • (D.dVelGrad - D.dVelGrad.transpose)
  ![-R 1 2, R 0 2, -R 0 1]

open Classical in
/-- The imposed rotation, NewtonIntegrator.cpp 236-242 and (without the mask) 264-269. -/
noncomputable def imposedRot (I : Extern) (enabled : Bool) (s : State) : State :=
  if I.moveRotUsed && decide (I.rot ≠ 0) && enabled then
    { s with ori := (ofAngleAxis (norm3 I.rot) ((1 / norm3 I.rot) • I.rot)).mul s.ori }
  else s

open Classical in
/-- `leapfrogSphericalRotate`, NewtonIntegrator.cpp 227-244. -/
noncomputable def leapfrogSphericalRotate (P : Params) (D : Deform) (I : Extern) (s : State) :
    State :=
  let s := if D.periodic && D.homoDeform != 0 then { s with angVel := s.angVel + dSpin D } else s
  let angle2 := sqNorm s.angVel
  let s := if decide (angle2 ≠ 0) && moves P I then
      let angle := Real.sqrt angle2
      { s with ori := (ofAngleAxis (angle * P.dt) ((1 / angle) • s.angVel)).mul s.ori }
    else s
  let s := imposedRot I (moves P I) s
  { s with ori := s.ori.normalize }

/-- `leapfrogAsphericalRotate`, NewtonIntegrator.cpp 246-271. -/
noncomputable def leapfrogAsphericalRotate (P : Params) (I : Extern) (M : V3) (s : State) : State :=
  let scale : ℝ := if P.densityScaling then s.densityScaling else 1
  let A := s.ori.conj.toMat
  let l_n := s.angMom + (P.dt / 2) • M
  let l_b_n := A.mulVec l_n
  let angVel_b_n : V3 := fun i => l_b_n i / s.inertia i * scale
  let Q_half := addScaled s.ori (P.dt / 2) (dotQ angVel_b_n s.ori)
  let angMom := s.angMom + P.dt • M
  let l_b_half := A.mulVec angMom
  let angVel_b_half : V3 := fun i => l_b_half i / s.inertia i * scale
  let ori := addScaled s.ori P.dt (dotQ angVel_b_half Q_half)
  let s := { s with angMom := angMom, ori := ori, angVel := ori.rot angVel_b_half }
  let s := imposedRot I true s
  { s with ori := s.ori.normalize }

/-- Whether the aspherical integrator is used, NewtonIntegrator.cpp 166. -/
def useAspherical (P : Params) (I : Extern) (s : State) : Bool :=
  P.exactAsphericalRot && I.aspherical && decide (s.blocked &&& dofRot = 0)

/-- The damped linear acceleration, NewtonIntegrator.cpp 159, 171-173. -/
noncomputable def linAccel (P : Params) (D : Deform) (f : V3) (s : State) : V3 :=
  let fluctVel := if D.periodic then s.vel - D.prevVelGrad.mulVec s.pos else s.vel
  let a := computeAccel P.gravity f s.mass s.blocked
  let a := if P.densityScaling then fun i => a i * s.densityScaling else a
  if s.isDamped then cundallDamp2nd P.damping P.dt fluctVel a else a

/-- The damped angular acceleration, NewtonIntegrator.cpp 180-182. -/
noncomputable def angAccel (P : Params) (m : V3) (s : State) : V3 :=
  let a := computeAngAccel m s.inertia s.blocked
  let a := if P.densityScaling then fun i => a i * s.densityScaling else a
  if s.isDamped then cundallDamp2nd P.damping P.dt s.angVel a else a

/-- The torque passed to the aspherical integrator, NewtonIntegrator.cpp 185-186. -/
noncomputable def asphTorque (P : Params) (m : V3) (s : State) : V3 :=
  let m : V3 := fun i => if s.blocked &&& axisDOF i true ≠ 0 then 0 else m i
  if s.isDamped then cundallDamp1st P.damping m s.angVel else m

/-- One body that is not a clump member, NewtonIntegrator.cpp 159-194: force `f` and torque `m`
are the ones of line 149. -/
noncomputable def stepState (P : Params) (D : Deform) (I : Extern) (f m : V3) (s : State) : State :=
  let asph := useAspherical P I s
  if s.blocked ≠ dofAll then
    let a := linAccel P D f s
    let a := if D.periodic && decide (D.homoDeform > 1) then a + D.prevVelGrad.mulVec s.vel else a
    let s := { s with vel := s.vel + P.dt • a }
    if !asph then
      let s := { s with angVel := s.angVel + P.dt • angAccel P m s }
      leapfrogSphericalRotate P D I (leapfrogTranslate P D I s)
    else
      let m := asphTorque P m s
      leapfrogAsphericalRotate P I m (leapfrogTranslate P D I s)
  else
    let s := if D.periodic && decide (D.homoDeform > 1) then
        { s with vel := s.vel + P.dt • D.prevVelGrad.mulVec s.vel } else s
    let s := leapfrogTranslate P D I s
    if !asph then leapfrogSphericalRotate P D I s else leapfrogAsphericalRotate P I m s

/-! ## Energy tracking -/

/-- Componentwise absolute value (Eigen `cwiseAbs`). -/
def cwiseAbs (v : V3) : V3 := fun i => |v i|

/-- What `updateEnergy` adds to the energy tracker for one body. -/
structure Energy where
  damp : ℝ
  etrans : ℝ
  erot : ℝ
  gravWork : ℝ

/-- `NewtonIntegrator::updateEnergy`, NewtonIntegrator.cpp 40-62. -/
noncomputable def updateEnergy (P : Params) (aspherical : Bool) (s : State) (fluctVel f m : V3) :
    Energy :=
  { damp := if P.damping ≠ 0 ∧ s.isDamped = true then
        dot (cwiseAbs fluctVel) (cwiseAbs f) * P.damping * P.dt +
          dot (cwiseAbs s.angVel) (cwiseAbs m) * P.damping * P.dt
      else 0
    etrans := 0.5 * s.mass * sqNorm fluctVel
    erot := if aspherical then
        let mI : M3 := Matrix.diagonal s.inertia
        let T := s.ori.toMat
        0.5 * dot s.angVel ((T.transpose * mI * T).mulVec s.angVel)
      else 0.5 * dot s.angVel (fun i => s.inertia i * s.angVel i)
    gravWork := -dot P.gravity s.vel * s.mass * P.dt }

/-! ## Clumps -/

/-- `Se3r`, lib/base/Math.hpp: position and orientation. -/
structure Se3 where
  pos : V3
  ori : Quat

/-- What a body is, core/Body.hpp `isStandalone`, `isClump`, `isClumpMember`; for a clump its
member map (core/Clump.hpp 56, 102; a `std::map`, hence ordered by id and without repetition). -/
inductive Kind where
  | standalone
  | clump (members : List (Nat × Se3))
  | member (clumpId : Nat)

/-- `Bound`, core/Bound.hpp: position at the last update and enlargement. -/
structure BoundInfo where
  refPos : V3
  sweepLength : ℝ

/-- A body, core/Body.hpp: the fields the integrator uses. -/
structure Bod where
  st : State
  kind : Kind
  subdomain : Int
  isSubdomain : Bool
  aspherical : Bool
  maskCompatible : Bool
  bound : Option BoundInfo

/-- `Cell`, core/Cell.hpp: the fields the integrator uses. -/
structure CellInfo where
  velGrad : M3
  nextVelGrad : M3
  velGradChanged : Bool
  homoDeform : Int
  size : V3
  prevVelGrad : M3

/-- The scene and the integrator's own memory (`prevVelGrad`, `prevCellSize`, `maxVelocitySq`;
NewtonIntegrator.hpp 66-72).  `prevCellSize` is `none` for its initial NaN. -/
structure World where
  bodies : Nat → Option Bod
  force : Nat → V3
  torque : Nat → V3
  moveRotUsed : Bool
  move : Nat → V3
  rot : Nat → V3
  periodic : Bool
  subdomain : Int
  cell : CellInfo
  prevVelGrad : M3
  prevCellSize : Option V3
  maxVelocitySq : ℝ

/-- Replaces one body. -/
def World.setBody (w : World) (id : Nat) (b : Bod) : World :=
  { w with bodies := fun j => if j = id then some b else w.bodies j }

/-- `saveMaximaDisplacement`, NewtonIntegrator.cpp 72-85. -/
noncomputable def saveMaximaDisplacement (b : Bod) (w : World) : World :=
  match b.bound with
  | none => w
  | some bd =>
    let disp := b.st.pos - bd.refPos
    let maxDisp := max |disp 0| (max |disp 1| |disp 2|)
    let v : ℝ := if maxDisp = 0 ∨ maxDisp < bd.sweepLength then 0.5 else 2
    { w with maxVelocitySq := max w.maxVelocitySq v }

/-- The state a member gets from its clump, core/Clump.hpp 75-79. -/
def memberState (c : State) (rel : Se3) (s : State) : State :=
  let pos := c.pos + c.ori.rot rel.pos
  { s with pos := pos, ori := c.ori.mul rel.ori, vel := c.vel + cross c.angVel (pos - c.pos),
           angVel := c.angVel }

/-- `Clump::moveMembers`, core/Clump.hpp 67-82: a missing member is dereferenced. -/
noncomputable def moveMembers (c : State) : List (Nat × Se3) → World → Res World
  | [], w => .ok w
  | (id, rel) :: ms, w =>
    match w.bodies id with
    | none => .ub
    | some b =>
      let b := { b with st := memberState c rel b.st }
      moveMembers c ms (saveMaximaDisplacement b (w.setBody id b))

/-- `Clump::addForceTorqueFromMembers`, core/Clump.cpp 55-66: a missing member is dereferenced. -/
def addForceTorqueFromMembers (w : World) (cpos : V3) : List (Nat × Se3) → V3 → V3 → Res (V3 × V3)
  | [], F, T => .ok (F, T)
  | (id, _) :: ms, F, T =>
    match w.bodies id with
    | none => .ub
    | some b =>
      addForceTorqueFromMembers w cpos ms (F + w.force id)
        (T + (w.torque id + cross (b.st.pos - cpos) (w.force id)))

/-- The cell's contribution in this step, NewtonIntegrator.cpp 97-98. -/
def World.deform (w : World) : Deform :=
  { periodic := w.periodic, homoDeform := w.cell.homoDeform,
    dVelGrad := w.cell.velGrad - w.prevVelGrad, prevVelGrad := w.prevVelGrad }

/-- The body's contribution in this step. -/
def World.extern (w : World) (id : Nat) (b : Bod) : Extern :=
  { moveRotUsed := w.moveRotUsed, move := w.move id, rot := w.rot id, aspherical := b.aspherical,
    maskCompatible := b.maskCompatible }

/-- One iteration of the loop over the bodies, NewtonIntegrator.cpp 126-207 (null bodies are
skipped by the loop macro, core/BodyContainer.hpp). -/
noncomputable def actBody (P : Params) (D : Deform) (id : Nat) (w : World) : Res World :=
  match w.bodies id with
  | none => .ok w
  | some b =>
    match b.kind with
    | .member _ => .ok w
    | .standalone =>
      if w.subdomain ≠ b.subdomain ∨ b.isSubdomain = true then .ok w
      else
        let b' := { b with st := stepState P D (w.extern id b) (w.force id) (w.torque id) b.st }
        .ok (saveMaximaDisplacement b' (w.setBody id b'))
    | .clump ms =>
      if w.subdomain ≠ b.subdomain ∨ b.isSubdomain = true then .ok w
      else
        match addForceTorqueFromMembers w b.st.pos ms 0 0 with
        | .throws => .throws
        | .ub => .ub
        | .ok (f, m) =>
          let w := { w with torque := fun j => if j = id then w.torque j + m else w.torque j,
                            force := fun j => if j = id then w.force j + f else w.force j }
          let b' := { b with st := stepState P D (w.extern id b) (w.force id) (w.torque id) b.st }
          moveMembers b'.st ms (saveMaximaDisplacement b' (w.setBody id b'))

/-- The loop over the bodies in some order. -/
noncomputable def actLoop (P : Params) (D : Deform) : List Nat → World → Res World
  | [], w => .ok w
  | id :: ids, w =>
    match actBody P D id w with
    | .ok w => actLoop P D ids w
    | .throws => .throws
    | .ub => .ub

open Classical in
/-- Before the loop: the velocity gradient asked for by the user is taken over and the motion of
the periodic boundary counts as velocity, NewtonIntegrator.cpp 93-106. -/
noncomputable def beforeLoop (P : Params) (w : World) : World :=
  let w := if w.cell.velGradChanged || decide (w.cell.nextVelGrad ≠ 0) then
      { w with cell := { w.cell with velGrad := w.cell.nextVelGrad, velGradChanged := false,
                                     nextVelGrad := 0 } } else w
  match w.prevCellSize with
  | none => { w with maxVelocitySq := 0 }
  | some p =>
    if w.periodic && decide (p ≠ w.cell.size) then
      { w with maxVelocitySq := sqNorm (p - w.cell.size) / P.dt ^ 2 }
    else { w with maxVelocitySq := 0 }

/-- After the loop, NewtonIntegrator.cpp 211. -/
def afterLoop (w : World) : World :=
  if w.periodic then
    { w with prevCellSize := some w.cell.size, prevVelGrad := w.cell.velGrad,
             cell := { w.cell with prevVelGrad := w.cell.velGrad } }
  else w

/-- `NewtonIntegrator::action`, NewtonIntegrator.cpp 87-212, with the bodies visited in the given
order.  (`forces.sync()` has been done: `force` and `torque` are the synced totals.) -/
noncomputable def action (P : Params) (order : List Nat) (w : World) : Res World :=
  let w := beforeLoop P w
  match actLoop P w.deform order w with
  | .ok w => .ok (afterLoop w)
  | .throws => .throws
  | .ub => .ub

end Verif.Mech
