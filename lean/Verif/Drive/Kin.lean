import Verif.Drive.Table
import Verif.Mech.Newton

/-!
# Prescribed motion, pkg/common/KinematicEngines.cpp and .hpp

Over the reals; a time step of zero makes the code divide by zero, where `ℝ` gives `0`; the theorems
concerned assume a non-zero step.  The OpenMP loops of `TranslationEngine`, `RotationEngine` and
`BicyclePedalEngine` are run one iteration after another (an id listed twice is also a data race).
Warnings to the log are left out.
-/
namespace Verif.Drive
open Verif.Mech

/-- What the scene provides: `scene->dt`, `scene->time`, `scene->iter`, `scene->bodies->size()` and
whether the forces are synchronised (core/Scene.hpp, ForceContainer.hpp 31). -/
structure Ctx where
  dt : ℝ
  time : ℝ
  iter : Int
  size : Nat
  synced : Bool

/-- `Body::byId(id,scene)`, core/Body.cpp 10-11: `(*scene->bodies)[id]`, unchecked (BodyContainer.hpp 71);
the assertions of KinematicEngines.cpp are compiled out. -/
def byId (c : Ctx) (w : World) (id : Int) : Res (Option Bod) :=
  if 0 ≤ id ∧ id < c.size then .ok (w.bodies id.toNat) else .ub

/-- The loops over `ids`, e.g. KinematicEngines.cpp 13-17, 57-63: bodies that do not exist are skipped. -/
def onEach (c : Ctx) (f : Bod → Bod) : List Int → World → Res World
  | [], w => .ok w
  | id :: ids, w => (byId c w id).bind fun
    | none => onEach c f ids w
    | some b => onEach c f ids (w.setBody id.toNat (f b))

/-- Adds to the velocities of a body. -/
def addVel (v ω : V3) (b : Bod) : Bod :=
  { b with st := { b.st with vel := b.st.vel + v, angVel := b.st.angVel + ω } }

/-- `vel=angVel=Zero()`, KinematicEngines.cpp 16, 30. -/
def stop (b : Bod) : Bod := { b with st := { b.st with vel := 0, angVel := 0 } }

/-- Attributes of `RotationEngine`, KinematicEngines.hpp 57-60. -/
structure Rot where
  angularVelocity : ℝ
  rotationAxis : V3
  rotateAroundZero : Bool
  zeroPoint : V3

/-- Attributes of `ServoPIDController`, KinematicEngines.hpp 99-111 (and the two inherited ones it
sets). -/
structure Servo where
  maxVelocity : ℝ
  axis : V3
  target : ℝ
  current : V3
  kP : ℝ
  kI : ℝ
  kD : ℝ
  iTerm : ℝ
  curVel : ℝ
  errorCur : ℝ
  errorPrev : ℝ
  iterPeriod : Int
  iterPrevStart : Int
  translationAxis : V3
  velocity : ℝ

/-- The kinematic engines, KinematicEngines.hpp 33-129. -/
inductive Kin where
  | translation (velocity : ℝ) (axis : V3)
  | harmonic (A f fi : V3)
  | rotation (r : Rot)
  | harmonicRot (r : Rot) (A f fi : ℝ)
  | helix (r : Rot) (linearVelocity angleTurned : ℝ)
  | interpHelix (r : Rot) (linearVelocity angleTurned : ℝ) (times vals : List ℝ) (wrap : Bool) (slope : ℝ) (pos : Nat)
  | servo (s : Servo)
  | bicycle (angularVelocity : ℝ) (axis : V3) (radius fi : ℝ)

/-- `v.normalize()` (Eigen 3.3 leaves a zero vector alone). -/
noncomputable def normalized (v : V3) : V3 := (1 / norm3 v) • v

/-- `TranslationEngine::apply`, KinematicEngines.cpp 49-67. -/
def applyTranslation (c : Ctx) (velocity : ℝ) (axis : V3) (ids : List Int) (w : World) : Res World :=
  onEach c (addVel (velocity • axis) 0) ids w

/-- The velocity for rotating around the zero point, KinematicEngines.cpp 127-130. -/
noncomputable def aroundZero (c : Ctx) (r : Rot) (pos : V3) : V3 :=
  let l := pos - r.zeroPoint
  let q := ofAngleAxis (r.angularVelocity * c.dt) r.rotationAxis
  let newPos := q.rot l + r.zeroPoint
  (1 / c.dt) • (newPos - pos)

/-- `RotationEngine::apply`, KinematicEngines.cpp 112-136. -/
noncomputable def applyRotation (c : Ctx) (r : Rot) (ids : List Int) (w : World) : Res World :=
  onEach c (fun b => addVel (if r.rotateAroundZero then aroundZero c r b.st.pos else 0)
    (r.angularVelocity • r.rotationAxis) b) ids w

/-- `HelixEngine::apply`, KinematicEngines.cpp 94-110, with the new `angleTurned`. -/
noncomputable def applyHelix (c : Ctx) (r : Rot) (lin turned : ℝ) (ids : List Int) (w : World) :
    Res (Rot × ℝ × World) :=
  if ids.isEmpty then .ok (r, turned, w)
  else
    let r' := { r with rotateAroundZero := true }
    (onEach c (addVel (lin • r.rotationAxis) 0) ids w).bind fun w =>
      (applyRotation c r' ids w).bind fun w => .ok (r', turned + r.angularVelocity * c.dt, w)

/-- The angular velocity of `HarmonicRotationEngine`, KinematicEngines.cpp 139-141. -/
noncomputable def harmonicSpin (c : Ctx) (A f fi : ℝ) : ℝ :=
  let w := f * 2 * Real.pi;
  (-1 : ℝ) * A * w * Real.sin (w * c.time + fi)

/-- The velocity of `HarmonicMotionEngine`, KinematicEngines.cpp 71-74. -/
noncomputable def harmonicVel (c : Ctx) (A f fi : V3) : V3 := fun i =>
  let w := f i * 2 * Real.pi
  Real.sin (w * c.time + fi i) * (-1) * A i * w

/-- The sum of forces in KinematicEngines.cpp 149-155; `getForce` throws when the forces are not
synchronised and gives zero for ids out of range. -/
def sumForces (c : Ctx) (w : World) : List Int → Res V3
  | [] => .ok 0
  | id :: ids => if c.synced then
      (sumForces c w ids).bind fun F => .ok ((if 0 ≤ id then w.force id.toNat else 0) + F)
    else .throws

/-- The new velocity before and after limiting, KinematicEngines.cpp 170-174. -/
noncomputable def limitVel (v maxVelocity : ℝ) : ℝ := if |v| > |maxVelocity| then v * (|maxVelocity| / |v|) else v

/-- The control law, KinematicEngines.cpp 160-177, given the sum of forces. -/
noncomputable def servoUpdate (c : Ctx) (s : Servo) (F : V3) : Servo :=
  let axis := normalized s.axis
  let f : V3 := fun i => F i * axis i
  let errorCur := norm3 f - s.target
  let iTerm := s.iTerm + errorCur * s.kI
  let dTerm := (errorCur - s.errorPrev) * s.kD
  { s with axis := axis, errorCur := errorCur, iTerm := iTerm, errorPrev := errorCur,
           curVel := limitVel (errorCur * s.kP + iTerm + dTerm) s.maxVelocity,
           iterPrevStart := c.iter, current := f }

/-- `ServoPIDController::apply`, KinematicEngines.cpp 145-184. -/
noncomputable def applyServo (c : Ctx) (s : Servo) (ids : List Int) (w : World) : Res (Servo × World) :=
  let upd : Res Servo :=
    if s.iterPrevStart < 0 ∨ c.iter - s.iterPrevStart ≥ s.iterPeriod then
      (sumForces c w ids).bind fun F => .ok (servoUpdate c s F)
    else .ok s
  upd.bind fun s =>
    let s := { s with translationAxis := s.axis, velocity := s.curVel }
    (applyTranslation c s.velocity s.translationAxis ids w).bind fun w => .ok (s, w)

/-- The pedal's place on its circle in the plane `z=0`, KinematicEngines.cpp 191-192. -/
noncomputable def pedal (radius fi : ℝ) : V3 := ![Real.cos fi * radius, Real.sin fi * radius, 0]

/-- `BicyclePedalEngine::apply`, KinematicEngines.cpp 187-215, with the new `fi`.  `fromTwo` stands for
Eigen's `setFromTwoVectors(Vector3r(0,0,1), rotationAxis)`. -/
noncomputable def applyBicycle (fromTwo : V3 → V3 → Quat) (c : Ctx) (ω : ℝ) (axis : V3) (radius fi : ℝ) (ids : List Int)
    (w : World) : Res (ℝ × World) :=
  if ids.isEmpty then .ok (fi, w)
  else
    let q := fromTwo ![0, 0, 1] axis
    let newPos := pedal radius (fi + ω * c.dt)
    let oldPos := pedal radius fi
    let newVel := (1 / c.dt) • (oldPos - newPos)
    (onEach c (addVel (q.rot newVel) 0) ids w).bind fun w => .ok (fi + ω * c.dt, w)

/-- `apply` of the engines, KinematicEngines.cpp 49-215.  A NaN from the table would become the
velocity; it is counted as undefined. -/
noncomputable def Kin.apply (fromTwo : V3 → V3 → Quat) (c : Ctx) (ids : List Int) (w : World) : Kin → Res (Kin × World)
  | .translation v a => (applyTranslation c v a ids w).bind fun w => .ok (.translation v a, w)
  | .harmonic A f fi => (onEach c (addVel (harmonicVel c A f fi) 0) ids w).bind fun w => .ok (.harmonic A f fi, w)
  | .rotation r => (applyRotation c r ids w).bind fun w => .ok (.rotation r, w)
  | .harmonicRot r A f fi =>
    let r := { r with angularVelocity := harmonicSpin c A f fi }
    (applyRotation c r ids w).bind fun w => .ok (.harmonicRot r A f fi, w)
  | .helix r lin turned => (applyHelix c r lin turned ids w).bind fun x => .ok (.helix x.1 lin x.2.1, x.2.2)
  | .interpHelix r _ turned times vals wrap slope pos =>
    (reading wrap c.time times vals pos).bind fun
      | (none, _) => .ub
      | (some ω, pos) =>
        let r := { r with angularVelocity := ω }
        (applyHelix c r (ω * slope) turned ids w).bind fun x =>
          .ok (.interpHelix x.1 (ω * slope) x.2.1 times vals wrap slope pos, x.2.2)
  | .servo s => (applyServo c s ids w).bind fun x => .ok (.servo x.1, x.2)
  | .bicycle ω a radius fi =>
    (applyBicycle fromTwo c ω a radius fi ids w).bind fun x => .ok (.bicycle ω a radius x.1, x.2)

/-- `KinematicEngine::action`, KinematicEngines.cpp 11-22. -/
noncomputable def Kin.action (fromTwo : V3 → V3 → Quat) (c : Ctx) (ids : List Int) (w : World) (e : Kin) : Res (Kin × World) :=
  if ids.isEmpty then .ok (e, w)
  else (onEach c stop ids w).bind fun w => e.apply fromTwo c ids w

/-- A kinematic engine as an object: the engine, `ids` (core/PartialEngine.hpp) and `dead`
(core/Engine.hpp). -/
structure KObj where
  eng : Kin
  ids : List Int
  dead : Bool

/-- The loop in KinematicEngines.cpp 33-36. -/
noncomputable def applyAll (fromTwo : V3 → V3 → Quat) (c : Ctx) (ids : List Int) : List KObj → World → Res (List KObj × World)
  | [], w => .ok ([], w)
  | e :: es, w =>
    if e.dead then (applyAll fromTwo c ids es w).bind fun x => .ok (e :: x.1, x.2)
    else (e.eng.apply fromTwo c ids w).bind fun y =>
      (applyAll fromTwo c ids es y.2).bind fun x => .ok ({ e with eng := y.1 } :: x.1, x.2)

/-- `CombinedKinematicEngine::action`, KinematicEngines.cpp 24-40, for distinct engines. -/
noncomputable def combAction (fromTwo : V3 → V3 → Quat) (c : Ctx) (ids : List Int) (es : List KObj) (w : World) :
    Res (List KObj × World) :=
  if ids.isEmpty then .ok (es, w)
  else (onEach c stop ids w).bind fun w => applyAll fromTwo c ids es w

/-! ## The operator `+` of python -/

/-- Python objects: a kinematic engine or a combined one with references to its parts. -/
inductive Obj where
  | kin (o : KObj)
  | comb (ids : List Int) (parts : List Nat)

/-- `a+b` in python, KinematicEngines.hpp 14, 17, 26 and KinematicEngines.cpp 42-46: `fromTwo` makes a
new object, `appendOne` changes the left one and returns it; a combined engine on the right is no
`KinematicEngine` (KinematicEngines.hpp 9), boost::python raises.  Objects are indices into the heap. -/
def plus (h : List Obj) (a b : Nat) : Res (List Obj × Nat) :=
  match h[a]?, h[b]? with
  | some (.kin x), some (.kin _) => .ok (h ++ [.comb x.ids [a, b]], h.length)
  | some (.comb ids ps), some (.kin _) => .ok (h.set a (.comb ids (ps ++ [b])), a)
  | _, _ => .throws

end Verif.Drive
