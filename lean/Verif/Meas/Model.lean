import Verif.Base
import Verif.Mech.Vec
import Verif.Peri.Cell
import Mathlib.Analysis.Real.Pi.Bounds
import Mathlib.Analysis.SpecialFunctions.Trigonometric.Basic

/-!
# Model of the measures and collective operations of `Shop`

Transcribes `pkg/dem/Shop_01.cpp` (`flipCell`, `unbalancedForce`, `kineticEnergy`, `momentum`, `angularMomentum`) and
`pkg/dem/Shop_02.cpp` (`getStress`, `getStressLWForEachBody`, `normalShearStressTensors`, `fabricTensor`, `getDynamicStress`,
`getTotalDynamicStress`, `calm`, `setContactFriction`, `growParticles`, `aabbExtrema`), the functions behind the module
`yade.utils`.

Simplifications: real numbers; a quotient by zero, which is a NaN or an infinity in the code, is the outcome `none`; integers
are unbounded (`flip` and `cellDist` are `int`); all interactions have `GenericSpheresContact` geometry and `FrictPhys` physics
and all materials are `FrictMat` (the code casts without looking).
-/
namespace Verif.Meas
open Verif Verif.Mech Matrix

/-- what these functions ask of a shape: `Sphere` (pkg/common/Sphere.hpp), `Clump` with ids and relative positions of its members
(core/Clump.hpp 104), `GridNode` (pkg/common/Grid.hpp), or anything else -/
inductive MShape where
  | sphere (radius : ℝ)
  | clump (members : List (Nat × V3))
  | gridNode
  | other

/-- what these functions ask of a body: core/Body.hpp 40–60, 80–95 and core/State.hpp -/
structure MBody where
  shape : MShape
  pos : V3
  vel : V3
  angVel : V3
  angMom : V3
  mass : ℝ
  inertia : V3
  ori : Quat
  dynamic : Bool
  aspherical : Bool
  clumpId : Option Nat
  mask : Nat
  mat : Nat

/-- what these functions ask of an interaction: core/Interaction.hpp, pkg/common/NormShearPhys.hpp, `GenericSpheresContact`
(pkg/dem/DemXDofGeom.hpp 8–20), `FrictPhys` -/
structure MIntr where
  id1 : Nat
  id2 : Nat
  real : Bool
  normalForce : V3
  shearForce : V3
  normal : V3
  contactPoint : V3
  refR1 : ℝ
  refR2 : ℝ
  cellDist : Fin 3 → ℤ
  kn : ℝ
  ks : ℝ
  tanPhi : ℝ

/-- the scene: core/Scene.hpp; `force` is the synchronised force on a body, `friction` the friction angles of the materials -/
structure MScene where
  bodies : List (Option MBody)
  intrs : List MIntr
  periodic : Bool
  cell : Peri.Cell
  dt : ℝ
  gravity : V3
  force : Nat → V3
  friction : List ℝ

/-- `Body::byId(id,scene)` followed by `->`: core/Body.hpp 33–36; a place without body is a null pointer -/
def body (s : MScene) (i : Nat) : Res MBody :=
  match s.bodies[i]? with
  | some (some b) => .ok b
  | _ => .ub

/-- `FOREACH(… , container)` with a body that may fail -/
def foldR {α β : Type} (f : β → α → Res β) : β → List α → Res β
  | b, [] => .ok b
  | b, a :: l => (f b a).bind fun b => foldR f b l

/-- `isClump`, core/Body.hpp 42 -/
def isClump (i : Nat) (b : MBody) : Bool := decide (b.clumpId = some i)

/-- `isClumpMember`, core/Body.hpp 44 -/
def isMember (i : Nat) (b : MBody) : Bool := b.clumpId.isSome && !isClump i b

/-- bodies with their ids -/
def numbered (s : MScene) : List (Option MBody × Nat) := s.bodies.zipIdx

/-- `cell->hSize*I->cellDist.cast<Real>()` -/
def shift (s : MScene) (I : MIntr) : V3 := s.cell.hSize *ᵥ fun a => (I.cellDist a : ℝ)

/-- `m/volume` with an infinite volume or a volume of zero giving no number -/
noncomputable def over (m : M3) (v : Option ℝ) : Option M3 :=
  match v with
  | some v => if v = 0 then none else some (v⁻¹ • m)
  | none => none

/-! ### aabbExtrema, Shop_02.cpp 874–890 -/

/-- the body of the loop, 878–884; `none` stands for the initial infinities of 877 -/
noncomputable def aabbStep (acc : Option (V3 × V3)) (b : Option MBody) : Option (V3 × V3) :=
  match b with
  | some b => match b.shape with
    | .sphere r => match acc with
      | some (lo, hi) => some (fun a => min (lo a) (b.pos a - r), fun a => max (hi a) (b.pos a + r))
      | none => some (fun a => b.pos a - r, fun a => b.pos a + r)
    | _ => acc
  | none => acc

/-- Shop_02.cpp 874–890 `aabbExtrema(cutoff)`; `none` if there is no sphere (infinite or undefined corners) -/
noncomputable def aabbExtrema (s : MScene) (cutoff : ℝ) : Res (Option (V3 × V3)) :=
  if cutoff < 0 ∨ cutoff > 1 then .throws
  else .ok ((s.bodies.foldl aabbStep none).map fun (lo, hi) =>
    (lo + (2⁻¹ * cutoff) • (hi - lo), hi - (2⁻¹ * cutoff) • (hi - lo)))

/-! ### Stress, Shop_02.cpp 348–370, 746–762 -/

/-- whether the shape is a `GridNode`, Shop_02.cpp 362 -/
def isGrid (b : MBody) : Bool := match b.shape with | .gridNode => true | _ => false

/-- the branch vector, Shop_02.cpp 364–365 -/
def branch (s : MScene) (I : MIntr) (b1 b2 : MBody) : V3 :=
  b1.pos - b2.pos - (if s.periodic then shift s I else 0)

/-- one round of the loop, Shop_02.cpp 358–367 -/
def stressStep (s : MScene) (m : M3) (I : MIntr) : Res M3 :=
  if I.real = false then .ok m else
  (body s I.id1).bind fun b1 =>
  if isGrid b1 then .ok m else
  (body s I.id2).bind fun b2 =>
  .ok (m + vecMulVec (I.normalForce + I.shearForce) (branch s I b1 b2))

/-- the volume used when none is given, Shop_02.cpp 350–355 -/
noncomputable def defaultVolume (s : MScene) : Res (Option ℝ) :=
  if s.periodic then .ok (some s.cell.hSize.det)
  else (aabbExtrema s 0).bind fun e =>
    .ok (e.map fun (lo, hi) => (hi 0 - lo 0) * (hi 1 - lo 1) * (hi 2 - lo 2))

open Classical in
/-- Shop_02.cpp 348–370 `getStress(volume)` -/
noncomputable def getStress (s : MScene) (volume : ℝ) : Res (Option M3) :=
  (if volume = 0 then defaultVolume s else .ok (some volume)).bind fun v =>
  (foldR (stressStep s) 0 s.intrs).bind fun m => .ok (over m v)

/-- `3.0/(4.0*Mathr::PI*pow(R,3))` -/
noncomputable def perVolume (R : ℝ) : ℝ := 3 / (4 * Real.pi * R ^ 3)

/-- one round of the loop, Shop_02.cpp 750–761; a radius of zero does not occur in the theorems -/
noncomputable def bodyStressStep (s : MScene) (m : Nat → M3) (I : MIntr) : Res (Nat → M3) :=
  if I.real = false then .ok m else
  (body s I.id1).bind fun b1 =>
  (body s I.id2).bind fun b2 =>
  let f := I.normalForce + I.shearForce
  let m1 := Function.update m I.id1 (m I.id1 - perVolume I.refR1 • vecMulVec f (I.contactPoint - b1.pos))
  if s.periodic = false then
    .ok (Function.update m1 I.id2 (m1 I.id2 + perVolume I.refR2 • vecMulVec f (I.contactPoint - b2.pos)))
  else
    .ok (Function.update m1 I.id2 (m1 I.id2 + perVolume I.refR2 • vecMulVec f (I.contactPoint - (b2.pos + shift s I))))

/-- Shop_02.cpp 746–762 `getStressLWForEachBody` (python `bodyStressTensors`) -/
noncomputable def bodyStresses (s : MScene) : Res (Nat → M3) := foldR (bodyStressStep s) (fun _ => 0) s.intrs

/-! ### Fabric and decomposed stress, Shop_02.cpp 195–346 -/

/-- the entries on and above the diagonal, `for(i) for(j=i;…) m(i,j)+=a[i]*b[j]` -/
def upper (a b : V3) : M3 := Matrix.of fun i j => if i ≤ j then a i * b j else 0

/-- `m(1,0)=m(0,1); m(2,0)=m(0,2); m(2,1)=m(1,2)` -/
def mirror (m : M3) : M3 := Matrix.of fun i j => if i ≤ j then m i j else m j i

open Classical in
/-- whether the contact point is in the box, Shop_02.cpp 276; comparisons with NaN or infinities of the empty box fail -/
noncomputable def inBox (e : Option (V3 × V3)) (I : MIntr) : Bool :=
  match e with
  | some (lo, hi) => decide (∀ a, lo a ≤ I.contactPoint a ∧ I.contactPoint a ≤ hi a)
  | none => false

/-- real contacts in the box, Shop_02.cpp 272–276, 302–306 -/
noncomputable def picked (s : MScene) (e : Option (V3 × V3)) : List MIntr := s.intrs.filter fun I => I.real && inBox e I

/-- the signed normal force, Shop_02.cpp 282, 309 -/
def signedForce (I : MIntr) : ℝ := -dot I.normalForce I.normal

/-- `Σ n n` on and above the diagonal over a list, divided by its length; Shop_02.cpp 277–280, 284–289, 312–332 -/
noncomputable def fabricOf (l : List MIntr) : Option M3 :=
  if l.length = 0 then none
  else some ((l.length : ℝ)⁻¹ • mirror (l.foldl (fun m I => m + upper I.normal I.normal) 0))

/-- `Fmean`, Shop_02.cpp 282–286 -/
noncomputable def meanForce (l : List MIntr) : Option ℝ :=
  if l.length = 0 then none else some ((l.foldl (fun x I => x + signedForce I) 0) / l.length)

/-- `Fsplit`, Shop_02.cpp 238, 311: the threshold or, if that is NaN, the mean -/
def splitAt (threshold mean : Option ℝ) : Option ℝ := match threshold with | some t => some t | none => mean

open Classical in
/-- `x<Fsplit`, false if that is NaN -/
noncomputable def below (x : ℝ) (t : Option ℝ) : Bool := match t with | some t => decide (x < t) | none => false

open Classical in
/-- `x>Fsplit`, false if that is NaN -/
noncomputable def above (x : ℝ) (t : Option ℝ) : Bool := match t with | some t => decide (t < x) | none => false

/-- results of `fabricTensor` -/
structure Fabric where
  mean : Option ℝ
  all : Option M3
  strong : Option M3
  weak : Option M3

/-- Shop_02.cpp 260–346 `fabricTensor(cutoff,…,thresholdForce)` -/
noncomputable def fabricTensor (s : MScene) (cutoff : ℝ) (threshold : Option ℝ) : Res Fabric :=
  (aabbExtrema s cutoff).bind fun e =>
  let l := picked s e
  let t := splitAt threshold (meanForce l)
  .ok { mean := meanForce l, all := fabricOf l,
        strong := fabricOf (l.filter fun I => below (signedForce I) t),
        weak := fabricOf (l.filter fun I => !below (signedForce I) t) }

/-- results of `normalShearStressTensors` -/
structure Parts where
  normal : Option M3
  shear : Option M3
  strong : Option M3
  weak : Option M3

/-- `(compressionPositive?-1:1)`, Shop_02.cpp 209–210, 235 -/
def signOf (compressionPositive : Bool) : ℝ := if compressionPositive then -1 else 1

/-- `R`, Shop_02.cpp 214, 237 -/
noncomputable def contactR (I : MIntr) : ℝ := 2⁻¹ * (I.refR1 + I.refR2)

/-- `N`, Shop_02.cpp 210, 235 -/
def normalN (cp : Bool) (I : MIntr) : ℝ := signOf cp * dot I.normalForce I.normal

/-- contribution to `sigN`, Shop_02.cpp 216, 241, 245 -/
noncomputable def normalPart (cp : Bool) (I : MIntr) : M3 := (contactR I * normalN cp I) • upper I.normal I.normal

open Classical in
/-- contribution to `sigT`, Shop_02.cpp 209–212, 217 -/
noncomputable def shearPart (cp : Bool) (I : MIntr) : M3 :=
  let Fs := signOf cp • I.shearForce
  let T := norm3 Fs
  if 0 < T then (contactR I * T) • upper I.normal (T⁻¹ • Fs) else 0

/-- a sum over real contacts times `2/vol`, mirrored; Shop_02.cpp 220–224, 248–251 -/
noncomputable def assembled (vol : ℝ) (l : List MIntr) (f : MIntr → M3) : Option M3 :=
  if vol = 0 then none else some (mirror ((2 / vol) • l.foldl (fun m I => m + f I) 0))

/-- whether a contact is in the strong part, Shop_02.cpp 239 -/
noncomputable def isStrong (cp : Bool) (t : Option ℝ) (I : MIntr) : Bool :=
  if cp then below (normalN cp I) t else above (normalN cp I) t

/-- Shop_02.cpp 195–257 `normalShearStressTensors` -/
noncomputable def normalShear (s : MScene) (cp : Bool) (threshold : Option ℝ) : Res Parts :=
  if s.periodic = false then .throws else
  let vol := s.cell.hSize.det
  let l := s.intrs.filter fun I => I.real
  (fabricTensor s 0 none).bind fun f =>
  let t := splitAt threshold f.mean
  .ok { normal := assembled vol l (normalPart cp), shear := assembled vol l (shearPart cp),
        strong := assembled vol (l.filter fun I => isStrong cp t I) (normalPart cp),
        weak := assembled vol (l.filter fun I => !isStrong cp t I) (normalPart cp) }

/-! ### Energy and momentum, Shop_01.cpp 151–206, Shop_02.cpp 372–422, 774–783 -/

/-- `Cell::getSpin`, core/Cell.hpp 144 -/
noncomputable def spin (c : Peri.Cell) : V3 :=
  let R : M3 := (2⁻¹ : ℝ) • (c.velGrad - c.velGrad.transpose)
  ![-R 1 2, R 0 2, -R 0 1]

/-- `Cell::bodyFluctuationVel`, core/Cell.hpp 95 -/
def fluctVel (pos vel : V3) (g : M3) : V3 := vel - g *ᵥ pos

/-- energy of one body, Shop_01.cpp 158–181 -/
noncomputable def bodyEnergy (s : MScene) (b : MBody) : ℝ :=
  let E := if s.periodic then 2⁻¹ * b.mass * sqNorm (fluctVel (b.pos - s.dt • b.vel) b.vel s.cell.velGrad)
    else 2⁻¹ * (b.mass * sqNorm b.vel)
  let w := if s.periodic then b.angVel - spin s.cell else b.angVel
  if b.aspherical then
    let T := b.ori.toMat
    E + 2⁻¹ * dot w ((T * Matrix.diagonal b.inertia * T.transpose) *ᵥ w)
  else E + 2⁻¹ * dot w (fun a => b.inertia a * w a)

open Classical in
/-- one round, Shop_01.cpp 156–184: the sum, the greatest energy and its body -/
noncomputable def energyStep (s : MScene) (acc : ℝ × ℝ × Option Nat) (x : Option MBody × Nat) : ℝ × ℝ × Option Nat :=
  match x.1 with
  | none => acc
  | some b =>
    if b.dynamic = false ∨ isMember x.2 b then acc
    else
      let E := bodyEnergy s b
      (acc.1 + E, if E > acc.2.1 then (E, some x.2) else acc.2)

/-- Shop_01.cpp 151–186 `kineticEnergy`: the sum and, with `findMaxId`, the body of the greatest energy (`none` = `ID_NONE`) -/
noncomputable def kineticEnergy (s : MScene) : ℝ × Option Nat :=
  let r := (numbered s).foldl (energyStep s) (0, 0, none)
  (r.1, r.2.2)

/-- one round of `momentum`, Shop_01.cpp 191–193: there is no test for erased bodies -/
def momentumStep (m : V3) (b : Option MBody) : Res V3 :=
  match b with
  | some b => .ok (m + b.mass • b.vel)
  | none => .ub

/-- Shop_01.cpp 188–195 `momentum` -/
def momentum (s : MScene) : Res V3 := foldR momentumStep 0 s.bodies

/-- one round of `angularMomentum`, Shop_01.cpp 201–204 -/
def angMomentumStep (o : V3) (m : V3) (b : Option MBody) : Res V3 :=
  match b with
  | some b => .ok (m + cross (b.pos - o) (b.mass • b.vel) + b.angMom)
  | none => .ub

/-- Shop_01.cpp 197–206 `angularMomentum(origin)` -/
def angularMomentum (s : MScene) (o : V3) : Res V3 := foldR (angMomentumStep o) 0 s.bodies

/-- fluctuation velocity as used for dynamic stresses, Shop_02.cpp 384, 417 -/
def vFluct (s : MScene) (b : MBody) : V3 := if s.periodic then fluctVel b.pos b.vel s.cell.velGrad else b.vel

/-- one round of `getDynamicStress`, Shop_02.cpp 382–391: `YADE_CAST<Sphere*>` is a `static_cast`, so that the radius of any
other shape is read from foreign memory -/
noncomputable def dynStressStep (s : MScene) (l : List M3) (b : Option MBody) : Res (List M3) :=
  match b with
  | some b => match b.shape with
    | .sphere r => .ok (l ++ [(-perVolume r * b.mass) • vecMulVec (vFluct s b) (vFluct s b)])
    | _ => .ub
  | none => .ub

/-- Shop_02.cpp 372–395 `getDynamicStress` -/
noncomputable def dynamicStress (s : MScene) : Res (List M3) := foldR (dynStressStep s) [] s.bodies

/-- one round of `getTotalDynamicStress`, Shop_02.cpp 414–420 -/
def totDynStep (s : MScene) (m : M3) (b : Option MBody) : Res M3 :=
  match b with
  | some b => .ok (m + b.mass • vecMulVec (vFluct s b) (vFluct s b))
  | none => .ub

open Classical in
/-- Shop_02.cpp 397–422 `getTotalDynamicStress(volume)` -/
noncomputable def totalDynamicStress (s : MScene) (volume : ℝ) : Res (Option M3) :=
  if volume = 0 ∧ s.periodic = false then .ok (some 0)
  else (foldR (totDynStep s) 0 s.bodies).bind fun m => .ok (over m (some (if volume = 0 then s.cell.hSize.det else volume)))

/-- what `calm` does to a body, Shop_02.cpp 776–781 -/
def calmBody (mask : ℤ) (b : MBody) : MBody :=
  if b.dynamic = false then b
  else if mask > 0 ∧ b.mask &&& mask.toNat = 0 then b
  else { b with vel := 0, angVel := 0, angMom := 0 }

/-- Shop_02.cpp 773–783 `calm(mask)` -/
def calm (s : MScene) (mask : ℤ) : MScene := { s with bodies := s.bodies.map fun b => b.map (calmBody mask) }

/-! ### Unbalanced force, Shop_01.cpp 121–149 -/

/-- `addForceTorqueFromMembers` (forces only), core/Clump.cpp 55–66 -/
def memberForces (s : MScene) (f : V3) (ms : List (Nat × V3)) : Res V3 :=
  foldR (fun f m => (body s m.1).bind fun _ => .ok (f + s.force m.1)) f ms

/-- the members of a shape cast to `Clump` -/
def membersOf (b : MBody) : List (Nat × V3) := match b.shape with | .clump ms => ms | _ => []

open Classical in
/-- force on one body, Shop_01.cpp 131–136 -/
noncomputable def bodyForce (s : MScene) (i : Nat) (b : MBody) : Res ℝ :=
  let currF := norm3 (s.force i + b.mass • s.gravity)
  if isClump i b ∧ currF = 0 then
    (memberForces s (s.force i) (membersOf b)).bind fun f => .ok (norm3 (f + b.mass • s.gravity))
  else .ok currF

/-- one round, Shop_01.cpp 129–138: greatest force, sum of forces, number of bodies -/
noncomputable def unbalStep (s : MScene) (acc : ℝ × ℝ × Nat) (x : Option MBody × Nat) : Res (ℝ × ℝ × Nat) :=
  match x.1 with
  | none => .ok acc
  | some b =>
    if isMember x.2 b ∨ b.dynamic = false then .ok acc
    else (bodyForce s x.2 b).bind fun f => .ok (max f acc.1, acc.2.1 + f, acc.2.2 + 1)

open Classical in
/-- Shop_01.cpp 139–148: the quotient; `none` if it is not a number -/
noncomputable def unbalQuot (useMax : Bool) (r : ℝ × ℝ × Nat) (l : List MIntr) : Option ℝ :=
  let sumF := l.foldl (fun x I => x + norm3 (I.normalForce + I.shearForce)) 0
  if l.length = 0 then none
  else if sumF = 0 then none
  else if useMax then some (r.1 / (sumF / l.length))
  else if r.2.2 = 0 then none
  else some (r.2.1 / r.2.2 / (sumF / l.length))

/-- Shop_01.cpp 121–149 `unbalancedForce(useMaxForce)` -/
noncomputable def unbalancedForce (s : MScene) (useMax : Bool) : Res (Option ℝ) :=
  (foldR (unbalStep s) (0, 0, 0) (numbered s)).bind fun r => .ok (unbalQuot useMax r (s.intrs.filter fun I => I.real))

/-! ### Growth, Shop_02.cpp 819–857 -/

/-- radius, if the class of the shape is exactly `Sphere` -/
def radius? (b : MBody) : Option ℝ := match b.shape with | .sphere r => some r | _ => none

/-- mass and inertia, Shop_02.cpp 827 -/
def growMass (m : ℝ) (updateMass : Bool) (b : MBody) : MBody :=
  if updateMass then { b with mass := b.mass * m ^ 3, inertia := m ^ 5 • b.inertia } else b

/-- one round of the loop over bodies, Shop_02.cpp 823–842, on the body numbered `i` -/
def growBody (m : ℝ) (updateMass dynamicOnly : Bool) (s : MScene) (i : Nat) : Res MScene :=
  (body s i).bind fun b =>
  if dynamicOnly = true ∧ b.dynamic = false then .ok s
  else if isClump i b then
    let b := growMass m updateMass b
    .ok { s with bodies := s.bodies.set i (some { b with shape := .clump ((membersOf b).map fun x => (x.1, m • x.2)) }) }
  else match radius? b with
    | none => .ok s
    | some r =>
      let b := { growMass m updateMass b with shape := .sphere (r * m) }
      if isMember i b then
        (body s (b.clumpId.getD 0)).bind fun c =>
        .ok { s with bodies := s.bodies.set i (some { b with pos := b.pos + (m - 1) • (b.pos - c.pos) }) }
      else .ok { s with bodies := s.bodies.set i (some b) }

/-- new reference radius of one side of a contact, Shop_02.cpp 848–851 -/
def newRef (dynamicOnly : Bool) (b : MBody) (old : ℝ) : ℝ :=
  if dynamicOnly = false ∨ b.dynamic = true then (radius? b).getD old else old

/-- one round of the loop over interactions, Shop_02.cpp 843–855 -/
def growIntr (m : ℝ) (dynamicOnly : Bool) (s : MScene) (I : MIntr) : Res MIntr :=
  if I.real = false then .ok I else
  (body s I.id1).bind fun b1 =>
  (body s I.id2).bind fun b2 =>
  .ok { I with refR1 := newRef dynamicOnly b1 I.refR1, refR2 := newRef dynamicOnly b2 I.refR2, kn := I.kn * m, ks := I.ks * m }

/-- Shop_02.cpp 819–857 `growParticles(multiplier,updateMass,dynamicOnly)` -/
def growParticles (s : MScene) (m : ℝ) (updateMass dynamicOnly : Bool) : Res MScene :=
  (foldR (growBody m updateMass dynamicOnly) s (List.range s.bodies.length)).bind fun s' =>
  (foldR (fun l I => (growIntr m dynamicOnly s' I).bind fun J => .ok (l ++ [J])) [] s'.intrs).bind fun l =>
  .ok { s' with intrs := l }

/-! ### Contact friction, Shop_02.cpp 799–817 -/

/-- the first loop, Shop_02.cpp 802–806 -/
def frictionStep (angle : ℝ) (fr : List ℝ) (x : Option MBody × Nat) : Res (List ℝ) :=
  match x.1 with
  | none => .ub
  | some b => if isClump x.2 b then .ok fr else if b.dynamic then .ok (fr.set b.mat angle) else .ok fr

/-- one contact, Shop_02.cpp 807–816 -/
noncomputable def contactFriction (s : MScene) (I : MIntr) : Res MIntr :=
  if I.real = false then .ok I else
  (body s I.id1).bind fun b1 =>
  (body s I.id2).bind fun b2 =>
  match s.friction[b1.mat]?, s.friction[b2.mat]? with
  | some fa, some fb => .ok { I with tanPhi := Real.tan (min fa fb) }
  | _, _ => .ub

/-- Shop_02.cpp 799–817 `setContactFriction(angleRad)` -/
noncomputable def setContactFriction (s : MScene) (angle : ℝ) : Res MScene :=
  (foldR (frictionStep angle) s.friction (numbered s)).bind fun fr =>
  let s' := { s with friction := fr }
  (foldR (fun l I => (contactFriction s' I).bind fun J => .ok (l ++ [J])) [] s'.intrs).bind fun l =>
  .ok { s' with intrs := l }

/-! ### Flipping the cell, Shop_01.cpp 52–88 -/

/-- integer matrix, `Matrix3i` -/
abbrev M3i := Matrix (Fin 3) (Fin 3) ℤ

/-- `m.cast<Real>()` -/
def toReal (m : M3i) : M3 := m.map fun z => (z : ℝ)

/-- the automatic flip, Shop_01.cpp 58–62 -/
noncomputable def autoFlip (h : M3) : M3i :=
  Matrix.of fun i j => if i = j then 0 else -⌊dot (Peri.col h j) (Peri.col h i) / dot (Peri.col h i) (Peri.col h i)⌋

/-- `cast<int>` of one number: towards zero -/
noncomputable def truncInt (x : ℝ) : ℤ := if 0 ≤ x then ⌊x⌋ else ⌈x⌉

/-- `invFlip`, Shop_01.cpp 74–77 -/
def invFlip (f : M3i) : M3i :=
  !![1 - f 2 1 * f 1 2, f 2 1 * f 0 2 - f 0 1, f 0 1 * f 1 2 - f 0 2;
     f 1 2 * f 2 0 - f 1 0, 1 - f 0 2 * f 2 0, f 0 2 * f 1 0 - f 1 2;
     f 1 0 * f 2 1 - f 2 0, f 2 0 * f 0 1 - f 2 1, 1 - f 1 0 * f 0 1]

/-- the flip that is applied, Shop_01.cpp 54–67; `none`: no flip necessary -/
noncomputable def chosenFlip (h : M3) (given : M3) : Option M3i :=
  haveI := Classical.dec
  if given = 0 then (if autoFlip h = 0 then none else some (autoFlip h)) else some (given.map truncInt)

/-- `i->cellDist = invFlip*i->cellDist`, Shop_01.cpp 78 -/
def flipIntr (f : M3i) (I : MIntr) : MIntr := { I with cellDist := invFlip f *ᵥ I.cellDist }

/-- Shop_01.cpp 52–88 `flipCell(flip)`: the flip returned and the scene; the colliders are told to start anew whenever the
interactions are changed (80–86).  When `postLoad` throws, the cell stays as it is then. -/
noncomputable def flipCell (s : MScene) (given : M3) : Res (M3 × MScene) :=
  match chosenFlip s.cell.hSize given with
  | none => .ok (0, s)
  | some f =>
    (Peri.postLoad { s.cell with hSize := s.cell.hSize + s.cell.hSize * toReal f }).bind fun c =>
    .ok (toReal f, { s with cell := c, intrs := s.intrs.map (flipIntr f) })

end Verif.Meas
