import Verif.Base
import Verif.Mech.Vec
import Mathlib.Analysis.SpecialFunctions.Log.Basic
import Mathlib.Analysis.Real.Pi.Bounds

/-!
# Model of the controllers of cells and boxes

Transcribes `PeriIsoCompressor::action` and `PeriTriaxController::action` (pkg/dem/PeriIsoCompressor.cpp) and
`TriaxialStressController` (pkg/dem/TriaxialStressController.cpp, without fluid).

Simplifications: real numbers; the cell is rectangular and only the diagonal of its velocity gradient is used; what the engines
measure (forces, stiffness, unbalanced force, stress) is given from outside and arbitrary; a NaN is `none`.
`throw;` without an exception being handled ends the process (`std::terminate`): this is the outcome `ub`, as are the use of
a missing body, `% 0`, and failed assertions.
-/
namespace Verif.Ctl

open Verif.Mech

/-- `Mathr::Sign`, lib/base/Math.hpp 160. -/
noncomputable def sgn (x : ℝ) : ℝ := if x < 0 then -1 else if x > 0 then 1 else 0

/-- `x < y` for a first number that may be NaN. -/
def ltNum (x : Option ℝ) (y : ℝ) : Prop := ∃ a, x = some a ∧ a < y

/-- `Cell::integrateAndUpdate`, core/Cell.cpp 6-22, the lengths of the base vectors of a rectangular cell. -/
noncomputable def grown (size rate : V3) (dt : ℝ) : V3 := fun i => |size i + dt * rate i * size i|

/-! ## PeriIsoCompressor -/

/-- Attributes of `PeriIsoCompressor`, PeriIsoCompressor.hpp 7-27. -/
structure Iso where
  stresses : List ℝ
  charLen : ℝ
  maxSpan : ℝ
  maxUnbalanced : ℝ
  updateInt : ℤ
  state : ℕ
  keep : Bool
  avgStiff : ℝ
  maxDispl : ℝ
  sigma : V3
  unb : Option ℝ

/-- What the engine sees of the scene: `body0` is the size of the bounding box of body 0 (`none`: no such body, `some none`: no
box), `spans` the sizes of all boxes, `force` and `stiff` what `Shop::totalForceInVolume` gives. -/
structure IsoIn where
  periodic : Bool
  iter : ℤ
  dt : ℝ
  size : V3
  body0 : Option (Option V3)
  spans : List V3
  force : V3
  stiff : ℝ
  unbalanced : Option ℝ

/-- A new engine, PeriIsoCompressor.hpp 13-26. -/
def Iso.new (stresses : List ℝ) (keep : Bool) : Iso :=
  { stresses := stresses, charLen := -1, maxSpan := -1, maxUnbalanced := 1e-4, updateInt := 20, state := 0, keep := keep,
    avgStiff := -1, maxDispl := -1, sigma := 0, unb := some (-1) }

/-- The greatest span, PeriIsoCompressor.cpp 25-30. -/
noncomputable def spanMax (m : ℝ) (l : List V3) : ℝ :=
  l.foldl (fun m b => max (max (max m (b 0)) (b 1)) (b 2)) m

/-- Initial values, PeriIsoCompressor.cpp 18-31. -/
noncomputable def Iso.start (e : Iso) (i : IsoIn) : Res Iso :=
  let charLen : Res ℝ :=
    if e.charLen ≤ 0 then
      match i.body0 with
      | some (some sz) => .ok ((sz 0 + sz 1 + sz 2) / 3)
      | _ => .ub
    else .ok e.charLen
  match charLen with
  | .ub => .ub
  | .throws => .throws
  | .ok c =>
    let m := if e.maxSpan ≤ 0 then spanMax e.maxSpan i.spans else e.maxSpan
    .ok { e with charLen := c, maxSpan := m, maxDispl := if e.maxDispl < 0 then 1e-2 * c else e.maxDispl }

/-- `cellArea`, PeriIsoCompressor.cpp 34 and 142. -/
def area (s : V3) : V3 := ![s 1 * s 2, s 0 * s 2, s 0 * s 1]

/-- `minSize`, PeriIsoCompressor.cpp 35. -/
noncomputable def minSize (s : V3) : ℝ := min (s 0) (min (s 1) (s 2))

/-- `maxSize`, PeriIsoCompressor.cpp 35. -/
noncomputable def maxSize (s : V3) : ℝ := max (s 0) (max (s 1) (s 2))

/-- Is the stress measured in this step, PeriIsoCompressor.cpp 37. -/
def Iso.measures (e : Iso) (i : IsoIn) : Prop :=
  i.iter % e.updateInt = 0 ∨ e.avgStiff < 0 ∨ e.sigma 0 < 0 ∨ e.sigma 1 < 0 ∨ e.sigma 2 < 0

open Classical in
/-- Measuring the stress, PeriIsoCompressor.cpp 37-41. -/
noncomputable def Iso.measure (e : Iso) (i : IsoIn) : Iso :=
  if e.measures i then { e with avgStiff := i.stiff, sigma := fun a => -(i.force a / area i.size a) } else e

/-- The limit on a length or rate, PeriIsoCompressor.cpp 66 and 185. -/
noncomputable def clip (x m : ℝ) : ℝ := if |x| > m then sgn x * m else x

/-- The growth of the mean size, PeriIsoCompressor.cpp 48-53; `throws` is line 53. -/
noncomputable def Iso.avgGrow (e : Iso) (s : V3) (goal : ℝ) : Res ℝ :=
  let sigAvg := (e.sigma 0 + e.sigma 1 + e.sigma 2) / 3
  let avgArea := (area s 0 + area s 1 + area s 2) / 3
  let avgSize := (s 0 + s 1 + s 2) / 3
  let g := 1e-4 * (goal - sigAvg) * avgArea / (if e.avgStiff > 0 then e.avgStiff else 1)
  let r := maxSize s / avgSize
  let g := if |r * g| > e.maxDispl then sgn g * e.maxDispl / r else g
  if g < -(minSize s - 2.1 * e.maxSpan) / r then .throws else .ok g

/-- Growth of the cell, predicted stress and whether all stresses are as wanted, PeriIsoCompressor.cpp 47-72. -/
noncomputable def Iso.grow (e : Iso) (s : V3) (goal : ℝ) : Res (V3 × V3 × Bool) :=
  if e.keep then
    match e.avgGrow s goal with
    | .ok g =>
      let sigAvg := (e.sigma 0 + e.sigma 1 + e.sigma 2) / 3
      let avgSize := (s 0 + s 1 + s 2) / 3
      let sig := if e.avgStiff > 0 then fun a => e.sigma a + g * e.avgStiff else e.sigma
      let sigAvg := if e.avgStiff > 0 then sigAvg + g * e.avgStiff else sigAvg
      .ok ((g / avgSize) • s, sig, decide (¬ |(sigAvg - goal) / goal| > 5e-3))
    | .throws => .throws
    | .ub => .ub
  else
    let g : V3 := fun a =>
      max (clip (1e-4 * (goal - e.sigma a) * area s a / (if e.avgStiff > 0 then e.avgStiff else 1)) e.maxDispl)
        (-(s a - 2.1 * e.maxSpan))
    let sig : V3 := fun a => if e.avgStiff > 0 then e.sigma a + g a * e.avgStiff else e.sigma a
    .ok (g, sig, decide (∀ a, ¬ |(sig a - goal) / goal| > 5e-3))

/-- What a call gives: the engine, the new diagonal of the velocity gradient (`none`: left as it is), and whether the hook ran. -/
structure IsoOut where
  eng : Iso
  grad : Option V3
  hook : Bool

/-- Measuring the unbalanced force, PeriIsoCompressor.cpp 79. -/
def Iso.balance (e : Iso) (i : IsoIn) : Iso :=
  if i.iter % e.updateInt = 0 then { e with unb := i.unbalanced } else e

open Classical in
/-- State transitions, PeriIsoCompressor.cpp 77-90. -/
noncomputable def Iso.advance (e : Iso) (i : IsoIn) (ok : Bool) : Iso :=
  if ok then
    if ltNum (e.balance i).unb e.maxUnbalanced then { e.balance i with state := e.state + 1 } else e.balance i
  else e

/-- `PeriIsoCompressor::action`, PeriIsoCompressor.cpp 14-91; the assertions are lines 42 and 74. -/
noncomputable def Iso.action (e : Iso) (i : IsoIn) : Res IsoOut :=
  if i.periodic = false then .ub
  else if e.stresses.length ≤ e.state then .ok ⟨e, none, false⟩
  else
    match e.start i with
    | .ub => .ub
    | .throws => .throws
    | .ok e =>
      if minSize i.size < 2.1 * e.maxSpan then .throws
      else if e.updateInt = 0 ∨ 0 ≤ e.stresses.getD e.state 0 ∨ i.dt ≤ 0 then .ub
      else
        let e := e.measure i
        match e.grow i.size (e.stresses.getD e.state 0) with
        | .ub => .ub
        | .throws => .throws
        | .ok (g, sig, ok) =>
          let e := { e with sigma := sig }
          let e' := e.advance i ok
          .ok ⟨e', some fun a => g a / (i.dt * i.size a), decide (e'.state ≠ e.state ∧ e'.state = e.stresses.length)⟩

/-! ## PeriTriaxController -/

/-- Attributes of `PeriTriaxController`, PeriIsoCompressor.hpp 50-68; `mask a` is the bit of `stressMask`. -/
structure Tri where
  dyn : Bool
  goal : V3
  mask : Fin 3 → Bool
  maxRate : V3
  maxUnbalanced : ℝ
  absTol : ℝ
  relTol : ℝ
  damp : ℝ
  globUpdate : ℤ
  span : V3
  stress : V3
  strain : V3
  stiff : V3
  unb : Option ℝ
  prevGrow : V3
  mass : Option ℝ

/-- What the engine sees of the scene: `trsf` and `velGrad` are diagonals, `mStress` and `mStiff` what `strainStressStiffUpdate` finds
in the contacts. -/
structure TriIn where
  periodic : Bool
  iter : ℤ
  dt : ℝ
  size : V3
  trsf : V3
  velGrad : V3
  bounds : List V3
  totalMass : ℝ
  mStress : V3
  mStiff : V3
  unbalanced : Option ℝ

/-- The greatest spans, PeriIsoCompressor.cpp 144-148. -/
noncomputable def Tri.spanOf (size : V3) (s : V3) (l : List V3) : V3 :=
  if s 0 ≤ 0 then l.foldl (fun m b => fun a => if b a < size a then max (m a) (b a) else m a) s else s

/-- Is the state measured in this step, PeriIsoCompressor.cpp 153-154. -/
def Tri.measures (e : Tri) (i : TriIn) : Prop :=
  i.iter % e.globUpdate = 0 ∨ min (e.stiff 0) (min (e.stiff 1) (e.stiff 2)) ≤ 0 ∨ e.dyn = true

open Classical in
/-- `strainStressStiffUpdate`, PeriIsoCompressor.cpp 93-130 and 153-154. -/
noncomputable def Tri.measure (e : Tri) (i : TriIn) : Tri :=
  if e.measures i then { e with strain := fun a => Real.log (i.trsf a), stress := i.mStress, stiff := i.mStiff } else e

/-- The rate wanted along an axis, PeriIsoCompressor.cpp 165-181. -/
noncomputable def Tri.wanted (e : Tri) (i : TriIn) (mass : ℝ) (a : Fin 3) : ℝ :=
  if e.mask a then
    if e.dyn then
      i.velGrad a + (1 - e.damp * sgn (i.velGrad a * (e.goal a - e.stress a))) * i.dt * (e.goal a - e.stress a) / mass
    else 1 / i.dt * (e.goal a - e.stress a) * area i.size a / (if e.stiff a > 0 then e.stiff a else 1)
  else (Real.exp (e.goal a - e.strain a) - 1) / i.dt

/-- The rate prescribed, PeriIsoCompressor.cpp 182-187. -/
noncomputable def Tri.rate (e : Tri) (i : TriIn) (mass : ℝ) (a : Fin 3) : ℝ :=
  let r := if e.dyn then e.wanted i mass a else (1 - e.damp) * e.wanted i mass a + 0.8 * e.prevGrow a
  max (clip r (e.maxRate a)) (-(i.size a - 2.1 * e.span a) / i.dt)

/-- Is the goal of an axis not met, PeriIsoCompressor.cpp 193-203; `strain` is already the predicted one. -/
def Tri.missed (e : Tri) (strain : V3) (a : Fin 3) : Prop :=
  if e.mask a then
    (e.goal a ≠ 0 ∧ |(e.stress a - e.goal a) / e.goal a| > e.relTol) ∨ |e.stress a - e.goal a| > e.absTol
  else (e.goal a ≠ 0 ∧ |(strain a - e.goal a) / e.goal a| > 1e-6) ∨ |strain a - e.goal a| > 1e-6

/-- What a call gives: the engine, the new diagonal of the velocity gradient, and whether the goal was declared reached (the
hook runs). -/
structure TriOut where
  eng : Tri
  grad : V3
  hook : Bool

open Classical in
/-- The cell mass, PeriIsoCompressor.cpp 156-159. -/
noncomputable def Tri.weigh (e : Tri) (i : TriIn) : Tri :=
  if e.dyn = true ∧ e.mass = none then { e with mass := some i.totalMass } else e

/-- The strain of goal comparisons, PeriIsoCompressor.cpp 192. -/
noncomputable def Tri.strainNext (e : Tri) (i : TriIn) : V3 := fun a => e.strain a + e.rate i (e.mass.getD 0) a * i.dt

open Classical in
/-- All goals met, PeriIsoCompressor.cpp 160 and 193-203. -/
noncomputable def Tri.allOk (e : Tri) (i : TriIn) : Bool := decide (∀ a, ¬ e.missed (e.strainNext i) a)

/-- The stress predicted for the next step, PeriIsoCompressor.cpp 206-212. -/
noncomputable def Tri.stressNext (e : Tri) (i : TriIn) : V3 := fun a =>
  if e.dyn then e.stress a
  else if e.stiff a > 0 then
    e.stress a + (e.rate i (e.mass.getD 0) a * i.dt / i.size a) * (e.stiff a / area i.size a)
  else e.stress a

open Classical in
/-- The unbalanced force, PeriIsoCompressor.cpp 220-223. -/
noncomputable def Tri.unbNext (e : Tri) (i : TriIn) : Option ℝ :=
  if e.allOk i = true ∧ (i.iter % e.globUpdate = 0 ∨ ltNum e.unb 0) then i.unbalanced else e.unb

open Classical in
/-- The loop over the axes and what follows, PeriIsoCompressor.cpp 160-231, without the work. -/
noncomputable def Tri.finish (e : Tri) (i : TriIn) : TriOut :=
  let r : V3 := fun a => e.rate i (e.mass.getD 0) a
  ⟨{ e with strain := e.strainNext i, stress := e.stressNext i, unb := e.unbNext i, prevGrow := r }, r,
    decide (e.allOk i = true ∧ ltNum (e.unbNext i) e.maxUnbalanced)⟩

/-- The engine after the spans were found, the state measured and the cell weighed, PeriIsoCompressor.cpp 144-159. -/
noncomputable def Tri.ready (e : Tri) (i : TriIn) : Tri :=
  (({ e with span := Tri.spanOf i.size e.span i.bounds } : Tri).measure i).weigh i

open Classical in
/-- `PeriTriaxController::action`, PeriIsoCompressor.cpp 137-232, without the work; the assertions are lines 162 and 172. -/
noncomputable def Tri.action (e : Tri) (i : TriIn) : Res TriOut :=
  if i.periodic = false then .throws
  else if ∃ a, 2.1 * Tri.spanOf i.size e.span i.bounds a > i.size a then .throws
  else if e.globUpdate = 0 ∨ i.dt ≤ 0 then .ub
  else if e.dyn = true ∧ (∃ a, e.mask a = true) ∧ (e.ready i).mass.getD 0 ≤ 0 then .ub
  else .ok ((e.ready i).finish i)

/-! ## TriaxialStressController -/

/-- The two walls of an axis: 0, 2, 4 have the lower coordinate, 1, 3, 5 the greater one (TriaxialStressController.hpp 31);
`normal` points inwards, lines 129-134. -/
def normal (a : Fin 3) (upper : Bool) : V3 := fun b => if b = a then (if upper then -1 else 1) else 0

/-- A wall: position, velocity, `previousTranslation`, force on it, `stiffness`, `wall_..._activated`. -/
structure Wall where
  pos : V3
  vel : V3
  prev : V3
  force : V3
  stiff : ℝ
  active : Bool

/-- Attributes of `TriaxialStressController`, TriaxialStressController.hpp 81-119. -/
structure Tsc where
  stressDamping : ℝ
  strainDamping : ℝ
  thickness : ℝ
  goal : V3
  mask : Fin 3 → Bool
  maxVel : ℝ

/-- `width`, `height`, `depth`, TriaxialStressController.cpp 122-124. -/
def Tsc.size (t : Tsc) (w : Fin 3 → Bool → Wall) : V3 := fun a => (w a true).pos a - (w a false).pos a - t.thickness

/-- `max_vel1`, `max_vel2`, `max_vel3`, TriaxialStressController.cpp 147-149. -/
noncomputable def Tsc.maxVelOf (t : Tsc) (s : V3) (a : Fin 3) : ℝ := 3 * s a / (s 1 + s 0 + s 2) * t.maxVel

open Classical in
/-- `controlExternalStress`, TriaxialStressController.cpp 78-101: the new `previousTranslation`. -/
noncomputable def Tsc.control (t : Tsc) (dt maxV : ℝ) (n R : V3) (w : Wall) : V3 :=
  let x := dot n (w.force - R)
  let x := if x ≠ 0 then
      (if w.stiff ≠ 0 then min |x / w.stiff| (maxV * dt) * sgn (x / w.stiff) else maxV * sgn x * dt)
    else x
  ((1 - t.stressDamping) * x) • n + (0.8 : ℝ) • w.prev

/-- One wall in `action` with external compaction, TriaxialStressController.cpp 168-210. -/
noncomputable def Tsc.wall (t : Tsc) (dt : ℝ) (s : V3) (a : Fin 3) (upper : Bool) (w : Wall) : Wall :=
  if w.active then
    if t.mask a then
      let R : V3 := fun b => if b = a then (if upper then -1 else 1) * (t.goal a * area s a) else 0
      let p := t.control dt (t.maxVelOf s a) (normal a upper) R w
      { w with prev := p, vel := (1 / dt) • p }
    else
      let v := w.vel a + (-(normal a upper a) * 0.5 * t.goal a * s a - w.vel a) * (1 - t.strainDamping)
      { w with vel := fun b => if b = a then v else w.vel b }
  else { w with vel := 0 }

/-- `action` with external compaction: all six walls, TriaxialStressController.cpp 168-210. -/
noncomputable def Tsc.step (t : Tsc) (dt : ℝ) (w : Fin 3 → Bool → Wall) : Fin 3 → Bool → Wall :=
  fun a u => t.wall dt (t.size w) a u (w a u)

/-- `getStrainRate`, TriaxialStressController.cpp 32-38. -/
noncomputable def Tsc.strainRate (t : Tsc) (w : Fin 3 → Bool → Wall) : V3 :=
  fun a => ((w a true).vel a - (w a false).vel a) / t.size w a

/-- `stress`, TriaxialStressController.cpp 257-266. -/
noncomputable def stressOf (s : V3) (a : Fin 3) (upper : Bool) (w : Wall) : V3 :=
  if upper then (1 / area s a) • -w.force else (1 / area s a) • w.force

/-- `meanStress`, TriaxialStressController.cpp 268-269. -/
noncomputable def meanStress (s : V3) (w : Fin 3 → Bool → Wall) : ℝ :=
  let one (a : Fin 3) (u : Bool) : ℝ := dot (stressOf s a u (w a u)) ((if u then (-1 : ℝ) else 1) • normal a u)
  (one 0 false + one 0 true + one 1 false + one 1 true + one 2 false + one 2 true) / 6

/-- `strain`, TriaxialStressController.cpp 249-254. -/
noncomputable def strainOf (s s0 : V3) : V3 := fun a => Real.log (s a / (if s0 a = 0 then s a else s0 a))

/-- `volumetricStrain`, TriaxialStressController.cpp 255. -/
noncomputable def volStrain (s s0 : V3) : ℝ := strainOf s s0 0 + strainOf s s0 1 + strainOf s s0 2

/-- `getStress`, TriaxialStressController.cpp 30: the assertion is not there in ordinary builds, and other numbers read beyond the
array. -/
def getStress (stress : List V3) (id : ℤ) : Res V3 :=
  if 0 ≤ id ∧ id < 6 then
    match stress[id.toNat]? with
    | some x => .ok x
    | none => .ub
  else .ub

/-- The volume of single spheres, TriaxialStressController.cpp 139-142. -/
noncomputable def spheresVolume : List ℝ → ℝ
  | [] => 0
  | r :: l => 1.3333333 * Real.pi * r ^ 3 + spheresVolume l

/-- The mean goal of internal compaction, TriaxialStressController.cpp 215-216; 0/0 is NaN. -/
noncomputable def isoGoal (mask : Fin 3 → Bool) (goal : V3) : Option ℝ :=
  let k (a : Fin 3) : ℝ := if mask a then 1 else 0
  if mask 0 = false ∧ mask 1 = false ∧ mask 2 = false then none
  else some ((k 0 * goal 0 + k 1 * goal 1 + k 2 * goal 2) / (k 0 + k 1 + k 2))

open Classical in
/-- The factor of growth in internal compaction, TriaxialStressController.cpp 217-226; the first part is the new
`maxMultiplier`, and a factor that is not a number (NaN, or infinite after a division by zero) is `none`. -/
noncomputable def multiplier (maxM finalM : ℝ) (goal : Option ℝ) (mean : ℝ) : ℝ × Option ℝ :=
  match goal with
  | none => (maxM, if mean = 0 then some maxM else none)
  | some g =>
    let m := if |g| ≤ |mean| then finalM else maxM
    (m, if mean = 0 then some m
      else if g < 0 then some (1 + (g - mean) / g * (m - 1))
      else if g = 0 then none
      else some (1 + (mean - g) / g * (m - 1)))

/-- The table of wall numbers used for forces and stiffness, TriaxialStressController.cpp 107-113 and 144: set in the first step
only; positions and velocities are always those of the attributes (lines 116-121). -/
def syncIds (first : Bool) (table ids : Fin 6 → ℤ) : Fin 6 → ℤ := if first then ids else table

end Verif.Ctl
