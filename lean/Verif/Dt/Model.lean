import Mathlib.Data.List.Range
import Mathlib.Analysis.SpecialFunctions.Trigonometric.Basic
import Verif.Base
import Verif.Mech.Vec

/-!
# Contact stiffness and time steps

Transcription of `pkg/common/MatchMaker.{hpp,cpp}`, `Ip2_FrictMat_FrictMat_FrictPhys` of `pkg/dem/FrictPhys.cpp`,
`pkg/dem/GlobalStiffnessTimeStepper.{hpp,cpp}`, `core/TimeStepper.hpp` and `Shop::PWaveTimeStep` of `pkg/dem/Shop_01.cpp`.

Numbers are real; where the code may compute "not a number" (or infinity), the model has an `Option`.  `Mathr::MAX_REAL` is a
finite constant.
-/
namespace Verif.Dt
open Verif.Mech
open scoped Classical

/-- `Mathr::MAX_REAL`, lib/base/Math.cpp 4: the largest double. -/
def maxReal : ℝ := 2 ^ 1024 - 2 ^ 970

/-! ## MatchMaker -/

/-- The values of `algo` that are recognised, MatchMaker.cpp 26-32. -/
inductive Algo
  | val | zero | avg | min | max | harmAvg

/-- The string of an algorithm, MatchMaker.cpp 26-32. -/
def Algo.ofString (s : String) : Option Algo :=
  if s = "val" then some .val else if s = "zero" then some .zero else if s = "avg" then some .avg
  else if s = "min" then some .min else if s = "max" then some .max else if s = "harmAvg" then some .harmAvg else none

/-- `MatchMaker`, MatchMaker.hpp 14-47: `fb` stands for `fbPtr` and `fbNeedsValues`, `matchSet` is the map. -/
structure Matcher where
  algo : String
  val : Option ℝ
  matches_ : List (Int × Int × ℝ)
  fb : Algo
  matchSet : List ((Int × Int) × ℝ)

/-- A new `MatchMaker` before `postLoad`, MatchMaker.hpp 39-43. -/
def Matcher.new (algo : String) (val : Option ℝ) (m : List (Int × Int × ℝ)) : Matcher := ⟨algo, val, m, .avg, []⟩

/-- `insert` of `boost::unordered_map`: a key that is there keeps its value; MatchMaker.cpp 39. -/
def insertMatch (s : List ((Int × Int) × ℝ)) (k : Int × Int) (v : ℝ) : List ((Int × Int) × ℝ) :=
  if s.any (fun e => e.1 = k) then s else s ++ [(k, v)]

/-- `MatchMaker::postLoad`, MatchMaker.cpp 25-41. -/
def Matcher.postLoad (m : Matcher) : Res Matcher :=
  match Algo.ofString m.algo with
  | none => .throws
  | some a => .ok { m with fb := a, matchSet := m.matches_.foldl (fun s e => insertMatch s (min e.1 e.2.1, max e.1 e.2.1) e.2.2) m.matchSet }

/-- The fallback functions, MatchMaker.hpp 15-20; `none` is NaN.  A harmonic average of opposite numbers is not finite. -/
noncomputable def fallback (fb : Algo) (val v1 v2 : Option ℝ) : Option ℝ :=
  match fb with
  | .zero => some 0
  | .val => val
  | .avg => v1.bind fun a => v2.map fun b => (a + b) / 2
  | .min => v1.bind fun a => v2.map fun b => min a b
  | .max => v1.bind fun a => v2.map fun b => max a b
  | .harmAvg => v1.bind fun a => v2.bind fun b => if a + b = 0 then none else some (2 * a * b / (a + b))

/-- `fbNeedsValues`, MatchMaker.cpp 26-31. -/
def needsValues : Algo → Bool
  | .val => false
  | .zero => false
  | _ => true

/-- `MatchMaker::operator()`, MatchMaker.cpp 7-23. -/
noncomputable def Matcher.call (m : Matcher) (id1 id2 : Int) (v1 v2 : Option ℝ) : Res (Option ℝ) :=
  match m.matchSet.find? (fun e => e.1 = (min id1 id2, max id1 id2)) with
  | some e => .ok (some e.2)
  | none => if needsValues m.fb ∧ (v1 = none ∨ v2 = none) then .throws else .ok (fallback m.fb m.val v1 v2)

/-! ## Contact stiffness -/

/-- What is used of `FrictMat`. -/
structure Mat where
  id : Int
  young : ℝ
  poisson : ℝ
  frictionAngle : ℝ

/-- What is set of `FrictPhys`. -/
structure Phys where
  kn : ℝ
  ks : ℝ
  tan : ℝ

/-- A quotient of the code: `none` if the denominator is zero. -/
noncomputable def quot (a b : ℝ) : Option ℝ := if b = 0 then none else some (a / b)

/-- `Ip2_FrictMat_FrictMat_FrictPhys::go`, FrictPhys.cpp 7-38, for a contact without physics: `none` if a stiffness is
not a number.  `Ip2_FrictMat_FrictMat_ViscoFrictPhys::go`, FrictPhys.cpp 40-69, computes the same. -/
noncomputable def frictPhys (fa : Option Matcher) (m1 m2 : Mat) (refR1 refR2 : ℝ) : Res (Option Phys) :=
  let Ra := if refR1 > 0 then refR1 else refR2
  let Rb := if refR2 > 0 then refR2 else refR1
  let Kn := quot (2 * m1.young * Ra * m2.young * Rb) (m1.young * Ra + m2.young * Rb)
  let Ks := quot (2 * m1.young * Ra * m1.poisson * m2.young * Rb * m2.poisson) (m1.young * Ra * m1.poisson + m2.young * Rb * m2.poisson)
  let angle : Res (Option ℝ) := match fa with
    | none => .ok (some (min m1.frictionAngle m2.frictionAngle))
    | some m => m.call m1.id m2.id (some m1.frictionAngle) (some m2.frictionAngle)
  angle.bind fun a => .ok (Kn.bind fun kn => Ks.bind fun ks => a.map fun a => ⟨kn, ks, Real.tan a⟩)

/-! ## P-wave time step -/

/-- What the time steppers use of a body. -/
structure Bd where
  dynamic : Bool
  clumpMember : Bool
  /-- the members, if the body is a clump -/
  members : Option (List Nat)
  mass : ℝ
  inertia : V3
  /-- whether there are a material and a shape -/
  matShape : Bool
  /-- the radius, if the shape is a sphere -/
  radius : Option ℝ
  /-- Young's modulus, if the material is elastic -/
  young : Option ℝ
  /-- `State::densityScaling` -/
  scaling : ℝ

/-- The time a wave takes along a radius, Shop_01.cpp 440-441; without stiffness it is infinite. -/
noncomputable def pwave (r E mass : ℝ) : Option ℝ :=
  let density := mass / (4 / 3 * Real.pi * r ^ 3)
  if E = 0 then none else some (r / Real.sqrt (E / density))

/-- The smaller of two times, `none` being infinite. -/
noncomputable def minOpt : Option ℝ → Option ℝ → Option ℝ
  | none, b => b
  | some a, none => some a
  | some a, some b => some (min a b)

/-- The body of the loop of `Shop::PWaveTimeStep`, Shop_01.cpp 435-442. -/
noncomputable def pwaveOf (dt : Option ℝ) : Option Bd → Option ℝ
  | none => dt
  | some b => if b.matShape then (match b.young, b.radius with
    | some E, some r => minOpt dt (pwave r E b.mass)
    | _, _ => dt) else dt

/-- `Shop::PWaveTimeStep`, Shop_01.cpp 432-448. -/
noncomputable def pwaveTimeStep (bodies : List (Option Bd)) : ℝ :=
  (bodies.foldl pwaveOf none).getD 1

/-! ## GlobalStiffnessTimeStepper -/

/-- A real interaction: its geometry and physics. -/
structure Contact where
  id1 : Nat
  id2 : Nat
  normal : V3
  refR1 : ℝ
  refR2 : ℝ
  kn : ℝ
  ks : ℝ
  normalForce : V3
  /-- `getRotStiffness`: of twisting and of rolling -/
  ktw : ℝ
  kr : ℝ
  /-- viscosities, if the physics is `ViscElPhys` -/
  visc : Option (ℝ × ℝ)

/-- `GlobalStiffnessTimeStepper`, GlobalStiffnessTimeStepper.hpp 22-56. -/
structure Eng where
  stiff : List V3
  Rstiff : List V3
  visc : List V3
  Rvisc : List V3
  defaultDt : ℝ
  maxDt : ℝ
  previousDt : ℝ
  safety : ℝ
  densityScaling : Bool
  targetDt : ℝ
  viscEl : Bool
  computedOnce : Bool

/-- The diagonal of the stiffness matrix of a contact, GlobalStiffnessTimeStepper.cpp 177-179; also of the viscosity
matrix, 205-207. -/
def diagStiffness (n : V3) (kn ks : ℝ) : V3 := fun a => n a ^ 2 * (kn - ks) + 1 * ks

/-- The diagonal of the rotational stiffness matrix, GlobalStiffnessTimeStepper.cpp 184-188; also 209-213. -/
def diagRstiffness (n : V3) (ks : ℝ) : V3 := fun a => (![n 1 ^ 2 + n 2 ^ 2, n 0 ^ 2 + n 2 ^ 2, n 0 ^ 2 + n 1 ^ 2] : V3) a * ks

/-- The diagonal of the stiffness matrix of moments, GlobalStiffnessTimeStepper.cpp 191-193. -/
def diagMstiffness (n : V3) (ktw kr : ℝ) : V3 := fun a => (ktw - kr) * n a ^ 2 + 1 * kr

/-- `v[i]+=x` on a vector: undefined behaviour behind the end. -/
def addAt (l : List V3) (i : Nat) (x : V3) : Res (List V3) := if i < l.length then .ok (l.modify i (· + x)) else .ub

/-- `memset` of the first `size` elements to zero, GlobalStiffnessTimeStepper.cpp 158-162: undefined behaviour behind the end. -/
def zeroFirst (l : List V3) (size : Nat) : Res (List V3) := if size ≤ l.length then .ok (List.replicate size 0 ++ l.drop size) else .ub

/-- `vector::resize` to a larger size; the new elements have any value, zero in the model. -/
def resize (l : List V3) (size : Nat) : List V3 := if l.length < size then l ++ List.replicate (size - l.length) 0 else l.take size

/-- `[i]` on a vector: undefined behaviour behind the end. -/
def readAt (l : List V3) (i : Nat) : Res V3 := match l[i]? with
  | some v => .ok v
  | none => .ub

/-- The contributions of one contact, GlobalStiffnessTimeStepper.cpp 165-221; the cast to `ViscElPhys` of other physics is undefined
behaviour. -/
noncomputable def addContact (e : Eng) (c : Contact) : Res Eng :=
  if sqNorm c.normalForce = 0 then .ok e
  else
    let d := diagStiffness c.normal c.kn c.ks
    let R := diagRstiffness c.normal c.ks
    let M := diagMstiffness c.normal c.ktw c.kr
    (addAt e.stiff c.id1 d).bind fun s =>
    (addAt e.Rstiff c.id1 (c.refR1 ^ 2 • R + M)).bind fun r =>
    (addAt s c.id2 d).bind fun s =>
    (addAt r c.id2 (c.refR2 ^ 2 • R + M)).bind fun r =>
    if e.viscEl then
      match c.visc with
      | none => .ub
      | some (cn, cs) =>
        let d := diagStiffness c.normal cn cs
        let R := diagRstiffness c.normal cs
        (addAt e.visc c.id1 d).bind fun v =>
        (addAt e.Rvisc c.id1 (c.refR1 ^ 2 • R)).bind fun rv =>
        (addAt v c.id2 d).bind fun v =>
        (addAt rv c.id2 (c.refR2 ^ 2 • R)).bind fun rv =>
        .ok { e with stiff := s, Rstiff := r, visc := v, Rvisc := rv }
    else .ok { e with stiff := s, Rstiff := r }

/-- A loop over contacts. -/
noncomputable def addContacts : List Contact → Eng → Res Eng
  | [], e => .ok e
  | c :: t, e => (addContact e c).bind fun e => addContacts t e

/-- `computeStiffnesses`, GlobalStiffnessTimeStepper.cpp 147-223, for a container of `n` slots and the real interactions. -/
noncomputable def computeStiffnesses (n : Nat) (contacts : List Contact) (e : Eng) : Res Eng :=
  let size := max e.stiff.length n
  let e := if e.stiff.length < n then
      { e with stiff := resize e.stiff n, Rstiff := resize e.Rstiff n, visc := if e.viscEl then resize e.visc n else e.visc, Rvisc := if e.viscEl then resize e.Rvisc n else e.Rvisc }
    else e
  (zeroFirst e.stiff size).bind fun s =>
  (zeroFirst e.Rstiff size).bind fun r =>
  if e.viscEl then
    (zeroFirst e.visc size).bind fun v =>
    (zeroFirst e.Rvisc size).bind fun rv =>
    addContacts contacts { e with stiff := s, Rstiff := r, visc := v, Rvisc := rv }
  else addContacts contacts { e with stiff := s, Rstiff := r }

/-- The sum over the members of a clump, GlobalStiffnessTimeStepper.cpp 30-41: a member that does not exist is dereferenced. -/
noncomputable def addMembers (bodies : List (Option Bd)) (id : Nat) : List Nat → Eng → Res Eng
  | [], e => .ok e
  | m :: t, e =>
    match bodies[m]? with
    | some (some _) =>
      (readAt e.stiff m).bind fun k => (addAt e.stiff id k).bind fun s =>
      (readAt e.Rstiff m).bind fun k => (addAt e.Rstiff id k).bind fun r =>
      if e.viscEl then
        (readAt e.visc m).bind fun k => (addAt e.visc id k).bind fun v =>
        (readAt e.Rvisc m).bind fun k => (addAt e.Rvisc id k).bind fun rv =>
        addMembers bodies id t { e with stiff := s, Rstiff := r, visc := v, Rvisc := rv }
      else addMembers bodies id t { e with stiff := s, Rstiff := r }
    | _ => .ub

/-- What a clump does, GlobalStiffnessTimeStepper.cpp 30-41; other bodies do nothing. -/
noncomputable def addOwn (bodies : List (Option Bd)) (id : Nat) (b : Bd) (e : Eng) : Res Eng :=
  match b.members with
  | some ms => addMembers bodies id ms e
  | none => .ok e

/-- A mass over a stiffness, or `MAX_REAL`; GlobalStiffnessTimeStepper.cpp 62-70 and 81-94. -/
noncomputable def period (m k : ℝ) : ℝ := if k ≠ 0 then m / k else maxReal

/-- The smallest of the translational and rotational periods, GlobalStiffnessTimeStepper.cpp 62-73 and 81-97. -/
noncomputable def minPeriod (mass : ℝ) (inertia k r : V3) : ℝ :=
  min (period mass (max (max (k 0) (k 1)) (k 2))) (min (min (period (inertia 0) (r 0)) (period (inertia 1) (r 1))) (period (inertia 2) (r 2)))

/-- Whether a period was computed, `computedSomething`, GlobalStiffnessTimeStepper.cpp 63-69 and 82-93. -/
def computes (k r : V3) : Prop := max (max (k 0) (k 1)) (k 2) ≠ 0 ∨ r 0 ≠ 0 ∨ r 1 ≠ 0 ∨ r 2 ≠ 0

/-- The elastic time step of a body, GlobalStiffnessTimeStepper.cpp 60-73. -/
noncomputable def elasticDt (safety mass : ℝ) (inertia k r : V3) : ℝ := 1.41044 * safety * Real.sqrt (minPeriod mass inertia k r)

/-- The viscous time step of a body, GlobalStiffnessTimeStepper.cpp 77-97. -/
noncomputable def viscousDt (safety mass : ℝ) (inertia k r : V3) : ℝ := 2 * safety * minPeriod mass inertia k r

/-- What the loop over bodies changes: the vectors of the engine, `newDt` and `computedSomething`. -/
structure Acc where
  eng : Eng
  newDt : ℝ
  computed : Prop

/-- The density scaling of a body without contacts, GlobalStiffnessTimeStepper.cpp 45-57: the time step and the new scaling.  If the
body is no elastic sphere a null pointer is dereferenced. -/
noncomputable def scaleFree (e : Eng) (b : Bd) : Res (ℝ × ℝ) :=
  let dt : Res ℝ := if b.matShape then (match b.young, b.radius with
      | some E, some r => .ok (r / Real.sqrt (E / (b.mass / (4 / 3 * Real.pi * r ^ 3))))
      | _, _ => .ub)
    else .ok e.defaultDt
  dt.bind fun dt =>
    .ok (dt, if b.scaling ≤ 0 then e.safety * (dt / e.targetDt) ^ 2 else min (1.01 * b.scaling) (e.safety * (dt / e.targetDt) ^ 2))

/-- `findTimeStepFromBody`, GlobalStiffnessTimeStepper.cpp 25-111: the body as it is left.  `dt` has no value for bodies without
contacts and without density scaling; reading it is undefined behaviour. -/
noncomputable def findFromBody (bodies : List (Option Bd)) (id : Nat) (b : Bd) (a : Acc) : Res (Bd × Acc) :=
  (readAt a.eng.stiff id).bind fun _ => (readAt a.eng.Rstiff id).bind fun _ =>
  (addOwn bodies id b a.eng).bind fun e =>
  (readAt e.stiff id).bind fun k => (readAt e.Rstiff id).bind fun r =>
  let finish (b : Bd) (dt : ℝ) (computed : Prop) : Res (Bd × Acc) :=
    if e.densityScaling then
      .ok ({ b with scaling := if b.scaling > 0 then min (b.scaling * 1.05) ((dt / e.targetDt) ^ 2) else (dt / e.targetDt) ^ 2 }, ⟨e, e.targetDt, computed⟩)
    else .ok (b, ⟨e, min dt a.newDt, computed⟩)
  let viscous (b : Bd) (dt : Option ℝ) (computed : Prop) : Res (Bd × Acc) :=
    if e.viscEl then
      (readAt e.visc id).bind fun v => (readAt e.Rvisc id).bind fun rv =>
      match dt with
      | none => .ub
      | some dt => finish b (min dt (viscousDt e.safety b.mass b.inertia v rv)) (computed ∨ computes v rv)
    else match dt with
      | none => .ub
      | some dt => finish b dt computed
  if k = 0 then
    if e.densityScaling then
      (scaleFree e b).bind fun (dt, sc) =>
        if e.viscEl then viscous { b with scaling := sc } (some dt) a.computed else .ok ({ b with scaling := sc }, ⟨e, a.newDt, a.computed⟩)
    else if e.viscEl then viscous b none a.computed else .ok (b, ⟨e, a.newDt, a.computed⟩)
  else viscous b (some (elasticDt e.safety b.mass b.inertia k r)) (a.computed ∨ computes k r)

/-- The loop over the bodies, GlobalStiffnessTimeStepper.cpp 126-135: from slot `id`, the slots that are left. -/
noncomputable def bodyLoop (bodies : List (Option Bd)) : Nat → List (Option Bd) → Acc → Res (List (Option Bd) × Acc)
  | _, [], a => .ok ([], a)
  | id, none :: t, a => (bodyLoop bodies (id + 1) t a).bind fun (l, a) => .ok (none :: l, a)
  | id, some b :: t, a =>
    if b.dynamic ∧ ¬ b.clumpMember then
      (findFromBody bodies id b a).bind fun (b, a) => (bodyLoop bodies (id + 1) t a).bind fun (l, a) => .ok (some b :: l, a)
    else (bodyLoop bodies (id + 1) t a).bind fun (l, a) => .ok (some b :: l, a)

/-- `computeTimeStep`, GlobalStiffnessTimeStepper.cpp 118-145: the bodies, the engine and the time step of the scene. -/
noncomputable def computeTimeStep (bodies : List (Option Bd)) (contacts : List Contact) (dt : ℝ) (e : Eng) : Res (List (Option Bd) × Eng × ℝ) :=
  let e := if e.defaultDt < 0 then { e with defaultDt := e.safety * pwaveTimeStep bodies } else e
  (computeStiffnesses bodies.length contacts e).bind fun e =>
  (bodyLoop bodies 0 bodies ⟨e, maxReal, False⟩).bind fun (l, a) =>
  let newDt := if a.eng.densityScaling then a.eng.targetDt else a.newDt
  if a.computed ∨ a.eng.densityScaling then
    let p := min (min newDt a.eng.maxDt) (1.05 * a.eng.previousDt)
    .ok (l, { a.eng with previousDt := p, computedOnce := true }, p)
  else .ok (l, a.eng, if a.eng.computedOnce then dt else a.eng.defaultDt)

/-- `isActivated`, GlobalStiffnessTimeStepper.cpp 113-116: the remainder by zero is undefined behaviour. -/
def isActivated (active computedOnce : Bool) (iter : Int) (interval : Nat) : Res Bool :=
  if ¬ active then .ok false
  else if ¬ computedOnce then .ok true
  else if interval = 0 then .ub
  else .ok (iter % interval = 0 ∨ iter < 2)

end Verif.Dt
