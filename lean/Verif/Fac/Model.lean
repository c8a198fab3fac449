import Mathlib.Analysis.SpecialFunctions.Trigonometric.Basic
import Verif.Base
import Verif.Mech.Vec
import Verif.Bodies.Model

/-!
# Factories of spheres, the domain limiter and probing of the collider

Transcription of `pkg/dem/SpheresFactory.{hpp,cpp}`, of `DomainLimiter` of `pkg/dem/DomainLimiter.{hpp,cpp}` and of
`InsertionSortCollider::probeBoundingVolume` of `pkg/common/InsertionSortCollider.cpp`.

Numbers are real.  `randomUnit()` is a sequence `u` of numbers, `g` the number of calls so far.  Colours, masks, the string of blocked
degrees of freedom and messages are not modelled.
-/
namespace Verif.Fac
open Verif.Mech
open scoped Classical

/-! ## Probing -/

/-- `Bounds`, InsertionSortCollider.hpp 117-140, on the x axis. -/
structure Bnd where
  coord : ℝ
  id : Nat
  isMin : Bool
  hasBB : Bool

/-- What probing uses of a body with a bound: `state->pos`, `bound->refPos`, `bound->sweepLength`. -/
structure Bod where
  pos : V3
  refPos : V3
  sweep : ℝ

/-- What probing uses of the collider: `bodies` is `none` for missing bodies and bodies without bound. -/
structure Coll where
  periodic : Bool
  bb0 : List Bnd
  minima : List ℝ
  maxima : List ℝ
  bodies : Nat → Option Bod

/-- `v[i]` on a vector: undefined behaviour behind the end. -/
def readR (l : List ℝ) (i : Nat) : Res ℝ := match l[i]? with
  | some v => .ok v
  | none => .ub

/-- Three values from index `3*id` on, InsertionSortCollider.cpp 156-166; the code reads only those it needs. -/
def read3 (l : List ℝ) (id : Nat) : Res V3 :=
  (readR l (3 * id)).bind fun a => (readR l (3 * id + 1)).bind fun b => (readR l (3 * id + 2)).bind fun c => .ok ![a, b, c]

/-- The condition of InsertionSortCollider.cpp 161-166, without its outer negation. -/
def apart (lo hi : V3) (sweep : ℝ) (disp mn mx : V3) : Prop :=
  hi 0 - sweep + disp 0 < mn 0 ∨ lo 0 + sweep + disp 0 > mx 0 ∨ lo 1 + sweep + disp 1 > mx 1 ∨ hi 1 - sweep + disp 1 < mn 1 ∨
    lo 2 + sweep + disp 2 > mx 2 ∨ hi 2 - sweep + disp 2 < mn 2

/-- The loop of `probeBoundingVolume`, InsertionSortCollider.cpp 151-170. -/
noncomputable def probeFrom (C : Coll) (mn mx : V3) : List Bnd → Res (List Nat)
  | [] => .ok []
  | b :: t =>
    if b.coord > mx 0 then .ok []
    else if ¬ b.isMin ∨ ¬ b.hasBB then probeFrom C mn mx t
    else match C.bodies b.id with
      | none => probeFrom C mn mx t
      | some B =>
        (read3 C.minima b.id).bind fun lo => (read3 C.maxima b.id).bind fun hi =>
        if ¬ apart lo hi B.sweep (B.pos - B.refPos) mn mx then (probeFrom C mn mx t).bind fun l => .ok (b.id :: l)
        else probeFrom C mn mx t

/-- `InsertionSortCollider::probeBoundingVolume`, InsertionSortCollider.cpp 148-172. -/
noncomputable def probe (C : Coll) (mn mx : V3) : Res (List Nat) := if C.periodic then .throws else probeFrom C mn mx C.bb0

/-! ## Factories -/

/-- The region of a `CircularFactory` or `BoxFactory`, SpheresFactory.hpp 55-80; `q` is the rotation `setFromTwoVectors(UnitZ,normal)` of
Eigen, which is not modelled. -/
inductive Region
  | circle (radius length : ℝ) (center : V3) (q : Quat)
  | box (extents center : V3) (q : Quat)

/-- `pickRandomPosition`, SpheresFactory.cpp 209-221. -/
noncomputable def pick (reg : Region) (normal : V3) (u : Nat → ℝ) (g : Nat) (r : ℝ) : V3 :=
  match reg with
  | .circle radius length center q =>
    let angle := u g * 2 * Real.pi
    let rr := u (g + 1) * (radius - r)
    let l := (u (g + 2) - 0.5) * length
    center + q.rot ![Real.cos angle * rr, Real.sin angle * rr, 0] + l • normal
  | .box extents center q =>
    center + q.rot ![(u g - 0.5) * 2 * extents 0, (u (g + 1) - 0.5) * 2 * extents 1, (u (g + 2) - 0.5) * 2 * extents 2]

/-- A sphere made by a factory, SpheresFactory.cpp 163-186. -/
structure Sph where
  id : Nat
  pos : V3
  vel : V3
  r : ℝ
  mass : ℝ
  inertia : V3

/-- The attributes of `SpheresFactory`, SpheresFactory.hpp 10-52; `normalVel` is `none` if it is not a number (the default). -/
structure Fac where
  massFlowRate : ℝ
  rMin : ℝ
  rMax : ℝ
  vMin : ℝ
  vMax : ℝ
  normal : V3
  normalVel : Option V3
  materialId : Int
  ids : List Nat
  totalMass : ℝ
  totalVolume : ℝ
  goalMass : ℝ
  maxParticles : Int
  maxMass : ℝ
  numParticles : Int
  maxAttempt : Int
  stopIfFailed : Bool
  exactDiam : Bool
  calcMass : Bool
  sizes : List ℝ
  cum : List ℝ
  curMean : List ℝ
  curProc : List ℝ
  need : List ℝ
  use : Bool

/-- The checks of `PSDcum` and `PSDsizes`, SpheresFactory.cpp 44-57. -/
def ascending : List ℝ → Prop
  | a :: b :: t => ¬ (b < a ∨ a ≤ 0) ∧ ascending (b :: t)
  | _ => True

/-- The normalisation of `PSDcum`, SpheresFactory.cpp 60-66, with the value read behind the end: the first element is left as it is. -/
noncomputable def normalise (x : ℝ) (cum : List ℝ) : List ℝ :=
  if x ≠ 1 then
    let k := 1 / cum.getLastD 0
    cum.take 1 ++ (cum.drop 1).map (· * k)
  else cum

/-- Differences, SpheresFactory.cpp 72-76, the last value being `p`. -/
def diffs (p : ℝ) : List ℝ → List ℝ
  | [] => []
  | a :: t => (a - p) :: diffs a t

/-- Preparation of a size distribution, SpheresFactory.cpp 32-81.  `past` is what reading behind the end of `PSDcum` gives in line 60.
The unsigned `PSDsizes.size()-1` differs from `PSDcum.size()` also if there are no sizes. -/
noncomputable def prepare (past : Res ℝ) (f : Fac) : Res Fac :=
  if f.cum.length > 0 ∧ ¬ f.use then
    if f.cum.length ≠ f.sizes.length ∧ f.exactDiam then .throws
    else if f.cum.length + 1 ≠ f.sizes.length ∧ ¬ f.exactDiam then .throws
    else if ¬ ascending f.cum then .throws
    else if ¬ ascending f.sizes then .throws
    else past.bind fun x =>
      let cum := normalise x f.cum
      .ok { f with cum := cum, use := true, need := f.need ++ diffs 0 cum, curMean := f.curMean ++ cum.map fun _ => 0, curProc := f.curProc ++ cum.map fun _ => 0 }
  else .ok f

/-- The bin most in need, SpheresFactory.cpp 110-115: `k` the number of the next bin, `best` the largest difference and its bin. -/
noncomputable def pickBin : Nat → ℝ × Nat → List (ℝ × ℝ) → Nat
  | _, best, [] => best.2
  | k, best, (n, c) :: t => if best.1 < n - c then pickBin (k + 1) (n - c, k) t else pickBin (k + 1) best t

/-- The radius of the next sphere, SpheresFactory.cpp 103-127: the bin, the radius and the number of random numbers used.  Bins behind
the end of the vectors made by the preparation are undefined behaviour. -/
noncomputable def nextRadius (f : Fac) (u : Nat → ℝ) (g : Nat) : Res (Nat × ℝ × Nat) :=
  if f.use then
    if f.need.length < f.cum.length ∨ f.curProc.length < f.cum.length then .ub
    else
      let b := pickBin 0 (0, 0) ((f.need.zip f.curProc).take f.cum.length)
      (readR f.sizes b).bind fun a =>
      if f.exactDiam then .ok (b, a / 2, g)
      else (readR f.sizes (b + 1)).bind fun c => .ok (b, a / 2 + u g * (c / 2 - a / 2), g + 1)
  else .ok (0, f.rMin + u g * (f.rMax - f.rMin), g + 1)

/-- The attempts, SpheresFactory.cpp 132-153: the position, `none` after as many failures as are allowed. -/
noncomputable def place (C : Coll) (reg : Region) (normal : V3) (u : Nat → ℝ) (made : List Sph) (r : ℝ) : Nat → Nat → Res (Option V3 × Nat)
  | 0, g => .ok (none, g)
  | n + 1, g =>
    let c := pick reg normal u g r
    (probe C (c - fun _ => r) (c + fun _ => r)).bind fun ids =>
    if ids = [] ∧ ∀ s ∈ made, ¬ norm3 (s.pos - c) < s.r + r then .ok (some c, g + 3)
    else place C reg normal u made r n (g + 3)

/-- The state of one run of the engine: `slots` is `bodies->size()`, `made` are `justCreatedBodies`. -/
structure St where
  f : Fac
  slots : Nat
  made : List Sph
  g : Nat

/-- Volume of a sphere, SpheresFactory.cpp 178. -/
noncomputable def vol (r : ℝ) : ℝ := 4 / 3 * Real.pi * r ^ 3

/-- The shares of the bins after a sphere was made, SpheresFactory.cpp 196-204. -/
noncomputable def account (f : Fac) (bin : Nat) (mass : ℝ) : Fac :=
  if f.use then
    let mean := f.curMean.modify bin (· + if f.calcMass then mass else 1)
    let sum : ℝ := if f.calcMass then f.totalMass else f.numParticles
    { f with curMean := mean, curProc := mean.map (· / sum) }
  else f

/-- Making a sphere, SpheresFactory.cpp 163-204. -/
noncomputable def create (density : ℝ) (vel : V3) (bin : Nat) (r : ℝ) (c : V3) (s : St) : St :=
  let mass := vol r * density
  let sp : Sph := ⟨s.slots, c, vel, r, mass, fun _ => 2 / 5 * vol r * r * r * density⟩
  let f := { s.f with ids := s.f.ids ++ [s.slots], totalMass := s.f.totalMass + mass, totalVolume := s.f.totalVolume + vol r, numParticles := s.f.numParticles + 1 }
  { s with f := account f bin mass, slots := s.slots + 1, made := s.made ++ [sp] }

/-- The material, SpheresFactory.cpp 164-166. -/
def material (densities : List ℝ) (materialId : Int) : Res ℝ :=
  let m := if materialId ≥ 0 then materialId else densities.length + materialId
  if m < 0 ∨ m ≥ densities.length then .throws
  else readR densities m.toNat

/-- The condition of the loop, SpheresFactory.cpp 102. -/
def goesOn (f : Fac) : Prop :=
  f.totalMass < f.goalMass ∧ (f.maxParticles < 0 ∨ f.numParticles < f.maxParticles) ∧ (f.maxMass < 0 ∨ f.totalMass < f.maxMass)

/-- One turn of the loop, SpheresFactory.cpp 103-204: the state, and whether the engine returns.  With a negative `maxAttempt` there is no
attempt, and the sphere is made at zero. -/
noncomputable def turn (C : Coll) (reg : Region) (densities : List ℝ) (vel : V3) (u : Nat → ℝ) (s : St) : Res (St × Bool) :=
  (nextRadius s.f u s.g).bind fun (bin, r, g) =>
  (if s.f.maxAttempt < 0 then .ok (some 0, g) else place C reg s.f.normal u s.made r s.f.maxAttempt.toNat g).bind fun (c, g) =>
  match c with
  | none => .ok ({ s with g := g, f := if s.f.stopIfFailed then { s.f with massFlowRate := 0, goalMass := s.f.totalMass } else s.f }, true)
  | some c => (material densities s.f.materialId).bind fun d => .ok (create d vel bin r c { s with g := g }, false)

/-- The loop, SpheresFactory.cpp 102-205; `none` if it has not ended after `fuel` turns. -/
noncomputable def loop (C : Coll) (reg : Region) (densities : List ℝ) (vel : V3) (u : Nat → ℝ) : Nat → St → Option (Res St)
  | 0, s => if goesOn s.f then none else some (.ok s)
  | n + 1, s =>
    if goesOn s.f then
      match turn C reg densities vel u s with
      | .ok (s, true) => some (.ok s)
      | .ok (s, false) => loop C reg densities vel u n s
      | .throws => some .throws
      | .ub => some .ub
    else some (.ok s)

/-- Eigen `normalize()` of a vector that is not zero. -/
noncomputable def unit (v : V3) : V3 := (norm3 v)⁻¹ • v

/-- The velocity, SpheresFactory.cpp 93-100. -/
noncomputable def initVel (f : Fac) (u : ℝ) : V3 :=
  (f.vMin + u * (f.vMax - f.vMin)) • match f.normalVel with
    | some v => if norm3 v > 0 then unit v else f.normal
    | none => f.normal

/-- What is done before the loop, SpheresFactory.cpp 30-92. -/
noncomputable def start (past : Res ℝ) (dt : ℝ) (f : Fac) : Res Fac :=
  (prepare past { f with goalMass := f.goalMass + f.massFlowRate * dt }).bind fun f =>
  .ok { f with normal := unit f.normal, maxMass := if f.maxMass > 0 ∧ f.maxParticles > 0 then -1 else f.maxMass, normalVel := f.normalVel.map fun v => if norm3 v > 0 then unit v else v }

/-- `SpheresFactory::action`, SpheresFactory.cpp 23-207, with a collider in the engines. -/
noncomputable def action (past : Res ℝ) (C : Coll) (reg : Region) (densities : List ℝ) (u : Nat → ℝ) (dt : ℝ) (fuel : Nat) (f : Fac) (slots g : Nat) : Option (Res St) :=
  match start past dt f with
  | .ok f => loop C reg densities (initVel f (u g)) u fuel ⟨f, slots, [], g + 1⟩
  | .throws => some .throws
  | .ub => some .ub

/-! ## DomainLimiter -/

/-- What the limiter uses of a body besides its clump: the radius if it is a sphere. -/
structure Info where
  radius : Option ℝ
  pos : V3
  mass : ℝ
  mask : Nat

/-- `DomainLimiter`, DomainLimiter.hpp 8-15. -/
structure Lim where
  lo : V3
  hi : V3
  mask : Int
  nDeleted : Int
  mDeleted : ℝ
  vDeleted : ℝ

/-- The test of the position, DomainLimiter.cpp 18. -/
def outside (L : Lim) (p : V3) : Prop := p 0 < L.lo 0 ∨ p 0 > L.hi 0 ∨ p 1 < L.lo 1 ∨ p 1 > L.hi 1 ∨ p 2 < L.lo 2 ∨ p 2 > L.hi 2

/-- `b->groupMask & mask`, DomainLimiter.cpp 14. -/
def maskSkips (mask : Int) (group : Nat) : Prop := mask > 0 ∧ group &&& mask.toNat = 0

/-- What is added to `vDeleted`, DomainLimiter.cpp 22. -/
noncomputable def sphVol : Option ℝ → ℝ
  | some q => 4 / 3 * Real.pi * q ^ 3
  | none => 0

/-- The first loop of `DomainLimiter::action`, DomainLimiter.cpp 13-25: the ids to erase. -/
noncomputable def collect (info : Nat → Info) (heap : Nat → Bodies.BObj) : List (Option Nat) → Lim → List Int × Lim
  | [], L => ([], L)
  | none :: t, L => collect info heap t L
  | some r :: t, L =>
    let b := heap r
    if maskSkips L.mask (info r).mask ∨ b.isClumpMember then collect info heap t L
    else if ((info r).radius.isSome ∨ b.isClump) ∧ outside L (info r).pos then
      let res := collect info heap t { L with nDeleted := L.nDeleted + 1, mDeleted := L.mDeleted + (info r).mass, vDeleted := L.vDeleted + sphVol (info r).radius }
      (b.id :: res.1, res.2)
    else collect info heap t L

/-- The second loop, DomainLimiter.cpp 26-29. -/
def eraseAll : List Int → Bodies.M Unit := Bodies.forEach fun id => do
  let _ ← Bodies.erase id true
  pure ()

/-- `DomainLimiter::action`, DomainLimiter.cpp 11-30. -/
noncomputable def limit (info : Nat → Info) (s : Bodies.BSt) (L : Lim) : Bodies.Run Unit × Lim :=
  let res := collect info s.heap s.slots L
  (eraseAll res.1 s, res.2)

end Verif.Fac
