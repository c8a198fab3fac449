import Verif.Mech.Vec
import Verif.Drive.Table
import Mathlib.Analysis.SpecialFunctions.Trigonometric.Arctan

/-!
# Prescribed deformation of an interaction, pkg/dem/DomainLimiter.* (`LawTester`)

Real numbers; what divides by zero, and what is not a number, is `ub`.  The interaction found in the step is an input: none, or an object (a number which tells objects apart) with its radii and local axes
(`trsf`, whose rows they are).  The axes of a new `ScGeom` are `axes0`; how they are turned later is in `ScGeom::rotate`, and they are an input here.  `uGeom`, which is only for comparison, is not modelled, nor are
strings of hooks, which are numbers here (0 is the empty one).
-/
namespace Verif.Tester

open Verif.Mech

/-- `Vector6r`, lib/base/Math.hpp 105, as displacement and rotation. -/
abbrev V6 := V3 × V3

/-- Attributes given by the user, DomainLimiter.hpp 33-34, 41, 43, 61, 64: `ids`, `disPath`, `rotPath`, `hooks`, `displIsRel`, `pathSteps`, `doneHook`, `idWeight`. -/
structure Cfg where
  ids : List ℕ
  dis : List V3
  rot : List V3
  hooks : List ℕ
  rel : Bool
  steps : List ℤ
  doneHook : ℕ
  idWeight : ℝ

/-- `i<path.size() ? path[i] : (path.empty() ? Zero : *path.rbegin())`, DomainLimiter.cpp 51-52. -/
def pick (l : List V3) (i : ℕ) : V3 := (l[i]?).getD (l.getLastD 0)

/-- `_path`, DomainLimiter.cpp 46-55. -/
def points (dis rot : List V3) : List V6 := 0 :: (List.range (max dis.length rot.length)).map fun i => (pick dis i, pick rot i)

/-- The first loop, DomainLimiter.cpp 58: sums of steps, from `t` on. -/
def sums : ℤ → List ℤ → List ℤ
  | t, [] => [t]
  | t, d :: ds => t :: sums (t + d) ds

/-- The second loop, DomainLimiter.cpp 60, for `n` more times after the last. -/
def more (d : ℤ) : ℕ → ℤ → List ℤ
  | 0, _ => []
  | n + 1, t => (t + d) :: more d n (t + d)

/-- `_pathT`, DomainLimiter.cpp 57-60. -/
def times (steps : List ℤ) (n : ℕ) : List ℤ := sums 0 steps ++ more (steps.getLastD 0) (n - steps.length) ((sums 0 steps).getLastD 0)

/-- The path and its times, DomainLimiter.hpp 44-45. -/
structure Path where
  pts : List V6
  ts : List ℤ

/-- `LawTester::postLoad`, DomainLimiter.cpp 41-61: without ids nothing is done. -/
def Cfg.postLoad (c : Cfg) : Res Path :=
  if c.ids.length = 0 then .ok ⟨[], []⟩
  else if c.ids.length ≠ 2 then .throws
  else if c.dis = [] ∧ c.rot = [] then .throws
  else if c.steps = [] then .throws
  else .ok ⟨points c.dis c.rot, times c.steps (max c.dis.length c.rot.length)⟩

/-- Radii, axes and kind of geometry, DomainLimiter.cpp 85-90, 134-144. -/
structure Geo where
  r1 : ℝ
  r2 : ℝ
  x : V3
  y : V3
  z : V3
  hasRot : Bool

/-- Eigen `v.normalize()`; a zero vector is left. -/
noncomputable def unit (v : V3) : V3 := (norm3 v)⁻¹ • v

/-- The vector the second axis is perpendicular to, DomainLimiter.cpp 115. -/
noncomputable def other (x : V3) : V3 := if |x 1| < |x 2| then ![0, 1, 0] else ![0, 0, 1]

/-- Axes of a new interaction without axes of its own, DomainLimiter.cpp 112-117. -/
noncomputable def axes0 (normal : V3) : V3 × V3 × V3 :=
  let x := unit normal
  let y := unit (cross x (other x))
  (x, y, cross x y)

/-- Attributes which change, DomainLimiter.hpp 37-39, 46, 54-56, 65: `I`, `step`, `_interpPos`, `uuPrev`, `uTest`, `uTestNext`, `rotWeight`, `dead`. -/
structure St where
  I : Option ℕ
  step : ℤ
  pos : ℕ
  uu : V6
  uTest : V6
  uNext : V6
  rotWeight : ℝ
  dead : Bool

/-- Values are numbers, LinearInterpolate.hpp 31; not a number is `ub`. -/
def num : Res (Option ℝ × ℕ) → Res (ℝ × ℕ)
  | .ok (some y, p) => .ok (y, p)
  | .ok (none, _) => .ub
  | .throws => .throws
  | .ub => .ub

/-- One component of the interpolation, DomainLimiter.cpp 148. -/
noncomputable def comp (t : ℤ) (p : Path) (f : V6 → ℝ) (pos : ℕ) : Res (ℝ × ℕ) := num (Drive.interp (some (t : ℝ)) (p.ts.map fun k : ℤ => (k : ℝ)) (p.pts.map f) pos)

/-- `linearInterpolate<Vector6r,int>(step,_pathT,_path,_interpPos)`, DomainLimiter.cpp 148, by components. -/
noncomputable def interp6 (t : ℤ) (p : Path) (pos : ℕ) : Res (V6 × ℕ) :=
  (comp t p (fun v => v.1 0) pos).bind fun a => (comp t p (fun v => v.1 1) pos).bind fun b => (comp t p (fun v => v.1 2) pos).bind fun c =>
    (comp t p (fun v => v.2 0) pos).bind fun d => (comp t p (fun v => v.2 1) pos).bind fun e => (comp t p (fun v => v.2 2) pos).bind fun f =>
      .ok ((![a.1, b.1, c.1], ![d.1, e.1, f.1]), a.2)

/-- Velocity and angular velocity of a body. -/
structure Vel where
  v : V3
  w : V3

/-- One turn of the loop over both bodies, DomainLimiter.cpp 167-212, with sign, weight and radius of the body. -/
noncomputable def move (g : Geo) (sign weight radius rw dt : ℝ) (dU dPhi : V3) : Vel :=
  let relRad := radius / (g.r1 + g.r2)
  let ddU : V3 := (sign * weight) • dU
  let ddPhi : V3 := ![sign * dPhi 0 * weight, sign * dPhi 1 * (1 - relRad), sign * dPhi 2 * (1 - relRad)]
  let rotZ := -sign * rw * ddU 1 / radius
  let rotY := sign * rw * ddU 2 / radius
  let arcY := Real.arctan ((1 - rw) * ddU 1 / radius)
  let arcZ := Real.arctan ((1 - rw) * ddU 2 / radius)
  { v := (ddU 0 / dt) • g.x + (radius * Real.sin arcY / dt) • g.y + (radius * Real.sin arcZ / dt) • g.z + (-sign * radius * ((1 - Real.cos arcY) + (1 - Real.cos arcZ)) / dt) • g.x
    w := (rotY / dt) • g.y + (rotZ / dt) • g.z + (ddPhi 0 • g.x + ddPhi 1 • g.y + ddPhi 2 • g.z) }

/-- Hooks run in a step, DomainLimiter.cpp 219-225. -/
def hooksAt (c : Cfg) (p : Path) (step : ℤ) : List ℕ :=
  ((p.ts.tail.zip c.hooks).filter fun th => step = th.1 ∧ th.2 ≠ 0).map Prod.snd

/-- What a step does to the bodies: nothing, motion of both with the hooks run after it, or the end. -/
inductive Out where
  | nothing
  | moved (b1 b2 : Vel) (hooks : List ℕ)
  | done (hook : ℕ)

/-- What the last step leaves: zero velocities, `doneHook` or death, DomainLimiter.cpp 101-108. -/
def St.finish (s : St) (c : Cfg) : St × Out := ({ s with uTest := s.uNext, dead := if c.doneHook = 0 then true else s.dead }, .done c.doneHook)

/-- The increment is applied, DomainLimiter.cpp 141-226, when the path is at `uu`. -/
noncomputable def St.apply (s : St) (c : Cfg) (p : Path) (g : Geo) (dt : ℝ) (uu : V6) (pos : ℕ) : St × Out :=
  let rw := if g.hasRot then 0 else s.rotWeight
  let d : V6 := uu - s.uu
  let dU : V3 := if c.rel then (g.r1 + g.r2) • d.1 else d.1
  ({ s with step := s.step + 1, pos := pos, uu := uu, uTest := s.uNext, uNext := s.uNext + (dU, d.2), rotWeight := rw },
    .moved (move g (-1) (1 - c.idWeight) g.r1 rw dt dU d.2) (move g 1 c.idWeight g.r2 rw dt dU d.2) (hooksAt c p s.step))

open Classical in
/-- The part of the step after the interaction is known, DomainLimiter.cpp 101-226. -/
noncomputable def St.go (s : St) (c : Cfg) (p : Path) (g : Geo) (dt : ℝ) : Res (St × Out) :=
  match p.ts.getLast? with
  | none => .ub
  | some last =>
    if s.step - 1 > last then .ok (s.finish c)
    else if dt = 0 ∨ g.r1 = 0 ∨ g.r2 = 0 ∨ g.r1 + g.r2 = 0 then .ub
    else (interp6 s.step p s.pos).bind fun r => .ok (s.apply c p g dt r.1 r.2)

/-- `LawTester::action`, DomainLimiter.cpp 63-226, with the interaction found. -/
noncomputable def St.action (s : St) (c : Cfg) (p : Path) (found : Option (ℕ × Geo)) (dt : ℝ) : Res (St × Out) :=
  if c.ids.length ≠ 2 then .throws
  else
    match s.I, found with
    | none, none => .ok (s, .nothing)
    | some _, none => .throws
    | none, some (j, g) => St.go { s with I := some j } c p g dt
    | some i, some (j, g) => if i = j then s.go c p g dt else .throws

/-- Steps one after another, DomainLimiter.cpp 63-226; a dead engine is not run, core/Scene.cpp 100-115. -/
noncomputable def run (c : Cfg) (p : Path) (dt : ℝ) : St → List (Option (ℕ × Geo)) → Res (St × List Out)
  | s, [] => .ok (s, [])
  | s, x :: xs =>
    if s.dead then (run c p dt s xs).bind fun r => .ok (r.1, .nothing :: r.2)
    else (s.action c p x dt).bind fun q => (run c p dt q.1 xs).bind fun r => .ok (r.1, q.2 :: r.2)

/-- A new `LawTester`, DomainLimiter.hpp 37-65. -/
noncomputable def St.init (rw : ℝ) : St := ⟨none, 1, 0, 0, 0, 0, rw, false⟩

end Verif.Tester
