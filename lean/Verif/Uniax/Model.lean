import Verif.Base
import Mathlib.Data.Real.Basic

/-!
# Straining a specimen along an axis

`pkg/dem/UniaxialStrainer.{hpp,cpp}` and the motion of its boundary bodies.  Only the components along the strained axis are
modelled.  Real numbers; the attributes that may be "not a number" and are compared as such are `Option ℝ`.  `posCoords` and
`negCoords` are written and never used; they are left out, as are the messages.
-/
namespace Verif.Uniax

/-! ## Bodies -/

/-- What `blockedDOFs` says (core/State.hpp 17-26): along the axis, across the axis, rotations. -/
structure Dofs where
  axis : Bool
  across : Bool
  rot : Bool

/-- A body: position and velocity along the axis (`axisCoord`, `axisVel`, UniaxialStrainer.hpp 17-18) and its blocked degrees of
freedom. -/
structure Bd where
  pos : ℝ
  vel : ℝ
  dofs : Dofs

/-- The bodies by id; `none`: erased or never there, in which case `Body::byId` (core/Body.cpp 10) gives nothing to point to. -/
abbrev W := ℕ → Option Bd

/-- All bodies of a list exist. -/
def W.all (w : W) (ids : List ℕ) : Bool := ids.all fun i => (w i).isSome

/-- Position of a body along the axis. -/
def W.pos (w : W) (i : ℕ) : ℝ := (w i).elim 0 Bd.pos

/-- Velocity of a body along the axis. -/
def W.vel (w : W) (i : ℕ) : ℝ := (w i).elim 0 Bd.vel

/-- The assignments of UniaxialStrainer.cpp 107-113 and 114-120. -/
def W.setVel (w : W) (ids : List ℕ) (v : ℝ) : W :=
  fun i => if i ∈ ids then (w i).map fun b => { b with vel := v } else w i

/-! ## The engine -/

/-- Attributes of `UniaxialStrainer`, UniaxialStrainer.hpp 28-52; `L` is `originalLength`, `cur` is `currentStrainRate`, `accel` is
`initAccelTime_s`. -/
structure Eng where
  strainRate : Option ℝ
  absSpeed : Option ℝ
  initAccelTime : ℝ
  stopStrain : Option ℝ
  active : Bool
  idle : ℤ
  cur : Option ℝ
  asym : ℤ
  posIds : List ℕ
  negIds : List ℕ
  L : ℝ
  limit : ℝ
  notYetReversed : Bool
  area : Option ℝ
  strain : ℝ
  avgStress : Option ℝ
  blockDisplacements : Bool
  blockRotations : Bool
  setSpeeds : Bool
  interval : ℤ
  accel : ℝ
  needsInit : Bool

/-- A new engine with the defaults, UniaxialStrainer.hpp 29-52; no attribute of a new engine is read before it is written except
those given there. -/
def Eng.new : Eng :=
  { strainRate := none, absSpeed := none, initAccelTime := -200, stopStrain := none, active := true, idle := 0, cur := none,
    asym := 0, posIds := [], negIds := [], L := 0, limit := 0, notYetReversed := true, area := none, strain := 0,
    avgStress := some 0, blockDisplacements := false, blockRotations := false, setSpeeds := false, interval := 10, accel := 0,
    needsInit := true }

/-- Clock of the scene: `scene->time`, `scene->dt`, `scene->iter`. -/
structure Clock where
  time : ℝ
  dt : ℝ
  iter : ℤ

/-- What is blocked at a boundary body, UniaxialStrainer.cpp 19-23 and 26-30. -/
def Eng.dofs (e : Eng) : Dofs := ⟨true, e.blockDisplacements, e.blockRotations⟩

/-- Lines 17-31: the boundary bodies are blocked. -/
def Eng.block (e : Eng) (w : W) : W :=
  fun i => if i ∈ e.posIds ∨ i ∈ e.negIds then (w i).map fun b => { b with dofs := e.dofs } else w i

/-- Length of the specimen, the distance of the reference bodies, lines 35, 97 and 122. -/
def Eng.len (e : Eng) (w : W) : ℝ := w.pos (e.posIds.headD 0) - w.pos (e.negIds.headD 0)

/-- Lines 47-48: strain rate and speed from each other; `none`: neither is given. -/
noncomputable def Eng.rates (e : Eng) : Option (ℝ × ℝ) :=
  match e.strainRate with
  | some r => some (r, r * e.L)
  | none => e.absSpeed.map fun v => (v / e.L, v)

/-- Line 51: the time of acceleration in seconds. -/
noncomputable def Eng.accelTime (e : Eng) (dt : ℝ) : ℝ := if e.initAccelTime ≥ 0 then e.initAccelTime else dt * -e.initAccelTime

/-- Lines 64-69: speeds of the two ends; `none`: exception. -/
noncomputable def endSpeeds (asym : ℤ) (v : ℝ) : Option (ℝ × ℝ) :=
  if asym = -1 then some (-v, 0) else if asym = 0 then some (-v / 2, v / 2) else if asym = 1 then some (0, v) else none

/-- Lines 72-78: velocities linear in the position. -/
noncomputable def Eng.spread (e : Eng) (w : W) (p0 p1 v0 v1 : ℝ) : W :=
  fun i => if i ∈ e.posIds ∨ i ∈ e.negIds then w i
    else (w i).map fun b => { b with vel := (b.pos - p0) / (p1 - p0) * (v1 - v0) + v0 }

/-- Lines 50-80: acceleration, or velocities at once; the flag tells whether an exception is thrown. -/
noncomputable def Eng.speeds (e : Eng) (c : Clock) (w : W) (v : ℝ) : Bool × Eng × W :=
  if e.setSpeeds = false then (e.area.isNone, { e with accel := e.accelTime c.dt }, w)
  else match endSpeeds e.asym v with
    | none => (true, { e with accel := 0 }, w)
    | some x => (e.area.isNone, { e with accel := 0 },
        e.spread w (w.pos (e.negIds.headD 0)) (w.pos (e.posIds.headD 0)) x.1 x.2)

/-- Lines 35-80, the boundary bodies being blocked; neither rate nor speed given is an assertion (line 44), off in optimized builds;
as all velocities then are "not a number" it is counted as undefined. -/
noncomputable def Eng.start (e : Eng) (c : Clock) (w : W) : Res (Bool × Eng × W) :=
  let e := { e with needsInit := false, L := e.len w }
  if e.L ≤ 0 then .ok (true, e, w)
  else match e.rates with
    | none => .ub
    | some x => .ok ({ e with strainRate := some x.1, absSpeed := some x.2 }.speeds c w x.2)

/-- `UniaxialStrainer::init`, UniaxialStrainer.cpp 12-80.  The flag tells whether an exception was thrown, by which time the engine
and the bodies may have been changed.  Undefined: no ids given (`posIds[0]` of an empty vector; the assertions of lines 15-16 are off
in optimized builds), missing bodies. -/
noncomputable def Eng.init (e : Eng) (c : Clock) (w : W) : Res (Bool × Eng × W) :=
  if (w.all e.posIds && w.all e.negIds) = false ∨ e.posIds = [] ∨ e.negIds = [] then .ub else e.start c (e.block w)

/-- Lines 90-93: the present strain rate; comparisons with "not a number" are false. -/
noncomputable def rateNow (cur : Option ℝ) (rate accel time : ℝ) : ℝ :=
  match cur with
  | none => rate
  | some c => if |c| < |rate| then if accel ≠ 0 then time / accel * rate else rate else rate

/-- Lines 95-105: the elongation of this step, and whether the strain to stop at is reached. -/
noncomputable def elongation (stop : Option ℝ) (L len d : ℝ) : ℝ × Bool :=
  match stop with
  | none => (d, false)
  | some s =>
    let new := (len + d) / L - 1
    if new * s > 0 ∧ |new| ≥ s then (L * (s + 1) - len, true) else (d, false)

/-- Line 126: whether the sense is reversed. -/
noncomputable def Eng.reverses (e : Eng) (r : ℝ) : Bool :=
  open Classical in
  e.notYetReversed && decide (e.limit ≠ 0 ∧ ((r > 0 ∧ e.strain > e.limit) ∨ (r < 0 ∧ e.strain < e.limit)))

/-- Lines 106-120: velocities of the boundary bodies. -/
noncomputable def Eng.drive (e : Eng) (dt d : ℝ) (w : W) : W :=
  let d := if e.asym = 0 then d * 0.5 else d
  let w := if e.asym ≠ 1 then w.setVel e.negIds (-d / dt) else w
  if e.asym ≠ -1 then w.setVel e.posIds (d / dt) else w

/-- Lines 135-140 and 131: mean of the forces on both ends over the cross section. -/
noncomputable def Eng.stress (e : Eng) (force : ℕ → ℝ) : Option ℝ :=
  e.area.map fun a => (-(e.posIds.map force).sum + (e.negIds.map force).sum) / (2 * a)

/-- Lines 122-132, `e` having the present strain rate in `cur`. -/
noncomputable def Eng.report (e : Eng) (r len : ℝ) (iter : ℤ) (force : ℕ → ℝ) : Eng :=
  let e := { e with cur := some r, strain := len / e.L - 1 }
  let e := { e with cur := some (if e.reverses r then -r else r), notYetReversed := e.notYetReversed && !e.reverses r }
  if iter % e.interval = 0 then { e with avgStress := e.stress force } else e

/-- What `action` does: exception thrown, engine, bodies, and `scene->stopAtIter` if it is set. -/
structure Out where
  thrown : Bool
  e : Eng
  w : W
  stopAt : Option ℤ

/-- `action` after initialisation, UniaxialStrainer.cpp 86-133; `force` are the forces along the axis.  Undefined: missing bodies, a
remainder modulo zero.  The strain rate being "not a number" is counted as undefined. -/
noncomputable def Eng.go (e : Eng) (c : Clock) (w : W) (force : ℕ → ℝ) : Res Out :=
  if e.posIds = [] ∨ e.negIds = [] then .ok ⟨false, e, w, none⟩
  else match e.strainRate with
    | none => .ub
    | some rate =>
      if (w.all e.posIds && w.all e.negIds) = false ∨ e.interval = 0 then .ub
      else
        let r := rateNow e.cur rate e.accel c.time
        let d := elongation e.stopStrain e.L (e.len w) (r * e.L * c.dt)
        .ok ⟨false, { e.report r (e.len w) c.iter force with active := e.active && !d.2 }, e.drive c.dt d.1 w,
          if d.2 then some (c.iter + 1 + e.idle) else none⟩

/-- `UniaxialStrainer::action`, UniaxialStrainer.cpp 83-133. -/
noncomputable def Eng.action (e : Eng) (c : Clock) (w : W) (force : ℕ → ℝ) : Res Out :=
  if e.needsInit then
    match e.init c w with
    | .ub => .ub
    | .throws => .throws
    | .ok (true, e, w) => .ok ⟨true, e, w, none⟩
    | .ok (false, e, w) => e.go c w force
  else e.go c w force

/-! ## Steps -/

/-- What `NewtonIntegrator` (pkg/dem/NewtonIntegrator.cpp, see `Verif.Mech`) does along the axis with bodies blocked along it: they
move with their velocity, which stays.  All other bodies move anyhow. -/
def Moves (dt : ℝ) (w w' : W) : Prop :=
  (∀ i, (w' i).isSome = (w i).isSome) ∧
  ∀ i b, w i = some b → b.dofs.axis = true → w' i = some { b with pos := b.pos + b.vel * dt }

/-- Engine, bodies and clock. -/
structure Sys where
  e : Eng
  w : W
  time : ℝ
  iter : ℤ
  stopAt : ℤ

/-- From one call of the engine to the next (core/Scene.cpp 90-95: engines that are not activated are skipped): the engine, then
the motion, then the clock.  Whether the integrator comes before or after the engine in `O.engines`, the calls of the engine and
the motions alternate. -/
inductive Step (dt : ℝ) : Sys → Sys → Prop
  | on {s : Sys} {o : Out} {w' : W} (force : ℕ → ℝ) (ha : s.e.active = true)
      (h : s.e.action ⟨s.time, dt, s.iter⟩ s.w force = .ok o) (ht : o.thrown = false) (hm : Moves dt o.w w') :
      Step dt s ⟨o.e, w', s.time + dt, s.iter + 1, o.stopAt.getD s.stopAt⟩
  | off {s : Sys} {w' : W} (ha : s.e.active = false) (hm : Moves dt s.w w') :
      Step dt s ⟨s.e, w', s.time + dt, s.iter + 1, s.stopAt⟩

/-- Many steps. -/
inductive Run (dt : ℝ) : Sys → ℕ → Sys → Prop
  | zero (s) : Run dt s 0 s
  | succ {s t u k} (h : Run dt s k t) (h' : Step dt t u) : Run dt s (k + 1) u

end Verif.Uniax
