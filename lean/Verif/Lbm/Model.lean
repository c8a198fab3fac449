import Mathlib.Data.Real.Basic
import Mathlib.Tactic.Ring
import Mathlib.Tactic.FieldSimp
import Mathlib.Tactic.NormNum
import Mathlib.Tactic.Linarith
import Verif.Base

/-!
# Fluid on a lattice

`pkg/lbm/LBMnode.cpp` and the loops over nodes and links of `pkg/lbm/HydrodynamicsLawLBM.cpp`, for the model "d2q9", the
only one there is.  Real numbers instead of floating point; a division by zero is `ub`, an `exit(-1)` is `throws`.
-/
namespace Verif.Lbm
open Verif

/-- The nine populations `f` of a node, LBMnode.hpp 50. -/
@[ext] structure Pop where
  f0 : ℝ
  f1 : ℝ
  f2 : ℝ
  f3 : ℝ
  f4 : ℝ
  f5 : ℝ
  f6 : ℝ
  f7 : ℝ
  f8 : ℝ

/-- The sides and corners named by the argument `where`, LBMnode.cpp 24-65. -/
inductive Side where
  | xm | xp | ym | yp | xmym | xmyp | xpym | xpyp
  deriving DecidableEq

/-- `LBMnode::MixteBC`, LBMnode.cpp 20-75.  Unknown names of sides, which the engine never passes, cannot be expressed. -/
noncomputable def mixteBC (model : String) (ρ ux uy : ℝ) (s : Side) (p : Pop) : Res Pop :=
  let vx := ρ * ux
  let vy := ρ * uy
  if model = "d2q9" then
    match s with
    | .xm => .ok { p with
        f1 := p.f3 + 2 / 3 * vx
        f5 := p.f7 - 1 / 2 * (p.f2 - p.f4) + 1 / 6 * vx + 1 / 2 * vy
        f8 := p.f6 + 1 / 2 * (p.f2 - p.f4) + 1 / 6 * vx - 1 / 2 * vy }
    | .xp => .ok { p with
        f3 := p.f1 - 2 / 3 * vx
        f7 := p.f5 + 1 / 2 * (p.f2 - p.f4) - 1 / 6 * vx - 1 / 2 * vy
        f6 := p.f8 - 1 / 2 * (p.f2 - p.f4) - 1 / 6 * vx + 1 / 2 * vy }
    | .ym => .ok { p with
        f2 := p.f4 + 2 / 3 * vy
        f5 := p.f7 - 1 / 2 * (p.f1 - p.f3) + 1 / 2 * vx + 1 / 6 * vy
        f6 := p.f8 + 1 / 2 * (p.f1 - p.f3) - 1 / 2 * vx + 1 / 6 * vy }
    | .yp => .ok { p with
        f4 := p.f2 - 2 / 3 * vy
        f7 := p.f5 + 1 / 2 * (p.f1 - p.f3) - 1 / 2 * vx - 1 / 6 * vy
        f8 := p.f6 - 1 / 2 * (p.f1 - p.f3) + 1 / 2 * vx - 1 / 6 * vy }
    | .xmym => .ok { p with
        f1 := p.f3 + 2 / 3 * vx
        f2 := p.f4 + 2 / 3 * vy
        f5 := p.f7 + 1 / 6 * ρ * (ux + uy)
        f6 := 1 / 2 * (ρ * (1 - ux - 2 / 3 * uy) - p.f0 - 2 * (p.f3 + p.f4 + p.f7))
        f8 := 1 / 2 * (ρ * (1 - 2 / 3 * ux - uy) - p.f0 - 2 * (p.f3 + p.f4 + p.f7)) }
    | .xmyp => .ok { p with
        f1 := p.f3 + 2 / 3 * vx
        f4 := p.f2 - 2 / 3 * vy
        f5 := 1 / 2 * (ρ * (1 - 2 / 3 * ux + uy) - p.f0 - 2 * (p.f2 + p.f3 + p.f6))
        f7 := 1 / 2 * (ρ * (1 - ux + 2 / 3 * uy) - p.f0 - 2 * (p.f2 + p.f3 + p.f6))
        f8 := p.f6 + 1 / 6 * ρ * (ux - uy) }
    | .xpym => .ok { p with
        f2 := p.f4 + 2 / 3 * vy
        f3 := p.f1 - 2 / 3 * vx
        f5 := 1 / 2 * (ρ * (1 + ux - 2 / 3 * uy) - p.f0 - 2 * (p.f1 + p.f4 + p.f8))
        f6 := p.f8 - 1 / 6 * ρ * (ux - uy)
        f7 := 1 / 2 * (ρ * (1 + 2 / 3 * ux - uy) - p.f0 - 2 * (p.f1 + p.f4 + p.f8)) }
    | .xpyp => .ok { p with
        f3 := p.f1 - 2 / 3 * vx
        f4 := p.f2 - 2 / 3 * vy
        f6 := 1 / 2 * (ρ * (1 + 2 / 3 * ux + uy) - p.f0 - 2 * (p.f1 + p.f2 + p.f5))
        f7 := p.f5 - 1 / 6 * ρ * (ux + uy)
        f8 := 1 / 2 * (ρ * (1 + ux + 2 / 3 * uy) - p.f0 - 2 * (p.f1 + p.f2 + p.f5)) }
  else .throws

/-- Density and velocity the engine imposes at a side or corner, HydrodynamicsLawLBM.cpp 631-713.  `type` is the type of the
boundary condition, `rho` the reference density, `cs` the speed of sound, `dP` the pressure difference and `nb` the density
of the neighbour along x. -/
noncomputable def choose (s : Side) (type : ℤ) (dP rho cs nb : ℝ) (p : Pop) : Res (ℝ × ℝ × ℝ) :=
  match s with
  | .xm =>
    if type = 1 then
      if rho * cs * cs = 0 then .ub
      else
        let d := 1 + dP / (rho * cs * cs)
        if d = 0 then .ub else .ok (d, 1 - ((p.f0 + p.f2 + p.f4) + 2 * (p.f3 + p.f6 + p.f7)) / d, 0)
    else if type = 2 then .ok ((p.f0 + p.f2 + p.f4 + 2 * (p.f3 + p.f6 + p.f7)) / (1 - 0), 0, 0)
    else .ok (0, 0, 0)
  | .xp =>
    if type = 1 then .ok (1, -1 + ((p.f0 + p.f2 + p.f4) + 2 * (p.f1 + p.f5 + p.f8)) / 1, 0)
    else if type = 2 then .ok ((p.f0 + p.f2 + p.f4 + 2 * (p.f1 + p.f5 + p.f8)) / (1 + 0), 0, 0)
    else .ok (0, 0, 0)
  | .yp =>
    if type = 1 then .ok (1, 0, -1 + ((p.f0 + p.f1 + p.f3) + 2 * (p.f2 + p.f5 + p.f6)) / 1)
    else if type = 2 then .ok ((p.f0 + p.f1 + p.f3 + 2 * (p.f2 + p.f5 + p.f6)) / (1 + 0), 0, 0)
    else .ok (0, 0, 0)
  | .ym =>
    if type = 1 then .ok (1, 0, 1 - ((p.f0 + p.f1 + p.f3) + 2 * (p.f4 + p.f7 + p.f8)) / 1)
    else if type = 2 then .ok ((p.f0 + p.f1 + p.f3 + 2 * (p.f4 + p.f7 + p.f8)) / (1 - 0), 0, 0)
    else .ok (0, 0, 0)
  | _ =>
    if type = 1 then .throws
    else if type = 2 then .ok (nb, 0, 0)
    else .ok (0, 0, 0)

/-- A boundary condition applied to a node, HydrodynamicsLawLBM.cpp 631-718. -/
noncomputable def border (model : String) (s : Side) (type : ℤ) (dP rho cs nb : ℝ) (p : Pop) : Res Pop :=
  match choose s type dP rho cs nb p with
  | .ok (d, ux, uy) => mixteBC model d ux uy s p
  | .throws => .throws
  | .ub => .ub

/-- One population after the collision, HydrodynamicsLawLBM.cpp 739-742 (direction 0) and 764-765 (the others).  `w` is the
weight and `(ex, ey)` the direction. -/
noncomputable def collide1 (w ex ey ρ ux uy ω c2 fx fy f : ℝ) : ℝ :=
  let t := 3 / 2 * (ux * ux + uy * uy)
  let cu := 3 * (ex * ux + ey * uy)
  f - ω * (f - ρ * w * (1 + cu + 1 / 2 * (cu * cu) - t)) + ρ * w / c2 * (ex * fx + ey * fy)

/-- The collision at a node, HydrodynamicsLawLBM.cpp 720-743 and 762-770, with the weights and directions of
HydrodynamicsLawLBM.cpp 133-146.  `ω` is the relaxation, `c2` the square of the lattice speed and `(fx, fy)` the body force. -/
noncomputable def collide (ω c2 fx fy : ℝ) (p : Pop) : Res Pop :=
  let ρ := p.f0 + p.f1 + p.f2 + p.f3 + p.f4 + p.f5 + p.f6 + p.f7 + p.f8
  let mx := p.f1 - p.f3 + p.f5 - p.f6 - p.f7 + p.f8
  let my := p.f2 - p.f4 + p.f5 + p.f6 - p.f7 - p.f8
  if ρ = 0 then .ub
  else if c2 = 0 then .ub
  else
    let ux := mx / ρ
    let uy := my / ρ
    .ok { f0 := collide1 (4 / 9) 0 0 ρ ux uy ω c2 fx fy p.f0
          f1 := collide1 (1 / 9) 1 0 ρ ux uy ω c2 fx fy p.f1
          f2 := collide1 (1 / 9) 0 1 ρ ux uy ω c2 fx fy p.f2
          f3 := collide1 (1 / 9) (-1) 0 ρ ux uy ω c2 fx fy p.f3
          f4 := collide1 (1 / 9) 0 (-1) ρ ux uy ω c2 fx fy p.f4
          f5 := collide1 (1 / 36) 1 1 ρ ux uy ω c2 fx fy p.f5
          f6 := collide1 (1 / 36) (-1) 1 ρ ux uy ω c2 fx fy p.f6
          f7 := collide1 (1 / 36) (-1) (-1) ρ ux uy ω c2 fx fy p.f7
          f8 := collide1 (1 / 36) 1 (-1) ρ ux uy ω c2 fx fy p.f8 }

/-- What a boundary link gives: the populations that return to the fluid and to the solid node, and the force added to the
body, HydrodynamicsLawLBM.cpp 797-811. -/
structure Bounce where
  fluid : ℝ
  solid : ℝ
  forceX : ℝ
  forceY : ℝ

/-- Bounce back at a link between a fluid and a solid node, HydrodynamicsLawLBM.cpp 797-811.  `(ex, ey)` points from fluid to
solid, `w` is its weight, `ρs` the density at the solid node, `(vx, vy)` the velocity `VbMid` of the wall, `pf` and `ps` the
populations after the collision that leave the fluid and the solid node, `isol` is `IsolNb` of the fluid node. -/
noncomputable def bounce (w ex ey ρs vx vy pf ps : ℝ) (isol : ℤ) : Bounce :=
  let ct := 3 * w * ρs * (ex * vx + ey * vy)
  let ct' := if isol ≥ 5 then 0 else ct
  { fluid := pf - 2 * ct'
    solid := ps + 2 * ct'
    forceX := ex * (pf - ct)
    forceY := ey * (pf - ct) }

/-- The flags of a node, LBMnode.hpp 32-42. -/
structure Flags where
  bc : Bool
  xm : Bool
  ymxm : Bool
  ypxm : Bool
  xp : Bool
  ymxp : Bool
  ypxp : Bool
  yp : Bool
  ym : Bool
  deriving DecidableEq

/-- `LBMnode::DispatchBoundaryConditions`, LBMnode.cpp 94-113. -/
def dispatch (nx ny i j : ℤ) : Flags :=
  let xm := decide (i = 0 ∧ j > 0 ∧ j < ny - 1)
  let ymxm := decide (i = 0 ∧ j = 0)
  let ypxm := decide (i = 0 ∧ j = ny - 1)
  let xp := decide (i = nx - 1 ∧ j > 0 ∧ j < ny - 1)
  let ymxp := decide (i = nx - 1 ∧ j = 0)
  let ypxp := decide (i = nx - 1 ∧ j = ny - 1)
  let ym := decide (i > 0 ∧ i < nx - 1 ∧ j = 0)
  let yp := decide (i > 0 ∧ i < nx - 1 ∧ j = ny - 1)
  { bc := xm || ymxm || ypxm || xp || ymxp || ypxp || ym || yp
    xm := xm, ymxm := ymxm, ypxm := ypxm, xp := xp, ymxp := ymxp, ypxp := ypxp, yp := yp, ym := ym }

/-- The side the engine takes for the flags of a node, HydrodynamicsLawLBM.cpp 631-717. -/
def sideOf (g : Flags) : Res (Option Side) :=
  if g.bc then
    if g.xm then .ok (some .xm)
    else if g.xp then .ok (some .xp)
    else if g.yp then .ok (some .yp)
    else if g.ym then .ok (some .ym)
    else if g.ymxm then .ok (some .xmym)
    else if g.ypxm then .ok (some .xmyp)
    else if g.ymxp then .ok (some .xpym)
    else if g.ypxp then .ok (some .xpyp)
    else .throws
  else .ok none

/-- Whether a node is and was an obstacle and is new as one or as fluid, LBMnode.hpp 26-31. -/
structure Node where
  isO : Bool
  wasO : Bool
  newO : Bool
  newF : Bool
  deriving DecidableEq

/-- `LBMnode::checkIsNewObstacle`, LBMnode.cpp 78-84. -/
def checkNewObstacle (n : Node) : Bool × Node :=
  if n.isO then
    let n' := if !n.wasO then { n with newO := true, wasO := true } else { n with newO := false, wasO := true }
    (n'.newO, n')
  else (false, n)

/-- `LBMnode::checkIsNewFluid`, LBMnode.cpp 86-92. -/
def checkNewFluid (n : Node) : Bool × Node :=
  if !n.isO then
    let n' := if n.wasO then { n with newF := true, wasO := false } else { n with newF := false, wasO := false }
    (n'.newF, n')
  else (false, n)

/-- The counters of new obstacle and new fluid nodes over the loop on nodes, HydrodynamicsLawLBM.cpp 628-630. -/
def count : List Node → ℕ × ℕ → List Node × (ℕ × ℕ)
  | [], c => ([], c)
  | n :: l, c =>
    let r := checkNewObstacle n
    if r.1 then
      let q := count l (c.1 + 1, c.2)
      (r.2 :: q.1, q.2)
    else
      let r' := checkNewFluid r.2
      let q := count l (if r'.1 then (c.1, c.2 + 1) else c)
      (r'.2 :: q.1, q.2)

end Verif.Lbm
