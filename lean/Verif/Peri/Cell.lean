import Verif.Peri.Model
import Verif.Mech.Vec
import Mathlib.LinearAlgebra.Matrix.NonsingularInverse
import Mathlib.Algebra.Order.Floor.Semiring
import Mathlib.Algebra.Order.Archimedean.Real.Basic
/-!
# Model of the periodic cell

Transcribes `core/Cell.{hpp,cpp}`: the update of the cell, its attributes, wrapping of points and the shifts of contacts across
periods, with the takeover of the velocity gradient by the integrator (`pkg/dem/NewtonIntegrator.cpp` 93–96, 211).

Simplifications: real numbers; matrices that are only read by the display (`_glShearTrsfMatrix`, `_cos`) are left out;
`inverse()` of a singular matrix is undefined in Eigen, here it is the zero matrix (no theorem depends on it).
-/
namespace Verif.Peri
open Verif Verif.Mech Matrix

/-- the data of `Cell`, Cell.hpp 55–62, 153–162 -/
structure Cell where
  hSize : M3
  prevHSize : M3
  refHSize : M3
  trsf : M3
  invTrsf : M3
  vGradTimesPrevH : M3
  velGrad : M3
  nextVelGrad : M3
  prevVelGrad : M3
  velGradChanged : Bool
  size : V3
  shear : M3
  unshear : M3
  hasShear : Bool

/-- column `i` of a matrix, Eigen `m.col(i)` -/
def col (m : M3) (i : Fin 3) : V3 := fun a => m a i

/-- normalised base vectors as columns, Cell.cpp 17–20 -/
noncomputable def unitCols (h : M3) : M3 := fun a i => h a i / norm3 (col h i)

open Classical in
/-- Cell.cpp 6–37 `integrateAndUpdate`.  When it throws (16), `trsf`, `hSize` and `prevHSize` are changed already; the model does
not describe the cell after the exception. -/
noncomputable def integrate (dt : ℝ) (c : Cell) : Res Cell :=
  let trsf := c.trsf + (dt • c.velGrad) * c.trsf
  let hSize := c.hSize + (dt • c.velGrad) * c.hSize
  if hSize.det = 0 then .throws
  else .ok { c with
    trsf := trsf
    invTrsf := trsf⁻¹
    prevHSize := c.hSize
    vGradTimesPrevH := c.velGrad * c.hSize
    hSize := hSize
    size := fun i => norm3 (col hSize i)
    shear := unitCols hSize
    unshear := (unitCols hSize)⁻¹
    hasShear := decide (hSize 0 1 ≠ 0 ∨ hSize 0 2 ≠ 0 ∨ hSize 1 0 ≠ 0 ∨ hSize 1 2 ≠ 0 ∨ hSize 2 0 ≠ 0 ∨ hSize 2 1 ≠ 0) }

/-- Cell.hpp 126 `postLoad` -/
noncomputable def postLoad (c : Cell) : Res Cell := integrate 0 c

/-- the attributes after the constructor's initialisers, Cell.hpp 153–163, before `integrateAndUpdate(0)` -/
noncomputable def raw : Cell :=
  { hSize := 1, prevHSize := 1, refHSize := 1, trsf := 1, invTrsf := 1, vGradTimesPrevH := 0, velGrad := 0, nextVelGrad := 0,
    prevVelGrad := 0, velGradChanged := false, size := 0, shear := 0, unshear := 0, hasShear := false }

/-- Cell.hpp 163: the constructor -/
noncomputable def newCell : Res Cell := integrate 0 raw

/-- Cell.hpp 25 `setSize` -/
noncomputable def setSize (s : V3) (c : Cell) : Res Cell :=
  let h : M3 := fun a k => c.hSize a k * (s k / norm3 (col c.hSize k))
  postLoad { c with hSize := h, refHSize := h }

/-- Cell.hpp 99 `setHSize` -/
noncomputable def setHSize (m : M3) (c : Cell) : Res Cell := postLoad { c with hSize := m, refHSize := m }

/-- Cell.hpp 102 `setTrsf` -/
noncomputable def setTrsf (m : M3) (c : Cell) : Res Cell := postLoad { c with trsf := m }

/-- Cell.hpp 120 `setBox` -/
noncomputable def setBox (s : V3) (c : Cell) : Res Cell :=
  (setHSize (Matrix.diagonal s) c).bind fun c => postLoad { c with trsf := 1 }

/-- Cell.hpp 104 `setVelGrad` -/
def setVelGrad (m : M3) (c : Cell) : Cell := { c with nextVelGrad := m, velGradChanged := true }

open Classical in
/-- NewtonIntegrator.cpp 94–96: the integrator takes over the velocity gradient asked for -/
noncomputable def takeOver (c : Cell) : Cell :=
  if c.velGradChanged = true ∨ c.nextVelGrad ≠ 0 then
    { c with velGrad := c.nextVelGrad, velGradChanged := false, nextVelGrad := 0 } else c

/-- NewtonIntegrator.cpp 211 -/
def rememberVelGrad (c : Cell) : Cell := { c with prevVelGrad := c.velGrad }

/-- one time step as far as the cell is concerned: Scene.cpp 89, then the integrator among the engines -/
noncomputable def cellStep (dt : ℝ) (c : Cell) : Res Cell := (integrate dt c).bind fun c => .ok (rememberVelGrad (takeOver c))

/-- Cell.hpp 107 `getHSize0` -/
noncomputable def hSize0 (c : Cell) : M3 := c.invTrsf * c.hSize

/-- Cell.hpp 92 `intrShiftPos` -/
def intrShiftPos (c : Cell) (k : Fin 3 → Int) : V3 := c.hSize *ᵥ (fun a => (k a : ℝ))

/-- Cell.hpp 93 `intrShiftVel` -/
def intrShiftVel (c : Cell) (k : Fin 3 → Int) : V3 := c.vGradTimesPrevH *ᵥ (fun a => (k a : ℝ))

/-- Cell.hpp 125 `getVolume` -/
noncomputable def volume (c : Cell) : ℝ := c.hSize.det

/-- Cell.hpp 79–80 `wrapPt` -/
noncomputable def wrapPt (c : Cell) (p : V3) : V3 := fun i => wrapNum (p i) (c.size i)

/-- Cell.hpp 82–83 `wrapPt` reporting the periods -/
noncomputable def wrapPtP (c : Cell) (p : V3) : Res (V3 × (Fin 3 → Int)) :=
  (wrapNumP (p 0) (c.size 0)).bind fun x => (wrapNumP (p 1) (c.size 1)).bind fun y => (wrapNumP (p 2) (c.size 2)).bind fun z =>
    .ok (![x.1, y.1, z.1], ![x.2, y.2, z.2])

/-- Cell.hpp 71 `wrapShearedPt`, with `unshearPt` (75) and `shearPt` (77) -/
noncomputable def wrapShearedPt (c : Cell) (p : V3) : V3 := c.shear *ᵥ wrapPt c (c.unshear *ᵥ p)

/-- Cell.hpp 73 `wrapShearedPt` reporting the periods -/
noncomputable def wrapShearedPtP (c : Cell) (p : V3) : Res (V3 × (Fin 3 → Int)) :=
  (wrapPtP c (c.unshear *ᵥ p)).bind fun r => .ok (c.shear *ᵥ r.1, r.2)

end Verif.Peri
