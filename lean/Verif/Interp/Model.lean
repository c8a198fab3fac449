import Verif.Base
import Mathlib.Data.Real.Sqrt
import Mathlib.Algebra.Order.Floor.Ring

/-!
# Piecewise linear functions in scripts

`py/linterpolation.py`.  Real numbers for floating point ones; all exceptions of Python (assertions, divisions by zero, indices, values,
and raising a string, which is a `TypeError`) are `throws`.
-/
namespace Verif.Interp

/-- The determinant of `revIntegrateLinear`, lines 36-40. -/
noncomputable def det (I x0 y0 x1 y1 : ℝ) : ℝ :=
  (2 * (y0 - x0 * (y1 - y0) / (x1 - x0))) ^ 2 -
    4 * ((y1 - y0) / (x1 - x0)) * (x0 ^ 2 * (y1 - y0) / (x1 - x0) - 2 * x0 * y0 - 2 * I)

/-- One of the roots, line 41; `s` is the sign before the square root. -/
noncomputable def root (s I x0 y0 x1 y1 : ℝ) : ℝ :=
  (-(2 * (y0 - x0 * (y1 - y0) / (x1 - x0))) + s * √(det I x0 y0 x1 y1)) / (2 * ((y1 - y0) / (x1 - x0)))

open Classical in
/-- Lines 42-45: which of two roots is in the interval. -/
noncomputable def pick (p q x0 x1 : ℝ) : Res ℝ :=
  if x0 ≤ p ∧ p ≤ x1 then (if x0 ≤ q ∧ q ≤ x1 then .throws else .ok p)
  else if x0 ≤ q ∧ q ≤ x1 then .ok q else .throws

open Classical in
/-- `revIntegrateLinear`, lines 27-45, with floating point numbers. -/
noncomputable def rev (I x0 y0 x1 y1 : ℝ) : Res ℝ :=
  if y1 - y0 = 0 then (if y0 = 0 then .throws else .ok ((x0 * y0 + I) / y0))
  else if x1 - x0 = 0 then .throws
  else if det I x0 y0 x1 y1 > 0 then pick (root 1 I x0 y0 x1 y1) (root (-1) I x0 y0 x1 y1) x0 x1
  else .throws

/-- The sum in `integral`, lines 51-53. -/
noncomputable def area : List ℝ → List ℝ → ℝ
  | x0 :: x1 :: xs, y0 :: y1 :: ys => (x1 - x0) * 0.5 * (y1 + y0) + area (x1 :: xs) (y1 :: ys)
  | _, _ => 0

/-- `integral`, lines 47-53. -/
noncomputable def integral (x y : List ℝ) : Res ℝ := if x.length = y.length then .ok (area x y) else .throws

open Classical in
/-- The loop of `xFractionalFromIntegral`, lines 59-65, from a point on; `sum` is the integral up to it. -/
noncomputable def frac (sum I : ℝ) : List ℝ → List ℝ → Res ℝ
  | x0 :: x1 :: xs, y0 :: y1 :: ys =>
    if sum + (x1 - x0) * 0.5 * (y1 + y0) > I then rev (I - sum) x0 y0 x1 y1
    else frac (sum + (x1 - x0) * 0.5 * (y1 + y0)) I (x1 :: xs) (y1 :: ys)
  | _, _ => .throws

/-- `xFractionalFromIntegral`, lines 55-65. -/
noncomputable def xFractional (I : ℝ) (x y : List ℝ) : Res ℝ := frac 0 I x y

open Classical in
/-- `xFromIntegral`, lines 68-78. -/
noncomputable def xFrom (I : ℝ) (x y : List ℝ) : Res ℝ :=
  if x = [] then .throws
  else (integral x y).bind fun T =>
    if T = 0 then .throws
    else (xFractional (I - ⌊I / T⌋ * T) x y).bind fun f => .ok ((x.getLastD 0 - x.headD 0) * ⌊I / T⌋ + f)

open Classical in
/-- `sanitizeInterpolation`, lines 80-90. -/
noncomputable def sanitize (x y : List ℝ) (x0 x1 : ℝ) : Res (List ℝ × List ℝ) :=
  if x = [] then .throws
  else if y = [] ∧ (x0 < x.headD 0 ∨ x1 > x.getLastD 0) then .throws
  else .ok ((if x0 < x.headD 0 then [x0] else []) ++ x ++ (if x1 > x.getLastD 0 then [x1] else []),
    (if x0 < x.headD 0 then [y.headD 0] else []) ++ y ++ (if x1 > x.getLastD 0 then [y.getLastD 0] else []))

/-! With integer coordinates, `/` in Python 2 rounds down. -/

/-- The coefficients `a`, `b` and `c` of line 39 for integers, `c` without `2*I`. -/
def coefs (x0 y0 x1 y1 : ℤ) : ℤ × ℤ × ℤ :=
  (Int.fdiv (y1 - y0) (x1 - x0), 2 * (y0 - Int.fdiv (x0 * (y1 - y0)) (x1 - x0)),
    Int.fdiv (x0 ^ 2 * (y1 - y0)) (x1 - x0) - 2 * x0 * y0)

open Classical in
/-- `revIntegrateLinear`, lines 27-45, with integer coordinates and a floating point integral. -/
noncomputable def revInt (I : ℝ) (x0 y0 x1 y1 : ℤ) : Res ℝ :=
  if y1 - y0 = 0 then (if y0 = 0 then .throws else .ok ((x0 * y0 + I) / y0))
  else if x1 - x0 = 0 then .throws
  else
    let k := coefs x0 y0 x1 y1
    let d : ℝ := k.2.1 ^ 2 - 4 * k.1 * (k.2.2 - 2 * I)
    if d > 0 then
      if k.1 = 0 then .throws
      else pick ((-k.2.1 + √d) / (2 * k.1)) ((-k.2.1 - √d) / (2 * k.1)) x0 x1
    else .throws

end Verif.Interp
