import Mathlib.Analysis.Real.Sqrt
import Mathlib.Data.Fin.VecNotation
import Mathlib.LinearAlgebra.Matrix.Notation
import Mathlib.Tactic.Ring
import Mathlib.Tactic.FinCases
import Mathlib.Tactic.Linarith
import Mathlib.Tactic.LinearCombination

/-!
# Vectors, quaternions and matrices

`Vector3r`, `Quaternionr`, `Matrix3r` (lib/base/Math.hpp 60-80) are Eigen types over `Real`.  They
are modelled over the real numbers: rounding, infinities and NaN are not modelled.
-/
namespace Verif.Mech

/-- `Vector3r`, lib/base/Math.hpp 101. -/
abbrev V3 := Fin 3 → ℝ

/-- `Matrix3r`, lib/base/Math.hpp 109. -/
abbrev M3 := Matrix (Fin 3) (Fin 3) ℝ

/-- Eigen `a.cross(b)`. -/
def cross (a b : V3) : V3 :=
  ![a 1 * b 2 - a 2 * b 1, a 2 * b 0 - a 0 * b 2, a 0 * b 1 - a 1 * b 0]

/-- Eigen `a.dot(b)`. -/
def dot (a b : V3) : ℝ := a 0 * b 0 + a 1 * b 1 + a 2 * b 2

/-- Eigen `a.squaredNorm()`. -/
def sqNorm (a : V3) : ℝ := dot a a

/-- Eigen `a.norm()`. -/
noncomputable def norm3 (a : V3) : ℝ := Real.sqrt (sqNorm a)

/-- `Quaternionr`, lib/base/Math.hpp 115. -/
@[ext] structure Quat where
  w : ℝ
  x : ℝ
  y : ℝ
  z : ℝ

namespace Quat

/-- `Quaternionr::Identity()`. -/
def one : Quat := ⟨1, 0, 0, 0⟩

/-- Eigen quaternion product (Hamilton product). -/
def mul (a b : Quat) : Quat :=
  ⟨a.w * b.w - a.x * b.x - a.y * b.y - a.z * b.z,
   a.w * b.x + a.x * b.w + a.y * b.z - a.z * b.y,
   a.w * b.y + a.y * b.w + a.z * b.x - a.x * b.z,
   a.w * b.z + a.z * b.w + a.x * b.y - a.y * b.x⟩

/-- Eigen `q.conjugate()`. -/
def conj (q : Quat) : Quat := ⟨q.w, -q.x, -q.y, -q.z⟩

/-- Eigen `q.squaredNorm()`. -/
def sqNorm (q : Quat) : ℝ := q.w * q.w + q.x * q.x + q.y * q.y + q.z * q.z

/-- Eigen `q.vec()`. -/
def vec (q : Quat) : V3 := ![q.x, q.y, q.z]

/-- Eigen `q * v` (`QuaternionBase::_transformVector`): `uv = 2 vec×v; v + w uv + vec×uv`. -/
def rot (q : Quat) (v : V3) : V3 :=
  let uv := cross q.vec v + cross q.vec v
  v + q.w • uv + cross q.vec uv

/-- Eigen `q.toRotationMatrix()`. -/
def toMat (q : Quat) : M3 :=
  !![1 - (2 * q.y * q.y + 2 * q.z * q.z), 2 * q.y * q.x - 2 * q.z * q.w, 2 * q.z * q.x + 2 * q.y * q.w;
     2 * q.y * q.x + 2 * q.z * q.w, 1 - (2 * q.x * q.x + 2 * q.z * q.z), 2 * q.z * q.y - 2 * q.x * q.w;
     2 * q.z * q.x - 2 * q.y * q.w, 2 * q.z * q.y + 2 * q.x * q.w, 1 - (2 * q.x * q.x + 2 * q.y * q.y)]

/-- Eigen `q.normalize()`: Eigen 3.3 leaves a zero quaternion alone, as does division by zero in
`ℝ`. -/
noncomputable def normalize (q : Quat) : Quat :=
  let n := Real.sqrt q.sqNorm
  ⟨q.w / n, q.x / n, q.y / n, q.z / n⟩

end Quat

/-! ## Algebra -/

theorem v3_ext {a b : V3} (h0 : a 0 = b 0) (h1 : a 1 = b 1) (h2 : a 2 = b 2) : a = b := by
  funext i
  fin_cases i
  · exact h0
  · exact h1
  · exact h2

@[simp] theorem cross_zero' (a b : V3) : cross a b 0 = a 1 * b 2 - a 2 * b 1 := rfl
@[simp] theorem cross_one' (a b : V3) : cross a b 1 = a 2 * b 0 - a 0 * b 2 := rfl
@[simp] theorem cross_two' (a b : V3) : cross a b 2 = a 0 * b 1 - a 1 * b 0 := rfl
@[simp] theorem vec_zero' (q : Quat) : q.vec 0 = q.x := rfl
@[simp] theorem vec_one' (q : Quat) : q.vec 1 = q.y := rfl
@[simp] theorem vec_two' (q : Quat) : q.vec 2 = q.z := rfl

theorem sqNorm_nonneg (a : V3) : 0 ≤ sqNorm a := by
  unfold sqNorm dot
  nlinarith [mul_self_nonneg (a 0), mul_self_nonneg (a 1), mul_self_nonneg (a 2)]

theorem sqNorm_eq_zero {a : V3} : sqNorm a = 0 ↔ a = 0 := by
  unfold sqNorm dot
  constructor
  · intro h
    have h0 := mul_self_nonneg (a 0)
    have h1 := mul_self_nonneg (a 1)
    have h2 := mul_self_nonneg (a 2)
    apply v3_ext
    · exact mul_self_eq_zero.mp (by linarith)
    · exact mul_self_eq_zero.mp (by linarith)
    · exact mul_self_eq_zero.mp (by linarith)
  · rintro rfl
    simp

theorem sqNorm_smul (c : ℝ) (a : V3) : sqNorm (c • a) = c ^ 2 * sqNorm a := by
  simp only [sqNorm, dot, Pi.smul_apply, smul_eq_mul]
  ring

theorem norm3_sq (a : V3) : norm3 a * norm3 a = sqNorm a :=
  Real.mul_self_sqrt (sqNorm_nonneg a)

theorem norm3_nonneg (a : V3) : 0 ≤ norm3 a := Real.sqrt_nonneg _

theorem norm3_eq_zero {a : V3} : norm3 a = 0 ↔ a = 0 := by
  rw [← sqNorm_eq_zero, ← norm3_sq]
  exact mul_self_eq_zero.symm

theorem norm3_pos {a : V3} (h : a ≠ 0) : 0 < norm3 a :=
  lt_of_le_of_ne (norm3_nonneg a) fun e => h (norm3_eq_zero.mp e.symm)

namespace Quat

theorem mul_assoc' (a b c : Quat) : (a.mul b).mul c = a.mul (b.mul c) := by
  ext <;> simp only [mul] <;> ring

theorem sqNorm_mul (a b : Quat) : (a.mul b).sqNorm = a.sqNorm * b.sqNorm := by
  simp only [mul, sqNorm]; ring

theorem sqNorm_conj (a : Quat) : a.conj.sqNorm = a.sqNorm := by
  simp only [conj, sqNorm]; ring

theorem sqNorm_nonneg (q : Quat) : 0 ≤ q.sqNorm := by
  unfold sqNorm
  nlinarith [mul_self_nonneg q.w, mul_self_nonneg q.x, mul_self_nonneg q.y, mul_self_nonneg q.z]

@[simp] theorem one_mul' (q : Quat) : one.mul q = q := by ext <;> simp [mul, one]
@[simp] theorem mul_one' (q : Quat) : q.mul one = q := by ext <;> simp [mul, one]

theorem mul_conj_self {q : Quat} (h : q.sqNorm = 1) : q.mul q.conj = one := by
  unfold sqNorm at h
  ext <;> simp only [mul, conj, one] <;> linarith

theorem conj_mul_self {q : Quat} (h : q.sqNorm = 1) : q.conj.mul q = one := by
  unfold sqNorm at h
  ext <;> simp only [mul, conj, one] <;> linarith

/-- Rotation by a unit quaternion preserves scalar products, hence all distances and angles. -/
theorem dot_rot {q : Quat} (h : q.sqNorm = 1) (u v : V3) : dot (q.rot u) (q.rot v) = dot u v := by
  have hw : q.w * q.w = 1 - q.x * q.x - q.y * q.y - q.z * q.z := by
    unfold sqNorm at h; linarith
  simp only [rot, dot, Pi.add_apply, Pi.smul_apply, smul_eq_mul, cross_zero', cross_one', cross_two',
    vec_zero', vec_one', vec_two']
  linear_combination (4 * (( q.y * u 2 - q.z * u 1) * (q.y * v 2 - q.z * v 1)
    + (q.z * u 0 - q.x * u 2) * (q.z * v 0 - q.x * v 2)
    + (q.x * u 1 - q.y * u 0) * (q.x * v 1 - q.y * v 0))) * hw

theorem rot_add (q : Quat) (u v : V3) : q.rot (u + v) = q.rot u + q.rot v := by
  apply v3_ext <;>
  · simp only [rot, Pi.add_apply, Pi.smul_apply, smul_eq_mul, cross_zero', cross_one', cross_two',
      vec_zero', vec_one', vec_two']
    ring

theorem rot_smul (q : Quat) (c : ℝ) (v : V3) : q.rot (c • v) = c • q.rot v := by
  apply v3_ext <;>
  · simp only [rot, Pi.add_apply, Pi.smul_apply, smul_eq_mul, cross_zero', cross_one', cross_two',
      vec_zero', vec_one', vec_two']
    ring

theorem rot_neg (q : Quat) (v : V3) : q.rot (-v) = -q.rot v := by
  have := rot_smul q (-1) v
  simpa using this

theorem rot_sub (q : Quat) (u v : V3) : q.rot (u - v) = q.rot u - q.rot v := by
  rw [sub_eq_add_neg, rot_add, rot_neg, ← sub_eq_add_neg]

/-- A vector as a quaternion without scalar part. -/
def pure (v : V3) : Quat := ⟨0, v 0, v 1, v 2⟩

theorem sandwich {q : Quat} (h : q.sqNorm = 1) (v : V3) :
    (q.mul (pure v)).mul q.conj = pure (q.rot v) := by
  unfold sqNorm at h
  ext
  · simp only [mul, conj, pure]; ring
  · simp only [mul, conj, pure, rot, Pi.add_apply, Pi.smul_apply, smul_eq_mul, cross_zero',
      cross_one', cross_two', vec_zero', vec_one', vec_two']
    linear_combination v 0 * h
  · simp only [mul, conj, pure, rot, Pi.add_apply, Pi.smul_apply, smul_eq_mul, cross_zero',
      cross_one', cross_two', vec_zero', vec_one', vec_two']
    linear_combination v 1 * h
  · simp only [mul, conj, pure, rot, Pi.add_apply, Pi.smul_apply, smul_eq_mul, cross_zero',
      cross_one', cross_two', vec_zero', vec_one', vec_two']
    linear_combination v 2 * h

theorem pure_inj {u v : V3} (h : pure u = pure v) : u = v := by
  injection h with _ h0 h1 h2
  exact v3_ext h0 h1 h2

theorem conj_mul (p q : Quat) : (p.mul q).conj = q.conj.mul p.conj := by
  ext <;> simp only [mul, conj] <;> ring

theorem rot_mul {p q : Quat} (hp : p.sqNorm = 1) (hq : q.sqNorm = 1) (v : V3) :
    (p.mul q).rot v = p.rot (q.rot v) := by
  have hpq : (p.mul q).sqNorm = 1 := by rw [sqNorm_mul, hp, hq, mul_one]
  apply pure_inj
  rw [← sandwich hpq, ← sandwich hp, ← sandwich hq, conj_mul]
  simp only [mul_assoc']

@[simp] theorem rot_one (v : V3) : one.rot v = v := by
  apply v3_ext <;> simp [rot, one]

theorem rot_conj_rot {q : Quat} (h : q.sqNorm = 1) (v : V3) : q.rot (q.conj.rot v) = v := by
  rw [← rot_mul h (by rw [sqNorm_conj, h]), mul_conj_self h, rot_one]

theorem conj_rot_rot {q : Quat} (h : q.sqNorm = 1) (v : V3) : q.conj.rot (q.rot v) = v := by
  rw [← rot_mul (by rw [sqNorm_conj, h]) h, conj_mul_self h, rot_one]

theorem rot_cross {q : Quat} (h : q.sqNorm = 1) (u v : V3) :
    q.rot (cross u v) = cross (q.rot u) (q.rot v) := by
  have e : ∀ a b : V3, pure (cross a b) =
      ⟨0, (((pure a).mul (pure b)).x - ((pure b).mul (pure a)).x) / 2,
        (((pure a).mul (pure b)).y - ((pure b).mul (pure a)).y) / 2,
        (((pure a).mul (pure b)).z - ((pure b).mul (pure a)).z) / 2⟩ := by
    intro a b
    ext <;> simp only [pure, mul, cross_zero', cross_one', cross_two'] <;> ring
  have hs : ∀ a b : V3, (pure (q.rot a)).mul (pure (q.rot b)) =
      (q.mul ((pure a).mul (pure b))).mul q.conj := by
    intro a b
    rw [← sandwich h a, ← sandwich h b]
    have : ∀ A B : Quat, ((q.mul A).mul q.conj).mul ((q.mul B).mul q.conj) =
        ((q.mul A).mul ((q.conj.mul q).mul B)).mul q.conj := by
      intro A B; simp only [mul_assoc']
    rw [this, conj_mul_self h, one_mul', mul_assoc' q]
  apply pure_inj
  rw [← sandwich h, e, e, hs, hs]
  ext <;> simp only [mul, conj] <;> ring

theorem normalize_sqNorm {q : Quat} (h : q.sqNorm ≠ 0) : q.normalize.sqNorm = 1 := by
  have hn : Real.sqrt q.sqNorm * Real.sqrt q.sqNorm = q.sqNorm := Real.mul_self_sqrt q.sqNorm_nonneg
  have h0 : Real.sqrt q.sqNorm ≠ 0 := fun e => h (by rw [← hn, e, mul_zero])
  have : q.normalize.sqNorm = q.sqNorm / (Real.sqrt q.sqNorm * Real.sqrt q.sqNorm) := by
    simp only [normalize, sqNorm]
    generalize Real.sqrt _ = n
    ring
  rw [this, hn, div_self h]

theorem normalize_of_unit {q : Quat} (h : q.sqNorm = 1) : q.normalize = q := by
  simp [normalize, h]

theorem toMat_mulVec (q : Quat) (v : V3) : q.toMat.mulVec v = q.rot v := by
  apply v3_ext <;>
  · simp [toMat, Matrix.mulVec, dotProduct, Fin.sum_univ_three, rot]
    ring

end Quat

theorem dot_comm (a b : V3) : dot a b = dot b a := by simp only [dot]; ring

theorem dot_rot_conj {q : Quat} (h : q.sqNorm = 1) (u v : V3) :
    dot u (q.rot v) = dot (q.conj.rot u) v := by
  conv_lhs => rw [← Quat.rot_conj_rot h u]
  rw [Quat.dot_rot h]

theorem dot_transpose (M : M3) (a b : V3) : dot a (M.transpose.mulVec b) = dot (M.mulVec a) b := by
  simp [dot, Matrix.mulVec, dotProduct, Fin.sum_univ_three, Matrix.transpose]
  ring

theorem rotEnergy_mat (q : Quat) (I ω : V3) :
    dot ω ((q.toMat.transpose * Matrix.diagonal I * q.toMat).mulVec ω) =
      I 0 * q.rot ω 0 ^ 2 + I 1 * q.rot ω 1 ^ 2 + I 2 * q.rot ω 2 ^ 2 := by
  have e : (q.toMat.transpose * Matrix.diagonal I * q.toMat).mulVec ω =
      q.toMat.transpose.mulVec ((Matrix.diagonal I).mulVec (q.toMat.mulVec ω)) := by
    simp only [Matrix.mulVec_mulVec, Matrix.mul_assoc]
  rw [e, dot_transpose, Quat.toMat_mulVec]
  simp [dot, Matrix.mulVec_diagonal]
  ring

theorem sqNorm_rows {q : Quat} (h : q.sqNorm = 1) (ω : V3) :
    q.rot ω 0 ^ 2 + q.rot ω 1 ^ 2 + q.rot ω 2 ^ 2 = sqNorm ω := by
  have := Quat.dot_rot h ω ω
  simp only [sqNorm]
  rw [← this]; simp only [dot]; ring

theorem sqNorm_cols {q : Quat} (h : q.sqNorm = 1) (ω : V3) :
    dot ω (q.rot ![1, 0, 0]) ^ 2 + dot ω (q.rot ![0, 1, 0]) ^ 2 + dot ω (q.rot ![0, 0, 1]) ^ 2 =
      sqNorm ω := by
  have h' : q.conj.sqNorm = 1 := by rw [Quat.sqNorm_conj, h]
  rw [dot_rot_conj h, dot_rot_conj h, dot_rot_conj h, ← sqNorm_rows h' ω]
  simp [dot]

end Verif.Mech
