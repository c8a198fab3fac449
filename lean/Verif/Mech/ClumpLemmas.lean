import Verif.Mech.Clump
import Mathlib.Tactic.Positivity
import Mathlib.LinearAlgebra.Matrix.NonsingularInverse

/-!
# Quaternions from rotation matrices
-/
namespace Verif.Mech

/-- A 3×3 matrix given by its entries is a rotation: rows and columns orthonormal, and every entry equals
its cofactor. -/
structure SO3 (a b c d e f g h i : ℝ) : Prop where
  r0 : a * a + b * b + c * c = 1
  r1 : d * d + e * e + f * f = 1
  r2 : g * g + h * h + i * i = 1
  r01 : a * d + b * e + c * f = 0
  r02 : a * g + b * h + c * i = 0
  r12 : d * g + e * h + f * i = 0
  c0 : a * a + d * d + g * g = 1
  c1 : b * b + e * e + h * h = 1
  c2 : c * c + f * f + i * i = 1
  c01 : a * b + d * e + g * h = 0
  c02 : a * c + d * f + g * i = 0
  c12 : b * c + e * f + h * i = 0
  ka : a = e * i - f * h
  kb : b = f * g - d * i
  kc : c = d * h - e * g
  kd : d = c * h - b * i
  ke : e = a * i - c * g
  kf : f = b * g - a * h
  kg : g = b * f - c * e
  kh : h = c * d - a * f
  ki : i = a * e - b * d

/-- Cyclic renaming of the axes. -/
theorem SO3.cyc {a b c d e f g h i : ℝ} (s : SO3 a b c d e f g h i) : SO3 e f d h i g b c a where
  r0 := by linarith [s.r1]
  r1 := by linarith [s.r2]
  r2 := by linarith [s.r0]
  r01 := by linarith [s.r12]
  r02 := by linarith [s.r01]
  r12 := by linarith [s.r02]
  c0 := by linarith [s.c1]
  c1 := by linarith [s.c2]
  c2 := by linarith [s.c0]
  c01 := by linarith [s.c12]
  c02 := by linarith [s.c01]
  c12 := by linarith [s.c02]
  ka := by linarith [s.ke]
  kb := by linarith [s.kf]
  kc := by linarith [s.kd]
  kd := by linarith [s.kh]
  ke := by linarith [s.ki]
  kf := by linarith [s.kg]
  kg := by linarith [s.kb]
  kh := by linarith [s.kc]
  ki := by linarith [s.ka]

section
variable {a b c d e f g h i : ℝ} (s : SO3 a b c d e f g h i)
include s

theorem SO3.wx2 : (h - f) ^ 2 = (1 + (a + e + i)) * (1 + a - e - i) := by
  linear_combination s.r1 + s.r2 - s.c0 - 2 * s.ka

theorem SO3.wxy : (h - f) * (c - g) = (1 + (a + e + i)) * (d + b) := by
  linear_combination -s.c01 - s.r01 - s.kd - s.kb

theorem SO3.xy2 : (d + b) ^ 2 = (1 + a - e - i) * (1 + e - a - i) := by
  linear_combination s.r0 + s.r1 - s.c2 + 2 * s.ki

theorem SO3.xyz : (1 + a - e - i) * (f + h) = (d + b) * (g + c) := by
  linear_combination -s.r12 - s.c12 + s.kf + s.kh

theorem SO3.xwy : (1 + a - e - i) * (c - g) = (h - f) * (d + b) := by
  linear_combination s.kc - s.kg - s.r02 + s.c02

end

/-- A matrix is a rotation. -/
def IsRot (m : M3) : Prop := m.transpose * m = 1 ∧ m.det = 1

theorem IsRot.so3 {m : M3} (h : IsRot m) :
    SO3 (m 0 0) (m 0 1) (m 0 2) (m 1 0) (m 1 1) (m 1 2) (m 2 0) (m 2 1) (m 2 2) := by
  have h1 := h.1
  have h2 : m * m.transpose = 1 := mul_eq_one_comm.mp h1
  have hd := h.2
  rw [Matrix.det_fin_three] at hd
  have ent : ∀ (A B : M3) i j, (A * B) i j = A i 0 * B 0 j + A i 1 * B 1 j + A i 2 * B 2 j := by
    intro A B i j
    rw [Matrix.mul_apply, Fin.sum_univ_three]
  have col : ∀ i j, m 0 i * m 0 j + m 1 i * m 1 j + m 2 i * m 2 j = (1 : M3) i j := by
    intro i j
    rw [← h1, ent]; rfl
  have row : ∀ i j, m i 0 * m j 0 + m i 1 * m j 1 + m i 2 * m j 2 = (1 : M3) i j := by
    intro i j
    rw [← h2, ent]; rfl
  have c00 := col 0 0
  have c11 := col 1 1
  have c22 := col 2 2
  have c01 := col 0 1
  have c02 := col 0 2
  have c12 := col 1 2
  have r00 := row 0 0
  have r11 := row 1 1
  have r22 := row 2 2
  have r01 := row 0 1
  have r02 := row 0 2
  have r12 := row 1 2
  -- m.adjugate = mᵀ
  have hadj : m.adjugate = m.transpose := by
    have := Matrix.mul_adjugate m
    rw [h.2, one_smul] at this
    calc m.adjugate = (m.transpose * m) * m.adjugate := by rw [h1, one_mul]
      _ = m.transpose * (m * m.adjugate) := by rw [mul_assoc]
      _ = m.transpose := by rw [this, mul_one]
  have cof : ∀ i j, m j i = m.adjugate i j := by intro i j; rw [hadj]; rfl
  rw [Matrix.adjugate_fin_three] at cof
  have k00 := cof 0 0
  have k10 := cof 0 1
  have k20 := cof 0 2
  have k01 := cof 1 0
  have k11 := cof 1 1
  have k21 := cof 1 2
  have k02 := cof 2 0
  have k12 := cof 2 1
  have k22 := cof 2 2
  simp at c00 c11 c22 c01 c02 c12 r00 r11 r22 r01 r02 r12 k00 k10 k20 k01 k11 k21 k02 k12 k22
  constructor <;> linarith

theorem pivot_pos (m : M3) (ht : ¬ m 0 0 + m 1 1 + m 2 2 > 0) :
    (¬ m 1 1 > m 0 0 ∧ ¬ m 2 2 > m 0 0 → 0 < m 0 0 - m 1 1 - m 2 2 + 1) ∧
    (m 1 1 > m 0 0 ∧ ¬ m 2 2 > m 1 1 → 0 < m 1 1 - m 2 2 - m 0 0 + 1) ∧
    (¬ (¬ m 1 1 > m 0 0 ∧ ¬ m 2 2 > m 0 0) → ¬ (m 1 1 > m 0 0 ∧ ¬ m 2 2 > m 1 1) →
      0 < m 2 2 - m 0 0 - m 1 1 + 1) := by
  refine ⟨fun h => by linarith [h.1, h.2], fun h => by linarith [h.1, h.2], fun h1 h2 => ?_⟩
  by_cases h11 : m 1 1 > m 0 0
  · have : m 2 2 > m 1 1 := by by_contra h; exact h2 ⟨h11, h⟩
    linarith
  · have : m 2 2 > m 0 0 := by by_contra h; exact h1 ⟨h11, h⟩
    linarith

/-- The conversion never yields the zero quaternion, whatever the matrix. -/
theorem ofMat_ne_zero (m : M3) : (Quat.ofMat m).sqNorm ≠ 0 := by
  have key : ∀ (p q r t : ℝ), 0 < t → p * p + q * q + r * r + (0.5 * Real.sqrt t) * (0.5 * Real.sqrt t) ≠ 0 := by
    intro p q r t ht
    have h1 : 0 < 0.5 * Real.sqrt t := by have := Real.sqrt_pos.mpr ht; positivity
    have h2 := mul_pos h1 h1
    have := mul_self_nonneg p
    have := mul_self_nonneg q
    have := mul_self_nonneg r
    exact ne_of_gt (by linarith)
  unfold Quat.ofMat
  simp only
  split_ifs with h1 h2 h3
  · have := key ((m 2 1 - m 1 2) * (0.5 / Real.sqrt (m 0 0 + m 1 1 + m 2 2 + 1)))
      ((m 0 2 - m 2 0) * (0.5 / Real.sqrt (m 0 0 + m 1 1 + m 2 2 + 1)))
      ((m 1 0 - m 0 1) * (0.5 / Real.sqrt (m 0 0 + m 1 1 + m 2 2 + 1))) _
      (show 0 < m 0 0 + m 1 1 + m 2 2 + 1 by linarith)
    intro e; apply this; rw [← e]; simp only [Quat.sqNorm]; ring
  · have hp := (pivot_pos m h1).1 h2
    have := key ((m 2 1 - m 1 2) * (0.5 / Real.sqrt (m 0 0 - m 1 1 - m 2 2 + 1)))
      ((m 1 0 + m 0 1) * (0.5 / Real.sqrt (m 0 0 - m 1 1 - m 2 2 + 1)))
      ((m 2 0 + m 0 2) * (0.5 / Real.sqrt (m 0 0 - m 1 1 - m 2 2 + 1))) _ hp
    intro e; apply this; rw [← e]; simp only [Quat.sqNorm]; ring
  · have hp := (pivot_pos m h1).2.1 h3
    have := key ((m 0 2 - m 2 0) * (0.5 / Real.sqrt (m 1 1 - m 2 2 - m 0 0 + 1)))
      ((m 0 1 + m 1 0) * (0.5 / Real.sqrt (m 1 1 - m 2 2 - m 0 0 + 1)))
      ((m 2 1 + m 1 2) * (0.5 / Real.sqrt (m 1 1 - m 2 2 - m 0 0 + 1))) _ hp
    intro e; apply this; rw [← e]; simp only [Quat.sqNorm]; ring
  · have hp := (pivot_pos m h1).2.2 h2 h3
    have := key ((m 1 0 - m 0 1) * (0.5 / Real.sqrt (m 2 2 - m 0 0 - m 1 1 + 1)))
      ((m 0 2 + m 2 0) * (0.5 / Real.sqrt (m 2 2 - m 0 0 - m 1 1 + 1)))
      ((m 1 2 + m 2 1) * (0.5 / Real.sqrt (m 2 2 - m 0 0 - m 1 1 + 1))) _ hp
    intro e; apply this; rw [← e]; simp only [Quat.sqNorm]

theorem m3_ext {A B : M3} (h : ∀ i j, A i j = B i j) : A = B := by
  ext i j; exact h i j

/-- The quaternion with largest part `w`. -/
theorem quat_w {a b c d e f g h i t : ℝ} (s : SO3 a b c d e f g h i) (ht : t * t = a + e + i + 1)
    (h0 : t ≠ 0) :
    let q : Quat := ⟨0.5 * t, (h - f) * (0.5 / t), (c - g) * (0.5 / t), (d - b) * (0.5 / t)⟩
    q.sqNorm = 1 ∧ q.toMat = !![a, b, c; d, e, f; g, h, i] := by
  intro q
  have hx := s.wx2
  have hy := s.cyc.wx2
  have hz := s.cyc.cyc.wx2
  have hxy := s.wxy
  have hyz := s.cyc.wxy
  have hzx := s.cyc.cyc.wxy
  have htt : t ^ 2 ≠ 0 := pow_ne_zero 2 h0
  have e1 : (0.5 : ℝ) = 1 / 2 := by norm_num
  have ht2 : t ^ 2 = a + e + i + 1 := by rw [← ht]; ring
  have X2 : q.x * q.x = (1 + a - e - i) / 4 := by
    simp only [q, e1]; field_simp; rw [ht2]; linear_combination 4 * hx
  have Y2 : q.y * q.y = (1 + e - a - i) / 4 := by
    simp only [q, e1]; field_simp; rw [ht2]; linear_combination 4 * hy
  have Z2 : q.z * q.z = (1 + i - a - e) / 4 := by
    simp only [q, e1]; field_simp; rw [ht2]; linear_combination 4 * hz
  have W2 : q.w * q.w = (1 + a + e + i) / 4 := by
    simp only [q, e1]; linear_combination ht / 4
  have WX : q.w * q.x = (h - f) / 4 := by simp only [q, e1]; field_simp; ring
  have WY : q.w * q.y = (c - g) / 4 := by simp only [q, e1]; field_simp; ring
  have WZ : q.w * q.z = (d - b) / 4 := by simp only [q, e1]; field_simp; ring
  have XY : q.x * q.y = (d + b) / 4 := by
    simp only [q, e1]; field_simp; rw [ht2]; linear_combination 4 * hxy
  have YZ : q.y * q.z = (h + f) / 4 := by
    simp only [q, e1]; field_simp; rw [ht2]; linear_combination 4 * hyz
  have ZX : q.z * q.x = (c + g) / 4 := by
    simp only [q, e1]; field_simp; rw [ht2]; linear_combination 4 * hzx
  refine ⟨by simp only [Quat.sqNorm]; linarith, ?_⟩
  apply m3_ext
  intro r k
  fin_cases r <;> fin_cases k <;> simp [Quat.toMat] <;> linarith

/-- The quaternion with largest part `x`. -/
theorem quat_x {a b c d e f g h i t : ℝ} (s : SO3 a b c d e f g h i) (ht : t * t = a - e - i + 1)
    (h0 : t ≠ 0) :
    let q : Quat := ⟨(h - f) * (0.5 / t), 0.5 * t, (d + b) * (0.5 / t), (g + c) * (0.5 / t)⟩
    q.sqNorm = 1 ∧ q.toMat = !![a, b, c; d, e, f; g, h, i] := by
  intro q
  have e1 : (0.5 : ℝ) = 1 / 2 := by norm_num
  have ht2 : t ^ 2 = a - e - i + 1 := by rw [← ht]; ring
  have hw := s.wx2
  have hy := s.xy2
  have hz := s.cyc.cyc.xy2
  have hyz := s.xyz
  have hwy := s.xwy
  have W2 : q.w * q.w = (1 + a + e + i) / 4 := by
    simp only [q, e1]; field_simp; rw [ht2]; linear_combination 4 * hw
  have X2 : q.x * q.x = (1 + a - e - i) / 4 := by
    simp only [q, e1]; linear_combination ht / 4
  have Y2 : q.y * q.y = (1 + e - a - i) / 4 := by
    simp only [q, e1]; field_simp; rw [ht2]; linear_combination 4 * hy
  have Z2 : q.z * q.z = (1 + i - a - e) / 4 := by
    simp only [q, e1]; field_simp; rw [ht2]; linear_combination 4 * hz
  have WX : q.w * q.x = (h - f) / 4 := by simp only [q, e1]; field_simp; ring
  have XY : q.x * q.y = (d + b) / 4 := by simp only [q, e1]; field_simp; ring
  have ZX : q.z * q.x = (c + g) / 4 := by simp only [q, e1]; field_simp; ring
  have YZ : q.y * q.z = (h + f) / 4 := by
    simp only [q, e1]; field_simp; rw [ht2]; linear_combination -4 * hyz
  have WY : q.w * q.y = (c - g) / 4 := by
    simp only [q, e1]; field_simp; rw [ht2]; linear_combination -4 * hwy
  have WZ : q.w * q.z = (d - b) / 4 := by
    simp only [q, e1]; field_simp; rw [ht2]
    linear_combination 4 * (s.c01 - s.r01 - s.kd + s.kb)
  refine ⟨by simp only [Quat.sqNorm]; linarith, ?_⟩
  apply m3_ext
  intro r k
  fin_cases r <;> fin_cases k <;> simp [Quat.toMat] <;> linarith

/-- Renaming the axes of a quaternion renames the axes of its matrix. -/
theorem toMat_cyc (w x y z : ℝ) (i j : Fin 3) :
    (Quat.mk w x y z).toMat i j = (Quat.mk w y z x).toMat (i + 2) (j + 2) := by
  fin_cases i <;> fin_cases j <;> simp [Quat.toMat] <;> ring

/-- **Eigen's conversion is right for rotations.** -/
theorem ofMat_rot {m : M3} (h : IsRot m) : (Quat.ofMat m).sqNorm = 1 ∧ (Quat.ofMat m).toMat = m := by
  have s := h.so3
  have hm : m = !![m 0 0, m 0 1, m 0 2; m 1 0, m 1 1, m 1 2; m 2 0, m 2 1, m 2 2] := by
    apply m3_ext
    intro i j
    fin_cases i <;> fin_cases j <;> rfl
  have sq : ∀ x : ℝ, 0 < x → Real.sqrt x * Real.sqrt x = x ∧ Real.sqrt x ≠ 0 := fun x hx =>
    ⟨Real.mul_self_sqrt hx.le, (Real.sqrt_pos.mpr hx).ne'⟩
  unfold Quat.ofMat
  simp only
  split_ifs with h1 h2 h3
  · obtain ⟨a, b⟩ := sq (m 0 0 + m 1 1 + m 2 2 + 1) (by linarith)
    have := quat_w s a b
    exact ⟨this.1, this.2.trans hm.symm⟩
  · obtain ⟨a, b⟩ := sq _ ((pivot_pos m h1).1 h2)
    have := quat_x s a b
    exact ⟨this.1, this.2.trans hm.symm⟩
  · obtain ⟨a, b⟩ := sq _ ((pivot_pos m h1).2.1 h3)
    obtain ⟨q1, q2⟩ := quat_x s.cyc a b
    constructor
    · refine Eq.trans ?_ q1; simp only [Quat.sqNorm]; ring
    · apply m3_ext
      intro i j
      rw [toMat_cyc, q2]
      fin_cases i <;> fin_cases j <;> rfl
  · obtain ⟨a, b⟩ := sq _ ((pivot_pos m h1).2.2 h2 h3)
    obtain ⟨q1, q2⟩ := quat_x s.cyc.cyc a b
    constructor
    · refine Eq.trans ?_ q1; simp only [Quat.sqNorm]; ring
    · apply m3_ext
      intro i j
      rw [toMat_cyc, toMat_cyc, q2]
      fin_cases i <;> fin_cases j <;> rfl

end Verif.Mech
