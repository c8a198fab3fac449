import Verif.Pack.Pred
import Verif.Pack.CloudLemmas
import Verif.Mech.GeomLemmas
import Mathlib.Tactic.FieldSimp

/-!
Lemmas about solids given by predicates.
-/
namespace Verif.Pack
open Verif.Mech
open scoped Classical

theorem norm3_nsub (a b : V3) : norm3 (a - b) = norm3 (b - a) := by
  unfold norm3 sqNorm dot
  congr 1
  simp only [Pi.sub_apply]
  ring

theorem norm3_add_le (a b : V3) : norm3 (a + b) ≤ norm3 a + norm3 b := by
  have h := norm3_sub_le a (-b)
  have e : norm3 (-b) = norm3 b := by
    unfold norm3 sqNorm dot
    congr 1
    simp only [Pi.neg_apply]
    ring
  rw [e, sub_neg_eq_add] at h
  exact h

theorem norm3_smul' (k : ℝ) (a : V3) : norm3 (k • a) = |k| * norm3 a := by
  unfold norm3
  rw [sqNorm_smul, Real.sqrt_mul (sq_nonneg k), Real.sqrt_sq_eq_abs]

theorem abs_dot_le (a b : V3) : |dot a b| ≤ norm3 a * norm3 b := by
  rw [abs_le]
  constructor
  · have h := dot_le_norms (-a) b
    have e : norm3 (-a) = norm3 a := by
      have := norm3_smul' (-1) a
      simpa using this
    rw [dot_neg_l, e] at h
    linarith
  · exact dot_le_norms a b

theorem comp_le (a : V3) (i : Fin 3) : |a i| ≤ norm3 a := by
  unfold norm3
  rw [← Real.sqrt_sq_eq_abs]
  apply Real.sqrt_le_sqrt
  unfold sqNorm dot
  fin_cases i <;> simp <;> nlinarith [mul_self_nonneg (a 0), mul_self_nonneg (a 1), mul_self_nonneg (a 2)]

theorem norm3_cross_le (a b : V3) : norm3 (cross a b) ≤ norm3 a * norm3 b := by
  unfold norm3
  rw [← Real.sqrt_mul (sqNorm_nonneg a), sqNorm_crossed]
  apply Real.sqrt_le_sqrt
  linarith [sq_nonneg (dot a b)]

theorem norm3_le_iff {a : V3} {r : ℝ} (hr : 0 ≤ r) : norm3 a ≤ r ↔ sqNorm a ≤ r ^ 2 := by
  unfold norm3
  rw [Real.sqrt_le_left hr]

theorem normalized_norm {v : V3} (h : v ≠ 0) : norm3 (normalized v) = 1 := by
  rw [normalized, norm3_smul', abs_of_nonneg (inv_nonneg.mpr (norm3_nonneg v)), inv_mul_cancel₀ (norm3_pos h).ne']

theorem normalized_le (v : V3) : norm3 (normalized v) ≤ 1 := by
  by_cases h : v = 0
  · subst h
    have : normalized 0 = 0 := by simp [normalized]
    rw [this, norm3_eq_zero.mpr rfl]
    norm_num
  · exact (normalized_norm h).le

/-! ### Cylinders -/

theorem along_eq {c1 c2 : V3} (x : V3) : along c1 c2 x = dot (x - c1) (c2 - c1) / norm3 (c2 - c1) := by
  unfold along
  dsimp only
  rw [dot_sub_left]
  by_cases h : norm3 (c2 - c1) = 0
  · rw [h]; simp
  · field_simp

theorem axisDist_eq {c1 c2 : V3} (x : V3) : axisDist c1 c2 x = norm3 (cross (x - c1) (c2 - c1)) / norm3 (c2 - c1) := by
  unfold axisDist
  have : cross (x - c1) (x - c2) = (-1 : ℝ) • cross (x - c1) (c2 - c1) := by
    apply v3_ext <;> simp <;> ring
  rw [this, norm3_smul']
  simp

theorem along_move {c1 c2 x y : V3} : |along c1 c2 y - along c1 c2 x| ≤ norm3 (y - x) := by
  by_cases h : norm3 (c2 - c1) = 0
  · rw [along_eq, along_eq, h]; simp [norm3_nonneg]
  have hp : 0 < norm3 (c2 - c1) := lt_of_le_of_ne (norm3_nonneg _) (Ne.symm h)
  rw [along_eq, along_eq, ← sub_div, ← dot_sub_left, abs_div, abs_of_pos hp, div_le_iff₀ hp]
  have e : y - c1 - (x - c1) = y - x := by abel
  rw [e]
  exact abs_dot_le _ _

theorem axisDist_move {c1 c2 x y : V3} : axisDist c1 c2 y ≤ axisDist c1 c2 x + norm3 (y - x) := by
  by_cases h : norm3 (c2 - c1) = 0
  · rw [axisDist_eq, axisDist_eq, h]; simp [norm3_nonneg]
  have hp : 0 < norm3 (c2 - c1) := lt_of_le_of_ne (norm3_nonneg _) (Ne.symm h)
  rw [axisDist_eq, axisDist_eq, div_add' _ _ _ h]
  apply div_le_div_of_nonneg_right _ hp.le
  have e : cross (y - c1) (c2 - c1) = cross (x - c1) (c2 - c1) + cross (y - x) (c2 - c1) := by
    apply v3_ext <;> simp <;> ring
  rw [e]
  exact (norm3_add_le _ _).trans (by linarith [norm3_cross_le (y - x) (c2 - c1)])

/-- A point next to an axis: its place along the axis and its offset. -/
theorem axis_split {c1 c2 : V3} (h : c1 ≠ c2) (x : V3) : ∃ w : V3, dot w (c2 - c1) = 0 ∧
    x = c1 + (along c1 c2 x / norm3 (c2 - c1)) • (c2 - c1) + w ∧ norm3 w = axisDist c1 c2 x := by
  have hne : c2 - c1 ≠ 0 := sub_ne_zero.mpr (Ne.symm h)
  have hp := norm3_pos hne
  have hsq := norm3_sq (c2 - c1)
  have hd : dot (c2 - c1) (c2 - c1) = norm3 (c2 - c1) * norm3 (c2 - c1) := hsq.symm
  refine ⟨x - c1 - (along c1 c2 x / norm3 (c2 - c1)) • (c2 - c1), ?_, by abel, ?_⟩
  · rw [dot_sub_left, dot_smul_l, hd, along_eq]
    field_simp
    ring
  · rw [axisDist_eq, along_eq]
    have h2 : sqNorm (x - c1 - (dot (x - c1) (c2 - c1) / norm3 (c2 - c1) / norm3 (c2 - c1)) • (c2 - c1)) =
        (norm3 (cross (x - c1) (c2 - c1)) / norm3 (c2 - c1)) ^ 2 := by
      have e (v h : V3) (k : ℝ) : sqNorm (v - k • h) = sqNorm v - 2 * k * dot v h + k ^ 2 * sqNorm h := by
        simp only [sqNorm, dot, Pi.sub_apply, Pi.smul_apply, smul_eq_mul]
        ring
      rw [div_pow, sq (norm3 (cross _ _)), norm3_sq, sqNorm_crossed, e, ← hsq]
      field_simp
      ring
    unfold norm3 at h2 ⊢
    rw [h2, Real.sqrt_sq (div_nonneg (Real.sqrt_nonneg _) (Real.sqrt_nonneg _))]

theorem along_of_split {c1 c2 w : V3} (h : c1 ≠ c2) {s : ℝ} (hw : dot w (c2 - c1) = 0) :
    along c1 c2 (c1 + s • (c2 - c1) + w) = s * norm3 (c2 - c1) := by
  have hp := norm3_pos (sub_ne_zero.mpr (Ne.symm h))
  have e : c1 + s • (c2 - c1) + w - c1 = s • (c2 - c1) + w := by abel
  rw [along_eq, e, dot_add_left, dot_smul_l, hw, show dot (c2 - c1) (c2 - c1) = norm3 (c2 - c1) * norm3 (c2 - c1) from (norm3_sq _).symm]
  field_simp
  ring

theorem axisDist_of_split {c1 c2 w : V3} (h : c1 ≠ c2) {s : ℝ} (hw : dot w (c2 - c1) = 0) :
    axisDist c1 c2 (c1 + s • (c2 - c1) + w) = norm3 w := by
  have hp := norm3_pos (sub_ne_zero.mpr (Ne.symm h))
  have e : cross (c1 + s • (c2 - c1) + w - c1) (c2 - c1) = cross w (c2 - c1) := by
    apply v3_ext <;> simp <;> ring
  have h2 : norm3 (cross w (c2 - c1)) = norm3 w * norm3 (c2 - c1) := by
    unfold norm3
    rw [sqNorm_crossed, hw, ← Real.sqrt_mul (sqNorm_nonneg w)]
    simp
  rw [axisDist_eq, e, h2]
  field_simp

/-- What `inCylinder` and `inHyperboloid` test, for a radius that may depend on the place. -/
theorem inside_cylinder {c1 c2 x : V3} {r pad : ℝ} (h : c1 ≠ c2) : (Solid.cylinder c1 c2 r).inside x pad ↔
    pad ≤ along c1 c2 x ∧ along c1 c2 x ≤ norm3 (c2 - c1) - pad ∧ axisDist c1 c2 x ≤ r - pad := by
  have hp := norm3_pos (sub_ne_zero.mpr (Ne.symm h))
  rw [Solid.inside]
  rw [if_neg hp.ne', zero_add]
  constructor
  · intro k
    by_cases k1 : along c1 c2 x < pad ∨ along c1 c2 x > norm3 (c2 - c1) - pad
    · rw [if_pos k1] at k; exact k.elim
    rw [if_neg k1] at k
    by_cases k2 : axisDist c1 c2 x > r - pad
    · rw [if_pos k2] at k; exact k.elim
    push Not at k1
    exact ⟨k1.1, k1.2, not_lt.mp k2⟩
  · rintro ⟨k1, k2, k3⟩
    rw [if_neg (by push Not; exact ⟨k1, k2⟩), if_neg (not_lt.mpr k3)]
    trivial

theorem skirt_eq {ht R a v : ℝ} (hh : 0 < ht) (h0 : 0 < a) (h1 : a ≤ R) :
    skirt ht R a v = some (Real.sqrt (a ^ 2 + (R ^ 2 - a ^ 2) * (2 * (v / ht) - 1) ^ 2)) := by
  have hR : 0 < R := lt_of_lt_of_le h0 h1
  have hq : 0 ≤ (R / a) ^ 2 - 1 := by
    have : 1 ≤ R / a := (one_le_div h0).mpr h1
    nlinarith
  rw [skirt, if_neg h0.ne']
  dsimp only
  rw [if_neg (not_lt.mpr hq)]
  by_cases k : (R / a) ^ 2 - 1 = 0
  · rw [if_pos k]
    have : R ^ 2 - a ^ 2 = 0 := by
      rw [div_pow] at k
      field_simp at k
      linarith
    rw [this, zero_mul, add_zero, Real.sqrt_sq h0.le]
  · rw [if_neg k]
    have hs : 0 < Real.sqrt ((R / a) ^ 2 - 1) := Real.sqrt_pos.mpr (lt_of_le_of_ne hq (Ne.symm k))
    congr 1
    have hu : (v / ht - 0.5) * ht / (ht / (2 * Real.sqrt ((R / a) ^ 2 - 1))) = (2 * (v / ht) - 1) * Real.sqrt ((R / a) ^ 2 - 1) := by
      field_simp
      ring
    rw [hu]
    have h2 : (2 * (v / ht) - 1) * Real.sqrt ((R / a) ^ 2 - 1) * ((2 * (v / ht) - 1) * Real.sqrt ((R / a) ^ 2 - 1)) =
        (2 * (v / ht) - 1) ^ 2 * ((R / a) ^ 2 - 1) := by
      have := Real.mul_self_sqrt hq
      calc _ = (2 * (v / ht) - 1) ^ 2 * (Real.sqrt ((R / a) ^ 2 - 1) * Real.sqrt ((R / a) ^ 2 - 1)) := by ring
        _ = _ := by rw [this]
    rw [h2]
    nth_rewrite 1 [← Real.sqrt_sq h0.le]
    rw [← Real.sqrt_mul (sq_nonneg a)]
    congr 1
    field_simp

theorem inside_hyperboloid {c1 c2 x : V3} {R a pad : ℝ} (h : c1 ≠ c2) (h0 : 0 < a) (h1 : a ≤ R) :
    (Solid.hyperboloid c1 c2 R a).inside x pad ↔ pad ≤ along c1 c2 x ∧ along c1 c2 x ≤ norm3 (c2 - c1) - pad ∧
      axisDist c1 c2 x ≤ Real.sqrt (a ^ 2 + (R ^ 2 - a ^ 2) * (2 * (along c1 c2 x / norm3 (c2 - c1)) - 1) ^ 2) - pad := by
  have hp := norm3_pos (sub_ne_zero.mpr (Ne.symm h))
  rw [Solid.inside]
  rw [if_neg hp.ne', zero_add, skirt_eq hp h0 h1]
  dsimp only
  constructor
  · intro k
    by_cases k1 : along c1 c2 x < pad ∨ along c1 c2 x > norm3 (c2 - c1) - pad
    · rw [if_pos k1] at k; exact k.elim
    rw [if_neg k1] at k
    by_cases k2 : axisDist c1 c2 x > Real.sqrt (a ^ 2 + (R ^ 2 - a ^ 2) * (2 * (along c1 c2 x / norm3 (c2 - c1)) - 1) ^ 2) - pad
    · rw [if_pos k2] at k; exact k.elim
    push Not at k1
    exact ⟨k1.1, k1.2, not_lt.mp k2⟩
  · rintro ⟨k1, k2, k3⟩
    rw [if_neg (by push Not; exact ⟨k1, k2⟩), if_neg (not_lt.mpr k3)]
    trivial

/-! ### Parallelepipeds -/

theorem triple_rot (x y z : V3) : dot y (cross z x) = dot x (cross y z) ∧ dot z (cross x y) = dot x (cross y z) := by
  constructor <;> simp [dot] <;> ring

theorem cramer (x y z v : V3) : dot x (cross y z) • v = dot v (cross y z) • x + dot v (cross z x) • y + dot v (cross x y) • z := by
  apply v3_ext <;> simp [dot] <;> ring

theorem normalized_dot {v w : V3} (hw : w ≠ 0) : dot v (normalized w) = dot v w / norm3 w := by
  rw [normalized, dot_smul_r]
  field_simp

/-- The six tests of `inParallelepiped`, for a pad. -/
theorem inside_piped {o a b c x : V3} {pad : ℝ} : (Solid.parallelepiped o a b c).inside x pad ↔
    pad ≤ dot (x - o) (normalized (cross (b - o) (c - o))) ∧ dot (x - a) (normalized (cross (b - o) (c - o))) ≤ -pad ∧
    pad ≤ dot (x - o) (normalized (cross (c - o) (a - o))) ∧ dot (x - b) (normalized (cross (c - o) (a - o))) ≤ -pad ∧
    pad ≤ dot (x - o) (normalized (cross (a - o) (b - o))) ∧ dot (x - c) (normalized (cross (a - o) (b - o))) ≤ -pad := by
  rw [Solid.inside]
  simp only [pipedPoint, pipedNormal, not_lt, gt_iff_lt]
  constructor
  · intro h
    have h0 := h 0
    have h1 := h 1
    have h2 := h 2
    have h3 := h 3
    have h4 := h 4
    have h5 := h 5
    simp [dot_neg_r] at h0 h1 h2 h3 h4 h5
    exact ⟨h0, h1, h2, h3, h4, h5⟩
  · rintro ⟨h0, h1, h2, h3, h4, h5⟩ i
    fin_cases i <;> simp [dot_neg_r] <;> assumption

theorem cross_ne_zero_of_triple {x y z : V3} (h : dot x (cross y z) ≠ 0) : cross y z ≠ 0 ∧ cross z x ≠ 0 ∧ cross x y ≠ 0 := by
  refine ⟨?_, ?_, ?_⟩
  · intro e; rw [e] at h; simp [dot] at h
  · intro e; rw [← (triple_rot x y z).1, e] at h; simp [dot] at h
  · intro e; rw [← (triple_rot x y z).2, e] at h; simp [dot] at h

end Verif.Pack
