import Verif.Interp.Model
import Mathlib.MeasureTheory.Integral.IntervalIntegral.FundThmCalculus
import Mathlib.MeasureTheory.Integral.IntervalIntegral.Periodic
import Mathlib.Topology.Order.Basic
import Mathlib.Analysis.Calculus.Deriv.Pow
import Mathlib.Analysis.Calculus.Deriv.Mul
import Mathlib.Analysis.Calculus.Deriv.Add
import Mathlib.Tactic.Linarith
import Mathlib.Tactic.FieldSimp

/-!
# The function meant, and lemmas
-/
namespace Verif.Interp

/-- The line through two points. -/
noncomputable def line (x0 y0 x1 y1 t : ℝ) : ℝ := y0 + (y1 - y0) / (x1 - x0) * (t - x0)

/-- The piecewise linear function through points, specification: lines between neighbours, constant beyond the last point. -/
noncomputable def pl : List ℝ → List ℝ → ℝ → ℝ
  | x0 :: x1 :: xs, y0 :: y1 :: ys, t => if t ≤ x1 then line x0 y0 x1 y1 t else pl (x1 :: xs) (y1 :: ys) t
  | _, y0 :: _, _ => y0
  | _, _, _ => 0

theorem line_left (x0 y0 x1 y1 : ℝ) : line x0 y0 x1 y1 x0 = y0 := by simp [line]

theorem line_right {x0 x1 : ℝ} (y0 y1 : ℝ) (h : x0 < x1) : line x0 y0 x1 y1 x1 = y1 := by
  unfold line
  have : x1 - x0 ≠ 0 := by linarith
  field_simp
  ring

/-- At the first point. -/
theorem pl_head (x0 : ℝ) (xs : List ℝ) (y0 : ℝ) (ys : List ℝ) (h : (x0 :: xs).Pairwise (· < ·)) : pl (x0 :: xs) (y0 :: ys) x0 = y0 := by
  cases xs with
  | nil => simp [pl]
  | cons x1 xs =>
    cases ys with
    | nil => simp [pl]
    | cons y1 ys =>
      have : x0 < x1 := (List.pairwise_cons.mp h).1 x1 List.mem_cons_self
      simp only [pl, if_pos this.le, line_left]

theorem line_cont (x0 y0 x1 y1 : ℝ) : Continuous (line x0 y0 x1 y1) := by
  unfold line
  fun_prop

theorem pl_cont : ∀ (x y : List ℝ), x.Pairwise (· < ·) → Continuous (pl x y)
  | [], [], _ => by simp only [pl]; exact continuous_const
  | [], _ :: _, _ => by simp only [pl]; exact continuous_const
  | [_], [], _ => by simp only [pl]; exact continuous_const
  | [_], _ :: _, _ => by simp only [pl]; exact continuous_const
  | _ :: _ :: _, [], _ => by simp only [pl]; exact continuous_const
  | _ :: _ :: _, [_], _ => by simp only [pl]; exact continuous_const
  | x0 :: x1 :: xs, y0 :: y1 :: ys, h => by
    have h01 : x0 < x1 := (List.pairwise_cons.mp h).1 x1 List.mem_cons_self
    have h' := (List.pairwise_cons.mp h).2
    have ih := pl_cont (x1 :: xs) (y1 :: ys) h'
    have : pl (x0 :: x1 :: xs) (y0 :: y1 :: ys) = fun t => if t ≤ x1 then line x0 y0 x1 y1 t else pl (x1 :: xs) (y1 :: ys) t := by
      funext t; simp only [pl]
    rw [this]
    refine Continuous.if_le (line_cont _ _ _ _) ih continuous_id continuous_const ?_
    intro t ht
    rw [ht, line_right _ _ h01, pl_head _ _ _ _ h']

/-- The integral of a line. -/
theorem int_line (x0 y0 x1 y1 X : ℝ) :
    ∫ t in x0..X, line x0 y0 x1 y1 t = y0 * (X - x0) + (y1 - y0) / (x1 - x0) * (X - x0) ^ 2 / 2 := by
  have hd : ∀ t, HasDerivAt (fun t => y0 * (t - x0) + (y1 - y0) / (x1 - x0) * (t - x0) ^ 2 / 2) (line x0 y0 x1 y1 t) t := by
    intro t
    have h1 : HasDerivAt (fun t : ℝ => t - x0) 1 t := (hasDerivAt_id t).sub_const x0
    have h2 := (h1.const_mul y0).add (((h1.pow 2).const_mul ((y1 - y0) / (x1 - x0))).div_const 2)
    refine h2.congr_deriv ?_
    unfold line
    norm_num
    ring
  rw [intervalIntegral.integral_eq_sub_of_hasDerivAt (fun t _ => hd t) ((line_cont _ _ _ _).intervalIntegrable _ _)]
  ring

/-- Up to the second point. -/
theorem int_first {x0 x1 X : ℝ} (y0 y1 : ℝ) (xs ys : List ℝ) (h0 : x0 ≤ X) (h1 : X ≤ x1) :
    ∫ t in x0..X, pl (x0 :: x1 :: xs) (y0 :: y1 :: ys) t = y0 * (X - x0) + (y1 - y0) / (x1 - x0) * (X - x0) ^ 2 / 2 := by
  rw [← int_line]
  apply intervalIntegral.integral_congr
  intro t ht
  rw [Set.uIcc_of_le h0] at ht
  simp only [pl]
  rw [if_pos (ht.2.trans h1)]

/-- Beyond the second point. -/
theorem int_next {x0 x1 X : ℝ} (y0 y1 : ℝ) (xs ys : List ℝ) (h : (x0 :: x1 :: xs).Pairwise (· < ·)) (h1 : x1 ≤ X) :
    ∫ t in x0..X, pl (x0 :: x1 :: xs) (y0 :: y1 :: ys) t =
      (x1 - x0) * 0.5 * (y1 + y0) + ∫ t in x1..X, pl (x1 :: xs) (y1 :: ys) t := by
  have h01 : x0 < x1 := (List.pairwise_cons.mp h).1 x1 List.mem_cons_self
  have h' := (List.pairwise_cons.mp h).2
  have hc := pl_cont _ (y0 :: y1 :: ys) h
  rw [← intervalIntegral.integral_add_adjacent_intervals (b := x1) (hc.intervalIntegrable _ _) (hc.intervalIntegrable _ _),
    int_first y0 y1 xs ys h01.le le_rfl]
  congr 1
  · have : x1 - x0 ≠ 0 := by linarith
    field_simp
    ring
  · apply intervalIntegral.integral_congr
    intro t ht
    rw [Set.uIcc_of_le h1] at ht
    simp only [pl]
    split_ifs with hle
    · have : t = x1 := le_antisymm hle ht.1
      rw [this, line_right _ _ h01, pl_head _ _ _ _ h']
    · rfl

/-- The sum is the integral. -/
theorem area_int : ∀ (x0 : ℝ) (xs : List ℝ) (y : List ℝ), (x0 :: xs).length = y.length → (x0 :: xs).Pairwise (· < ·) →
    area (x0 :: xs) y = ∫ t in x0..(xs.getLastD x0), pl (x0 :: xs) y t
  | x0, [], y, _, _ => by
    simp only [List.getLastD_nil, intervalIntegral.integral_same]
    cases y <;> simp [area]
  | x0, x1 :: xs, [], hl, _ => by simp at hl
  | x0, x1 :: xs, [_], hl, _ => by simp at hl
  | x0, x1 :: xs, y0 :: y1 :: ys, hl, h => by
    have h' := (List.pairwise_cons.mp h).2
    have hle : x1 ≤ xs.getLastD x1 := by
      cases hx : xs with
      | nil => simp
      | cons a l =>
        have : xs.getLastD x1 ∈ xs := by
          rw [hx, List.getLastD_cons, List.getLastD_eq_getLast?]
          cases hg : l.getLast? with
          | none => simp
          | some b => simp [List.mem_of_getLast? hg]
        rw [← hx]
        exact ((List.pairwise_cons.mp h').1 _ this).le
    simp only [area]
    rw [List.getLastD_cons, int_next y0 y1 xs ys h hle, area_int x1 xs (y1 :: ys) (by simpa using hl) h']

/-! ## The inverse on a segment -/

theorem det_eq {I x0 y0 x1 y1 : ℝ} (h : x1 - x0 ≠ 0) : det I x0 y0 x1 y1 = 4 * (y0 ^ 2 + 2 * ((y1 - y0) / (x1 - x0)) * I) := by
  unfold det
  field_simp
  ring

theorem root_eq {s I x0 y0 x1 y1 : ℝ} (h : x1 - x0 ≠ 0) (hy : y1 - y0 ≠ 0) :
    root s I x0 y0 x1 y1 = x0 + (-y0 + s * √(y0 ^ 2 + 2 * ((y1 - y0) / (x1 - x0)) * I)) / ((y1 - y0) / (x1 - x0)) := by
  unfold root
  rw [det_eq h, Real.sqrt_mul (by norm_num), show (4 : ℝ) = 2 ^ 2 by norm_num, Real.sqrt_sq (by norm_num)]
  have : (y1 - y0) / (x1 - x0) ≠ 0 := div_ne_zero hy h
  field_simp
  ring

/-- A root solves the equation. -/
theorem root_sol {s I x0 y0 x1 y1 : ℝ} (hs : s ^ 2 = 1) (h : x1 - x0 ≠ 0) (hy : y1 - y0 ≠ 0) (hd : 0 < det I x0 y0 x1 y1) :
    y0 * (root s I x0 y0 x1 y1 - x0) + (y1 - y0) / (x1 - x0) * (root s I x0 y0 x1 y1 - x0) ^ 2 / 2 = I := by
  rw [root_eq h hy]
  rw [det_eq h] at hd
  have hm : (y1 - y0) / (x1 - x0) ≠ 0 := div_ne_zero hy h
  generalize (y1 - y0) / (x1 - x0) = m at *
  have hq : √(y0 ^ 2 + 2 * m * I) ^ 2 = y0 ^ 2 + 2 * m * I := Real.sq_sqrt (by linarith)
  generalize √(y0 ^ 2 + 2 * m * I) = r at *
  field_simp
  linear_combination hq + r ^ 2 * hs

/-- What the inverse gives, for values that are not negative. -/
theorem rev_sound {I x0 y0 x1 y1 X : ℝ} (hx : x0 < x1) (h0 : 0 ≤ y0) (hI : 0 ≤ I) (hI' : I < (x1 - x0) * 0.5 * (y1 + y0))
    (h : rev I x0 y0 x1 y1 = .ok X) :
    (x0 ≤ X ∧ X ≤ x1) ∧ y0 * (X - x0) + (y1 - y0) / (x1 - x0) * (X - x0) ^ 2 / 2 = I := by
  have hx' : x1 - x0 ≠ 0 := by linarith
  unfold rev at h
  split_ifs at h with hy hy0 hd
  · simp only [Res.ok.injEq] at h
    have hpos : 0 < y0 := lt_of_le_of_ne h0 (Ne.symm hy0)
    have e : X - x0 = I / y0 := by rw [← h]; field_simp; ring
    have hy1 : y1 = y0 := by linarith
    rw [hy1] at hI'
    have b1 : 0 ≤ I / y0 := div_nonneg hI hpos.le
    have b2 : I / y0 ≤ x1 - x0 := by rw [div_le_iff₀ hpos]; linarith
    refine ⟨⟨by linarith, by linarith⟩, ?_⟩
    rw [hy, e]
    field_simp
    ring
  · unfold pick at h
    split_ifs at h with hp hq hq
    · simp only [Res.ok.injEq] at h
      rw [← h]
      exact ⟨hp, root_sol (by norm_num) hx' hy hd⟩
    · simp only [Res.ok.injEq] at h
      rw [← h]
      exact ⟨hq, root_sol (by norm_num) hx' hy hd⟩

/-- When the inverse is found. -/
theorem rev_found {I x0 y0 x1 y1 : ℝ} (hx : x0 < x1) (h0 : 0 ≤ y0) (h1 : 0 ≤ y1) (hI : 0 ≤ I) (hI' : I < (x1 - x0) * 0.5 * (y1 + y0))
    (hpos : 0 < y0 ∨ 0 < I) : ∃ X, rev I x0 y0 x1 y1 = .ok X := by
  have hx' : 0 < x1 - x0 := by linarith
  unfold rev
  by_cases hy : y1 - y0 = 0
  · rw [if_pos hy]
    have : y0 ≠ 0 := by
      intro h
      have : y1 = 0 := by linarith
      rw [h, this] at hI'
      linarith
    rw [if_neg this]
    exact ⟨_, rfl⟩
  rw [if_neg hy, if_neg hx'.ne', root_eq hx'.ne' hy, root_eq hx'.ne' hy, det_eq hx'.ne']
  set m := (y1 - y0) / (x1 - x0) with hm
  have hm0 : m ≠ 0 := div_ne_zero hy hx'.ne'
  have hmx : m * (x1 - x0) = y1 - y0 := by rw [hm]; field_simp
  have hend : y0 ^ 2 + 2 * m * ((x1 - x0) * 0.5 * (y1 + y0)) = y1 ^ 2 := by
    have : 2 * m * ((x1 - x0) * 0.5 * (y1 + y0)) = (m * (x1 - x0)) * (y1 + y0) := by ring
    rw [this, hmx]; ring
  rcases lt_or_gt_of_ne hm0 with hneg | hgt
  · -- falling
    have hD : y1 ^ 2 < y0 ^ 2 + 2 * m * I := by rw [← hend]; nlinarith
    have hD0 : y0 ^ 2 + 2 * m * I ≤ y0 ^ 2 := by nlinarith
    have hDpos : 0 < y0 ^ 2 + 2 * m * I := lt_of_le_of_lt (sq_nonneg y1) hD
    set r := √(y0 ^ 2 + 2 * m * I) with hr
    have r1 : y1 < r := by rw [hr]; exact Real.lt_sqrt_of_sq_lt hD
    have r2 : r ≤ y0 := by rw [hr]; exact Real.sqrt_le_iff.mpr ⟨h0, hD0⟩
    rw [if_pos (by linarith)]
    unfold pick
    have p1 : x0 ≤ x0 + (-y0 + 1 * r) / m := by
      have : 0 ≤ (-y0 + 1 * r) / m := div_nonneg_of_nonpos (by linarith) hneg.le
      linarith
    have p2 : x0 + (-y0 + 1 * r) / m ≤ x1 := by
      have : (-y0 + 1 * r) / m ≤ x1 - x0 := by rw [div_le_iff_of_neg hneg]; linarith
      linarith
    have q2 : x1 < x0 + (-y0 + -1 * r) / m := by
      have : x1 - x0 < (-y0 + -1 * r) / m := by rw [lt_div_iff_of_neg hneg]; linarith
      linarith
    rw [if_pos ⟨p1, p2⟩, if_neg (by rintro ⟨-, h⟩; linarith)]
    exact ⟨_, rfl⟩
  · -- rising
    have hD : y0 ^ 2 + 2 * m * I < y1 ^ 2 := by rw [← hend]; nlinarith
    have hDpos : 0 < y0 ^ 2 + 2 * m * I := by
      rcases hpos with h | h
      · nlinarith [mul_nonneg hgt.le hI]
      · nlinarith [mul_pos hgt h]
    set r := √(y0 ^ 2 + 2 * m * I) with hr
    have r0 : 0 < r := Real.sqrt_pos.mpr hDpos
    have r1 : y0 ≤ r := by rw [hr]; exact Real.le_sqrt_of_sq_le (by nlinarith [mul_nonneg hgt.le hI])
    have r2 : r < y1 := by rw [hr]; exact (Real.sqrt_lt' (by nlinarith)).mpr hD
    rw [if_pos (by linarith)]
    unfold pick
    have p1 : x0 ≤ x0 + (-y0 + 1 * r) / m := by
      have : 0 ≤ (-y0 + 1 * r) / m := div_nonneg (by linarith) hgt.le
      linarith
    have p2 : x0 + (-y0 + 1 * r) / m ≤ x1 := by
      have : (-y0 + 1 * r) / m ≤ x1 - x0 := by rw [div_le_iff₀ hgt]; linarith
      linarith
    have q1 : x0 + (-y0 + -1 * r) / m < x0 := by
      have : (-y0 + -1 * r) / m < 0 := div_neg_of_neg_of_pos (by linarith) hgt
      linarith
    rw [if_pos ⟨p1, p2⟩, if_neg (by rintro ⟨h, -⟩; linarith)]
    exact ⟨_, rfl⟩

end Verif.Interp
