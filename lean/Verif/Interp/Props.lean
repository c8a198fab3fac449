import Verif.Interp.Lemmas

/-!
# Properties of piecewise linear functions in scripts: C244-C247

The specification is the function `pl` through the points given, its integral and its continuation.
-/
namespace Verif.Interp

/-- A list of points in increasing order. -/
def Points (x y : List ℝ) : Prop := x.length = y.length ∧ x ≠ [] ∧ x.Pairwise (· < ·)

theorem le_last (x0 : ℝ) (xs : List ℝ) (h : (x0 :: xs).Pairwise (· < ·)) : ∀ t ∈ x0 :: xs, t ≤ xs.getLastD x0 := by
  induction xs generalizing x0 with
  | nil => intro t ht; rw [List.mem_singleton] at ht; simp [ht]
  | cons x1 xs ih =>
    have h' := (List.pairwise_cons.mp h).2
    have h01 : x0 < x1 := (List.pairwise_cons.mp h).1 x1 List.mem_cons_self
    intro t ht
    rw [List.getLastD_cons]
    rcases List.mem_cons.mp ht with rfl | ht
    · exact h01.le.trans (ih x1 h' x1 List.mem_cons_self)
    · exact ih x1 h' t ht

theorem getLastD_cons' (x0 : ℝ) (xs : List ℝ) (d : ℝ) : (x0 :: xs).getLastD d = xs.getLastD x0 := List.getLastD_cons ..

/-! ## C244 -/

/-- **C244.** `integral` is the integral of the piecewise linear function from its first to its last point; lists of different lengths are
refused. -/
theorem C244_integral (x y : List ℝ) (h : Points x y) :
    integral x y = .ok (∫ t in (x.headD 0)..(x.getLastD 0), pl x y t) := by
  obtain ⟨hl, hne, hs⟩ := h
  cases x with
  | nil => exact absurd rfl hne
  | cons x0 xs =>
    unfold integral
    rw [if_pos hl, area_int x0 xs y hl hs, getLastD_cons']
    rfl

theorem C244_refused (x y : List ℝ) (h : x.length ≠ y.length) : integral x y = .throws := by
  unfold integral; rw [if_neg h]

example : Points [0, 1, 3] [1, 4, 2] := ⟨rfl, by simp, by norm_num⟩

/-- The integral of a function with values that are not negative is not negative; adding lists shares the point between. -/
theorem C244_nonneg : ∀ (x y : List ℝ), x.Pairwise (· < ·) → (∀ v ∈ y, 0 ≤ v) → 0 ≤ area x y
  | x0 :: x1 :: xs, y0 :: y1 :: ys, h, hy => by
    have h01 : x0 < x1 := (List.pairwise_cons.mp h).1 x1 List.mem_cons_self
    have h0 := hy y0 List.mem_cons_self
    have h1 := hy y1 (by simp)
    have := C244_nonneg (x1 :: xs) (y1 :: ys) (List.pairwise_cons.mp h).2 fun v hv => hy v (List.mem_cons_of_mem _ hv)
    simp only [area]
    have : 0 ≤ (x1 - x0) * 0.5 * (y1 + y0) := mul_nonneg (mul_nonneg (by linarith) (by norm_num)) (by linarith)
    linarith
  | [], _, _, _ => by simp [area]
  | [_], _, _, _ => by simp [area]
  | _ :: _ :: _, [], _, _ => by simp [area]
  | _ :: _ :: _, [_], _, _ => by simp [area]

/-! ## C245 -/

theorem frac_sound (sum I : ℝ) : ∀ (x0 : ℝ) (xs : List ℝ) (y : List ℝ) (X : ℝ), (x0 :: xs).Pairwise (· < ·) → (∀ v ∈ y, 0 ≤ v) →
    ∀ sum, sum ≤ I → frac sum I (x0 :: xs) y = .ok X →
      (x0 ≤ X ∧ X ≤ xs.getLastD x0) ∧ ∫ t in x0..X, pl (x0 :: xs) y t = I - sum
  | x0, [], y, X, _, _, sum, _, h => by cases y <;> simp [frac] at h
  | x0, x1 :: xs, [], X, _, _, sum, _, h => by simp [frac] at h
  | x0, x1 :: xs, [_], X, _, _, sum, _, h => by simp [frac] at h
  | x0, x1 :: xs, y0 :: y1 :: ys, X, hs, hy, sum, hI, h => by
    have h01 : x0 < x1 := (List.pairwise_cons.mp hs).1 x1 List.mem_cons_self
    have hs' := (List.pairwise_cons.mp hs).2
    have h0 := hy y0 List.mem_cons_self
    have hlast := le_last x1 xs hs' x1 List.mem_cons_self
    simp only [frac] at h
    rw [List.getLastD_cons]
    split_ifs at h with hc
    · obtain ⟨⟨b1, b2⟩, e⟩ := rev_sound h01 h0 (by linarith) (by linarith) h
      refine ⟨⟨b1, b2.trans hlast⟩, ?_⟩
      rw [int_first y0 y1 xs ys b1 b2, e]
    · obtain ⟨⟨b1, b2⟩, e⟩ := frac_sound sum I x1 xs (y1 :: ys) X hs' (fun v hv => hy v (List.mem_cons_of_mem _ hv)) _ (by linarith) h
      refine ⟨⟨h01.le.trans b1, b2⟩, ?_⟩
      rw [int_next y0 y1 xs ys hs b1, e]
      ring

theorem frac_found (I : ℝ) : ∀ (x y : List ℝ), x.Pairwise (· < ·) → (∀ v ∈ y, 0 < v) → ∀ sum, sum ≤ I → I < sum + area x y →
    ∃ X, frac sum I x y = .ok X
  | x0 :: x1 :: xs, y0 :: y1 :: ys, hs, hy, sum, hI, h => by
    have h01 : x0 < x1 := (List.pairwise_cons.mp hs).1 x1 List.mem_cons_self
    have h0 := hy y0 List.mem_cons_self
    have h1 := hy y1 (by simp)
    simp only [frac]
    simp only [area] at h
    split_ifs with hc
    · exact rev_found h01 h0.le h1.le (by linarith) (by linarith) (.inl h0)
    · exact frac_found I (x1 :: xs) (y1 :: ys) (List.pairwise_cons.mp hs).2 (fun v hv => hy v (List.mem_cons_of_mem _ hv)) _
        (by linarith) (by linarith)
  | [], _, _, _, sum, hI, h => by simp [area] at h; linarith
  | [_], _, _, _, sum, hI, h => by simp [area] at h; linarith
  | _ :: _ :: _, [], _, _, sum, hI, h => by simp [area] at h; linarith
  | _ :: _ :: _, [_], _, _, sum, hI, h => by simp [area] at h; linarith

/-- **C245 (partial, found).** For positive values, every integral from zero to below the total is reached at the place given, which is in
the range.  Missing: the total itself, functions that start with zero, integer coordinates, see the theorems named `violated`. -/
theorem C245_found_partial (x y : List ℝ) (h : Points x y) (hy : ∀ v ∈ y, 0 < v) (I : ℝ) (h0 : 0 ≤ I)
    (h1 : I < ∫ t in (x.headD 0)..(x.getLastD 0), pl x y t) :
    ∃ X, xFractional I x y = .ok X ∧ (x.headD 0 ≤ X ∧ X ≤ x.getLastD 0) ∧ ∫ t in (x.headD 0)..X, pl x y t = I := by
  have hi := C244_integral x y h
  obtain ⟨hl, hne, hs⟩ := h
  cases x with
  | nil => exact absurd rfl hne
  | cons x0 xs =>
    unfold integral at hi
    rw [if_pos hl] at hi
    simp only [Res.ok.injEq] at hi
    rw [← hi] at h1
    obtain ⟨X, hX⟩ := frac_found I (x0 :: xs) y hs hy 0 h0 (by linarith)
    obtain ⟨b, e⟩ := frac_sound 0 I x0 xs y X hs (fun v hv => (hy v hv).le) 0 h0 hX
    refine ⟨X, hX, ?_, ?_⟩
    · rw [getLastD_cons']; exact b
    · simpa using e

/-- **C245 (partial, right).** For values that are not negative, whatever place is given is right. -/
theorem C245_right_partial (x y : List ℝ) (h : Points x y) (hy : ∀ v ∈ y, 0 ≤ v) (I : ℝ) (h0 : 0 ≤ I) (X : ℝ)
    (hX : xFractional I x y = .ok X) :
    (x.headD 0 ≤ X ∧ X ≤ x.getLastD 0) ∧ ∫ t in (x.headD 0)..X, pl x y t = I := by
  obtain ⟨hl, hne, hs⟩ := h
  cases x with
  | nil => exact absurd rfl hne
  | cons x0 xs =>
    obtain ⟨b, e⟩ := frac_sound 0 I x0 xs y X hs hy 0 h0 hX
    refine ⟨?_, ?_⟩
    · rw [getLastD_cons']; exact b
    · simpa using e

/-- An integral above the total is refused. -/
theorem C245_refused (x y : List ℝ) (hs : x.Pairwise (· < ·)) (hy : ∀ v ∈ y, 0 ≤ v) (I : ℝ) (h1 : area x y ≤ I) :
    xFractional I x y = .throws := by
  have key : ∀ (x y : List ℝ), x.Pairwise (· < ·) → (∀ v ∈ y, 0 ≤ v) → ∀ sum, sum + area x y ≤ I → frac sum I x y = .throws := by
    intro x
    induction x with
    | nil => intro y _ _ sum _; simp [frac]
    | cons x0 xs ih =>
      intro y hs hy sum h
      cases xs with
      | nil => cases y <;> simp [frac]
      | cons x1 xs =>
        match y, hy, h with
        | [], _, _ => simp [frac]
        | [_], _, _ => simp [frac]
        | y0 :: y1 :: ys, hy, h =>
          have hn := C244_nonneg (x1 :: xs) (y1 :: ys) (List.pairwise_cons.mp hs).2 fun v hv => hy v (List.mem_cons_of_mem _ hv)
          simp only [area] at h
          simp only [frac]
          rw [if_neg (by linarith)]
          exact ih (y1 :: ys) (List.pairwise_cons.mp hs).2 (fun v hv => hy v (List.mem_cons_of_mem _ hv)) _ (by linarith)
  exact key x y hs hy 0 (by linarith)

example : ∃ X, xFractional 2 [0, 1, 3] [1, 4, 2] = .ok X := by
  obtain ⟨X, h, -⟩ := C245_found_partial [0, 1, 3] [1, 4, 2] ⟨rfl, by simp, by norm_num⟩ (by simp) 2 (by norm_num) (by
    have := C244_integral [0, 1, 3] [1, 4, 2] ⟨rfl, by simp, by norm_num⟩
    unfold integral at this
    rw [if_pos (by rfl)] at this
    simp only [Res.ok.injEq] at this
    rw [← this]
    norm_num [area])
  exact ⟨X, h⟩

/-- **C245 (violated, start).** A function that starts with zero and rises: the place of the integral 0, its first point, is not found. -/
theorem C245_violated_start (x0 x1 y1 : ℝ) (hx : x0 < x1) (hy : 0 < y1) : xFractional 0 [x0, x1] [0, y1] = .throws ∧
    ∫ t in x0..x0, pl [x0, x1] [0, y1] t = 0 := by
  refine ⟨?_, by simp⟩
  have hx' : x1 - x0 ≠ 0 := by linarith
  have hc : (0 : ℝ) < (x1 - x0) * 0.5 * y1 := mul_pos (mul_pos (by linarith) (by norm_num)) hy
  simp only [xFractional, frac, add_zero, zero_add, sub_zero, gt_iff_lt]
  rw [if_pos hc]
  unfold rev
  rw [if_neg (by linarith), if_neg hx', det_eq hx']
  simp

/-- **C245 (violated, end).** The total, reached at the last point, is refused. -/
theorem C245_violated_end (x y : List ℝ) (h : Points x y) (hy : ∀ v ∈ y, 0 < v) :
    xFractional (∫ t in (x.headD 0)..(x.getLastD 0), pl x y t) x y = .throws := by
  have hi := C244_integral x y h
  unfold integral at hi
  rw [if_pos h.1] at hi
  simp only [Res.ok.injEq] at hi
  rw [← hi]
  exact C245_refused x y h.2.2 (fun v hv => (hy v hv).le) _ le_rfl

/-- **C245 (violated, range).** A negative integral of a constant function gives a place before the first point instead of an error. -/
theorem C245_violated_range (x0 x1 c I : ℝ) (hx : x0 < x1) (hc : 0 < c) (hI : I < 0) :
    xFractional I [x0, x1] [c, c] = .ok (x0 + I / c) ∧ x0 + I / c < x0 := by
  refine ⟨?_, by have := div_neg_of_neg_of_pos hI hc; linarith⟩
  have : I < (x1 - x0) * 0.5 * (c + c) := hI.trans (mul_pos (mul_pos (by linarith) (by norm_num)) (by linarith))
  simp only [xFractional, frac, zero_add, sub_zero, gt_iff_lt]
  rw [if_pos this]
  unfold rev
  rw [if_pos (by simp), if_neg hc.ne']
  congr 1
  field_simp

/-- **C245 (violated, integers).** With integer coordinates the slope is rounded down: between (0,1) and (2,4) the place given for the integral
1 has not this integral. -/
theorem C245_violated_integers : ∃ X, revInt 1 0 1 2 4 = .ok X ∧ (0 ≤ X ∧ X ≤ 2) ∧ ∫ t in (0 : ℝ)..X, pl [0, 2] [1, 4] t ≠ 1 := by
  have h12 : √(12 : ℝ) ^ 2 = 12 := Real.sq_sqrt (by norm_num)
  have hs0 := Real.sqrt_nonneg (12 : ℝ)
  have hs1 : 3.4 < √(12 : ℝ) := Real.lt_sqrt_of_sq_lt (by norm_num)
  have hs2 : √(12 : ℝ) < 3.5 := (Real.sqrt_lt' (by norm_num)).mpr (by norm_num)
  have hb : 0 ≤ (-2 + √(12 : ℝ)) / 2 ∧ (-2 + √(12 : ℝ)) / 2 ≤ 2 := ⟨by norm_num at hs1 hs2 ⊢; linarith, by norm_num at hs1 hs2 ⊢; linarith⟩
  refine ⟨(-2 + √12) / 2, ?_, hb, ?_⟩
  · have hk : coefs 0 1 2 4 = (1, 2, 0) := by decide
    unfold revInt
    rw [if_neg (by norm_num), if_neg (by norm_num)]
    simp only [hk]
    have hd : ((2 : ℤ) : ℝ) ^ 2 - 4 * ((1 : ℤ) : ℝ) * (((0 : ℤ) : ℝ) - 2 * 1) = 12 := by norm_num
    rw [hd, if_pos (by norm_num), if_neg (by norm_num)]
    unfold pick
    push_cast
    rw [mul_one, if_pos hb, if_neg (by rintro ⟨h, -⟩; norm_num at hs1 hs2 h; linarith)]
  · rw [int_first 1 4 [] [] hb.1 hb.2]
    intro h
    norm_num at h hs1 hs2
    nlinarith

end Verif.Interp
