import Verif.Interp.Props

/-!
# Properties of piecewise linear functions in scripts: periodic functions and padding (C246, C247)
-/
namespace Verif.Interp

/-! ## C246 -/

/-- The periodic continuation of a function given on `[0, P)`. -/
noncomputable def periodic (P : ℝ) (f : ℝ → ℝ) (t : ℝ) : ℝ := f (t - P * ⌊t / P⌋)

theorem periodic_periodic {P : ℝ} (hP : 0 < P) (f : ℝ → ℝ) : Function.Periodic (periodic P f) P := by
  intro t
  unfold periodic
  have : (t + P) / P = t / P + 1 := by field_simp
  rw [this, Int.floor_add_one]
  push_cast
  congr 1
  ring

theorem periodic_same {P t : ℝ} (h0 : 0 ≤ t) (h1 : t < P) (f : ℝ → ℝ) : periodic P f t = f t := by
  unfold periodic
  have hP : 0 < P := by linarith
  have : ⌊t / P⌋ = 0 := by
    rw [Int.floor_eq_iff]
    push_cast
    exact ⟨div_nonneg h0 hP.le, by rw [zero_add, div_lt_one hP]; exact h1⟩
  rw [this]
  simp

/-- Integrals of the continuation from zero. -/
theorem periodic_int {P : ℝ} (hP : 0 < P) {f : ℝ → ℝ} (hf : Continuous f) (n : ℤ) {r : ℝ} (h0 : 0 ≤ r) (h1 : r ≤ P) :
    ∫ t in (0 : ℝ)..(P * n + r), periodic P f t = n * (∫ t in (0 : ℝ)..P, f t) + ∫ t in (0 : ℝ)..r, f t := by
  have hper := periodic_periodic hP f
  have hcong : ∀ b, 0 ≤ b → b ≤ P → ∫ t in (0 : ℝ)..b, periodic P f t = ∫ t in (0 : ℝ)..b, f t := by
    intro b hb hbP
    apply intervalIntegral.integral_congr_Ioo_of_le hb
    intro t ht
    exact periodic_same ht.1.le (lt_of_lt_of_le ht.2 hbP) f
  have hint0 : IntervalIntegrable (periodic P f) MeasureTheory.volume 0 P := by
    have hfi : IntervalIntegrable f MeasureTheory.volume 0 P := hf.intervalIntegrable _ _
    refine hfi.congr_ae ?_
    rw [Filter.EventuallyEq, MeasureTheory.ae_restrict_iff' measurableSet_uIoc]
    filter_upwards [MeasureTheory.volume.ae_ne P] with t ht hm
    rw [Set.uIoc_of_le hP.le] at hm
    exact (periodic_same hm.1.le (lt_of_le_of_ne hm.2 ht) f).symm
  have hint := hper.intervalIntegrable₀ hP.ne' hint0
  have h2 := hper.intervalIntegral_add_zsmul_eq n 0 hint
  rw [zero_add, zero_add, zsmul_eq_mul, zsmul_eq_mul, hcong P hP.le le_rfl] at h2
  rw [← intervalIntegral.integral_add_adjacent_intervals (b := (n : ℝ) * P) (hint _ _) (hint _ _), h2]
  congr 1
  have h3 : ∫ t in ((n : ℝ) * P)..(P * n + r), periodic P f t = ∫ t in (0 : ℝ)..r, periodic P f (t + n * P) := by
    rw [intervalIntegral.integral_comp_add_right]
    congr 1
    · ring
    · ring
  rw [h3, ← hcong r h0 h1]
  apply intervalIntegral.integral_congr
  intro t _
  have := (hper.zsmul n) t
  rwa [zsmul_eq_mul] at this

/-- **C246 (partial).** For positive values on points from zero on, `xFromIntegral` gives, for every integral, negative ones as well, the place
where the periodic continuation has it.  Missing: functions with zeros, see `C246_violated`. -/
theorem C246_periodic_partial (x y : List ℝ) (h : Points x y) (h2 : 2 ≤ x.length) (hx0 : x.headD 0 = 0) (hy : ∀ v ∈ y, 0 < v) (I : ℝ) :
    ∃ X, xFrom I x y = .ok X ∧ ∫ t in (0 : ℝ)..X, periodic (x.getLastD 0) (pl x y) t = I := by
  have hi := C244_integral x y h
  have hc := pl_cont x y h.2.2
  -- the total is positive
  have hT : 0 < ∫ t in (x.headD 0)..(x.getLastD 0), pl x y t := by
    have hi' := hi
    obtain ⟨hl, -, hs⟩ := h
    unfold integral at hi'
    rw [if_pos hl] at hi'
    simp only [Res.ok.injEq] at hi'
    rw [← hi']
    match x, y, hl, hs, h2, hy with
    | x0 :: x1 :: xs, y0 :: y1 :: ys, _, hs, _, hy =>
      have h01 : x0 < x1 := (List.pairwise_cons.mp hs).1 x1 List.mem_cons_self
      have := C244_nonneg (x1 :: xs) (y1 :: ys) (List.pairwise_cons.mp hs).2 fun v hv => (hy v (List.mem_cons_of_mem _ hv)).le
      have h0 := hy y0 List.mem_cons_self
      have h1 := hy y1 (by simp)
      simp only [area]
      have : 0 < (x1 - x0) * 0.5 * (y1 + y0) := mul_pos (mul_pos (by linarith) (by norm_num)) (by linarith)
      linarith
  have hP : 0 < x.getLastD 0 := by
    by_contra hn
    push Not at hn
    obtain ⟨-, -, hs⟩ := h
    match x, hs, h2, hx0, hn with
    | x0 :: x1 :: xs, hs, _, hx0, hn =>
      have h01 : x0 < x1 := (List.pairwise_cons.mp hs).1 x1 List.mem_cons_self
      have := le_last x0 (x1 :: xs) hs x1 (by simp)
      rw [getLastD_cons'] at hn
      simp only [List.headD_cons] at hx0
      linarith
  rw [hx0] at hi hT
  set T := ∫ t in (0 : ℝ)..(x.getLastD 0), pl x y t with hTdef
  have f1 : (⌊I / T⌋ : ℝ) * T ≤ I := by have := Int.floor_le (I / T); rwa [le_div_iff₀ hT] at this
  have f2 : I - ⌊I / T⌋ * T < T := by
    have := Int.lt_floor_add_one (I / T)
    rw [div_lt_iff₀ hT] at this
    linarith
  obtain ⟨f, hf, hb, he⟩ := C245_found_partial x y h hy (I - ⌊I / T⌋ * T) (by linarith) (by rw [hx0]; exact f2)
  rw [hx0] at hb he
  refine ⟨(x.getLastD 0) * ⌊I / T⌋ + f, ?_, ?_⟩
  · unfold xFrom
    rw [if_neg h.2.1, hi]
    simp only [Res.bind_ok]
    rw [if_neg hT.ne', hf, hx0, sub_zero]
    rfl
  · rw [periodic_int hP hc _ hb.1 hb.2, he, ← hTdef]
    ring

example : Points [0, 1, 3] [1, 4, 2] ∧ 2 ≤ [(0 : ℝ), 1, 3].length ∧ [(0 : ℝ), 1, 3].headD 0 = 0 ∧ ∀ v ∈ [(1 : ℝ), 4, 2], 0 < v :=
  ⟨⟨rfl, by simp, by norm_num⟩, by simp, rfl, by simp⟩

/-- **C246 (violated).** For a function that rises from zero, all multiples of the integral of a period are refused. -/
theorem C246_violated (P c : ℝ) (hP : 0 < P) (hc : 0 < c) (n : ℤ) :
    xFrom (n * ∫ t in (0 : ℝ)..P, pl [0, P] [0, c] t) [0, P] [0, c] = .throws := by
  have hpts : Points [0, P] [0, c] := ⟨rfl, by simp, by simpa using hP⟩
  have hi := C244_integral [0, P] [0, c] hpts
  have e1 : ([0, P] : List ℝ).headD 0 = 0 := rfl
  have e2 : ([0, P] : List ℝ).getLastD 0 = P := rfl
  rw [e1, e2] at hi
  have hT : 0 < ∫ t in (0 : ℝ)..P, pl [0, P] [0, c] t := by
    have hi' := hi
    unfold integral at hi'
    rw [if_pos (by rfl)] at hi'
    simp only [Res.ok.injEq] at hi'
    rw [← hi']
    norm_num [area]
    positivity
  set T := ∫ t in (0 : ℝ)..P, pl [0, P] [0, c] t with hTd
  unfold xFrom
  rw [if_neg (by simp), hi]
  simp only [Res.bind_ok]
  rw [if_neg hT.ne', mul_div_assoc, div_self hT.ne', mul_one, Int.floor_intCast, sub_self, (C245_violated_start 0 P c hP hc).1]
  rfl

/-! ## C247 -/

/-- The function everywhere: constant before the first and after the last point. -/
noncomputable def value (x y : List ℝ) (t : ℝ) : ℝ := pl x y (max t (x.headD 0))

theorem value_cons (a x0 : ℝ) (xs : List ℝ) (y0 : ℝ) (ys : List ℝ) (hs : (x0 :: xs).Pairwise (· < ·)) (ha : a < x0) (t : ℝ) :
    value (a :: x0 :: xs) (y0 :: y0 :: ys) t = value (x0 :: xs) (y0 :: ys) t := by
  have hpl : ∀ u, pl (a :: x0 :: xs) (y0 :: y0 :: ys) u = if u ≤ x0 then line a y0 x0 y0 u else pl (x0 :: xs) (y0 :: ys) u :=
    fun u => by simp only [pl]
  show pl (a :: x0 :: xs) (y0 :: y0 :: ys) (max t a) = pl (x0 :: xs) (y0 :: ys) (max t x0)
  rw [hpl]
  rcases le_or_gt t x0 with ht | ht
  · rw [if_pos (max_le ht ha.le), max_eq_right ht, pl_head _ _ _ _ hs]
    simp [line]
  · rw [max_eq_left (ha.trans ht).le, max_eq_left ht.le, if_neg (not_le.mpr ht)]

theorem pl_snoc : ∀ (x y : List ℝ) (b t : ℝ), x ≠ [] → x.length = y.length → pl (x ++ [b]) (y ++ [y.getLastD 0]) t = pl x y t
  | [x0], [y0], b, t, _, _ => by simp [pl, line]
  | x0 :: x1 :: xs, y0 :: y1 :: ys, b, t, _, hl => by
    have ih := pl_snoc (x1 :: xs) (y1 :: ys) b t (by simp) (by simpa using hl)
    have e : (y0 :: y1 :: ys).getLastD 0 = (y1 :: ys).getLastD 0 := by simp only [List.getLastD_cons]
    rw [e]
    simp only [List.cons_append, pl] at ih ⊢
    rw [ih]
  | [], _, _, _, h, _ => absurd rfl h
  | [_], [], _, _, _, hl => by simp at hl
  | [_], _ :: _ :: _, _, _, _, hl => by simp at hl
  | _ :: _ :: _, [], _, _, _, hl => by simp at hl
  | _ :: _ :: _, [_], _, _, _, hl => by simp at hl

/-- Padding before. -/
theorem pad_before (x y : List ℝ) (h : Points x y) (a : ℝ) :
    let x' := (if a < x.headD 0 then [a] else []) ++ x
    let y' := (if a < x.headD 0 then [y.headD 0] else []) ++ y
    Points x' y' ∧ x'.headD 0 = min a (x.headD 0) ∧ x'.getLastD 0 = x.getLastD 0 ∧ y'.getLastD 0 = y.getLastD 0 ∧
      ∀ t, value x' y' t = value x y t := by
  obtain ⟨hl, hne, hs⟩ := h
  match x, y, hl, hne, hs with
  | x0 :: xs, y0 :: ys, hl, _, hs =>
    by_cases ha : a < (x0 :: xs).headD 0
    · simp only [if_pos ha, List.singleton_append]
      replace ha : a < x0 := ha
      refine ⟨⟨by simpa using hl, by simp, ?_⟩, ?_, ?_, ?_, value_cons a x0 xs y0 ys hs ha⟩
      · rw [List.pairwise_cons]
        refine ⟨fun b hb => ?_, hs⟩
        rcases List.mem_cons.mp hb with rfl | hb
        · exact ha
        · exact ha.trans ((List.pairwise_cons.mp hs).1 b hb)
      · rw [List.headD_cons, List.headD_cons, min_eq_left ha.le]
      · simp only [List.getLastD_cons]
      · simp only [List.getLastD_cons]
    · simp only [if_neg ha, List.nil_append]
      exact ⟨⟨hl, by simp, hs⟩, (min_eq_right (not_lt.mp ha)).symm, trivial, trivial, fun t => trivial⟩

/-- Padding after. -/
theorem pad_after (x y : List ℝ) (h : Points x y) (b : ℝ) :
    let x' := x ++ (if b > x.getLastD 0 then [b] else [])
    let y' := y ++ (if b > x.getLastD 0 then [y.getLastD 0] else [])
    Points x' y' ∧ x'.headD 0 = x.headD 0 ∧ x'.getLastD 0 = max b (x.getLastD 0) ∧ ∀ t, value x' y' t = value x y t := by
  obtain ⟨hl, hne, hs⟩ := h
  by_cases hb : b > x.getLastD 0
  · simp only [if_pos hb]
    have hh : (x ++ [b]).headD 0 = x.headD 0 := by cases x <;> simp_all
    refine ⟨⟨by simp [hl], by simp, ?_⟩, hh, ?_, fun t => ?_⟩
    · rw [List.pairwise_append]
      refine ⟨hs, by simp, fun c hc d hd => ?_⟩
      rw [List.mem_singleton] at hd
      subst hd
      cases x with
      | nil => exact absurd rfl hne
      | cons x0 xs =>
        rw [getLastD_cons'] at hb
        exact lt_of_le_of_lt (le_last x0 xs hs c hc) hb
    · rw [max_eq_left hb.le]
      simp
    · unfold value
      rw [hh, pl_snoc x y b _ hne hl]
  · simp only [if_neg hb, List.append_nil]
    exact ⟨⟨hl, hne, hs⟩, trivial, (max_eq_right (not_lt.mp hb)).symm, fun t => trivial⟩

/-- **C247.** `sanitizeInterpolation` gives points in increasing order that span at least the interval asked for, from the first of both
beginnings to the last of both ends, and the same function everywhere. -/
theorem C247_padding (x y : List ℝ) (h : Points x y) (x0 x1 : ℝ) :
    ∃ x' y', sanitize x y x0 x1 = .ok (x', y') ∧ Points x' y' ∧ x'.headD 0 = min x0 (x.headD 0) ∧
      x'.getLastD 0 = max x1 (x.getLastD 0) ∧ ∀ t, value x' y' t = value x y t := by
  obtain ⟨p1, p2, p3, p4, p5⟩ := pad_before x y h x0
  obtain ⟨q1, q2, q3, q4⟩ := pad_after _ _ p1 x1
  rw [p3] at q1 q2 q3 q4
  rw [p4] at q1 q4
  refine ⟨_, _, ?_, q1, q2.trans p2, q3, fun t => (q4 t).trans (p5 t)⟩
  have hy : y ≠ [] := by
    intro hy
    have := h.1
    rw [hy] at this
    exact h.2.1 (List.length_eq_zero_iff.mp this)
  unfold sanitize
  rw [if_neg h.2.1, if_neg (by rintro ⟨h, -⟩; exact hy h)]

/-- Empty lists are refused. -/
theorem C247_empty (y : List ℝ) (x0 x1 : ℝ) : sanitize [] y x0 x1 = .throws := by
  unfold sanitize; rw [if_pos rfl]

example : sanitize [1, 2, 3] [1, 1, 2] 0 4 = .ok ([0, 1, 2, 3, 4], [1, 1, 1, 2, 2]) := by
  have h1 : ([1, 2, 3] : List ℝ) ≠ [] := by simp
  have h2 : ([1, 1, 2] : List ℝ) ≠ [] := by simp
  norm_num [sanitize]
  rw [if_neg h1, if_neg h2]

end Verif.Interp
