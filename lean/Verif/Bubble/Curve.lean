import Verif.Bubble.Props

/-! # Curve of forces, parameters and loads of bubbles (C285, C286, C287, C288) -/
namespace Verif.Bubble

open Verif.Mech

/-- The curve beyond `Dmax` of a fresh contact. -/
theorem deep {l l' : Law} {p q : Phys} {r1 r2 d f : ℝ} (h : start l p r1 r2 = .ok (l', q)) (hr : 0 < r1 + r2) (hten : 0 < l.tension) (hd : -q.dmax < d) : ∃ a b, q.coef = some (a, b) ∧ 0 < a ∧ (Real.log (l.pct / 4) + 1) * b * (l.pct * q.rAvg) = 1 ∧
    a * Real.exp (b * q.dmax) = l.pct * (2 * Real.pi * l.tension) * q.rAvg ∧ keep l' { q with fN := f } d = .ok (l', { q with fN := a * Real.exp (b * -d) }) := by
  obtain ⟨hp, hne, hrA, hc1, -, -, -, -, -, hco⟩ := start_ok h
  have hc : 0 < 2 * Real.pi * l.tension := by have := Real.pi_pos; positivity
  have hra : 0 < q.rAvg := by rw [hrA]; linarith
  refine ⟨_, _, hco, div_pos (by positivity) (Real.exp_pos _), ?_, div_mul_cancel₀ _ (Real.exp_pos _).ne', ?_⟩
  · have := hc.ne'
    generalize 2 * Real.pi * l.tension = c at *
    rw [div_div, mul_div_assoc', div_mul_eq_mul_div, div_eq_iff (by positivity)]
    ring
  · unfold keep Phys.force
    rw [hc1]
    dsimp only
    rw [if_neg (by rw [ge_iff_le, not_le]; linarith), hco, Res.bind_ok]

/-- **C285 fails after deep penetration, a case**: in any contact a history of two steps, deep and then less deep than `Dmax`, gives the same great force twice. -/
theorem C285_violated_deep {l l' : Law} {p q : Phys} {r1 r2 : ℝ} (h : start l p r1 r2 = .ok (l', q)) (hr : 0 < r1 + r2) (hten : 0 < l.tension) (hpct : l.pct ≤ 4 * E) (ht : 0 < p.newtonTol) :
    ∃ D d F s, -q.dmax < D ∧ 0 < d ∧ d ≤ -q.dmax ∧ steps (l', q) [D, d] = .ok ([F, F], s) ∧ 4 * (2 * Real.pi * l.tension) * q.rAvg < F * Real.exp 1 := by
  obtain ⟨hp, hne, hrA, hc1, -, hdm, -, htol, -, -⟩ := start_ok h
  have hc : 0 < 2 * Real.pi * l.tension := by have := Real.pi_pos; positivity
  have hra : 0 < q.rAvg := by rw [hrA]; linarith
  have hE := E_pos
  have hlog : Real.log (l.pct / 4) ≤ -2 := by rw [← log_E]; exact Real.log_le_log (by linarith) (by linarith)
  -- the great solution
  set x := l.pct / 4 with hx
  have hx0 : 0 < x := by rw [hx]; linarith
  set a0 := -(x * Real.log x) with ha0
  have ha : 0 < a0 := by rw [ha0]; nlinarith
  have ha1 : a0 < 1 := by
    have h1 := xlog_le hx0 (by rw [hx]; linarith)
    have hE2 : 2 * E < 1 := by
      have h2 : E = Real.exp (-1) * Real.exp (-1) := by rw [← Real.exp_add]; unfold E; norm_num
      have h3 : Real.exp (-1) < 1 / 2 := by
        rw [Real.exp_neg, ← one_div]
        apply one_div_lt_one_div_of_lt (by norm_num)
        linarith [Real.exp_one_gt_d9]
      have h4 := Real.exp_pos (-1)
      rw [h2]
      nlinarith
    linarith
  set K := 4 * (2 * Real.pi * l.tension) * q.rAvg with hK
  have hK0 : 0 < K := by rw [hK]; positivity
  set F := K * Real.exp (-a0) with hF
  have hF0 : 0 < F := by rw [hF]; have := Real.exp_pos (-a0); positivity
  have hbig : K < F * Real.exp 1 := by
    rw [hF, mul_assoc, ← Real.exp_add]
    have : 1 < Real.exp (-a0 + 1) := Real.one_lt_exp_iff.2 (by linarith)
    nlinarith
  obtain ⟨A, B, hco, hA, hB, hAB, -⟩ := deep (f := 0) (d := -q.dmax + 1) h hr hten (by linarith)
  have hBneg : B < 0 := by
    by_contra hcon
    push Not at hcon
    have : (Real.log x + 1) * B * (l.pct * q.rAvg) ≤ 0 := mul_nonpos_of_nonpos_of_nonneg (mul_nonpos_of_nonpos_of_nonneg (by linarith) hcon) (by positivity)
    linarith
  have hKx : A * Real.exp (B * q.dmax) = K * x := by rw [hAB, hK, hx]; ring
  have hlt : K * x < F := by
    rw [hF]
    apply mul_lt_mul_of_pos_left _ hK0
    rw [← Real.log_lt_iff_lt_exp hx0]
    linarith
  set D := -(Real.log (F / A) / B) with hD
  have hBD : B * -D = Real.log (F / A) := by rw [hD, neg_neg, mul_div_cancel₀ _ hBneg.ne]
  have hforce : A * Real.exp (B * -D) = F := by rw [hBD, Real.exp_log (div_pos hF0 hA), mul_div_cancel₀ _ hA.ne']
  have hDdeep : -q.dmax < D := by
    have h1 : A * Real.exp (B * q.dmax) < A * Real.exp (B * -D) := by rw [hforce, hKx]; exact hlt
    have h2 := Real.exp_lt_exp.1 (lt_of_mul_lt_mul_left h1 hA.le)
    nlinarith
  obtain ⟨A', B', hco', -, -, -, hkeep⟩ := deep (f := q.fN) h hr hten hDdeep
  rw [hco] at hco'
  obtain ⟨rfl, rfl⟩ : A = A' ∧ B = B' := by simpa using hco'
  rw [hforce] at hkeep
  set d := 4 * q.rAvg * (a0 * Real.exp (-a0)) with hd
  have hexp : Real.exp (-a0) ≤ 1 := Real.exp_le_one_iff.2 (by linarith)
  have hexp0 := Real.exp_pos (-a0)
  have hd0 : 0 < d := by rw [hd]; positivity
  have hd1 : d ≤ -q.dmax := by
    have : -q.dmax = 4 * q.rAvg * a0 := by rw [hdm, ha0, hx]; ring
    rw [this, hd]
    apply mul_le_mul_of_nonneg_left _ (by positivity)
    nlinarith
  have hturn : turn (-d) (2 * Real.pi * l.tension) q.rAvg q.newtonTol F = .ok (F, 0) := by
    unfold turn
    have e1 : F * (1 / (4 * (2 * Real.pi * l.tension) * q.rAvg)) = Real.exp (-a0) := by rw [← hK, hF]; field_simp
    have e2 : -d * (2 * Real.pi * l.tension) - F * -a0 = 0 := by rw [hd, hF, hK]; ring
    rw [e1]
    dsimp only
    rw [Real.log_exp, if_neg (by push Not; exact ⟨hexp0, by linarith⟩), e2, zero_div, add_zero, if_neg (by linarith)]
    simp
  have hkeep2 : keep l' { q with fN := F } d = .ok (l', { q with fN := F }) := by
    unfold keep Phys.force
    rw [hc1]
    dsimp only
    rw [if_pos (by show -d ≥ q.dmax; linarith)]
    unfold loop
    rw [hturn, Res.bind_ok, if_neg (by show ¬ 0 > q.newtonTol; rw [htol]; linarith)]
    rfl
  refine ⟨D, d, F, (l', { q with fN := F }), hDdeep, hd0, hd1, ?_, hbig⟩
  unfold steps
  have hk0 : keep l' q D = .ok (l', { q with fN := F }) := hkeep
  rw [hk0, Res.bind_ok]
  unfold steps
  rw [hkeep2, Res.bind_ok]
  unfold steps
  simp

/-! ## Curve -/

/-- **C286**: at `Dmax` the exponential curve gives a force which obeys the law, and has its slope. -/
theorem C286_junction {l l' : Law} {p q : Phys} {r1 r2 : ℝ} (h : start l p r1 r2 = .ok (l', q)) (hr : 0 < r1 + r2) (hten : 0 < l.tension) : ∃ a b F m, q.coef = some (a, b) ∧ F = a * Real.exp (b * q.dmax) ∧ 0 < F ∧
    excess (2 * Real.pi * l.tension) q.rAvg q.dmax F = 0 ∧ HasDerivAt (fun sep => a * Real.exp (b * sep)) m q.dmax ∧ HasDerivAt (fun G => G * Real.log (G / (4 * (2 * Real.pi * l.tension) * q.rAvg)) / (2 * Real.pi * l.tension)) m⁻¹ F := by
  obtain ⟨hp, hne, hrA, -, -, hd, -, -, -, -⟩ := start_ok h
  obtain ⟨a, b, hco, ha, hb, hab, -⟩ := deep (f := 0) (d := -q.dmax + 1) h hr hten (by linarith)
  have hc : 0 < 2 * Real.pi * l.tension := by have := Real.pi_pos; positivity
  have hra : 0 < q.rAvg := by rw [hrA]; linarith
  set c := 2 * Real.pi * l.tension with hcd
  have hK : 0 < 4 * c * q.rAvg := by positivity
  have hF : 0 < l.pct * c * q.rAvg := by positivity
  have hq : l.pct * c * q.rAvg / (4 * c * q.rAvg) = l.pct / 4 := by field_simp
  refine ⟨a, b, _, b * (l.pct * c * q.rAvg), hco, rfl, by rw [hab]; exact hF, ?_, ?_, ?_⟩
  · rw [hab]; unfold excess; rw [hq, hd]; ring
  · have h1 : HasDerivAt (fun sep : ℝ => b * sep) b q.dmax := by simpa using (hasDerivAt_id q.dmax).const_mul b
    have h2 := (h1.exp).const_mul a
    refine h2.congr_deriv ?_
    rw [← hab]
    ring
  · rw [hab]
    have h1 : HasDerivAt (fun G : ℝ => G / (4 * c * q.rAvg)) (1 / (4 * c * q.rAvg)) (l.pct * c * q.rAvg) := (hasDerivAt_id _).div_const _
    have h2 := h1.log (by rw [hq]; linarith)
    have h3 := ((hasDerivAt_id (l.pct * c * q.rAvg)).mul h2).div_const c
    refine h3.congr_deriv ?_
    rw [hq]
    simp only [id]
    have hbn : b ≠ 0 := by rintro rfl; simp at hb
    rw [inv_eq_one_div, div_eq_div_iff hc.ne' (by positivity)]
    have e4 : l.pct * c * q.rAvg * (1 / (4 * c * q.rAvg) / (l.pct / 4)) = 1 := by field_simp
    rw [e4]
    linear_combination c * hb

/-- **C286, part**: within the range of the law the forces of any history grow with the penetration, up to the tolerance, for `pctMaxForce` up to `4 exp (-2)`. -/
theorem C286_monotone_partial {c1 r d1 d2 tol F1 F2 : ℝ} (hc : 0 < c1) (hr : 0 < r) (hd : d1 ≤ d2) (ht : 0 ≤ tol) (h1 : 0 < F1) (h1' : F1 ≤ 4 * c1 * r * E) (e1 : 0 ≤ excess c1 r (-d1) F1) (h2 : 0 < F2) (h2' : F2 ≤ 4 * c1 * r * E)
    (e2 : excess c1 r (-d2) F2 ≤ tol * F2) : F1 ≤ (1 + tol) * F2 := by
  have hK : 0 < 4 * c1 * r := by positivity
  have l1 : Real.log (F1 / (4 * c1 * r)) ≤ -2 := by rw [← log_E]; exact Real.log_le_log (div_pos h1 hK) (by rw [div_le_iff₀ hK]; linarith)
  by_cases hle : F1 ≤ F2
  · nlinarith
  · push Not at hle
    have k := ratio_lower h2 h1
    unfold excess at e1 e2
    rw [Real.log_div h2.ne' h1.ne'] at k
    rw [Real.log_div h1.ne' hK.ne'] at e1 l1
    rw [Real.log_div h2.ne' hK.ne'] at e2
    have hdc : d1 * c1 ≤ d2 * c1 := mul_le_mul_of_nonneg_right hd hc.le
    nlinarith

/-- **C286**: beyond `Dmax` the force grows with the penetration, for `pctMaxForce` less than `4 / e`, and is greater than at `Dmax`. -/
theorem C286_deep {l l' : Law} {p q : Phys} {r1 r2 d1 d2 f1 f2 : ℝ} (h : start l p r1 r2 = .ok (l', q)) (hr : 0 < r1 + r2) (hten : 0 < l.tension) (hpct : Real.log (l.pct / 4) < -1) (hd1 : -q.dmax < d1) (hd2 : d1 < d2) :
    ∃ F1 F2, keep l' { q with fN := f1 } d1 = .ok (l', { q with fN := F1 }) ∧ keep l' { q with fN := f2 } d2 = .ok (l', { q with fN := F2 }) ∧ l.pct * (2 * Real.pi * l.tension) * q.rAvg < F1 ∧ F1 < F2 := by
  obtain ⟨hp, -, hrA, -, -, -, -, -, -, -⟩ := start_ok h
  have hra : 0 < q.rAvg := by rw [hrA]; linarith
  obtain ⟨a, b, hco, ha, hb, hab, hk⟩ := deep (f := f1) h hr hten hd1
  obtain ⟨a', b', hco', -, -, -, hk'⟩ := deep (f := f2) h hr hten (lt_trans hd1 hd2)
  rw [hco] at hco'
  obtain ⟨rfl, rfl⟩ : a = a' ∧ b = b' := by simpa using hco'
  have hbn : b < 0 := by
    by_contra hcon
    push Not at hcon
    have : (Real.log (l.pct / 4) + 1) * b * (l.pct * q.rAvg) ≤ 0 := mul_nonpos_of_nonpos_of_nonneg (mul_nonpos_of_nonpos_of_nonneg (by linarith) hcon) (by positivity)
    linarith
  refine ⟨_, _, hk, hk', ?_, ?_⟩
  · rw [← hab]
    exact mul_lt_mul_of_pos_left (Real.exp_lt_exp.2 (by nlinarith)) ha
  · exact mul_lt_mul_of_pos_left (Real.exp_lt_exp.2 (by nlinarith)) ha

/-- **C286 fails for greater `pctMaxForce`**: from `4 / e`, i.e. 1.47, the force falls with the penetration, and bubbles pass through each other. -/
theorem C286_violated {l l' : Law} {p q : Phys} {r1 r2 d1 d2 f1 f2 : ℝ} (h : start l p r1 r2 = .ok (l', q)) (hr : 0 < r1 + r2) (hten : 0 < l.tension) (hpct : -1 < Real.log (l.pct / 4)) (hd1 : -q.dmax < d1) (hd2 : d1 < d2) :
    ∃ F1 F2, keep l' { q with fN := f1 } d1 = .ok (l', { q with fN := F1 }) ∧ keep l' { q with fN := f2 } d2 = .ok (l', { q with fN := F2 }) ∧ F2 < F1 := by
  obtain ⟨hp, -, hrA, -, -, -, -, -, -, -⟩ := start_ok h
  have hra : 0 < q.rAvg := by rw [hrA]; linarith
  obtain ⟨a, b, hco, ha, hb, hab, hk⟩ := deep (f := f1) h hr hten hd1
  obtain ⟨a', b', hco', -, -, -, hk'⟩ := deep (f := f2) h hr hten (lt_trans hd1 hd2)
  rw [hco] at hco'
  obtain ⟨rfl, rfl⟩ : a = a' ∧ b = b' := by simpa using hco'
  have hbn : 0 < b := by
    by_contra hcon
    push Not at hcon
    have : (Real.log (l.pct / 4) + 1) * b * (l.pct * q.rAvg) ≤ 0 := mul_nonpos_of_nonpos_of_nonneg (mul_nonpos_of_nonneg_of_nonpos (by linarith) hcon) (by positivity)
    linarith
  exact ⟨_, _, hk, hk', mul_lt_mul_of_pos_left (Real.exp_lt_exp.2 (by nlinarith)) ha⟩

/-- A value for which this holds. -/
example : -1 < Real.log ((4 : ℝ) / 4) := by norm_num

/-! ## Parameters -/

/-- **C287, part**: a fresh contact depends on `pctMaxForce`, `surfaceTension` of the law and the radii in any order, not on earlier contacts.  Missing: materials, changes, loading. -/
theorem C287_fresh_partial {l l2 : Law} (h1 : l.pct = l2.pct) (h2 : l.tension = l2.tension) (p : Phys) (f r d : ℝ) (co : Option (ℝ × ℝ)) (r1 r2 : ℝ) : start l p r1 r2 = start l2 { p with fN := f, rAvg := r, dmax := d, coef := co } r2 r1 := by
  obtain ⟨a, b, c⟩ := l
  obtain ⟨a', b', c'⟩ := l2
  dsimp only at h1 h2
  subst h1 h2
  unfold start Phys.coeffs
  dsimp only
  rw [add_comm r2 r1]

/-- **C287 fails for materials**: the surface tension of the materials has no effect on forces. -/
theorem C287_violated_material (l : Law) (m1 m2 n1 n2 : Mat) (r1 r2 d : ℝ) : go l (ip2 m1 m2 none) true r1 r2 d = go l (ip2 n1 n2 none) true r1 r2 d := rfl

/-- **C287 fails for changes**: a new surface tension of the law has no effect on a contact, until another contact begins; then its forces in the range of the law obey the new one, and its forces beyond the old one. -/
theorem C287_violated_change {l l' l2 l2' : Law} {p q p2 q2 : Phys} {r1 r2 s1 s2 : ℝ} (h : start l p r1 r2 = .ok (l', q)) (hr : 0 < r1 + r2) (hten : 0 < l.tension) (h2 : start l2 p2 s1 s2 = .ok (l2', q2)) (hten2 : 0 < l2.tension) (ht : 0 < p.newtonTol) (ht1 : p.newtonTol < 1) :
    (∀ x d, (keep { l' with tension := x } q d).bind (fun y => .ok y.2.fN) = (keep l' q d).bind fun y => .ok y.2.fN) ∧
    (∀ d, -q.dmax < d → (keep l2' q d).bind (fun y => .ok y.2.fN) = (keep l' q d).bind fun y => .ok y.2.fN) ∧
    ∀ d y, d ≤ -q.dmax → keep l2' q d = .ok y → 0 ≤ excess (2 * Real.pi * l2.tension) q.rAvg (-d) y.2.fN ∧ excess (2 * Real.pi * l2.tension) q.rAvg (-d) y.2.fN ≤ p.newtonTol ^ 2 / (1 - p.newtonTol) * y.2.fN := by
  obtain ⟨hp, -, hrA, hc1, -, -, -, htol, -, hco⟩ := start_ok h
  obtain ⟨-, -, -, hc2, -, -, -, -, -, -⟩ := start_ok h2
  have hra : 0 < q.rAvg := by rw [hrA]; linarith
  have hc : 0 < 2 * Real.pi * l2.tension := by have := Real.pi_pos; positivity
  refine ⟨?_, ?_, ?_⟩
  · intro x d
    unfold keep
    dsimp only
    rw [hc1]
    dsimp only
    rcases q.force (-d) (2 * Real.pi * l.tension) with f | _ | _ <;> rfl
  · intro d hd
    unfold keep Phys.force
    rw [hc1, hc2]
    dsimp only
    rw [if_neg (by rw [ge_iff_le, not_le]; linarith), if_neg (by rw [ge_iff_le, not_le]; linarith), hco]
    rfl
  · intro d y hd hy
    unfold keep Phys.force at hy
    rw [hc2] at hy
    dsimp only at hy
    rw [if_pos (by show -d ≥ q.dmax; linarith)] at hy
    rcases hx : loop (-d) (2 * Real.pi * l2.tension) q.rAvg q.newtonTol (q.newtonIter + 1) q.fN with F | _ | _
    · rw [hx, Res.bind_ok] at hy
      cases hy
      have := C285_equation hc hra (by rw [htol]; exact ht) (by rw [htol]; exact ht1) hx
      rw [htol] at this
      exact this.2
    · rw [hx] at hy; simp at hy
    · rw [hx] at hy; simp at hy

/-- **C287 fails for saved simulations**: the first step of a contact after loading reads what was never set. -/
theorem C287_violated_reload (s : Law × Phys) (r1 r2 d : ℝ) (hd : 0 < d) : go (reload s).1 (reload s).2 false r1 r2 d = .ub := by
  unfold go
  rw [if_neg (not_le.2 hd)]
  rfl

/-- **C287 fails for `Dmax`**: setting it has an effect, in spite of what is said of it; a small penetration gives a greater force. -/
theorem C287_violated_Dmax {l l' : Law} {p q : Phys} {r1 r2 : ℝ} (h : start l p r1 r2 = .ok (l', q)) (hr : 0 < r1 + r2) (hten : 0 < l.tension) (hpct : l.pct ≤ 4 * E) (ht : 0 < p.newtonTol) (ht1 : p.newtonTol < 1) :
    ∃ e, 0 < e ∧ ∀ d, 0 < d → d < e → ∀ y, keep l' q d = .ok y → ∃ F, keep l' { q with dmax := 0 } d = .ok (l', { q with dmax := 0, fN := F }) ∧ y.2.fN < F := by
  obtain ⟨hp, -, hrA, hc1, -, hdm, hf, htol, -, -⟩ := start_ok h
  obtain ⟨a, b, hco, ha, hb, hab, -⟩ := deep (f := 0) (d := -q.dmax + 1) h hr hten (by linarith)
  have hc : 0 < 2 * Real.pi * l.tension := by have := Real.pi_pos; positivity
  have hra : 0 < q.rAvg := by rw [hrA]; linarith
  have hlog : Real.log (l.pct / 4) ≤ -2 := by rw [← log_E]; exact Real.log_le_log (by linarith) (by linarith)
  have hbn : b < 0 := by
    by_contra hcon
    push Not at hcon
    have : (Real.log (l.pct / 4) + 1) * b * (l.pct * q.rAvg) ≤ 0 := mul_nonpos_of_nonpos_of_nonneg (mul_nonpos_of_nonpos_of_nonneg (by linarith) hcon) (by positivity)
    linarith
  have hdneg : 0 < -q.dmax := by rw [hdm]; have := mul_pos hp hra; nlinarith
  refine ⟨min (-q.dmax) (2 * a / (2 * Real.pi * l.tension)), lt_min hdneg (by positivity), fun d hd0 hd y hy => ?_⟩
  obtain ⟨hd1, hd2⟩ := lt_min_iff.1 hd
  rw [lt_div_iff₀ hc] at hd2
  refine ⟨a * Real.exp (b * -d), ?_, ?_⟩
  · unfold keep Phys.force
    rw [hc1]
    dsimp only
    rw [if_neg (by rw [ge_iff_le, not_le]; linarith), hco, Res.bind_ok]
  · have hs : steps (l', q) [d] = .ok ([y.2.fN], y) := by
      unfold steps
      rw [hy, Res.bind_ok]
      unfold steps
      rfl
    have hh := C285_history_partial h hr hten hpct ht ht1 (ds := [d]) (by intro d' hd'; rw [List.mem_singleton.1 hd']; exact ⟨hd0, hd1.le⟩) hs
    cases hh with
    | cons hh _ =>
      obtain ⟨g0, g1, g2, -⟩ := hh
      set c := 2 * Real.pi * l.tension with hcd
      have hK : 0 < 4 * c * q.rAvg := by positivity
      have lg : Real.log (y.2.fN / (4 * c * q.rAvg)) ≤ -2 := by rw [← log_E]; exact Real.log_le_log (div_pos g0 hK) (by rw [div_le_iff₀ hK]; linarith)
      unfold excess at g2
      have h1 : y.2.fN < a := by nlinarith
      have h2 : 1 < Real.exp (b * -d) := Real.one_lt_exp_iff.2 (by nlinarith)
      nlinarith

/-! ## Loads -/

/-- **C288**: the forces are opposite, along the normal, and push the bubbles apart; there is no torque in periodic cells, nor otherwise when the contact is on the line of centres. -/
theorem C288_loads (periodic : Bool) (fN : ℝ) (n contact pos1 pos2 : V3) (rad1 rad2 depth a b : ℝ) (h1 : contact - pos1 = a • n) (h2 : contact - pos2 = b • n) : loads periodic fN n contact pos1 pos2 rad1 rad2 depth = ((-(fN • n), 0), (fN • n, 0)) := by
  have e : ∀ x : ℝ, cross n (x • n) = 0 := fun x => by
    ext i
    fin_cases i <;> simp [cross] <;> ring
  have e2 : ∀ x y : ℝ, cross (x • n) (-(y • n)) = 0 := fun x y => by
    ext i
    fin_cases i <;> simp [cross] <;> ring
  unfold loads
  cases periodic
  · simp only [Bool.false_eq_true, if_false]
    rw [h1, h2, e2, e2, neg_zero]
  · simp only [if_true]
    rw [e, smul_zero, smul_zero]

/-- **C288**: an interaction is deleted exactly when the bubbles do not overlap. -/
theorem C288_deleted (l : Law) (p : Phys) (fresh : Bool) (r1 r2 d : ℝ) : go l p fresh r1 r2 d = .ok none ↔ d ≤ 0 := by
  unfold go
  by_cases hd : d ≤ 0
  · rw [if_pos hd]; simp [hd]
  · rw [if_neg hd]
    simp only [hd, iff_false]
    cases fresh
    · simp only [Bool.false_eq_true, if_false]
      rcases keep l p d with x | _ | _ <;> simp
    · simp only [if_true]
      rcases start l p r1 r2 with s | _ | _
      · rw [Res.bind_ok]
        rcases keep s.1 s.2 d with x | _ | _ <;> simp
      · simp
      · simp

/-- **C288**: what was computed for a contact is positive, whatever its history. -/
theorem C288_positive {l l' : Law} {p q : Phys} {r1 r2 f d : ℝ} (h : start l p r1 r2 = .ok (l', q)) (hr : 0 < r1 + r2) (hten : 0 < l.tension) (ht : 0 < p.newtonTol) (ht1 : p.newtonTol < 1) {y : Law × Phys} (hy : keep l' { q with fN := f } d = .ok y) : 0 < y.2.fN := by
  by_cases hd : -q.dmax < d
  · obtain ⟨a, b, -, ha, -, -, hk⟩ := deep (f := f) h hr hten hd
    rw [hk] at hy
    cases hy
    exact mul_pos ha (Real.exp_pos _)
  · obtain ⟨hp, -, hrA, hc1, -, hdm, hf, htol, -, -⟩ := start_ok h
    have hc : 0 < 2 * Real.pi * l.tension := by have := Real.pi_pos; positivity
    have hra : 0 < q.rAvg := by rw [hrA]; linarith
    unfold keep Phys.force at hy
    rw [hc1] at hy
    dsimp only at hy
    rw [if_pos (by show -d ≥ q.dmax; linarith)] at hy
    rcases hx : loop (-d) (2 * Real.pi * l.tension) q.rAvg q.newtonTol (q.newtonIter + 1) f with F | _ | _
    · rw [hx, Res.bind_ok] at hy
      cases hy
      exact (C285_equation hc hra (by rw [htol]; exact ht) (by rw [htol]; exact ht1) hx).1
    · rw [hx] at hy; simp at hy
    · rw [hx] at hy; simp at hy

/-- A fresh contact, with the defaults of the law and of the radii 1 and 3. -/
example : ∃ l' q, start ⟨1 / 10, 7197 / 100000, none⟩ (ip2 ⟨0⟩ ⟨0⟩ none) 1 3 = .ok (l', q) ∧ q.newtonTol = 1 / 1000000 := by
  have hlog : Real.log (1 / 10 / 4) + 1 ≠ 0 := by
    have : Real.log (1 / 10 / 4) ≤ -2 := by rw [← log_E]; exact Real.log_le_log (by norm_num) (by linarith [E_big])
    linarith
  have hpi := Real.pi_pos
  unfold start Phys.coeffs
  dsimp only
  rw [if_neg (by push Not; exact ⟨by norm_num, hlog, by positivity⟩), Res.bind_ok]
  exact ⟨_, _, rfl, rfl⟩

end Verif.Bubble
