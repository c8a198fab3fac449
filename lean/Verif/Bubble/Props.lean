import Verif.Bubble.Model
import Mathlib.Tactic.Positivity
import Mathlib.Tactic.FieldSimp
import Mathlib.Tactic.NormNum
import Mathlib.Analysis.SpecialFunctions.ExpDeriv
import Mathlib.Analysis.SpecialFunctions.Log.Deriv
import Mathlib.Analysis.Complex.ExponentialBounds

/-! # Forces of bubbles (C285, C286, C287, C288) -/
namespace Verif.Bubble

open Verif.Mech

/-- Specification: the excess of the force `F` over the law of Chan and others, `F log (F / (4 c1 r)) = c1 sep`, with `c1 = 2 π γ`, the mean radius `r`, and the separation `sep`, which is negative. -/
noncomputable def excess (c1 r sep F : ℝ) : ℝ := F * Real.log (F / (4 * c1 * r)) - sep * c1

/-! ## One turn -/

theorem turn_cases {sep c1 r tol ret : ℝ} {x : ℝ × ℝ} (h : turn sep c1 r tol ret = .ok x) (hK : 0 < 4 * c1 * r) : 0 < ret ∧ Real.log (ret / (4 * c1 * r)) + 1 ≠ 0 ∧
    ∃ n, (n - ret) * (Real.log (ret / (4 * c1 * r)) + 1) = sep * c1 - ret * Real.log (ret / (4 * c1 * r)) ∧ ((n ≤ 0 ∧ x = (9 / 10 * |n|, tol * 2)) ∨ (0 < n ∧ x = (n, |n - ret| / ret))) := by
  unfold turn at h
  have e : ret * (1 / (4 * c1 * r)) = ret / (4 * c1 * r) := by ring
  simp only [e] at h
  by_cases hy : ret / (4 * c1 * r) ≤ 0 ∨ Real.log (ret / (4 * c1 * r)) + 1 = 0
  · rw [if_pos hy] at h; simp at h
  · rw [if_neg hy] at h
    push Not at hy
    have hr : 0 < ret := by
      by_contra hc
      exact absurd hy.1 (not_lt.2 (div_nonpos_of_nonpos_of_nonneg (not_lt.1 hc) hK.le))
    refine ⟨hr, hy.2, ret + (sep * c1 - ret * Real.log (ret / (4 * c1 * r))) / (Real.log (ret / (4 * c1 * r)) + 1), ?_, ?_⟩
    · rw [add_sub_cancel_left, div_mul_cancel₀ _ hy.2]
    · split_ifs at h with hn
      · left; exact ⟨hn, (Res.ok.inj h).symm⟩
      · right; exact ⟨not_le.1 hn, (Res.ok.inj h).symm⟩

/-- The excess after a turn of Newton's method. -/
theorem excess_turn {sep c1 r ret n : ℝ} (hK : 0 < 4 * c1 * r) (hr : 0 < ret) (hn : 0 < n) (h : (n - ret) * (Real.log (ret / (4 * c1 * r)) + 1) = sep * c1 - ret * Real.log (ret / (4 * c1 * r))) :
    excess c1 r sep n = n * Real.log (n / ret) - n + ret := by
  unfold excess
  rw [Real.log_div hn.ne' hK.ne', Real.log_div hn.ne' hr.ne']
  rw [Real.log_div hr.ne' hK.ne'] at h
  linear_combination h

theorem log_lower {q : ℝ} (hq : 0 < q) : 1 - 1 / q ≤ Real.log q := by
  have := Real.log_le_sub_one_of_pos (inv_pos.2 hq)
  rw [Real.log_inv] at this
  rw [one_div]
  linarith

theorem ratio_lower {a b : ℝ} (ha : 0 < a) (hb : 0 < b) : a - b ≤ a * Real.log (a / b) := by
  have := mul_le_mul_of_nonneg_left (log_lower (div_pos ha hb)) ha.le
  have e : a * (1 - 1 / (a / b)) = a - b := by field_simp
  linarith

theorem ratio_upper {a b : ℝ} (ha : 0 < a) (hb : 0 < b) : a * Real.log (a / b) ≤ a * (a / b - 1) := mul_le_mul_of_nonneg_left (Real.log_le_sub_one_of_pos (div_pos ha hb)) ha.le

/-- **C285**: whatever force the iteration starts from, a force it returns is positive and obeys the law up to a small excess. -/
theorem C285_equation {sep c1 r tol : ℝ} (hc : 0 < c1) (hr : 0 < r) (ht : 0 < tol) (ht1 : tol < 1) : ∀ {k : ℕ} {ret F : ℝ}, loop sep c1 r tol k ret = .ok F → 0 < F ∧ 0 ≤ excess c1 r sep F ∧ excess c1 r sep F ≤ tol ^ 2 / (1 - tol) * F := by
  have hK : 0 < 4 * c1 * r := by positivity
  intro k
  induction k with
  | zero =>
    intro ret F h
    unfold loop at h
    rcases hx : turn sep c1 r tol ret with x | _ | _ <;> rw [hx] at h <;> simp at h
  | succ k ih =>
    intro ret F h
    unfold loop at h
    rcases hx : turn sep c1 r tol ret with x | _ | _
    · rw [hx, Res.bind_ok] at h
      obtain ⟨h0, -, n, hn, hcase⟩ := turn_cases hx hK
      split_ifs at h with hgt
      · exact ih h
      · rcases hcase with ⟨-, rfl⟩ | ⟨hpos, rfl⟩
        · exfalso; apply hgt; show tol * 2 > tol; linarith
        · cases h
          refine ⟨hpos, ?_, ?_⟩
          · rw [excess_turn hK h0 hpos hn]; linarith [ratio_lower hpos h0]
          · rw [excess_turn hK h0 hpos hn]
            have hres : |n - ret| / ret ≤ tol := not_lt.1 hgt
            rw [div_le_iff₀ h0] at hres
            have hs : (n - ret) ^ 2 ≤ (tol * ret) ^ 2 := sq_le_sq' (by linarith [neg_abs_le (n - ret)]) (by linarith [le_abs_self (n - ret)])
            have hu := ratio_upper hpos h0
            have e : n * (n / ret - 1) - n + ret = (n - ret) ^ 2 / ret := by field_simp; ring
            have h1 : (n - ret) ^ 2 / ret ≤ tol ^ 2 * ret := by rw [div_le_iff₀ h0]; nlinarith
            have h2 : ret ≤ n / (1 - tol) := by rw [le_div_iff₀ (by linarith)]; linarith [neg_abs_le (n - ret)]
            have h3 : tol ^ 2 * ret ≤ tol ^ 2 * (n / (1 - tol)) := mul_le_mul_of_nonneg_left h2 (by positivity)
            have e2 : tol ^ 2 / (1 - tol) * n = tol ^ 2 * (n / (1 - tol)) := by ring
            dsimp only
            rw [e2]
            linarith
    · rw [hx] at h; simp at h
    · rw [hx] at h; simp at h

/-- The limit of forces for the iteration, as a part of `4 c1 r`. -/
noncomputable def E : ℝ := Real.exp (-2)

theorem E_pos : 0 < E := Real.exp_pos _

theorem log_E : Real.log E = -2 := Real.log_exp _

/-- **C285**: a small force returned is the one of the law, from below, up to a small relative error. -/
theorem C285_accuracy {sep c1 r tol F F' : ℝ} (hc : 0 < c1) (hr : 0 < r) (hF : 0 < F) (hs : F ≤ 4 * c1 * r * E) (h0 : 0 ≤ excess c1 r sep F) (h1 : excess c1 r sep F ≤ tol * F) (hF' : 0 < F') (hs' : F' ≤ 4 * c1 * r * E)
    (h : excess c1 r sep F' = 0) : F ≤ F' ∧ F' - F ≤ tol * F := by
  have hK : 0 < 4 * c1 * r := by positivity
  have lg : ∀ {x : ℝ}, 0 < x → x ≤ 4 * c1 * r * E → Real.log (x / (4 * c1 * r)) ≤ -2 := by
    intro x hx hle
    rw [← log_E]
    exact Real.log_le_log (div_pos hx hK) (by rw [div_le_iff₀ hK]; linarith)
  have l := lg hF hs; have l' := lg hF' hs'
  have k1 := ratio_lower hF hF'
  have k2 := ratio_lower hF' hF
  unfold excess at h0 h1 h
  rw [Real.log_div hF.ne' hF'.ne'] at k1
  rw [Real.log_div hF'.ne' hF.ne'] at k2
  rw [Real.log_div hF.ne' hK.ne'] at l h0 h1
  rw [Real.log_div hF'.ne' hK.ne'] at l' h
  have hle : F ≤ F' := by
    by_contra hc
    push Not at hc
    nlinarith
  refine ⟨hle, ?_⟩
  nlinarith

/-! ## Branches -/

theorem xlog_le {x : ℝ} (hx : 0 < x) (h : x ≤ E) : -(x * Real.log x) ≤ 2 * E := by
  have := ratio_lower hx E_pos
  rw [Real.log_div hx.ne' E_pos.ne', log_E] at this
  linarith

/-- A turn stays below the limit. -/
theorem turn_small {sep c1 r tol ret : ℝ} {x : ℝ × ℝ} (hc : 0 < c1) (hr : 0 < r) (h : turn sep c1 r tol ret = .ok x) (hs : ret ≤ 4 * c1 * r * E) (hsep : sep < 0) (hlow : -sep ≤ 4 * r * (2 * E)) : x.1 ≤ 4 * c1 * r * E := by
  have hK : 0 < 4 * c1 * r := by positivity
  obtain ⟨h0, -, n, hn, hcase⟩ := turn_cases h hK
  set g := Real.log (ret / (4 * c1 * r)) with hg
  have hg2 : g ≤ -2 := by
    rw [hg, ← log_E]
    exact Real.log_le_log (div_pos h0 hK) (by rw [div_le_iff₀ hK]; linarith)
  have e : n * (-(g + 1)) = -sep * c1 - ret := by linear_combination -hn
  rcases hcase with ⟨hneg, rfl⟩ | ⟨hpos, rfl⟩
  · show 9 / 10 * |n| ≤ _
    rw [abs_of_nonpos hneg]
    have : 0 < -sep * c1 := mul_pos (by linarith) hc
    nlinarith
  · show n ≤ _
    have hb : -sep * c1 ≤ 4 * c1 * r * (2 * E) := by nlinarith
    have hl := ratio_upper (mul_pos hK E_pos) h0
    have hl' := Real.log_le_sub_one_of_pos (div_pos h0 (mul_pos hK E_pos))
    rw [Real.log_div h0.ne' (mul_pos hK E_pos).ne', Real.log_mul hK.ne' E_pos.ne', log_E] at hl'
    rw [Real.log_div h0.ne' hK.ne'] at hg
    have hl2 : (4 * c1 * r * E) * (g + 2) ≤ ret - 4 * c1 * r * E := by
      have := mul_le_mul_of_nonneg_left hl' (mul_pos hK E_pos).le
      have e3 : 4 * c1 * r * E * (ret / (4 * c1 * r * E) - 1) = ret - 4 * c1 * r * E := by
        rw [mul_sub, mul_div_cancel₀ _ (mul_pos hK E_pos).ne', mul_one]
      rw [e3] at this
      rw [hg]
      linarith
    have h1 : 0 < -(g + 1) := by linarith
    have : n * (-(g + 1)) ≤ (4 * c1 * r * E) * (-(g + 1)) := by rw [e]; linarith
    exact le_of_mul_le_mul_right this h1

theorem loop_small {sep c1 r tol : ℝ} (hc : 0 < c1) (hr : 0 < r) (hsep : sep < 0) (hlow : -sep ≤ 4 * r * (2 * E)) : ∀ {k : ℕ} {ret F : ℝ}, ret ≤ 4 * c1 * r * E → loop sep c1 r tol k ret = .ok F → F ≤ 4 * c1 * r * E := by
  intro k
  induction k with
  | zero =>
    intro ret F _ h
    unfold loop at h
    rcases hx : turn sep c1 r tol ret with x | _ | _ <;> rw [hx] at h <;> simp at h
  | succ k ih =>
    intro ret F hret h
    unfold loop at h
    rcases hx : turn sep c1 r tol ret with x | _ | _
    · rw [hx, Res.bind_ok] at h
      have := turn_small hc hr hx hret hsep hlow
      split_ifs at h with hgt
      · exact ih this h
      · cases h; exact this
    · rw [hx] at h; simp at h
    · rw [hx] at h; simp at h

/-- What `start` gives. -/
theorem start_ok {l l' : Law} {p q : Phys} {r1 r2 : ℝ} (h : start l p r1 r2 = .ok (l', q)) : 0 < l.pct ∧ Real.log (l.pct / 4) + 1 ≠ 0 ∧ q.rAvg = (r1 + r2) / 2 ∧ l'.c1 = some (2 * Real.pi * l.tension) ∧ l'.pct = l.pct ∧
    q.dmax = l.pct * q.rAvg * Real.log (l.pct / 4) ∧ q.fN = 1 / 10 * (l.pct * (2 * Real.pi * l.tension) * q.rAvg) ∧ q.newtonTol = p.newtonTol ∧ q.newtonIter = p.newtonIter ∧
    q.coef = some (l.pct * (2 * Real.pi * l.tension) * q.rAvg / Real.exp (2 * Real.pi * l.tension / (Real.log (l.pct / 4) + 1) / (l.pct * (2 * Real.pi * l.tension) * q.rAvg) * q.dmax), 2 * Real.pi * l.tension / (Real.log (l.pct / 4) + 1) / (l.pct * (2 * Real.pi * l.tension) * q.rAvg)) := by
  unfold start Phys.coeffs at h
  dsimp only at h
  split_ifs at h with hc
  · simp at h
  · push Not at hc
    simp only [Res.bind_ok, Res.ok.injEq, Prod.mk.injEq] at h
    obtain ⟨rfl, rfl⟩ := h
    exact ⟨hc.1, hc.2.1, by ring, rfl, rfl, rfl, rfl, rfl, rfl, rfl⟩

/-- **C285, part**: in any history of a contact within the range of the law (up to `Dmax`), with `pctMaxForce` up to `4 exp (-2)`, i.e. 0.54, every force is the small one, positive, and of little excess.  Missing: histories beyond
`Dmax`, greater `pctMaxForce`, and iterations which fail. -/
theorem C285_history_partial {l l' : Law} {p q : Phys} {r1 r2 : ℝ} (h : start l p r1 r2 = .ok (l', q)) (hr : 0 < r1 + r2) (hten : 0 < l.tension) (hpct : l.pct ≤ 4 * E) (ht : 0 < p.newtonTol) (ht1 : p.newtonTol < 1) {ds : List ℝ}
    (hds : ∀ d ∈ ds, 0 < d ∧ d ≤ -q.dmax) {fs : List ℝ} {s : Law × Phys} (hrun : steps (l', q) ds = .ok (fs, s)) :
    List.Forall₂ (fun d F => 0 < F ∧ F ≤ 4 * (2 * Real.pi * l.tension) * q.rAvg * E ∧ 0 ≤ excess (2 * Real.pi * l.tension) q.rAvg (-d) F ∧ excess (2 * Real.pi * l.tension) q.rAvg (-d) F ≤ p.newtonTol ^ 2 / (1 - p.newtonTol) * F) ds fs := by
  obtain ⟨hp, -, hrA, hc1, -, hd, hf, htol, -, -⟩ := start_ok h
  have hc : 0 < 2 * Real.pi * l.tension := by have := Real.pi_pos; positivity
  have hra : 0 < q.rAvg := by rw [hrA]; linarith
  set c1 := 2 * Real.pi * l.tension with hc1e
  have hlim : -q.dmax ≤ 4 * q.rAvg * (2 * E) := by
    have := xlog_le (x := l.pct / 4) (by linarith) (by linarith)
    rw [hd]
    nlinarith
  have h0 : q.fN ≤ 4 * c1 * q.rAvg * E := by
    rw [hf]
    have hcr := mul_pos hc hra
    have : l.pct * c1 * q.rAvg ≤ 4 * E * (c1 * q.rAvg) := by nlinarith
    have hE := E_pos
    have : 0 < l.pct * c1 * q.rAvg := by positivity
    nlinarith
  have key : ∀ (ds : List ℝ) (q' : Phys), q'.rAvg = q.rAvg → q'.dmax = q.dmax → q'.newtonTol = p.newtonTol → q'.fN ≤ 4 * c1 * q.rAvg * E → (∀ d ∈ ds, 0 < d ∧ d ≤ -q.dmax) → ∀ fs s, steps (l', q') ds = .ok (fs, s) →
      List.Forall₂ (fun d F => 0 < F ∧ F ≤ 4 * c1 * q.rAvg * E ∧ 0 ≤ excess c1 q.rAvg (-d) F ∧ excess c1 q.rAvg (-d) F ≤ p.newtonTol ^ 2 / (1 - p.newtonTol) * F) ds fs := by
    intro ds
    induction ds with
    | nil =>
      intro q' _ _ _ _ _ fs s hrun
      simp only [steps, Res.ok.injEq, Prod.mk.injEq] at hrun
      rw [← hrun.1]; exact .nil
    | cons d ds ih =>
      intro q' e1 e2 e3 h0 hds fs s hrun
      obtain ⟨hd0, hd1⟩ := hds d (by simp)
      unfold steps at hrun
      have hk : keep l' q' d = (loop (-d) c1 q.rAvg p.newtonTol (q'.newtonIter + 1) q'.fN).bind fun f => .ok (l', { q' with fN := f }) := by
        unfold keep Phys.force
        rw [hc1]
        dsimp only
        rw [if_pos (show -d ≥ q'.dmax by rw [e2]; linarith), e1, e3]
      rw [hk] at hrun
      rcases hx : loop (-d) c1 q.rAvg p.newtonTol (q'.newtonIter + 1) q'.fN with F | _ | _
      · rw [hx, Res.bind_ok, Res.bind_ok] at hrun
        have hsm := loop_small hc hra (by linarith : -d < 0) (by linarith) h0 hx
        have heq := C285_equation hc hra ht ht1 hx
        rcases hy : steps (l', { q' with fN := F }) ds with r | _ | _
        · rw [hy, Res.bind_ok] at hrun
          simp only [Res.ok.injEq, Prod.mk.injEq] at hrun
          rw [← hrun.1]
          exact .cons ⟨heq.1, hsm, heq.2.1, heq.2.2⟩ (ih { q' with fN := F } e1 e2 e3 hsm (fun d hd => hds d (by simp [hd])) r.1 r.2 hy)
        · rw [hy] at hrun; simp at hrun
        · rw [hy] at hrun; simp at hrun
      · rw [hx] at hrun; simp at hrun
      · rw [hx] at hrun; simp at hrun
  exact key ds q rfl rfl htol h0 hds fs s hrun

theorem E_big : (1 : ℝ) / 40 ≤ E := by
  unfold E
  rw [Real.exp_neg, ← one_div]
  apply one_div_le_one_div_of_le (Real.exp_pos _)
  have h1 := Real.exp_one_lt_d9
  have : Real.exp 2 = Real.exp 1 * Real.exp 1 := by rw [← Real.exp_add]; norm_num
  rw [this]
  nlinarith [Real.exp_pos 1]

/-- The default of `pctMaxForce` is in the range. -/
example : (1 / 10 : ℝ) ≤ 4 * E := by linarith [E_big]

/-! ## The other branch -/

/-- From a force greater than `4 c1 r / e` no turn leads to a smaller one. -/
theorem turn_large {sep c1 r tol ret : ℝ} {x : ℝ × ℝ} (hc : 0 < c1) (hr : 0 < r) (h : turn sep c1 r tol ret = .ok x) (hs : 4 * c1 * r < ret * Real.exp 1) (hlow : -sep * Real.exp 1 < 4 * r) : 4 * c1 * r < x.1 * Real.exp 1 := by
  have hK : 0 < 4 * c1 * r := by positivity
  obtain ⟨h0, -, n, hn, hcase⟩ := turn_cases h hK
  have he := Real.exp_pos 1
  set g := Real.log (ret / (4 * c1 * r)) with hg
  have e1 : g + 1 = Real.log (ret * Real.exp 1 / (4 * c1 * r)) := by
    rw [hg, mul_div_right_comm, Real.log_mul (div_pos h0 hK).ne' he.ne', Real.log_exp]
  have hg1 : 0 < g + 1 := by rw [e1]; exact Real.log_pos (by rw [lt_div_iff₀ hK]; linarith)
  have e : n * (g + 1) = sep * c1 + ret := by linear_combination hn
  have hu : g + 1 ≤ ret * Real.exp 1 / (4 * c1 * r) - 1 := by rw [e1]; exact Real.log_le_sub_one_of_pos (by positivity)
  have hu' : (4 * c1 * r) * (g + 1) ≤ ret * Real.exp 1 - 4 * c1 * r := by
    have := mul_le_mul_of_nonneg_left hu hK.le
    have e3 : 4 * c1 * r * (ret * Real.exp 1 / (4 * c1 * r) - 1) = ret * Real.exp 1 - 4 * c1 * r := by field_simp
    linarith
  have hlow' : -sep * Real.exp 1 * c1 < 4 * r * c1 := mul_lt_mul_of_pos_right hlow hc
  have hlt : (4 * c1 * r) * (g + 1) < (n * Real.exp 1) * (g + 1) := by
    have : (n * Real.exp 1) * (g + 1) = (sep * c1 + ret) * Real.exp 1 := by rw [← e]; ring
    rw [this]; linarith
  have hn' : 4 * c1 * r < n * Real.exp 1 := lt_of_mul_lt_mul_right hlt hg1.le
  rcases hcase with ⟨hneg, rfl⟩ | ⟨hpos, rfl⟩
  · nlinarith
  · exact hn'

theorem loop_large {sep c1 r tol : ℝ} (hc : 0 < c1) (hr : 0 < r) (hlow : -sep * Real.exp 1 < 4 * r) : ∀ {k : ℕ} {ret F : ℝ}, 4 * c1 * r < ret * Real.exp 1 → loop sep c1 r tol k ret = .ok F → 4 * c1 * r < F * Real.exp 1 := by
  intro k
  induction k with
  | zero =>
    intro ret F _ h
    unfold loop at h
    rcases hx : turn sep c1 r tol ret with x | _ | _ <;> rw [hx] at h <;> simp at h
  | succ k ih =>
    intro ret F hret h
    unfold loop at h
    rcases hx : turn sep c1 r tol ret with x | _ | _
    · rw [hx, Res.bind_ok] at h
      have := turn_large hc hr hx hret hlow
      split_ifs at h with hgt
      · exact ih this h
      · cases h; exact this
    · rw [hx] at h; simp at h
    · rw [hx] at h; simp at h

/-- `x log x` is greater than `-1/e` away from `1/e`. -/
theorem xlog_gt {x : ℝ} (hx : 0 < x) (h : Real.log x + 1 ≠ 0) : -(x * Real.log x) * Real.exp 1 < 1 := by
  have he := Real.exp_pos 1
  have e1 : Real.log (1 / (x * Real.exp 1)) = -(Real.log x + 1) := by rw [one_div, Real.log_inv, Real.log_mul hx.ne' he.ne', Real.log_exp]
  have hne : 1 / (x * Real.exp 1) ≠ 1 := by intro hc; rw [hc, Real.log_one] at e1; exact h (by linarith)
  have := Real.log_lt_sub_one_of_pos (by positivity : 0 < 1 / (x * Real.exp 1)) hne
  rw [e1] at this
  have h2 := mul_lt_mul_of_pos_right this (mul_pos hx he)
  have e3 : (1 / (x * Real.exp 1) - 1) * (x * Real.exp 1) = 1 - x * Real.exp 1 := by field_simp
  rw [e3] at h2
  nlinarith

/-- **C285 fails after deep penetration**: once the force was greater than `4 c1 r / e`, all forces in the range of the law are greater than that, although the law gives at most `pctMaxForce c1 r`, and less for smaller penetration. -/
theorem C285_violated_branch {l l' : Law} {p q : Phys} {r1 r2 : ℝ} (h : start l p r1 r2 = .ok (l', q)) (hr : 0 < r1 + r2) (hten : 0 < l.tension) {q' : Phys} (hq : q' = { q with fN := q'.fN }) (hf : 4 * (2 * Real.pi * l.tension) * q.rAvg < q'.fN * Real.exp 1)
    {ds : List ℝ} (hds : ∀ d ∈ ds, 0 < d ∧ d ≤ -q.dmax) {fs : List ℝ} {s : Law × Phys} (hrun : steps (l', q') ds = .ok (fs, s)) : ∀ F ∈ fs, 4 * (2 * Real.pi * l.tension) * q.rAvg < F * Real.exp 1 := by
  obtain ⟨hp, hne, hrA, hc1, -, hd, -, -, -, -⟩ := start_ok h
  have hc : 0 < 2 * Real.pi * l.tension := by have := Real.pi_pos; positivity
  have hra : 0 < q.rAvg := by rw [hrA]; linarith
  set c1 := 2 * Real.pi * l.tension with hc1e
  have hlim : -q.dmax * Real.exp 1 < 4 * q.rAvg := by
    have := xlog_gt (x := l.pct / 4) (by linarith) hne
    rw [hd]
    nlinarith
  have key : ∀ (ds : List ℝ) (q' : Phys), q' = { q with fN := q'.fN } → 4 * c1 * q.rAvg < q'.fN * Real.exp 1 → (∀ d ∈ ds, 0 < d ∧ d ≤ -q.dmax) → ∀ fs s, steps (l', q') ds = .ok (fs, s) → ∀ F ∈ fs, 4 * c1 * q.rAvg < F * Real.exp 1 := by
    intro ds
    induction ds with
    | nil =>
      intro q' _ _ _ fs s hrun
      simp only [steps, Res.ok.injEq, Prod.mk.injEq] at hrun
      rw [← hrun.1]; simp
    | cons d ds ih =>
      intro q' hq h0 hds fs s hrun
      obtain ⟨hd0, hd1⟩ := hds d (by simp)
      unfold steps at hrun
      have e1 : q'.rAvg = q.rAvg := by rw [hq]
      have e2 : q'.dmax = q.dmax := by rw [hq]
      have hk : keep l' q' d = (loop (-d) c1 q.rAvg q'.newtonTol (q'.newtonIter + 1) q'.fN).bind fun f => .ok (l', { q' with fN := f }) := by
        unfold keep Phys.force
        rw [hc1]
        dsimp only
        rw [if_pos (show -d ≥ q'.dmax by rw [e2]; linarith), e1]
      rw [hk] at hrun
      rcases hx : loop (-d) c1 q.rAvg q'.newtonTol (q'.newtonIter + 1) q'.fN with F | _ | _
      · rw [hx, Res.bind_ok, Res.bind_ok] at hrun
        have hlg := loop_large hc hra (by have := mul_le_mul_of_nonneg_right hd1 (Real.exp_pos 1).le; linarith : -(-d) * Real.exp 1 < 4 * q.rAvg) h0 hx
        rcases hy : steps (l', { q' with fN := F }) ds with r | _ | _
        · rw [hy, Res.bind_ok] at hrun
          simp only [Res.ok.injEq, Prod.mk.injEq] at hrun
          rw [← hrun.1]
          intro G hG
          rcases List.mem_cons.1 hG with rfl | hG
          · exact hlg
          · exact ih { q' with fN := F } (by rw [hq]) hlg (fun d hd => hds d (by simp [hd])) r.1 r.2 hy G hG
        · rw [hy] at hrun; simp at hrun
        · rw [hy] at hrun; simp at hrun
      · rw [hx] at hrun; simp at hrun
      · rw [hx] at hrun; simp at hrun
  exact key ds q' hq hf hds fs s hrun

/-- **C285 fails at a tenth of `pctMaxForce` times the radius**: the first force of such a contact is not a number. -/
theorem C285_violated_zero {l l' : Law} {p q : Phys} {r1 r2 : ℝ} (h : start l p r1 r2 = .ok (l', q)) (hr : 0 < r1 + r2) (hten : 0 < l.tension) (hpct : l.pct ≤ 4 * E) (ht : 0 < p.newtonTol) : keep l' q (1 / 10 * (l.pct * q.rAvg)) = .ub := by
  obtain ⟨hp, -, hrA, hc1, -, hd, hf, htol, hit, -⟩ := start_ok h
  have hc : 0 < 2 * Real.pi * l.tension := by have := Real.pi_pos; positivity
  have hra : 0 < q.rAvg := by rw [hrA]; linarith
  unfold keep Phys.force
  rw [hc1]
  dsimp only
  set c1 := 2 * Real.pi * l.tension with hc1e
  have hK : 0 < 4 * c1 * q.rAvg := by positivity
  have hlog : Real.log (l.pct / 4) ≤ -2 := by rw [← log_E]; exact Real.log_le_log (by linarith) (by linarith)
  have hreg : -(1 / 10 * (l.pct * q.rAvg)) ≥ q.dmax := by
    rw [hd]
    have := mul_pos hp hra
    nlinarith
  rw [if_pos hreg]
  have hfp : 0 < q.fN := by rw [hf]; positivity
  have hy : q.fN * (1 / (4 * c1 * q.rAvg)) = l.pct / 4 * (1 / 10) := by rw [hf]; field_simp
  have hylog : Real.log (l.pct / 4 * (1 / 10)) + 1 < 0 := by
    have : Real.log (l.pct / 4 * (1 / 10)) ≤ Real.log (l.pct / 4) := Real.log_le_log (by linarith) (by linarith)
    linarith
  have h0 : q.fN + (-(1 / 10 * (l.pct * q.rAvg)) * c1 - q.fN * Real.log (l.pct / 4 * (1 / 10))) / (Real.log (l.pct / 4 * (1 / 10)) + 1) = 0 := by
    rw [add_eq_zero_iff_eq_neg, ← neg_div, eq_div_iff hylog.ne, hf]
    ring
  have hturn : turn (-(1 / 10 * (l.pct * q.rAvg))) c1 q.rAvg q.newtonTol q.fN = .ok (0, q.newtonTol * 2) := by
    unfold turn
    rw [hy]
    dsimp only
    rw [if_neg (by push Not; exact ⟨by linarith, hylog.ne⟩), h0, if_pos le_rfl]
    simp
  have hturn0 : turn (-(1 / 10 * (l.pct * q.rAvg))) c1 q.rAvg q.newtonTol 0 = .ub := by
    unfold turn
    simp
  unfold loop
  rw [hturn, Res.bind_ok, if_pos (by show q.newtonTol * 2 > q.newtonTol; rw [htol]; linarith)]
  dsimp only
  cases q.newtonIter with
  | zero => unfold loop; rw [hturn0]; rfl
  | succ n => unfold loop; rw [hturn0]; rfl

end Verif.Bubble
