import Verif.Ctl.Lemmas
import Mathlib.Analysis.Complex.ExponentialBounds

/-!
# Properties of PeriTriaxController

The specification speaks of sizes of the cell, strains as logarithms of its transformation, and stresses measured.
-/
namespace Verif.Ctl

open Verif.Mech

theorem ready_same (e : Tri) (i : TriIn) :
    (e.ready i).dyn = e.dyn ∧ (e.ready i).goal = e.goal ∧ (e.ready i).mask = e.mask ∧ (e.ready i).maxRate = e.maxRate ∧
      (e.ready i).maxUnbalanced = e.maxUnbalanced ∧ (e.ready i).absTol = e.absTol ∧ (e.ready i).relTol = e.relTol ∧
      (e.ready i).damp = e.damp ∧ (e.ready i).globUpdate = e.globUpdate ∧
      (e.ready i).span = Tri.spanOf i.size e.span i.bounds ∧ (e.ready i).prevGrow = e.prevGrow ∧ (e.ready i).unb = e.unb := by
  unfold Tri.ready Tri.weigh
  have h : ∀ e : Tri, (e.measure i).dyn = e.dyn ∧ (e.measure i).goal = e.goal ∧ (e.measure i).mask = e.mask ∧
      (e.measure i).maxRate = e.maxRate ∧ (e.measure i).maxUnbalanced = e.maxUnbalanced ∧
      (e.measure i).absTol = e.absTol ∧ (e.measure i).relTol = e.relTol ∧
      (e.measure i).damp = e.damp ∧ (e.measure i).globUpdate = e.globUpdate ∧
      (e.measure i).span = e.span ∧ (e.measure i).prevGrow = e.prevGrow ∧ (e.measure i).unb = e.unb := by
    intro e
    unfold Tri.measure
    by_cases h : e.measures i
    · rw [if_pos h]; exact ⟨rfl, rfl, rfl, rfl, rfl, rfl, rfl, rfl, rfl, rfl, rfl, rfl⟩
    · rw [if_neg h]; exact ⟨rfl, rfl, rfl, rfl, rfl, rfl, rfl, rfl, rfl, rfl, rfl, rfl⟩
  have h1 := h ({ e with span := Tri.spanOf i.size e.span i.bounds } : Tri)
  generalize ({ e with span := Tri.spanOf i.size e.span i.bounds } : Tri).measure i = m at h1 ⊢
  by_cases hc : m.dyn = true ∧ m.mass = none
  · rw [if_pos hc]; exact h1
  · rw [if_neg hc]; exact h1

/-- In a step that measures, the engine has the strain of the cell and the stress of the contacts. -/
theorem ready_measured (e : Tri) (i : TriIn) (h : e.measures i) :
    ((e.ready i).strain = fun a => Real.log (i.trsf a)) ∧ (e.ready i).stress = i.mStress ∧ (e.ready i).stiff = i.mStiff := by
  unfold Tri.ready Tri.weigh
  have h1 : ({ e with span := Tri.spanOf i.size e.span i.bounds } : Tri).measure i =
      { e with span := Tri.spanOf i.size e.span i.bounds, strain := fun a => Real.log (i.trsf a), stress := i.mStress,
               stiff := i.mStiff } := if_pos h
  rw [h1]
  split_ifs <;> exact ⟨rfl, rfl, rfl⟩

/-- What a successful call is. -/
theorem tri_ok {e : Tri} {i : TriIn} {o : TriOut} (h : e.action i = .ok o) :
    i.periodic = true ∧ (∀ a, 2.1 * (e.ready i).span a ≤ i.size a) ∧ 0 < i.dt ∧ e.globUpdate ≠ 0 ∧ o = (e.ready i).finish i := by
  have hr := ready_same e i
  unfold Tri.action at h
  by_cases h1 : i.periodic = false
  · rw [if_pos h1] at h; cases h
  rw [if_neg h1] at h
  by_cases h2 : ∃ a, 2.1 * Tri.spanOf i.size e.span i.bounds a > i.size a
  · rw [if_pos h2] at h; cases h
  rw [if_neg h2] at h
  by_cases h3 : e.globUpdate = 0 ∨ i.dt ≤ 0
  · rw [if_pos h3] at h; cases h
  rw [if_neg h3] at h
  by_cases h4 : e.dyn = true ∧ (∃ a, e.mask a = true) ∧ (e.ready i).mass.getD 0 ≤ 0
  · rw [if_pos h4] at h; cases h
  rw [if_neg h4] at h
  injection h with h
  refine ⟨by simpa using h1, fun a => ?_, not_le.1 fun q => h3 (.inr q), fun q => h3 (.inl q), h.symm⟩
  rw [hr.2.2.2.2.2.2.2.2.2.1]
  exact not_lt.1 fun q => h2 ⟨a, q⟩

/-- When a call succeeds. -/
theorem tri_works {e : Tri} {i : TriIn} (h1 : i.periodic = true)
    (h2 : ∀ a, 2.1 * Tri.spanOf i.size e.span i.bounds a ≤ i.size a) (h3 : e.globUpdate ≠ 0) (h4 : 0 < i.dt)
    (h5 : e.dyn = false) : e.action i = .ok ((e.ready i).finish i) := by
  unfold Tri.action
  rw [if_neg (by rw [h1]; simp), if_neg (by rintro ⟨a, ha⟩; exact absurd ha (not_lt.2 (h2 a))),
    if_neg (by rintro (q | q); exacts [h3 q, absurd q (not_le.2 h4)]), if_neg (by rw [h5]; simp)]

theorem allOk_iff (e : Tri) (i : TriIn) : e.allOk i = true ↔ ∀ a, ¬ e.missed (e.strainNext i) a := by
  unfold Tri.allOk
  simp only [decide_eq_true_eq]

theorem hook_iff (e : Tri) (i : TriIn) :
    (e.finish i).hook = true ↔ e.allOk i = true ∧ ltNum (e.unbNext i) e.maxUnbalanced := by
  unfold Tri.finish
  simp only [decide_eq_true_eq]

/-! ## An example: strain along all axes -/

/-- Strain control with goal `g` along all axes, without damping, and with a maximum rate. -/
noncomputable def exT (g m : ℝ) : Tri :=
  { dyn := false, goal := fun _ => g, mask := fun _ => false, maxRate := fun _ => m, maxUnbalanced := 1e-4, absTol := 1e3,
    relTol := 3e-5, damp := 0, globUpdate := 1, span := 0, stress := 0, strain := 0, stiff := 0, unb := none, prevGrow := 0,
    mass := none }

/-- A cell of size `s` and transformation `f`, with one body. -/
noncomputable def exTI (s f : ℝ) (it : ℤ) : TriIn :=
  { periodic := true, iter := it, dt := 1, size := fun _ => s, trsf := fun _ => f, velGrad := 0, bounds := [fun _ => 1],
    totalMass := 1, mStress := 0, mStiff := 0, unbalanced := some 0 }

theorem ex_span (s : ℝ) (hs : 1 < s) (f : ℝ) (it : ℤ) :
    Tri.spanOf (exTI s f it).size 0 (exTI s f it).bounds = fun _ => 1 := by
  unfold Tri.spanOf exTI
  rw [if_pos (by simp)]
  funext a
  simp [hs]

/-- The rate in the example. -/
theorem ex_rate (e : Tri) (s f : ℝ) (it : ℤ) (a : Fin 3) (hd : e.dyn = false) (hm : e.mask a = false) (hdamp : e.damp = 0)
    (hsp : e.span a = 1) :
    e.rate (exTI s f it) (e.mass.getD 0) a =
      max (clip (Real.exp (e.goal a - e.strain a) - 1 + 0.8 * e.prevGrow a) (e.maxRate a)) (-(s - 2.1)) := by
  unfold Tri.rate Tri.wanted exTI
  simp only [hd, hm, hdamp, hsp]
  norm_num

/-! ## Rate and size -/

/-- C221: the strain rate prescribed is at most `maxStrainRate` along every axis. -/
theorem C221_rate (e : Tri) (i : TriIn) (o : TriOut) (h : e.action i = .ok o) (a : Fin 3) (hm : 0 ≤ e.maxRate a) :
    |o.grad a| ≤ e.maxRate a := by
  obtain ⟨_, hsz, hdt, _, rfl⟩ := tri_ok h
  have hr := ready_same e i
  show |(e.ready i).rate i ((e.ready i).mass.getD 0) a| ≤ _
  unfold Tri.rate
  simp only
  rw [hr.2.2.2.1]
  refine abs_max_floor (abs_clip hm) ?_
  rw [neg_div, neg_nonpos]
  exact div_nonneg (by linarith [hsz a]) hdt.le

/-- C222, partial: edges not longer than one unit of length are not made shorter than 2.1 times the span of the bodies. Missing: longer
edges, see `C222_violated` (the length is used as if it were a strain). -/
theorem C222_size_partial (e : Tri) (i : TriIn) (o : TriOut) (h : e.action i = .ok o) (a : Fin 3) (h0 : 0 < i.size a)
    (h1 : i.size a ≤ 1) : 2.1 * o.eng.span a ≤ grown i.size o.grad i.dt a := by
  obtain ⟨_, hsz, hdt, _, rfl⟩ := tri_ok h
  have hsp : ((e.ready i).finish i).eng.span = (e.ready i).span := rfl
  rw [hsp]
  have hs := hsz a
  have hlow : -(i.size a - 2.1 * (e.ready i).span a) / i.dt ≤ ((e.ready i).finish i).grad a := le_max_right _ _
  rw [div_le_iff₀ hdt] at hlow
  unfold grown
  refine le_trans ?_ (le_abs_self _)
  have h2 : 0 ≤ i.size a - 2.1 * (e.ready i).span a := by linarith
  have h3 := mul_le_mul_of_nonneg_right hlow h0.le
  have h4 := mul_le_mul_of_nonneg_left h1 h2
  nlinarith

/-- C221 and C222 apply to a cell of edge 1/2 with a body of edge 1/10, to be compressed by half. -/
example : ∃ o, ({ exT (-1) 2 with span := fun _ => 0.1 } : Tri).action (exTI 0.5 1 0) = .ok o ∧
    (∀ a, |o.grad a| ≤ 2) ∧ (∀ a, 2.1 * o.eng.span a ≤ grown (fun _ => 0.5) o.grad 1 a) := by
  have h : ({ exT (-1) 2 with span := fun _ => 0.1 } : Tri).action (exTI 0.5 1 0) = .ok _ := tri_works rfl (by
    intro a
    unfold Tri.spanOf
    rw [if_neg (by norm_num)]
    norm_num [exTI]) (by simp [exT]) one_pos rfl
  exact ⟨_, h, fun a => C221_rate _ _ _ h a (by norm_num [exT]),
    fun a => C222_size_partial _ _ _ h a (by norm_num [exTI]) (by norm_num [exTI])⟩

/-- C222, violated: a cell of edge 10 with a body of edge 1 is made 1 long in one step. -/
theorem C222_violated : ∃ o, (exT (Real.log 0.1) 1).action (exTI 10 1 0) = .ok o ∧ ∀ a, o.eng.span a = 1 ∧
    grown (exTI 10 1 0).size o.grad 1 a = 1 := by
  have hs := ex_span 10 (by norm_num) 1 0
  have h := tri_works (e := exT (Real.log 0.1) 1) (i := exTI 10 1 0) rfl (by
    intro a
    rw [show (exT (Real.log 0.1) 1).span = 0 from rfl, hs]
    norm_num [exTI]) (by simp [exT]) one_pos rfl
  refine ⟨_, h, fun a => ?_⟩
  have hr := ready_same (exT (Real.log 0.1) 1) (exTI 10 1 0)
  have hm := ready_measured (exT (Real.log 0.1) 1) (exTI 10 1 0) (.inl (by simp [exT]))
  have hsp : ((exT (Real.log 0.1) 1).ready (exTI 10 1 0)).span a = 1 := by
    rw [hr.2.2.2.2.2.2.2.2.2.1, show (exT (Real.log 0.1) 1).span = 0 from rfl, hs]
  refine ⟨hsp, ?_⟩
  have hrate := ex_rate ((exT (Real.log 0.1) 1).ready (exTI 10 1 0)) 10 1 0 a hr.1 (by rw [hr.2.2.1]; rfl)
    (by rw [hr.2.2.2.2.2.2.2.1]; rfl) hsp
  have e1 : Real.exp (((exT (Real.log 0.1) 1).ready (exTI 10 1 0)).goal a -
      ((exT (Real.log 0.1) 1).ready (exTI 10 1 0)).strain a) - 1 +
      0.8 * ((exT (Real.log 0.1) 1).ready (exTI 10 1 0)).prevGrow a = -0.9 := by
    rw [hm.1, hr.2.1, hr.2.2.2.2.2.2.2.2.2.2.1]
    simp only [exT, exTI, Real.log_one, sub_zero, Pi.zero_apply]
    rw [Real.exp_log (by norm_num)]
    norm_num
  rw [e1, hr.2.2.2.1] at hrate
  have e2 : ((exT (Real.log 0.1) 1).ready (exTI 10 1 0)).rate (exTI 10 1 0)
      (((exT (Real.log 0.1) 1).ready (exTI 10 1 0)).mass.getD 0) a = -0.9 := by
    rw [hrate, clip_id (by norm_num [exT, abs_le])]
    apply max_eq_left; norm_num
  show |_ + 1 * ((exT (Real.log 0.1) 1).ready (exTI 10 1 0)).rate (exTI 10 1 0)
      (((exT (Real.log 0.1) 1).ready (exTI 10 1 0)).mass.getD 0) a * _| = 1
  rw [e2]
  norm_num [exTI]

/-! ## Goals -/

/-- C223, partial: with `growDamping = 0`, in a step that measures and follows no growth, if neither the maximum rate nor the
minimum size is in the way, the cell has the strain wanted after one step. Missing: steps after a growth, see `C223_violated`. -/
theorem C223_strain_partial (e : Tri) (i : TriIn) (o : TriOut) (h : e.action i = .ok o) (a : Fin 3) (hdyn : e.dyn = false)
    (hmask : e.mask a = false) (hd : e.damp = 0) (hg : e.prevGrow a = 0) (hm : e.measures i) (hF : 0 < i.trsf a)
    (hlim : |Real.exp (e.goal a) / i.trsf a - 1| ≤ e.maxRate a * i.dt)
    (hsz : 2.1 * o.eng.span a - i.size a ≤ Real.exp (e.goal a) / i.trsf a - 1) :
    Real.log (i.trsf a + i.dt * o.grad a * i.trsf a) = e.goal a := by
  obtain ⟨_, _, hdt, _, rfl⟩ := tri_ok h
  have hr := ready_same e i
  have hme := ready_measured e i hm
  have hsp : ((e.ready i).finish i).eng.span = (e.ready i).span := rfl
  rw [hsp] at hsz
  have hex : Real.exp (e.goal a - Real.log (i.trsf a)) = Real.exp (e.goal a) / i.trsf a := by
    rw [Real.exp_sub, Real.exp_log hF]
  have hrate : ((e.ready i).finish i).grad a = (Real.exp (e.goal a) / i.trsf a - 1) / i.dt := by
    show (e.ready i).rate i ((e.ready i).mass.getD 0) a = _
    unfold Tri.rate Tri.wanted
    simp only [hr.1, hdyn, hr.2.2.1, hmask, hr.2.2.2.2.2.2.2.1, hd, hr.2.2.2.2.2.2.2.2.2.2.1, hg, hr.2.1, hme.1, hr.2.2.2.1]
    simp only [Bool.false_eq_true, if_false, sub_zero, one_mul, mul_zero, add_zero]
    rw [hex, clip_id (by rw [abs_div, abs_of_pos hdt, div_le_iff₀ hdt]; exact hlim)]
    apply max_eq_left
    rw [div_le_div_iff_of_pos_right hdt]
    linarith
  rw [hrate]
  have h1 := hdt.ne'
  have h2 := hF.ne'
  have : i.trsf a + i.dt * ((Real.exp (e.goal a) / i.trsf a - 1) / i.dt) * i.trsf a = Real.exp (e.goal a) := by
    field_simp; ring
  rw [this, Real.log_exp]

/-- First step of the example with goal `log 2`: the cell gets exactly twice as long. -/
theorem ex_first : ∃ o, (exT (Real.log 2) 1).action (exTI 10 1 0) = .ok o ∧ (∀ a, o.grad a = 1) ∧
    o.eng.prevGrow = o.grad ∧ o.eng.damp = 0 ∧ o.eng.dyn = false ∧ (o.eng.mask = fun _ => false) ∧
    (o.eng.maxRate = fun _ => 1) ∧ (o.eng.goal = fun _ => Real.log 2) ∧ (o.eng.span = fun _ => 1) ∧ o.eng.globUpdate = 1 := by
  have hs := ex_span 10 (by norm_num) 1 0
  have h := tri_works (e := exT (Real.log 2) 1) (i := exTI 10 1 0) rfl (by
    intro a
    rw [show (exT (Real.log 2) 1).span = 0 from rfl, hs]
    norm_num [exTI]) (by simp [exT]) one_pos rfl
  have hr := ready_same (exT (Real.log 2) 1) (exTI 10 1 0)
  have hm := ready_measured (exT (Real.log 2) 1) (exTI 10 1 0) (.inl (by simp [exT]))
  have hsp : ((exT (Real.log 2) 1).ready (exTI 10 1 0)).span = fun _ => 1 := by
    rw [hr.2.2.2.2.2.2.2.2.2.1, show (exT (Real.log 2) 1).span = 0 from rfl, hs]
  refine ⟨_, h, ?_, rfl, hr.2.2.2.2.2.2.2.1, hr.1, hr.2.2.1, hr.2.2.2.1, hr.2.1, hsp, hr.2.2.2.2.2.2.2.2.1⟩
  intro a
  have hrate := ex_rate ((exT (Real.log 2) 1).ready (exTI 10 1 0)) 10 1 0 a hr.1 (by rw [hr.2.2.1]; rfl)
    (by rw [hr.2.2.2.2.2.2.2.1]; rfl) (by rw [hsp])
  have e1 : Real.exp (((exT (Real.log 2) 1).ready (exTI 10 1 0)).goal a -
      ((exT (Real.log 2) 1).ready (exTI 10 1 0)).strain a) - 1 +
      0.8 * ((exT (Real.log 2) 1).ready (exTI 10 1 0)).prevGrow a = 1 := by
    rw [hm.1, hr.2.1, hr.2.2.2.2.2.2.2.2.2.2.1]
    simp only [exT, exTI, Real.log_one, sub_zero, Pi.zero_apply]
    rw [Real.exp_log (by norm_num)]
    norm_num
  rw [e1, hr.2.2.2.1] at hrate
  show ((exT (Real.log 2) 1).ready (exTI 10 1 0)).rate (exTI 10 1 0)
    (((exT (Real.log 2) 1).ready (exTI 10 1 0)).mass.getD 0) a = 1
  rw [hrate, clip_id (by norm_num [exT])]
  apply max_eq_left; norm_num

/-- C223 applies to this step. -/
example : ∃ o, (exT (Real.log 2) 1).action (exTI 10 1 0) = .ok o ∧
    ∀ a, Real.log ((1 : ℝ) + 1 * o.grad a * 1) = Real.log 2 := by
  obtain ⟨o, h, _, _, _, _, _, _, _, hsp, _⟩ := ex_first
  have e2 : Real.exp (Real.log 2) = 2 := Real.exp_log (by norm_num)
  exact ⟨o, h, fun a => C223_strain_partial _ _ o h a rfl rfl rfl rfl (.inl (by simp [exT])) (by norm_num [exTI])
    (by
      show |Real.exp (Real.log 2) / 1 - 1| ≤ 1 * 1
      rw [e2]; norm_num)
    (by
      show 2.1 * o.eng.span a - 10 ≤ Real.exp (Real.log 2) / 1 - 1
      rw [hsp, e2]; norm_num)⟩

/-- C223, violated: `growDamping = 0`, documented as perfect control, leaves a goal once reached: after the step of the example, where
the cell has exactly the strain wanted, the next step makes it 1.8 times longer still. -/
theorem C223_violated : ∃ o o', (exT (Real.log 2) 1).action (exTI 10 1 0) = .ok o ∧
    (∀ a, (1 : ℝ) + 1 * o.grad a * 1 = 2) ∧ o.eng.action (exTI 20 2 1) = .ok o' ∧
    ∀ a, (2 : ℝ) + 1 * o'.grad a * 2 = 3.6 := by
  obtain ⟨o, h, hg, hp, hda, hdy, hma, hmr, hgo, hsp, hgu⟩ := ex_first
  have hspan : Tri.spanOf (exTI 20 2 1).size o.eng.span (exTI 20 2 1).bounds = fun _ => 1 := by
    unfold Tri.spanOf
    rw [if_neg (by rw [hsp]; norm_num), hsp]
  have h' := tri_works (e := o.eng) (i := exTI 20 2 1) rfl (by intro a; rw [hspan]; norm_num [exTI])
    (by rw [hgu]; norm_num) one_pos hdy
  refine ⟨o, _, h, fun a => by rw [hg a]; norm_num, h', fun a => ?_⟩
  have hr := ready_same o.eng (exTI 20 2 1)
  have hm := ready_measured o.eng (exTI 20 2 1) (.inl (by rw [hgu]; simp))
  have hrate := ex_rate (o.eng.ready (exTI 20 2 1)) 20 2 1 a (by rw [hr.1, hdy]) (by rw [hr.2.2.1, hma])
    (by rw [hr.2.2.2.2.2.2.2.1, hda]) (by rw [hr.2.2.2.2.2.2.2.2.2.1, hspan])
  have e1 : Real.exp ((o.eng.ready (exTI 20 2 1)).goal a - (o.eng.ready (exTI 20 2 1)).strain a) - 1 +
      0.8 * (o.eng.ready (exTI 20 2 1)).prevGrow a = 0.8 := by
    rw [hm.1, hr.2.1, hr.2.2.2.2.2.2.2.2.2.2.1, hgo, hp, hg]
    simp only [exTI, sub_self, Real.exp_zero]
    norm_num
  rw [e1, hr.2.2.2.1, hmr] at hrate
  have e2 : (o.eng.ready (exTI 20 2 1)).rate (exTI 20 2 1) ((o.eng.ready (exTI 20 2 1)).mass.getD 0) a = 0.8 := by
    rw [hrate, clip_id (by norm_num [abs_le])]
    apply max_eq_left; norm_num
  show (2 : ℝ) + 1 * (o.eng.ready (exTI 20 2 1)).rate (exTI 20 2 1) ((o.eng.ready (exTI 20 2 1)).mass.getD 0) a * 2 = 3.6
  rw [e2]; norm_num

/-- C224, partial: in a step with `iter % globUpdate = 0` the hook runs only if along every axis with a stress goal the stress just
measured is within the tolerances, and the unbalanced force just measured is below `maxUnbalanced`. Missing: the other
steps (the stress is then a prediction), and strain goals, see `C224_violated`. -/
theorem C224_hook_partial (e : Tri) (i : TriIn) (o : TriOut) (h : e.action i = .ok o) (hi : i.iter % e.globUpdate = 0)
    (hh : o.hook = true) :
    (∃ u, i.unbalanced = some u ∧ u < e.maxUnbalanced) ∧
      ∀ a, e.mask a = true → |i.mStress a - e.goal a| ≤ e.absTol ∧
        (e.goal a ≠ 0 → |i.mStress a - e.goal a| ≤ e.relTol * |e.goal a|) := by
  obtain ⟨_, _, _, _, rfl⟩ := tri_ok h
  have hr := ready_same e i
  have hm := ready_measured e i (.inl hi)
  obtain ⟨hok, hlt⟩ := (hook_iff _ _).1 hh
  refine ⟨?_, ?_⟩
  · unfold Tri.unbNext at hlt
    rw [if_pos ⟨hok, .inl (by rw [hr.2.2.2.2.2.2.2.2.1]; exact hi)⟩, hr.2.2.2.2.1] at hlt
    exact hlt
  · intro a ha
    have h1 := (allOk_iff _ _).1 hok a
    unfold Tri.missed at h1
    rw [if_pos (by rw [hr.2.2.1]; exact ha), hr.2.1, hm.2.1, hr.2.2.2.2.2.2.1, hr.2.2.2.2.2.1] at h1
    refine ⟨not_lt.1 fun q => h1 (.inr q), fun hg => ?_⟩
    have h2 : |(i.mStress a - e.goal a) / e.goal a| ≤ e.relTol := not_lt.1 fun q => h1 (.inl ⟨hg, q⟩)
    rwa [abs_div, div_le_iff₀ (abs_pos.2 hg)] at h2

/-- An engine with stress goals that are met. -/
noncomputable def exS : Tri :=
  { dyn := false, goal := fun _ => -5, mask := fun _ => true, maxRate := fun _ => 1, maxUnbalanced := 1e-4, absTol := 1e3,
    relTol := 3e-5, damp := 0.25, globUpdate := 5, span := 0, stress := 0, strain := 0, stiff := 0, unb := none, prevGrow := 0,
    mass := none }

/-- C224 applies to a packing with the stress wanted. -/
example : ∃ o, exS.action { exTI 10 1 0 with mStress := fun _ => -5, mStiff := fun _ => 1 } = .ok o ∧ o.hook = true := by
  have h := tri_works (e := exS) (i := { exTI 10 1 0 with mStress := fun _ => -5, mStiff := fun _ => 1 }) rfl (by
    intro a
    rw [show exS.span = 0 from rfl, show Tri.spanOf _ 0 _ = _ from ex_span 10 (by norm_num) 1 0]
    norm_num [exTI]) (by simp [exS]) one_pos rfl
  refine ⟨_, h, ?_⟩
  have hr := ready_same exS { exTI 10 1 0 with mStress := fun _ => -5, mStiff := fun _ => 1 }
  have hm := ready_measured exS { exTI 10 1 0 with mStress := fun _ => -5, mStiff := fun _ => 1 } (.inl (by simp [exTI]))
  have hok : (exS.ready { exTI 10 1 0 with mStress := fun _ => -5, mStiff := fun _ => 1 }).allOk
      { exTI 10 1 0 with mStress := fun _ => -5, mStiff := fun _ => 1 } = true := by
    refine (allOk_iff _ _).2 fun a => ?_
    unfold Tri.missed
    rw [if_pos (by rw [hr.2.2.1]; rfl), hr.2.1, hm.2.1, hr.2.2.2.2.2.2.1, hr.2.2.2.2.2.1]
    norm_num [exS]
  refine (hook_iff _ _).2 ⟨hok, ?_⟩
  unfold Tri.unbNext
  rw [if_pos ⟨hok, .inl (by simp [exTI])⟩, hr.2.2.2.2.1]
  exact ⟨0, rfl, by norm_num [exS]⟩

/-- C224, violated: the hook runs although the strain wanted is not reached. The strain compared is the rate times the time step, the one of
the cell its logarithm: with goal 1 and the rate limited to 1, the engine reports strain 1 and runs the hook, while the
strain of the cell after the step is `log 2`, less than 0.7. -/
theorem C224_violated : ∃ o, (exT 1 1).action (exTI 10 1 0) = .ok o ∧ o.hook = true ∧
    ∀ a, o.eng.strain a = 1 ∧ Real.log (1 + 1 * o.grad a * 1) < 0.7 := by
  have hs := ex_span 10 (by norm_num) 1 0
  have h := tri_works (e := exT 1 1) (i := exTI 10 1 0) rfl (by
    intro a
    rw [show (exT 1 1).span = 0 from rfl, hs]
    norm_num [exTI]) (by simp [exT]) one_pos rfl
  have hr := ready_same (exT 1 1) (exTI 10 1 0)
  have hm := ready_measured (exT 1 1) (exTI 10 1 0) (.inl (by simp [exT]))
  have hsp : ((exT 1 1).ready (exTI 10 1 0)).span = fun _ => 1 := by
    rw [hr.2.2.2.2.2.2.2.2.2.1, show (exT 1 1).span = 0 from rfl, hs]
  have hrate : ∀ a, ((exT 1 1).ready (exTI 10 1 0)).rate (exTI 10 1 0) (((exT 1 1).ready (exTI 10 1 0)).mass.getD 0) a = 1 := by
    intro a
    have hrate := ex_rate ((exT 1 1).ready (exTI 10 1 0)) 10 1 0 a hr.1 (by rw [hr.2.2.1]; rfl)
      (by rw [hr.2.2.2.2.2.2.2.1]; rfl) (by rw [hsp])
    have e1 : Real.exp (((exT 1 1).ready (exTI 10 1 0)).goal a - ((exT 1 1).ready (exTI 10 1 0)).strain a) - 1 +
        0.8 * ((exT 1 1).ready (exTI 10 1 0)).prevGrow a = Real.exp 1 - 1 := by
      rw [hm.1, hr.2.1, hr.2.2.2.2.2.2.2.2.2.2.1]
      simp only [exT, exTI, Real.log_one, sub_zero, Pi.zero_apply]
      norm_num
    have he := Real.exp_one_gt_d9
    have hgt : (1 : ℝ) < Real.exp 1 - 1 := by linarith
    rw [hrate, e1, hr.2.2.2.1, show (exT 1 1).maxRate a = 1 from rfl]
    unfold clip
    rw [if_pos (by rw [abs_of_pos (by linarith)]; exact hgt), sgn_pos_of (by linarith)]
    norm_num
  have hst : ∀ a, ((exT 1 1).ready (exTI 10 1 0)).strainNext (exTI 10 1 0) a = 1 := by
    intro a
    unfold Tri.strainNext
    rw [hrate, hm.1]
    simp [exTI]
  have hok : ((exT 1 1).ready (exTI 10 1 0)).allOk (exTI 10 1 0) = true := by
    refine (allOk_iff _ _).2 fun a => ?_
    unfold Tri.missed
    rw [if_neg (by rw [hr.2.2.1]; simp [exT]), hr.2.1, hst]
    norm_num [exT]
  refine ⟨_, h, (hook_iff _ _).2 ⟨hok, ?_⟩, fun a => ⟨hst a, ?_⟩⟩
  · unfold Tri.unbNext
    rw [if_pos ⟨hok, .inl (by simp [exTI])⟩, hr.2.2.2.2.1]
    exact ⟨0, rfl, by norm_num [exT]⟩
  · show Real.log (1 + 1 * ((exT 1 1).ready (exTI 10 1 0)).rate (exTI 10 1 0) (((exT 1 1).ready (exTI 10 1 0)).mass.getD 0) a * 1) < _
    rw [hrate]
    norm_num
    linarith [Real.log_two_lt_d9]

/-- C224, violated in steps that do not measure: the stress measured may be anything, the hook runs all the same. -/
theorem C224_violated_stale (x : V3) : ∃ e i o, e = { exS with stress := fun _ => -5, stiff := fun _ => 1, unb := some 0 } ∧
    i.mStress = x ∧ e.action i = .ok o ∧ o.hook = true := by
  have h := tri_works (e := { exS with stress := fun _ => -5, stiff := fun _ => 1, unb := some 0 })
    (i := { exTI 10 1 1 with mStress := x }) rfl (by
    intro a
    show 2.1 * Tri.spanOf _ 0 _ a ≤ _
    rw [show Tri.spanOf _ 0 _ = _ from ex_span 10 (by norm_num) 1 1]
    norm_num [exTI]) (by simp [exS]) one_pos rfl
  refine ⟨_, { exTI 10 1 1 with mStress := x }, _, rfl, rfl, h, ?_⟩
  set e : Tri := { exS with stress := fun _ => -5, stiff := fun _ => 1, unb := some 0 } with he
  set i : TriIn := { exTI 10 1 1 with mStress := x } with hi
  have hr := ready_same e i
  have hnm : ¬ e.measures i := by
    rintro (q | q | q)
    · norm_num [he, hi, exS, exTI] at q
    · norm_num [he] at q
    · norm_num [he, exS] at q
  have hst : (e.ready i).stress = fun _ => -5 := by
    unfold Tri.ready Tri.weigh
    have h1 : ({ e with span := Tri.spanOf i.size e.span i.bounds } : Tri).measure i =
        { e with span := Tri.spanOf i.size e.span i.bounds } := if_neg hnm
    rw [h1, if_neg (by simp [he, exS])]
  have hok : (e.ready i).allOk i = true := by
    refine (allOk_iff _ _).2 fun a => ?_
    unfold Tri.missed
    rw [if_pos (by rw [hr.2.2.1]; rfl), hr.2.1, hst, hr.2.2.2.2.2.2.1, hr.2.2.2.2.2.1]
    norm_num [he, exS]
  refine (hook_iff _ _).2 ⟨hok, ?_⟩
  unfold Tri.unbNext
  rw [if_neg, hr.2.2.2.2.2.2.2.2.2.2.2, hr.2.2.2.2.1]
  · exact ⟨0, rfl, by norm_num [he, exS]⟩
  · rintro ⟨_, q | q⟩
    · rw [hr.2.2.2.2.2.2.2.2.1] at q
      norm_num [he, hi, exS, exTI] at q
    · rw [hr.2.2.2.2.2.2.2.2.2.2.2] at q
      obtain ⟨y, hy, hlt⟩ := q
      injection hy with hy
      rw [← hy] at hlt
      exact lt_irrefl _ hlt

end Verif.Ctl
