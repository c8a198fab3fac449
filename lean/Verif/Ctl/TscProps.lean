import Verif.Ctl.Lemmas
import Mathlib.Analysis.SpecificLimits.Basic

/-!
# Properties of TriaxialStressController

The specification speaks of velocities and positions of walls, forces on them, strains and stresses.
-/
namespace Verif.Ctl

open Verif.Mech

theorem dot_normal_self (a : Fin 3) (u : Bool) : dot (normal a u) (normal a u) = 1 := by
  unfold dot normal
  cases u <;> fin_cases a <;> simp

/-- The translation wanted before damping. -/
noncomputable def want (x k m : ℝ) : ℝ := open Classical in
  if x ≠ 0 then (if k ≠ 0 then min |x / k| m * sgn (x / k) else m * sgn x) else x

theorem abs_want {x k m : ℝ} (hm : 0 ≤ m) : |want x k m| ≤ m := by
  classical
  unfold want
  by_cases hx : x ≠ 0
  · rw [if_pos hx]
    by_cases hk : k ≠ 0
    · rw [if_pos hk, abs_mul, abs_of_nonneg (le_min (abs_nonneg _) hm)]
      calc min |x / k| m * |sgn (x / k)| ≤ m * 1 :=
            mul_le_mul (min_le_right _ _) (abs_sgn _) (abs_nonneg _) hm
        _ = m := mul_one _
    · rw [if_neg hk, abs_mul, abs_of_nonneg hm]
      calc m * |sgn x| ≤ m * 1 := mul_le_mul_of_nonneg_left (abs_sgn _) hm
        _ = m := mul_one _
  · rw [if_neg hx, not_not.1 hx, abs_zero]; exact hm

/-- Within the limit the translation is the force missing over the stiffness. -/
theorem want_free {x k m : ℝ} (hk : k ≠ 0) (h : |x / k| ≤ m) : want x k m = x / k := by
  classical
  unfold want
  by_cases hx : x ≠ 0
  · rw [if_pos hx, if_pos hk, min_eq_left h, mul_comm, sgn_mul_abs]
  · rw [if_neg hx, not_not.1 hx, zero_div]

theorem want_none {x m : ℝ} (hx : 0 < x) : want x 0 m = m := by
  classical
  unfold want
  rw [if_pos hx.ne', if_neg (by simp), sgn_pos_of hx, mul_one]

theorem control_eq (t : Tsc) (dt maxV : ℝ) (n R : V3) (w : Wall) :
    t.control dt maxV n R w = ((1 - t.stressDamping) * want (dot n (w.force - R)) w.stiff (maxV * dt)) • n + (0.8 : ℝ) • w.prev := by
  unfold Tsc.control want
  have : ∀ x : ℝ, maxV * sgn x * dt = maxV * dt * sgn x := fun x => by ring
  simp only [this]

theorem dot_control (t : Tsc) (dt maxV : ℝ) (a : Fin 3) (u : Bool) (R : V3) (w : Wall) :
    dot (normal a u) (t.control dt maxV (normal a u) R w) =
      (1 - t.stressDamping) * want (dot (normal a u) (w.force - R)) w.stiff (maxV * dt) + 0.8 * dot (normal a u) w.prev := by
  rw [control_eq]
  have h := dot_normal_self a u
  unfold dot at *
  simp only [Pi.add_apply, Pi.smul_apply, smul_eq_mul]
  linear_combination ((1 - t.stressDamping) * want _ w.stiff (maxV * dt)) * h

/-! ## The velocity of walls -/

/-- A wall under stress control for any number of steps, with any forces, stiffness and goal forces, and limits not above `M`. -/
inductive WallRun (t : Tsc) (dt M : ℝ) (a : Fin 3) (u : Bool) : V3 → Prop
  | start : WallRun t dt M a u 0
  | step {p : V3} {w : Wall} {R : V3} {maxV : ℝ} : WallRun t dt M a u p → w.prev = p → 0 ≤ maxV → maxV ≤ M →
      WallRun t dt M a u (t.control dt maxV (normal a u) R w)

/-- The translation per step is at most `5 (1 - stressDamping)` times what the limit allows. -/
theorem wall_bound {t : Tsc} {dt M : ℝ} {a : Fin 3} {u : Bool} {p : V3} (hdt : 0 < dt) (hM : 0 ≤ M)
    (hd : t.stressDamping ≤ 1) (h : WallRun t dt M a u p) : |dot (normal a u) p| ≤ 5 * (1 - t.stressDamping) * (M * dt) := by
  induction h with
  | start =>
    have : dot (normal a u) 0 = 0 := by simp [dot]
    rw [this, abs_zero]
    have := sub_nonneg.2 hd
    positivity
  | @step p w R maxV _ hp h0 h1 ih =>
    rw [dot_control, hp]
    have hw : |want (dot (normal a u) (w.force - R)) w.stiff (maxV * dt)| ≤ M * dt :=
      (abs_want (mul_nonneg h0 hdt.le)).trans (mul_le_mul_of_nonneg_right h1 hdt.le)
    have hd' := sub_nonneg.2 hd
    have h2 := mul_le_mul_of_nonneg_left hw hd'
    calc |(1 - t.stressDamping) * want (dot (normal a u) (w.force - R)) w.stiff (maxV * dt) + 0.8 * dot (normal a u) p|
        ≤ |(1 - t.stressDamping) * want (dot (normal a u) (w.force - R)) w.stiff (maxV * dt)| + |0.8 * dot (normal a u) p| :=
          abs_add_le _ _
      _ = (1 - t.stressDamping) * |want (dot (normal a u) (w.force - R)) w.stiff (maxV * dt)| + 0.8 * |dot (normal a u) p| := by
          rw [abs_mul, abs_mul, abs_of_nonneg hd', abs_of_pos (by norm_num : (0 : ℝ) < 0.8)]
      _ ≤ _ := by norm_num at ih ⊢; linarith

/-- C225, partial: with `stressDamping` between 0.8 and 1, walls under stress control never move faster than the limit of their
axis (in general, than `5 (1 - stressDamping)` times the limit). Missing: smaller damping, such as the default one,
see `C225_violated`. -/
theorem C225_speed_partial (t : Tsc) (dt M : ℝ) (a : Fin 3) (u : Bool) (p : V3) (hdt : 0 < dt) (hM : 0 ≤ M)
    (hd : 0.8 ≤ t.stressDamping) (hd1 : t.stressDamping ≤ 1) (h : WallRun t dt M a u p) :
    |dot (normal a u) ((1 / dt) • p)| ≤ M := by
  have h1 := wall_bound hdt hM hd1 h
  have h2 : 5 * (1 - t.stressDamping) * (M * dt) ≤ 1 * (M * dt) :=
    mul_le_mul_of_nonneg_right (by norm_num at hd ⊢; linarith) (mul_nonneg hM hdt.le)
  have h3 : dot (normal a u) ((1 / dt) • p) = dot (normal a u) p / dt := by
    unfold dot
    simp only [Pi.smul_apply, smul_eq_mul]
    field_simp
  rw [h3, abs_div, abs_of_pos hdt, div_le_iff₀ hdt]
  linarith

/-- The limits used are at most three times `max_vel`, which they share between the axes. -/
theorem C225_limits (t : Tsc) (s : V3) (hs : ∀ a, 0 < s a) (hm : 0 ≤ t.maxVel) (a : Fin 3) :
    0 ≤ t.maxVelOf s a ∧ t.maxVelOf s a ≤ 3 * t.maxVel ∧
      t.maxVelOf s 0 + t.maxVelOf s 1 + t.maxVelOf s 2 = 3 * t.maxVel := by
  have h0 := hs 0; have h1 := hs 1; have h2 := hs 2; have ha := hs a
  have hS : 0 < s 1 + s 0 + s 2 := by positivity
  unfold Tsc.maxVelOf
  refine ⟨by positivity, ?_, by field_simp; ring⟩
  refine mul_le_mul_of_nonneg_right ?_ hm
  rw [div_le_iff₀ hS]
  fin_cases a
  · show 3 * s 0 ≤ _; linarith
  · show 3 * s 1 ≤ _; linarith
  · show 3 * s 2 ≤ _; linarith

/-- A controller with a given damping. -/
noncomputable def exC (d : ℝ) : Tsc :=
  { stressDamping := d, strainDamping := 0.99, thickness := 0, goal := ![-1, -1, -1], mask := fun _ => true, maxVel := 1 }

/-- A wall that nothing touches yet. -/
noncomputable def exWall (p : V3) : Wall := { pos := 0, vel := 0, prev := p, force := 0, stiff := 0, active := true }

/-- Two steps of such a wall that is to press on the sample. -/
theorem ex_two (d : ℝ) : ∃ p, WallRun (exC d) 1 1 0 false p ∧ dot (normal 0 false) p = 1.8 * (1 - d) := by
  have hx : dot (normal 0 false) ((0 : V3) - ![-1, 0, 0]) = 1 := by simp [dot, normal]
  have h1 := WallRun.step (.start (t := exC d) (dt := 1) (M := 1) (a := 0) (u := false)) (w := exWall 0) (R := ![-1, 0, 0])
    (maxV := 1) rfl zero_le_one le_rfl
  have h2 := WallRun.step h1 (w := exWall ((exC d).control 1 1 (normal 0 false) ![-1, 0, 0] (exWall 0))) (R := ![-1, 0, 0]) (maxV := 1) rfl zero_le_one le_rfl
  have one : ∀ p, dot (normal 0 false) ((exC d).control 1 1 (normal 0 false) ![-1, 0, 0] (exWall p)) =
      (1 - d) + 0.8 * dot (normal 0 false) p := by
    intro p
    rw [dot_control, show (exWall p).force - ![-1, 0, 0] = (0 : V3) - ![-1, 0, 0] from rfl, hx,
      show (exWall p).stiff = 0 from rfl, want_none one_pos]
    simp only [exC, exWall]
    ring
  have h0 : dot (normal 0 false) 0 = 0 := by simp [dot]
  refine ⟨_, h2, ?_⟩
  rw [one, one, h0]
  ring

example : ∃ p, WallRun (exC 0.9) 1 1 0 false p ∧ dot (normal 0 false) p ≠ 0 ∧ |dot (normal 0 false) ((1 / 1 : ℝ) • p)| ≤ 1 := by
  obtain ⟨p, h, hp⟩ := ex_two 0.9
  exact ⟨p, h, by rw [hp]; norm_num,
    C225_speed_partial _ 1 1 0 false p one_pos zero_le_one (by norm_num [exC]) (by norm_num [exC]) h⟩

/-- C225, violated: with the default damping 0.25 a wall that is to press on a sample it does not touch yet moves with 1.35 times the
maximum velocity after two steps. -/
theorem C225_violated : ∃ p, WallRun (exC 0.25) 1 1 0 false p ∧ 1 < dot (normal 0 false) ((1 / 1 : ℝ) • p) := by
  obtain ⟨p, h, hp⟩ := ex_two 0.25
  refine ⟨p, h, ?_⟩
  have : ((1 / 1 : ℝ) • p) = p := by simp
  rw [this, hp]; norm_num

/-! ## Convergence -/

/-- A wall against an elastic sample: the force missing along the normal falls by `K` times the translation of the wall.
`(e, p)` are the force missing and the translation, `k` the stiffness the controller counts. -/
noncomputable def servo (t : Tsc) (dt maxV k K : ℝ) (a : Fin 3) (u : Bool) (R : V3) (x : ℝ × V3) : ℝ × V3 :=
  let p := t.control dt maxV (normal a u) R { pos := 0, vel := 0, prev := x.2, force := R + x.1 • normal a u, stiff := k, active := true }
  (x.1 - K * dot (normal a u) p, p)

/-- The same in numbers, as long as the limit is not met: `e` and `K` times the translation. -/
theorem servo_lin (t : Tsc) (dt maxV k K : ℝ) (a : Fin 3) (u : Bool) (R : V3) (x : ℝ × V3) (hk : k ≠ 0)
    (hl : |x.1 / k| ≤ maxV * dt) :
    K * dot (normal a u) (servo t dt maxV k K a u R x).2 =
        (K * (1 - t.stressDamping) / k) * x.1 + 0.8 * (K * dot (normal a u) x.2) ∧
      (servo t dt maxV k K a u R x).1 = x.1 - K * dot (normal a u) (servo t dt maxV k K a u R x).2 := by
  refine ⟨?_, rfl⟩
  unfold servo
  simp only
  rw [dot_control]
  simp only
  have h1 : dot (normal a u) (R + x.1 • normal a u - R) = x.1 := by
    rw [add_sub_cancel_left]
    have := dot_normal_self a u
    unfold dot at *
    simp only [Pi.smul_apply, smul_eq_mul]
    linear_combination x.1 * this
  rw [h1, want_free hk hl]
  ring

/-- The quadratic form that falls by 0.8 in every step. -/
noncomputable def quad (c e w : ℝ) : ℝ := c * e ^ 2 - (0.2 - c) * e * w + 0.8 * w ^ 2

theorem quad_step (c e w : ℝ) :
    quad c (e - (c * e + 0.8 * w)) (c * e + 0.8 * w) = 0.8 * quad c e w := by
  unfold quad; ring

theorem quad_pos (c e w : ℝ) : (c - (0.2 - c) ^ 2 / 3.2) * e ^ 2 ≤ quad c e w := by
  unfold quad
  have := sq_nonneg ((0.2 - c) * e - 1.6 * w)
  norm_num at this ⊢
  nlinarith

/-- C226, partial: against an elastic sample the stress converges to the goal geometrically if the stiffness of the sample times
`1 - stressDamping` over the stiffness the controller counts, `c`, lies where `(0.2 - c)² < 3.2 c` (about 0.011 to 3.59), provided
the limit on the velocity is not met at the start by the factor given. Missing: other ratios, see `C226_violated`. -/
theorem C226_converges_partial (t : Tsc) (dt maxV k K : ℝ) (a : Fin 3) (u : Bool) (R : V3) (e0 c : ℝ) (hk : 0 < k)
    (hc : c = K * (1 - t.stressDamping) / k) (hr : (0.2 - c) ^ 2 < 3.2 * c) (hm : 0 ≤ maxV * dt)
    (hl : c / (c - (0.2 - c) ^ 2 / 3.2) * e0 ^ 2 ≤ (k * (maxV * dt)) ^ 2) (n : ℕ) :
    ((servo t dt maxV k K a u R)^[n] (e0, 0)).1 ^ 2 ≤ 0.8 ^ n * (c / (c - (0.2 - c) ^ 2 / 3.2) * e0 ^ 2) := by
  have hD : 0 < c - (0.2 - c) ^ 2 / 3.2 := by
    have : (0.2 - c) ^ 2 / 3.2 < c := by rw [div_lt_iff₀ (by norm_num)]; linarith
    linarith
  set D := c - (0.2 - c) ^ 2 / 3.2 with hDdef
  have hc0 : 0 < c := by
    have := sq_nonneg (0.2 - c)
    norm_num at this hr ⊢; linarith
  have bound : ∀ (n : ℕ) (e w : ℝ), quad c e w = 0.8 ^ n * (c * e0 ^ 2) → e ^ 2 ≤ 0.8 ^ n * (c / D * e0 ^ 2) := by
    intro n e w h
    have h1 := quad_pos c e w
    rw [h, ← hDdef] at h1
    have h2 : e ^ 2 ≤ (0.8 ^ n * (c * e0 ^ 2)) / D := by rw [le_div_iff₀ hD]; linarith
    calc e ^ 2 ≤ _ := h2
      _ = _ := by field_simp
  have key : ∀ n : ℕ, quad c ((servo t dt maxV k K a u R)^[n] (e0, 0)).1
      (K * dot (normal a u) ((servo t dt maxV k K a u R)^[n] (e0, 0)).2) = 0.8 ^ n * (c * e0 ^ 2) := by
    intro n
    induction n with
    | zero =>
      have : dot (normal a u) 0 = 0 := by simp [dot]
      simp only [Function.iterate_zero, id, this]
      unfold quad; ring
    | succ n ih =>
      rw [Function.iterate_succ', Function.comp]
      set x := (servo t dt maxV k K a u R)^[n] (e0, 0) with hx
      have hb := bound n _ _ ih
      have hp1 : (0.8 : ℝ) ^ n ≤ 1 := pow_le_one₀ (by norm_num) (by norm_num)
      have hnn : 0 ≤ c / D * e0 ^ 2 := by positivity
      have hsq : x.1 ^ 2 ≤ (k * (maxV * dt)) ^ 2 :=
        hb.trans (le_trans (by calc (0.8 : ℝ) ^ n * (c / D * e0 ^ 2) ≤ 1 * (c / D * e0 ^ 2) := mul_le_mul_of_nonneg_right hp1 hnn
                                  _ = _ := one_mul _) hl)
      have habs : |x.1| ≤ k * (maxV * dt) := abs_le_of_sq_le_sq hsq (mul_nonneg hk.le hm)
      have hlim : |x.1 / k| ≤ maxV * dt := by
        rw [abs_div, abs_of_pos hk, div_le_iff₀ hk]; linarith
      obtain ⟨h1, h2⟩ := servo_lin t dt maxV k K a u R x hk.ne' hlim
      rw [h2, h1, ← hc, quad_step, ih, pow_succ]
      ring
  exact bound n _ _ (key n)

/-- So the force missing tends to zero. -/
theorem C226_limit_partial (t : Tsc) (dt maxV k K : ℝ) (a : Fin 3) (u : Bool) (R : V3) (e0 c : ℝ) (hk : 0 < k)
    (hc : c = K * (1 - t.stressDamping) / k) (hr : (0.2 - c) ^ 2 < 3.2 * c) (hm : 0 ≤ maxV * dt)
    (hl : c / (c - (0.2 - c) ^ 2 / 3.2) * e0 ^ 2 ≤ (k * (maxV * dt)) ^ 2) :
    Filter.Tendsto (fun n => ((servo t dt maxV k K a u R)^[n] (e0, 0)).1) Filter.atTop (nhds 0) := by
  have h1 : Filter.Tendsto (fun n : ℕ => (0.8 : ℝ) ^ n * (c / (c - (0.2 - c) ^ 2 / 3.2) * e0 ^ 2)) Filter.atTop (nhds 0) := by
    have := (tendsto_pow_atTop_nhds_zero_of_lt_one (r := (0.8 : ℝ)) (by norm_num) (by norm_num)).mul_const
      (c / (c - (0.2 - c) ^ 2 / 3.2) * e0 ^ 2)
    rwa [zero_mul] at this
  have h2 : Filter.Tendsto (fun n => ((servo t dt maxV k K a u R)^[n] (e0, 0)).1 ^ 2) Filter.atTop (nhds 0) :=
    squeeze_zero (fun n => sq_nonneg _) (fun n => C226_converges_partial t dt maxV k K a u R e0 c hk hc hr hm hl n) h1
  have h3 := h2.sqrt
  rw [Real.sqrt_zero] at h3
  simp only [Real.sqrt_sq_eq_abs] at h3
  exact (tendsto_zero_iff_abs_tendsto_zero _).2 h3

/-- The hypotheses are met with the default damping, by a sample as stiff as the wall counts, and a force of one missing. -/
example : Filter.Tendsto (fun n => ((servo (exC 0.25) 1 1 2 2 0 false ![-5, 0, 0])^[n] (1, 0)).1) Filter.atTop (nhds 0) :=
  C226_limit_partial _ _ _ _ _ _ _ _ 1 0.75 (by norm_num) (by norm_num [exC]) (by norm_num) (by norm_num) (by norm_num)

/-- C226, violated: against a sample much stiffer than what the controller counts, the force missing at least doubles in every step,
with changing sign, for as long as the velocity is not limited. -/
theorem C226_violated (N : ℕ) : ∃ maxV, ∀ n ≤ N,
    2 ^ n ≤ |((servo (exC 0.5) 1 maxV 1 10 0 false 0)^[n] (1, 0)).1| := by
  refine ⟨6 ^ N, ?_⟩
  have key : ∀ n ≤ N, let x := (servo (exC 0.5) 1 (6 ^ N) 1 10 0 false 0)^[n] (1, 0)
      |x.1| ≤ 6 ^ n ∧ |10 * dot (normal 0 false) x.2| ≤ 6 ^ n ∧ 2 ^ n ≤ |x.1| ∧
        |x.1 + 10 * dot (normal 0 false) x.2| ≤ |x.1| := by
    intro n
    induction n with
    | zero =>
      intro _
      have : dot (normal 0 false) 0 = 0 := by simp [dot]
      simp [this]
    | succ n ih =>
      intro hn
      obtain ⟨h1, h2, h3, h4⟩ := ih (by omega)
      rw [Function.iterate_succ', Function.comp]
      set x := (servo (exC 0.5) 1 (6 ^ N) 1 10 0 false 0)^[n] (1, 0) with hx
      have hlim : |x.1 / 1| ≤ (6 : ℝ) ^ N * 1 := by
        rw [div_one, mul_one]
        exact h1.trans (pow_le_pow_right₀ (by norm_num) (by omega))
      obtain ⟨q1, q2⟩ := servo_lin (exC 0.5) 1 (6 ^ N) 1 10 0 false 0 x one_ne_zero hlim
      have hc : (10 * (1 - (exC 0.5).stressDamping) / 1 : ℝ) = 5 := by norm_num [exC]
      rw [hc] at q1
      set w := 10 * dot (normal 0 false) x.2
      show |_| ≤ _ ∧ |_| ≤ _ ∧ _ ≤ |_| ∧ |_ + _| ≤ |_|
      rw [q2, q1, pow_succ, pow_succ]
      set e := x.1
      have a1 := abs_le.1 h1; have a2 := abs_le.1 h2
      have b1 : |e - (5 * e + 0.8 * w)| = |3.2 * e + 0.8 * (e + w)| := by
        rw [← abs_neg]; congr 1; ring
      have b2 : 3.2 * |e| - 0.8 * |e + w| ≤ |3.2 * e + 0.8 * (e + w)| := by
        have := abs_sub_abs_le_abs_sub (3.2 * e) (-(0.8 * (e + w)))
        rw [abs_neg, sub_neg_eq_add, abs_mul, abs_mul, abs_of_pos (by norm_num : (0 : ℝ) < 3.2),
          abs_of_pos (by norm_num : (0 : ℝ) < 0.8)] at this
        exact this
      refine ⟨?_, ?_, ?_, ?_⟩
      · rw [abs_le]; norm_num; constructor <;> linarith
      · rw [abs_le]; norm_num; constructor <;> linarith
      · rw [b1]
        have : (0 : ℝ) ≤ 2 ^ n := by positivity
        norm_num at b2 ⊢; linarith
      · have e1 : e - (5 * e + 0.8 * w) + (5 * e + 0.8 * w) = e := by ring
        rw [e1, b1]
        have := abs_nonneg e
        norm_num at b2 ⊢; linarith
  exact fun n hn => (key n hn).2.2.1

end Verif.Ctl
