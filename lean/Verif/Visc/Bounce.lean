import Verif.Visc.Params

/-! # C262: contact time and restitution -/
namespace Verif.Visc

open Verif.Mech Real

/-- The motion of a damped spring which starts at rest length with the speed `v`; `b` is the rate of growth and `w` the angular frequency. -/
noncomputable def swing (v b w t : ℝ) : ℝ := v / w * (exp (b * t) * sin (w * t))

/-- Its speed. -/
noncomputable def pace (v b w t : ℝ) : ℝ := v / w * (exp (b * t) * (b * sin (w * t) + w * cos (w * t)))

theorem hasDeriv_exp (b t : ℝ) : HasDerivAt (fun t => exp (b * t)) (exp (b * t) * b) t := by
  have := ((hasDerivAt_id t).const_mul b).exp
  simpa using this

theorem hasDeriv_sin (w t : ℝ) : HasDerivAt (fun t => sin (w * t)) (cos (w * t) * w) t := by
  have := ((hasDerivAt_id t).const_mul w).sin
  simpa using this

theorem hasDeriv_cos (w t : ℝ) : HasDerivAt (fun t => cos (w * t)) (-sin (w * t) * w) t := by
  have := ((hasDerivAt_id t).const_mul w).cos
  simpa using this

theorem swing_deriv (v b w t : ℝ) : HasDerivAt (swing v b w) (pace v b w t) t := by
  have := ((hasDeriv_exp b t).mul (hasDeriv_sin w t)).const_mul (v / w)
  refine this.congr_deriv ?_
  unfold pace; ring

theorem pace_deriv (v b w t : ℝ) : HasDerivAt (pace v b w) (-((w ^ 2 + b ^ 2) * swing v b w t - 2 * b * pace v b w t)) t := by
  have := ((hasDeriv_exp b t).mul (((hasDeriv_sin w t).const_mul b).add ((hasDeriv_cos w t).const_mul w))).const_mul (v / w)
  refine this.congr_deriv ?_
  unfold pace swing; simp only [Pi.add_apply]; ring

/-- The force per mass has a single change of sign, at the phase `π - 2*atan(-b/w)`. -/
theorem swing_force {v b w : ℝ} (hw : 0 < w) (t : ℝ) :
    (w ^ 2 + b ^ 2) * swing v b w t - 2 * b * pace v b w t = v / w * exp (b * t) * ((w ^ 2 + b ^ 2) * sin (w * t + 2 * arctan (-b / w))) := by
  have hq : 0 < 1 + (-b / w) ^ 2 := by positivity
  have hc2 : cos (2 * arctan (-b / w)) = (w ^ 2 - b ^ 2) / (w ^ 2 + b ^ 2) := by
    rw [cos_two_mul, cos_sq_arctan]; field_simp; ring
  have hs2 : sin (2 * arctan (-b / w)) = -2 * b * w / (w ^ 2 + b ^ 2) := by
    rw [sin_two_mul, sin_arctan, cos_arctan, show 2 * (-b / w / √(1 + (-b / w) ^ 2)) * (1 / √(1 + (-b / w) ^ 2)) = 2 * (-b / w) / (√(1 + (-b / w) ^ 2) * √(1 + (-b / w) ^ 2)) from by ring,
      mul_self_sqrt hq.le]
    field_simp
  rw [sin_add, hc2, hs2]
  unfold swing pace
  have : w ^ 2 + b ^ 2 ≠ 0 := by positivity
  field_simp
  ring

/-- Materials whose contacts have the time `Tc` and restitutions `En` and `Et`, for masses `m1` and `m2`. -/
structure Timed (q : Match) (a b : Mat) (Tc En Et : ℝ) : Prop where
  timed : timed q a = true
  alike : a.alike b = true
  tc : mean q.tc a.tc b.tc = Tc
  en : mean q.en a.en b.en = En
  et : mean q.et a.et b.et = Et
  type : a.mRtype = b.mRtype ∧ (a.mRtype = 1 ∨ a.mRtype = 2)

/-- The contact made from parameters of both materials. -/
noncomputable def withFour (x : Four) (q : Match) (a b : Mat) : Phys where
  kn := serial x.kn.1 x.kn.2
  cn := serial x.cn.1 x.cn.2
  ks := serial x.ks.1 x.ks.2
  cs := serial x.cs.1 x.cs.2
  mR := rolling a.mR b.mR
  mRtype := a.mRtype
  tan := Real.tan (q.angle.getD (min a.angle b.angle))
  Fn := 0
  Fs := 0

/-- What is computed from contact time and restitution, unless damping is so small that it is left out. -/
theorem make_timed (find : ℝ → ℝ → ℝ → ℝ) {q : Match} {a b : Mat} {Tc En Et : ℝ} (h : Timed q a b Tc En Et) (hT : 0 < Tc) (hE : 0 < En) (hE' : 0 < Et) {m1 m2 : ℝ} (R1 R2 : ℝ)
    (hm : (masses m1 m2).1 + (masses m1 m2).2 ≠ 0) (hd : En = 1 ∨ 1e-20 < |-2 / Tc * Real.log En * reducedMass m1 m2 * 2|) :
    ∃ p, make find q a b m1 m2 R1 R2 = .ok p ∧ p.kn = reducedMass m1 m2 * ((π / Tc) ^ 2 + (Real.log En / Tc) ^ 2) ∧ p.cn = reducedMass m1 m2 * (-2 * (Real.log En / Tc)) := by
  obtain ⟨h1, h2, h3, h4, h5, y1, y2⟩ := h
  have hf : four find q a b m1 m2 R1 R2 = .ok (pournin Tc En Et (reducedMass m1 m2)) := by
    unfold four
    rw [if_pos h1, h3, h4, h5, if_neg]
    rintro (h | h | h | h)
    · exact hm h
    · linarith
    · linarith
    · linarith
  have hk : make find q a b m1 m2 R1 R2 = .ok (withFour (pournin Tc En Et (reducedMass m1 m2)) q a b) := by
    unfold make
    rw [if_pos h2, hf, Res.bind_ok, if_neg]
    · rfl
    rintro (h | h | h)
    · exact h y1
    · rcases y2 with y2 | y2 <;> omega
    · rcases y2 with y2 | y2 <;> omega
  refine ⟨_, hk, ?_, ?_⟩
  · dsimp only [withFour, pournin]
    rw [serial_self]; field_simp
  · dsimp only [withFour, pournin]
    rw [serial_self]
    have : drop (-2 / Tc * Real.log En * reducedMass m1 m2 * 2) = -2 / Tc * Real.log En * reducedMass m1 m2 * 2 := by
      unfold drop
      rcases hd with rfl | hd
      · simp
      · rw [if_neg (not_le.2 hd)]
    rw [this]; field_simp

/-- **C262 (partial).** Without the limit at zero force: bodies which meet with the relative speed `v` overlap for exactly the contact time and part with the speed
`En*v`, where overlap and speed follow the normal force of the contact and the reduced mass. -/
theorem C262_restitution_partial (find : ℝ → ℝ → ℝ → ℝ) {q : Match} {a b : Mat} {Tc En Et : ℝ} (h : Timed q a b Tc En Et) (hT : 0 < Tc) (hE : 0 < En) (hE' : 0 < Et)
    {m1 m2 : ℝ} (R1 R2 : ℝ) (h1 : 0 < m1) (h2 : 0 < m2) (hd : En = 1 ∨ 1e-20 < |-2 / Tc * Real.log En * (m1 * m2 / (m1 + m2)) * 2|) (v : ℝ) (hv : 0 < v) :
    ∃ p, make find q a b m1 m2 R1 R2 = .ok p ∧ ∃ x u : ℝ → ℝ, (∀ t, HasDerivAt x (u t) t) ∧
      (∀ t, HasDerivAt u (-(p.kn * x t + p.cn * u t) / (m1 * m2 / (m1 + m2))) t) ∧ x 0 = 0 ∧ u 0 = v ∧ (∀ t, 0 < t → t < Tc → 0 < x t) ∧ x Tc = 0 ∧ u Tc = -(En * v) := by
  have hr : reducedMass m1 m2 = m1 * m2 / (m1 + m2) := by
    unfold reducedMass masses
    rw [if_neg (fun h => h1.ne' h.1), if_neg (fun h => h2.ne' h.1)]
  have hms : (masses m1 m2).1 + (masses m1 m2).2 ≠ 0 := by
    unfold masses
    rw [if_neg (fun h => h1.ne' h.1), if_neg (fun h => h2.ne' h.1)]
    exact (add_pos h1 h2).ne'
  obtain ⟨p, hp, hk, hc⟩ := make_timed find h hT hE hE' R1 R2 hms (by rw [hr]; exact hd)
  rw [hr] at hk hc
  have hm : 0 < m1 * m2 / (m1 + m2) := by positivity
  generalize m1 * m2 / (m1 + m2) = m at *
  have hw : 0 < π / Tc := div_pos pi_pos hT
  have hwT : π / Tc * Tc = π := by field_simp
  have hbT : Real.log En / Tc * Tc = Real.log En := by field_simp
  refine ⟨p, hp, swing v (Real.log En / Tc) (π / Tc), pace v (Real.log En / Tc) (π / Tc), fun t => swing_deriv _ _ _ _, fun t => ?_, ?_, ?_, ?_, ?_, ?_⟩
  · refine (pace_deriv v (Real.log En / Tc) (π / Tc) t).congr_deriv ?_
    rw [hk, hc]
    generalize swing v (Real.log En / Tc) (π / Tc) t = x
    generalize pace v (Real.log En / Tc) (π / Tc) t = u
    generalize Real.log En / Tc = b
    generalize π / Tc = w
    field_simp
    ring
  · simp [swing]
  · simp only [pace, mul_zero, exp_zero, sin_zero, cos_zero]; field_simp; ring
  · intro t h0 h3
    unfold swing
    refine mul_pos (div_pos hv hw) (mul_pos (exp_pos _) (sin_pos_of_pos_of_lt_pi (mul_pos hw h0) ?_))
    calc π / Tc * t < π / Tc * Tc := mul_lt_mul_of_pos_left h3 hw
      _ = π := hwT
  · unfold swing; rw [hwT, sin_pi]; ring
  · unfold pace; rw [hwT, hbT, sin_pi, cos_pi, exp_log hE]; field_simp; ring

/-- The force of the contact does not attract: it follows that motion only until a time before the contact time, then stays zero, and the bodies part faster than they should. -/
theorem C262_violated_limit (find : ℝ → ℝ → ℝ → ℝ) {q : Match} {a b : Mat} {Tc En Et : ℝ} (h : Timed q a b Tc En Et) (hT : 0 < Tc) (hE : 0 < En) (hE1 : En < 1) (hE' : 0 < Et)
    {m1 m2 : ℝ} (R1 R2 : ℝ) (h1 : 0 < m1) (h2 : 0 < m2) (hd : 1e-20 < |-2 / Tc * Real.log En * (m1 * m2 / (m1 + m2)) * 2|) (v : ℝ) (hv : 0 < v) :
    ∃ p, make find q a b m1 m2 R1 R2 = .ok p ∧ ∃ (x u : ℝ → ℝ) (s : ℝ), 0 < s ∧ s < Tc ∧ x 0 = 0 ∧ u 0 = v ∧ (∀ t, HasDerivAt x (u t) t) ∧
      (∀ t, 0 ≤ t → t ≤ s → HasDerivAt u (-push p (x t) (u t) / (m1 * m2 / (m1 + m2))) t) ∧
      (∀ t, 0 ≤ t → push p (x s + u s * t) (u s) = 0) ∧ En * v < -u s := by
  have hr : reducedMass m1 m2 = m1 * m2 / (m1 + m2) := by
    unfold reducedMass masses
    rw [if_neg (fun h => h1.ne' h.1), if_neg (fun h => h2.ne' h.1)]
  have hms : (masses m1 m2).1 + (masses m1 m2).2 ≠ 0 := by
    unfold masses
    rw [if_neg (fun h => h1.ne' h.1), if_neg (fun h => h2.ne' h.1)]
    exact (add_pos h1 h2).ne'
  obtain ⟨p, hp, hk, hc⟩ := make_timed find h hT hE hE' R1 R2 hms (by rw [hr]; exact Or.inr hd)
  rw [hr] at hk hc
  have hm : 0 < m1 * m2 / (m1 + m2) := by positivity
  generalize m1 * m2 / (m1 + m2) = m at *
  have hw : 0 < π / Tc := div_pos pi_pos hT
  have hwT : π / Tc * Tc = π := by field_simp
  have hbT : Real.log En / Tc * Tc = Real.log En := by field_simp
  have hb : Real.log En / Tc < 0 := div_neg_of_neg_of_pos (Real.log_neg hE hE1) hT
  have huT : pace v (Real.log En / Tc) (π / Tc) Tc = -(En * v) := by
    unfold pace; rw [hwT, hbT, sin_pi, cos_pi, exp_log hE]; field_simp; ring
  generalize hbdef : Real.log En / Tc = b at *
  generalize π / Tc = w at *
  have hF : ∀ t, p.kn * swing v b w t + p.cn * pace v b w t = m * (v / w * exp (b * t) * ((w ^ 2 + b ^ 2) * sin (w * t + 2 * arctan (-b / w)))) := by
    intro t
    rw [← swing_force hw, hk, hc]; ring
  have hth : 0 < arctan (-b / w) := by rw [← arctan_zero]; exact arctan_strictMono (div_pos (by linarith) hw)
  have hth2 := arctan_lt_pi_div_two (-b / w)
  generalize arctan (-b / w) = th at *
  have hsw : w * ((π - 2 * th) / w) = π - 2 * th := by field_simp
  have hs0 : 0 < (π - 2 * th) / w := div_pos (by linarith) hw
  have hsT : (π - 2 * th) / w < Tc := by rw [div_lt_iff₀ hw]; linarith [mul_comm w Tc]
  generalize (π - 2 * th) / w = s at *
  have hq : 0 < w ^ 2 + b ^ 2 := by positivity
  have hFs : p.kn * swing v b w s + p.cn * pace v b w s = 0 := by
    rw [hF, hsw, show π - 2 * th + 2 * th = π from by ring, sin_pi]; ring
  have hmono : pace v b w s < pace v b w Tc := by
    have : StrictMonoOn (pace v b w) (Set.Icc s Tc) := by
      apply strictMonoOn_of_deriv_pos (convex_Icc s Tc)
      · exact fun t _ => (pace_deriv v b w t).continuousAt.continuousWithinAt
      · intro t ht
        rw [interior_Icc] at ht
        rw [(pace_deriv v b w t).deriv]
        have e : (w ^ 2 + b ^ 2) * swing v b w t - 2 * b * pace v b w t = (p.kn * swing v b w t + p.cn * pace v b w t) / m := by
          rw [hk, hc]; field_simp; ring
        rw [e, hF, mul_div_assoc, mul_comm m, div_mul_cancel₀ _ hm.ne', neg_pos]
        refine mul_neg_of_pos_of_neg (mul_pos (div_pos hv hw) (exp_pos _)) (mul_neg_of_pos_of_neg hq ?_)
        have l1 : π < w * t + 2 * th := by
          have := mul_lt_mul_of_pos_left ht.1 hw
          linarith
        have l2 : w * t + 2 * th < 2 * π := by
          have := mul_lt_mul_of_pos_left ht.2 hw
          linarith
        have : sin (w * t + 2 * th - 2 * π) < 0 := sin_neg_of_neg_of_neg_pi_lt (by linarith) (by linarith)
        rwa [sin_sub_two_pi] at this
    exact this ⟨le_rfl, hsT.le⟩ ⟨hsT.le, le_rfl⟩ hsT
  have hneg : pace v b w s < 0 := by
    rw [huT] at hmono
    have := mul_pos hE hv
    linarith
  have hkn : 0 < p.kn := by rw [hk]; exact mul_pos hm hq
  refine ⟨p, hp, swing v b w, pace v b w, s, hs0, hsT, by simp [swing], ?_, fun t => swing_deriv _ _ _ _, fun t t0 ts => ?_, fun t t0 => ?_, ?_⟩
  · simp only [pace, mul_zero, exp_zero, sin_zero, cos_zero]; field_simp; ring
  · have hge : 0 ≤ p.kn * swing v b w t + p.cn * pace v b w t := by
      rw [hF]
      refine mul_nonneg hm.le (mul_nonneg (mul_nonneg (div_pos hv hw).le (exp_pos _).le) (mul_nonneg hq.le (sin_nonneg_of_nonneg_of_le_pi ?_ ?_)))
      · have := mul_nonneg hw.le t0; linarith
      · have := mul_le_mul_of_nonneg_left ts hw.le; linarith
    rw [push, if_neg (not_lt.2 hge)]
    refine (pace_deriv v b w t).congr_deriv ?_
    rw [hk, hc]
    field_simp
    ring
  · unfold push
    split_ifs with hlt
    · rfl
    · have e : p.kn * (swing v b w s + pace v b w s * t) + p.cn * pace v b w s = p.kn * (pace v b w s * t) := by linarith [hFs]
      rw [e] at hlt ⊢
      have : p.kn * (pace v b w s * t) ≤ 0 := mul_nonpos_of_nonneg_of_nonpos hkn.le (mul_nonpos_of_nonpos_of_nonneg hneg.le t0)
      linarith
  · rw [huT] at hmono; linarith

/-- A body which meets one without mass, such as a wall: with a restitution of one, both still overlap at the contact time. -/
theorem C262_violated_wall (find : ℝ → ℝ → ℝ → ℝ) {q : Match} {a b : Mat} {Tc Et : ℝ} (h : Timed q a b Tc 1 Et) (hT : 0 < Tc) (hE' : 0 < Et) {m : ℝ} (R1 R2 : ℝ) (hm : 0 < m)
    (v : ℝ) (hv : 0 < v) : ∃ p, make find q a b m 0 R1 R2 = .ok p ∧ ∃ x u : ℝ → ℝ, x 0 = 0 ∧ u 0 = v ∧ (∀ t, HasDerivAt x (u t) t) ∧
      (∀ t, 0 ≤ t → t ≤ Tc → HasDerivAt u (-push p (x t) (u t) / m) t) ∧ 0 < x Tc := by
  have hms : masses m 0 = (m, m) := by
    unfold masses
    rw [if_neg (fun h => hm.ne' h.1), if_pos ⟨rfl, hm⟩]
  have hr : reducedMass m 0 = m / 2 := by
    unfold reducedMass; rw [hms]; field_simp; norm_num
  obtain ⟨p, hp, hk, hc⟩ := make_timed find h hT one_pos hE' (m1 := m) (m2 := 0) R1 R2 (by rw [hms]; exact (add_pos hm hm).ne') (Or.inl rfl)
  rw [hr] at hk hc
  simp only [Real.log_one, zero_div, mul_zero] at hk hc
  have hs2 : 0 < √(2 : ℝ) := sqrt_pos.2 two_pos
  have hs : √(2 : ℝ) * √2 = 2 := mul_self_sqrt two_pos.le
  have hs1 : 1 < √(2 : ℝ) := by nlinarith
  have hw : 0 < π / Tc / √2 := by positivity
  have hw2 : (π / Tc / √2) ^ 2 = (π / Tc) ^ 2 / 2 := by rw [div_pow, sq_sqrt two_pos.le]
  have hT' : π / Tc / √2 * Tc = π / √2 := by field_simp
  have hlt : π / √2 < π := div_lt_self pi_pos hs1
  have hpos : ∀ t, 0 ≤ t → t ≤ Tc → 0 ≤ swing v 0 (π / Tc / √2) t := by
    intro t h0 h1
    unfold swing
    refine mul_nonneg (div_pos hv hw).le (mul_nonneg (exp_pos _).le (sin_nonneg_of_nonneg_of_le_pi (mul_nonneg hw.le h0) ?_))
    have := mul_le_mul_of_nonneg_left h1 hw.le
    linarith
  refine ⟨p, hp, swing v 0 (π / Tc / √2), pace v 0 (π / Tc / √2), by simp [swing], ?_, fun t => swing_deriv _ _ _ _, fun t t0 t1 => ?_, ?_⟩
  · simp only [pace, mul_zero, exp_zero, sin_zero, cos_zero]; field_simp; ring
  · refine (pace_deriv v 0 (π / Tc / √2) t).congr_deriv ?_
    have hkn : 0 ≤ p.kn := by rw [hk]; positivity
    have h0 := mul_nonneg hkn (hpos t t0 t1)
    rw [push, hc, zero_mul, add_zero, if_neg (not_lt.2 h0), hw2, hk]
    generalize swing v 0 (π / Tc / √2) t = x
    generalize pace v 0 (π / Tc / √2) t = u
    field_simp
    ring
  · unfold swing
    rw [hT']
    exact mul_pos (div_pos hv hw) (mul_pos (exp_pos _) (sin_pos_of_pos_of_lt_pi (by positivity) hlt))

/-- A material with the contact time of a tenth and restitutions of one half. -/
noncomputable def exT (e : ℝ) : Mat :=
  { tc := some (1 / 10), en := some e, et := some e, kn := none, cn := none, ks := none, cs := none, young := 0, poisson := 0, mR := 0, mRtype := 1, angle := 1 / 2 }

theorem ex_timed (e : ℝ) : Timed ⟨none, none, none, none⟩ (exT e) (exT e) (1 / 10) e e :=
  ⟨rfl, rfl, by simp [mean, exT], by simp [mean, exT], by simp [mean, exT], rfl, Or.inl rfl⟩

example : ∃ p, make (fun _ _ _ => 0) ⟨none, none, none, none⟩ (exT 1) (exT 1) 1 1 1 1 = .ok p ∧ ∃ x u : ℝ → ℝ, (∀ t, HasDerivAt x (u t) t) ∧ x (1 / 10) = 0 ∧ u (1 / 10) = -3 := by
  obtain ⟨p, hp, x, u, h1, -, -, -, -, h2, h3⟩ := C262_restitution_partial (fun _ _ _ => 0) (ex_timed 1) (by norm_num) one_pos one_pos 1 1 (m1 := 1) (m2 := 1) one_pos one_pos (Or.inl rfl) 3 (by norm_num)
  exact ⟨p, hp, x, u, h1, h2, by rw [h3]; norm_num⟩

/-- The conditions on damping hold for ordinary values. -/
example : (1e-20 : ℝ) < |-2 / (1 / 10) * Real.log (1 / 2) * (1 * 1 / (1 + 1)) * 2| := by
  have : Real.log (1 / 2) < -(1 / 4) := by
    have := Real.log_le_sub_one_of_pos (show (0 : ℝ) < 1 / 2 by norm_num)
    linarith
  rw [show -2 / (1 / 10) * Real.log (1 / 2) * (1 * 1 / (1 + 1)) * 2 = -20 * Real.log (1 / 2) from by ring, abs_of_pos (by linarith)]
  norm_num at this ⊢
  linarith

end Verif.Visc
