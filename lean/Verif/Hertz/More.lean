import Verif.Hertz.Props

/-!
# Parameters, energies, loads and paths

C303 to C306.
-/
namespace Verif.Hertz

open Verif.Mech

/-! ## C303 -/

/-- For spheres the order of the bodies does not matter. -/
theorem C303_swap_partial (o : Opts) (a b : FrictMat) (g h : ScGeom) (h1 : 0 < g.r1) (h2 : 0 < g.r2) (e1 : h.r1 = g.r2) (e2 : h.r2 = g.r1) : ip2 o a b g = ip2 o b a h := by
  have eE : youngOf a.young b.young a.poisson b.poisson = youngOf b.young a.young b.poisson a.poisson := by
    unfold youngOf; rw [mul_comm a.young, add_comm]
  unfold ip2
  dsimp only
  rw [e1, e2, if_pos h1, if_pos h2, eE, min_comm b.frictionAngle, add_comm b.poisson, add_comm g.r2, mul_comm g.r2, add_comm ((1 - b.poisson ^ 2) * a.young), add_comm (b.young / (2 * (1 + b.poisson)))]
  have : (1 + a.poisson = 0 ∨ 1 + b.poisson = 0 ∨ 2 - (a.poisson + b.poisson) / 2 = 0 ∨ (1 - a.poisson ^ 2) * b.young + (1 - b.poisson ^ 2) * a.young = 0 ∨ g.r1 + g.r2 = 0 ∨ g.r1 * g.r2 / (g.r1 + g.r2) < 0) ↔
      (1 + b.poisson = 0 ∨ 1 + a.poisson = 0 ∨ 2 - (a.poisson + b.poisson) / 2 = 0 ∨ (1 - a.poisson ^ 2) * b.young + (1 - b.poisson ^ 2) * a.young = 0 ∨ g.r1 + g.r2 = 0 ∨ g.r1 * g.r2 / (g.r1 + g.r2) < 0) := by tauto
  simp only [this]

/-- With a plane which has no radius the order matters: as the first body it gets the radius of the other one, as the second one it leaves
the contact without stiffness. -/
theorem C303_violated_swap {o : Opts} {a b : FrictMat} {g h : ScGeom} {P Q : Par} (h1 : g.r1 = 0) (h2 : 0 < g.r2) (e1 : h.r1 = g.r2) (e2 : h.r2 = 0)
    (hP : ip2 o a b g = .ok P) (hQ : ip2 o b a h = .ok Q) (hE : 0 < youngOf a.young b.young a.poisson b.poisson) : 0 < P.kno ∧ Q.kno = 0 ∧ Q.kso = 0 := by
  have key : ∀ {a b : FrictMat} {g : ScGeom} {P : Par}, ip2 o a b g = .ok P →
      P.kno = 4 / 3 * youngOf a.young b.young a.poisson b.poisson * Real.sqrt ((if g.r1 > 0 then g.r1 else g.r2) * g.r2 / ((if g.r1 > 0 then g.r1 else g.r2) + g.r2)) ∧
      P.kso = 2 * Real.sqrt (4 * ((if g.r1 > 0 then g.r1 else g.r2) * g.r2 / ((if g.r1 > 0 then g.r1 else g.r2) + g.r2))) *
        ((a.young / (2 * (1 + a.poisson)) + b.young / (2 * (1 + b.poisson))) / 2) / (2 - (a.poisson + b.poisson) / 2) := by
    intro a b g P hP
    unfold ip2 at hP
    dsimp only at hP
    by_cases c1 : 1 + a.poisson = 0 ∨ 1 + b.poisson = 0 ∨ 2 - (a.poisson + b.poisson) / 2 = 0 ∨ (1 - a.poisson ^ 2) * b.young + (1 - b.poisson ^ 2) * a.young = 0 ∨
        (if g.r1 > 0 then g.r1 else g.r2) + g.r2 = 0 ∨ (if g.r1 > 0 then g.r1 else g.r2) * g.r2 / ((if g.r1 > 0 then g.r1 else g.r2) + g.r2) < 0
    · rw [if_pos c1] at hP; cases hP
    · rw [if_neg c1] at hP
      by_cases c2 : (o.en.isSome ∧ o.betan.isSome) ∨ (o.es.isSome ∧ o.betas.isSome)
      · rw [if_pos c2] at hP; cases hP
      · rw [if_neg c2] at hP
        by_cases c3 : o.en.isSome ∨ o.es.isSome
        · rw [if_pos c3] at hP
          cases he : o.en with
          | none => rw [he] at hP; cases hP
          | some e =>
            rw [he] at hP
            dsimp only at hP
            by_cases c4 : e ≤ 0 ∨ 2 * youngOf a.young b.young a.poisson b.poisson * Real.sqrt ((if g.r1 > 0 then g.r1 else g.r2) * g.r2 / ((if g.r1 > 0 then g.r1 else g.r2) + g.r2)) < 0
            · rw [if_pos c4] at hP; cases hP
            · rw [if_neg c4] at hP; cases hP; exact ⟨rfl, rfl⟩
        · rw [if_neg c3] at hP; cases hP; exact ⟨rfl, rfl⟩
  obtain ⟨p1, -⟩ := key hP
  obtain ⟨q1, q2⟩ := key hQ
  refine ⟨?_, ?_, ?_⟩
  · rw [p1, h1, if_neg (lt_irrefl _)]
    have : 0 < g.r2 * g.r2 / (g.r2 + g.r2) := by positivity
    have := Real.sqrt_pos.2 this
    positivity
  · rw [q1, e2]; simp
  · rw [q2, e2]; simp

/-- Steel on steel, for the examples. -/
noncomputable def steel : FrictMat := ⟨1, 0, 1 / 2⟩

/-- Options without damping. -/
def opts0 : Opts := ⟨0, 0, 0, 0, none, none, none, none, none⟩

example : ∃ P Q, ip2 opts0 steel steel { (inOf 1 0 1).g with r1 := 0 } = .ok P ∧ ip2 opts0 steel steel { (inOf 1 0 1).g with r2 := 0 } = .ok Q ∧ 0 < youngOf steel.young steel.young steel.poisson steel.poisson := by
  unfold ip2
  norm_num [opts0, steel, inOf, youngOf]

/-- Both a coefficient of restitution and a damping ratio are an error; no viscous parameter means no damping, and the normal ratio is used for shear if there is
none. -/
theorem C303_viscous {o : Opts} {a b : FrictMat} {g : ScGeom} :
    ((o.en.isSome ∧ o.betan.isSome) ∨ (o.es.isSome ∧ o.betas.isSome) → ∀ P, ip2 o a b g ≠ .ok P) ∧
      (o.en = none → o.es = none → ∀ P, ip2 o a b g = .ok P → P.alpha = 0 ∧ P.betan = o.betan.getD 0 ∧ P.betas = o.betas.getD (o.betan.getD 0) ∧ (o.betan = none → o.betas = none → ¬ P.damped)) := by
  constructor
  · intro h P hP
    unfold ip2 at hP
    dsimp only at hP
    split_ifs at hP
  · intro he hs P hP
    unfold ip2 at hP
    rw [he, hs] at hP
    dsimp only at hP
    simp only [Option.isSome_none, Bool.false_eq_true, false_and, or_self, if_false] at hP
    split_ifs at hP
    all_goals cases hP
    all_goals refine ⟨rfl, rfl, rfl, ?_⟩
    all_goals intro h1 h2
    all_goals simp [Par.damped, h1, h2]

example : ∃ P, ip2 { opts0 with betan := some 1 } steel steel (inOf 1 0 1).g = .ok P := by
  unfold ip2
  norm_num [opts0, steel, inOf, youngOf]

/-- The coefficient of restitution does not give the damping ratio which is documented: that stays zero; another coefficient is used, which amounts to
`√(5/6)` times that ratio in the normal direction. -/
theorem C303_violated_ratio {o : Opts} {a b : FrictMat} {g : ScGeom} {P : Par} {e : ℝ} (he : o.en = some e) (he0 : 0 < e) (he1 : e < 1) (hP : ip2 o a b g = .ok P) (hk : 0 < P.kno)
    {m u : ℝ} (hm : 0 ≤ m) (hu : 0 ≤ u) :
    P.betan = 0 ∧ P.betas = 0 ∧
      (coeffs P m u).1 = Real.sqrt (5 / 6) * (coeffs { P with alpha := 0, betan := -Real.log e / Real.sqrt (Real.pi ^ 2 + Real.log e ^ 2) } m u).1 ∧
      (coeffs P m u).2 = (coeffs P m u).1 := by
  have hlog : Real.log e < 0 := Real.log_neg he0 he1
  have hs : 0 < Real.sqrt (Real.log e ^ 2 + Real.pi ^ 2) := Real.sqrt_pos.2 (by have := Real.pi_pos; positivity)
  obtain ⟨E, R, hR, k1, k2, k3, k4⟩ : ∃ E R, 0 ≤ 2 * E * Real.sqrt R ∧ P.kno = 4 / 3 * E * Real.sqrt R ∧ P.alpha = alphaOf e E R ∧ P.betan = 0 ∧ P.betas = 0 := by
    unfold ip2 at hP
    rw [he] at hP
    dsimp only at hP
    simp only [Option.isSome_some, true_or, if_true, true_and] at hP
    split_ifs at hP with c1 c2 c3
    all_goals cases hP
    all_goals exact ⟨_, _, not_lt.1 (not_or.1 ‹¬ (e ≤ 0 ∨ _)›).2, rfl, rfl, rfl, rfl⟩
  have hpos : 0 < 2 * E * Real.sqrt R := by
    rw [k1] at hk; nlinarith
  have ha : P.alpha ≠ 0 := by
    rw [k2]
    unfold alphaOf
    have h1 := Real.sqrt_pos.2 hpos
    have h2 : 0 < Real.sqrt (5 / 6) := Real.sqrt_pos.2 (by norm_num)
    have : -Real.sqrt (5 / 6) * 2 * Real.log e / Real.sqrt (Real.log e ^ 2 + Real.pi ^ 2) * Real.sqrt (2 * E * Real.sqrt R) =
        Real.sqrt (5 / 6) * 2 * (-Real.log e) / Real.sqrt (Real.log e ^ 2 + Real.pi ^ 2) * Real.sqrt (2 * E * Real.sqrt R) := by ring
    rw [this]
    have h3 : 0 < -Real.log e := by linarith
    positivity
  refine ⟨k3, k4, ?_, ?_⟩
  · unfold coeffs
    rw [if_neg ha, if_pos rfl]
    dsimp only
    have e1 : Par.kn { P with alpha := 0, betan := -Real.log e / Real.sqrt (Real.pi ^ 2 + Real.log e ^ 2) } u = 2 * E * Real.sqrt R * u ^ (1 / 2 : ℝ) := by
      unfold Par.kn
      dsimp only
      rw [k1]; ring
    have e2 : Real.sqrt (u ^ (1 / 2 : ℝ)) = u ^ (1 / 4 : ℝ) := by
      rw [Real.sqrt_eq_rpow, ← Real.rpow_mul hu]; norm_num
    rw [e1, Real.sqrt_mul hm, Real.sqrt_mul hR, e2, k2]
    unfold alphaOf
    rw [add_comm (Real.log e ^ 2)]
    ring
  · unfold coeffs
    rw [if_neg ha]

example : ∃ P, ip2 { opts0 with en := some (1 / 2) } steel steel (inOf 1 0 1).g = .ok P ∧ 0 < P.kno := by
  unfold ip2
  norm_num [opts0, steel, inOf, youngOf]
  rw [if_neg (not_lt.2 (Real.sqrt_nonneg 2))]
  exact ⟨_, rfl, by positivity⟩

/-- A shear coefficient of restitution alone, which is allowed, reads a null pointer; together with a normal one it changes nothing. -/
theorem C303_violated_shear (o : Opts) (a b : FrictMat) (g : ScGeom) (e : ℝ) (hb : o.betas = none) :
    (o.en = none → ∀ P, ip2 { o with es := some e } a b g ≠ .ok P ∧ ip2 { o with es := some e } a b g = .ub) ∧
      (o.en.isSome = true → ip2 { o with es := some e } a b g = ip2 { o with es := none } a b g) := by
  constructor
  · intro he P
    have : ip2 { o with es := some e } a b g = .ub := by
      unfold ip2
      dsimp only
      rw [he, hb]
      simp
    rw [this]
    exact ⟨by simp, rfl⟩
  · intro he
    unfold ip2
    dsimp only
    rw [hb, he]
    simp

/-! ## C304 -/

/-- Through any history, normal and shear damping dissipate energy in every step. -/
theorem C304_damping_partial {c : Cfg} {P : Par} (hk : 0 ≤ P.kno) (h0 : 0 ≤ P.adh) (hb : 0 ≤ P.betan) (hs : 0 ≤ P.betas) (hal : 0 ≤ P.alpha) {s : St} {is : List In}
    (hn : ∀ i ∈ is, sqNorm i.g.normal = 1) (hdt : ∀ i ∈ is, 0 ≤ i.dt) {os : List Out} (h : run c P s is = .ok os) :
    ∀ o ∈ os, 0 ≤ o.ener.dampN ∧ 0 ≤ o.ener.dampS := by
  intro o ho
  obtain ⟨t, i, hi, hg⟩ := run_mem h ho
  rcases lt_or_ge i.g.pd 0 with hu | hu
  · rw [go_apart c P t hu] at hg
    cases hg
    split_ifs <;> exact ⟨le_refl _, le_refl _⟩
  obtain ⟨cc, hcc, -, h1, h2, hS, -⟩ := go_ok hg hu
  by_cases hd : P.damped
  · obtain ⟨e1, e2, e3, e4⟩ := h2 hd
    obtain ⟨m, -, rfl⟩ := hcc hd
    obtain ⟨hc1, hc2⟩ := coeffs_nonneg hb hs hal m hu
    have hr : 0 ≤ P.kno * i.g.pd ^ (3 / 2 : ℝ) := mul_nonneg hk (Real.rpow_nonneg hu _)
    have hf : (P.adh = 0 ∨ c.adhesion = false → 0 ≤ elasticN c P i.g.pd) ∧ -P.adh ≤ elasticN c P i.g.pd := by
      unfold elasticN
      refine ⟨?_, by split_ifs <;> linarith⟩
      rintro (ha | ha) <;> rw [ha]
      · simpa using hr
      · simpa using hr
    obtain ⟨a, b, e, hbx, -⟩ := dampN_along (c := c) (P := P) (f := elasticN c P i.g.pd) (x := dot i.g.normal i.v) (hn i hi) hc1 h0 hf
    rw [e] at e1
    constructor
    · rw [e2, (Prod.mk.inj e1).2, dot_smul_left, dot_smul_right, dot_smul_right, dot_self, hn i hi]
      have := mul_nonneg hbx (hdt i hi)
      linarith
    · cases hsl : o.st.sliding with
      | true => rw [e4 hsl]
      | false =>
        rw [e3 hsl]
        have hv : o.st.visS = (coeffs P m i.g.pd).2 • (i.v - dot i.g.normal i.v • i.g.normal) := by
          have hS2 := hS
          unfold friction at hS2
          split_ifs at hS2
          · exact absurd ((Shear.mk.inj hS2).2.2.2.2.symm.trans hsl) (by simp)
          · exact (Shear.mk.inj hS2).2.2.2.1
        rw [hv, dot_smul_left, dot_smul_right, dot_self]
        exact mul_nonneg hc2 (mul_nonneg (hdt i hi) (sqNorm_nonneg' _))
  · exact ⟨(h1 hd).2.1.ge, (h1 hd).2.2.ge⟩

example : (∃ o, go cfg0 { par1 with betas := 1 } St.init (inOf 1 ![0, 1, 0] (1 / 2)) = .ok o) ∧ sqNorm (inOf 1 ![0, 1, 0] (1 / 2)).g.normal = 1 :=
  ⟨go_exists _ _ _ _ (by norm_num [inOf]) (by norm_num [inOf]), normal1 _ _ _⟩

/-- What is reported as dissipated by friction decreases if the normal force falls faster than the shear force is unloaded: here a contact sheared with force two
is unloaded by one and gets a normal force of one half. -/
theorem C304_violated_friction : ∃ o, go cfg0 { par1 with tan := 1 / 2 } { St.init with FsE := ![0, 2, 0] } (inOf 1 ![0, 1, 0] 1) = .ok o ∧ o.st.sliding = true ∧ o.ener.friction < 0 := by
  obtain ⟨o, ho⟩ := go_exists cfg0 { par1 with tan := 1 / 2 } { St.init with FsE := ![0, 2, 0] } (inOf 1 ![0, 1, 0] 1) (by norm_num [inOf]) (by norm_num [inOf])
  obtain ⟨cc, -, -, h1, -, hS, hf, -⟩ := go_ok ho (by norm_num [inOf])
  have hd : ¬ ({ par1 with tan := 1 / 2 } : Par).damped := by simp [Par.damped, par1]
  have hvn : dot (inOf 1 ![0, 1, 0] 1).g.normal (inOf 1 ![0, 1, 0] 1).v = 0 := by simp [inOf, dot]
  have e : elasticN cfg0 { par1 with tan := 1 / 2 } (inOf 1 ![0, 1, 0] 1).g.pd = 1 := by simp [elasticN, cfg0, par1, inOf]
  have hN : norm3 o.st.Fn = 1 := by rw [(h1 hd).1, e, one_smul]; unfold norm3; rw [normal1, Real.sqrt_one]
  have hlim : limit cfg0 { par1 with tan := 1 / 2 } o.st.Fn = 1 / 2 := by simp [limit, cfg0, hN]
  have hks : Par.ks { par1 with tan := 1 / 2 } (inOf 1 ![0, 1, 0] 1).g.pd = 1 := by simp [Par.ks, par1, inOf]
  rw [hvn, zero_smul, sub_zero, rotate0, rotate0, hlim, hks] at hS
  have hv : ({ St.init with FsE := ![0, 2, 0] } : St).FsE - (1 : ℝ) • ((inOf 1 ![0, 1, 0] 1).dt • (inOf 1 ![0, 1, 0] 1).v) = ![0, 1, 0] := by
    apply v3_ext <;> simp [inOf]; norm_num
  rw [hv] at hS
  have n1 : norm3 (![0, 1, 0] : V3) = 1 := by simp [norm3, sqNorm, dot]
  have hc : sqNorm (![0, 1, 0] : V3) > 1 / 2 * (1 / 2) := by simp [sqNorm, dot]; norm_num
  unfold friction at hS
  rw [if_pos hc, n1] at hS
  have hFs := (Shear.mk.inj hS).1
  have hsl := (Shear.mk.inj hS).2.2.2.2
  refine ⟨o, ho, hsl, ?_⟩
  rw [hf hsl, hFs, hvn, zero_smul, sub_zero]
  simp [inOf, dot]

/-! ## C305 -/

/-- Away from periodic scenes the loads on both bodies balance, in forces and moments, with rolling resistance too; in periodic ones they do for spheres. -/
theorem C305_balanced {c : Cfg} {P : Par} {s : St} {i : In} {o : Out} (h : go c P s i = .ok o) :
    (c.periodic = false → Balanced i.pos1 i.pos2 o.loads) ∧
      (c.periodic = true → ∀ y, y - i.pos1 = (i.g.r1 + i.g.r2 - i.g.pd) • i.g.normal → Balanced i.pos1 y o.loads) := by
  rcases lt_or_ge i.g.pd 0 with hu | hu
  · have hz : o.loads = Loads.zero := by
      rw [go_apart c P s hu] at h
      cases h
      split_ifs <;> rfl
    rw [hz]
    exact ⟨fun _ => balanced_zero _ _, fun _ _ _ => balanced_zero _ _⟩
  · obtain ⟨cc, -, -, -, -, -, -, -, M, hM⟩ := go_ok h hu
    constructor
    · intro hp
      rw [hM]
      unfold applyLoads
      simp only [hp]
      refine ⟨by dsimp only; split_ifs <;> exact add_neg_cancel _, fun q => ?_⟩
      apply v3_ext <;> simp [loadMoment, cross, Matrix.vecHead, Matrix.vecTail] <;> ring
    · intro hp y hy
      rw [hM]
      unfold applyLoads
      simp only [hp]
      refine ⟨by dsimp only; split_ifs <;> exact add_neg_cancel _, fun q => ?_⟩
      have h0 := congrFun hy 0
      have h1 := congrFun hy 1
      have h2 := congrFun hy 2
      simp only [Pi.sub_apply, Pi.smul_apply, smul_eq_mul] at h0 h1 h2
      generalize -o.st.Fn - o.st.Fs = f
      have e0 : y 0 = i.pos1 0 + (i.g.r1 + i.g.r2 - i.g.pd) * i.g.normal 0 := by linarith
      have e1 : y 1 = i.pos1 1 + (i.g.r1 + i.g.r2 - i.g.pd) * i.g.normal 1 := by linarith
      have e2 : y 2 = i.pos1 2 + (i.g.r1 + i.g.r2 - i.g.pd) * i.g.normal 2 := by linarith
      apply v3_ext <;> simp [loadMoment, cross, Matrix.vecHead, Matrix.vecTail] <;> (try rw [e0]) <;> (try rw [e1]) <;> (try rw [e2]) <;> ring

/-- Under a normal force the bending moment does not exceed its limit. -/
theorem C305_bending_partial {c : Cfg} {P : Par} {s : St} {i : In} {o : Out} (h : go c P s i = .ok o) (hu : 0 ≤ i.g.pd) (hc : c.moment = true) (hb : 0 < P.maxBend) (hF : 0 < norm3 o.st.Fn) :
    norm3 o.st.mB ≤ P.maxBend * norm3 o.st.Fn := by
  obtain ⟨cc, -, -, -, -, -, -, hm, -⟩ := go_ok h hu
  rw [hm hc]
  unfold bend
  dsimp only
  have hM : 0 < P.maxBend * norm3 o.st.Fn := mul_pos hb hF
  rw [if_pos hM]
  split_ifs with hh
  · rw [Cpm.norm3_smul, abs_of_nonneg (div_nonneg hM.le (hM.trans hh).le), div_mul_cancel₀ _ (hM.trans hh).ne']
  · exact not_lt.1 hh

/-- Without normal force there is no limit at all: spheres which touch without pressing each other keep any bending moment. -/
theorem C305_violated {c : Cfg} {P : Par} {s : St} {i : In} {o : Out} (h : go c P s i = .ok o) (hu : i.g.pd = 0) (hd : ¬ P.damped) (hc : c.moment = true) (ha : c.adhesion = false)
    (hr : i.g.rotate s.mB = s.mB) (hw : i.w = 0) : norm3 o.st.Fn = 0 ∧ o.st.mB = s.mB := by
  obtain ⟨cc, -, -, h1, -, -, -, hm, -⟩ := go_ok h hu.ge
  have hF : norm3 o.st.Fn = 0 := by
    rw [(h1 hd).1]
    unfold elasticN
    rw [hu, ha, Real.zero_rpow (by norm_num)]
    simp [norm3, sqNorm, dot]
  refine ⟨hF, ?_⟩
  rw [hm hc, hw, hr]
  unfold bend
  dsimp only
  rw [hF, mul_zero, if_neg (lt_irrefl _)]
  have : dot i.g.normal (0 : V3) = 0 := by simp [dot]
  rw [this]
  simp

example : (inOf 0 0 1).g.rotate ![0, 100, 0] = ![0, 100, 0] ∧ (inOf 0 0 1).w = 0 ∧ ∃ o, go ⟨false, true, false, false⟩ par1 { St.init with mB := ![0, 100, 0] } (inOf 0 0 1) = .ok o :=
  ⟨rotate0 _ _ _ _, rfl, go_exists _ _ _ _ (by norm_num [inOf]) (by norm_num [inOf])⟩

/-- The law with linear shear: the normal force of Hertz, friction within the limit, and balanced loads. -/
theorem C305_linear {ne : Bool} {nl : ℤ} {P : Par} {s : St} {g : ScGeom} {v : V3} {dt : ℝ} (hu : 0 ≤ g.pd) (hk : 0 ≤ P.kno) (ht : 0 ≤ P.tan) :
    (linear ne nl P s g v dt).2.1.Fn = (P.kno * g.pd ^ (3 / 2 : ℝ)) • g.normal ∧ norm3 (linear ne nl P s g v dt).2.1.Fs ≤ P.tan * (P.kno * g.pd ^ (3 / 2 : ℝ)) ∧
      ∀ x y, y - x = (g.r1 + g.r2 - g.pd) • g.normal → Balanced x y (linear ne nl P s g v dt).2.2 := by
  unfold linear
  rw [if_neg (not_lt.2 hu)]
  dsimp only
  have hr : 0 ≤ P.kno * g.pd ^ (3 / 2 : ℝ) := mul_nonneg hk (Real.rpow_nonneg hu _)
  generalize g.rotate s.Fs - (if nl > 0 then P.kso * g.pd ^ (1 / 2 : ℝ) else P.kso) • (if nl > 1 then dt • (v - dot g.normal v • g.normal) else g.shearInc) = t
  refine ⟨rfl, ?_, ?_⟩
  · unfold slip
    have hq : (P.kno * g.pd ^ (3 / 2 : ℝ)) ^ 2 * P.tan ^ 2 = (P.tan * (P.kno * g.pd ^ (3 / 2 : ℝ))) ^ 2 := by ring
    have hp : 0 ≤ P.tan * (P.kno * g.pd ^ (3 / 2 : ℝ)) := mul_nonneg ht hr
    rw [hq, Real.sqrt_sq hp]
    split_ifs with h
    · have hn : 0 < norm3 t := Real.sqrt_pos.2 (lt_of_le_of_lt (sq_nonneg _) h)
      rw [Cpm.norm3_smul, abs_of_nonneg (div_nonneg hp hn.le), div_mul_cancel₀ _ hn.ne']
    · have := norm3_sq' t
      exact abs_le_of_sq_le_sq' (by linarith [not_lt.1 h]) hp |>.2
  · intro x y hy
    generalize -((P.kno * g.pd ^ (3 / 2 : ℝ)) • g.normal) - slip ((P.kno * g.pd ^ (3 / 2 : ℝ)) ^ 2 * P.tan ^ 2) t = f
    unfold applyLoads
    refine ⟨by simp, fun q => ?_⟩
    have h0 := congrFun hy 0
    have h1 := congrFun hy 1
    have h2 := congrFun hy 2
    simp only [Pi.sub_apply, Pi.smul_apply, smul_eq_mul] at h0 h1 h2
    have e0 : y 0 = x 0 + (g.r1 + g.r2 - g.pd) * g.normal 0 := by linarith
    have e1 : y 1 = x 1 + (g.r1 + g.r2 - g.pd) * g.normal 1 := by linarith
    have e2 : y 2 = x 2 + (g.r1 + g.r2 - g.pd) * g.normal 2 := by linarith
    apply v3_ext <;> simp [loadMoment, cross, Matrix.vecHead, Matrix.vecTail] <;> (try rw [e0]) <;> (try rw [e1]) <;> (try rw [e2]) <;> ring

/-- The law with linear shear: the bodies get the normal and shear forces of the contact, away from each other, and below the limit
of friction the shear force is the rotated one less stiffness times increment. -/
theorem C305_linear_loads {ne : Bool} {nl : ℤ} {P : Par} {s : St} {g : ScGeom} {v : V3} {dt : ℝ} (hu : 0 ≤ g.pd) :
    (linear ne nl P s g v dt).1 = true ∧
      (linear ne nl P s g v dt).2.2.f2 = (linear ne nl P s g v dt).2.1.Fn + (linear ne nl P s g v dt).2.1.Fs ∧
      (linear ne nl P s g v dt).2.2.f1 = -((linear ne nl P s g v dt).2.1.Fn + (linear ne nl P s g v dt).2.1.Fs) ∧
      (nl ≤ 0 → sqNorm (g.rotate s.Fs - P.kso • g.shearInc) ≤ (P.kno * g.pd ^ (3 / 2 : ℝ) * P.tan) ^ 2 →
        (linear ne nl P s g v dt).2.1.Fs = g.rotate s.Fs - P.kso • g.shearInc) := by
  unfold linear
  rw [if_neg (not_lt.2 hu)]
  dsimp only
  refine ⟨rfl, ?_, ?_, fun hn hq => ?_⟩
  · rw [(applyLoads_f _ _ _ _ _).2]; abel
  · rw [(applyLoads_f _ _ _ _ _).1]; abel
  · rw [if_neg (not_lt.2 hn), if_neg (by omega), slip, if_neg (by rw [← mul_pow]; exact not_lt.2 hq)]

example : sqNorm ((inOf 1 0 1).g.rotate 0 - (0 : ℝ) • (inOf 1 0 1).g.shearInc) ≤ (1 * (inOf 1 0 1).g.pd ^ (3 / 2 : ℝ) * 1) ^ 2 := by
  rw [zero_smul, sub_zero, show (inOf 1 0 1).g.rotate 0 = 0 from by apply v3_ext <;> simp [ScGeom.rotate]]
  rw [show sqNorm (0 : V3) = 0 from by simp [sqNorm, dot]]
  positivity

/-! ## C306 -/

/-- The displacement of a step. -/
noncomputable def In.shear (i : In) : V3 := i.dt • (i.v - dot i.g.normal i.v • i.g.normal)

/-- While a contact neither slides nor turns and its overlap does not change, its shear force is linear in the displacement, through any history. -/
theorem C306_linear_partial {c : Cfg} {P : Par} {u : ℝ} (hu : 0 ≤ u) {s : St} {is : List In} (hg : ∀ i ∈ is, i.g.pd = u ∧ ∀ f, i.g.rotate f = f) {os : List Out} (h : run c P s is = .ok os)
    (hs : ∀ o ∈ os, o.st.sliding = false) : ((os.getLast?.map fun o => o.st.FsE).getD s.FsE) = s.FsE - P.ks u • (is.map In.shear).sum := by
  induction is generalizing s os with
  | nil => unfold run at h; cases h; simp
  | cons i is ih =>
    obtain ⟨hp, hr⟩ := hg i List.mem_cons_self
    unfold run at h
    cases hgo : go c P s i with
    | ub => rw [hgo] at h; cases h
    | throws => rw [hgo] at h; cases h
    | ok o =>
      obtain ⟨cc, -, hk, -, -, hS, -⟩ := go_ok hgo (hp ▸ hu)
      rw [hgo, Res.bind_ok, if_pos hk] at h
      cases hrn : run c P o.st is with
      | ub => rw [hrn] at h; cases h
      | throws => rw [hrn] at h; cases h
      | ok os1 =>
        rw [hrn, Res.bind_ok] at h
        cases h
        have hE : o.st.FsE = s.FsE - P.ks u • i.shear := by
          have hsl := hs o List.mem_cons_self
          rw [hr, hr, hp] at hS
          unfold friction at hS
          split_ifs at hS
          · exact absurd ((Shear.mk.inj hS).2.2.2.2.symm.trans hsl) (by simp)
          · exact (Shear.mk.inj hS).1
          · exact (Shear.mk.inj hS).1
        have := ih (fun j hj => hg j (List.mem_cons_of_mem _ hj)) hrn fun x hx => hs x (List.mem_cons_of_mem _ hx)
        rw [List.map_cons, List.sum_cons, smul_add, ← sub_sub, ← hE, ← this]
        cases os1 with
        | nil => simp
        | cons x xs => rw [List.getLast?_cons_cons, List.getLast?_eq_getLast_of_ne_nil (List.cons_ne_nil x xs)]; rfl

/-- If the overlap changes it is not: sheared forth under one overlap and back under another one, a contact which never slid is left with a shear force,
which is that of the difference of stiffnesses. -/
theorem C306_violated_cycle {c : Cfg} {P : Par} {s : St} {i j : In} (hi : 0 ≤ i.g.pd) (hj : 0 ≤ j.g.pd) (hr : ∀ f, i.g.rotate f = f) (hr' : ∀ f, j.g.rotate f = f) (hb : j.shear = -i.shear)
    {os : List Out} (h : run c P s [i, j] = .ok os) (hs : ∀ o ∈ os, o.st.sliding = false) :
    ∃ o1 o2, os = [o1, o2] ∧ o2.st.FsE = s.FsE + (P.kso * (j.g.pd ^ (1 / 2 : ℝ) - i.g.pd ^ (1 / 2 : ℝ))) • i.shear := by
  unfold run at h
  cases hgo : go c P s i with
  | ub => rw [hgo] at h; cases h
  | throws => rw [hgo] at h; cases h
  | ok o =>
    obtain ⟨cc, -, hk, -, -, hS, -⟩ := go_ok hgo hi
    rw [hgo, Res.bind_ok, if_pos hk] at h
    unfold run at h
    cases hgo2 : go c P o.st j with
    | ub => rw [hgo2] at h; cases h
    | throws => rw [hgo2] at h; cases h
    | ok o2 =>
      obtain ⟨cc2, -, hk2, -, -, hS2, -⟩ := go_ok hgo2 hj
      rw [hgo2, Res.bind_ok, if_pos hk2] at h
      unfold run at h
      rw [Res.bind_ok, Res.bind_ok] at h
      cases h
      refine ⟨o, o2, rfl, ?_⟩
      have key : ∀ {d : Prop} {m cs : ℝ} {F U V : V3} {q : Out}, (⟨q.st.FsE, q.st.Fs, q.st.usE, q.st.visS, q.st.sliding⟩ : Shear) = friction d m cs F U V → q.st.sliding = false → q.st.FsE = F := by
        intro d m cs F U V q hq hsl
        unfold friction at hq
        split_ifs at hq
        · exact absurd ((Shear.mk.inj hq).2.2.2.2.symm.trans hsl) (by simp)
        · exact (Shear.mk.inj hq).1
        · exact (Shear.mk.inj hq).1
      have e1 := key hS (hs o (by simp))
      have e2 := key hS2 (hs o2 (by simp))
      rw [hr] at e1
      rw [hr'] at e2
      change o.st.FsE = s.FsE - P.ks i.g.pd • i.shear at e1
      change o2.st.FsE = o.st.FsE - P.ks j.g.pd • j.shear at e2
      rw [e2, e1, hb]
      unfold Par.ks
      module

/-- Forth and back, with more overlap on the way back. -/
example : ((inOf 4 ![0, -1, 0] 1).shear = -(inOf 1 ![0, 1, 0] 1).shear) ∧ (∀ f, (inOf 4 ![0, -1, 0] 1).g.rotate f = f) ∧ ∃ o, go cfg0 { par1 with tan := 10 } St.init (inOf 1 ![0, 1, 0] 1) = .ok o := by
  refine ⟨?_, rotate0 _ _ _, go_exists _ _ _ _ (by norm_num [inOf]) (by norm_num [inOf])⟩
  apply v3_ext <;> simp [In.shear, inOf, dot]

/-- The law with partial slip has no shear force whatever the displacement: a contact which had none never gets any. -/
theorem C306_violated_slip (ne : Bool) (P : Par) (gs : List ScGeom) {s : St} (h0 : s.Fs = 0) :
    (gs.foldl (fun t g => (partialSlip ne P t g).2.1) s).Fs = 0 := by
  induction gs generalizing s with
  | nil => exact h0
  | cons g gs ih =>
    rw [List.foldl_cons]
    apply ih
    unfold partialSlip
    dsimp only
    split_ifs
    · rfl
    · exact h0
    · exact h0
    · exact h0

end Verif.Hertz
