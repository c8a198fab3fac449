import Verif.Hertz.Model
import Verif.Cpm.Lemmas
import Verif.Mech.ContactProps
import Mathlib.Analysis.SpecialFunctions.Pow.Deriv

/-!
# What the laws of Hertz and Mindlin give

C300 to C306.
-/
namespace Verif.Hertz

open Verif.Mech

/-! ## Forms of a step -/

/-- A step of a contact which touches. -/
theorem go_ok {c : Cfg} {P : Par} {s : St} {i : In} {o : Out} (h : go c P s i = .ok o) (hu : 0 ≤ i.g.pd) :
    ∃ cc : ℝ × ℝ, (P.damped → ∃ m, i.mbar = .ok m ∧ cc = coeffs P m i.g.pd) ∧ o.keep = true ∧
      (¬ P.damped → o.st.Fn = elasticN c P i.g.pd • i.g.normal ∧ o.ener.dampN = 0 ∧ o.ener.dampS = 0) ∧
      (P.damped → (o.st.Fn, o.st.visN) = dampN c P cc.1 i.g.normal (elasticN c P i.g.pd • i.g.normal) (dot i.g.normal i.v • i.g.normal) ∧
        o.ener.dampN = dot o.st.visN (i.dt • (dot i.g.normal i.v • i.g.normal)) ∧
        (o.st.sliding = false → o.ener.dampS = dot o.st.visS (i.dt • (i.v - dot i.g.normal i.v • i.g.normal))) ∧ (o.st.sliding = true → o.ener.dampS = 0)) ∧
      (⟨o.st.FsE, o.st.Fs, o.st.usE, o.st.visS, o.st.sliding⟩ : Shear) = friction P.damped (limit c P o.st.Fn) cc.2
        (i.g.rotate s.FsE - P.ks i.g.pd • (i.dt • (i.v - dot i.g.normal i.v • i.g.normal))) (i.g.rotate s.usE - i.dt • (i.v - dot i.g.normal i.v • i.g.normal))
        (i.v - dot i.g.normal i.v • i.g.normal) ∧
      (o.st.sliding = true → o.ener.friction = dot (-(i.dt • (i.v - dot i.g.normal i.v • i.g.normal))) o.st.FsE) ∧
      (c.moment = true → o.st.mB = bend P o.st.Fn (i.g.rotate s.mB - P.kr • (i.dt • (i.w - dot i.g.normal i.w • i.g.normal)))) ∧
      ∃ M, o.loads = ⟨(applyLoads ⟨c.neverErase, false, c.periodic⟩ i.g (-o.st.Fn - o.st.Fs) i.pos1 i.pos2).f1,
        (applyLoads ⟨c.neverErase, false, c.periodic⟩ i.g (-o.st.Fn - o.st.Fs) i.pos1 i.pos2).t1 - M,
        (applyLoads ⟨c.neverErase, false, c.periodic⟩ i.g (-o.st.Fn - o.st.Fs) i.pos1 i.pos2).f2,
        (applyLoads ⟨c.neverErase, false, c.periodic⟩ i.g (-o.st.Fn - o.st.Fs) i.pos1 i.pos2).t2 + M⟩ := by
  unfold go at h
  dsimp only at h
  rw [if_neg (not_lt.2 hu)] at h
  by_cases hd : P.damped
  · simp only [if_pos hd] at h
    cases hm : i.mbar with
    | ub => rw [hm] at h; cases h
    | throws => rw [hm] at h; cases h
    | ok m =>
      rw [hm] at h
      simp only [Res.bind_ok] at h
      cases h
      refine ⟨_, fun _ => ⟨m, rfl, rfl⟩, rfl, fun h => absurd hd h, fun _ => ⟨rfl, rfl, ?_, ?_⟩, rfl, ?_, ?_, ?_⟩
      · intro hs; dsimp only at hs ⊢; rw [if_pos ⟨hd, by simp only [if_pos hd]; rw [hs]; simp⟩]
      · intro hs; dsimp only at hs ⊢; rw [if_neg fun h => h.2 (by simp only [if_pos hd]; exact hs)]
      · intro hs; dsimp only at hs ⊢; rw [if_pos hs]; congr 1; abel
      · intro hc; dsimp only; rw [if_pos hc]
      · cases hc : c.moment
        · exact ⟨0, by simp⟩
        · exact ⟨_, by dsimp only; rw [if_pos rfl]⟩
  · simp only [if_neg hd] at h
    rw [Res.bind_ok] at h
    cases h
    refine ⟨(0, 0), fun h => absurd h hd, rfl, fun _ => ⟨rfl, rfl, ?_⟩, fun h => absurd h hd, rfl, ?_, ?_, ?_⟩
    · simp [hd]
    · intro hs; dsimp only at hs ⊢; rw [if_pos hs]; congr 1; abel
    · intro hc; dsimp only; rw [if_pos hc]
    · cases hc : c.moment
      · exact ⟨0, by simp⟩
      · exact ⟨_, by dsimp only; rw [if_pos rfl]⟩

/-- A step of a contact which does not touch. -/
theorem go_apart (c : Cfg) (P : Par) (s : St) {i : In} (hu : i.g.pd < 0) :
    go c P s i = .ok (if c.neverErase then ⟨true, { s with Fs := 0, Fn := 0, kn := 0, ks := 0 }, Loads.zero, ⟨0, 0, 0, 0⟩⟩ else ⟨false, s, Loads.zero, ⟨0, 0, 0, 0⟩⟩) := by
  unfold go
  dsimp only
  rw [if_pos hu]
  split_ifs <;> rfl

/-- Every result in a history is the one of a step. -/
theorem run_mem {c : Cfg} {P : Par} {s : St} {is : List In} {os : List Out} (h : run c P s is = .ok os) {o : Out} (ho : o ∈ os) :
    ∃ t, ∃ i ∈ is, go c P t i = .ok o := by
  induction is generalizing s os with
  | nil =>
    unfold run at h
    cases h; simp at ho
  | cons i is ih =>
    unfold run at h
    cases hg : go c P s i with
    | ub => rw [hg] at h; cases h
    | throws => rw [hg] at h; cases h
    | ok o1 =>
      rw [hg, Res.bind_ok] at h
      by_cases hk : o1.keep = true
      · rw [if_pos hk] at h
        cases hr : run c P o1.st is with
        | ub => rw [hr] at h; cases h
        | throws => rw [hr] at h; cases h
        | ok os1 =>
          rw [hr, Res.bind_ok] at h
          cases h
          rcases List.mem_cons.1 ho with rfl | ho
          · exact ⟨s, i, List.mem_cons_self, hg⟩
          · obtain ⟨t, j, hj, e⟩ := ih hr ho
            exact ⟨t, j, List.mem_cons_of_mem _ hj, e⟩
      · rw [if_neg hk] at h
        cases h
        rw [List.mem_singleton] at ho
        exact ⟨s, i, List.mem_cons_self, ho ▸ hg⟩

theorem pos_right {a x : ℝ} (h : 0 < a * x) (ha : 0 ≤ a) : 0 < x := by
  by_contra hx
  linarith [mul_nonpos_of_nonneg_of_nonpos ha (not_lt.1 hx)]

theorem dot_self (n : V3) : dot n n = sqNorm n := rfl

theorem dot_comm' (a b : V3) : dot a b = dot b a := by unfold dot; ring

theorem sqNorm_nonneg' (v : V3) : 0 ≤ sqNorm v := by unfold sqNorm dot; nlinarith [sq_nonneg (v 0), sq_nonneg (v 1), sq_nonneg (v 2)]

theorem norm3_nonneg' (v : V3) : 0 ≤ norm3 v := Real.sqrt_nonneg _

theorem norm3_sq' (v : V3) : norm3 v ^ 2 = sqNorm v := Real.sq_sqrt (sqNorm_nonneg' v)

/-- The viscous component and the normal force along a unit normal. -/
theorem dampN_along {c : Cfg} {P : Par} {cn f x : ℝ} {n : V3} (hn : sqNorm n = 1) (hcn : 0 ≤ cn) (ha : 0 ≤ P.adh)
    (hf : (P.adh = 0 ∨ c.adhesion = false → 0 ≤ f) ∧ -P.adh ≤ f) :
    ∃ a b, dampN c P cn n (f • n) (x • n) = (a • n, b • n) ∧ 0 ≤ b * x ∧ (P.adh = 0 ∨ c.adhesion = false → 0 ≤ a) ∧ -(2 * P.adh) ≤ a := by
  have e1 : f • n - cn • x • n = (f - cn * x) • n := by rw [smul_smul, sub_smul]
  have e2 : dot ((f - cn * x) • n) n = f - cn * x := by rw [dot_smul_left, dot_self, hn, mul_one]
  have hxx : 0 ≤ cn * x * x := by rw [mul_assoc]; exact mul_nonneg hcn (mul_self_nonneg x)
  unfold dampN
  dsimp only
  rw [e1, e2]
  by_cases h1 : P.adh = 0 ∨ ¬ c.adhesion = true
  · have h1' : P.adh = 0 ∨ c.adhesion = false := h1.imp id (by simp)
    rw [if_pos h1]
    have h0 := hf.1 h1'
    split_ifs with h2
    · refine ⟨0, f, by rw [zero_smul, smul_smul, ← add_smul]; congr 2; ring, ?_, fun _ => le_refl _, by linarith⟩
      have : 0 < cn * x := by linarith
      exact mul_nonneg h0 (pos_right this hcn).le
    · exact ⟨f - cn * x, cn * x, by rw [smul_smul], hxx, fun _ => not_lt.1 h2, by linarith [not_lt.1 h2]⟩
  · have h1' : ¬ (P.adh = 0 ∨ c.adhesion = false) := fun h => h1 (h.imp id (by simp))
    rw [if_neg h1]
    have en : norm3 (cn • x • n) = |cn * x| := by
      rw [smul_smul, Cpm.norm3_smul]
      have : norm3 n = 1 := by unfold norm3; rw [hn, Real.sqrt_one]
      rw [this, mul_one]
    rw [en]
    split_ifs with h2
    · have hx : 0 < cn * x := by
        rcases lt_trichotomy 0 (cn * x) with h | h | h
        · exact h
        · exfalso; rw [← h, abs_zero] at h2; linarith [h2.2]
        · exfalso
          rw [abs_of_neg h] at h2
          linarith [hf.2, h2.1, h2.2]
      have hx' : 0 < x := pos_right hx hcn
      refine ⟨f - P.adh, P.adh, ?_, mul_nonneg ha hx'.le, fun h => absurd h h1', by linarith [hf.2]⟩
      have e3 : P.adh • (1 / |cn * x|) • cn • x • n = P.adh • n := by
        rw [abs_of_pos hx, smul_smul cn, smul_smul (1 / (cn * x)), one_div_mul_cancel hx.ne', one_smul]
      rw [e3, sub_smul]
    · refine ⟨f - cn * x, cn * x, by rw [smul_smul], hxx, fun h => absurd h h1', ?_⟩
      by_contra hc
      push Not at hc
      apply h2
      refine ⟨by linarith, ?_⟩
      have := le_abs_self (cn * x)
      linarith [hf.2]

/-- Coefficients of damping are not negative. -/
theorem coeffs_nonneg {P : Par} (hb : 0 ≤ P.betan) (hs : 0 ≤ P.betas) (ha : 0 ≤ P.alpha) (m : ℝ) {u : ℝ} (hu : 0 ≤ u) : 0 ≤ (coeffs P m u).1 ∧ 0 ≤ (coeffs P m u).2 := by
  unfold coeffs
  split_ifs
  · constructor <;> positivity
  · have := Real.rpow_nonneg hu (1 / 4)
    constructor <;> positivity

/-! ## C300 -/

/-- Without damping the normal force is the derivative of the energy which is reported for the contact. -/
theorem C300_potential {c : Cfg} {P : Par} {s : St} {i : In} {o : Out} (h : go c P s i = .ok o) (hu : 0 < i.g.pd) (hd : ¬ P.damped) :
    ∃ f, o.st.Fn = f • i.g.normal ∧ HasDerivAt (fun u => (normEnergy c [(u, P)]).getD 0) f i.g.pd := by
  obtain ⟨cc, -, -, h1, -⟩ := go_ok h hu.le
  refine ⟨_, (h1 hd).1, ?_⟩
  have h2 : HasDerivAt (fun u : ℝ => u ^ (5 / 2 : ℝ) * 2 / 5 * P.kno - (if c.adhesion then P.adh * u else 0)) (elasticN c P i.g.pd) i.g.pd := by
    have e := (((Real.hasDerivAt_rpow_const (x := i.g.pd) (p := 5 / 2) (.inl hu.ne')).mul_const 2).div_const 5).mul_const P.kno
    have e2 : HasDerivAt (fun u : ℝ => if c.adhesion then P.adh * u else 0) (if c.adhesion then P.adh else 0) i.g.pd := by
      split_ifs
      · simpa using (hasDerivAt_id i.g.pd).const_mul P.adh
      · exact hasDerivAt_const _ _
    refine (e.sub e2).congr_deriv ?_
    unfold elasticN
    norm_num
    ring
  refine h2.congr_of_eventuallyEq ?_
  filter_upwards [lt_mem_nhds hu] with u hu'
  unfold normEnergy
  rw [if_neg (not_lt.2 hu'.le)]
  simp [normEnergy]

/-- Without adhesion contacts push, damped or not. -/
theorem C300_push {c : Cfg} {P : Par} (hk : 0 ≤ P.kno) (ha : c.adhesion = false) (h0 : 0 ≤ P.adh) (hb : 0 ≤ P.betan) (hs : 0 ≤ P.betas) (hal : 0 ≤ P.alpha) {s : St} {i : In}
    {o : Out} (h : go c P s i = .ok o) (hn : sqNorm i.g.normal = 1) (hu : 0 ≤ i.g.pd) : ∃ f : ℝ, 0 ≤ f ∧ o.st.Fn = f • i.g.normal := by
  obtain ⟨cc, hcc, -, h1, h2, -⟩ := go_ok h hu
  have hf : 0 ≤ elasticN c P i.g.pd := by
    unfold elasticN
    rw [ha]
    have := Real.rpow_nonneg hu (3 / 2)
    simp only [Bool.false_eq_true, if_false, sub_zero]
    positivity
  by_cases hd : P.damped
  · obtain ⟨m, -, rfl⟩ := hcc hd
    obtain ⟨a, b, e, -, hA, -⟩ := dampN_along (c := c) (P := P) (f := elasticN c P i.g.pd) (x := dot i.g.normal i.v) hn (coeffs_nonneg hb hs hal m hu).1 h0 ⟨fun _ => hf, by linarith⟩
    have := (h2 hd).1
    rw [e] at this
    exact ⟨a, hA (.inr ha), (Prod.mk.inj this).1⟩
  · exact ⟨_, hf, (h1 hd).1⟩

/-- With adhesion, attraction is no more than twice the force of adhesion, and no more than that force without damping. -/
theorem C300_attraction {c : Cfg} {P : Par} (hk : 0 ≤ P.kno) (h0 : 0 ≤ P.adh) (hb : 0 ≤ P.betan) (hs : 0 ≤ P.betas) (hal : 0 ≤ P.alpha) {s : St} {i : In}
    {o : Out} (h : go c P s i = .ok o) (hn : sqNorm i.g.normal = 1) (hu : 0 ≤ i.g.pd) :
    ∃ f, -(2 * P.adh) ≤ f ∧ (¬ P.damped → -P.adh ≤ f) ∧ o.st.Fn = f • i.g.normal := by
  obtain ⟨cc, hcc, -, h1, h2, -⟩ := go_ok h hu
  have hr : 0 ≤ P.kno * i.g.pd ^ (3 / 2 : ℝ) := mul_nonneg hk (Real.rpow_nonneg hu _)
  have hf : (P.adh = 0 ∨ c.adhesion = false → 0 ≤ elasticN c P i.g.pd) ∧ -P.adh ≤ elasticN c P i.g.pd := by
    unfold elasticN
    refine ⟨?_, by split_ifs <;> linarith⟩
    rintro (ha | ha) <;> rw [ha]
    · simpa using hr
    · simpa using hr
  by_cases hd : P.damped
  · obtain ⟨m, -, rfl⟩ := hcc hd
    obtain ⟨a, b, e, -, -, hA⟩ := dampN_along (c := c) (P := P) (f := elasticN c P i.g.pd) (x := dot i.g.normal i.v) hn (coeffs_nonneg hb hs hal m hu).1 h0 hf
    have := (h2 hd).1
    rw [e] at this
    exact ⟨a, hA, fun hh => absurd hd hh, (Prod.mk.inj this).1⟩
  · exact ⟨_, by linarith [hf.2], fun _ => hf.2, (h1 hd).1⟩

/-- The sum of energies is reported for contacts which touch. -/
theorem C300_energy_partial (c : Cfg) (xs : List (ℝ × Par)) (h : ∀ x ∈ xs, 0 ≤ x.1) :
    normEnergy c xs = some ((xs.map fun x => x.1 ^ (5 / 2 : ℝ) * 2 / 5 * x.2.kno - (if c.adhesion then x.2.adh * x.1 else 0)).sum) := by
  induction xs with
  | nil => rfl
  | cons x xs ih =>
    obtain ⟨u, P⟩ := x
    have h1 : ¬ u < 0 := not_lt.2 (h (u, P) List.mem_cons_self)
    unfold normEnergy
    rw [if_neg h1, ih fun y hy => h y (List.mem_cons_of_mem _ hy)]
    simp

/-- It is NaN as soon as a contact which does not touch is kept, as the law does on request. -/
theorem C300_violated_energy {c : Cfg} (hc : c.neverErase = true) (P : Par) (s : St) {i : In} (hu : i.g.pd < 0) (xs ys : List (ℝ × Par)) :
    (∃ o, go c P s i = .ok o ∧ o.keep = true) ∧ normEnergy c (xs ++ (i.g.pd, P) :: ys) = none := by
  refine ⟨⟨_, go_apart c P s hu, by rw [if_pos hc]⟩, ?_⟩
  induction xs with
  | nil => simp [normEnergy, hu]
  | cons x xs ih =>
    obtain ⟨u, Q⟩ := x
    rw [List.cons_append, normEnergy, ih]
    split_ifs <;> rfl

/-! ## C301 -/

theorem friction_limit {d : Prop} {m cs : ℝ} (hm : 0 ≤ m) (FsE usE vs : V3) : norm3 (friction d m cs FsE usE vs).FsE ≤ m ∧ ((friction d m cs FsE usE vs).sliding = true → norm3 (friction d m cs FsE usE vs).Fs = m) ∧
    (¬ d → (friction d m cs FsE usE vs).Fs = (friction d m cs FsE usE vs).FsE) := by
  unfold friction
  by_cases h : sqNorm FsE > m * m
  · rw [if_pos h]
    have hp : 0 < norm3 FsE := by
      apply Real.sqrt_pos.2
      nlinarith [mul_self_nonneg m]
    have : norm3 ((m / norm3 FsE) • FsE) = m := by
      rw [Cpm.norm3_smul, abs_of_nonneg (div_nonneg hm hp.le), div_mul_cancel₀ _ hp.ne']
    exact ⟨this.le, fun _ => this, fun _ => rfl⟩
  · rw [if_neg h]
    have : norm3 FsE ≤ m := by
      have := norm3_sq' FsE
      have h2 := norm3_nonneg' FsE
      nlinarith
    split_ifs with hd
    · exact ⟨this, by simp, fun hh => absurd hd hh⟩
    · exact ⟨this, by simp, fun _ => rfl⟩

/-- Without damping the shear force does not exceed the limit of friction; it is the elastic one which is kept, and that one does not exceed the limit in any case. -/
theorem C301_limit_partial {c : Cfg} {P : Par} (ht : 0 ≤ P.tan) (h0 : 0 ≤ P.adh) {s : St} {i : In} {o : Out} (h : go c P s i = .ok o) (hu : 0 ≤ i.g.pd) :
    norm3 o.st.FsE ≤ P.tan * (norm3 o.st.Fn + if c.adhesion then P.adh else 0) ∧
      (¬ P.damped → o.st.Fs = o.st.FsE) ∧ (o.st.sliding = true → norm3 o.st.Fs = P.tan * (norm3 o.st.Fn + if c.adhesion then P.adh else 0)) := by
  obtain ⟨cc, -, -, -, -, hS, -⟩ := go_ok h hu
  have hl : limit c P o.st.Fn = P.tan * (norm3 o.st.Fn + if c.adhesion then P.adh else 0) := by
    unfold limit
    cases c.adhesion <;> simp only [Bool.false_eq_true, not_true, not_false_iff, if_true, if_false] <;> ring
  have hl0 : 0 ≤ limit c P o.st.Fn := by
    rw [hl]
    have := norm3_nonneg' o.st.Fn
    split_ifs <;> positivity
  obtain ⟨a, b, d⟩ := friction_limit (d := P.damped) (cs := cc.2) hl0 (i.g.rotate s.FsE - P.ks i.g.pd • (i.dt • (i.v - dot i.g.normal i.v • i.g.normal)))
    (i.g.rotate s.usE - i.dt • (i.v - dot i.g.normal i.v • i.g.normal)) (i.v - dot i.g.normal i.v • i.g.normal)
  rw [← hS] at a b d
  rw [hl] at a b
  exact ⟨a, d, b⟩

/-- A plain contact: one for all stiffnesses and for the coefficient of friction, without damping. -/
def par1 : Par := ⟨1, 1, 1, 1, 0, 0, 0, 0, 0, 1⟩

/-- No option. -/
def cfg0 : Cfg := ⟨false, false, false, false⟩

/-- Two spheres on the first axis which overlap, moving sideways. -/
noncomputable def inOf (u : ℝ) (v : V3) (dt : ℝ) : In :=
  { g := { normal := ![1, 0, 0], contactPoint := 0, pd := u, r1 := 1, r2 := 1, twist := 0, ortho := 0, shearInc := 0 }
    v := v, w := 0, dt := dt, m1 := 1, m2 := 1, dyn1 := true, dyn2 := false, pos1 := 0, pos2 := ![2 - u, 0, 0] }

theorem rotate0 (u : ℝ) (v : V3) (dt : ℝ) (f : V3) : (inOf u v dt).g.rotate f = f := by
  apply v3_ext <;> simp [inOf, ScGeom.rotate, cross] <;> rfl

theorem normal1 (u : ℝ) (v : V3) (dt : ℝ) : sqNorm (inOf u v dt).g.normal = 1 := by
  simp [inOf, sqNorm, dot]

theorem go_exists (c : Cfg) (P : Par) (s : St) (i : In) (hm : 0 < i.m1) (hm2 : 0 ≤ i.m2) : ∃ o, go c P s i = .ok o := by
  by_cases hu : i.g.pd < 0
  · exact ⟨_, go_apart c P s hu⟩
  · have : ∃ m, i.mbar = .ok m := by
      unfold In.mbar
      split_ifs with h1 h2 h3
      · exact ⟨_, rfl⟩
      · exact ⟨_, rfl⟩
      · linarith
      · exact ⟨_, rfl⟩
    obtain ⟨m, hm⟩ := this
    unfold go
    dsimp only
    rw [if_neg hu]
    by_cases hd : P.damped
    · rw [if_pos hd, hm, Res.bind_ok, Res.bind_ok]
      exact ⟨_, rfl⟩
    · rw [if_neg hd, Res.bind_ok]
      exact ⟨_, rfl⟩

example : (∃ o, go cfg0 par1 St.init (inOf 1 ![0, 1, 0] 1) = .ok o) ∧ 0 < (inOf 1 ![0, 1, 0] 1).g.pd ∧ ¬ par1.damped ∧ 0 ≤ par1.kno ∧ 0 ≤ par1.tan :=
  ⟨go_exists _ _ _ _ (by norm_num [inOf]) (by norm_num [inOf]), by norm_num [inOf], by simp [Par.damped, par1], by norm_num [par1], by norm_num [par1]⟩

theorem friction_stick {d : Prop} {m cs : ℝ} {FsE usE vs : V3} (h : ¬ sqNorm FsE > m * m) :
    (friction d m cs FsE usE vs).FsE = FsE ∧ (friction d m cs FsE usE vs).sliding = false ∧ (d → (friction d m cs FsE usE vs).Fs = FsE - cs • vs) := by
  unfold friction
  rw [if_neg h]
  split_ifs with hd
  · exact ⟨rfl, rfl, fun _ => rfl⟩
  · exact ⟨rfl, rfl, fun h => absurd h hd⟩

/-- Shear damping is added beyond the limit: a contact which is said not to slide bears two and a half times the limit of friction. -/
theorem C301_violated_damping : ∃ o, go cfg0 { par1 with betas := 1 } St.init (inOf 1 ![0, 1, 0] (1 / 2)) = .ok o ∧ o.st.sliding = false ∧
    norm3 o.st.Fn * 1 = 1 ∧ norm3 o.st.Fs = 5 / 2 := by
  obtain ⟨o, ho⟩ := go_exists cfg0 { par1 with betas := 1 } St.init (inOf 1 ![0, 1, 0] (1 / 2)) (by norm_num [inOf]) (by norm_num [inOf])
  obtain ⟨cc, hcc, -, -, h2, hS, -⟩ := go_ok ho (by norm_num [inOf])
  have hd : ({ par1 with betas := 1 } : Par).damped := by simp [Par.damped]
  obtain ⟨m, hm, hc⟩ := hcc hd
  have hm1 : m = 1 := by
    simp [In.mbar, inOf] at hm
    exact hm.symm
  have hc1 : cc.1 = 0 := by rw [hc]; simp [coeffs, par1]
  have hc2 : cc.2 = 2 := by rw [hc, hm1]; simp [coeffs, par1, Par.ks, inOf]
  have hvn : dot (inOf 1 ![0, 1, 0] (1 / 2)).g.normal (inOf 1 ![0, 1, 0] (1 / 2)).v = 0 := by simp [inOf, dot]
  have hF : o.st.Fn = (inOf 1 ![0, 1, 0] (1 / 2)).g.normal := by
    have := (h2 hd).1
    rw [hvn, hc1] at this
    have e : elasticN cfg0 { par1 with betas := 1 } (inOf 1 ![0, 1, 0] (1 / 2)).g.pd = 1 := by simp [elasticN, cfg0, par1, inOf]
    rw [e] at this
    have e2 : dampN cfg0 { par1 with betas := 1 } 0 (inOf 1 ![0, 1, 0] (1 / 2)).g.normal ((1 : ℝ) • (inOf 1 ![0, 1, 0] (1 / 2)).g.normal) ((0 : ℝ) • (inOf 1 ![0, 1, 0] (1 / 2)).g.normal) =
        ((inOf 1 ![0, 1, 0] (1 / 2)).g.normal, 0) := by
      unfold dampN
      dsimp only
      rw [if_pos (.inl rfl), zero_smul, one_smul, sub_zero, dot_self, normal1, if_neg (by norm_num)]
    rw [e2] at this
    exact (Prod.mk.inj this).1
  have hN : norm3 o.st.Fn = 1 := by rw [hF]; unfold norm3; rw [normal1, Real.sqrt_one]
  rw [hvn, zero_smul, sub_zero, rotate0, rotate0, hc2] at hS
  have hks : Par.ks { par1 with betas := 1 } (inOf 1 ![0, 1, 0] (1 / 2)).g.pd = 1 := by simp [Par.ks, par1, inOf]
  rw [hks] at hS
  have hlim : limit cfg0 { par1 with betas := 1 } o.st.Fn = 1 := by simp [limit, cfg0, hN, par1]
  rw [hlim] at hS
  have hv : St.init.FsE - (1 : ℝ) • ((inOf 1 ![0, 1, 0] (1 / 2)).dt • (inOf 1 ![0, 1, 0] (1 / 2)).v) = ![0, -(1 / 2), 0] := by
    apply v3_ext <;> simp [St.init, inOf]
  rw [hv] at hS
  obtain ⟨a, b, d⟩ := friction_stick (d := Par.damped { par1 with betas := 1 }) (m := 1) (cs := 2) (FsE := ![0, -(1 / 2), 0]) (usE := St.init.usE - (inOf 1 ![0, 1, 0] (1 / 2)).dt • (inOf 1 ![0, 1, 0] (1 / 2)).v)
    (vs := (inOf 1 ![0, 1, 0] (1 / 2)).v) (by simp [sqNorm, dot]; norm_num)
  rw [← hS] at b d
  refine ⟨o, ho, b, by rw [hN, mul_one], ?_⟩
  have := d hd
  dsimp only at this
  rw [this]
  have e : (![0, -(1 / 2), 0] : V3) - (2 : ℝ) • (inOf 1 ![0, 1, 0] (1 / 2)).v = (-(5 / 2) : ℝ) • ![0, 1, 0] := by
    apply v3_ext <;> simp [inOf] <;> norm_num
  rw [e, Cpm.norm3_smul]
  have : norm3 (![0, 1, 0] : V3) = 1 := by simp [norm3, sqNorm, dot]
  rw [this]
  norm_num

/-- With adhesion the limit of friction of a contact which is about to open is twice the one where compression and adhesion are in balance: the
sign of the normal force is lost. -/
theorem C301_violated_adhesion {c : Cfg} (hc : c.adhesion = true) {P : Par} (hd : ¬ P.damped) (h0 : 0 < P.adh) {s : St} {i : In} (hn : sqNorm i.g.normal = 1)
    (hu : i.g.pd = 0) {o : Out} (h : go c P s i = .ok o) :
    limit c P o.st.Fn = 2 * (P.tan * P.adh) ∧
      ∀ (j : In) (o' : Out), go c P s j = .ok o' → sqNorm j.g.normal = 1 → 0 ≤ j.g.pd → P.kno * j.g.pd ^ (3 / 2 : ℝ) = P.adh →
        i.g.pd < j.g.pd ∧ limit c P o'.st.Fn = P.tan * P.adh := by
  have n1 : ∀ n : V3, sqNorm n = 1 → norm3 n = 1 := fun n hn => by unfold norm3; rw [hn, Real.sqrt_one]
  constructor
  · obtain ⟨cc, -, -, h1, -⟩ := go_ok h hu.ge
    rw [(h1 hd).1]
    unfold limit elasticN
    rw [hc, hu, Cpm.norm3_smul, n1 _ hn, Real.zero_rpow (by norm_num)]
    simp [abs_of_pos h0]
    ring
  · intro j o' h' hn' hj hb
    obtain ⟨cc, -, -, h1, -⟩ := go_ok h' hj
    refine ⟨?_, ?_⟩
    · rcases hj.eq_or_lt with e | e
      · rw [← e, Real.zero_rpow (by norm_num), mul_zero] at hb
        exact absurd hb h0.ne
      · rwa [hu]
    · rw [(h1 hd).1]
      unfold limit elasticN
      rw [hc, hb]
      simp [Cpm.norm3_smul]
      left; simp [norm3, sqNorm, dot]

example : (⟨true, false, false, false⟩ : Cfg).adhesion = true ∧ ¬ Par.damped { par1 with adh := 1 } ∧ ∃ o, go ⟨true, false, false, false⟩ { par1 with adh := 1 } St.init (inOf 0 0 1) = .ok o :=
  ⟨rfl, by simp [Par.damped, par1], go_exists _ _ _ _ (by norm_num [inOf]) (by norm_num [inOf])⟩

/-! ## C302 -/

/-- Contacts which open are removed, or kept without force and stiffness; in both cases there are no loads. -/
theorem C302_opens_partial (c : Cfg) (P : Par) (s : St) {i : In} (hu : i.g.pd < 0) :
    ∃ o, go c P s i = .ok o ∧ o.keep = c.neverErase ∧ o.loads = Loads.zero ∧ (c.neverErase = true → o.st.Fn = 0 ∧ o.st.Fs = 0 ∧ o.st.kn = 0 ∧ o.st.ks = 0) := by
  refine ⟨_, go_apart c P s hu, ?_⟩
  cases c.neverErase <;> simp

/-- Kept, they remember the shear force they had: touching again, without any motion sideways, they exert it again, although a new contact would not. -/
theorem C302_violated {c : Cfg} (hc : c.neverErase = true) {P : Par} (hd : ¬ P.damped) {s : St} {i j : In} (hi : i.g.pd < 0) (hj : 0 ≤ j.g.pd) (hr : ∀ f, j.g.rotate f = f)
    (hv : j.v - dot j.g.normal j.v • j.g.normal = 0) (hl : sqNorm s.FsE ≤ limit c P (elasticN c P j.g.pd • j.g.normal) ^ 2) {os : List Out} (h : run c P s [i, j] = .ok os) :
    ∃ o1 o2, os = [o1, o2] ∧ o1.st.Fs = 0 ∧ o2.st.Fs = s.FsE ∧ (∀ o, go c P St.init j = .ok o → o.st.Fs = 0) := by
  have key : ∀ (t : St) (o : Out), go c P t j = .ok o → sqNorm t.FsE ≤ limit c P (elasticN c P j.g.pd • j.g.normal) ^ 2 → o.keep = true ∧ o.st.Fs = t.FsE := by
    intro t o ho ht
    obtain ⟨cc, -, hk, h1, -, hS, -⟩ := go_ok ho hj
    rw [hv, smul_zero, smul_zero, sub_zero, sub_zero, hr, hr, (h1 hd).1] at hS
    obtain ⟨a, -, -⟩ := friction_stick (d := P.damped) (m := limit c P (elasticN c P j.g.pd • j.g.normal)) (cs := cc.2) (FsE := t.FsE) (usE := t.usE) (vs := (0 : V3)) (by nlinarith)
    have b : (friction P.damped (limit c P (elasticN c P j.g.pd • j.g.normal)) cc.2 t.FsE t.usE 0).Fs = t.FsE := by
      unfold friction
      rw [if_neg (by nlinarith), if_neg hd]
    rw [← hS] at b
    exact ⟨hk, b⟩
  unfold run at h
  rw [go_apart c P s hi, Res.bind_ok, if_pos hc, if_pos rfl] at h
  unfold run at h
  cases hg : go c P { s with Fs := 0, Fn := 0, kn := 0, ks := 0 } j with
  | ub => rw [hg] at h; cases h
  | throws => rw [hg] at h; cases h
  | ok o =>
    obtain ⟨k1, k2⟩ := key _ o hg hl
    rw [hg, Res.bind_ok, if_pos k1] at h
    unfold run at h
    rw [Res.bind_ok, Res.bind_ok] at h
    cases h
    refine ⟨_, _, rfl, rfl, k2, fun o' ho' => ?_⟩
    have := (key St.init o' ho' (by simp only [St.init]; have e : sqNorm (0 : V3) = 0 := by simp [sqNorm, dot]
                                    rw [e]; positivity)).2
    rw [this]; rfl

example : (inOf (-1) 0 1).g.pd < 0 ∧ sqNorm ({ St.init with FsE := ![0, 1, 0] } : St).FsE ≤ limit ⟨false, false, true, false⟩ par1 (elasticN ⟨false, false, true, false⟩ par1 (inOf 1 0 1).g.pd • (inOf 1 0 1).g.normal) ^ 2 := by
  refine ⟨by norm_num [inOf], ?_⟩
  have e : elasticN ⟨false, false, true, false⟩ par1 (inOf 1 0 1).g.pd = 1 := by simp [elasticN, par1, inOf]
  have e2 : norm3 (inOf 1 0 1).g.normal = 1 := by unfold norm3; rw [normal1, Real.sqrt_one]
  rw [e, one_smul]
  simp [limit, e2, par1, sqNorm, dot]

end Verif.Hertz
