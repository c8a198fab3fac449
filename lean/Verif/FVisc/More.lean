import Verif.FVisc.Props

/-!
# Damped frictional contacts: stiffnesses and friction of new contacts, work reported to the scene
-/
namespace Verif.FVisc
open Verif Verif.Mech

theorem harm_value {a b k : ℝ} (ha : 0 < a) (hb : 0 < b) (h : harm a b = .ok k) : 2 / k = 1 / a + 1 / b := by
  unfold harm at h
  rw [if_neg (by positivity)] at h
  cases h
  field_simp
  ring

/-- **C311 (stiffness).** The stiffnesses and friction of a new contact are those the match makers give (the shear one relative to the
normal one), and without them twice those of the bodies in series and the smaller friction angle; there is no force yet, and the physics of
an existing contact is left as it is. -/
theorem C311_stiffness (mk : Match) (m1 m2 : FrictMat) (b1 b2 r1 r2 : ℝ) (a b : Bd) (p : Phys)
    (h : ip2 mk none (.visco m1 b1) (.visco m2 b2) r1 r2 a b = .ok p) :
    (∀ k, mk.kn = some k → p.kn = k) ∧ (∀ k, mk.kRatio = some k → p.ks = k * p.kn) ∧
    (∀ x, mk.frictAngle = some x → p.tan = Real.tan x) ∧
    (mk.frictAngle = none → p.tan = Real.tan (min m1.frictionAngle m2.frictionAngle)) ∧
    (mk.kn = none → 0 < m1.young → 0 < m2.young → 0 < r1 → 0 < r2 → 2 / p.kn = 1 / (m1.young * r1) + 1 / (m2.young * r2)) ∧
    (mk.kRatio = none → 0 < m1.young * m1.poisson → 0 < m2.young * m2.poisson → 0 < r1 → 0 < r2 →
      2 / p.ks = 1 / (m1.young * r1 * m1.poisson) + 1 / (m2.young * r2 * m2.poisson)) ∧
    p.Fn = 0 ∧ p.Fs = 0 ∧ ∀ q, ip2 mk (some q) (.visco m1 b1) (.visco m2 b2) r1 r2 a b = .ok q := by
  simp only [ip2, ip2Both] at h
  cases hk : normalStiff mk m1 m2 r1 r2 with
  | throws => rw [hk] at h; cases h
  | ub => rw [hk] at h; cases h
  | ok Kn =>
    rw [hk, ok_bind] at h
    cases hs : shearStiff mk m1 m2 r1 r2 Kn with
    | throws => rw [hs] at h; cases h
    | ub => rw [hs] at h; cases h
    | ok Ks =>
      rw [hs, ok_bind] at h
      have hw : p.kn = Kn ∧ p.ks = Ks ∧ p.tan = tangent mk m1 m2 ∧ p.Fn = 0 ∧ p.Fs = 0 := by
        unfold withDamping at h
        cases hf : fracBoth b1 b2 with
        | none => rw [hf] at h; cases h; exact ⟨rfl, rfl, rfl, rfl, rfl⟩
        | some x =>
          rw [hf] at h
          dsimp only at h
          cases hm : eqMass a b with
          | throws => rw [hm] at h; cases h
          | ub => rw [hm] at h; cases h
          | ok m =>
            rw [hm, ok_bind] at h
            cases hc : critical m Kn with
            | throws => rw [hc] at h; cases h
            | ub => rw [hc] at h; cases h
            | ok c => rw [hc, ok_bind] at h; cases h; exact ⟨rfl, rfl, rfl, rfl, rfl⟩
      obtain ⟨w1, w2, w3, w4, w5⟩ := hw
      refine ⟨fun k e => ?_, fun k e => ?_, fun x e => ?_, fun e => ?_, fun e y1 y2 p1 p2 => ?_, fun e y1 y2 p1 p2 => ?_, w4, w5,
        fun q => rfl⟩
      · rw [normalStiff, e] at hk; cases hk; exact w1
      · rw [shearStiff, e] at hs; cases hs; rw [w2, w1]
      · rw [w3, tangent, e]
      · rw [w3, tangent, e]
      · rw [normalStiff, e] at hk
        dsimp only at hk
        rw [if_pos p1, if_pos p2] at hk
        rw [w1]
        exact harm_value (mul_pos y1 p1) (mul_pos y2 p2) hk
      · rw [shearStiff, e] at hs
        dsimp only at hs
        rw [if_pos p1, if_pos p2] at hs
        rw [w2]
        refine harm_value ?_ ?_ hs
        · have := mul_pos y1 p1; nlinarith
        · have := mul_pos y2 p2; nlinarith

/-- The hypotheses of `C311_stiffness` are met by two bodies of unit modulus. -/
example : ∃ p, ip2 ⟨none, none, none⟩ none (.visco exMat 0) (.visco exMat 0) 1 1 ⟨true, 1⟩ ⟨true, 1⟩ = .ok p := by
  simp only [ip2, ip2Both]
  have h1 : normalStiff ⟨none, none, none⟩ exMat exMat 1 1 = .ok 1 := by
    norm_num [normalStiff, harm, exMat]
  have h2 : shearStiff ⟨none, none, none⟩ exMat exMat 1 1 1 = .ok (1 / 2) := by
    norm_num [shearStiff, harm, exMat]
  rw [h1, ok_bind, h2, ok_bind, fracBoth, if_neg (by simp)]
  exact ⟨_, rfl⟩

/-- **C313 (tracked work).** When the scene tracks energy and the law does not trace it, a slide adds to the scene's dissipation the work
of the shear force over the slip, once. -/
theorem C313_tracked (cfg : Cfg) (g : ScGeom) (p : Phys) (s1 s2 : State) (c : GeomCtx) (e : Energy) (ht : cfg.trace = false)
    (hk' : cfg.track = true) (hks : 0 < p.ks) (hk : (lawGo cfg g p s1 s2 c e).keep = true) :
    p.ks * ((lawGo cfg g p s1 s2 c e).energy.plast - e.plast) =
      dot (((if g.pd < 0 then 0 else g.rotate p.Fs) - p.ks • g.shearInc) - (lawGo cfg g p s1 s2 c e).phys.Fs)
        (lawGo cfg g p s1 s2 c e).phys.Fs := by
  obtain ⟨N, S, t, hN, htr, hS, -, h2, -, he⟩ := lawGo_kept (p := p) (s1 := s1) (s2 := s2) (c := c) (e := e)
    (kept_of_keep hk)
  rw [he, h2, ← htr, energyStep, if_neg (by simp [hk'])]
  simp only [ht, Bool.false_eq_true, if_false]
  by_cases hs : sqNorm t > sqNorm N * p.tan ^ 2
  · rw [if_pos hs]
    have hw := slip_work p.ks _ t hks (mul_nonneg (sqNorm_nonneg N) (sq_nonneg p.tan)) hs
    rw [← hS] at hw
    by_cases hd : dot ((1 / p.ks) • (t - S)) S > 0
    · rw [if_pos hd]
      simp only
      rw [add_sub_cancel_left, dot_smul_left, ← mul_assoc, mul_one_div_cancel hks.ne', one_mul]
    · rw [if_neg hd]
      have h0 : dot ((1 / p.ks) • (t - S)) S = 0 := le_antisymm (not_lt.mp hd) hw
      have h1 : dot (t - S) S = 0 := by
        rw [dot_smul_left] at h0
        exact (mul_eq_zero.mp h0).resolve_left (by positivity)
      rw [h1, sub_self, mul_zero]
  · rw [if_neg hs]
    have : S = t := by rw [hS, slip, if_neg hs]
    rw [this]
    simp [dot]

/-- The hypotheses of `C313_tracked` are met by a contact that slides in a scene that tracks energy. -/
example : (lawGo ⟨⟨false, true, false⟩, false, true⟩ exSlide exPhys rest (moving 0) exCtx ⟨0, 0, 0⟩).keep = true ∧ 0 < exPhys.ks := by
  obtain ⟨_, _, _, _, _, _, h, _⟩ := lawGo_kept (cfg := ⟨⟨false, true, false⟩, false, true⟩) (g := exSlide) (p := exPhys)
    (s1 := rest) (s2 := moving 0) (c := exCtx) (e := ⟨0, 0, 0⟩) (by norm_num [exSlide, exG])
  exact ⟨h, by norm_num [exPhys]⟩

end Verif.FVisc
