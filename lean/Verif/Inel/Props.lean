import Verif.Inel.Lemmas
import Verif.Mech.ContactProps

/-!
# Inelastic cohesive contacts: parameters, failure, elastic range, shear, moments, balance and energy
-/
namespace Verif.Inel
open Verif Verif.Mech

/-! ## C315: parameters -/

theorem harm_comm (a b : ℝ) : harm a b = harm b a := by
  unfold harm
  rw [add_comm a b, show 2 * a * b = 2 * b * a by ring]

/-- **C315 (order).** The parameters do not depend on which body comes first. -/
theorem C315_order (m1 m2 : Mat) (r1 r2 : ℝ) : ip2 m1 m2 r1 r2 = ip2 m2 m1 r2 r1 := by
  unfold ip2
  rw [harm_comm (m1.compressionModulus * r1), harm_comm (m1.tensionModulus * r1), harm_comm (m1.shearModulus * r1),
    harm_comm m1.alphaKr, harm_comm m1.alphaKtw, mul_comm r1 r2, min_comm r2 r1, min_comm m1.frictionAngle,
    min_comm m1.creepTension, min_comm m1.creepBending, min_comm m1.creepTwist, min_comm m1.unloadBending,
    min_comm m1.unloadTension, min_comm m1.unloadTwist, min_comm m1.nuBending, min_comm (m1.epsMaxTension * r1),
    min_comm (m1.epsMaxCompression * r1), min_comm m1.etaMaxBending, min_comm m1.etaMaxTwist, min_comm m1.sigmaTension,
    min_comm m1.sigmaCompression, min_comm m1.nuTwist, min_comm m1.shearCohesion]

theorem harm_ok {a b k : ℝ} (h : harm a b = .ok k) : a + b ≠ 0 ∧ k = 2 * a * b / (a + b) := by
  unfold harm at h
  by_cases h0 : a + b = 0
  · rw [if_pos h0] at h; cases h
  · rw [if_neg h0] at h; cases h; exact ⟨h0, rfl⟩

theorem harm_series {a b k : ℝ} (ha : 0 < a) (hb : 0 < b) (h : harm a b = .ok k) : 2 / k = 1 / a + 1 / b := by
  obtain ⟨h0, rfl⟩ := harm_ok h
  field_simp
  ring

theorem ip2_ok {m1 m2 : Mat} {r1 r2 : ℝ} {P : Par} {s : St} (h : ip2 m1 m2 r1 r2 = .ok (P, s)) :
    ∃ aR aT : ℝ, harm (m1.compressionModulus * r1) (m2.compressionModulus * r2) = .ok P.knC ∧
      harm (m1.tensionModulus * r1) (m2.tensionModulus * r2) = .ok P.knT ∧
      harm (m1.shearModulus * r1) (m2.shearModulus * r2) = .ok P.ks ∧ harm m1.alphaKr m2.alphaKr = .ok aR ∧
      harm m1.alphaKtw m2.alphaKtw = .ok aT ∧ P.kr = r1 * r2 * P.ks * aR ∧ P.ktw = r1 * r2 * P.ks * aT ∧ P.kn = 0 ∧
      s.isBroken = false ∧ s.cohBroken = false ∧ s.unp = 0 ∧ s.onT = false ∧ s.onC = false ∧ s.Fs = 0 ∧ s.mB = 0 ∧ s.mTw = 0 ∧
      s.maxElT = min m1.sigmaTension m2.sigmaTension * (min r2 r1) ^ 2 ∧
      s.maxElC = min m1.sigmaCompression m2.sigmaCompression * (min r2 r1) ^ 2 ∧
      s.adh = min m1.shearCohesion m2.shearCohesion * (min r1 r2) ^ 2 ∧
      P.tan = Real.tan (min m1.frictionAngle m2.frictionAngle) ∧
      P.maxExten = min (m1.epsMaxTension * r1) (m2.epsMaxTension * r2) ∧
      P.maxContract = min (m1.epsMaxCompression * r1) (m2.epsMaxCompression * r2) := by
  unfold ip2 at h
  obtain ⟨a, ha, h⟩ := bind_ok_inv h
  obtain ⟨b, hb, h⟩ := bind_ok_inv h
  obtain ⟨c, hc, h⟩ := bind_ok_inv h
  obtain ⟨d, hd, h⟩ := bind_ok_inv h
  obtain ⟨e, he, h⟩ := bind_ok_inv h
  cases h
  exact ⟨d, e, ha, hb, hc, hd, he, rfl, rfl, rfl, rfl, rfl, rfl, rfl, rfl, rfl, rfl, rfl, rfl, rfl, rfl, rfl, rfl, rfl⟩

/-- **C315 (values).** With positive moduli and radii each stiffness is twice the one of the two bodies in series; strengths and limits
are those of the weaker material on the smaller sphere, and a new contact is unbroken, elastic and without forces. -/
theorem C315_values (m1 m2 : Mat) (r1 r2 : ℝ) (P : Par) (s : St) (h : ip2 m1 m2 r1 r2 = .ok (P, s)) (h1 : 0 < r1) (h2 : 0 < r2) :
    (0 < m1.compressionModulus → 0 < m2.compressionModulus →
      2 / P.knC = 1 / (m1.compressionModulus * r1) + 1 / (m2.compressionModulus * r2)) ∧
    (0 < m1.tensionModulus → 0 < m2.tensionModulus →
      2 / P.knT = 1 / (m1.tensionModulus * r1) + 1 / (m2.tensionModulus * r2)) ∧
    (0 < m1.shearModulus → 0 < m2.shearModulus → 2 / P.ks = 1 / (m1.shearModulus * r1) + 1 / (m2.shearModulus * r2)) ∧
    (0 ≤ m1.sigmaTension → 0 ≤ m2.sigmaTension → ∀ m ∈ [m1, m2], ∀ r ∈ [r1, r2], s.maxElT ≤ m.sigmaTension * r ^ 2) ∧
    (0 ≤ m1.shearCohesion → 0 ≤ m2.shearCohesion → ∀ m ∈ [m1, m2], ∀ r ∈ [r1, r2], s.adh ≤ m.shearCohesion * r ^ 2) ∧
    s.isBroken = false ∧ s.cohBroken = false ∧ s.onT = false ∧ s.onC = false ∧ s.Fs = 0 ∧ s.mB = 0 ∧ s.mTw = 0 := by
  obtain ⟨aR, aT, a1, a2, a3, -, -, -, -, -, b1, b2, -, b4, b5, b6, b7, b8, c1, -, c3, -, -, -⟩ := ip2_ok h
  have key : ∀ x y : ℝ, 0 ≤ x → 0 ≤ y → ∀ z ∈ [x, y], ∀ r ∈ [r1, r2], min x y * (min r1 r2) ^ 2 ≤ z * r ^ 2 := by
    intro x y hx hy z hz r hr
    have hz' : min x y ≤ z := by
      simp only [List.mem_cons, List.not_mem_nil, or_false] at hz
      rcases hz with rfl | rfl
      · exact min_le_left _ _
      · exact min_le_right _ _
    have hr' : min r1 r2 ≤ r := by
      simp only [List.mem_cons, List.not_mem_nil, or_false] at hr
      rcases hr with rfl | rfl
      · exact min_le_left _ _
      · exact min_le_right _ _
    have h0 : 0 ≤ min r1 r2 := le_min h1.le h2.le
    exact mul_le_mul hz' (pow_le_pow_left₀ h0 hr' 2) (pow_nonneg h0 2) (le_trans (le_min hx hy) hz')
  refine ⟨fun p q => harm_series (mul_pos p h1) (mul_pos q h2) a1, fun p q => harm_series (mul_pos p h1) (mul_pos q h2) a2,
    fun p q => harm_series (mul_pos p h1) (mul_pos q h2) a3, fun p q m hm r hr => ?_, fun p q m hm r hr => ?_,
    b1, b2, b4, b5, b6, b7, b8⟩
  · rw [c1, min_comm r2 r1]
    refine key _ _ p q _ ?_ r hr
    simp only [List.mem_cons, List.not_mem_nil, or_false] at hm ⊢
    rcases hm with rfl | rfl
    · exact Or.inl rfl
    · exact Or.inr rfl
  · rw [c3]
    refine key _ _ p q _ ?_ r hr
    simp only [List.mem_cons, List.not_mem_nil, or_false] at hm ⊢
    rcases hm with rfl | rfl
    · exact Or.inl rfl
    · exact Or.inr rfl

/-- A material all of whose attributes are one. -/
def exMat : Mat := ⟨1, 1, 1, 1, 1, 1, 1, 1, 1, 1, 1, 1, 1, 1, 1, 1, 1, 1, 1, 1, 1⟩

/-- The hypotheses of `C315_values` are met by two such bodies. -/
example : ∃ P s, ip2 exMat exMat 1 1 = .ok (P, s) := by
  have h : harm 1 1 = .ok 1 := by unfold harm; norm_num
  unfold ip2
  simp only [exMat, mul_one, h, ok_bind]
  exact ⟨_, _, rfl⟩

/-! ## C316: failure -/

/-- Shear, twist and bending leave what the normal part keeps. -/
theorem go_chain {P : Par} {t u v : St} {i : In} {F : ℝ} (h1 : twist P (shear P t i.g F) i.g i.tw i.fresh = .ok u)
    (h2 : bending P u i.g i.w i.dt = .ok v) :
    v.isBroken = t.isBroken ∧ v.onT = t.onT ∧ v.onC = t.onC ∧ v.unp = t.unp ∧ v.maxElT = t.maxElT ∧ v.maxElC = t.maxElC := by
  have e2 := shear_frame P t i.g F
  have e3 := (twist_frame h1).1
  have e4 := (bending_frame h2).1
  refine ⟨?_, ?_, ?_, ?_, ?_, ?_⟩
  · have a : v.isBroken = u.isBroken := by rw [e4]
    have b : u.isBroken = (shear P t i.g F).isBroken := by rw [e3]
    have c : (shear P t i.g F).isBroken = t.isBroken := by rw [e2]
    rw [a, b, c]
  · have a : v.onT = u.onT := by rw [e4]
    have b : u.onT = (shear P t i.g F).onT := by rw [e3]
    have c : (shear P t i.g F).onT = t.onT := by rw [e2]
    rw [a, b, c]
  · have a : v.onC = u.onC := by rw [e4]
    have b : u.onC = (shear P t i.g F).onC := by rw [e3]
    have c : (shear P t i.g F).onC = t.onC := by rw [e2]
    rw [a, b, c]
  · have a : v.unp = u.unp := by rw [e4]
    have b : u.unp = (shear P t i.g F).unp := by rw [e3]
    have c : (shear P t i.g F).unp = t.unp := by rw [e2]
    rw [a, b, c]
  · have a : v.maxElT = u.maxElT := by rw [e4]
    have b : u.maxElT = (shear P t i.g F).maxElT := by rw [e3]
    have c : (shear P t i.g F).maxElT = t.maxElT := by rw [e2]
    rw [a, b, c]
  · have a : v.maxElC = u.maxElC := by rw [e4]
    have b : u.maxElC = (shear P t i.g F).maxElC := by rw [e3]
    have c : (shear P t i.g F).maxElC = t.maxElC := by rw [e2]
    rw [a, b, c]

theorem NFrame.isBroken {s t : St} (h : NFrame s t) : t.isBroken = s.isBroken := by rw [h.eq]
theorem NFrame.adh {s t : St} (h : NFrame s t) : t.adh = s.adh := by rw [h.eq]
theorem NFrame.mB {s t : St} (h : NFrame s t) : t.mB = s.mB := by rw [h.eq]
theorem NFrame.cohBroken {s t : St} (h : NFrame s t) : t.cohBroken = s.cohBroken := by rw [h.eq]

theorem go_broken {P : Par} {s : St} {i : In} (h : s.isBroken = true) :
    ∃ o, go P s i = .ok o ∧ o.loads = Loads.zero ∧ o.st.isBroken = true ∧ (o.keep = true → 0 < i.g.pd) := by
  obtain ⟨k, hk⟩ : ∃ k, normal P (if i.fresh then { s with Fs := 0 } else s) i.g.pd =
      .ok (.fail k (if i.fresh then { s with Fs := 0 } else s).failed) := by
    have hb : (if i.fresh then { s with Fs := 0 } else s).isBroken = true := by split_ifs <;> exact h
    unfold normal
    split_ifs
    · exact ⟨_, by rw [tension, if_pos (Or.inr (by exact h))]⟩
    · exact ⟨_, by rw [compression, if_pos (Or.inr (by exact h))]⟩
    · exact ⟨_, by rw [tension, if_pos (Or.inr h)]⟩
    · exact ⟨_, by rw [compression, if_pos (Or.inr h)]⟩
  refine ⟨⟨k, (if i.fresh then { s with Fs := 0 } else s).failed, Loads.zero⟩, ?_, rfl, rfl, (normal_fail hk).2⟩
  unfold go
  dsimp only
  rw [hk]
  rfl

/-- **C316 (final).** Whatever happens to a failed contact, it never exerts a load again and nothing undefined happens. -/
theorem C316_final (P : Par) (is : List In) (s : St) (h : s.isBroken = true) :
    ∃ r, run P s is = .ok r ∧ ∀ L ∈ r.2, L = Loads.zero := by
  induction is generalizing s with
  | nil => exact ⟨_, rfl, by simp⟩
  | cons i is ih =>
    obtain ⟨o, ho, hl, hb, -⟩ := go_broken (P := P) (i := i) h
    unfold run
    rw [ho, Res.bind_ok]
    by_cases hk : o.keep = true
    · obtain ⟨r, hr, h'⟩ := ih o.st hb
      rw [if_pos hk, hr, Res.bind_ok]
      refine ⟨_, rfl, ?_⟩
      intro L hL
      rcases List.mem_cons.mp hL with rfl | hL
      · exact hl
      · exact h' L hL
    · rw [if_neg hk]
      refine ⟨_, rfl, ?_⟩
      intro L hL
      rw [List.mem_singleton.mp hL, hl]

/-- **C316 (limits).** A contact stretched beyond its limit fails and is removed; one compressed beyond its limit fails too but is kept
as long as the bodies overlap; both without loads.  Within the limits an unbroken contact does not fail. -/
theorem C316_limits (P : Par) (s : St) (i : In) :
    (0 ≤ P.maxExten → -(i.g.pd - s.unp) > P.maxExten →
      ∃ o, go P s i = .ok o ∧ o.keep = false ∧ o.st.isBroken = true ∧ o.loads = Loads.zero) ∧
    (0 ≤ P.maxContract → i.g.pd - s.unp > P.maxContract →
      ∃ o, go P s i = .ok o ∧ (o.keep = true ↔ 0 < i.g.pd) ∧ o.st.isBroken = true ∧ o.loads = Loads.zero) ∧
    (s.isBroken = false → -P.maxExten ≤ i.g.pd - s.unp → i.g.pd - s.unp ≤ P.maxContract → ∀ o, go P s i = .ok o →
      o.keep = true ∧ o.st.isBroken = false) := by
  have hu : (if i.fresh then { s with Fs := 0 } else s).unp = s.unp := by split_ifs <;> rfl
  have hbr : (if i.fresh then { s with Fs := 0 } else s).isBroken = s.isBroken := by split_ifs <;> rfl
  refine ⟨fun h0 h => ?_, fun h0 h => ?_, fun hb h1 h2 o ho => ?_⟩
  · have hn : normal P (if i.fresh then { s with Fs := 0 } else s) i.g.pd =
        .ok (.fail false (if i.fresh then { s with Fs := 0 } else s).failed) := by
      rw [normal, hu, if_pos (by linarith), tension, if_pos (Or.inl h)]
    refine ⟨⟨false, (if i.fresh then { s with Fs := 0 } else s).failed, Loads.zero⟩, ?_, rfl, rfl, rfl⟩
    unfold go
    dsimp only
    rw [hn]
    rfl
  · have hn : normal P (if i.fresh then { s with Fs := 0 } else s) i.g.pd =
        .ok (.fail (decide (¬ i.g.pd ≤ 0)) (if i.fresh then { s with Fs := 0 } else s).failed) := by
      have : ¬ (i.g.pd - s.unp ≤ 0) := by intro h'; linarith
      rw [normal, hu, if_neg this, compression, if_pos (Or.inl h)]
    refine ⟨⟨decide (¬ i.g.pd ≤ 0), (if i.fresh then { s with Fs := 0 } else s).failed, Loads.zero⟩, ?_, by simp, rfl, rfl⟩
    unfold go
    dsimp only
    rw [hn]
    rfl
  · rcases go_ok ho with ⟨k, t, hn, rfl⟩ | ⟨F, t, u, v, hn, htw, hbe, rfl⟩
    · exfalso
      unfold normal at hn
      rw [hu] at hn
      by_cases h' : i.g.pd - s.unp ≤ 0
      · rw [if_pos h'] at hn
        rcases (tension_fail hn).2.2 with hh | hh
        · linarith
        · rw [hbr, hb] at hh; cases hh
      · rw [if_neg h'] at hn
        rcases (compression_fail hn).2.2 with hh | hh
        · linarith
        · rw [hbr, hb] at hh; cases hh
    · refine ⟨rfl, ?_⟩
      show v.isBroken = false
      rw [(go_chain htw hbe).1, (normal_force hn).1.isBroken, hbr, hb]

/-- Parameters with unit stiffnesses, no creep, elastic unloading and wide limits. -/
noncomputable def exPar : Par :=
  { tan := 0, kn := 0, knC := 1, knT := 1, ks := 1, kr := 1, ktw := 1, kTCrp := 0, kRCrp := 0, kTwCrp := 0, kRUnld := 1, kTUnld := 1,
    kTwUnld := 1, maxElB := 10, maxExten := 10, maxContract := 10, maxBendMom := 20, maxTwist := 10 }

/-- A new contact of unit strengths. -/
noncomputable def exSt : St :=
  { cohBroken := false, isBroken := false, unp := 0, twp := 0, onB := false, onTw := false, onT := false, onC := false, maxElT := 1,
    maxElC := 1, maxElTw := 10, adh := 1, cT := (0, 0), cC := (0, 0), cTw := (0, 0), cB := 0, mTw := 0, mB := 0, creep := 0, kDam := 0,
    Fn := 0, Fs := 0 }

/-- A step: depth, shear increment, twist angle, relative angular velocity. -/
noncomputable def exIn (pd : ℝ) (sh : V3) (tw : ℝ) (w : V3) : In :=
  { g := { normal := ![1, 0, 0], contactPoint := 0, pd := pd, r1 := 1, r2 := 1, twist := 0, ortho := 0, shearInc := sh },
    tw := tw, w := w, dt := 1, fresh := false, x1 := 0, x2 := 0 }

/-- The hypothesis of `C316_final` is met by a contact that failed. -/
example : exSt.failed.isBroken = true := rfl

/-- The hypotheses of `C316_limits` are met: stretched, compressed, and in between. -/
example : -((exIn (-11) 0 0 0).g.pd - exSt.unp) > exPar.maxExten ∧ (exIn 11 0 0 0).g.pd - exSt.unp > exPar.maxContract ∧
    -exPar.maxExten ≤ (exIn 1 0 0 0).g.pd - exSt.unp ∧ (exIn 1 0 0 0).g.pd - exSt.unp ≤ exPar.maxContract := by
  norm_num [exIn, exSt, exPar]

/-! ## C317: elastic range and yielding -/

/-- An unbroken contact that never yielded. -/
structure Elastic (s : St) : Prop where
  broken : s.isBroken = false
  onT : s.onT = false
  onC : s.onC = false
  unp : s.unp = 0

/-- The spring: one stiffness in tension, another in compression. -/
noncomputable def spring (P : Par) (pd : ℝ) : ℝ := if pd ≤ 0 then P.knT * pd else P.knC * pd

/-- The depth is within limits and the spring's force below the strengths. -/
def Within (P : Par) (s : St) (pd : ℝ) : Prop :=
  -P.maxExten ≤ pd ∧ pd ≤ P.maxContract ∧ -s.maxElT ≤ spring P pd ∧ spring P pd ≤ s.maxElC

theorem normal_elastic {P : Par} {s : St} {pd : ℝ} (hs : Elastic s) (hw : Within P s pd) :
    ∃ t, normal P s pd = .ok (.force (spring P pd) t) ∧ Elastic t ∧ t.maxElT = s.maxElT ∧ t.maxElC = s.maxElC := by
  obtain ⟨w1, w2, w3, w4⟩ := hw
  unfold normal
  rw [hs.unp, sub_zero]
  by_cases h : pd ≤ 0
  · rw [if_pos h, tension]
    rw [spring, if_pos h] at w3 ⊢
    have h1 : ¬ (-pd > P.maxExten ∨ s.isBroken = true) := by
      rw [hs.broken]; rintro (h' | h')
      · linarith
      · cases h'
    have h2 : ¬ (-(P.knT * pd) > s.maxElT ∨ s.onT = true) := by
      rw [hs.onT]; rintro (h' | h')
      · linarith
      · cases h'
    rw [if_neg h1, if_neg h2]
    exact ⟨_, rfl, ⟨hs.broken, hs.onT, hs.onC, hs.unp⟩, rfl, rfl⟩
  · rw [if_neg h, compression]
    rw [spring, if_neg h] at w4 ⊢
    have h1 : ¬ (pd > P.maxContract ∨ s.isBroken = true) := by
      rw [hs.broken]; rintro (h' | h')
      · linarith
      · cases h'
    have h2 : ¬ (P.knC * pd > s.maxElC ∨ s.onC = true) := by
      rw [hs.onC]; rintro (h' | h')
      · linarith
      · cases h'
    rw [if_neg h1, if_neg h2]
    exact ⟨_, rfl, ⟨hs.broken, hs.onT, hs.onC, hs.unp⟩, rfl, rfl⟩

theorem go_elastic {P : Par} {s : St} {i : In} {o : Out} (hs : Elastic s) (hw : Within P s i.g.pd)
    (h : go P s i = .ok o) :
    o.keep = true ∧ o.st.Fn = (-spring P i.g.pd) • i.g.normal ∧ Elastic o.st ∧ o.st.maxElT = s.maxElT ∧ o.st.maxElC = s.maxElC := by
  have hs0 : Elastic (if i.fresh then { s with Fs := 0 } else s) := by
    split_ifs
    · exact ⟨hs.broken, hs.onT, hs.onC, hs.unp⟩
    · exact hs
  have e0 : (if i.fresh then { s with Fs := 0 } else s).maxElT = s.maxElT ∧
      (if i.fresh then { s with Fs := 0 } else s).maxElC = s.maxElC := by
    split_ifs <;> exact ⟨rfl, rfl⟩
  obtain ⟨t', hn', ht, m1, m2⟩ := normal_elastic hs0 (pd := i.g.pd) (by unfold Within; rw [e0.1, e0.2]; exact hw)
  rcases go_ok h with ⟨k, t, hn, rfl⟩ | ⟨F, t, u, v, hn, htw, hbe, rfl⟩
  · rw [hn'] at hn; cases hn
  · rw [hn'] at hn
    cases hn
    obtain ⟨c1, c2, c3, c4, c5, c6⟩ := go_chain htw hbe
    rw [e0.1] at m1
    rw [e0.2] at m2
    exact ⟨rfl, rfl, ⟨c1.trans ht.broken, c2.trans ht.onT, c3.trans ht.onC, c4.trans ht.unp⟩, c5.trans m1, c6.trans m2⟩

/-- **C317 (reversible).** As long as the depth stays within the elastic range, whatever the order of depths and whatever shear, twist
and bending, the contact is kept and its normal force is the spring's at the last depth. -/
theorem C317_elastic_partial (P : Par) (is : List In) (i : In) (s : St) (hs : Elastic s)
    (hw : ∀ j ∈ is ++ [i], Within P s j.g.pd) (r : Option St × List Loads) (h : run P s (is ++ [i]) = .ok r) :
    ∃ t, r.1 = some t ∧ Elastic t ∧ t.Fn = (-spring P i.g.pd) • i.g.normal := by
  induction is generalizing s r with
  | nil =>
    simp only [List.nil_append] at h hw
    unfold run at h
    obtain ⟨o, ho, h⟩ := bind_ok_inv h
    obtain ⟨h1, h2, h3, -, -⟩ := go_elastic hs (hw i (by simp)) ho
    rw [if_pos h1] at h
    unfold run at h
    cases h
    exact ⟨o.st, rfl, h3, h2⟩
  | cons j is ih =>
    rw [List.cons_append] at h hw
    unfold run at h
    obtain ⟨o, ho, h⟩ := bind_ok_inv h
    obtain ⟨h1, -, h3, m1, m2⟩ := go_elastic hs (hw j (by simp)) ho
    rw [if_pos h1] at h
    obtain ⟨r', hr', h⟩ := bind_ok_inv h
    cases h
    refine ih o.st h3 (fun k hk => ?_) r' hr'
    have := hw k (List.mem_cons_of_mem _ hk)
    unfold Within at this ⊢
    rw [m1, m2]; exact this

/-- **C317 (yield).** A contact that is stretched or compressed for the first time beyond the elastic range bears its strength and, beyond
the depth at which that is reached, the creep stiffness times the further depth. -/
theorem C317_yield (P : Par) (s : St) (pd : ℝ) (hs : Elastic s) :
    (0 < P.knT → pd ≤ 0 → -P.maxExten ≤ pd → P.knT * pd < -s.maxElT → pd ≤ s.cT.1 →
      -s.maxElT + P.kTCrp * (pd - (-s.maxElT) / P.knT) ≤ 0 →
      ∃ t, normal P s pd = .ok (.force (-s.maxElT + P.kTCrp * (pd - (-s.maxElT) / P.knT)) t) ∧ t.onT = true ∧ t.unp = 0) ∧
    (0 < P.knC → 0 < pd → pd ≤ P.maxContract → s.maxElC < P.knC * pd → s.cC.1 ≤ pd →
      0 ≤ s.maxElC + P.kTCrp * (pd - s.maxElC / P.knC) →
      ∃ t, normal P s pd = .ok (.force (s.maxElC + P.kTCrp * (pd - s.maxElC / P.knC)) t) ∧ t.onC = true ∧ t.unp = 0) := by
  constructor
  · intro hk h0 h1 h2 h3 h4
    unfold normal
    rw [hs.unp, sub_zero, if_pos h0, tension]
    have a1 : ¬ (-pd > P.maxExten ∨ s.isBroken = true) := by
      rw [hs.broken]; rintro (h' | h')
      · linarith
      · cases h'
    have a2 : -(P.knT * pd) > s.maxElT ∨ s.onT = true := Or.inl (by linarith)
    rw [if_neg a1, if_pos a2]
    dsimp only
    rw [if_neg (not_lt.mpr h3), if_neg hk.ne', Res.bind_ok]
    have e : -s.maxElT + P.kTCrp * (pd + s.maxElT / P.knT) = -s.maxElT + P.kTCrp * (pd - (-s.maxElT) / P.knT) := by
      rw [neg_div, sub_neg_eq_add]
    dsimp only
    rw [e, if_neg (not_lt.mpr h4)]
    exact ⟨_, rfl, rfl, hs.unp⟩
  · intro hk h0 h1 h2 h3 h4
    unfold normal
    rw [hs.unp, sub_zero, if_neg (not_le.mpr h0), compression]
    have a1 : ¬ (pd > P.maxContract ∨ s.isBroken = true) := by
      rw [hs.broken]; rintro (h' | h')
      · linarith
      · cases h'
    rw [if_neg a1, if_pos (Or.inl h2)]
    dsimp only
    rw [if_neg (not_lt.mpr h3), if_neg hk.ne', Res.bind_ok]
    dsimp only
    rw [if_neg (not_lt.mpr h4)]
    exact ⟨_, rfl, rfl, hs.unp⟩

/-- The hypotheses of `C317_elastic_partial` are met by a contact stretched and then compressed. -/
example : Elastic exSt ∧ ∀ j ∈ [exIn (-1 / 2) 0 0 0] ++ [exIn (1 / 2) 0 0 0], Within exPar exSt j.g.pd := by
  refine ⟨⟨rfl, rfl, rfl, rfl⟩, ?_⟩
  intro j hj
  simp only [List.mem_append, List.mem_singleton] at hj
  rcases hj with rfl | rfl <;> unfold Within spring <;> norm_num [exPar, exSt, exIn]

/-- The hypotheses of `C317_yield` are met by stretching and by compressing by two. -/
example : exPar.knT * (-2) < -exSt.maxElT ∧ (-2 : ℝ) ≤ exSt.cT.1 ∧ exSt.maxElC < exPar.knC * 2 ∧ exSt.cC.1 ≤ 2 := by
  norm_num [exPar, exSt]

theorem norm3_zero' : norm3 (0 : V3) = 0 := by
  rw [norm3, sqNorm_eq_zero.mpr rfl, Real.sqrt_zero]

theorem rotate_zero (g : ScGeom) : g.rotate 0 = 0 := by
  apply v3_ext <;> simp [ScGeom.rotate]

/-- A step without shear, twist or bending on a contact without any. -/
theorem go_quiet {s t : St} {pd F : ℝ} (hn : normal exPar s pd = .ok (.force F t)) (h1 : t.Fs = 0) (h2 : t.mB = 0) (h3 : t.creep = 0)
    (h4 : t.mTw = 0) (h5 : t.twp = 0) (h6 : t.onTw = false) (h7 : t.onB = false) (h8 : t.maxElTw = 10) (h9 : t.cohBroken = false) :
    ∃ L, go exPar s (exIn pd 0 0 0) = .ok ⟨true, { t with Fn := (-F) • ![1, 0, 0], cTw := (0, 0), kDam := 0, cB := 0 }, L⟩ := by
  have es : shear exPar t (exIn pd 0 0 0).g F = t := by
    unfold shear
    have e : (exIn pd 0 0 0).g.rotate t.Fs + exPar.ks • (exIn pd 0 0 0).g.shearInc = 0 := by
      rw [h1, rotate_zero]; simp [exIn]
    dsimp only
    rw [e, norm3_zero', if_neg (not_lt.mpr (le_max_left _ _)), ← h1]
  have et : twist exPar t (exIn pd 0 0 0).g 0 false = .ok { t with cTw := (0, 0) } := by
    unfold twist
    rw [if_pos h9]
    dsimp only
    have e : (0 : ℝ) - t.twp = 0 := by rw [h5, sub_zero]
    rw [e, if_neg (by norm_num [exPar]), if_neg (by rw [h8, h6]; norm_num)]
    rw [zero_mul, zero_smul, ← h4]
  have eb : bending exPar { t with cTw := (0, 0) } (exIn pd 0 0 0).g 0 1 =
      .ok { t with cTw := (0, 0), kDam := 0, cB := 0 } := by
    unfold bending
    dsimp only
    rw [if_pos h9, h2, h3, rotate_zero]
    have e : (0 : V3) - exPar.kr • (1 : ℝ) • ((0 : V3) - dot (exIn pd 0 0 0).g.normal 0 • (exIn pd 0 0 0).g.normal) = 0 := by
      simp [dot]
    rw [e, norm3_zero', h7, if_neg (by norm_num [exPar])]
    rw [show exPar.kRCrp = 0 from rfl]
  refine ⟨loadsOf (exIn pd 0 0 0) ((-F) • ![1, 0, 0] + t.Fs) (t.mB + t.mTw), ?_⟩
  unfold go
  dsimp only
  have ef : (if (exIn pd 0 0 0).fresh then { s with Fs := 0 } else s) = s := by simp [exIn]
  rw [ef]
  have ep : (exIn pd 0 0 0).g.pd = pd := rfl
  rw [ep, hn, Res.bind_ok]
  dsimp only
  rw [es, show (exIn pd 0 0 0).tw = 0 from rfl, show (exIn pd 0 0 0).fresh = false from rfl, et, Res.bind_ok,
    show (exIn pd 0 0 0).w = 0 from rfl, show (exIn pd 0 0 0).dt = 1 from rfl, eb, Res.bind_ok]
  rfl

/-- A contact that yielded in tension. -/
noncomputable def exYield (cT cC : ℝ × ℝ) (unp mT : ℝ) (Fn : V3) : St :=
  { exSt with onT := true, onC := true, cT := cT, cC := cC, unp := unp, maxElT := mT, Fn := Fn }

/-- **C317 (violated).** A contact stretched beyond its strength and then let go: when the force comes back through zero, two depths that
differ by as little as wanted give a force as small as wanted and the full strength in compression. -/
theorem C317_violated (δ : ℝ) (h0 : 0 < δ) (h1 : δ < 1 / 2) :
    ∃ o1 o2 o3, go exPar exSt (exIn (-2) 0 0 0) = .ok o1 ∧ go exPar o1.st (exIn (-1 + δ) 0 0 0) = .ok o2 ∧
      go exPar o2.st (exIn (-1 + 2 * δ) 0 0 0) = .ok o3 ∧ o2.st.Fn = (-δ) • ![1, 0, 0] ∧ o3.st.Fn = (-1 : ℝ) • ![1, 0, 0] := by
  have n1 : normal exPar exSt (-2) = .ok (.force (-1) (exYield (-2, -1) (0, 0) 0 1 0)) := by
    norm_num [normal, tension, exPar, exSt, exYield, Res.bind]
  obtain ⟨L1, g1⟩ := go_quiet n1 rfl rfl rfl rfl rfl rfl rfl rfl rfl
  have n2 : normal exPar (exYield (-2, -1) (0, 0) 0 1 ((-(-1) : ℝ) • ![1, 0, 0])) (-1 + δ) =
      .ok (.force δ (exYield (10 ^ 20, -1) (0, 0) (-1 + δ) 0 ((-(-1) : ℝ) • ![1, 0, 0]))) := by
    have a1 : -1 + δ - 0 ≤ 0 := by linarith
    have a2 : ¬ (-(-1 + δ - 0) > (10 : ℝ) ∨ false = true) := by
      rintro (h | h)
      · linarith
      · cases h
    have a3 : (-2 : ℝ) < -1 + δ - 0 := by linarith
    have a4 : (1 : ℝ) * (-1 + δ - 0 - -2) + -1 = δ := by ring
    simp only [normal, tension, exPar, exSt, exYield]
    rw [if_pos a1, if_neg a2, if_pos (Or.inr trivial)]
    simp only [a3, ↓reduceIte, Res.bind_ok, a4]
    rw [if_pos h0]
  obtain ⟨L2, g2⟩ := go_quiet n2 rfl rfl rfl rfl rfl rfl rfl rfl rfl
  have n3 : normal exPar (exYield (10 ^ 20, -1) (0, 0) (-1 + δ) 0 ((-δ : ℝ) • ![1, 0, 0])) (-1 + 2 * δ) =
      .ok (.force 1 (exYield (10 ^ 20, -1) (δ, 1) (-1 + δ) 0 ((-δ : ℝ) • ![1, 0, 0]))) := by
    have a0 : -1 + 2 * δ - (-1 + δ) = δ := by ring
    have a2 : ¬ (δ > (10 : ℝ) ∨ false = true) := by
      rintro (h | h)
      · linarith
      · cases h
    have a4 : (1 : ℝ) + 0 * (δ - 1 / 1) = 1 := by ring
    simp only [normal, compression, exPar, exSt, exYield, a0]
    rw [if_neg (not_le.mpr h0), if_neg a2, if_pos (Or.inr trivial), if_neg (not_lt.mpr h0.le), if_neg one_ne_zero, Res.bind_ok]
    simp only [a4]
    rw [if_neg (by norm_num)]
  obtain ⟨L3, g3⟩ := go_quiet n3 rfl rfl rfl rfl rfl rfl rfl rfl rfl
  exact ⟨⟨true, exYield (-2, -1) (0, 0) 0 1 ((-(-1) : ℝ) • ![1, 0, 0]), L1⟩,
    ⟨true, exYield (10 ^ 20, -1) (0, 0) (-1 + δ) 0 ((-δ : ℝ) • ![1, 0, 0]), L2⟩,
    ⟨true, exYield (10 ^ 20, -1) (δ, 1) (-1 + δ) 0 ((-1 : ℝ) • ![1, 0, 0]), L3⟩, g1, g2, g3, rfl, rfl⟩

/-- The hypotheses of `C317_violated` are met. -/
example : (0 : ℝ) < 1 / 1000 ∧ (1 / 1000 : ℝ) < 1 / 2 := by norm_num

/-! ## C318: shear -/

theorem norm3_scale (a : ℝ) (v : V3) : norm3 (a • v) = |a| * norm3 v := by
  have h : sqNorm (a • v) = a ^ 2 * sqNorm v := by
    simp only [sqNorm, dot, Pi.smul_apply, smul_eq_mul]; ring
  rw [norm3, norm3, h, Real.sqrt_mul (sq_nonneg a), Real.sqrt_sq_eq_abs]

theorem norm3_smul_div' {m : ℝ} {F : V3} (hm : 0 ≤ m) (hF : 0 < norm3 F) : norm3 ((m / norm3 F) • F) = m := by
  rw [norm3_scale, abs_of_nonneg (div_nonneg hm hF.le), div_mul_cancel₀ _ hF.ne']

theorem shear_limit (P : Par) (s : St) (g : ScGeom) (F : ℝ) :
    norm3 (shear P s g F).Fs ≤ max 0 (F * P.tan) ∨ (s.adh ≠ 0 ∧ (shear P s g F).adh = s.adh ∧ norm3 (shear P s g F).Fs ≤ max 0 s.adh) := by
  unfold shear
  dsimp only
  by_cases h : norm3 (g.rotate s.Fs + P.ks • g.shearInc) > max 0 (if s.adh = 0 then F * P.tan else s.adh)
  · have hp : 0 < norm3 (g.rotate s.Fs + P.ks • g.shearInc) := lt_of_le_of_lt (le_max_left _ _) h
    rw [if_pos h]
    by_cases hc : s.cohBroken = false
    · rw [if_pos hc]
      exact Or.inl (norm3_smul_div' (le_max_left _ _) hp).le
    · rw [if_neg hc]
      by_cases ha : s.adh = 0
      · rw [if_pos ha]
        exact Or.inl (norm3_smul_div' (le_max_left _ _) hp).le
      · rw [if_neg ha]
        exact Or.inr ⟨ha, rfl, (norm3_smul_div' (le_max_left _ _) hp).le⟩
  · rw [if_neg h]
    by_cases ha : s.adh = 0
    · rw [if_pos ha] at h
      exact Or.inl (not_lt.mp h)
    · rw [if_neg ha] at h
      exact Or.inr ⟨ha, rfl, not_lt.mp h⟩

theorem shear_adh (P : Par) (s : St) (g : ScGeom) (F : ℝ) (h : s.adh = 0) : (shear P s g F).adh = 0 := by
  unfold shear
  dsimp only
  split_ifs
  · rfl
  · exact h
  · exact h

theorem go_shear {P : Par} {s : St} {i : In} {o : Out} (h : go P s i = .ok o) (hb : o.st.isBroken = false) :
    (s.adh = 0 → o.st.adh = 0) ∧ ∃ F : ℝ, o.st.Fn = (-F) • i.g.normal ∧
      (norm3 o.st.Fs ≤ max 0 (F * P.tan) ∨ (s.adh ≠ 0 ∧ o.st.adh = s.adh ∧ norm3 o.st.Fs ≤ max 0 s.adh)) := by
  rcases go_ok h with ⟨k, t, hn, rfl⟩ | ⟨F, t, u, v, hn, htw, hbe, rfl⟩
  · rw [show t = _ from (normal_fail hn).1] at hb
    cases hb
  · have ea : t.adh = s.adh := by
      rw [(normal_force hn).1.adh]; split_ifs <;> rfl
    have a : v.Fs = (shear P t i.g F).Fs := by
      have e3 := (twist_frame htw).1
      have e4 := (bending_frame hbe).1
      have a : v.Fs = u.Fs := by rw [e4]
      have b : u.Fs = (shear P t i.g F).Fs := by rw [e3]
      rw [a, b]
    have c : v.adh = (shear P t i.g F).adh := by
      have e3 := (twist_frame htw).1
      have e4 := (bending_frame hbe).1
      have a : v.adh = u.adh := by rw [e4]
      have b : u.adh = (shear P t i.g F).adh := by rw [e3]
      rw [a, b]
    refine ⟨fun h0 => ?_, F, rfl, ?_⟩
    · show v.adh = 0
      rw [c]; exact shear_adh _ _ _ _ (ea.trans h0)
    · show norm3 v.Fs ≤ _ ∨ _ ∧ v.adh = _ ∧ norm3 v.Fs ≤ _
      rw [a, c, ← ea]
      exact shear_limit P t i.g F

/-- **C318 (limit).** In every step of an unfailed contact the shear force is at most the friction, or at most the adhesion while that lasts. -/
theorem C318_limit_partial (P : Par) (s : St) (i : In) (o : Out) (h : go P s i = .ok o) (hb : o.st.isBroken = false) :
    ∃ F : ℝ, o.st.Fn = (-F) • i.g.normal ∧
      (norm3 o.st.Fs ≤ max 0 (F * P.tan) ∨ (o.st.adh ≠ 0 ∧ norm3 o.st.Fs ≤ max 0 o.st.adh)) := by
  obtain ⟨-, F, h1, h2⟩ := go_shear h hb
  refine ⟨F, h1, ?_⟩
  rcases h2 with h2 | ⟨a, b, c⟩
  · exact Or.inl h2
  · exact Or.inr ⟨by rw [b]; exact a, by rw [b]; exact c⟩

theorem run_snoc {P : Par} {is : List In} {i : In} {s t : St} {Ls : List Loads} (h : run P s (is ++ [i]) = .ok (some t, Ls)) :
    ∃ u Ls' o, run P s is = .ok (some u, Ls') ∧ go P u i = .ok o ∧ o.st = t ∧ o.keep = true := by
  induction is generalizing s Ls with
  | nil =>
    rw [List.nil_append] at h
    unfold run at h
    obtain ⟨o, ho, h⟩ := bind_ok_inv h
    by_cases hk : o.keep = true
    · rw [if_pos hk] at h
      unfold run at h
      cases h
      exact ⟨s, [], o, rfl, ho, rfl, hk⟩
    · rw [if_neg hk] at h; cases h
  | cons j is ih =>
    rw [List.cons_append] at h
    unfold run at h
    obtain ⟨o, ho, h⟩ := bind_ok_inv h
    by_cases hk : o.keep = true
    · rw [if_pos hk] at h
      obtain ⟨r, hr, h⟩ := bind_ok_inv h
      obtain ⟨r1, r2⟩ := r
      cases h
      obtain ⟨u, Ls', o', h1, h2, h3, h4⟩ := ih hr
      refine ⟨u, o.loads :: Ls', o', ?_, h2, h3, h4⟩
      unfold run
      rw [ho, Res.bind_ok, if_pos hk, h1, Res.bind_ok]
    · rw [if_neg hk] at h; cases h

/-- What each step keeps holds after any number of them. -/
theorem run_inv {P : Par} (I : St → Prop) (hI : ∀ s i o, I s → go P s i = .ok o → I o.st) (is : List In) (s t : St) (Ls : List Loads)
    (hs : I s) (h : run P s is = .ok (some t, Ls)) : I t := by
  induction is generalizing s Ls with
  | nil => unfold run at h; cases h; exact hs
  | cons j is ih =>
    unfold run at h
    obtain ⟨o, ho, h⟩ := bind_ok_inv h
    by_cases hk : o.keep = true
    · rw [if_pos hk] at h
      obtain ⟨r, hr, h⟩ := bind_ok_inv h
      obtain ⟨r1, r2⟩ := r
      cases h
      exact ih o.st r2 (hI s j o hs ho) hr
    · rw [if_neg hk] at h; cases h

/-- **C318 (friction).** Once the adhesion is gone it never comes back: after any number of further steps the shear force is at most the
friction under the last normal force, and nothing in tension. -/
theorem C318_friction (P : Par) (is : List In) (i : In) (s t : St) (Ls : List Loads) (h0 : s.adh = 0)
    (h : run P s (is ++ [i]) = .ok (some t, Ls)) :
    t.isBroken = true ∨ ∃ F : ℝ, t.Fn = (-F) • i.g.normal ∧ norm3 t.Fs ≤ max 0 (F * P.tan) := by
  obtain ⟨u, Ls', o, h1, h2, rfl, -⟩ := run_snoc h
  have hu : u.adh = 0 := by
    refine run_inv (fun s => s.adh = 0) (fun s i o hs ho => ?_) is s u Ls' h0 h1
    rcases go_ok ho with ⟨k, t, hn, rfl⟩ | ⟨F, t, u, v, hn, htw, hbe, rfl⟩
    · show t.adh = 0
      rw [(normal_fail hn).1]
      show (if i.fresh then { s with Fs := 0 } else s).adh = 0
      split_ifs <;> exact hs
    · refine (go_shear ho ?_).1 hs
      show v.isBroken = false
      rw [(go_chain htw hbe).1, (normal_force hn).1.isBroken]
      exact (normal_force hn).2
  by_cases hb : o.st.isBroken = true
  · exact Or.inl hb
  · obtain ⟨-, F, e1, e2⟩ := go_shear h2 (by simpa using hb)
    refine Or.inr ⟨F, e1, ?_⟩
    rcases e2 with e2 | ⟨a, -, -⟩
    · exact e2
    · exact absurd hu a

theorem norm3_axis (a : ℝ) : norm3 (![0, a, 0] : V3) = |a| := by
  rw [norm3, ← Real.sqrt_sq_eq_abs]; congr 1; simp [sqNorm, dot]; ring

theorem normal_rest (s : St) (h1 : s.isBroken = false) (h2 : s.onT = false) (h3 : s.unp = 0) (h4 : s.maxElT = 1) (h5 : s.cT = (0, 0)) :
    normal exPar s 0 = .ok (.force 0 s) := by
  unfold normal
  rw [h3, sub_zero, if_pos le_rfl, tension, if_neg (by rw [h1]; norm_num [exPar]), if_neg (by rw [h2, h4]; norm_num [exPar]), mul_zero, ← h5]

theorem shear_rest (s : St) (f : ℝ) (tw : ℝ) (w : V3) (h1 : s.Fs = 0) (h2 : s.adh = 1) (hf : |f| ≤ 1) :
    shear exPar s (exIn 0 ![0, f, 0] tw w).g 0 = { s with Fs := ![0, f, 0] } := by
  have e : (exIn 0 ![0, f, 0] tw w).g.rotate s.Fs + exPar.ks • (exIn 0 ![0, f, 0] tw w).g.shearInc = ![0, f, 0] := by
    rw [h1, rotate_zero, zero_add]; exact one_smul _ _
  unfold shear
  dsimp only
  rw [e, norm3_axis, h2, if_neg one_ne_zero, max_eq_right zero_le_one, if_neg (not_lt.mpr hf)]

theorem go_eq {P : Par} {s t u v : St} {i : In} {F : ℝ} (hf : i.fresh = false) (hn : normal P s i.g.pd = .ok (.force F t))
    (ht : twist P (shear P t i.g F) i.g i.tw false = .ok u) (hb : bending P u i.g i.w i.dt = .ok v) :
    go P s i = .ok ⟨true, { v with Fn := (-F) • i.g.normal }, loadsOf i ((-F) • i.g.normal + v.Fs) (v.mB + v.mTw)⟩ := by
  unfold go
  rw [hf]
  dsimp only
  rw [if_neg (by simp), hn, Res.bind_ok]
  dsimp only
  rw [ht, Res.bind_ok, hb, Res.bind_ok]

/-- A contact with given shear force, normal force and cohesion. -/
noncomputable def exCut (c : Bool) (Fs Fn : V3) : St := { exSt with cohBroken := c, Fs := Fs, Fn := Fn }

/-- **C318 (violated).** A contact whose cohesion was broken by twist keeps its adhesion in shear: without friction and normal force it
bears a shear force. -/
theorem C318_violated : ∃ o1 o2, go exPar exSt (exIn 0 ![0, 0, 0] 11 0) = .ok o1 ∧ o1.st.cohBroken = true ∧
    go exPar o1.st (exIn 0 ![0, 1, 0] 11 0) = .ok o2 ∧ o2.st.isBroken = false ∧ o2.st.Fn = 0 ∧ exPar.tan = 0 ∧
      o2.st.Fs = ![0, 1, 0] := by
  have z : (![0, 0, 0] : V3) = 0 := by apply v3_ext <;> rfl
  have t1 : twist exPar (exCut false ![0, 0, 0] 0) (exIn 0 ![0, 0, 0] 11 0).g 11 false = .ok (exCut true ![0, 0, 0] 0) := by
    unfold twist
    have h : (exCut false ![0, 0, 0] 0).cohBroken = false := rfl
    have h' : |11 - (exCut false ![0, 0, 0] 0).twp| > exPar.maxTwist := by norm_num [exCut, exSt, exPar]
    rw [if_pos h]
    dsimp only
    rw [if_pos h', zero_smul]
    rfl
  have t2 : twist exPar (exCut true ![0, 1, 0] ((-0 : ℝ) • ![1, 0, 0])) (exIn 0 ![0, 1, 0] 11 0).g 11 false =
      .ok (exCut true ![0, 1, 0] ((-0 : ℝ) • ![1, 0, 0])) := by
    unfold twist
    rw [if_neg (by simp [exCut])]
    rfl
  have b1 : ∀ (F N w : V3) (g : ScGeom) (dt : ℝ), bending exPar (exCut true F N) g w dt = .ok (exCut true F N) := by
    intro F N w g dt
    unfold bending
    rw [if_neg (by simp [exCut])]
  have e1 : shear exPar exSt (exIn 0 ![0, 0, 0] 11 0).g 0 = exCut false ![0, 0, 0] 0 := shear_rest exSt 0 11 0 rfl rfl (by norm_num)
  have e2 : shear exPar (exCut true ![0, 0, 0] ((-0 : ℝ) • ![1, 0, 0])) (exIn 0 ![0, 1, 0] 11 0).g 0 =
      exCut true ![0, 1, 0] ((-0 : ℝ) • ![1, 0, 0]) := shear_rest _ 1 11 0 z rfl (by norm_num)
  have g1 := go_eq (P := exPar) (s := exSt) (t := exSt) (i := exIn 0 ![0, 0, 0] 11 0) rfl (normal_rest exSt rfl rfl rfl rfl rfl)
    ((congrArg (fun x => twist exPar x _ 11 false) e1).trans t1) (b1 _ _ _ _ _)
  have g2 := go_eq (P := exPar) (s := exCut true ![0, 0, 0] ((-0 : ℝ) • ![1, 0, 0])) (t := exCut true ![0, 0, 0] ((-0 : ℝ) • ![1, 0, 0]))
    (i := exIn 0 ![0, 1, 0] 11 0) rfl (normal_rest _ rfl rfl rfl rfl rfl)
    ((congrArg (fun x => twist exPar x _ 11 false) e2).trans t2) (b1 _ _ _ _ _)
  exact ⟨_, _, g1, rfl, g2, rfl, by show (-0 : ℝ) • ![1, 0, 0] = 0; rw [neg_zero, zero_smul], rfl, rfl⟩

/-- **C318 (violated: jump).** A shear force that breaks the adhesion under a large normal force is not reduced but raised to the
friction. -/
theorem C318_violated_jump (P : Par) (s : St) (g : ScGeom) (F : ℝ) (h0 : s.cohBroken = false) (h1 : 0 < s.adh)
    (h2 : s.adh < norm3 (g.rotate s.Fs + P.ks • g.shearInc)) (h3 : norm3 (g.rotate s.Fs + P.ks • g.shearInc) < F * P.tan) :
    norm3 (shear P s g F).Fs = F * P.tan ∧ norm3 (g.rotate s.Fs + P.ks • g.shearInc) < norm3 (shear P s g F).Fs := by
  have hp : 0 < norm3 (g.rotate s.Fs + P.ks • g.shearInc) := h1.trans h2
  have e : norm3 (shear P s g F).Fs = F * P.tan := by
    unfold shear
    dsimp only
    rw [if_neg h1.ne', max_eq_right h1.le, if_pos h2, if_pos h0]
    dsimp only
    rw [norm3_smul_div' (le_max_left _ _) hp, max_eq_right (hp.trans h3).le]
  exact ⟨e, by rw [e]; exact h3⟩

/-- The hypotheses of `C318_violated_jump` are met: strength one, trial force two, friction three. -/
example : 0 < exSt.adh ∧ exSt.adh < norm3 ((exIn 3 ![0, 2, 0] 0 0).g.rotate exSt.Fs + { exPar with tan := 1 }.ks • (exIn 3 ![0, 2, 0] 0 0).g.shearInc) ∧
    norm3 ((exIn 3 ![0, 2, 0] 0 0).g.rotate exSt.Fs + { exPar with tan := 1 }.ks • (exIn 3 ![0, 2, 0] 0 0).g.shearInc) < 3 * { exPar with tan := 1 }.tan := by
  have e : (exIn 3 ![0, 2, 0] 0 0).g.rotate exSt.Fs + { exPar with tan := 1 }.ks • (exIn 3 ![0, 2, 0] 0 0).g.shearInc = ![0, 2, 0] := by
    rw [show exSt.Fs = 0 from rfl, rotate_zero, zero_add]
    exact one_smul _ _
  rw [e, norm3_axis]
  norm_num [exSt]

/-! ## C319: moments -/

theorem go_coh {P : Par} {s : St} {i : In} {o : Out} (hc : s.cohBroken = true) (h : go P s i = .ok o) :
    o.st.cohBroken = true ∧ o.st.mTw = 0 ∧ (o.st.isBroken = false → o.st.mB = s.mB) := by
  have h0 : (if i.fresh then { s with Fs := 0 } else s).cohBroken = true := by split_ifs <;> exact hc
  have h1 : (if i.fresh then { s with Fs := 0 } else s).mB = s.mB := by split_ifs <;> rfl
  rcases go_ok h with ⟨k, t, hn, rfl⟩ | ⟨F, t, u, v, hn, htw, hbe, rfl⟩
  · have e := (normal_fail hn).1
    subst e
    exact ⟨h0, rfl, fun hb => by cases hb⟩
  · have ht : t.cohBroken = true := (normal_force hn).1.cohBroken.trans h0
    have hs : (shear P t i.g F).cohBroken = true := by
      unfold shear
      dsimp only
      split_ifs <;> first | rfl | exact ht
    obtain ⟨hu, hm⟩ := (twist_frame htw).2 hs
    have hv := (bending_frame hbe).2 hu
    subst hv
    refine ⟨hu, hm, fun _ => ?_⟩
    show v.mB = s.mB
    have b : v.mB = (shear P t i.g F).mB := by rw [(twist_frame htw).1]
    have c : (shear P t i.g F).mB = t.mB := by rw [shear_frame P t i.g F]
    rw [b, c, (normal_force hn).1.mB, h1]

/-- **C319 (twist).** Once cohesion is broken there is no twisting moment after any number of further steps. -/
theorem C319_twist_partial (P : Par) (is : List In) (i : In) (s t : St) (Ls : List Loads) (hc : s.cohBroken = true)
    (h : run P s (is ++ [i]) = .ok (some t, Ls)) : t.cohBroken = true ∧ t.mTw = 0 := by
  obtain ⟨u, Ls', o, h1, h2, rfl, -⟩ := run_snoc h
  have hu := run_inv (fun s => s.cohBroken = true) (fun s i o hs ho => (go_coh hs ho).1) is s u Ls' hc h1
  exact ⟨(go_coh hu h2).1, (go_coh hu h2).2.1⟩

/-- **C319 (limit of bending).** The step in which the creeping bending moment passes its limit ends with no bending moment and broken
cohesion. -/
theorem C319_bending (P : Par) (s : St) (g : ScGeom) (w : V3) (dt : ℝ) (u : St) (h : bending P s g w dt = .ok u)
    (h0 : s.cohBroken = false) (h1 : u.cohBroken = true) : u.mB = 0 ∧ P.maxBendMom < norm3 u.creep := by
  unfold bending at h
  rw [if_pos h0] at h
  dsimp only at h
  split_ifs at h <;> cases h <;> first | exact ⟨rfl, by assumption⟩ | exact absurd (h0.symm.trans h1) (by simp)

/-- **C319 (violated).** The bending moment of a contact whose cohesion was broken by shear stays as it was, however the bodies rotate and
for any number of steps, until the contact fails. -/
theorem C319_violated (P : Par) (is : List In) (s t : St) (Ls : List Loads) (hc : s.cohBroken = true)
    (h : run P s is = .ok (some t, Ls)) : t.isBroken = true ∨ t.mB = s.mB := by
  refine (run_inv (fun t => t.cohBroken = true ∧ (t.isBroken = true ∨ t.mB = s.mB)) (fun a i o ha ho => ?_) is s t Ls ⟨hc, Or.inr rfl⟩ h).2
  refine ⟨(go_coh ha.1 ho).1, ?_⟩
  by_cases hb : o.st.isBroken = true
  · exact Or.inl hb
  · have e := (go_coh ha.1 ho).2.2 (by simpa using hb)
    rcases ha.2 with h' | h'
    · obtain ⟨o', ho', -, hb', -⟩ := go_broken (P := P) (i := i) h'
      rw [ho] at ho'
      cases ho'
      exact Or.inl hb'
    · exact Or.inr (e.trans h')

/-- A contact bent by one and sheared beyond its adhesion. -/
noncomputable def exBent (c : Bool) (adh : ℝ) (Fs Fn : V3) : St :=
  { exSt with cohBroken := c, adh := adh, Fs := Fs, Fn := Fn, mB := ![0, -1, 0], creep := ![0, -1, 0], cB := ![0, -1, 0] }

/-- **C319 (violated: reached).** A new contact is bent, then sheared beyond its adhesion: its cohesion is broken, its adhesion gone, and
the bending moment is still applied to the bodies. -/
theorem C319_violated_reached : ∃ o1 o2, go exPar exSt (exIn 0 ![0, 0, 0] 0 ![0, 1, 0]) = .ok o1 ∧
    go exPar o1.st (exIn 0 ![0, 2, 0] 0 0) = .ok o2 ∧ o2.keep = true ∧ o2.st.isBroken = false ∧ o2.st.cohBroken = true ∧
      o2.st.adh = 0 ∧ o2.st.mB = ![0, -1, 0] ∧ o2.loads.t1 = ![0, 1, 0] ∧ o2.loads.f1 = 0 := by
  have z : (![0, 0, 0] : V3) = 0 := by apply v3_ext <;> rfl
  have e1 : shear exPar exSt (exIn 0 ![0, 0, 0] 0 ![0, 1, 0]).g 0 = exCut false ![0, 0, 0] 0 :=
    shear_rest exSt 0 0 ![0, 1, 0] rfl rfl (by norm_num)
  have t1 : twist exPar (exCut false ![0, 0, 0] 0) (exIn 0 ![0, 0, 0] 0 ![0, 1, 0]).g 0 false = .ok (exCut false ![0, 0, 0] 0) := by
    unfold twist
    have h : (exCut false ![0, 0, 0] 0).cohBroken = false := rfl
    have e : (0 : ℝ) - (exCut false ![0, 0, 0] 0).twp = 0 := sub_zero _
    rw [if_pos h]
    dsimp only
    rw [e, if_neg (by norm_num [exPar]), if_neg (by norm_num [exCut, exSt]), zero_mul, zero_smul]
    rfl
  have b1 : bending exPar (exCut false ![0, 0, 0] 0) (exIn 0 ![0, 0, 0] 0 ![0, 1, 0]).g ![0, 1, 0] 1 =
      .ok (exBent false 1 ![0, 0, 0] 0) := by
    have h : (exCut false ![0, 0, 0] 0).cohBroken = false := rfl
    have h2 : (exCut false ![0, 0, 0] 0).mB = 0 := rfl
    have h3 : (exCut false ![0, 0, 0] 0).creep = 0 := rfl
    have e : (0 : V3) - exPar.kr • (1 : ℝ) • ((![0, 1, 0] : V3) - dot (exIn 0 ![0, 0, 0] 0 ![0, 1, 0]).g.normal ![0, 1, 0] •
        (exIn 0 ![0, 0, 0] 0 ![0, 1, 0]).g.normal) = ![0, -1, 0] := by
      apply v3_ext <;> simp [dot, exIn, exPar]
    unfold bending
    dsimp only
    rw [if_pos h, h2, h3, rotate_zero, e, norm3_axis, if_neg (by norm_num [exPar, exCut, exSt])]
    rfl
  have e2 : shear exPar (exBent false 1 ![0, 0, 0] ((-0 : ℝ) • ![1, 0, 0])) (exIn 0 ![0, 2, 0] 0 0).g 0 =
      exBent true 0 0 ((-0 : ℝ) • ![1, 0, 0]) := by
    have e : (exIn 0 ![0, 2, 0] 0 0).g.rotate (exBent false 1 ![0, 0, 0] ((-0 : ℝ) • ![1, 0, 0])).Fs +
        exPar.ks • (exIn 0 ![0, 2, 0] 0 0).g.shearInc = ![0, 2, 0] := by
      rw [show (exBent false 1 ![0, 0, 0] ((-0 : ℝ) • ![1, 0, 0])).Fs = 0 from z, rotate_zero, zero_add]; exact one_smul _ _
    have ha : (exBent false 1 ![0, 0, 0] ((-0 : ℝ) • ![1, 0, 0])).adh = 1 := rfl
    have hc : (exBent false 1 ![0, 0, 0] ((-0 : ℝ) • ![1, 0, 0])).cohBroken = false := rfl
    unfold shear
    dsimp only
    rw [e, ha, if_neg one_ne_zero, norm3_axis, if_pos (by norm_num), if_pos hc, zero_mul, max_self, zero_div, zero_smul]
    rfl
  have t2 : twist exPar (exBent true 0 0 ((-0 : ℝ) • ![1, 0, 0])) (exIn 0 ![0, 2, 0] 0 0).g 0 false =
      .ok (exBent true 0 0 ((-0 : ℝ) • ![1, 0, 0])) := by
    unfold twist
    rw [if_neg (by simp [exBent])]
    rfl
  have b2 : bending exPar (exBent true 0 0 ((-0 : ℝ) • ![1, 0, 0])) (exIn 0 ![0, 2, 0] 0 0).g 0 1 =
      .ok (exBent true 0 0 ((-0 : ℝ) • ![1, 0, 0])) := by
    unfold bending
    rw [if_neg (by simp [exBent])]
  have g1 := go_eq (P := exPar) (s := exSt) (t := exSt) (i := exIn 0 ![0, 0, 0] 0 ![0, 1, 0]) rfl (normal_rest exSt rfl rfl rfl rfl rfl)
    ((congrArg (fun x => twist exPar x _ 0 false) e1).trans t1) b1
  have g2 := go_eq (P := exPar) (s := exBent false 1 ![0, 0, 0] ((-0 : ℝ) • ![1, 0, 0]))
    (t := exBent false 1 ![0, 0, 0] ((-0 : ℝ) • ![1, 0, 0])) (i := exIn 0 ![0, 2, 0] 0 0) rfl (normal_rest _ rfl rfl rfl rfl rfl)
    ((congrArg (fun x => twist exPar x _ 0 false) e2).trans t2) b2
  refine ⟨_, _, g1, g2, rfl, rfl, rfl, rfl, rfl, ?_, ?_⟩
  · show cross ((0 : V3) - 0) ((-0 : ℝ) • ![1, 0, 0] + 0) + -(![0, -1, 0] + 0) = ![0, 1, 0]
    apply v3_ext <;> simp
  · show (-0 : ℝ) • (exIn 0 ![0, 2, 0] 0 0).g.normal + 0 = 0
    rw [neg_zero, zero_smul, add_zero]

/-- The hypotheses of `C318_limit_partial`, `C318_friction`, `C319_twist_partial` and `C319_violated` are met by the contact of
`C319_violated_reached` and any number of further steps, among them the first. -/
example : ∃ s o, s.adh = 0 ∧ s.cohBroken = true ∧ s.mB ≠ 0 ∧ go exPar s (exIn 0 ![0, 0, 0] 0 0) = .ok o ∧ o.st.isBroken = false ∧
    ∃ L, run exPar s ([] ++ [exIn 0 ![0, 0, 0] 0 0]) = .ok (some o.st, L) := by
  have z : (![0, 0, 0] : V3) = 0 := by apply v3_ext <;> rfl
  have e : shear exPar (exBent true 0 0 0) (exIn 0 ![0, 0, 0] 0 0).g 0 = exBent true 0 0 0 := by
    have e : (exIn 0 ![0, 0, 0] 0 0).g.rotate (exBent true 0 0 0).Fs + exPar.ks • (exIn 0 ![0, 0, 0] 0 0).g.shearInc = 0 := by
      rw [show (exBent true 0 0 0).Fs = 0 from rfl, rotate_zero, zero_add, show (exIn 0 ![0, 0, 0] 0 0).g.shearInc = 0 from z, smul_zero]
    unfold shear
    dsimp only
    rw [e, norm3_zero', if_neg (not_lt.mpr (le_max_left _ _))]
    rfl
  have t : twist exPar (exBent true 0 0 0) (exIn 0 ![0, 0, 0] 0 0).g 0 false = .ok (exBent true 0 0 0) := by
    unfold twist
    rw [if_neg (by simp [exBent])]
    rfl
  have b : bending exPar (exBent true 0 0 0) (exIn 0 ![0, 0, 0] 0 0).g 0 1 = .ok (exBent true 0 0 0) := by
    unfold bending
    rw [if_neg (by simp [exBent])]
  have g := go_eq (P := exPar) (s := exBent true 0 0 0) (t := exBent true 0 0 0) (i := exIn 0 ![0, 0, 0] 0 0) rfl
    (normal_rest _ rfl rfl rfl rfl rfl) ((congrArg (fun x => twist exPar x _ 0 false) e).trans t) b
  refine ⟨exBent true 0 0 0, _, rfl, rfl, ?_, g, rfl, ?_⟩
  · intro h
    have := congrFun h 1
    norm_num [exBent] at this
  · rw [List.nil_append]
    unfold run
    rw [g, Res.bind_ok, if_pos rfl]
    exact ⟨_, rfl⟩

/-- The hypotheses of `C319_bending` are met: a contact creeping at its limit. -/
example : ∃ s u, bending { exPar with kRCrp := 1, maxBendMom := 1 } s (exIn 0 0 0 0).g ![0, 1, 0] 1 = .ok u ∧ s.cohBroken = false ∧
    u.cohBroken = true := by
  have z : ∀ (x : V3), (exIn 0 0 0 0).g.rotate x = x := by
    intro x; apply v3_ext <;> simp [ScGeom.rotate, exIn]
  have e : ∀ k : ℝ, (![0, -1, 0] : V3) - k • (1 : ℝ) • ((![0, 1, 0] : V3) - dot (exIn 0 0 0 0).g.normal ![0, 1, 0] •
      (exIn 0 0 0 0).g.normal) = ![0, -1 - k, 0] := by
    intro k; apply v3_ext <;> simp [dot, exIn]
  let s : St := { exBent false 1 0 0 with onB := true, kDam := 1 }
  have h1 : s.cohBroken = false := rfl
  have h2 : s.mB = ![0, -1, 0] := rfl
  have h3 : s.creep = ![0, -1, 0] := rfl
  have h4 : s.kDam = 1 := rfl
  have h5 : s.cB = ![0, -1, 0] := rfl
  have h6 : s.onB = true := rfl
  clear_value s
  refine ⟨s, ?_⟩
  unfold bending
  rw [if_pos h1]
  dsimp only
  simp only [h2, h3, h4, h5, h6, z, e, norm3_axis]
  norm_num
  rw [if_pos (by rw [norm3_axis]; norm_num)]
  exact ⟨_, rfl, h1, rfl⟩

/-! ## C320: balance and energy -/

/-- **C320 (balance).** Forces and moments on the two bodies always balance. -/
theorem C320_balance (P : Par) (s : St) (i : In) (o : Out) (h : go P s i = .ok o) : Balanced i.x1 i.x2 o.loads := by
  rcases go_ok h with ⟨k, t, hn, rfl⟩ | ⟨F, t, u, v, hn, htw, hbe, rfl⟩
  · exact balanced_zero _ _
  · refine ⟨by simp [loadsOf], fun p => ?_⟩
    apply v3_ext <;> simp [loadMoment, loadsOf] <;> ring

/-- **C320 (loads).** The first body gets the normal and shear forces at the contact point and the opposite of both moments. -/
theorem C320_loads_partial (P : Par) (s : St) (i : In) (o : Out) (h : go P s i = .ok o) (hb : o.st.isBroken = false) :
    o.loads.f1 = o.st.Fn + o.st.Fs ∧
      o.loads.t1 = cross (i.g.contactPoint - i.x1) (o.st.Fn + o.st.Fs) - (o.st.mB + o.st.mTw) := by
  rcases go_ok h with ⟨k, t, hn, rfl⟩ | ⟨F, t, u, v, hn, htw, hbe, rfl⟩
  · have e := (normal_fail hn).1
    subst e
    cases hb
  · exact ⟨rfl, (sub_eq_add_neg _ _).symm⟩

/-- **C320 (violated: energy).** The normal elastic energy of a contact made from two materials is never defined: it divides by a stiffness
that is not set. -/
theorem C320_violated_energy (m1 m2 : Mat) (r1 r2 : ℝ) (P : Par) (s t : St) (h : ip2 m1 m2 r1 r2 = .ok (P, s)) :
    normEnergy P t = .ub := by
  obtain ⟨aR, aT, -, -, -, -, -, -, -, h0, -⟩ := ip2_ok h
  rw [normEnergy, if_pos h0]

/-- The hypotheses of `C320_loads_partial` are met by the steps of `C319_violated_reached`, those of `C320_violated_energy` by unit
materials. -/
example : (∃ s i o, go exPar s i = .ok o ∧ o.st.isBroken = false) ∧ ∃ P s, ip2 exMat exMat 1 1 = .ok (P, s) := by
  obtain ⟨o1, o2, -, h, -, hb, -⟩ := C319_violated_reached
  refine ⟨⟨_, _, o2, h, hb⟩, ?_⟩
  have h : harm 1 1 = .ok 1 := by unfold harm; norm_num
  unfold ip2
  simp only [exMat, mul_one, h, ok_bind]
  exact ⟨_, _, rfl⟩

end Verif.Inel
