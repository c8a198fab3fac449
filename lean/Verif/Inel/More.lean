import Verif.Inel.Props

/-!
# Inelastic cohesive contacts: unloading, shear below the limit, elastic and limiting twist
-/
namespace Verif.Inel
open Verif Verif.Mech

/-- **C317 (unloading).** A contact that yielded goes back along a straight line through the point at which it turned, in tension and in
compression, as long as the force keeps its sign. -/
theorem C317_unload (P : Par) (s : St) (pd : ℝ) (hb : s.isBroken = false) :
    (s.onT = true → pd - s.unp ≤ 0 → -P.maxExten ≤ pd - s.unp → s.cT.1 < pd - s.unp →
      P.kTUnld * (pd - s.unp - s.cT.1) + s.cT.2 ≤ 0 →
      ∃ t, normal P s pd = .ok (.force (P.kTUnld * (pd - s.unp - s.cT.1) + s.cT.2) t) ∧ t.cT = s.cT ∧ t.unp = s.unp) ∧
    (s.onC = true → 0 < pd - s.unp → pd - s.unp ≤ P.maxContract → pd - s.unp < s.cC.1 →
      0 ≤ P.kTUnld * (pd - s.unp - s.cC.1) + s.cC.2 →
      ∃ t, normal P s pd = .ok (.force (P.kTUnld * (pd - s.unp - s.cC.1) + s.cC.2) t) ∧ t.cC = s.cC ∧ t.unp = s.unp) := by
  constructor
  · intro ho h0 h1 h2 h3
    unfold normal
    rw [if_pos h0, tension]
    have a1 : ¬ (-(pd - s.unp) > P.maxExten ∨ s.isBroken = true) := by
      rw [hb]; rintro (h' | h')
      · linarith
      · cases h'
    rw [if_neg a1, if_pos (Or.inr ho)]
    dsimp only
    rw [if_pos h2, Res.bind_ok]
    dsimp only
    rw [if_neg (not_lt.mpr h3)]
    exact ⟨_, rfl, rfl, rfl⟩
  · intro ho h0 h1 h2 h3
    unfold normal
    rw [if_neg (not_le.mpr h0), compression]
    have a1 : ¬ (pd - s.unp > P.maxContract ∨ s.isBroken = true) := by
      rw [hb]; rintro (h' | h')
      · linarith
      · cases h'
    rw [if_neg a1, if_pos (Or.inr ho)]
    dsimp only
    rw [if_pos h2, Res.bind_ok]
    dsimp only
    rw [if_neg (not_lt.mpr h3)]
    exact ⟨_, rfl, rfl, rfl⟩

/-- The hypotheses of `C317_unload` are met by contacts that turned at a depth of two, in tension and in compression. -/
example : (-2 : ℝ) < -3 / 2 - (exYield (-2, -1) (2, 1) 0 1 0).unp ∧
    exPar.kTUnld * (-3 / 2 - (exYield (-2, -1) (2, 1) 0 1 0).unp - (exYield (-2, -1) (2, 1) 0 1 0).cT.1) +
      (exYield (-2, -1) (2, 1) 0 1 0).cT.2 ≤ 0 ∧
    3 / 2 - (exYield (-2, -1) (2, 1) 0 1 0).unp < (exYield (-2, -1) (2, 1) 0 1 0).cC.1 ∧
    0 ≤ exPar.kTUnld * (3 / 2 - (exYield (-2, -1) (2, 1) 0 1 0).unp - (exYield (-2, -1) (2, 1) 0 1 0).cC.1) +
      (exYield (-2, -1) (2, 1) 0 1 0).cC.2 := by
  norm_num [exYield, exPar, exSt]

/-- **C317 (equilibrium).** When the force of a contact that yielded changes sign, the depth becomes the new equilibrium and the strength
on the side it came from is used up. -/
theorem C317_equilibrium (P : Par) (s t : St) (pd F : ℝ) (h : normal P s pd = .ok (.force F t)) :
    (pd - s.unp ≤ 0 → s.onT = true → 0 < F → t.unp = pd ∧ t.maxElT = 0) ∧
    (0 < pd - s.unp → s.onC = true → F < 0 → t.unp = pd ∧ t.maxElC = 0) := by
  constructor
  · intro h0 ho hF
    unfold normal at h
    rw [if_pos h0, tension] at h
    by_cases a1 : -(pd - s.unp) > P.maxExten ∨ s.isBroken = true
    · rw [if_pos a1] at h; cases h
    · rw [if_neg a1, if_pos (Or.inr ho)] at h
      obtain ⟨x, -, h⟩ := bind_ok_inv h
      injection h with h
      injection h with h1 h2
      rw [← h1] at hF
      rw [if_pos hF] at h2
      subst h2
      exact ⟨rfl, rfl⟩
  · intro h0 ho hF
    unfold normal at h
    rw [if_neg (not_le.mpr h0), compression] at h
    by_cases a1 : pd - s.unp > P.maxContract ∨ s.isBroken = true
    · rw [if_pos a1] at h; cases h
    · rw [if_neg a1, if_pos (Or.inr ho)] at h
      obtain ⟨x, -, h⟩ := bind_ok_inv h
      injection h with h
      injection h with h1 h2
      rw [← h1] at hF
      rw [if_pos hF] at h2
      subst h2
      exact ⟨rfl, rfl⟩

/-- The hypotheses of `C317_equilibrium` are met by a contact that turned at two in tension and comes back to a half. -/
example : ∃ t, normal exPar (exYield (-2, -1) (0, 0) 0 1 0) (-1 / 2) = .ok (.force (1 / 2) t) ∧
    (-1 / 2 : ℝ) - (exYield (-2, -1) (0, 0) 0 1 0).unp ≤ 0 ∧ (exYield (-2, -1) (0, 0) 0 1 0).onT = true := by
  refine ⟨exYield (10 ^ 20, -1) (0, 0) (-1 / 2) 0 0, ?_, by norm_num [exYield, exSt], rfl⟩
  norm_num [normal, tension, exPar, exSt, exYield, Res.bind]

/-- **C318 (sticking).** Below the limit the shear force of a step is the rotated one of the step before plus stiffness times increment; a
new contact starts from none. -/
theorem C318_stick (P : Par) (s : St) (i : In) (o : Out) (h : go P s i = .ok o) (hb : o.st.isBroken = false) (h0 : 0 < s.adh)
    (hl : norm3 (i.g.rotate (if i.fresh then 0 else s.Fs) + P.ks • i.g.shearInc) ≤ s.adh) :
    o.st.Fs = i.g.rotate (if i.fresh then 0 else s.Fs) + P.ks • i.g.shearInc ∧ o.st.adh = s.adh := by
  rcases go_ok h with ⟨k, t, hn, rfl⟩ | ⟨F, t, u, v, hn, htw, hbe, rfl⟩
  · have e := (normal_fail hn).1
    subst e
    cases hb
  · have ea : t.adh = s.adh := by
      rw [(normal_force hn).1.adh]; split_ifs <;> rfl
    have ef : t.Fs = if i.fresh then 0 else s.Fs := by
      have : t.Fs = (if i.fresh then { s with Fs := 0 } else s).Fs := by rw [(normal_force hn).1.eq]
      rw [this]; split_ifs <;> rfl
    have es : shear P t i.g F = { t with Fs := i.g.rotate (if i.fresh then 0 else s.Fs) + P.ks • i.g.shearInc } := by
      unfold shear
      dsimp only
      rw [ef, ea, if_neg h0.ne', max_eq_right h0.le, if_neg (not_lt.mpr hl)]
    have a : v.Fs = u.Fs := by rw [(bending_frame hbe).1]
    have b : u.Fs = (shear P t i.g F).Fs := by rw [(twist_frame htw).1]
    have a' : v.adh = u.adh := by rw [(bending_frame hbe).1]
    have b' : u.adh = (shear P t i.g F).adh := by rw [(twist_frame htw).1]
    constructor
    · show v.Fs = _
      rw [a, b, es]
    · show v.adh = _
      rw [a', b', es]
      exact ea

/-- The hypotheses of `C318_stick` are met by a shear increment of one on a new contact; steps without failure are those of
`C318_violated`. -/
example : 0 < exSt.adh ∧ norm3 ((exIn 0 ![0, 1, 0] 0 0).g.rotate (if (exIn 0 ![0, 1, 0] 0 0).fresh then 0 else exSt.Fs) +
    exPar.ks • (exIn 0 ![0, 1, 0] 0 0).g.shearInc) ≤ exSt.adh := by
  have e : (exIn 0 ![0, 1, 0] 0 0).g.rotate (if (exIn 0 ![0, 1, 0] 0 0).fresh then 0 else exSt.Fs) +
      exPar.ks • (exIn 0 ![0, 1, 0] 0 0).g.shearInc = ![0, 1, 0] := by
    rw [show exSt.Fs = 0 from rfl, ite_self, rotate_zero, zero_add]; exact one_smul _ _
  rw [e, norm3_axis]
  norm_num [exSt]

/-- **C319 (limits of twist).** Twist beyond its limit in either sense breaks cohesion and leaves no moment; below the elastic limit the
moment of a contact that never yielded in twist is stiffness times angle along the normal. -/
theorem C319_twist_limits (P : Par) (s : St) (g : ScGeom) (tw : ℝ) (fresh : Bool) (h0 : s.cohBroken = false) :
    (P.maxTwist < |tw - s.twp| → ∃ u, twist P s g tw fresh = .ok u ∧ u.cohBroken = true ∧ u.mTw = 0) ∧
    (|tw - s.twp| ≤ P.maxTwist → |(tw - s.twp) * P.ktw| ≤ s.maxElTw → s.onTw = false →
      ∃ u, twist P s g tw fresh = .ok u ∧ u.cohBroken = false ∧ u.mTw = ((tw - s.twp) * P.ktw) • g.normal ∧ u.onTw = false) := by
  constructor
  · intro h
    unfold twist
    rw [if_pos h0]
    dsimp only
    rw [if_pos h]
    exact ⟨_, rfl, rfl, zero_smul _ _⟩
  · intro h1 h2 h3
    unfold twist
    rw [if_pos h0]
    dsimp only
    have a : ¬ (|(tw - s.twp) * P.ktw| > s.maxElTw ∨ s.onTw = true) := by
      rw [h3]; rintro (h' | h')
      · linarith
      · cases h'
    rw [if_neg (not_lt.mpr h1), if_neg a]
    exact ⟨_, rfl, h0, rfl, h3⟩

/-- The hypotheses of `C319_twist_limits` are met by angles of eleven, to either side, and five. -/
example : exPar.maxTwist < |11 - exSt.twp| ∧ exPar.maxTwist < |-11 - exSt.twp| ∧ |5 - exSt.twp| ≤ exPar.maxTwist ∧
    |(5 - exSt.twp) * exPar.ktw| ≤ exSt.maxElTw := by
  norm_num [exPar, exSt]

/-- **C319 (elastic bending).** The bending moment of a contact that never yielded in bending is the rotated one less stiffness times the
part of the relative rotation across the normal, as long as that is below the elastic limit. -/
theorem C319_bending_elastic (P : Par) (s : St) (g : ScGeom) (w : V3) (dt : ℝ) (h0 : s.cohBroken = false) (h1 : s.onB = false)
    (h2 : norm3 (g.rotate s.mB - P.kr • dt • (w - dot g.normal w • g.normal)) ≤ P.maxElB) :
    ∃ u, bending P s g w dt = .ok u ∧ u.mB = g.rotate s.mB - P.kr • dt • (w - dot g.normal w • g.normal) ∧ u.onB = false ∧
      u.cohBroken = false := by
  unfold bending
  rw [if_pos h0]
  dsimp only
  have a : ¬ (norm3 (g.rotate s.mB - P.kr • dt • (w - dot g.normal w • g.normal)) > P.maxElB ∨ s.onB = true) := by
    rw [h1]; rintro (h' | h')
    · linarith
    · cases h'
  rw [if_neg a]
  exact ⟨_, rfl, rfl, h1, h0⟩

/-- The hypotheses of `C319_bending_elastic` are met by a unit rotation. -/
example : norm3 ((exIn 0 0 0 0).g.rotate exSt.mB - exPar.kr • (1 : ℝ) • ((![0, 1, 0] : V3) - dot (exIn 0 0 0 0).g.normal ![0, 1, 0] •
    (exIn 0 0 0 0).g.normal)) ≤ exPar.maxElB := by
  have e : (exIn 0 0 0 0).g.rotate exSt.mB - exPar.kr • (1 : ℝ) • ((![0, 1, 0] : V3) - dot (exIn 0 0 0 0).g.normal ![0, 1, 0] •
      (exIn 0 0 0 0).g.normal) = ![0, -1, 0] := by
    rw [show exSt.mB = 0 from rfl, rotate_zero]
    apply v3_ext <;> simp [dot, exIn, exPar]
  rw [e, norm3_axis]
  norm_num [exPar]

end Verif.Inel
