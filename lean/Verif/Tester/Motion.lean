import Verif.Tester.Model
import Mathlib.Tactic.Positivity
import Mathlib.Tactic.FieldSimp
import Mathlib.Tactic.NormNum

/-! # Motion of the bodies in a step, and local axes (C281, C282, C283) -/
namespace Verif.Tester

open Verif.Mech

/-- Specification: axes of unit length, perpendicular and right-handed. -/
structure Axes (x y z : V3) : Prop where
  xx : dot x x = 1
  yy : dot y y = 1
  zz : dot z z = 1
  xy : dot x y = 0
  yz : dot y z = 0
  zx : dot z x = 0
  cxy : cross x y = z
  cyz : cross y z = x
  czx : cross z x = y

/-- Specification: velocity of the second body relative to the first one at the contact, whose distance from the centres is given by the radii. -/
noncomputable def relVel (g : Geo) (b1 b2 : Vel) : V3 := (b2.v + cross b2.w (-g.r2 • g.x)) - (b1.v + cross b1.w (g.r1 • g.x))

/-- Specification: the vector with the components `a` along the axes. -/
def along (g : Geo) (a : V3) : V3 := a 0 • g.x + a 1 • g.y + a 2 • g.z

theorem cross_add_left (a b c : V3) : cross (a + b) c = cross a c + cross b c := by
  funext i; fin_cases i <;> simp [cross] <;> ring

theorem cross_smul_left (k : ℝ) (a c : V3) : cross (k • a) c = k • cross a c := by
  funext i; fin_cases i <;> simp [cross] <;> ring

theorem cross_smul_right (k : ℝ) (a c : V3) : cross a (k • c) = k • cross a c := by
  funext i; fin_cases i <;> simp [cross] <;> ring

theorem cross_self' (a : V3) : cross a a = 0 := by
  funext i; fin_cases i <;> simp [cross] <;> ring

theorem cross_anti (a b : V3) : cross a b = -cross b a := by
  funext i; fin_cases i <;> simp [cross] <;> ring

/-- What a rotation does at the contact. -/
theorem cross_arm {g : Geo} (h : Axes g.x g.y g.z) (a b c k : ℝ) : cross (a • g.x + b • g.y + c • g.z) (k • g.x) = (k * c) • g.y + (-k * b) • g.z := by
  rw [cross_smul_right, cross_add_left, cross_add_left, cross_smul_left, cross_smul_left, cross_smul_left, cross_self', cross_anti g.y g.x, h.cxy, h.czx]
  module

/-- The motion of one body without shear on arcs. -/
theorem move_eq {g : Geo} {sign weight radius rw dt : ℝ} {dU dPhi : V3} (h : rw = 1 ∨ (dU 1 = 0 ∧ dU 2 = 0)) :
    move g sign weight radius rw dt dU dPhi = ⟨(sign * weight * dU 0 / dt) • g.x, (sign * dPhi 0 * weight) • g.x + (sign * rw * (sign * weight * dU 2) / radius / dt + sign * dPhi 1 * (1 - radius / (g.r1 + g.r2))) • g.y +
      (-sign * rw * (sign * weight * dU 1) / radius / dt + sign * dPhi 2 * (1 - radius / (g.r1 + g.r2))) • g.z⟩ := by
  have h1 : (1 - rw) * dU 1 = 0 := by rcases h with h | h <;> simp [h]
  have h2 : (1 - rw) * dU 2 = 0 := by rcases h with h | h <;> simp [h]
  have e1 : (1 - rw) * (sign * weight * dU 1) / radius = 0 := by rw [show (1 - rw) * (sign * weight * dU 1) = sign * weight * ((1 - rw) * dU 1) by ring, h1]; simp
  have e2 : (1 - rw) * (sign * weight * dU 2) / radius = 0 := by rw [show (1 - rw) * (sign * weight * dU 2) = sign * weight * ((1 - rw) * dU 2) by ring, h2]; simp
  unfold move
  simp only [Pi.smul_apply, smul_eq_mul, e1, e2, Real.arctan_zero, Real.sin_zero, Real.cos_zero]
  congr 1
  · simp
  · simp
    module

/-- **C281, part**: in a step the bodies move at their contact as the path tells, whatever the weights of the bodies and whatever rotation is prescribed.  Missing: shear by displacement (`rotWeight` less than 1). -/
theorem C281_contact_partial {g : Geo} (ha : Axes g.x g.y g.z) (h1 : g.r1 ≠ 0) (h2 : g.r2 ≠ 0) (hl : g.r1 + g.r2 ≠ 0) {dt : ℝ} (hd : dt ≠ 0) (rw w : ℝ) (dU dPhi : V3) (h : rw = 1 ∨ (dU 1 = 0 ∧ dU 2 = 0)) :
    dt • relVel g (move g (-1) (1 - w) g.r1 rw dt dU dPhi) (move g 1 w g.r2 rw dt dU dPhi) = along g dU := by
  have k1 : rw * dU 1 = dU 1 := by rcases h with h | h <;> simp [h]
  have k2 : rw * dU 2 = dU 2 := by rcases h with h | h <;> simp [h]
  rw [move_eq h, move_eq h]
  unfold relVel along
  dsimp only
  rw [cross_arm ha, cross_arm ha]
  have e0 : dt * (1 * w * dU 0 / dt - -1 * (1 - w) * dU 0 / dt) = dU 0 := by field_simp; ring
  have e1 : dt * (-g.r2 * (-1 * rw * (1 * w * dU 1) / g.r2 / dt + 1 * dPhi 2 * (1 - g.r2 / (g.r1 + g.r2))) - g.r1 * (- -1 * rw * (-1 * (1 - w) * dU 1) / g.r1 / dt + -1 * dPhi 2 * (1 - g.r1 / (g.r1 + g.r2)))) = dU 1 := by
    refine Eq.trans ?_ k1
    field_simp
    ring
  have e2 : dt * (- -g.r2 * (1 * rw * (1 * w * dU 2) / g.r2 / dt + 1 * dPhi 1 * (1 - g.r2 / (g.r1 + g.r2))) - -g.r1 * (-1 * rw * (-1 * (1 - w) * dU 2) / g.r1 / dt + -1 * dPhi 1 * (1 - g.r1 / (g.r1 + g.r2)))) = dU 2 := by
    refine Eq.trans ?_ k2
    field_simp
    ring
  conv_rhs => rw [← e0, ← e1, ← e2]
  module

/-- Axes and radii for the examples. -/
def geo0 : Geo := ⟨1, 2, ![1, 0, 0], ![0, 1, 0], ![0, 0, 1], false⟩

theorem geo0_axes : Axes geo0.x geo0.y geo0.z := by
  constructor <;> first | (simp [geo0, dot]; done) | (funext i; fin_cases i <;> simp [geo0, cross])

example : ((1 : ℝ) / 100) • relVel geo0 (move geo0 (-1) (1 - 1 / 4) geo0.r1 1 (1 / 100) ![1, 2, 3] ![4, 5, 6]) (move geo0 1 (1 / 4) geo0.r2 1 (1 / 100) ![1, 2, 3] ![4, 5, 6]) = along geo0 ![1, 2, 3] :=
  C281_contact_partial geo0_axes (by norm_num [geo0]) (by norm_num [geo0]) (by norm_num [geo0]) (by norm_num : (1 : ℝ) / 100 ≠ 0) 1 (1 / 4) ![1, 2, 3] ![4, 5, 6] (Or.inl rfl)

/-- **C281**: with the weight 1 only the second body moves, with 0 only the first one. -/
theorem C281_weight (g : Geo) (sign radius rw dt : ℝ) (dU : V3) : move g sign 0 radius rw dt dU 0 = ⟨0, 0⟩ := by
  unfold move
  simp

/-- **C281 fails for shear by displacement**: the path has no normal displacement, but the bodies get closer. -/
theorem C281_violated_arc {g : Geo} (ha : Axes g.x g.y g.z) (h1 : 0 < g.r1) (h2 : 0 < g.r2) {dt : ℝ} (hd : dt ≠ 0) {d : ℝ} (h : d ≠ 0) :
    sqNorm ((g.r1 + g.r2) • g.x + dt • (move g 1 1 g.r2 0 dt ![0, d, 0] 0).v - dt • (move g (-1) (1 - 1) g.r1 0 dt ![0, d, 0] 0).v) < sqNorm ((g.r1 + g.r2) • g.x) := by
  rw [show (1 : ℝ) - 1 = 0 by norm_num, C281_weight]
  set t := Real.arctan (d / g.r2) with ht
  have hv : dt • (move g 1 1 g.r2 0 dt ![0, d, 0] 0).v = (g.r2 * Real.sin t) • g.y + (-(g.r2 * (1 - Real.cos t))) • g.x := by
    unfold move
    simp [← ht, smul_add, smul_smul]
    congr 1
    · congr 1; field_simp
    · rw [← neg_smul, mul_div_cancel₀ _ hd]
  rw [hv]
  have hc : Real.cos t < 1 := by
    have h0 : 0 < Real.cos t := Real.cos_arctan_pos _
    have hs : Real.sin t ≠ 0 := by
      intro hs
      have : Real.tan t = 0 := by rw [Real.tan_eq_sin_div_cos, hs, zero_div]
      rw [ht, Real.tan_arctan] at this
      exact h (by field_simp at this; simpa using this)
    have := Real.sin_sq_add_cos_sq t
    have : 0 < Real.sin t ^ 2 := by positivity
    nlinarith
  have e : ∀ a b : ℝ, sqNorm (a • g.x + b • g.y) = a ^ 2 + b ^ 2 := by
    intro a b
    have e1 := ha.xx; have e2 := ha.yy; have e3 := ha.xy
    simp only [sqNorm, dot, Pi.add_apply, Pi.smul_apply, smul_eq_mul] at e1 e2 e3 ⊢
    linear_combination a ^ 2 * e1 + b ^ 2 * e2 + 2 * a * b * e3
  have e1 : (g.r1 + g.r2) • g.x + ((g.r2 * Real.sin t) • g.y + (-(g.r2 * (1 - Real.cos t))) • g.x) - dt • (0 : V3) = (g.r1 + g.r2 * Real.cos t) • g.x + (g.r2 * Real.sin t) • g.y := by
    rw [smul_zero, sub_zero]
    module
  have e2 : (g.r1 + g.r2) • g.x = (g.r1 + g.r2) • g.x + (0 : ℝ) • g.y := by simp
  rw [e1, e, e2, e]
  have := Real.sin_sq_add_cos_sq t
  have hp := mul_pos (mul_pos h1 h2) (sub_pos.2 hc)
  have key : (g.r1 + g.r2 * Real.cos t) ^ 2 + (g.r2 * Real.sin t) ^ 2 = (g.r1 + g.r2) ^ 2 - 2 * (g.r1 * g.r2 * (1 - Real.cos t)) := by linear_combination g.r2 ^ 2 * this
  rw [key]
  linarith

/-- **C281 fails for the weight with rotations**, which should be ignored then: it decides which body moves. -/
theorem C281_violated_weight : (move { geo0 with hasRot := true } (-1) (1 - 1) 1 0 1 ![1, 0, 0] 0).v = 0 ∧ (move { geo0 with hasRot := true } (-1) (1 - 0) 1 0 1 ![1, 0, 0] 0).v ≠ 0 := by
  constructor
  · rw [show (1 : ℝ) - 1 = 0 by norm_num, C281_weight]
  · intro h
    have := congrFun h 0
    simp [move, geo0] at this

/-- The relative rotation in a step. -/
theorem rel_rot {g : Geo} (h1 : g.r1 ≠ 0) (h2 : g.r2 ≠ 0) (hl : g.r1 + g.r2 ≠ 0) (dt rw w : ℝ) (dU dPhi : V3) (h : dU 1 = 0 ∧ dU 2 = 0) :
    (move g 1 w g.r2 rw dt dU dPhi).w - (move g (-1) (1 - w) g.r1 rw dt dU dPhi).w = along g dPhi := by
  rw [move_eq (Or.inr h), move_eq (Or.inr h)]
  unfold along
  dsimp only
  rw [h.1, h.2]
  have e : ∀ p : ℝ, 1 * p * (1 - g.r2 / (g.r1 + g.r2)) - -1 * p * (1 - g.r1 / (g.r1 + g.r2)) = p := by intro p; field_simp; ring
  conv_rhs => rw [← e (dPhi 1), ← e (dPhi 2)]
  simp only [mul_zero, zero_div, zero_add]
  module

/-- **C282, part**: with time steps of 1 the bodies rotate as the path tells in steps without shear.  Missing: other time steps. -/
theorem C282_rotation_partial {g : Geo} (h1 : g.r1 ≠ 0) (h2 : g.r2 ≠ 0) (hl : g.r1 + g.r2 ≠ 0) (rw w : ℝ) (dU dPhi : V3) (h : dU 1 = 0 ∧ dU 2 = 0) :
    (1 : ℝ) • ((move g 1 w g.r2 rw 1 dU dPhi).w - (move g (-1) (1 - w) g.r1 rw 1 dU dPhi).w) = along g dPhi := by
  rw [rel_rot h1 h2 hl 1 rw w dU dPhi h, one_smul]

example : geo0.r1 ≠ 0 ∧ geo0.r2 ≠ 0 ∧ geo0.r1 + geo0.r2 ≠ 0 := by norm_num [geo0]

/-- **C282 fails**: the increment of rotation is not divided by the time step, so any rotation is wrong unless time steps are 1. -/
theorem C282_violated {g : Geo} (ha : Axes g.x g.y g.z) (h1 : g.r1 ≠ 0) (h2 : g.r2 ≠ 0) (hl : g.r1 + g.r2 ≠ 0) {dt : ℝ} (hd : dt ≠ 1) (rw w : ℝ) {dPhi : V3} (hp : dPhi ≠ 0) :
    dt • ((move g 1 w g.r2 rw dt 0 dPhi).w - (move g (-1) (1 - w) g.r1 rw dt 0 dPhi).w) ≠ along g dPhi := by
  rw [rel_rot h1 h2 hl dt rw w 0 dPhi ⟨rfl, rfl⟩]
  intro h
  have h0 : along g dPhi = 0 := by
    have : (dt - 1) • along g dPhi = 0 := by rw [sub_smul, one_smul, h, sub_self]
    rcases smul_eq_zero.1 this with h | h
    · exact absurd (by linarith) hd
    · exact h
  apply hp
  have e0 := congrFun h0 0; have e1 := congrFun h0 1; have e2 := congrFun h0 2
  have a1 := ha.xx; have a2 := ha.yy; have a3 := ha.zz; have a4 := ha.xy; have a5 := ha.yz; have a6 := ha.zx
  simp only [along, dot, Pi.add_apply, Pi.smul_apply, smul_eq_mul, Pi.zero_apply] at *
  funext i
  fin_cases i
  · show dPhi 0 = 0
    linear_combination g.x 0 * e0 + g.x 1 * e1 + g.x 2 * e2 - dPhi 0 * a1 - dPhi 1 * a4 - dPhi 2 * a6
  · show dPhi 1 = 0
    linear_combination g.y 0 * e0 + g.y 1 * e1 + g.y 2 * e2 - dPhi 0 * a4 - dPhi 1 * a2 - dPhi 2 * a5
  · show dPhi 2 = 0
    linear_combination g.z 0 * e0 + g.z 1 * e1 + g.z 2 * e2 - dPhi 0 * a6 - dPhi 1 * a5 - dPhi 2 * a3

theorem norm3_pos {v : V3} (h : v ≠ 0) : 0 < norm3 v := by
  unfold norm3
  apply Real.sqrt_pos.2
  by_contra hc
  apply h
  simp only [sqNorm, dot] at hc
  have h0 := mul_self_nonneg (v 0); have h1 := mul_self_nonneg (v 1); have h2 := mul_self_nonneg (v 2)
  funext i
  fin_cases i
  · exact mul_self_eq_zero.1 (by linarith : v 0 * v 0 = 0)
  · exact mul_self_eq_zero.1 (by linarith : v 1 * v 1 = 0)
  · exact mul_self_eq_zero.1 (by linarith : v 2 * v 2 = 0)

theorem unit_dot {v : V3} (h : v ≠ 0) : dot (unit v) (unit v) = 1 := by
  have hp := norm3_pos h
  have e : norm3 v * norm3 v = dot v v := Real.mul_self_sqrt (by simp only [sqNorm, dot]; nlinarith [mul_self_nonneg (v 0), mul_self_nonneg (v 1), mul_self_nonneg (v 2)])
  have : dot (unit v) (unit v) = (norm3 v)⁻¹ * (norm3 v)⁻¹ * dot v v := by
    simp only [unit, dot, Pi.smul_apply, smul_eq_mul]; ring
  rw [this, ← e]
  field_simp

/-- **C283**: the axes of a new contact are of unit length, perpendicular and right-handed, and the first is the normal, for every normal. -/
theorem C283_axes {n : V3} (hn : n ≠ 0) : Axes (axes0 n).1 (axes0 n).2.1 (axes0 n).2.2 ∧ ∃ k : ℝ, 0 < k ∧ (axes0 n).1 = k • n := by
  refine ⟨?_, ⟨(norm3 n)⁻¹, inv_pos.2 (norm3_pos hn), rfl⟩⟩
  unfold axes0
  dsimp only
  have hx := unit_dot hn
  generalize unit n = x at hx
  have hc : cross x (other x) ≠ 0 := by
    intro h
    have e0 := congrFun h 0; have e1 := congrFun h 1; have e2 := congrFun h 2
    simp only [dot] at hx
    unfold other at e0 e1 e2
    split_ifs at e0 e1 e2 with hlt
    · simp [cross] at e0 e2
      rw [e0] at hlt
      simp at hlt
      exact absurd hlt (by simpa using abs_nonneg (x 1))
    · simp [cross] at e0 e1
      rw [e0] at hlt
      have h2 : x 2 = 0 := by
        by_contra hne
        exact hlt (by simpa using hne)
      rw [e0, e1, h2] at hx
      norm_num at hx
  have hy := unit_dot hc
  have hxy : dot x (unit (cross x (other x))) = 0 := by
    simp only [unit, dot, cross, Pi.smul_apply, smul_eq_mul]
    simp
    ring
  generalize unit (cross x (other x)) = y at hy hxy
  simp only [dot] at hx hy hxy
  refine ⟨hx, hy, ?_, hxy, ?_, ?_, rfl, ?_, ?_⟩
  · simp only [dot, cross]
    simp
    linear_combination (y 0 * y 0 + y 1 * y 1 + y 2 * y 2) * hx + hy - (x 0 * y 0 + x 1 * y 1 + x 2 * y 2) * hxy
  · simp only [dot, cross]; simp; ring
  · simp only [dot, cross]; simp; ring
  · funext i
    fin_cases i
    · simp [cross]; linear_combination x 0 * hy - y 0 * hxy
    · simp [cross]; linear_combination x 1 * hy - y 1 * hxy
    · simp [cross]; linear_combination x 2 * hy - y 2 * hxy
  · funext i
    fin_cases i
    · simp [cross]; linear_combination y 0 * hx - x 0 * hxy
    · simp [cross]; linear_combination y 1 * hx - x 1 * hxy
    · simp [cross]; linear_combination y 2 * hx - x 2 * hxy

example : (![0, 3, -4] : V3) ≠ 0 := by
  intro h
  have := congrFun h 1
  simp at this

end Verif.Tester
