import Verif.Ctl.TriProps
import Verif.Ctl.TscMore

/-!
# The sense of control: damped growth of cells, sense of the motion of walls
-/
namespace Verif.Ctl

open Verif.Mech

/-- C223, partial, with damping: a step that measures and follows no growth makes the part `1 - growDamping` of the growth missing, if no
limit is in the way; all of it without damping, nothing with damping 1. Missing: as in `C223_strain_partial`. -/
theorem C223_damped_partial (e : Tri) (i : TriIn) (o : TriOut) (h : e.action i = .ok o) (a : Fin 3) (hdyn : e.dyn = false)
    (hmask : e.mask a = false) (hg : e.prevGrow a = 0) (hm : e.measures i) (hF : 0 < i.trsf a)
    (hlim : |(1 - e.damp) * (Real.exp (e.goal a) / i.trsf a - 1)| ≤ e.maxRate a * i.dt)
    (hsz : 2.1 * o.eng.span a - i.size a ≤ (1 - e.damp) * (Real.exp (e.goal a) / i.trsf a - 1)) :
    i.trsf a + i.dt * o.grad a * i.trsf a = e.damp * i.trsf a + (1 - e.damp) * Real.exp (e.goal a) := by
  obtain ⟨_, _, hdt, _, rfl⟩ := tri_ok h
  have hr := ready_same e i
  have hme := ready_measured e i hm
  have hsp : ((e.ready i).finish i).eng.span = (e.ready i).span := rfl
  rw [hsp] at hsz
  have hex : Real.exp (e.goal a - Real.log (i.trsf a)) = Real.exp (e.goal a) / i.trsf a := by
    rw [Real.exp_sub, Real.exp_log hF]
  have hrate : ((e.ready i).finish i).grad a = (1 - e.damp) * (Real.exp (e.goal a) / i.trsf a - 1) / i.dt := by
    show (e.ready i).rate i ((e.ready i).mass.getD 0) a = _
    unfold Tri.rate Tri.wanted
    simp only [hr.1, hdyn, hr.2.2.1, hmask, hr.2.2.2.2.2.2.2.1, hr.2.2.2.2.2.2.2.2.2.2.1, hg, hr.2.1, hme.1, hr.2.2.2.1]
    simp only [Bool.false_eq_true, if_false, mul_zero, add_zero]
    rw [hex, ← mul_div_assoc, clip_id (by rw [abs_div, abs_of_pos hdt, div_le_iff₀ hdt]; exact hlim)]
    apply max_eq_left
    rw [div_le_div_iff_of_pos_right hdt]
    linarith
  rw [hrate]
  have h1 := hdt.ne'
  have h2 := hF.ne'
  field_simp
  ring

/-- The translation wanted has the sign of the force missing. -/
theorem want_sign {x k m : ℝ} (hk : 0 < k) (hm : 0 < m) : (0 < want x k m ↔ 0 < x) ∧ (want x k m < 0 ↔ x < 0) := by
  classical
  unfold want
  rcases lt_trichotomy x 0 with hx | hx | hx
  · have hq : x / k < 0 := div_neg_of_neg_of_pos hx hk
    have h1 : sgn (x / k) = -1 := by unfold sgn; rw [if_pos hq]
    have h2 : 0 < min |x / k| m := lt_min (abs_pos.mpr hq.ne) hm
    rw [if_pos hx.ne, if_pos hk.ne', h1]
    constructor <;> constructor <;> intro _ <;> linarith
  · rw [if_neg (by simp [hx])]
    exact ⟨Iff.rfl, Iff.rfl⟩
  · have hq : 0 < x / k := div_pos hx hk
    have h2 : 0 < min |x / k| m := lt_min (abs_pos.mpr hq.ne') hm
    rw [if_pos hx.ne', if_pos hk.ne', sgn_pos_of hq]
    constructor <;> constructor <;> intro _ <;> linarith

/-- C226, partial, sense: for a sample of uniform stress, an active wall at rest under stress control moves inwards if and only if the stress
is above its goal (less compression than wanted) and outwards if and only if it is below; so at the goal it stays.
Missing: as in `C226_converges_partial`. -/
theorem C226_sense_partial (t : Tsc) (dt : ℝ) (σ : M3) (s : V3) (a : Fin 3) (u : Bool) (w : Wall) (hs : ∀ b, 0 < s b) (hdt : 0 < dt)
    (hm : t.mask a = true) (hact : w.active = true) (hp : w.prev = 0) (hk : 0 < w.stiff) (hv : 0 < t.maxVel) (hd : t.stressDamping < 1)
    (hf : w.force = traction σ s a u) :
    (0 < dot (normal a u) (t.wall dt s a u w).vel ↔ t.goal a < σ a a) ∧ (dot (normal a u) (t.wall dt s a u w).vel < 0 ↔ σ a a < t.goal a) := by
  have hA : 0 < area s a := by
    have h0 := hs 0; have h1 := hs 1; have h2 := hs 2
    fin_cases a
    · exact mul_pos h1 h2
    · exact mul_pos h0 h2
    · exact mul_pos h0 h1
  have hM : 0 < t.maxVelOf s a * dt := by
    have h0 := hs 0; have h1 := hs 1; have h2 := hs 2; have h3 := hs a
    unfold Tsc.maxVelOf
    positivity
  have hvel : (t.wall dt s a u w).vel = (1 / dt) • t.control dt (t.maxVelOf s a) (normal a u)
      (fun b => if b = a then (if u then -1 else 1) * (t.goal a * area s a) else 0) w := by
    unfold Tsc.wall
    rw [if_pos hact, if_pos hm]
  have hsm : ∀ v : V3, dot (normal a u) ((1 / dt) • v) = 1 / dt * dot (normal a u) v := by
    intro v
    unfold dot
    simp only [Pi.smul_apply, smul_eq_mul]
    ring
  have hz : dot (normal a u) 0 = 0 := by simp [dot]
  have hx : dot (normal a u) (w.force - fun b => if b = a then (if u then -1 else 1) * (t.goal a * area s a) else 0) =
      (σ a a - t.goal a) * area s a := by
    rw [hf]
    unfold dot traction normal
    cases u <;> fin_cases a <;> simp <;> ring
  rw [hvel, hsm, dot_control, hx, hp, hz, mul_zero, add_zero]
  obtain ⟨w1, w2⟩ := want_sign (x := (σ a a - t.goal a) * area s a) hk hM
  have hc : 0 < 1 / dt * (1 - t.stressDamping) := mul_pos (by positivity) (by linarith)
  rw [← mul_assoc, mul_pos_iff_of_pos_left hc, w1, mul_pos_iff_of_pos_right hA, sub_pos]
  refine ⟨Iff.rfl, ?_⟩
  have q1 : ∀ {c y : ℝ}, 0 < c → (c * y < 0 ↔ y < 0) := fun hc => ⟨fun h => by by_contra hn; push Not at hn; nlinarith, fun h => mul_neg_of_pos_of_neg hc h⟩
  rw [q1 hc, w2, mul_comm _ (area s a), q1 hA, sub_neg]

example : 0 < dot (normal 0 true) ((exC 0.25).wall 1 ![1, 2, 3] 0 true
    { pos := 0, vel := 0, prev := 0, force := traction !![1000, 1, 0; 1, -6, 0; 0, 0, -7] ![1, 2, 3] 0 true, stiff := 2, active := true }).vel ↔
    (exC 0.25).goal 0 < 1000 := by
  have := (C226_sense_partial (exC 0.25) 1 !![1000, 1, 0; 1, -6, 0; 0, 0, -7] ![1, 2, 3] 0 true
    { pos := 0, vel := 0, prev := 0, force := traction !![1000, 1, 0; 1, -6, 0; 0, 0, -7] ![1, 2, 3] 0 true, stiff := 2, active := true }
    (by intro a; fin_cases a <;> simp) one_pos rfl rfl rfl (by norm_num) (by norm_num [exC]) (by norm_num [exC]) rfl).1
  simpa using this

end Verif.Ctl
