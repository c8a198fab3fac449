import Verif.Drive.KinLemmas
import Mathlib.Tactic.FieldSimp
import Mathlib.Algebra.Order.Group.Abs

/-!
# Turning, and one step of the integrator for a body held in all degrees of freedom
-/
namespace Verif.Drive
open Verif.Mech

/-- Specification: rotation of a vector about the unit vector `a` by the angle `θ` (Rodrigues). -/
noncomputable def turn (a : V3) (θ : ℝ) (x : V3) : V3 :=
  Real.cos θ • x + Real.sin θ • cross a x + ((1 - Real.cos θ) * dot a x) • a

/-- Specification: a body that is held in all degrees of freedom and that the integrator moves by its
velocity alone: no periodic cell, no imposed displacements, not excluded by the mask, not a
member of a clump, belonging to this process. -/
structure Held (P : Params) (w : World) (id : Nat) (b : Bod) : Prop where
  here : w.bodies id = some b
  notMember : ∀ k, b.kind ≠ .member k
  mine : w.subdomain = b.subdomain ∧ b.isSubdomain = false
  blocked : b.st.blocked = dofAll
  moves : P.mask ≤ 0 ∨ b.maskCompatible = true
  unit : b.st.ori.sqNorm = 1
  aperiodic : w.periodic = false
  noMove : w.moveRotUsed = false

/-! ## Rotations -/

theorem ofAngleAxis_unit {a : V3} (ha : sqNorm a = 1) (θ : ℝ) : (ofAngleAxis θ a).sqNorm = 1 := by
  simp only [sqNorm, dot] at ha
  simp only [ofAngleAxis, Quat.sqNorm]
  have := Real.cos_sq_add_sin_sq (0.5 * θ)
  linear_combination this + Real.sin (0.5 * θ) ^ 2 * ha

theorem ofAngleAxis_rot {a : V3} (ha : sqNorm a = 1) (θ : ℝ) (x : V3) : (ofAngleAxis θ a).rot x = turn a θ x := by
  have hc : Real.cos θ = 1 - 2 * Real.sin (0.5 * θ) ^ 2 := by
    have := Real.cos_sq (0.5 * θ)
    have h2 := Real.cos_sq_add_sin_sq (0.5 * θ)
    rw [show 2 * (0.5 * θ) = θ by ring] at this
    linarith
  have hs : Real.sin θ = 2 * Real.sin (0.5 * θ) * Real.cos (0.5 * θ) := by
    rw [← Real.sin_two_mul]; congr 1; ring
  simp only [sqNorm, dot] at ha
  unfold turn
  rw [hc, hs]
  obtain ⟨S, hS⟩ : ∃ S, S = Real.sin (0.5 * θ) := ⟨_, rfl⟩
  obtain ⟨C, hC⟩ : ∃ C, C = Real.cos (0.5 * θ) := ⟨_, rfl⟩
  apply v3_ext
  · simp only [Quat.rot, ofAngleAxis, ← hS, ← hC, dot, Pi.add_apply, Pi.smul_apply, smul_eq_mul, cross_zero', cross_one',
      cross_two', vec_zero', vec_one', vec_two']
    linear_combination (-2 * S ^ 2 * x 0) * ha
  · simp only [Quat.rot, ofAngleAxis, ← hS, ← hC, dot, Pi.add_apply, Pi.smul_apply, smul_eq_mul, cross_zero', cross_one',
      cross_two', vec_zero', vec_one', vec_two']
    linear_combination (-2 * S ^ 2 * x 1) * ha
  · simp only [Quat.rot, ofAngleAxis, ← hS, ← hC, dot, Pi.add_apply, Pi.smul_apply, smul_eq_mul, cross_zero', cross_one',
      cross_two', vec_zero', vec_one', vec_two']
    linear_combination (-2 * S ^ 2 * x 2) * ha

theorem turn_zero (a x : V3) : turn a 0 x = x := by
  unfold turn; simp

theorem turn_add (a : V3) (θ : ℝ) (x y : V3) : turn a θ (x + y) = turn a θ x + turn a θ y := by
  unfold turn
  apply v3_ext <;>
  · simp only [dot, Pi.add_apply, Pi.smul_apply, smul_eq_mul, cross_zero', cross_one', cross_two']
    ring

theorem turn_axis {a : V3} (ha : sqNorm a = 1) (θ k : ℝ) : turn a θ (k • a) = k • a := by
  have e : dot a (k • a) = k := by
    have : dot a (k • a) = k * sqNorm a := by simp only [sqNorm, dot, Pi.smul_apply, smul_eq_mul]; ring
    rw [this, ha, mul_one]
  unfold turn
  rw [e]
  apply v3_ext <;>
  · simp only [Pi.add_apply, Pi.smul_apply, smul_eq_mul, cross_zero', cross_one', cross_two']
    ring

theorem turn_turn {a : V3} (ha : sqNorm a = 1) (θ φ : ℝ) (x : V3) : turn a θ (turn a φ x) = turn a (θ + φ) x := by
  have hd : dot a (turn a φ x) = dot a x := by
    simp only [sqNorm, dot] at ha
    simp only [turn, dot, Pi.add_apply, Pi.smul_apply, smul_eq_mul, cross_zero', cross_one', cross_two']
    linear_combination (1 - Real.cos φ) * (a 0 * x 0 + a 1 * x 1 + a 2 * x 2) * ha
  simp only [sqNorm, dot] at ha
  unfold turn at hd ⊢
  rw [hd, Real.cos_add, Real.sin_add]
  apply v3_ext
  · simp only [dot, Pi.add_apply, Pi.smul_apply, smul_eq_mul, cross_zero', cross_one', cross_two']
    linear_combination (-Real.sin θ * Real.sin φ * x 0) * ha
  · simp only [dot, Pi.add_apply, Pi.smul_apply, smul_eq_mul, cross_zero', cross_one', cross_two']
    linear_combination (-Real.sin θ * Real.sin φ * x 1) * ha
  · simp only [dot, Pi.add_apply, Pi.smul_apply, smul_eq_mul, cross_zero', cross_one', cross_two']
    linear_combination (-Real.sin θ * Real.sin φ * x 2) * ha

theorem turn_sub (a : V3) (θ : ℝ) (x y : V3) : turn a θ (x - y) = turn a θ x - turn a θ y := by
  unfold turn
  apply v3_ext <;>
  · simp only [dot, Pi.add_apply, Pi.sub_apply, Pi.smul_apply, smul_eq_mul, cross_zero', cross_one', cross_two']
    ring

theorem turn_sqNorm {a : V3} (ha : sqNorm a = 1) (θ : ℝ) (x : V3) : sqNorm (turn a θ x) = sqNorm x := by
  rw [← ofAngleAxis_rot ha, sqNorm, Quat.dot_rot (ofAngleAxis_unit ha θ), sqNorm]

/-- Turning by `ω dt` written with the norm of the angular velocity, as in the integrator. -/
theorem spin_eq {a : V3} (ha : sqNorm a = 1) {ω : ℝ} (hω : ω ≠ 0) (dt : ℝ) :
    ofAngleAxis (Real.sqrt (sqNorm (ω • a)) * dt) ((1 / Real.sqrt (sqNorm (ω • a))) • (ω • a)) = ofAngleAxis (ω * dt) a := by
  have hn : Real.sqrt (sqNorm (ω • a)) = |ω| := by
    rw [sqNorm_smul, ha, mul_one, Real.sqrt_sq_eq_abs]
  rw [hn]
  rcases lt_or_gt_of_ne hω with h | h
  · have hh : |ω| = -ω := abs_of_neg h
    rw [hh]
    have e : (1 / -ω) • ω • a = (-1 : ℝ) • a := by
      rw [smul_smul]; congr 1; field_simp
    rw [e]
    have e2 : 0.5 * (-ω * dt) = -(0.5 * (ω * dt)) := by ring
    simp only [ofAngleAxis, e2, Real.cos_neg, Real.sin_neg, Pi.smul_apply, smul_eq_mul]
    ext <;> simp
  · have hh : |ω| = ω := abs_of_pos h
    rw [hh]
    have e : (1 / ω) • ω • a = a := by
      rw [smul_smul, one_div, inv_mul_cancel₀ hω, one_smul]
    rw [e]

/-! ## One step -/

/-- The integrator moves a held body by its velocity and turns it by its angular velocity. -/
theorem held_step {P : Params} {w : World} {id : Nat} {b : Bod} (h : Held P w id b) (hw : ClumpsOk w)
    (order : List Nat) (hnd : order.Nodup) (hid : id ∈ order) {a : V3} (ha : sqNorm a = 1) {ω : ℝ}
    (hs : b.st.angVel = ω • a) :
    ∃ w' b', action P order w = .ok w' ∧ ClumpsOk w' ∧ w'.bodies id = some b' ∧ b'.st.pos = b.st.pos + P.dt • b.st.vel ∧
      b'.st.ori = (ofAngleAxis (ω * P.dt) a).mul b.st.ori := by
  have hbl := beforeLoop_frame P w
  have hw0 := hw.of_bodies hbl.1
  have hb0 : (beforeLoop P w).bodies id = some b := by rw [hbl.1, h.here]
  have hact : (beforeLoop P w).active b := by
    refine ⟨?_, by rw [hbl.2.2.2.2.2.2.2, h.mine.1], h.mine.2⟩
    cases hk : b.kind with
    | member k => exact absurd hk (h.notMember k)
    | standalone => exact fun h => h
    | clump ms => exact fun h => h
  have hck : ClumpsOk (afterLoop (order.foldl
      (fun w' i => actPure P (beforeLoop P w).deform i w') (beforeLoop P w))) :=
    (foldl_clumpsOk P _ order hw0).of_bodies (afterLoop_frame _).1
  refine ⟨_, stepped P (beforeLoop P w).deform (beforeLoop P w) id b, action_eq P order hw, hck, by
    rw [(afterLoop_frame _).1]; exact foldl_once P _ hnd hw0 hid hb0 hact, ?_, ?_⟩
  all_goals
    have hD : (beforeLoop P w).deform.periodic = false := by
      show (beforeLoop P w).periodic = false
      rw [hbl.2.1, h.aperiodic]
    have hI : ((beforeLoop P w).extern id b).moveRotUsed = false := by
      show (beforeLoop P w).moveRotUsed = false
      rw [hbl.2.2.2.2.1, h.noMove]
    have hm : moves P ((beforeLoop P w).extern id b) = true := by
      rcases h.moves with h' | h'
      · simp [moves, h']
      · simp [moves, World.extern, h']
    have hasph : useAspherical P ((beforeLoop P w).extern id b) b.st = false := by
      simp [useAspherical, h.blocked, dofAll, dofRot]
  · simp only [stepped, stepState, h.blocked, ne_eq, not_true_eq_false, if_false, hasph, hD, Bool.false_and,
      Bool.false_eq_true, Bool.not_false, if_true]
    simp only [leapfrogSphericalRotate, hD, Bool.false_and, Bool.false_eq_true, if_false, imposedRot, hI, leapfrogTranslate, hm, if_true]
    split_ifs <;> rfl
  · simp only [stepped, stepState, h.blocked, ne_eq, not_true_eq_false, if_false, hasph, hD, Bool.false_and,
      Bool.false_eq_true, Bool.not_false, if_true]
    simp only [leapfrogSphericalRotate, hD, Bool.false_and, Bool.false_eq_true, if_false, imposedRot, hI, leapfrogTranslate, hm, if_true,
      Bool.and_true, decide_eq_true_eq, hs]
    by_cases h0 : ω = 0
    · subst h0
      have : sqNorm ((0 : ℝ) • a) = 0 := by rw [sqNorm_smul]; ring
      rw [if_neg (fun hc => hc this)]
      simp only [zero_mul]
      have : ofAngleAxis 0 a = Quat.one := by ext <;> simp [ofAngleAxis, Quat.one]
      rw [this, Quat.one_mul', Quat.normalize_of_unit h.unit]
    · have : sqNorm (ω • a) ≠ 0 := by rw [sqNorm_smul, ha]; simpa using h0
      rw [if_pos this]
      simp only [spin_eq ha h0]
      rw [Quat.normalize_of_unit]
      rw [Quat.sqNorm_mul, ofAngleAxis_unit ha, h.unit, mul_one]

end Verif.Drive
