import Verif.Mech.NewtonProps

/-!
# Orientations, order of the loop, free rotation, clumps (C78, C79, C80, C40)
-/
namespace Verif.Mech

/-! ## C79: the order in which bodies are visited does not matter -/

/-- **C79.** Two runs of the integrator that visit the same bodies in different orders (for instance
because the loop is divided differently over threads) end in the same scene: same states, same
forces, same measure of motion for the collider. -/
theorem C79_order_independent (P : Params) (order order' : List Nat) (h : order.Perm order') (w : World)
    (hw : ClumpsOk w) : action P order w = action P order' w := by
  rw [action_eq P order hw, action_eq P order' hw,
    foldl_perm P _ h _ (hw.of_bodies (beforeLoop_frame P w).1)]

/-- A scene with a clump and its member, visited in both orders. -/
example : ClumpsOk exClump ∧ [0, 1].Perm [1, 0] ∧ [0, 1] ≠ [1, 0] :=
  ⟨exClump_ok, List.Perm.swap 1 0 [], by decide⟩

/-! ## C78: orientations stay unit quaternions -/

/-- All orientations, and all orientations of members relative to their clump, are unit. -/
def UnitOris (w : World) : Prop :=
  ∀ id b, w.bodies id = some b → b.st.ori.sqNorm = 1 ∧
    ∀ m ∈ b.kind.members, m.2.ori.sqNorm = 1

theorem ofAngleAxis_unit {a : ℝ} {v : V3} (h : sqNorm v = 1) : (ofAngleAxis a v).sqNorm = 1 := by
  have h' : v 0 * v 0 + v 1 * v 1 + v 2 * v 2 = 1 := h
  have hs := Real.sin_sq_add_cos_sq (0.5 * a)
  simp only [ofAngleAxis, Quat.sqNorm]
  linear_combination Real.sin (0.5 * a) ^ 2 * h' + hs

theorem unit_axis {v : V3} (h : v ≠ 0) : sqNorm ((1 / norm3 v) • v) = 1 := by
  have hn := norm3_pos h
  rw [sqNorm_smul, ← norm3_sq]
  field_simp

theorem imposedRot_sqNorm (I : Extern) (e : Bool) (s : State) (h : s.ori.sqNorm ≠ 0) :
    (imposedRot I e s).ori.sqNorm ≠ 0 := by
  unfold imposedRot
  split_ifs with hc
  · simp only [Bool.and_eq_true, decide_eq_true_eq] at hc
    simp only [Quat.sqNorm_mul, ofAngleAxis_unit (unit_axis hc.1.2)]
    simpa using h
  · exact h

theorem spherical_unit (P : Params) (D : Deform) (I : Extern) (s : State) (h : s.ori.sqNorm = 1) :
    (leapfrogSphericalRotate P D I s).ori.sqNorm = 1 := by
  unfold leapfrogSphericalRotate
  simp only
  apply Quat.normalize_sqNorm
  apply imposedRot_sqNorm
  split_ifs with h1 h2 h2
  · simp only [Bool.and_eq_true, decide_eq_true_eq] at h2
    have hne : s.angVel + dSpin D ≠ 0 := fun e => h2.1 (sqNorm_eq_zero.mpr e)
    have := ofAngleAxis_unit (a := Real.sqrt (sqNorm (s.angVel + dSpin D)) * P.dt) (unit_axis hne)
    simp only [norm3] at this
    simp only [Quat.sqNorm_mul, this, h]; norm_num
  · simp [h]
  · simp only [Bool.and_eq_true, decide_eq_true_eq] at h2
    have hne : s.angVel ≠ 0 := fun e => h2.1 (sqNorm_eq_zero.mpr e)
    have := ofAngleAxis_unit (a := Real.sqrt (sqNorm s.angVel) * P.dt) (unit_axis hne)
    simp only [norm3] at this
    simp only [Quat.sqNorm_mul, this, h]; norm_num
  · simp [h]

/-- The midpoint update of the aspherical integrator is a product with the old orientation. -/
theorem midpoint_eq (q : Quat) (h : ℝ) (n ω : V3) :
    addScaled q h (dotQ ω (addScaled q (h / 2) (dotQ n q))) =
      q.mul ⟨1 - h ^ 2 / 8 * dot n ω,
        h / 2 * ω 0 + h ^ 2 / 8 * (n 1 * ω 2 - n 2 * ω 1),
        h / 2 * ω 1 + h ^ 2 / 8 * (n 2 * ω 0 - n 0 * ω 2),
        h / 2 * ω 2 + h ^ 2 / 8 * (n 0 * ω 1 - n 1 * ω 0)⟩ := by
  ext <;> simp only [addScaled, dotQ, Quat.mul, dot] <;> ring

theorem four_zero {w x y z : ℝ} (h : w * w + x * x + y * y + z * z = 0) :
    w = 0 ∧ x = 0 ∧ y = 0 ∧ z = 0 := by
  have hw := mul_self_nonneg w
  have hx := mul_self_nonneg x
  have hy := mul_self_nonneg y
  have hz := mul_self_nonneg z
  exact ⟨mul_self_eq_zero.mp (by linarith), mul_self_eq_zero.mp (by linarith),
    mul_self_eq_zero.mp (by linarith), mul_self_eq_zero.mp (by linarith)⟩

theorem midpoint_sqNorm (q : Quat) (hq : q.sqNorm = 1) (h : ℝ) (n ω : V3) :
    (addScaled q h (dotQ ω (addScaled q (h / 2) (dotQ n q)))).sqNorm ≠ 0 := by
  rw [midpoint_eq, Quat.sqNorm_mul, hq, one_mul]
  intro h0
  simp only [Quat.sqNorm] at h0
  set w := 1 - h ^ 2 / 8 * dot n ω with hw
  set x := h / 2 * ω 0 + h ^ 2 / 8 * (n 1 * ω 2 - n 2 * ω 1) with hx
  set y := h / 2 * ω 1 + h ^ 2 / 8 * (n 2 * ω 0 - n 0 * ω 2) with hy
  set z := h / 2 * ω 2 + h ^ 2 / 8 * (n 0 * ω 1 - n 1 * ω 0) with hz
  obtain ⟨w0, x0, y0, z0⟩ := four_zero h0
  -- the vector part dotted with ω is h/2 |ω|²
  have e : h / 2 * (ω 0 * ω 0 + ω 1 * ω 1 + ω 2 * ω 2) = 0 := by
    have : h / 2 * (ω 0 * ω 0 + ω 1 * ω 1 + ω 2 * ω 2) = x * ω 0 + y * ω 1 + z * ω 2 := by
      rw [hx, hy, hz]; ring
    rw [this, x0, y0, z0]; ring
  rcases mul_eq_zero.mp e with e | e
  · have : h = 0 := by linarith
    rw [this] at hw; norm_num at hw
    rw [hw] at w0; norm_num at w0
  · have hω : ω = 0 := sqNorm_eq_zero.mp e
    rw [hω] at hw; simp [dot] at hw
    rw [hw] at w0; norm_num at w0

theorem aspherical_unit (P : Params) (I : Extern) (M : V3) (s : State) (h : s.ori.sqNorm = 1) :
    (leapfrogAsphericalRotate P I M s).ori.sqNorm = 1 := by
  unfold leapfrogAsphericalRotate
  simp only
  apply Quat.normalize_sqNorm
  apply imposedRot_sqNorm
  exact midpoint_sqNorm s.ori h P.dt _ _

theorem translate_ori (P : Params) (D : Deform) (I : Extern) (s : State) :
    (leapfrogTranslate P D I s).ori = s.ori := by
  unfold leapfrogTranslate
  cases I.moveRotUsed <;> cases (D.periodic && D.homoDeform != 0) <;> cases moves P I <;> simp

theorem stepState_unit (P : Params) (D : Deform) (I : Extern) (f m : V3) (s : State)
    (h : s.ori.sqNorm = 1) : (stepState P D I f m s).ori.sqNorm = 1 := by
  have hs : ∀ x : State, x.ori = s.ori →
      (leapfrogSphericalRotate P D I (leapfrogTranslate P D I x)).ori.sqNorm = 1 := fun x hx =>
    spherical_unit P D I _ (by rw [translate_ori, hx, h])
  have ha : ∀ (x : State) (M : V3), x.ori = s.ori →
      (leapfrogAsphericalRotate P I M (leapfrogTranslate P D I x)).ori.sqNorm = 1 := fun x M hx =>
    aspherical_unit P I M _ (by rw [translate_ori, hx, h])
  unfold stepState
  simp only
  split_ifs
  all_goals first
    | (with_reducible apply hs); rfl
    | (with_reducible apply ha); rfl

theorem actPure_unit (P : Params) (D : Deform) (id : Nat) (w : World) (h : UnitOris w) :
    UnitOris (actPure P D id w) := by
  unfold actPure
  cases hb : w.bodies id with
  | none => exact h
  | some b =>
    simp only
    split_ifs with ha
    · have hbu := h id b hb
      have hsu : (stepped P D w id b).st.ori.sqNorm = 1 := stepState_unit _ _ _ _ _ _ hbu.1
      intro j bj hj
      simp only at hj
      by_cases e : j = id
      · rw [if_pos e] at hj
        injection hj with hj
        rw [← hj]
        exact ⟨hsu, hbu.2⟩
      · rw [if_neg e] at hj
        cases hl : b.kind.members.lookup j with
        | none => rw [hl] at hj; exact h j bj hj
        | some rel =>
          rw [hl] at hj
          cases hbj : w.bodies j with
          | none => rw [hbj] at hj; simp at hj
          | some b0 =>
            rw [hbj] at hj
            injection hj with hj
            have hm := hbu.2 _ (lookup_mem hl)
            rw [← hj]
            refine ⟨?_, (h j b0 hbj).2⟩
            simp only [movedMember, memberState, Quat.sqNorm_mul, hsu]
            simpa using hm
    · exact h

/-- Any number of runs of the integrator, each with its own parameters and its own forces, imposed
motions and cell, on a scene whose bodies are otherwise left alone. -/
inductive Runs : World → World → Prop
  | refl (w) : Runs w w
  | env {w w1 w2} : Runs w w1 → w2.bodies = w1.bodies → Runs w w2
  | step {w w1 w2} (P : Params) (order : List Nat) : Runs w w1 → action P order w1 = .ok w2 →
      Runs w w2

/-- **C78.** Orientations of all bodies stay unit quaternions, whatever the forces, velocities, imposed
rotations, time steps and integrator. -/
theorem C78_orientations_unit {w w' : World} (hr : Runs w w') (hc : ClumpsOk w) (hu : UnitOris w) :
    UnitOris w' := by
  suffices ClumpsOk w' ∧ UnitOris w' from this.2
  induction hr with
  | refl => exact ⟨hc, hu⟩
  | env _ hb ih =>
    refine ⟨ih.1.of_bodies hb, ?_⟩
    intro id b h
    rw [hb] at h
    exact ih.2 id b h
  | @step w1 w2 P order _ ha ih =>
    obtain ⟨hc1, hu1⟩ := ih
    have hb := (beforeLoop_frame P w1).1
    have hc1' := hc1.of_bodies hb
    have hu1' : UnitOris (beforeLoop P w1) := by
      intro id b h; rw [hb] at h; exact hu1 id b h
    rw [action_eq P order hc1] at ha
    injection ha with ha
    have key : ∀ (D : Deform) (o : List Nat) (v : World), UnitOris v →
        UnitOris (o.foldl (fun w i => actPure P D i w) v) := by
      intro D o
      induction o with
      | nil => intro v hv; exact hv
      | cons i o ih => intro v hv; exact ih _ (actPure_unit P D i v hv)
    rw [← ha]
    refine ⟨(foldl_clumpsOk P _ order hc1').of_bodies (afterLoop_frame _).1, ?_⟩
    intro id b h
    rw [(afterLoop_frame _).1] at h
    exact key _ order _ hu1' id b h

/-- The hypotheses hold for the scene with a clump, and a run exists. -/
example : ClumpsOk exClump ∧ UnitOris exClump ∧ ∃ w', Runs exClump w' ∧ action exParams [0, 1] exClump = .ok w' := by
  refine ⟨exClump_ok, ?_, ?_⟩
  · intro id b hb
    simp only [exClump, exWorld] at hb
    split_ifs at hb <;> injection hb with hb <;> subst hb
    · exact ⟨by simp [exBod, exState, Quat.one, Quat.sqNorm], by simp [exBod, Kind.members]⟩
    · refine ⟨by simp [exBod, exState, Quat.one, Quat.sqNorm], ?_⟩
      simp [exBod, Kind.members, Quat.one, Quat.sqNorm]
  · obtain ⟨w', h, -⟩ := action_ok exParams [0, 1] exClump_ok
    exact ⟨w', .step exParams [0, 1] (.refl _) h, h⟩

/-! ## C80: free rotation -/

/-- **C80 (part).** Without torque the aspherical integrator keeps the angular momentum exactly, damped
or not, in one and hence in any number of steps. -/
theorem C80_momentum_partial (P : Params) (D : Deform) (I : Extern) (f : V3) (s : State) :
    (stepState P D I f 0 s).angMom = s.angMom := by
  have ht : ∀ x : State, (leapfrogTranslate P D I x).angMom = x.angMom := by
    intro x
    unfold leapfrogTranslate
    cases I.moveRotUsed <;> cases (D.periodic && D.homoDeform != 0) <;> cases moves P I <;> simp
  have hi : ∀ (x : State) e, (imposedRot I e x).angMom = x.angMom := by
    intro x e; unfold imposedRot; split_ifs <;> rfl
  have hs : ∀ x : State, (leapfrogSphericalRotate P D I x).angMom = x.angMom := by
    intro x
    unfold leapfrogSphericalRotate
    simp only [hi]
    split_ifs <;> rfl
  have ha : ∀ x : State, (leapfrogAsphericalRotate P I 0 x).angMom = x.angMom := by
    intro x
    unfold leapfrogAsphericalRotate
    simp only [hi]
    simp
  have hz : ∀ x : State, asphTorque P 0 x = 0 := by
    intro x
    unfold asphTorque
    funext i
    cases x.isDamped <;> simp [cundallDamp1st]
  unfold stepState
  simp only [hz]
  split_ifs <;> simp only [hs, ha, ht]

/-- **C80 (part).** Without torque the spherical integrator keeps the angular velocity exactly in a
non-periodic scene. -/
theorem C80_angVel_partial (P : Params) (D : Deform) (I : Extern) (f : V3) (s : State)
    (hD : D.periodic = false) (hu : useAspherical P I s = false) :
    (stepState P D I f 0 s).angVel = s.angVel := by
  have hz : ∀ x : State, angAccel P 0 x = 0 := by
    intro x
    have h0 : computeAngAccel 0 x.inertia x.blocked = 0 := by
      unfold computeAngAccel; split_ifs <;> funext i <;> simp
    unfold angAccel
    simp only [h0]
    funext i
    split_ifs <;> simp [cundallDamp2nd]
  unfold stepState
  simp only [hu]
  split_ifs with h1 h2
  all_goals first
    | (exfalso; simp at *; done)
    | (rw [(spherical_vel P D I _ hD).2.1, (translate_vel P D I _ hD).2.1]; try simp [hz])

/-- `r` turns by the angle `|v|` about the direction of `v`. -/
def IsTurn (v : V3) (r : Quat) : Prop :=
  r.sqNorm = 1 ∧ r.w = Real.cos (norm3 v / 2) ∧ norm3 v • r.vec = Real.sin (norm3 v / 2) • v

/-- **C80 (part).** With the spherical integrator and no imposed rotation the orientation turns by the
angle |ω| dt about the new angular velocity ω, in the world frame. -/
theorem C80_turn_partial (P : Params) (D : Deform) (I : Extern) (f m : V3) (s : State)
    (hD : D.periodic = false) (hu : useAspherical P I s = false) (hm : moves P I = true)
    (hrot : I.moveRotUsed = false ∨ I.rot = 0) (hq : s.ori.sqNorm = 1) (hdt : 0 ≤ P.dt) :
    ∃ r, (stepState P D I f m s).ori = r.mul s.ori ∧ IsTurn (P.dt • (stepState P D I f m s).angVel) r := by
  have key : ∀ x : State, x.ori = s.ori →
      ∃ r, (leapfrogSphericalRotate P D I (leapfrogTranslate P D I x)).ori = r.mul s.ori ∧
        IsTurn (P.dt • (leapfrogSphericalRotate P D I (leapfrogTranslate P D I x)).angVel) r := by
    intro x hx
    have h1 : (leapfrogTranslate P D I x).ori = s.ori := by rw [translate_ori, hx]
    rw [(spherical_vel P D I _ hD).2.1]
    generalize leapfrogTranslate P D I x = y at *
    have hir : ∀ (z : State) e, imposedRot I e z = z := by
      intro z e
      unfold imposedRot
      rcases hrot with h | h <;> simp [h]
    unfold leapfrogSphericalRotate
    simp only [hD, hir, hm, Bool.false_and, Bool.false_eq_true, if_false, Bool.and_true,
      decide_eq_true_eq]
    by_cases h0 : sqNorm y.angVel = 0
    · have hz := sqNorm_eq_zero.mp h0
      refine ⟨Quat.one, ?_, ?_⟩
      · simp only [h0, ne_eq, not_true_eq_false, if_false, h1, Quat.one_mul']
        exact Quat.normalize_of_unit hq
      · rw [hz, smul_zero]
        have : norm3 (0 : V3) = 0 := norm3_eq_zero.mpr rfl
        refine ⟨by simp [Quat.one, Quat.sqNorm], by simp [this, Quat.one], by simp [this]⟩
    · have hne : y.angVel ≠ 0 := fun e => h0 (sqNorm_eq_zero.mpr e)
      have hpos := norm3_pos hne
      have hun := ofAngleAxis_unit (a := norm3 y.angVel * P.dt) (unit_axis hne)
      refine ⟨ofAngleAxis (norm3 y.angVel * P.dt) ((1 / norm3 y.angVel) • y.angVel), ?_, hun, ?_, ?_⟩
      · simp only [ne_eq, h0, not_false_eq_true, if_true, h1]
        apply Quat.normalize_of_unit
        have hun' := hun
        simp only [norm3] at hun'
        rw [Quat.sqNorm_mul, hun', hq, one_mul]
      all_goals
        have hn : norm3 (P.dt • y.angVel) = P.dt * norm3 y.angVel := by
          simp only [norm3, sqNorm_smul]
          rw [Real.sqrt_mul (by positivity), Real.sqrt_sq hdt]
      · rw [hn]; simp only [ofAngleAxis]; congr 1; ring
      · rw [hn]
        have e : (0.5 : ℝ) * (norm3 y.angVel * P.dt) = P.dt * norm3 y.angVel / 2 := by ring
        apply v3_ext <;>
        · simp only [ofAngleAxis, Pi.smul_apply, smul_eq_mul, vec_zero', vec_one', vec_two', e]
          field_simp
  unfold stepState
  simp only [hu]
  split_ifs with a1 a2
  all_goals first
    | (exfalso; simp at *; done)
    | (with_reducible apply key); rfl

/-- A spinning body meets the hypotheses. -/
example : useAspherical exParams
    { moveRotUsed := false, move := 0, rot := 0, aspherical := false, maskCompatible := true }
    { exState 0 0 with angVel := ![1, 0, 0] } = false ∧
    (exState 0 0).ori.sqNorm = 1 ∧ (0 : ℝ) ≤ exParams.dt := by
  refine ⟨rfl, by simp [exState, Quat.one, Quat.sqNorm], by simp [exParams]⟩

/-- A body with equal principal moments handled by the aspherical integrator, spinning about x. -/
noncomputable def exSpin : State :=
  { pos := 0, ori := ⟨3 / 5, 0, 0, 4 / 5⟩, vel := 0, angVel := ![1, 0, 0], angMom := ![1, 0, 0], mass := 1,
    inertia := fun _ => 1, blocked := 0, isDamped := false, densityScaling := 1 }

/-- **C80 fails for the angular velocity of the aspherical integrator.** The body spins freely, its
inertia is 1 about every axis and its angular momentum stays (1,0,0); the true angular velocity
is therefore (1,0,0) for ever, but the integrator reports (33/25, 6/25, 0) after one step, because it rotates
the angular velocity with the orientation before normalising it. -/
theorem C80_violated_angVel :
    let s' := stepState { exParams with dt := 2 }
      { periodic := false, homoDeform := 0, dVelGrad := 0, prevVelGrad := 0 }
      { moveRotUsed := false, move := 0, rot := 0, aspherical := true, maskCompatible := true } 0 0 exSpin
    exSpin.ori.sqNorm = 1 ∧ s'.angMom = ![1, 0, 0] ∧ s'.angVel = ![33 / 25, 6 / 25, 0] := by
  refine ⟨by norm_num [exSpin, Quat.sqNorm], ?_, ?_⟩
  · rw [C80_momentum_partial]; rfl
  · simp only [stepState, exSpin, dofAll, useAspherical, exParams, dofRot, asphTorque, linAccel,
      computeAccel, leapfrogTranslate, leapfrogAsphericalRotate, imposedRot, moves]
    apply v3_ext <;>
    · simp [Quat.rot, Quat.conj, addScaled, dotQ, cross, Quat.vec, Quat.toMat,
        Matrix.mulVec, dotProduct, Fin.sum_univ_three]
      norm_num

/-! ## C40: clumps -/

/-- Sum of vectors over the members of a clump. -/
def overMembers (ms : List (Nat × Se3)) (f : Nat → V3) : V3 := (ms.map fun m => f m.1).sum

/-- Position of a body. -/
noncomputable def World.posOf (w : World) (id : Nat) : V3 := ((w.bodies id).map fun b => b.st.pos).getD 0

/-- Moment about a point of the forces and torques on a set of bodies. -/
noncomputable def momentAbout (w : World) (p : V3) (ms : List (Nat × Se3)) : V3 :=
  overMembers ms fun k => w.torque k + cross (w.posOf k - p) (w.force k)

/-- **C40 (resultant).** The force and torque transferred to a clump are the resultant force of all
members and their resultant moment about the clump's centre; with the resultant force acting at the clump's
centre the moment about *every* point is preserved. -/
theorem C40_resultant (w : World) (c : V3) (ms : List (Nat × Se3))
    (h : ∀ m ∈ ms, ∃ b, w.bodies m.1 = some b) :
    ∃ F T, addForceTorqueFromMembers w c ms 0 0 = .ok (F, T) ∧ F = overMembers ms w.force ∧
      T = momentAbout w c ms ∧ ∀ p, T + cross (c - p) F = momentAbout w p ms := by
  have key : ∀ F0 T0, ∃ F T, addForceTorqueFromMembers w c ms F0 T0 = .ok (F, T) ∧
      F = F0 + overMembers ms w.force ∧ T = T0 + momentAbout w c ms := by
    induction ms with
    | nil => intro F0 T0; exact ⟨_, _, rfl, by simp [overMembers], by simp [momentAbout, overMembers]⟩
    | cons m ms ih =>
      obtain ⟨id, rel⟩ := m
      intro F0 T0
      obtain ⟨b, hb⟩ := h (id, rel) (List.mem_cons_self ..)
      obtain ⟨F, T, h1, h2, h3⟩ := ih (fun m hm => h m (List.mem_cons_of_mem _ hm)) (F0 + w.force id)
        (T0 + (w.torque id + cross (b.st.pos - c) (w.force id)))
      have hp : w.posOf id = b.st.pos := by simp only [World.posOf]; simp only [] at hb; rw [hb]; rfl
      refine ⟨F, T, ?_, ?_, ?_⟩
      · simp only [addForceTorqueFromMembers]
        simp only [] at hb
        rw [hb]; exact h1
      · rw [h2]; simp [overMembers, add_assoc]
      · rw [h3]; simp [momentAbout, overMembers, hp, add_assoc]
  obtain ⟨F, T, h1, h2, h3⟩ := key 0 0
  rw [zero_add] at h2 h3
  refine ⟨F, T, h1, h2, h3, ?_⟩
  intro p
  subst h2 h3
  clear key h1 h
  induction ms with
  | nil => apply v3_ext <;> simp [momentAbout, overMembers]
  | cons m ms ih =>
    have e : ∀ q, momentAbout w q (m :: ms) =
        (w.torque m.1 + cross (w.posOf m.1 - q) (w.force m.1)) + momentAbout w q ms := by
      intro q; simp [momentAbout, overMembers]
    have e2 : overMembers (m :: ms) w.force = w.force m.1 + overMembers ms w.force := by
      simp [overMembers]
    rw [e, e, e2, ← ih]
    apply v3_ext <;>
    · simp only [Pi.add_apply, Pi.sub_apply, cross_zero', cross_one', cross_two']
      ring

/-- Two members with a force couple: force zero, moment not zero. -/
example : ∃ w : World, ∃ F T, addForceTorqueFromMembers w 0 [(0, ⟨0, Quat.one⟩), (1, ⟨0, Quat.one⟩)] 0 0 =
    .ok (F, T) ∧ F = 0 ∧ T = ![0, 0, 2] := by
  refine ⟨{ exWorld (fun j => some (exBod { exState 0 0 with pos := if j = 0 then ![1, 0, 0] else ![-1, 0, 0] }
    (.member 2))) with force := fun j => if j = 0 then ![0, 1, 0] else ![0, -1, 0] }, _, _, rfl, ?_, ?_⟩
  · apply v3_ext <;> simp
  · apply v3_ext <;> simp [exWorld, exBod, exState]; norm_num

/-- A body placed rigidly with respect to a clump. -/
structure Rigid (c : State) (rel : Se3) (m : State) : Prop where
  /-- its position and orientation are the clump's composed with the relative ones -/
  pos : m.pos = c.pos + c.ori.rot rel.pos
  ori : m.ori = c.ori.mul rel.ori
  /-- its velocity is the one of a rigid motion -/
  vel : m.vel = c.vel + cross c.angVel (m.pos - c.pos)
  angVel : m.angVel = c.angVel

/-- **C40 (rigid motion).** After one run of the integrator every member of a clump of this process is
placed rigidly with respect to its clump. -/
theorem C40_rigid (P : Params) (order : List Nat) (hnd : order.Nodup) (w : World) (hw : ClumpsOk w)
    (id : Nat) (hid : id ∈ order) (b : Bod) (ms : List (Nat × Se3)) (hb : w.bodies id = some b)
    (hk : b.kind = .clump ms) (hsub : w.subdomain = b.subdomain) (hns : b.isSubdomain = false) :
    ∃ w' c, action P order w = .ok w' ∧ w'.bodies id = some c ∧ c.kind = .clump ms ∧
      ∀ m ∈ ms, ∃ mb, w'.bodies m.1 = some mb ∧ Rigid c.st m.2 mb.st := by
  have hbl := beforeLoop_frame P w
  have hw0 := hw.of_bodies hbl.1
  have hb0 : (beforeLoop P w).bodies id = some b := by rw [hbl.1, hb]
  have ha : (beforeLoop P w).active b :=
    ⟨by rw [hk]; exact fun h => h, by rw [hbl.2.2.2.2.2.2.2, hsub], hns⟩
  set v := beforeLoop P w
  set D := v.deform
  refine ⟨_, stepped P D v id b, action_eq P order hw, by
    rw [(afterLoop_frame _).1]; exact foldl_once P _ hnd hw0 hid hb0 ha, hk, ?_⟩
  intro m hm
  rw [(afterLoop_frame _).1]
  obtain ⟨rest, hperm⟩ : ∃ rest, order.Perm (rest ++ [id]) :=
    ⟨order.erase id, (List.perm_cons_erase hid).trans (List.perm_append_comm (l₁ := [id]))⟩
  have hnd' := hperm.nodup hnd
  rw [foldl_perm P D hperm v hw0, List.foldl_append]
  simp only [List.foldl_cons, List.foldl_nil]
  have hidr : id ∉ rest := by
    intro h
    rw [List.nodup_append] at hnd'
    exact hnd'.2.2 id h id (List.mem_singleton_self _) rfl
  set u := rest.foldl (fun w i => actPure P D i w) v with hu
  have huc : ClumpsOk u := foldl_clumpsOk P D rest hw0
  -- the clump is untouched before its turn
  have hbu : u.bodies id = some b ∧ u.active b := by
    clear hperm hnd' hnd hid
    have : ∀ (r : List Nat) (x : World), ClumpsOk x → id ∉ r → x.bodies id = some b → x.active b →
        (r.foldl (fun w i => actPure P D i w) x).bodies id = some b ∧
        (r.foldl (fun w i => actPure P D i w) x).active b := by
      intro r
      induction r with
      | nil => intro x _ _ h1 h2; exact ⟨h1, h2⟩
      | cons j r ih =>
        intro x hx hj h1 h2
        simp only [List.mem_cons, not_or] at hj
        rw [List.foldl_cons]
        refine ih _ (actPure_clumpsOk P D j hx) hj.2 ?_ ?_
        · rcases actPure_nonmember P D hx j id h1 h2.1 with h | ⟨e, -⟩
          · exact h
          · exact absurd e.symm hj.1
        · exact ⟨h2.1, by rw [(actPure_frame P D j x).1]; exact h2.2.1, h2.2.2⟩
    exact this rest v hw0 hidr hb0 ha
  have hst : stepped P D u id b = stepped P D v id b := by
    have h1 : (rest ++ [id]).foldl (fun w i => actPure P D i w) v = actPure P D id u := by
      rw [List.foldl_append]; rfl
    have h2 := foldl_once P D hnd' hw0 (by simp) hb0 ha
    rw [h1, actPure_active P D hbu.1 hbu.2] at h2
    simpa using h2
  obtain ⟨hn, hmem⟩ := huc id b ms hbu.1 hk
  obtain ⟨mb, hmb, hmk⟩ := hmem m.1 (List.mem_map_of_mem hm)
  have hne : m.1 ≠ id := by
    intro e
    rw [e, hbu.1] at hmb
    injection hmb with hmb
    rw [← hmb, hk] at hmk; cases hmk
  refine ⟨movedMember (stepped P D u id b).st m.2 mb, ?_, ?_⟩
  · rw [actPure_active P D hbu.1 hbu.2]
    have hl : b.kind.members.lookup m.1 = some m.2 := by
      rw [hk]; exact lookup_of_mem hn hm
    simp only [if_neg hne, hl, hmb, Option.map_some]
  · rw [hst]
    exact ⟨rfl, rfl, rfl, rfl⟩

/-- **C40 (relative positions).** Rigid placement keeps every distance between members, whatever the
motion of the clump. -/
theorem C40_distances {c c' a a' b b' : State} {ra rb : Se3} (hc : c.ori.sqNorm = 1)
    (hc' : c'.ori.sqNorm = 1) (ha : Rigid c ra a) (hb : Rigid c rb b) (ha' : Rigid c' ra a')
    (hb' : Rigid c' rb b') : sqNorm (a'.pos - b'.pos) = sqNorm (a.pos - b.pos) := by
  have e : ∀ (x p q : V3) (o : Quat), x + o.rot p - (x + o.rot q) = o.rot (p - q) := by
    intro x p q o; rw [Quat.rot_sub]; abel
  rw [ha.pos, hb.pos, ha'.pos, hb'.pos, e, e, sqNorm, Quat.dot_rot hc', sqNorm, Quat.dot_rot hc]

/-- **C40 (relative orientations).** Seen from one member, the position of the other stays the same. -/
theorem C40_relative {c c' a a' b b' : State} {ra rb : Se3} (hc : c.ori.sqNorm = 1)
    (hc' : c'.ori.sqNorm = 1) (hra : ra.ori.sqNorm = 1) (ha : Rigid c ra a) (hb : Rigid c rb b)
    (ha' : Rigid c' ra a') (hb' : Rigid c' rb b') :
    a'.ori.conj.rot (b'.pos - a'.pos) = a.ori.conj.rot (b.pos - a.pos) ∧
    a'.ori.conj.mul b'.ori = a.ori.conj.mul b.ori := by
  have e : ∀ (x p q : V3) (o : Quat), x + o.rot p - (x + o.rot q) = o.rot (p - q) := by
    intro x p q o; rw [Quat.rot_sub]; abel
  have f : ∀ (o : Quat), o.sqNorm = 1 → ∀ v, (o.mul ra.ori).conj.rot (o.rot v) = ra.ori.conj.rot v := by
    intro o ho v
    rw [Quat.conj_mul, Quat.rot_mul (by rw [Quat.sqNorm_conj, hra]) (by rw [Quat.sqNorm_conj, ho]),
      Quat.conj_rot_rot ho]
  have g : ∀ (o : Quat), o.sqNorm = 1 → (o.mul ra.ori).conj.mul (o.mul rb.ori) = ra.ori.conj.mul rb.ori := by
    intro o ho
    rw [Quat.conj_mul, Quat.mul_assoc', ← Quat.mul_assoc' o.conj, Quat.conj_mul_self ho, Quat.one_mul']
  constructor
  · rw [ha.pos, hb.pos, ha'.pos, hb'.pos, ha.ori, ha'.ori, e, e, f _ hc', f _ hc]
  · rw [ha.ori, hb.ori, ha'.ori, hb'.ori, g _ hc', g _ hc]

/-- Every member of every clump sits where its relative position says. -/
def PoseRigid (w : World) : Prop :=
  ∀ id b ms, w.bodies id = some b → b.kind = .clump ms → ∀ m ∈ ms, ∀ mb, w.bodies m.1 = some mb →
    mb.st.pos = b.st.pos + b.st.ori.rot m.2.pos ∧ mb.st.ori = b.st.ori.mul m.2.ori

theorem actPure_rigid (P : Params) (D : Deform) (i : Nat) {w : World} (hw : ClumpsOk w)
    (h : PoseRigid w) : PoseRigid (actPure P D i w) := by
  cases hbi : w.bodies i with
  | none =>
    rw [actPure_inactive P D (fun b hb => by rw [hbi] at hb; cases hb)]; exact h
  | some bi =>
    by_cases ha : w.active bi
    · intro id b ms hb hk m hm mb hmb
      have hsig := actPure_sig P D i w
      have hw' := actPure_clumpsOk P D i hw
      obtain ⟨b0, hb0, hs0⟩ := SameSig.symm hsig |>.some hb
      have hk0 : b0.kind = .clump ms := by rw [sig_kind hs0, hk]
      obtain ⟨hn, hmem⟩ := hw id b0 ms hb0 hk0
      obtain ⟨m0, hm0, hmk⟩ := hmem m.1 (List.mem_map_of_mem hm)
      have hmi : m.1 ≠ i := by
        intro e
        rw [e, hbi] at hm0
        injection hm0 with hm0
        apply ha.1
        rw [hm0, hmk]; trivial
      rw [actPure_active P D hbi ha] at hb hmb
      simp only [if_neg hmi] at hmb
      by_cases e : id = i
      · subst e
        rw [hbi] at hb0
        injection hb0 with hb0
        subst hb0
        simp only [if_true] at hb
        injection hb with hb
        subst hb
        have hl : bi.kind.members.lookup m.1 = some m.2 := by
          rw [hk0]; exact lookup_of_mem hn hm
        rw [hl, hm0] at hmb
        simp only [Option.map_some, Option.some.injEq] at hmb
        rw [← hmb]
        exact ⟨rfl, rfl⟩
      · simp only [if_neg e] at hb
        have hnl : ∀ j, (∃ rel, bi.kind.members.lookup j = some rel) →
            ∃ bj, w.bodies j = some bj ∧ bj.kind = .member i := by
          rintro j ⟨rel, hl⟩
          cases hki : bi.kind with
          | standalone => rw [hki] at hl; simp [Kind.members] at hl
          | member c => rw [hki] at hl; simp [Kind.members] at hl
          | clump msi =>
            obtain ⟨-, hmemi⟩ := hw i bi msi hbi hki
            rw [hki] at hl
            exact hmemi j (List.mem_map_of_mem (lookup_mem hl))
        have h1 : bi.kind.members.lookup id = none := by
          cases hl : bi.kind.members.lookup id with
          | none => rfl
          | some rel =>
            obtain ⟨bj, hj, hjk⟩ := hnl id ⟨rel, hl⟩
            rw [hb0] at hj
            injection hj with hj
            rw [← hj, hk0] at hjk; cases hjk
        have h2 : bi.kind.members.lookup m.1 = none := by
          cases hl : bi.kind.members.lookup m.1 with
          | none => rfl
          | some rel =>
            obtain ⟨bj, hj, hjk⟩ := hnl m.1 ⟨rel, hl⟩
            rw [hm0] at hj
            injection hj with hj
            rw [← hj, hmk] at hjk
            injection hjk with hjk
            exact absurd hjk e
        rw [h1] at hb
        rw [h2] at hmb
        exact h id b ms hb hk m hm mb hmb
    · rw [actPure_inactive P D (fun b hb => by
        rw [hbi] at hb; injection hb with hb; rw [← hb]; exact ha)]
      exact h

/-- **C40 (whole runs).** Any number of runs of the integrator keeps the distance between any two members
of any clump. -/
theorem C40_runs {w w' : World} (hr : Runs w w') (hc : ClumpsOk w) (hu : UnitOris w)
    (hp : PoseRigid w) {id : Nat} {b : Bod} {ms : List (Nat × Se3)} (hb : w.bodies id = some b)
    (hk : b.kind = .clump ms) {m n : Nat × Se3} (hm : m ∈ ms) (hn : n ∈ ms) :
    sqNorm (w'.posOf m.1 - w'.posOf n.1) = sqNorm (w.posOf m.1 - w.posOf n.1) := by
  have key : ClumpsOk w' ∧ PoseRigid w' ∧ SameSig w w' := by
    induction hr with
    | refl => exact ⟨hc, hp, fun _ => rfl⟩
    | env _ hb ih =>
      refine ⟨ih.1.of_bodies hb, ?_, ?_⟩
      · intro id b ms h
        rw [hb] at *
        exact ih.2.1 id b ms h
      · intro j; rw [hb]; exact ih.2.2 j
    | @step w1 w2 P order _ ha ih =>
      obtain ⟨hc1, hp1, hs1⟩ := ih
      have hbb := (beforeLoop_frame P w1).1
      have hp1' : PoseRigid (beforeLoop P w1) := by
        intro id b ms h
        rw [hbb] at *
        exact hp1 id b ms h
      rw [action_eq P order hc1] at ha
      injection ha with ha
      have loop : ∀ (D : Deform) (o : List Nat) (v : World), ClumpsOk v → PoseRigid v →
          PoseRigid (o.foldl (fun w i => actPure P D i w) v) ∧
          SameSig v (o.foldl (fun w i => actPure P D i w) v) := by
        intro D o
        induction o with
        | nil => intro v _ hv; exact ⟨hv, fun _ => rfl⟩
        | cons i o ih =>
          intro v hv1 hv2
          obtain ⟨h1, h2⟩ := ih _ (actPure_clumpsOk P D i hv1) (actPure_rigid P D i hv1 hv2)
          exact ⟨h1, fun j => (h2 j).trans (actPure_sig P D i v j)⟩
      obtain ⟨h1, h2⟩ := loop (beforeLoop P w1).deform order _ (hc1.of_bodies hbb) hp1'
      rw [← ha]
      refine ⟨(foldl_clumpsOk P _ order (hc1.of_bodies hbb)).of_bodies (afterLoop_frame _).1, ?_, ?_⟩
      · intro id b ms h
        rw [(afterLoop_frame _).1] at *
        exact h1 id b ms h
      · intro j
        rw [(afterLoop_frame _).1, h2 j, hbb]
        exact hs1 j
  have hu' := C78_orientations_unit hr hc hu
  have dist : ∀ (v : World), ClumpsOk v → PoseRigid v → UnitOris v → ∀ c, v.bodies id = some c →
      c.kind = .clump ms → sqNorm (v.posOf m.1 - v.posOf n.1) = sqNorm (m.2.pos - n.2.pos) := by
    intro v hv1 hv2 hv3 c hcb hck
    obtain ⟨-, hmem⟩ := hv1 id c ms hcb hck
    have pos : ∀ x ∈ ms, v.posOf x.1 = c.st.pos + c.st.ori.rot x.2.pos := by
      intro x hx
      obtain ⟨xb, hxb, -⟩ := hmem x.1 (List.mem_map_of_mem hx)
      simp only [World.posOf, hxb, Option.map_some, Option.getD_some]
      exact (hv2 id c ms hcb hck x hx xb hxb).1
    rw [pos m hm, pos n hn]
    have e : c.st.pos + c.st.ori.rot m.2.pos - (c.st.pos + c.st.ori.rot n.2.pos) =
        c.st.ori.rot (m.2.pos - n.2.pos) := by rw [Quat.rot_sub]; abel
    rw [e, sqNorm, Quat.dot_rot (hv3 id c hcb).1, sqNorm]
  obtain ⟨b', hb', hs'⟩ := key.2.2.some hb
  rw [dist w hc hp hu b hb hk, dist w' key.1 key.2.1 hu' b' hb' (by rw [sig_kind hs', hk])]

/-- The hypotheses of `C40_runs` hold for the scene with a clump. -/
example : PoseRigid exClump := by
  intro id b ms hb hk m hm mb hmb
  simp only [exClump, exWorld] at hb hmb
  split_ifs at hb with h1 h2 <;> injection hb with hb <;> subst hb
  · cases hk
  · injection hk with hk
    subst hk
    simp only [List.mem_singleton] at hm
    subst hm
    simp only [if_true] at hmb
    injection hmb with hmb
    subst hmb
    constructor
    · apply v3_ext <;> simp [exBod, exState]
    · simp [exBod, exState]

/-- A clump turned by 180° about z with a member off its centre. -/
example : Rigid { exState 0 ![1, 0, 0] with ori := ⟨0, 0, 0, 1⟩ } ⟨![1, 0, 0], Quat.one⟩
    { exState 0 ![1, 0, 0] with pos := ![-1, 0, 0], ori := ⟨0, 0, 0, 1⟩ } := by
  refine ⟨?_, ?_, ?_, rfl⟩
  · apply v3_ext <;> simp [exState, Quat.rot, cross, Quat.vec]
  · ext <;> simp [Quat.mul, Quat.one]
  · apply v3_ext <;> simp [exState]

/-! ## C81: energy tracking -/

/-- Rotational energy of a rigid body: half the sum over its principal axes of the moment of inertia
times the squared component of the angular velocity along that axis. -/
noncomputable def trueRotEnergy (s : State) : ℝ :=
  1 / 2 * (s.inertia 0 * dot s.angVel (s.ori.rot ![1, 0, 0]) ^ 2 +
    s.inertia 1 * dot s.angVel (s.ori.rot ![0, 1, 0]) ^ 2 +
    s.inertia 2 * dot s.angVel (s.ori.rot ![0, 0, 1]) ^ 2)

/-- **C81 (part).** The energy reported as lost in damping never decreases. -/
theorem C81_damping_partial (P : Params) (asph : Bool) (s : State) (fluctVel f m : V3) (hd : 0 ≤ P.damping)
    (ht : 0 ≤ P.dt) : 0 ≤ (updateEnergy P asph s fluctVel f m).damp := by
  unfold updateEnergy
  simp only
  split_ifs
  · have h : ∀ a b : V3, 0 ≤ dot (cwiseAbs a) (cwiseAbs b) := by
      intro a b
      simp only [dot, cwiseAbs]
      positivity
    have h1 := h fluctVel f
    have h2 := h s.angVel m
    positivity
  · exact le_refl _

/-- **C81 (part).** For bodies whose three moments of inertia are equal the reported rotational energy
is right, for every unit orientation and both integrators. -/
theorem C81_rotational_partial (P : Params) (asph : Bool) (s : State) (fluctVel f m : V3)
    (hq : s.ori.sqNorm = 1) (h1 : s.inertia 1 = s.inertia 0) (h2 : s.inertia 2 = s.inertia 0) :
    (updateEnergy P asph s fluctVel f m).erot = trueRotEnergy s := by
  have hR := sqNorm_rows hq s.angVel
  have hC : dot s.angVel (s.ori.rot ![1, 0, 0]) ^ 2 + dot s.angVel (s.ori.rot ![0, 1, 0]) ^ 2 +
      dot s.angVel (s.ori.rot ![0, 0, 1]) ^ 2 = sqNorm s.angVel := sqNorm_cols hq s.angVel
  have e : trueRotEnergy s = 1 / 2 * (s.inertia 0 * sqNorm s.angVel) := by
    rw [trueRotEnergy, h1, h2, ← hC]; ring
  rw [e]
  cases asph
  · simp only [updateEnergy, dot, sqNorm, h1, h2, Bool.false_eq_true, if_false]
    ring
  · have := rotEnergy_mat s.ori s.inertia s.angVel
    simp only [updateEnergy, if_true, this]
    rw [h1, h2, ← hR]; ring

/-- **C81 fails for turned bodies with unequal moments**: the inertia tensor is turned by the inverse
of the orientation.  Witness: I = (1,2,3), turned about z, spinning about (1,1,0). -/
theorem C81_violated : ∃ s : State, s.ori.sqNorm = 1 ∧
    (updateEnergy exParams true s 0 0 0).erot ≠ trueRotEnergy s := by
  refine ⟨{ exState 0 0 with ori := ⟨3 / 5, 0, 0, 4 / 5⟩, angVel := ![1, 1, 0], inertia := ![1, 2, 3] },
    by norm_num [Quat.sqNorm], ?_⟩
  have := rotEnergy_mat ⟨3 / 5, 0, 0, 4 / 5⟩ ![1, 2, 3] ![1, 1, 0]
  simp only [updateEnergy, if_true, this, trueRotEnergy]
  simp [Quat.rot, cross, Quat.vec, dot]
  norm_num

/-- A body on which damping takes energy: the increment is positive. -/
example : 0 < (updateEnergy exParams false (exState 0 ![1, 0, 0]) ![1, 0, 0] ![1, 0, 0] 0).damp := by
  simp [updateEnergy, exParams, exState, dot, cwiseAbs]; norm_num

end Verif.Mech
