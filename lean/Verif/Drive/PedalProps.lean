import Verif.Drive.KinProps

/-!
# C122: the bicycle pedal
-/
namespace Verif.Drive
open Verif.Mech

/-! ## Auxiliary facts -/

theorem bicycle_action (T : V3 → V3 → Quat) {c : Ctx} {ids : List Int} (hr : InRange c ids) (hne : ids ≠ []) (w : World)
    (ω : ℝ) (axis : V3) (radius fi : ℝ) :
    (Kin.bicycle ω axis radius fi).action T c ids w = .ok (.bicycle ω axis radius (fi + ω * c.dt),
      adds ids (fun _ => ((T ![0, 0, 1] axis).rot ((1 / c.dt) • (pedal radius fi - pedal radius (fi + ω * c.dt))), 0)) (stops ids w)) := by
  have he : ids.isEmpty = false := by cases ids <;> simp_all
  rw [Kin.action, he, if_neg (by simp), onEach_stops hr, Res.bind_ok, Kin.apply, applyBicycle, he, if_neg (by simp)]
  dsimp only
  rw [show onEach c (addVel _ 0) ids (stops ids w) = _ from onEach_uniform hr (fun _ =>
    (T ![0, 0, 1] axis).rot ((1 / c.dt) • (pedal radius fi - pedal radius (fi + ω * c.dt)))) (fun _ => 0) _]
  rfl

theorem bicycle_step (T : V3 → V3 → Quat) {c : Ctx} {P : Params} {ids : List Int} (hr : InRange c ids) {id : Nat}
    (hid : ids.count (id : Int) = 1) (hdt : c.dt ≠ 0) (hP : P.dt = c.dt) {w : World} {b : Bod} (hb : Held P w id b)
    (hw : ClumpsOk w) {order : List Nat} (hnd : order.Nodup) (ho : id ∈ order) (ω : ℝ) (axis : V3) (radius fi : ℝ) :
    ∃ w1 w2 b2, (Kin.bicycle ω axis radius fi).action T c ids w = .ok (.bicycle ω axis radius (fi + ω * c.dt), w1) ∧
      Mech.action P order w1 = .ok w2 ∧ w2.bodies id = some b2 ∧
      b2.st.pos = b.st.pos + (T ![0, 0, 1] axis).rot (pedal radius fi - pedal radius (fi + ω * c.dt)) ∧
      b2.st.ori = b.st.ori := by
  have hmem : (id : Int) ∈ ids := List.count_pos_iff.mp (by omega)
  have h1 := bicycle_action T hr (fun h => by simp [h] at hmem) w ω axis radius fi
  obtain ⟨g, hg⟩ : ∃ g : V3 → V3 × V3, g = (fun _ => ((T ![0, 0, 1] axis).rot ((1 / c.dt) • (pedal radius fi - pedal radius (fi + ω * c.dt))), 0)) :=
    ⟨_, rfl⟩
  rw [← hg] at h1
  have hb1 : (adds ids g (stops ids w)).bodies id = some (addVel (g b.st.pos).1 (g b.st.pos).2 (stop b)) := by
    simp only [adds, stops, hb.here, Option.map_some, hmem, if_true, hid, one_smul]
    rfl
  have hheld : Held P (adds ids g (stops ids w)) id (addVel (g b.st.pos).1 (g b.st.pos).2 (stop b)) :=
    ⟨hb1, hb.notMember, hb.mine, hb.blocked, hb.moves, hb.unit, hb.aperiodic, hb.noMove⟩
  have hck : ClumpsOk (adds ids g (stops ids w)) := hw.of_sig (adds_stops_sig ids g w)
  have hang : (addVel (g b.st.pos).1 (g b.st.pos).2 (stop b)).st.angVel = (0 : ℝ) • ![0, 0, 1] := by
    simp [addVel, stop, hg]
  obtain ⟨w2, b2, h2, -, h3, h4, h5⟩ := held_step hheld hck order hnd ho exAxis_unit hang
  refine ⟨_, w2, b2, h1, h2, h3, ?_, ?_⟩
  · rw [h4, hP]
    have : (addVel (g b.st.pos).1 (g b.st.pos).2 (stop b)).st.vel =
        (1 / c.dt) • (T ![0, 0, 1] axis).rot (pedal radius fi - pedal radius (fi + ω * c.dt)) := by
      simp [addVel, stop, hg, Quat.rot_smul]
    rw [this, smul_smul, mul_one_div, div_self hdt, one_smul]
    rfl
  · rw [h5, zero_mul]
    have : ofAngleAxis 0 ![0, 0, 1] = Quat.one := by ext <;> simp [ofAngleAxis, Quat.one]
    rw [this, Quat.one_mul']
    rfl

/-! ## The property -/

/-- C122.  Over any number of steps with changing time steps and angular velocities the body moves on a
circle of the given radius in a plane perpendicular to the axis, through the angle that was asked for,
and does not rotate: seen from the centre `m` of the circle it is at angle `φ + Σ ω dt` when it started at angle `φ`.
`T` stands for Eigen's rotation taking one vector to another.  Missing: the
angle is not the phase `fi` of the engine, see `C122_violated_phase`. -/
theorem C122_circle_partial (T : V3 → V3 → Quat) {axis : V3} (hT : (T ![0, 0, 1] axis).sqNorm = 1)
    (hTa : (T ![0, 0, 1] axis).rot ![0, 0, 1] = axis) {ids : List Int} {id : Nat}
    (hid : ids.count (id : Int) = 1) (c : Nat → Ctx) (P : Nat → Params) (order : Nat → List Nat) (radius : ℝ)
    (ω fi : Nat → ℝ) (W : Nat → World) (B : Nat → Bod) (n : Nat) (hr : ∀ k < n, InRange (c k) ids)
    (hdt : ∀ k < n, (c k).dt ≠ 0 ∧ (P k).dt = (c k).dt) (ho : ∀ k < n, (order k).Nodup ∧ id ∈ order k)
    (hw : ∀ k < n, ClumpsOk (W k)) (hb : ∀ k < n, Held (P k) (W k) id (B k)) (hn : (W n).bodies id = some (B n))
    (hfi : ∀ k < n, ∀ e' w', (Kin.bicycle (ω k) axis radius (fi k)).action T (c k) ids (W k) = .ok (e', w') →
      e' = .bicycle (ω k) axis radius (fi (k + 1)))
    (hp : ∀ k < n, Pass T (c k) (P k) ids (order k) (.bicycle (ω k) axis radius (fi k)) id (W k) (W (k + 1))) :
    ∃ (m e1 e2 : V3) (φ : ℝ), sqNorm e1 = 1 ∧ sqNorm e2 = 1 ∧ dot e1 e2 = 0 ∧ dot e1 axis = 0 ∧ dot e2 axis = 0 ∧
      cross e1 e2 = axis ∧
      (B 0).st.pos = m + radius • (Real.cos φ • e1 + Real.sin φ • e2) ∧
      (B n).st.pos = m + radius • (Real.cos (φ + ∑ k ∈ Finset.range n, ω k * (c k).dt) • e1 +
        Real.sin (φ + ∑ k ∈ Finset.range n, ω k * (c k).dt) • e2) ∧ (B n).st.ori = (B 0).st.ori := by
  have hB : ∀ k, k ≤ n → (W k).bodies id = some (B k) := by
    intro k hk
    rcases Nat.lt_or_eq_of_le hk with h | rfl
    · exact (hb k h).here
    · exact hn
  have hmem : (id : Int) ∈ ids := List.count_pos_iff.mp (by omega)
  have hne : ids ≠ [] := fun h => by simp [h] at hmem
  obtain ⟨q, hq⟩ : ∃ q, q = T ![0, 0, 1] axis := ⟨_, rfl⟩
  rw [← hq] at hT hTa
  have main : ∀ j, j ≤ n → fi j = fi 0 + ∑ k ∈ Finset.range j, ω k * (c k).dt ∧
      (B j).st.pos = (B 0).st.pos + q.rot (pedal radius (fi 0) - pedal radius (fi j)) ∧ (B j).st.ori = (B 0).st.ori := by
    intro j
    induction j with
    | zero =>
      intro _
      have : q.rot 0 = 0 := by have := Quat.rot_sub q 0 0; simpa using this
      simp [this]
    | succ j ih =>
      intro hj
      have hlt : j < n := by omega
      obtain ⟨i1, i2, i3⟩ := ih (by omega)
      obtain ⟨w1, w2, b2, h1, h2, h3, h4, h5⟩ := bicycle_step T (hr j hlt) hid (hdt j hlt).1 (hdt j hlt).2 (hb j hlt) (hw j hlt)
        (ho j hlt).1 (ho j hlt).2 (ω j) axis radius (fi j)
      have hf := hfi j hlt _ _ h1
      injection hf with _ _ _ hf
      obtain ⟨e1', w1', w2', b2', b', g1, g2, g3, g4, g5, g6⟩ := hp j hlt
      rw [h1] at g1
      injection g1 with g1
      injection g1 with _ g1
      subst g1
      rw [h2] at g2
      injection g2 with g2
      subst g2
      rw [h3] at g3
      injection g3 with g3
      subst g3
      rw [hB (j + 1) hj] at g4
      injection g4 with g4
      subst g4
      refine ⟨?_, ?_, ?_⟩
      · rw [← hf, Finset.sum_range_succ, i1]; ring
      · rw [g5, h4, i2, ← hf, ← hq, Quat.rot_sub, Quat.rot_sub, Quat.rot_sub]; abel
      · rw [g6, h5, i3]
  obtain ⟨m1, m2, m3⟩ := main n le_rfl
  have hped : ∀ φ, q.rot (pedal radius φ) = radius • (Real.cos φ • q.rot ![1, 0, 0] + Real.sin φ • q.rot ![0, 1, 0]) := by
    intro φ
    rw [← Quat.rot_smul, ← Quat.rot_smul, ← Quat.rot_add, ← Quat.rot_smul]
    congr 1
    apply v3_ext <;> simp [pedal] <;> ring
  have hneg : ∀ φ : ℝ, (Real.cos (φ + Real.pi)) • q.rot ![1, 0, 0] + Real.sin (φ + Real.pi) • q.rot ![0, 1, 0] =
      -(Real.cos φ • q.rot ![1, 0, 0] + Real.sin φ • q.rot ![0, 1, 0]) := by
    intro φ
    rw [Real.cos_add_pi, Real.sin_add_pi, neg_smul, neg_smul]; abel
  refine ⟨(B 0).st.pos + q.rot (pedal radius (fi 0)), q.rot ![1, 0, 0], q.rot ![0, 1, 0], fi 0 + Real.pi, ?_, ?_, ?_, ?_, ?_, ?_, ?_, ?_, m3⟩
  · rw [sqNorm, Quat.dot_rot hT]; simp [dot]
  · rw [sqNorm, Quat.dot_rot hT]; simp [dot]
  · rw [Quat.dot_rot hT]; simp [dot]
  · rw [← hTa, Quat.dot_rot hT]; simp [dot]
  · rw [← hTa, Quat.dot_rot hT]; simp [dot]
  · rw [← hTa]
    rw [← Quat.rot_cross hT]
    congr 1
    apply v3_ext <;> simp
  · rw [hneg, smul_neg, ← hped]; abel
  · rw [m2, m1, show fi 0 + Real.pi + ∑ k ∈ Finset.range n, ω k * (c k).dt =
      (fi 0 + ∑ k ∈ Finset.range n, ω k * (c k).dt) + Real.pi by ring, hneg, smul_neg, ← hped, Quat.rot_sub]
    abel

/-- The hypotheses of `C122_circle_partial` on the rotation are met by the rotations about the x axis for
the axis y. -/
example : ∃ q : Quat, q.sqNorm = 1 ∧ q.rot ![0, 0, 1] = ![0, -1, 0] := by
  refine ⟨ofAngleAxis (Real.pi / 2) ![1, 0, 0], ofAngleAxis_unit (by simp [sqNorm, dot]) _, ?_⟩
  rw [ofAngleAxis_rot (by simp [sqNorm, dot]), turn, Real.cos_pi_div_two, Real.sin_pi_div_two]
  apply v3_ext <;> simp [dot]

/-- C122 fails for the phase: a body standing at the phase of the engine on its circle about the origin,
`(1,0,0)`, should be at `(-1,0,0)` after half a turn; it is at `(3,0,0)`. -/
theorem C122_violated_phase (T : V3 → V3 → Quat) (hT : T ![0, 0, 1] ![0, 0, 1] = Quat.one) : ∃ e' w1 w2 b2,
    exHeld.st.pos = pedal 1 0 ∧
    (Kin.bicycle Real.pi ![0, 0, 1] 1 0).action T exCtx [0] exHeldWorld = .ok (e', w1) ∧
      Mech.action exParams [0] w1 = .ok w2 ∧ w2.bodies 0 = some b2 ∧ pedal 1 Real.pi = ![-1, 0, 0] ∧ b2.st.pos = ![3, 0, 0] := by
  obtain ⟨w1, w2, b2, h1, h2, h3, h4, -⟩ := bicycle_step T (c := exCtx) (P := exParams) (ids := [0]) (by decide) (id := 0)
    (by decide) (by simp [exCtx]) (by simp [exParams, exCtx]) exHeld_held exHeld_clumps (order := [0]) (by decide) (by decide)
    Real.pi ![0, 0, 1] 1 0
  refine ⟨_, w1, w2, b2, ?_, h1, h2, h3, ?_, ?_⟩
  · apply v3_ext <;> simp [exHeld, exBod, pedal]
  · apply v3_ext <;> simp [pedal]
  · rw [h4, hT, Quat.rot_one]
    apply v3_ext <;> simp [exHeld, exBod, exCtx, pedal] <;> norm_num

end Verif.Drive
