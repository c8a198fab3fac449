import Verif.Drive.KinProps

/-!
# C120, C121: the servo controller
-/
namespace Verif.Drive
open Verif.Mech

/-! ## Auxiliary facts -/

theorem limitVel_le (v m : ℝ) : |limitVel v m| ≤ |m| := by
  unfold limitVel
  split_ifs with h
  · have hv : |v| ≠ 0 := by have := abs_nonneg m; linarith [h]
    rw [abs_mul, abs_div, abs_abs, abs_abs, mul_div_assoc', mul_comm, mul_div_assoc, div_self hv, mul_one]
  · exact not_lt.mp h

theorem sqNorm_normalized (v : V3) : sqNorm (normalized v) ≤ 1 := by
  unfold normalized
  rw [sqNorm_smul, norm3, div_pow, one_pow, Real.sq_sqrt (sqNorm_nonneg v)]
  by_cases h : sqNorm v = 0
  · rw [h]; simp
  · rw [one_div, inv_mul_cancel₀ h]

/-- What the state of the controller guarantees. -/
def Servo.Limited (s : Servo) : Prop := s.iterPrevStart < 0 ∨ (|s.curVel| ≤ |s.maxVelocity| ∧ sqNorm s.axis ≤ 1)

theorem servo_result {c : Ctx} {s s' : Servo} {ids : List Int} {w w' : World} (h : applyServo c s ids w = .ok (s', w')) :
    InRange c ids ∧ w' = adds ids (fun _ => (s'.velocity • s'.translationAxis, 0)) w ∧
      ∃ s1, s' = { s1 with translationAxis := s1.axis, velocity := s1.curVel } ∧
        ((¬ (s.iterPrevStart < 0 ∨ c.iter - s.iterPrevStart ≥ s.iterPeriod) ∧ s1 = s) ∨
          ((s.iterPrevStart < 0 ∨ c.iter - s.iterPrevStart ≥ s.iterPeriod) ∧
            ∃ F, sumForces c w ids = .ok F ∧ s1 = servoUpdate c s F)) := by
  have fin : ∀ s1 : Servo, ((applyTranslation c s1.curVel s1.axis ids w).bind fun w =>
      Res.ok ({ s1 with translationAxis := s1.axis, velocity := s1.curVel }, w)) = .ok (s', w') →
      InRange c ids ∧ w' = adds ids (fun _ => (s'.velocity • s'.translationAxis, 0)) w ∧
        s' = { s1 with translationAxis := s1.axis, velocity := s1.curVel } := by
    intro s1 h
    by_cases hr : InRange c ids
    · rw [show applyTranslation c s1.curVel s1.axis ids w = _ from
        onEach_uniform hr (fun _ => s1.curVel • s1.axis) (fun _ => 0) w, Res.bind_ok] at h
      injection h with h
      injection h with h1 h2
      subst h1
      exact ⟨hr, h2.symm, rfl⟩
    · rw [applyTranslation, onEach_ub hr] at h; cases h
  unfold applyServo at h
  by_cases hu : s.iterPrevStart < 0 ∨ c.iter - s.iterPrevStart ≥ s.iterPeriod
  · rw [if_pos hu] at h
    cases hF : sumForces c w ids with
    | throws => rw [hF] at h; cases h
    | ub => rw [hF] at h; cases h
    | ok F =>
      rw [hF] at h
      obtain ⟨h1, h2, h3⟩ := fin (servoUpdate c s F) h
      exact ⟨h1, h2, servoUpdate c s F, h3, .inr ⟨hu, F, rfl, rfl⟩⟩
  · rw [if_neg hu] at h
    obtain ⟨h1, h2, h3⟩ := fin s h
    exact ⟨h1, h2, s, h3, .inl ⟨hu, rfl⟩⟩

theorem servo_limited {c : Ctx} {s s' : Servo} {ids : List Int} {w w' : World} (hs : s.Limited)
    (h : applyServo c s ids w = .ok (s', w')) :
    s'.Limited ∧ |s'.velocity| ≤ |s.maxVelocity| ∧ sqNorm s'.translationAxis ≤ 1 ∧ s'.maxVelocity = s.maxVelocity := by
  obtain ⟨-, -, s1, e, h2⟩ := servo_result h
  clear h
  subst e
  rcases h2 with ⟨hu, rfl⟩ | ⟨-, F, -, rfl⟩
  · rcases hs with hs | hs
    · exact absurd (.inl hs) hu
    · exact ⟨.inr hs, hs.1, hs.2, rfl⟩
  · exact ⟨.inr ⟨limitVel_le _ _, sqNorm_normalized _⟩, limitVel_le _ _, sqNorm_normalized _, rfl⟩

/-! ## C120 -/

/-- Specification: the controller after some runs on scenes in any state whatever, its settings being left
alone. -/
inductive ServoRun (T : V3 → V3 → Quat) (ids : List Int) (s0 : Servo) : Servo → Prop where
  | fresh : ServoRun T ids s0 s0
  | run {s s' : Servo} (c : Ctx) (w w' : World) (h : ServoRun T ids s0 s)
    (hk : (Kin.servo s).action T c ids w = .ok (.servo s', w')) : ServoRun T ids s0 s'

theorem kin_servo {T : V3 → V3 → Quat} {c : Ctx} {ids : List Int} {w w' : World} {s : Servo} {e' : Kin} (hne : ids ≠ [])
    (h : (Kin.servo s).action T c ids w = .ok (e', w')) :
    ∃ s', e' = .servo s' ∧ applyServo c s ids (stops ids w) = .ok (s', w') := by
  have he : ids.isEmpty = false := by cases ids <;> simp_all
  rw [Kin.action, he, if_neg (by simp)] at h
  by_cases hr : InRange c ids
  · rw [onEach_stops hr, Res.bind_ok, Kin.apply] at h
    cases h1 : applyServo c s ids (stops ids w) with
    | throws => rw [h1] at h; cases h
    | ub => rw [h1] at h; cases h
    | ok x =>
      rw [h1] at h
      injection h with h
      injection h with h2 h3
      exact ⟨x.1, h2.symm, by rw [← h3]⟩
  · rw [onEach_ub hr] at h; cases h

theorem servoRun_limited {T : V3 → V3 → Quat} {ids : List Int} (hne : ids ≠ []) {s0 s : Servo} (h0 : s0.iterPrevStart < 0)
    (h : ServoRun T ids s0 s) : s.Limited ∧ s.maxVelocity = s0.maxVelocity := by
  induction h with
  | fresh => exact ⟨.inl h0, rfl⟩
  | run c w w' h hk ih =>
    obtain ⟨s1, e, h1⟩ := kin_servo hne hk
    injection e with e
    subst e
    obtain ⟨a1, -, -, a2⟩ := servo_limited ih.1 h1
    exact ⟨a1, a2.trans ih.2⟩

/-- C120.  Whatever the forces, the gains, the time steps and the history of the controller, a body
listed once never gets a velocity beyond the limit, and no rotation. -/
theorem C120_bounded_partial (T : V3 → V3 → Quat) {ids : List Int} {s0 s : Servo} (h0 : s0.iterPrevStart < 0)
    (hs : ServoRun T ids s0 s) (c : Ctx) (w w' : World) (e' : Kin)
    (h : (Kin.servo s).action T c ids w = .ok (e', w')) {id : Nat} (hid : ids.count (id : Int) = 1) {b' : Bod}
    (hb : w'.bodies id = some b') : norm3 b'.st.vel ≤ |s0.maxVelocity| ∧ b'.st.angVel = 0 := by
  have hmem : (id : Int) ∈ ids := List.count_pos_iff.mp (by omega)
  have hne : ids ≠ [] := fun h => by simp [h] at hmem
  obtain ⟨hl, hm⟩ := servoRun_limited hne h0 hs
  obtain ⟨s', -, h1⟩ := kin_servo hne h
  obtain ⟨-, a1, a2, -⟩ := servo_limited hl h1
  obtain ⟨-, rfl, -⟩ := servo_result h1
  simp only [adds, stops, hid, one_smul] at hb
  cases hbw : w.bodies id with
  | none => rw [hbw] at hb; simp at hb
  | some b =>
    rw [hbw] at hb
    simp only [Option.map_some, hmem, if_true, Option.some.injEq] at hb
    subst hb
    have e : (addVel (s'.velocity • s'.translationAxis) 0 (stop b)).st.vel = s'.velocity • s'.translationAxis := by
      simp [addVel, stop]
    refine ⟨?_, by simp [addVel, stop]⟩
    rw [e, norm3, sqNorm_smul, ← hm]
    calc Real.sqrt (s'.velocity ^ 2 * sqNorm s'.translationAxis) ≤ Real.sqrt (s.maxVelocity ^ 2 * 1) := by
          apply Real.sqrt_le_sqrt
          apply mul_le_mul (sq_le_sq.mpr a1) a2 (sqNorm_nonneg _) (sq_nonneg _)
      _ = |s.maxVelocity| := by rw [mul_one, Real.sqrt_sq_eq_abs]

/-- A controller as the user makes it: proportional gain one, limit two, along z. -/
noncomputable def exServo : Servo :=
  { maxVelocity := 2, axis := ![0, 0, 1], target := 10, current := 0, kP := 1, kI := 0, kD := 0, iTerm := 0, curVel := 0,
    errorCur := 0, errorPrev := 0, iterPeriod := 100, iterPrevStart := -1, translationAxis := ![1, 0, 0], velocity := 0 }

theorem exServo_runs (T : V3 → V3 → Quat) : ∃ s' w' b', (Kin.servo exServo).action T exCtx [0] exHeldWorld = .ok (.servo s', w') ∧
    w'.bodies 0 = some b' := ⟨_, _, _, rfl, rfl⟩

/-- The hypotheses of `C120_bounded_partial` are met, also after a first run. -/
example (T : V3 → V3 → Quat) : exServo.iterPrevStart < 0 ∧ (∃ s', ServoRun T [0] exServo s' ∧ s'.iterPrevStart = 0) ∧
    ([0] : List Int).count ((0 : Nat) : Int) = 1 := by
  obtain ⟨s', w', b', h, -⟩ := exServo_runs T
  refine ⟨by simp [exServo], ⟨s', .run exCtx exHeldWorld w' .fresh h, ?_⟩, by decide⟩
  obtain ⟨s1, e, h1⟩ := kin_servo (by simp) h
  injection e with e
  subst e
  obtain ⟨-, -, s2, rfl, h2⟩ := servo_result h1
  rcases h2 with ⟨h2, -⟩ | ⟨-, F, -, rfl⟩
  · simp [exServo] at h2
  · rfl

/-- C120 fails for a body listed twice: it moves at twice the limit. -/
theorem C120_violated_twice (T : V3 → V3 → Quat) : ∃ e' w' b', (Kin.servo exServo).action T exCtx [0, 0] exHeldWorld = .ok (e', w') ∧
    w'.bodies 0 = some b' ∧ b'.st.vel = ![0, 0, -4] ∧ norm3 b'.st.vel > |exServo.maxVelocity| := by
  have hF : sumForces exCtx (stops [0, 0] exHeldWorld) [0, 0] = .ok ![2, 0, 2] := by
    simp only [sumForces, exCtx, if_true, Res.bind_ok]
    congr 1
    apply v3_ext <;> simp [stops, exHeldWorld, exWorld] <;> norm_num
  have hn : normalized (![0, 0, 1] : V3) = ![0, 0, 1] := by
    apply v3_ext <;> simp [normalized, norm3, sqNorm, dot]
  have h8 : norm3 (fun i => (![2, 0, 2] : V3) i * (![0, 0, 1] : V3) i) = 2 := by
    simp only [norm3, sqNorm, dot]
    rw [Real.sqrt_eq_iff_mul_self_eq_of_pos (by norm_num)]
    simp
  have hv : (servoUpdate exCtx exServo ![2, 0, 2]).curVel = -2 := by
    simp only [servoUpdate, exServo, hn, h8, limitVel]
    norm_num
  have ha : (servoUpdate exCtx exServo ![2, 0, 2]).axis = ![0, 0, 1] := by
    simp only [servoUpdate, exServo, hn]
  have hact : (Kin.servo exServo).action T exCtx [0, 0] exHeldWorld =
      .ok (.servo { servoUpdate exCtx exServo ![2, 0, 2] with
        translationAxis := (servoUpdate exCtx exServo ![2, 0, 2]).axis, velocity := (servoUpdate exCtx exServo ![2, 0, 2]).curVel },
        adds [0, 0] (fun _ => ((-2 : ℝ) • ![0, 0, 1], 0)) (stops [0, 0] exHeldWorld)) := by
    have hr : InRange exCtx [0, 0] := by decide
    have hu : exServo.iterPrevStart < 0 ∨ exCtx.iter - exServo.iterPrevStart ≥ exServo.iterPeriod := .inl (by simp [exServo])
    rw [Kin.action, if_neg (by simp), onEach_stops hr, Res.bind_ok, Kin.apply, applyServo, if_pos hu, hF]
    simp only [Res.bind_ok, hv, ha]
    rw [show applyTranslation exCtx (-2) ![0, 0, 1] [0, 0] (stops [0, 0] exHeldWorld) = _ from
      onEach_uniform hr (fun _ => (-2 : ℝ) • ![0, 0, 1]) (fun _ => 0) _]
    rfl
  have hvel : ∀ b' : Bod, (adds [0, 0] (fun _ => ((-2 : ℝ) • ![0, 0, 1], 0)) (stops [0, 0] exHeldWorld)).bodies 0 = some b' →
      b'.st.vel = ![0, 0, -4] := by
    intro b' h
    simp only [adds, stops, exHeld_held.here, Option.map_some, Option.some.injEq] at h
    subst h
    have : List.count ((0 : Nat) : Int) [0, 0] = 2 := by decide
    simp only [addVel, stop, this]
    apply v3_ext <;> simp <;> norm_num
  refine ⟨_, _, _, hact, rfl, hvel _ rfl, ?_⟩
  rw [hvel _ rfl]
  have : norm3 (![0, 0, -4] : V3) = 4 := by
    simp only [norm3, sqNorm, dot]
    rw [Real.sqrt_eq_iff_mul_self_eq_of_pos (by norm_num)]
    simp
  rw [this]
  simp only [exServo]
  norm_num

/-! ## C121 -/

/-- Specification: the total force on the listed bodies. -/
def totalForce (w : World) (ids : List Int) : V3 := (ids.map fun id => w.force id.toNat).sum

/-- Specification: the force the servo should see, along its axis. -/
noncomputable def along (axis F : V3) : ℝ := dot (normalized axis) F

theorem sumForces_total {c : Ctx} {w : World} {ids : List Int} (hc : c.synced = true) (hr : ∀ id ∈ ids, 0 ≤ id) :
    sumForces c w ids = .ok (totalForce w ids) := by
  induction ids with
  | nil => rfl
  | cons i l ih =>
    rw [sumForces, if_pos hc, ih fun j hj => hr j (List.mem_cons_of_mem _ hj), Res.bind_ok, if_pos (hr i (List.mem_cons_self ..))]
    rfl

/-- When the controller is due, it acts on the total force. -/
theorem servo_acts (T : V3 → V3 → Quat) {c : Ctx} {s : Servo} {ids : List Int} (hne : ids ≠ []) (hr : InRange c ids)
    (hc : c.synced = true) (hu : s.iterPrevStart < 0 ∨ c.iter - s.iterPrevStart ≥ s.iterPeriod) (w : World) :
    ∃ s', (Kin.servo s).action T c ids w = .ok (.servo s', adds ids (fun _ => (s'.velocity • s'.translationAxis, 0)) (stops ids w)) ∧
      s' = { servoUpdate c s (totalForce w ids) with
        translationAxis := (servoUpdate c s (totalForce w ids)).axis,
        velocity := (servoUpdate c s (totalForce w ids)).curVel } := by
  have he : ids.isEmpty = false := by cases ids <;> simp_all
  refine ⟨_, ?_, rfl⟩
  have hF : sumForces c (stops ids w) ids = .ok (totalForce w ids) := sumForces_total hc fun i hi => (hr i hi).1
  rw [Kin.action, he, if_neg (by simp), onEach_stops hr, Res.bind_ok, Kin.apply, applyServo, if_pos hu, hF]
  simp only [Res.bind_ok]
  rw [show applyTranslation c _ _ ids (stops ids w) = _ from
      onEach_uniform hr (fun _ => (servoUpdate c s (totalForce w ids)).curVel • (servoUpdate c s (totalForce w ids)).axis) (fun _ => 0) _]
  rfl

theorem errorCur_axis (c : Ctx) (s : Servo) (F : V3) (k : Fin 3) (h : ∀ i, i ≠ k → s.axis i = 0) (hk : s.axis k ≠ 0) :
    (servoUpdate c s F).errorCur = |along s.axis F| - s.target := by
  have hz : ∀ i, i ≠ k → normalized s.axis i = 0 := fun i hi => by simp [normalized, h i hi]
  have hu : (normalized s.axis k) ^ 2 = 1 := by
    have hs : sqNorm s.axis = s.axis k ^ 2 := by
      fin_cases k
      · have := h 1 (by decide); have := h 2 (by decide); simp_all [sqNorm, dot]; ring
      · have := h 0 (by decide); have := h 2 (by decide); simp_all [sqNorm, dot]; ring
      · have := h 0 (by decide); have := h 1 (by decide); simp_all [sqNorm, dot]; ring
    simp only [normalized, Pi.smul_apply, smul_eq_mul, mul_pow, norm3, div_pow, one_pow, hs]
    rw [Real.sq_sqrt (sq_nonneg _)]
    field_simp
  simp only [servoUpdate]
  congr 1
  have e1 : norm3 (fun i => F i * normalized s.axis i) = |F k * normalized s.axis k| := by
    rw [norm3, ← Real.sqrt_sq_eq_abs]
    congr 1
    fin_cases k
    · have := hz 1 (by decide); have := hz 2 (by decide); simp_all [sqNorm, dot]; ring
    · have := hz 0 (by decide); have := hz 2 (by decide); simp_all [sqNorm, dot]; ring
    · have := hz 0 (by decide); have := hz 1 (by decide); simp_all [sqNorm, dot]; ring
  have e2 : along s.axis F = F k * normalized s.axis k := by
    unfold along dot
    fin_cases k
    · have := hz 1 (by decide); have := hz 2 (by decide); simp_all; ring
    · have := hz 0 (by decide); have := hz 2 (by decide); simp_all; ring
    · have := hz 0 (by decide); have := hz 1 (by decide); simp_all; ring
  rw [e1, e2]

/-- C121 for an axis along a coordinate: whenever the controller is due, its error is the size of the
total force along the axis less the target, and with a proportional gain alone the velocity is that
error times the gain, within the limit; missing: other axes and the direction of the force. -/
theorem C121_axis_partial (T : V3 → V3 → Quat) {c : Ctx} {s : Servo} {ids : List Int} (hne : ids ≠ []) (hr : InRange c ids)
    (hc : c.synced = true) (hu : s.iterPrevStart < 0 ∨ c.iter - s.iterPrevStart ≥ s.iterPeriod) (w : World)
    (k : Fin 3) (h : ∀ i, i ≠ k → s.axis i = 0) (hk : s.axis k ≠ 0) :
    ∃ s' w', (Kin.servo s).action T c ids w = .ok (.servo s', w') ∧
      s'.errorCur = |along s.axis (totalForce w ids)| - s.target ∧
      (s.kI = 0 → s.kD = 0 → s.iTerm = 0 → |s'.errorCur * s.kP| ≤ |s.maxVelocity| → s'.velocity = s'.errorCur * s.kP) := by
  obtain ⟨s', h1, h2⟩ := servo_acts T hne hr hc hu w
  refine ⟨s', _, h1, ?_, ?_⟩
  · rw [h2]; exact errorCur_axis c s _ k h hk
  · intro hI hD hT hle
    subst h2
    simp only [servoUpdate] at hle ⊢
    simp only [hI, hD, hT, mul_zero, add_zero] at hle ⊢
    rw [limitVel, if_neg (not_lt.mpr hle)]

/-- The hypotheses of `C121_axis_partial` are met. -/
example : ([0] : List Int) ≠ [] ∧ InRange exCtx [0] ∧ exCtx.synced = true ∧ exServo.iterPrevStart < 0 ∧
    (∀ i : Fin 3, i ≠ 2 → exServo.axis i = 0) ∧ exServo.axis 2 ≠ 0 := by
  refine ⟨by simp, by decide, rfl, by simp [exServo], ?_, by simp [exServo]⟩
  intro i hi
  fin_cases i <;> simp_all [exServo]

/-- C121 fails for the direction of the force: a force pulling the bodies is answered exactly like a
force pushing them. -/
theorem C121_violated_sign (T : V3 → V3 → Quat) {c : Ctx} {s : Servo} {ids : List Int} (hne : ids ≠ []) (hr : InRange c ids)
    (hc : c.synced = true) (hu : s.iterPrevStart < 0 ∨ c.iter - s.iterPrevStart ≥ s.iterPeriod) (w1 w2 : World)
    (h : totalForce w2 ids = -totalForce w1 ids) :
    ∃ s1 s2 w1' w2', (Kin.servo s).action T c ids w1 = .ok (.servo s1, w1') ∧
      (Kin.servo s).action T c ids w2 = .ok (.servo s2, w2') ∧ s2.velocity = s1.velocity ∧
      s2.translationAxis = s1.translationAxis := by
  obtain ⟨s1, h1, e1⟩ := servo_acts T hne hr hc hu w1
  obtain ⟨s2, h2, e2⟩ := servo_acts T hne hr hc hu w2
  refine ⟨s1, s2, _, _, h1, h2, ?_, ?_⟩
  · rw [e1, e2, h]
    have : norm3 (fun i => (-totalForce w1 ids) i * normalized s.axis i) =
        norm3 (fun i => (totalForce w1 ids) i * normalized s.axis i) := by
      simp only [norm3, sqNorm, dot, Pi.neg_apply]
      congr 1; ring
    simp only [servoUpdate, this]
  · rw [e1, e2, h]
    rfl

/-- C121 fails for oblique axes: a force perpendicular to the axis moves the bodies, no force does
not. -/
theorem C121_violated_oblique (T : V3 → V3 → Quat) : ∃ (s : Servo) (w1 w2 : World) (s1 s2 : Servo) (w1' w2' : World),
    along s.axis (totalForce w1 [0]) = 0 ∧ totalForce w2 [0] = 0 ∧
    (Kin.servo s).action T exCtx [0] w1 = .ok (.servo s1, w1') ∧ (Kin.servo s).action T exCtx [0] w2 = .ok (.servo s2, w2') ∧
    s1.velocity = 1 ∧ s2.velocity = 0 := by
  have hu : ({ exServo with axis := ![1, 1, 0], target := 0, maxVelocity := 5 } : Servo).iterPrevStart < 0 := by simp [exServo]
  have hF1 : totalForce { exHeldWorld with force := fun _ => ![1, -1, 0] } [0] = ![1, -1, 0] := by simp [totalForce]
  have hF2 : totalForce { exHeldWorld with force := fun _ => 0 } [0] = 0 := by simp [totalForce]
  obtain ⟨s1, h1, e1⟩ := servo_acts T (c := exCtx) (s := { exServo with axis := ![1, 1, 0], target := 0, maxVelocity := 5 })
    (ids := [0]) (by simp) (by decide) rfl (.inl hu) { exHeldWorld with force := fun _ => ![1, -1, 0] }
  obtain ⟨s2, h2, e2⟩ := servo_acts T (c := exCtx) (s := { exServo with axis := ![1, 1, 0], target := 0, maxVelocity := 5 })
    (ids := [0]) (by simp) (by decide) rfl (.inl hu) { exHeldWorld with force := fun _ => 0 }
  rw [hF1] at e1
  rw [hF2] at e2
  have hs : norm3 (![1, 1, 0] : V3) = Real.sqrt 2 := by
    simp only [norm3, sqNorm, dot]; congr 1; simp; norm_num
  have h0 : norm3 (fun i => (0 : V3) i * normalized ![1, 1, 0] i) = 0 := by
    simp [norm3, sqNorm, dot]
  have h1' : norm3 (fun i => (![1, -1, 0] : V3) i * normalized ![1, 1, 0] i) = 1 := by
    simp only [norm3, sqNorm, dot, normalized, Pi.smul_apply, smul_eq_mul] at hs ⊢
    rw [hs]
    rw [Real.sqrt_eq_iff_mul_self_eq_of_pos (by norm_num)]
    have := Real.mul_self_sqrt (show (0 : ℝ) ≤ 2 by norm_num)
    simp
    field_simp
    nlinarith [this]
  refine ⟨_, _, _, s1, s2, _, _, ?_, hF2, h1, h2, ?_, ?_⟩
  · rw [hF1]
    simp [along, normalized, dot]
  · rw [e1]
    simp only [servoUpdate, h1', exServo, limitVel]
    norm_num
  · rw [e2]
    simp only [servoUpdate, h0, exServo, limitVel]
    norm_num

end Verif.Drive
