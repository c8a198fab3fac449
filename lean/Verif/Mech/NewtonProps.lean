import Verif.Mech.NewtonLemmas
import Mathlib.Tactic.Positivity

/-!
# Properties of the integrator: C38, C39, C82

Velocities, orientations and forces are compared through components of vectors and through the
characters of `State.blockedDOFs` as the user writes them.
-/
namespace Verif.Mech

/-! ## Specification -/

/-- The letter the user writes to block an axis. -/
def letter (rotational : Bool) (i : Fin 3) : Char :=
  if rotational then ![ 'X', 'Y', 'Z' ] i else ![ 'x', 'y', 'z' ] i

/-- Cundall's damping as the documentation gives it: the acceleration component is reduced by the
factor `1 - damping` if it acts along the motion, enlarged by `1 + damping` if against it. -/
def Damped (damping a power a' : ℝ) : Prop :=
  (power > 0 → a' = (1 - damping) * a) ∧ (power < 0 → a' = (1 + damping) * a) ∧ (power = 0 → a' = a)

/-- A step of the environment between two runs of the integrator that leaves alone the velocities
and blocked degrees of freedom of body `id` (and does not put it in a clump); everything else may
change: forces, torques, imposed displacements, other bodies, clumps. -/
def EnvKeeps (id : Nat) (w w' : World) : Prop :=
  ∀ b, w.bodies id = some b → ∃ b', w'.bodies id = some b' ∧ b'.st.vel = b.st.vel ∧
    b'.st.angVel = b.st.angVel ∧ b'.st.blocked = b.st.blocked ∧ ¬ b'.kind.isMember

/-- Histories of a non-periodic scene: any alternation of runs of the integrator (any parameters,
any order of the loop) and environment steps. -/
inductive History (id : Nat) : World → World → Prop where
  | refl (w : World) : History id w w
  | newton {w w1 w2 : World} (P : Params) (order : List Nat) : History id w w1 → w1.periodic = false →
      ClumpsOk w1 → action P order w1 = .ok w2 → History id w w2
  | env {w w1 w2 : World} : History id w w1 → EnvKeeps id w1 w2 → History id w w2

/-! ## Blocked degrees of freedom as letters -/

theorem testBit_dofOfChar (b : Nat) (c : Char) (k : Nat) :
    (dofOfChar b c).testBit k = (b.testBit k || decide
      ((k = 0 ∧ c = 'x') ∨ (k = 1 ∧ c = 'y') ∨ (k = 2 ∧ c = 'z') ∨ (k = 3 ∧ c = 'X') ∨
       (k = 4 ∧ c = 'Y') ∨ (k = 5 ∧ c = 'Z'))) := by
  have t : ∀ n k : Nat, (2 ^ n).testBit k = decide (k = n) := by
    intro n k
    rw [Nat.testBit_two_pow]
    exact decide_eq_decide.mpr eq_comm
  unfold dofOfChar
  split_ifs with h1 h2 h3 h4 h5 h6
  · subst h1; rw [Nat.testBit_or, show (1 : Nat) = 2 ^ 0 from rfl, t]; simp
  · subst h2; rw [Nat.testBit_or, show (2 : Nat) = 2 ^ 1 from rfl, t]; simp
  · subst h3; rw [Nat.testBit_or, show (4 : Nat) = 2 ^ 2 from rfl, t]; simp
  · subst h4; rw [Nat.testBit_or, show (8 : Nat) = 2 ^ 3 from rfl, t]; simp
  · subst h5; rw [Nat.testBit_or, show (16 : Nat) = 2 ^ 4 from rfl, t]; simp
  · subst h6; rw [Nat.testBit_or, show (32 : Nat) = 2 ^ 5 from rfl, t]; simp
  · simp [h1, h2, h3, h4, h5, h6]

theorem testBit_foldl (s : List Char) (b k : Nat) :
    (s.foldl dofOfChar b).testBit k = (b.testBit k || decide
      ((k = 0 ∧ 'x' ∈ s) ∨ (k = 1 ∧ 'y' ∈ s) ∨ (k = 2 ∧ 'z' ∈ s) ∨ (k = 3 ∧ 'X' ∈ s) ∨
       (k = 4 ∧ 'Y' ∈ s) ∨ (k = 5 ∧ 'Z' ∈ s))) := by
  induction s generalizing b with
  | nil => simp
  | cons c s ih =>
    rw [List.foldl_cons, ih, testBit_dofOfChar, Bool.or_assoc]
    congr 1
    rw [← Bool.decide_or]
    apply decide_eq_decide.mpr
    simp only [List.mem_cons]
    constructor
    · rintro (h | h)
      · rcases h with ⟨h, e⟩ | ⟨h, e⟩ | ⟨h, e⟩ | ⟨h, e⟩ | ⟨h, e⟩ | ⟨h, e⟩ <;> simp [h, e]
      · rcases h with ⟨h, e⟩ | ⟨h, e⟩ | ⟨h, e⟩ | ⟨h, e⟩ | ⟨h, e⟩ | ⟨h, e⟩ <;> simp [h, e]
    · rintro (⟨h, e | e⟩ | ⟨h, e | e⟩ | ⟨h, e | e⟩ | ⟨h, e | e⟩ | ⟨h, e | e⟩ | ⟨h, e | e⟩) <;>
        first | (subst e; simp [h]) | simp [h, e]

theorem and_two_pow_ne (b k : Nat) : (b &&& 2 ^ k ≠ 0) ↔ b.testBit k = true := by
  constructor
  · intro h
    cases hb : b.testBit k with
    | true => rfl
    | false =>
      exfalso
      apply h
      apply Nat.eq_of_testBit_eq
      intro j
      rw [Nat.testBit_and, Nat.testBit_two_pow, Nat.zero_testBit]
      by_cases e : k = j
      · rw [← e, hb, Bool.false_and]
      · simp [e]
  · intro h e
    have := congrArg (fun n => Nat.testBit n k) e
    simp [Nat.testBit_and, h] at this

theorem axisDOF_eq (i : Fin 3) (r : Bool) : axisDOF i r = 2 ^ (i.val + if r then 3 else 0) := by
  simp [axisDOF, Nat.shiftLeft_eq]

/-- The bit tests of the code see exactly the letters the user wrote. -/
theorem dofSet_axis (s : List Char) (i : Fin 3) (r : Bool) :
    dofSet s &&& axisDOF i r ≠ 0 ↔ letter r i ∈ s := by
  rw [axisDOF_eq, and_two_pow_ne, dofSet, testBit_foldl]
  cases r <;> fin_cases i <;> simp [letter]

theorem dofSet_all {s : List Char} (h : dofSet s = dofAll) (i : Fin 3) (r : Bool) :
    letter r i ∈ s := by
  rw [← dofSet_axis, h]
  cases r <;> fin_cases i <;> decide

theorem dofSet_rot {s : List Char} (h : dofSet s &&& dofRot = 0) (i : Fin 3) :
    letter true i ∉ s := by
  rw [← dofSet_axis, not_not]
  have e : axisDOF i true = dofRot &&& axisDOF i true := by fin_cases i <;> decide
  rw [e, ← Nat.and_assoc, h, Nat.zero_and]

/-- Reading `blockedDOFs` back gives each blocked letter once and nothing else. -/
theorem mem_dofGet (s : List Char) (c : Char) :
    c ∈ dofGet (dofSet s) ↔ c ∈ s ∧ c ∈ ['x', 'y', 'z', 'X', 'Y', 'Z'] := by
  have h : ∀ (n : Nat) (c' : Char), (dofSet s &&& n ≠ 0 ↔ c' ∈ s) →
      (c ∈ (if dofSet s &&& n ≠ 0 then [c'] else []) ↔ c ∈ s ∧ c = c') := by
    intro n c' hn
    split_ifs with hc
    · constructor
      · intro hm
        have : c = c' := by simpa using hm
        exact ⟨by rw [this]; exact hn.mp hc, this⟩
      · rintro ⟨-, rfl⟩; simp
    · constructor
      · intro hm; cases hm
      · rintro ⟨hm, rfl⟩; exact absurd (hn.mpr hm) hc
  unfold dofGet
  simp only [List.mem_append]
  rw [h 1 'x' (dofSet_axis s 0 false), h 2 'y' (dofSet_axis s 1 false),
    h 4 'z' (dofSet_axis s 2 false), h 8 'X' (dofSet_axis s 0 true),
    h 16 'Y' (dofSet_axis s 1 true), h 32 'Z' (dofSet_axis s 2 true)]
  simp only [List.mem_cons, List.not_mem_nil, or_false]
  constructor
  · rintro (((((⟨a, b⟩ | ⟨a, b⟩) | ⟨a, b⟩) | ⟨a, b⟩) | ⟨a, b⟩) | ⟨a, b⟩) <;> (subst b; simp [a])
  · rintro ⟨a, b | b | b | b | b | b⟩ <;> (subst b; simp [a])

/-! ## C39: damping -/

theorem sign_mul_self (x : ℝ) : x * sign x = |x| := by
  unfold sign
  split_ifs with h h'
  · rw [abs_of_neg h]; ring
  · rw [abs_of_pos h']; ring
  · have : x = 0 := le_antisymm (not_lt.mp h') (not_lt.mp h)
    simp [this]

theorem abs_sign_le (x : ℝ) : |sign x| ≤ 1 := by
  unfold sign
  split_ifs <;> simp

/-- **C39.** For damping in [0,1] the damped acceleration component never gets the opposite sign,
and its power on the mean velocity of the step never exceeds that of the undamped one. -/
theorem C39_accel (damping dt : ℝ) (h0 : 0 ≤ damping) (h1 : damping ≤ 1) (v a : V3) (i : Fin 3) :
    cundallDamp2nd damping dt v a i * (v i + dt / 2 * a i) ≤ a i * (v i + dt / 2 * a i) ∧
    0 ≤ cundallDamp2nd damping dt v a i * a i := by
  have e : cundallDamp2nd damping dt v a i =
      a i * (1 - damping * sign (a i * (v i + dt / 2 * a i))) := by
    unfold cundallDamp2nd
    rw [show (0.5 : ℝ) * dt = dt / 2 by ring]
  rw [e]
  set x := a i * (v i + dt / 2 * a i) with hx
  have hs := sign_mul_self x
  have ha := abs_le.mp (abs_sign_le x)
  constructor
  · have : a i * (1 - damping * sign x) * (v i + dt / 2 * a i) = x - damping * (x * sign x) := by
      rw [hx]; ring
    rw [this, hs]
    nlinarith [abs_nonneg x]
  · have : a i * (1 - damping * sign x) * a i = (a i * a i) * (1 - damping * sign x) := by ring
    rw [this]
    apply mul_nonneg (mul_self_nonneg _)
    nlinarith [ha.1, ha.2]

/-- **C39.** The same for the torque damped by the aspherical integrator. -/
theorem C39_torque (damping : ℝ) (h0 : 0 ≤ damping) (h1 : damping ≤ 1) (f v : V3) (i : Fin 3) :
    cundallDamp1st damping f v i * v i ≤ f i * v i ∧ 0 ≤ cundallDamp1st damping f v i * f i := by
  unfold cundallDamp1st
  set x := f i * v i with hx
  have hs := sign_mul_self x
  have ha := abs_le.mp (abs_sign_le x)
  constructor
  · have : f i * (1 - damping * sign x) * v i = x - damping * (x * sign x) := by rw [hx]; ring
    rw [this, hs]
    nlinarith [abs_nonneg x]
  · have : f i * (1 - damping * sign x) * f i = (f i * f i) * (1 - damping * sign x) := by ring
    rw [this]
    apply mul_nonneg (mul_self_nonneg _)
    nlinarith [ha.1, ha.2]

/-- **C39.** The exact effect: the component is scaled by `1 - damping` if it acts along the mean
velocity of the step, by `1 + damping` if against it. -/
theorem C39_factor (damping dt : ℝ) (v a : V3) (i : Fin 3) :
    Damped damping (a i) (a i * (v i + dt / 2 * a i)) (cundallDamp2nd damping dt v a i) := by
  have e : cundallDamp2nd damping dt v a i =
      a i * (1 - damping * sign (a i * (v i + dt / 2 * a i))) := by
    unfold cundallDamp2nd
    rw [show (0.5 : ℝ) * dt = dt / 2 by ring]
  rw [e]
  unfold Damped sign
  refine ⟨fun h => ?_, fun h => ?_, fun h => ?_⟩
  · rw [if_neg (not_lt.mpr h.le), if_pos h]; ring
  · rw [if_pos h]; ring
  · rw [h]; simp

/-- **C82, partial.** Kinetic energy: if the velocity component does not reverse within the step,
with a margin of half the damped change, the damped step leaves at most the kinetic energy of the
undamped step.  Missing: steps in which the velocity passes through zero, see
`C82_violated_kinetic`. -/
theorem C82_kinetic_partial (damping dt : ℝ) (h0 : 0 ≤ damping) (h1 : damping ≤ 1) (hdt : 0 ≤ dt)
    (v a : V3) (i : Fin 3) (hrev : a i * v i ≥ 0 ∨ (2 + damping) / 2 * dt * |a i| ≤ |v i|) :
    (v i + dt * cundallDamp2nd damping dt v a i) ^ 2 ≤ (v i + dt * a i) ^ 2 := by
  obtain ⟨hp, hn, hz⟩ := C39_factor damping dt v a i
  set a' := cundallDamp2nd damping dt v a i
  set A := a i
  set V := v i
  have key : (V + dt * A) ^ 2 - (V + dt * a') ^ 2 = dt * (A - a') * (2 * V + dt * (A + a')) := by ring
  rcases lt_trichotomy (A * (V + dt / 2 * A)) 0 with h | h | h
  · -- against the motion
    have e := hn h
    have hAV : A * V < 0 := by nlinarith [mul_self_nonneg A]
    have hrev' : (2 + damping) / 2 * dt * |A| ≤ |V| := by
      rcases hrev with h' | h'
      · linarith
      · exact h'
    have hA : A ≠ 0 := by rintro h'; rw [h'] at hAV; simp at hAV
    have hmul : (2 + damping) / 2 * dt * (A * A) ≤ -(A * V) := by
      have := mul_le_mul_of_nonneg_right hrev' (abs_nonneg A)
      rw [← abs_mul, mul_comm V A, abs_of_neg hAV, mul_assoc, abs_mul_abs_self] at this
      exact this
    have : dt * (A - a') * (2 * V + dt * (A + a')) =
        dt * damping * (-2 * (A * V) - (2 + damping) * dt * (A * A)) := by rw [e]; ring
    nlinarith [mul_nonneg hdt h0]
  · rw [hz h]
  · have e := hp h
    have : dt * (A - a') * (2 * V + dt * (A + a')) =
        dt * damping * (2 * (A * (V + dt / 2 * A)) + (1 - damping) * dt * (A * A)) := by
      rw [e]; ring
    have h2 : 0 ≤ (1 - damping) * dt * (A * A) :=
      mul_nonneg (mul_nonneg (by linarith) hdt) (mul_self_nonneg A)
    nlinarith [mul_nonneg hdt h0, mul_nonneg (mul_nonneg hdt h0) h2, mul_nonneg (mul_nonneg hdt h0) h.le]

/-- Hypotheses of `C82_kinetic_partial`: a body slowed down well within its velocity (v = 2, a = -1). -/
example : (-1 : ℝ) * 2 ≥ 0 ∨ (2 + (0.2 : ℝ)) / 2 * 1 * |(-1 : ℝ)| ≤ |(2 : ℝ)| := by
  right; norm_num

/-- **C82 fails when the velocity reverses within the step**: with damping 0.5 and time
step 1, velocity -0.6 and acceleration 1, the damped step ends with more kinetic energy than the
undamped one and even more than before the step. -/
theorem C82_violated_kinetic : ∃ v a : V3,
    (v 0 + 1 * cundallDamp2nd 0.5 1 v a 0) ^ 2 > (v 0 + 1 * a 0) ^ 2 ∧
    (v 0 + 1 * cundallDamp2nd 0.5 1 v a 0) ^ 2 > v 0 ^ 2 := by
  refine ⟨fun _ => -0.6, fun _ => 1, ?_⟩
  have e := (C39_factor 0.5 1 (fun _ => -0.6) (fun _ => 1) 0).2.1 (by norm_num)
  rw [e]
  norm_num

/-! ## C38: blocked degrees of freedom -/

theorem computeAccel_blocked {g f : V3} {m : ℝ} {b : Nat} {i : Fin 3}
    (h : b &&& axisDOF i false ≠ 0) : computeAccel g f m b i = 0 := by
  unfold computeAccel
  split_ifs with h0
  · exact absurd (by rw [h0, Nat.zero_and]) h
  · exact if_neg h

theorem computeAngAccel_blocked {t I : V3} {b : Nat} {i : Fin 3}
    (h : b &&& axisDOF i true ≠ 0) : computeAngAccel t I b i = 0 := by
  unfold computeAngAccel
  split_ifs with h0
  · exact absurd (by rw [h0, Nat.zero_and]) h
  · exact if_neg h

theorem computeAccel_free {g f : V3} {m : ℝ} {b : Nat} {i : Fin 3}
    (h : b &&& axisDOF i false = 0) : computeAccel g f m b i = f i / m + g i := by
  unfold computeAccel
  split_ifs with h0
  · rfl
  · exact (if_pos h).trans (zero_add _)

theorem computeAngAccel_free {t I : V3} {b : Nat} {i : Fin 3}
    (h : b &&& axisDOF i true = 0) : computeAngAccel t I b i = t i / I i := by
  unfold computeAngAccel
  split_ifs with h0
  · rfl
  · exact (if_pos h).trans (zero_add _)

theorem cundall2_zero {d dt : ℝ} {v a : V3} {i : Fin 3} (h : a i = 0) :
    cundallDamp2nd d dt v a i = 0 := by
  unfold cundallDamp2nd
  rw [h, zero_mul]

theorem linAccel_blocked (P : Params) (D : Deform) (f : V3) (s : State) {i : Fin 3}
    (h : s.blocked &&& axisDOF i false ≠ 0) : linAccel P D f s i = 0 := by
  have h0 := computeAccel_blocked (g := P.gravity) (f := f) (m := s.mass) h
  unfold linAccel
  split_ifs <;> first
    | exact cundall2_zero (by simp only [h0, zero_mul])
    | exact cundall2_zero h0
    | simp only [h0, zero_mul]

theorem angAccel_blocked (P : Params) (m : V3) (s : State) {i : Fin 3}
    (h : s.blocked &&& axisDOF i true ≠ 0) : angAccel P m s i = 0 := by
  have h0 := computeAngAccel_blocked (t := m) (I := s.inertia) h
  unfold angAccel
  split_ifs <;> first
    | exact cundall2_zero (by simp only [h0, zero_mul])
    | exact cundall2_zero h0
    | simp only [h0, zero_mul]

theorem translate_vel (P : Params) (D : Deform) (I : Extern) (s : State) (hD : D.periodic = false) :
    (leapfrogTranslate P D I s).vel = s.vel ∧ (leapfrogTranslate P D I s).angVel = s.angVel ∧
    (leapfrogTranslate P D I s).blocked = s.blocked := by
  unfold leapfrogTranslate
  rw [hD]
  cases I.moveRotUsed <;> cases moves P I <;> simp

theorem imposedRot_vel (I : Extern) (e : Bool) (s : State) :
    (imposedRot I e s).vel = s.vel ∧ (imposedRot I e s).angVel = s.angVel ∧
    (imposedRot I e s).blocked = s.blocked ∧ (imposedRot I e s).pos = s.pos ∧
    (imposedRot I e s).angMom = s.angMom := by
  unfold imposedRot
  split_ifs <;> simp

theorem spherical_vel (P : Params) (D : Deform) (I : Extern) (s : State) (hD : D.periodic = false) :
    (leapfrogSphericalRotate P D I s).vel = s.vel ∧
    (leapfrogSphericalRotate P D I s).angVel = s.angVel ∧
    (leapfrogSphericalRotate P D I s).blocked = s.blocked ∧
    (leapfrogSphericalRotate P D I s).pos = s.pos := by
  unfold leapfrogSphericalRotate
  rw [hD]
  simp only [Bool.false_and, Bool.false_eq_true, if_false]
  have h := imposedRot_vel I (moves P I)
  refine ⟨?_, ?_, ?_, ?_⟩
  · rw [(h _).1]; split_ifs <;> rfl
  · rw [(h _).2.1]; split_ifs <;> rfl
  · rw [(h _).2.2.1]; split_ifs <;> rfl
  · rw [(h _).2.2.2.1]; split_ifs <;> rfl

theorem aspherical_vel (P : Params) (I : Extern) (M : V3) (s : State) :
    (leapfrogAsphericalRotate P I M s).vel = s.vel ∧
    (leapfrogAsphericalRotate P I M s).blocked = s.blocked ∧
    (leapfrogAsphericalRotate P I M s).pos = s.pos ∧
    (leapfrogAsphericalRotate P I M s).angMom = s.angMom + P.dt • M := by
  unfold leapfrogAsphericalRotate
  simp only
  refine ⟨?_, ?_, ?_, ?_⟩
  · rw [(imposedRot_vel I true _).1]
  · rw [(imposedRot_vel I true _).2.2.1]
  · rw [(imposedRot_vel I true _).2.2.2.1]
  · rw [(imposedRot_vel I true _).2.2.2.2]

/-- One step of one body in a non-periodic scene. -/
theorem stepState_blocked (P : Params) (D : Deform) (I : Extern) (f m : V3) (s : State)
    (hD : D.periodic = false) :
    (∀ i, s.blocked &&& axisDOF i false ≠ 0 → (stepState P D I f m s).vel i = s.vel i) ∧
    (∀ i, s.blocked &&& axisDOF i true ≠ 0 → (stepState P D I f m s).angVel i = s.angVel i) ∧
    (stepState P D I f m s).blocked = s.blocked := by
  unfold stepState
  rw [hD]
  simp only [Bool.false_and, Bool.false_eq_true, if_false]
  split_ifs with h1 h2 h3
  · -- spherical integrator
    set s1 : State := { s with vel := s.vel + P.dt • linAccel P D f s } with hs1
    set s2 : State := { s1 with angVel := s1.angVel + P.dt • angAccel P m s1 } with hs2
    obtain ⟨a, b, c, -⟩ := spherical_vel P D I (leapfrogTranslate P D I s2) hD
    obtain ⟨a', b', c'⟩ := translate_vel P D I s2 hD
    refine ⟨fun i hi => ?_, fun i hi => ?_, by rw [c, c']⟩
    · rw [a, a']
      simp [hs2, hs1, linAccel_blocked P D f s hi]
    · rw [b, b']
      have : angAccel P m s1 i = 0 := angAccel_blocked P m s1 hi
      rw [hs2]
      simp only [Pi.add_apply, Pi.smul_apply, this, smul_zero, add_zero]
      rfl
  · set s1 : State := { s with vel := s.vel + P.dt • linAccel P D f s } with hs1
    obtain ⟨a, c, -⟩ := aspherical_vel P I (asphTorque P m s1) (leapfrogTranslate P D I s1)
    obtain ⟨a', b', c'⟩ := translate_vel P D I s1 hD
    refine ⟨fun i hi => ?_, fun i hi => ?_, by rw [c, c']⟩
    · rw [a, a']
      simp [hs1, linAccel_blocked P D f s hi]
    · exfalso
      have hu : useAspherical P I s = true := by simpa using h2
      unfold useAspherical at hu
      simp only [Bool.and_eq_true, decide_eq_true_eq] at hu
      have e : axisDOF i true = dofRot &&& axisDOF i true := by fin_cases i <;> decide
      exact hi (by rw [e, ← Nat.and_assoc, hu.2, Nat.zero_and])
  · obtain ⟨a, b, c, -⟩ := spherical_vel P D I (leapfrogTranslate P D I s) hD
    obtain ⟨a', b', c'⟩ := translate_vel P D I s hD
    exact ⟨fun i _ => by rw [a, a'], fun i _ => by rw [b, b'], by rw [c, c']⟩
  · exfalso
    have hu : useAspherical P I s = true := by simpa using h3
    unfold useAspherical at hu
    simp only [Bool.and_eq_true, decide_eq_true_eq] at hu
    have hb : s.blocked = dofAll := by simpa using h1
    rw [hb] at hu
    exact absurd hu.2 (by decide)

theorem stepped_blocked (P : Params) (D : Deform) (w : World) (id : Nat) (b : Bod)
    (hD : D.periodic = false) (i : Fin 3) :
    (b.st.blocked &&& axisDOF i false ≠ 0 → (stepped P D w id b).st.vel i = b.st.vel i) ∧
    (b.st.blocked &&& axisDOF i true ≠ 0 → (stepped P D w id b).st.angVel i = b.st.angVel i) ∧
    (stepped P D w id b).st.blocked = b.st.blocked :=
  ⟨(stepState_blocked P D _ _ _ b.st hD).1 i, (stepState_blocked P D _ _ _ b.st hD).2.1 i,
   (stepState_blocked P D _ _ _ b.st hD).2.2⟩

/-- What one iteration does to a body that is not a clump member: nothing or `stepped`. -/
theorem actPure_nonmember (P : Params) (D : Deform) {w : World} (hw : ClumpsOk w) (i id : Nat) {b : Bod}
    (hb : w.bodies id = some b) (hm : ¬ b.kind.isMember) :
    (actPure P D i w).bodies id = some b ∨
    (i = id ∧ w.active b ∧ (actPure P D i w).bodies id = some (stepped P D w id b)) := by
  by_cases hi : ∀ c, w.bodies i = some c → ¬ w.active c
  · left; rw [actPure_inactive P D hi, hb]
  · push Not at hi
    obtain ⟨c, hc, hac⟩ := hi
    by_cases e : i = id
    · subst e
      rw [hb] at hc
      rw [← Option.some.inj hc] at hac
      right
      refine ⟨rfl, hac, ?_⟩
      rw [actPure_active P D hb hac]
      simp
    · left
      have : ¬ w.footprint i id := by
        rintro (h | ⟨c', hc', hmem⟩)
        · exact e h.symm
        · obtain ⟨bk, h1, h2⟩ := members_of_clump hw hc' hmem
          rw [hb] at h1
          rw [Option.some.inj h1, h2] at hm
          exact hm trivial
      rw [(actPure_outside P D i w this).1, hb]

theorem foldl_blocked (P : Params) (D : Deform) (hD : D.periodic = false) (order : List Nat)
    {w : World} (hw : ClumpsOk w) {id : Nat} {b : Bod} (hb : w.bodies id = some b)
    (hm : ¬ b.kind.isMember) :
    ∃ b', (order.foldl (fun w i => actPure P D i w) w).bodies id = some b' ∧
      (∀ i, b.st.blocked &&& axisDOF i false ≠ 0 → b'.st.vel i = b.st.vel i) ∧
      (∀ i, b.st.blocked &&& axisDOF i true ≠ 0 → b'.st.angVel i = b.st.angVel i) ∧
      b'.st.blocked = b.st.blocked ∧ b'.kind = b.kind := by
  induction order generalizing w b with
  | nil => exact ⟨b, hb, fun _ _ => rfl, fun _ _ => rfl, rfl, rfl⟩
  | cons j order ih =>
    have hw' := actPure_clumpsOk P D j hw
    rcases actPure_nonmember P D hw j id hb hm with h | ⟨rfl, -, h⟩
    · exact ih hw' h hm
    · obtain ⟨b', h1, h2, h3, h4, h5⟩ := ih hw' h hm
      have hs := stepped_blocked P D w j b hD
      refine ⟨b', h1, fun i hi => ?_, fun i hi => ?_, ?_, ?_⟩
      · rw [h2 i (by rw [(hs i).2.2]; exact hi)]
        exact (hs i).1 hi
      · rw [h3 i (by rw [(hs i).2.2]; exact hi)]
        exact (hs i).2.1 hi
      · rw [h4]; exact (hs 0).2.2
      · rw [h5]; rfl

theorem beforeLoop_frame (P : Params) (w : World) :
    (beforeLoop P w).bodies = w.bodies ∧ (beforeLoop P w).periodic = w.periodic ∧
    (beforeLoop P w).force = w.force ∧ (beforeLoop P w).torque = w.torque ∧
    (beforeLoop P w).moveRotUsed = w.moveRotUsed ∧ (beforeLoop P w).move = w.move ∧
    (beforeLoop P w).rot = w.rot ∧ (beforeLoop P w).subdomain = w.subdomain := by
  unfold beforeLoop
  simp only
  cases hp : w.prevCellSize with
  | none => split_ifs <;> simp [hp]
  | some p =>
    split_ifs <;> (simp only [hp]; split_ifs <;> simp)

theorem afterLoop_frame (w : World) : (afterLoop w).bodies = w.bodies ∧
    (afterLoop w).periodic = w.periodic ∧ (afterLoop w).maxVelocitySq = w.maxVelocitySq := by
  unfold afterLoop
  split_ifs <;> simp

theorem ClumpsOk.of_bodies {w w' : World} (hw : ClumpsOk w) (h : w'.bodies = w.bodies) :
    ClumpsOk w' := hw.of_sig fun j => by rw [h]

/-- The whole run in closed form. -/
theorem action_eq (P : Params) (order : List Nat) {w : World} (hw : ClumpsOk w) :
    action P order w = .ok (afterLoop (order.foldl
      (fun w' i => actPure P (beforeLoop P w).deform i w') (beforeLoop P w))) := by
  unfold action
  simp only
  rw [actLoop_eq P _ order _ (hw.of_bodies (beforeLoop_frame P w).1)]

/-- The run never fails on scenes with proper clumps. -/
theorem action_ok (P : Params) (order : List Nat) {w : World} (hw : ClumpsOk w) :
    ∃ w', action P order w = .ok w' ∧ ClumpsOk w' := by
  refine ⟨_, action_eq P order hw, ?_⟩
  exact (foldl_clumpsOk P _ order (hw.of_bodies (beforeLoop_frame P w).1)).of_bodies
    (afterLoop_frame _).1

/-- **C38 (first half), partial.** In a non-periodic scene, over any history of runs of the
integrator with any parameters, forces, torques, imposed displacements, damping, in any order of
the loop, the velocity components whose letters are in `blockedDOFs` of a body keep their value.
Missing: bodies that are members of a clump, see `C38_violated_member`. -/
theorem C38_blocked_partial (s : List Char) (id : Nat) (w w' : World) (h : History id w w')
    (b : Bod) (hb : w.bodies id = some b) (hm : ¬ b.kind.isMember) (hs : b.st.blocked = dofSet s) :
    ∃ b', w'.bodies id = some b' ∧ b'.st.blocked = dofSet s ∧
      (∀ i, letter false i ∈ s → b'.st.vel i = b.st.vel i) ∧
      (∀ i, letter true i ∈ s → b'.st.angVel i = b.st.angVel i) := by
  suffices h' : ∃ b', w'.bodies id = some b' ∧ b'.st.blocked = dofSet s ∧ ¬ b'.kind.isMember ∧
      (∀ i, letter false i ∈ s → b'.st.vel i = b.st.vel i) ∧
      (∀ i, letter true i ∈ s → b'.st.angVel i = b.st.angVel i) by
    obtain ⟨b', h1, h2, -, h3, h4⟩ := h'
    exact ⟨b', h1, h2, h3, h4⟩
  induction h with
  | refl => exact ⟨b, hb, hs, hm, fun _ _ => rfl, fun _ _ => rfl⟩
  | @newton w1 w2 P order _ hper hok hact ih =>
    obtain ⟨b1, h1, h2, hm1, h3, h4⟩ := ih
    rw [action_eq P order hok] at hact
    injection hact with hact
    have hbl := (beforeLoop_frame P w1)
    have hD : (beforeLoop P w1).deform.periodic = false := by
      unfold World.deform; rw [hbl.2.1, hper]
    obtain ⟨b', k1, k2, k3, k4, k5⟩ := foldl_blocked P _ hD order
      (hok.of_bodies hbl.1) (b := b1) (by rw [hbl.1, h1]) hm1
    refine ⟨b', ?_, by rw [k4, h2], by rw [k5]; exact hm1, fun i hi => ?_, fun i hi => ?_⟩
    · rw [← hact, (afterLoop_frame _).1, k1]
    · rw [k2 i (by rw [h2, dofSet_axis]; exact hi), h3 i hi]
    · rw [k3 i (by rw [h2, dofSet_axis]; exact hi), h4 i hi]
  | env _ he ih =>
    obtain ⟨b1, h1, h2, hm1, h3, h4⟩ := ih
    obtain ⟨b2, k1, k2, k3, k4, k5⟩ := he b1 h1
    exact ⟨b2, k1, by rw [k4, h2], k5, fun i hi => by rw [k2, h3 i hi],
      fun i hi => by rw [k3, h4 i hi]⟩

/-- The undamped acceleration of an axis as the documentation gives it. -/
noncomputable def freeAccel (P : Params) (f : V3) (s : State) (i : Fin 3) : ℝ :=
  (f i / s.mass + P.gravity i) * (if P.densityScaling then s.densityScaling else 1)

/-- The undamped angular acceleration of an axis. -/
noncomputable def freeAngAccel (P : Params) (m : V3) (s : State) (i : Fin 3) : ℝ :=
  m i / s.inertia i * (if P.densityScaling then s.densityScaling else 1)

theorem linAccel_free (P : Params) (D : Deform) (f : V3) (s : State) (hD : D.periodic = false)
    {i : Fin 3} (h : s.blocked &&& axisDOF i false = 0) :
    let a := freeAccel P f s i
    if s.isDamped then Damped P.damping a (a * (s.vel i + P.dt / 2 * a)) (linAccel P D f s i)
    else linAccel P D f s i = a := by
  intro a
  have h0 := computeAccel_free (g := P.gravity) (f := f) (m := s.mass) h
  set A : V3 := if P.densityScaling then
      (fun i => computeAccel P.gravity f s.mass s.blocked i * s.densityScaling)
    else computeAccel P.gravity f s.mass s.blocked with hA
  have hAi : A i = a := by
    rw [hA]
    simp only [a, freeAccel]
    cases P.densityScaling <;> simp [h0]
  have hl : linAccel P D f s = if s.isDamped then cundallDamp2nd P.damping P.dt s.vel A else A := by
    unfold linAccel
    rw [hD]
    simp only [Bool.false_eq_true, if_false]
    rfl
  cases hd : s.isDamped with
  | true =>
    rw [hl, hd]
    simp only [if_true]
    have := C39_factor P.damping P.dt s.vel A i
    rw [hAi] at this
    exact this
  | false =>
    rw [hl, hd]
    simpa using hAi

theorem angAccel_free (P : Params) (m : V3) (s : State) {i : Fin 3}
    (h : s.blocked &&& axisDOF i true = 0) :
    let a := freeAngAccel P m s i
    if s.isDamped then Damped P.damping a (a * (s.angVel i + P.dt / 2 * a)) (angAccel P m s i)
    else angAccel P m s i = a := by
  intro a
  have h0 := computeAngAccel_free (t := m) (I := s.inertia) h
  set A : V3 := if P.densityScaling then
      (fun i => computeAngAccel m s.inertia s.blocked i * s.densityScaling)
    else computeAngAccel m s.inertia s.blocked with hA
  have hAi : A i = a := by
    rw [hA]
    simp only [a, freeAngAccel]
    cases P.densityScaling <;> simp [h0]
  have hl : angAccel P m s = if s.isDamped then cundallDamp2nd P.damping P.dt s.angVel A else A := by
    unfold angAccel
    rfl
  cases hd : s.isDamped with
  | true =>
    rw [hl, hd]
    simp only [if_true]
    have := C39_factor P.damping P.dt s.angVel A i
    rw [hAi] at this
    exact this
  | false =>
    rw [hl, hd]
    simpa using hAi

/-- What the loop leaves of a non-member visited once: exactly its own step on the initial scene. -/
theorem foldl_once (P : Params) (D : Deform) {order : List Nat} (hnd : order.Nodup) {w : World}
    (hw : ClumpsOk w) {id : Nat} (hid : id ∈ order) {b : Bod} (hb : w.bodies id = some b)
    (ha : w.active b) :
    (order.foldl (fun w i => actPure P D i w) w).bodies id = some (stepped P D w id b) := by
  obtain ⟨rest, hperm⟩ : ∃ rest, order.Perm (id :: rest) := ⟨_, List.perm_cons_erase hid⟩
  have hnd' := hperm.nodup hnd
  rw [foldl_perm P D hperm w hw, List.foldl_cons]
  have h1 : (actPure P D id w).bodies id = some (stepped P D w id b) := by
    rw [actPure_active P D hb ha]; simp
  have hm : ¬ (stepped P D w id b).kind.isMember := ha.1
  have hw1 := actPure_clumpsOk P D id hw
  have hnotin := (List.nodup_cons.mp hnd').1
  clear hperm hnd' hnd hid order
  generalize actPure P D id w = w1 at *
  induction rest generalizing w1 with
  | nil => exact h1
  | cons j rest ih =>
    simp only [List.mem_cons, not_or] at hnotin
    rw [List.foldl_cons]
    have h2 : (actPure P D j w1).bodies id = some (stepped P D w id b) := ?_
    · exact ih hnotin.2 _ h2 (actPure_clumpsOk P D j hw1)
    rcases actPure_nonmember P D hw1 j id h1 hm with h | ⟨e, -⟩
    · exact h
    · exact absurd e.symm hnotin.1

/-- **C38 (second half).** A standalone body of this process with non-zero mass gets, on every axis
not blocked, exactly the acceleration force/mass + gravity (times the density scaling if that is
on), damped as documented; the position then advances by the new velocity; likewise for rotations
(angular velocity, or angular momentum for the aspherical integrator). -/
theorem C38_free (P : Params) (order : List Nat) (hnd : order.Nodup) (w : World) (hw : ClumpsOk w)
    (hper : w.periodic = false) (id : Nat) (hid : id ∈ order) (b : Bod) (hb : w.bodies id = some b)
    (hst : b.kind = .standalone) (hsub : w.subdomain = b.subdomain) (hns : b.isSubdomain = false)
    (s : List Char) (hs : b.st.blocked = dofSet s) (_hmass : b.st.mass ≠ 0)
    (_hin : ∀ i, b.st.inertia i ≠ 0) :
    ∃ w' b', action P order w = .ok w' ∧ w'.bodies id = some b' ∧
      (∀ i, letter false i ∉ s → ∃ a', b'.st.vel i = b.st.vel i + P.dt * a' ∧
        (b.st.isDamped = false → a' = freeAccel P (w.force id) b.st i) ∧
        (b.st.isDamped = true → Damped P.damping (freeAccel P (w.force id) b.st i)
          (freeAccel P (w.force id) b.st i *
            (b.st.vel i + P.dt / 2 * freeAccel P (w.force id) b.st i)) a')) ∧
      ((P.mask ≤ 0 ∨ b.maskCompatible = true) → w.moveRotUsed = false →
        ∀ i, b'.st.pos i = b.st.pos i + P.dt * b'.st.vel i) ∧
      ((P.exactAsphericalRot && b.aspherical) = false → ∀ i, letter true i ∉ s →
        ∃ a', b'.st.angVel i = b.st.angVel i + P.dt * a' ∧
        (b.st.isDamped = false → a' = freeAngAccel P (w.torque id) b.st i) ∧
        (b.st.isDamped = true → Damped P.damping (freeAngAccel P (w.torque id) b.st i)
          (freeAngAccel P (w.torque id) b.st i *
            (b.st.angVel i + P.dt / 2 * freeAngAccel P (w.torque id) b.st i)) a')) ∧
      ((P.exactAsphericalRot && b.aspherical) = true → (∀ i, letter true i ∉ s) →
        b.st.isDamped = false → b'.st.angMom = b.st.angMom + P.dt • w.torque id) := by
  have hbl := beforeLoop_frame P w
  have hw0 := hw.of_bodies hbl.1
  have hb0 : (beforeLoop P w).bodies id = some b := by rw [hbl.1, hb]
  have ha : (beforeLoop P w).active b :=
    ⟨by rw [hst]; exact fun h => h, by rw [hbl.2.2.2.2.2.2.2, hsub], hns⟩
  refine ⟨_, _, action_eq P order hw, by
    rw [(afterLoop_frame _).1]; exact foldl_once P _ hnd hw0 hid hb0 ha, ?_⟩
  set D := (beforeLoop P w).deform
  have hD : D.periodic = false := by simp only [D, World.deform]; rw [hbl.2.1, hper]
  have hF : totalF (beforeLoop P w) id b = w.force id := by
    simp [totalF, resF, hst, Kind.members, hbl.2.2.1]
  have hT : totalT (beforeLoop P w) id b = w.torque id := by
    simp [totalT, resT, hst, Kind.members, hbl.2.2.2.1]
  set I := (beforeLoop P w).extern id b with hI
  have hmru : I.moveRotUsed = w.moveRotUsed := by simp only [hI, World.extern]; rw [hbl.2.2.2.2.1]
  have hst' : (stepped P D (beforeLoop P w) id b).st = stepState P D I (w.force id) (w.torque id) b.st := by
    simp only [stepped, hF, hT, hI]
  rw [hst']
  set st := b.st
  have hasph : useAspherical P I st =
      (P.exactAsphericalRot && b.aspherical && decide (st.blocked &&& dofRot = 0)) := rfl
  by_cases hall : st.blocked = dofAll
  · -- everything blocked
    have hin : ∀ i r, letter r i ∈ s := fun i r => dofSet_all (hs ▸ hall) i r
    have hna : useAspherical P I st = false := by
      rw [hasph, hall]; simp [dofAll, dofRot]
    have hstep : stepState P D I (w.force id) (w.torque id) st =
        leapfrogSphericalRotate P D I (leapfrogTranslate P D I st) := by
      unfold stepState
      simp [hall, hna, hD]
    refine ⟨fun i hi => absurd (hin i false) hi, fun hmask hmv i => ?_,
      fun _ i hi => absurd (hin i true) hi, fun _ hi => absurd (hin 0 true) (hi 0)⟩
    rw [hstep, (spherical_vel P D I _ hD).2.2.2, (spherical_vel P D I _ hD).1,
      (translate_vel P D I _ hD).1]
    have hmo : moves P I = true := by
      unfold moves; rcases hmask with h | h
      · simp [h]
      · simp [hI, World.extern, h]
    simp [leapfrogTranslate, hD, hmo, hmru, hmv]
  · set s1 : State := { st with vel := st.vel + P.dt • linAccel P D (w.force id) st } with hs1
    have hvel : ∀ i, s1.vel i = st.vel i + P.dt * linAccel P D (w.force id) st i := fun i => by
      simp [hs1]
    have hlin : ∀ i, letter false i ∉ s → ∃ a', s1.vel i = st.vel i + P.dt * a' ∧
        (st.isDamped = false → a' = freeAccel P (w.force id) st i) ∧
        (st.isDamped = true → Damped P.damping (freeAccel P (w.force id) st i)
          (freeAccel P (w.force id) st i * (st.vel i + P.dt / 2 * freeAccel P (w.force id) st i)) a') := by
      intro i hi
      have hfree : st.blocked &&& axisDOF i false = 0 := by
        by_contra h; exact hi ((dofSet_axis s i false).mp (hs ▸ h))
      have := linAccel_free P D (w.force id) st hD hfree
      refine ⟨_, hvel i, fun hd => ?_, fun hd => ?_⟩
      · rw [hd] at this; simpa using this
      · rw [hd] at this; simpa using this
    have hmove : ∀ x : State, (P.mask ≤ 0 ∨ b.maskCompatible = true) → w.moveRotUsed = false →
        ∀ i, (leapfrogTranslate P D I x).pos i = x.pos i + P.dt * x.vel i := by
      intro x hmask hmv i
      have hmo : moves P I = true := by
        unfold moves; rcases hmask with h | h
        · simp [h]
        · simp [hI, World.extern, h]
      simp [leapfrogTranslate, hD, hmo, hmru, hmv]
    by_cases hu : useAspherical P I st = true
    · have hstep : stepState P D I (w.force id) (w.torque id) st =
          leapfrogAsphericalRotate P I (asphTorque P (w.torque id) s1) (leapfrogTranslate P D I s1) := by
        unfold stepState
        simp [hall, hu, hD, hs1]
      obtain ⟨av, -, ap, am⟩ := aspherical_vel P I (asphTorque P (w.torque id) s1)
        (leapfrogTranslate P D I s1)
      rw [hstep]
      rw [hasph] at hu
      refine ⟨fun i hi => ?_, fun hmask hmv i => ?_, fun hx => ?_, fun _ hx hd => ?_⟩
      · rw [av, (translate_vel P D I s1 hD).1]; exact hlin i hi
      · rw [ap, av, (translate_vel P D I s1 hD).1]; exact hmove s1 hmask hmv i
      · rw [hx] at hu; simp at hu
      · rw [am]
        have h1 : (leapfrogTranslate P D I s1).angMom = st.angMom := by
          unfold leapfrogTranslate
          rw [hD]
          cases I.moveRotUsed <;> cases moves P I <;> simp [hs1]
        have h2 : asphTorque P (w.torque id) s1 = w.torque id := by
          unfold asphTorque
          have : s1.isDamped = false := hd
          rw [this]
          simp only [Bool.false_eq_true, if_false]
          funext i
          have hb' : ¬ (s1.blocked &&& axisDOF i true ≠ 0) := by
            have : s1.blocked = dofSet s := hs
            rw [this, dofSet_axis]; exact hx i
          rw [if_neg hb']
        rw [h1, h2]
    · have hu' : useAspherical P I st = false := by simpa using hu
      set s2 : State := { s1 with angVel := s1.angVel + P.dt • angAccel P (w.torque id) s1 } with hs2
      have hstep : stepState P D I (w.force id) (w.torque id) st =
          leapfrogSphericalRotate P D I (leapfrogTranslate P D I s2) := by
        unfold stepState
        simp [hall, hu', hD, hs1, hs2]
      obtain ⟨sv, sa, -, sp⟩ := spherical_vel P D I (leapfrogTranslate P D I s2) hD
      rw [hstep]
      refine ⟨fun i hi => ?_, fun hmask hmv i => ?_, fun _ i hi => ?_, fun hx hi => ?_⟩
      · rw [sv, (translate_vel P D I s2 hD).1]; exact hlin i hi
      · rw [sp, sv, (translate_vel P D I s2 hD).1]; exact hmove s2 hmask hmv i
      · rw [sa, (translate_vel P D I s2 hD).2.1]
        have hfree : s1.blocked &&& axisDOF i true = 0 := by
          by_contra h; exact hi ((dofSet_axis s i true).mp (hs ▸ h))
        have := angAccel_free P (w.torque id) s1 hfree
        have e1 : freeAngAccel P (w.torque id) s1 i = freeAngAccel P (w.torque id) st i := rfl
        have e2 : s1.angVel i = st.angVel i := rfl
        rw [e1, e2] at this
        refine ⟨angAccel P (w.torque id) s1 i, by simp [hs2, hs1], fun hd => ?_, fun hd => ?_⟩
        · have hd' : s1.isDamped = false := hd
          rw [hd'] at this; simpa using this
        · have hd' : s1.isDamped = true := hd
          rw [hd'] at this; simpa using this
      · exfalso
        rw [hasph, hx] at hu'
        simp only [Bool.true_and, decide_eq_false_iff_not] at hu'
        apply hu'
        apply Nat.eq_of_testBit_eq
        intro k
        rw [Nat.testBit_and, Nat.zero_testBit, hs, dofSet, testBit_foldl]
        have hX := hi 0
        have hY := hi 1
        have hZ := hi 2
        simp only [letter, if_true] at hX hY hZ
        have hX' : 'X' ∉ s := hX
        have hY' : 'Y' ∉ s := hY
        have hZ' : 'Z' ∉ s := hZ
        by_cases k3 : k < 3
        · have : dofRot.testBit k = false := by
            have : k = 0 ∨ k = 1 ∨ k = 2 := by omega
            rcases this with rfl | rfl | rfl <;> decide
          rw [this, Bool.and_false]
        · have h0 : k ≠ 0 := by omega
          have h1 : k ≠ 1 := by omega
          have h2 : k ≠ 2 := by omega
          simp [h0, h1, h2, hX', hY', hZ']

/-! ## A concrete scene -/

/-- A body at rest with unit mass. -/
def exState (blocked : Nat) (vel : V3) : State :=
  { pos := 0, ori := Quat.one, vel := vel, angVel := 0, angMom := 0, mass := 1, inertia := fun _ => 1,
    blocked := blocked, isDamped := true, densityScaling := 1 }

/-- A standalone body. -/
def exBod (st : State) (kind : Kind) : Bod :=
  { st := st, kind := kind, subdomain := 0, isSubdomain := false, aspherical := false,
    maskCompatible := true, bound := none }

/-- A scene around the given bodies: each body is pulled by a unit force along x and z. -/
def exWorld (bodies : Nat → Option Bod) : World :=
  { bodies := bodies, force := fun _ => ![1, 0, 1], torque := fun _ => 0, moveRotUsed := false,
    move := fun _ => 0, rot := fun _ => 0, periodic := false, subdomain := 0,
    cell := { velGrad := 0, nextVelGrad := 0, velGradChanged := false, homoDeform := 2,
              size := fun _ => 1, prevVelGrad := 0 },
    prevVelGrad := 0, prevCellSize := none, maxVelocitySq := 0 }

/-- Default parameters with time step 1. -/
def exParams : Params :=
  { dt := 1, damping := 0.2, gravity := 0, mask := -1, densityScaling := false,
    exactAsphericalRot := true }

/-- One body, blocked along x and turning about Z, and a second free one. -/
def exTwo : World := exWorld fun j =>
  if j = 0 then some (exBod (exState (dofSet ['x', 'Z']) ![3, 0, 0]) .standalone)
  else if j = 1 then some (exBod (exState 0 0) .standalone) else none

/-- A clump moving along x with a member whose degrees of freedom are all blocked. -/
def exClump : World := exWorld fun j =>
  if j = 0 then some (exBod (exState dofAll 0) (.member 1))
  else if j = 1 then some (exBod (exState dofAll ![1, 0, 0]) (.clump [(0, ⟨0, Quat.one⟩)])) else none

theorem exTwo_ok : ClumpsOk exTwo := by
  intro id b ms hb hk
  simp only [exTwo, exWorld] at hb
  split_ifs at hb <;> (injection hb with hb; rw [← hb] at hk; cases hk)

theorem exClump_ok : ClumpsOk exClump := by
  intro id b ms hb hk
  simp only [exClump, exWorld] at hb
  split_ifs at hb with h1 h2
  · injection hb with hb; rw [← hb] at hk; cases hk
  · injection hb with hb
    rw [← hb] at hk
    injection hk with hk
    subst hk
    refine ⟨by simp, ?_⟩
    intro k hk
    simp only [List.map_cons, List.map_nil, List.mem_singleton] at hk
    subst hk
    exact ⟨exBod (exState dofAll 0) (.member 1), by simp [exClump, exWorld], by rw [h2]; rfl⟩

/-- The hypotheses of `C38_blocked_partial` are met by a history with a real run in it. -/
example : ∃ w', History 0 exTwo w' ∧ action exParams [0, 1] exTwo = .ok w' := by
  obtain ⟨w', h, -⟩ := action_ok exParams [0, 1] exTwo_ok
  exact ⟨w', .newton exParams [0, 1] (.refl _) rfl exTwo_ok h, h⟩

/-- **C38 does not hold for clump members**: the member's own `blockedDOFs` are ignored, its
velocity is overwritten by the clump's motion. -/
theorem C38_violated_member : ∃ (w w' : World) (b b' : Bod), ClumpsOk w ∧ w.periodic = false ∧
    action exParams [0, 1] w = .ok w' ∧ w.bodies 0 = some b ∧ w'.bodies 0 = some b' ∧
    b.st.blocked = dofSet ['x', 'y', 'z', 'X', 'Y', 'Z'] ∧ b'.st.vel 0 ≠ b.st.vel 0 := by
  have hbl := beforeLoop_frame exParams exClump
  set w1 := beforeLoop exParams exClump with hw1
  have hok1 : ClumpsOk w1 := exClump_ok.of_bodies hbl.1
  set bm := exBod (exState dofAll 0) (.member 1)
  set bc := exBod (exState dofAll ![1, 0, 0]) (.clump [(0, ⟨0, Quat.one⟩)])
  have h0 : w1.bodies 0 = some bm := by rw [hbl.1]; simp [exClump, exWorld, bm]
  have h1 : w1.bodies 1 = some bc := by rw [hbl.1]; simp [exClump, exWorld, bc]
  have hsub : w1.subdomain = 0 := by rw [hbl.2.2.2.2.2.2.2]; rfl
  have hD : w1.deform.periodic = false := by simp only [World.deform]; rw [hbl.2.1]; rfl
  have hac : w1.active bc := ⟨fun h => h, by rw [hsub]; rfl, rfl⟩
  have hin : actPure exParams w1.deform 0 w1 = w1 := actPure_inactive _ _ (by
    intro b hb ha
    rw [h0] at hb
    rw [← Option.some.inj hb] at ha
    exact ha.1 trivial)
  have hstep := stepState_blocked exParams w1.deform (w1.extern 1 bc) (totalF w1 1 bc)
    (totalT w1 1 bc) bc.st hD
  have hv : (stepped exParams w1.deform w1 1 bc).st.vel 0 = 1 := by
    rw [show (stepped exParams w1.deform w1 1 bc).st.vel 0 = bc.st.vel 0 from
      hstep.1 0 (by decide)]
    simp [bc, exBod, exState]
  have hω : (stepped exParams w1.deform w1 1 bc).st.angVel = 0 := by
    funext i
    rw [show (stepped exParams w1.deform w1 1 bc).st.angVel i = bc.st.angVel i from
      hstep.2.1 i (by fin_cases i <;> decide)]
    simp [bc, exBod, exState]
  refine ⟨exClump, _, bm, movedMember (stepped exParams w1.deform w1 1 bc).st ⟨0, Quat.one⟩ bm,
    exClump_ok, rfl, action_eq exParams [0, 1] exClump_ok, by simp [exClump, exWorld, bm], ?_, by decide, ?_⟩
  · rw [(afterLoop_frame _).1]
    simp only [List.foldl_cons, List.foldl_nil]
    rw [← hw1, hin, actPure_active _ _ h1 hac]
    simp [bc, exBod, Kind.members, h0]
  · simp only [movedMember, memberState, hω]
    simp [hv, bm, exBod, exState]

end Verif.Mech
