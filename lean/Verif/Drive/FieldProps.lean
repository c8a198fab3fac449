import Verif.Drive.FieldLemmas

/-!
# C123, C124, C126: forces put on bodies by engines
-/
namespace Verif.Drive
open Verif.Mech

/-- Specification: body `j` exists. -/
def Present (c : Ctx) (w : World) (j : Nat) (b : Bod) : Prop := j < c.size ∧ w.bodies j = some b

/-- Specification: `w'` is `w` with the force `F j b` on each existing body `j` and nothing else. -/
def Pushed (c : Ctx) (w w' : World) (F : Nat → Bod → V3) : Prop :=
  ∃ fs, w' = { w with force := fs } ∧ (∀ j b, Present c w j b → fs j = w.force j + F j b) ∧
    ∀ j, (∀ b, ¬ Present c w j b) → fs j = w.force j

/-! ## Auxiliary facts -/

theorem existsBody_iff (c : Ctx) (w : World) (id : Int) :
    existsBody c w id = true ↔ 0 ≤ id ∧ id < c.size ∧ ∃ b, w.bodies id.toNat = some b := by
  simp [existsBody, Option.isSome_iff_exists, and_assoc]

theorem pushed_listed {c : Ctx} {w : World} (ids : List Int) (f : Nat → Bod → V3) :
    Pushed c w (addF (fun j => match w.bodies j with
      | none => 0
      | some b => if j < c.size then ids.count (j : Int) • f j b else 0) w) (fun j b => ids.count (j : Int) • f j b) := by
  refine ⟨_, rfl, ?_, ?_⟩
  · rintro j b ⟨h1, h2⟩
    simp only [h2, if_pos h1]
  · intro j h
    cases hb : w.bodies j with
    | none => simp only [hb, add_zero]
    | some b =>
      have : ¬ j < c.size := fun hj => h b ⟨hj, hb⟩
      simp only [hb, if_neg this, add_zero]

theorem pushed_each {c : Ctx} {w : World} (g : Nat → Bod → V3) :
    Pushed c w (addF (fun j => match w.bodies j with
      | none => 0
      | some b => if j < c.size then g j b else 0) w) g := by
  refine ⟨_, rfl, ?_, ?_⟩
  · rintro j b ⟨h1, h2⟩
    simp only [h2, if_pos h1]
  · intro j h
    cases hb : w.bodies j with
    | none => simp only [hb, add_zero]
    | some b =>
      have : ¬ j < c.size := fun hj => h b ⟨hj, hb⟩
      simp only [hb, if_neg this, add_zero]

/-! ## C123: prescribed forces -/

/-- C123.  Whatever the ids (negative, too large, of erased bodies, repeated), the force engine adds its
force to each listed body that exists, once per listing, and does nothing else. -/
theorem C123_force (c : Ctx) (f : V3) (ids : List Int) (w : World) :
    ∃ w', forceEngine c f ids w = .ok w' ∧ Pushed c w w' (fun j _ => ids.count (j : Int) • f) := by
  refine ⟨_, listed_sum (c := c) (step := forceEngine c f) (fun _ _ => f) (fun _ => rfl) ?_ ids ?_ w, pushed_listed ids _⟩
  · intro id ids w b h1 h2
    have : existsBody c w (id : Int) = true := (existsBody_iff c w _).mpr ⟨by omega, by exact_mod_cast h1, b, by simpa using h2⟩
    rw [forceEngine, if_pos this, addForceTo_eq]
    rfl
  · intro id ids' w _ h
    have : ¬ existsBody c w id = true := by
      rw [existsBody_iff]
      rintro ⟨h1, h2, b, h3⟩
      rw [h h1 h2] at h3; cases h3
    rw [forceEngine, if_neg this]

/-- Specification: the offset of a point from a line. -/
noncomputable def offset (p d x : V3) : V3 := x - p - (dot (x - p) d / sqNorm d) • d

/-- C123.  The radial force engine adds to each listed body that exists, once per listing, a force
perpendicular to the axis, of the given size and pointing away from the axis (for a positive size);
bodies on the axis get none. -/
theorem C123_radial (c : Ctx) (axisPt axisDir : V3) (ha : sqNorm axisDir = 1) (fNorm : ℝ) :
    ∃ F : Bod → V3,
      (∀ (ids : List Int) (w : World), ∃ w', radialForceEngine c axisPt axisDir fNorm ids w = .ok w' ∧
        Pushed c w w' (fun j b => ids.count (j : Int) • F b)) ∧
      ∀ b : Bod, (offset axisPt axisDir b.st.pos = 0 → F b = 0) ∧
        (offset axisPt axisDir b.st.pos ≠ 0 → norm3 (F b) = |fNorm| ∧
          dot (F b) (offset axisPt axisDir b.st.pos) = fNorm * norm3 (offset axisPt axisDir b.st.pos)) ∧
        dot (F b) axisDir = 0 := by
  have hoff : ∀ x, x - (axisPt + dot (x - axisPt) axisDir • axisDir) = offset axisPt axisDir x := by
    intro x
    rw [offset, ha, div_one]; abel
  have hperp : ∀ x, dot (offset axisPt axisDir x) axisDir = 0 := by
    intro x
    rw [offset, ha, div_one]
    simp only [sqNorm, dot] at ha
    simp only [dot, Pi.sub_apply, Pi.smul_apply, smul_eq_mul]
    linear_combination (-((x 0 - axisPt 0) * axisDir 0 + (x 1 - axisPt 1) * axisDir 1 + (x 2 - axisPt 2) * axisDir 2)) * ha
  refine ⟨fun b => fNorm • normalized (offset axisPt axisDir b.st.pos), fun ids w => ⟨_, listed_sum (c := c)
    (step := radialForceEngine c axisPt axisDir fNorm) (fun _ b => fNorm • normalized (offset axisPt axisDir b.st.pos))
    (fun _ => rfl) ?_ ids ?_ w, pushed_listed ids _⟩, ?_⟩
  · intro id ids w b h1 h2
    have hx : existsBody c w (id : Int) = true := (existsBody_iff c w _).mpr ⟨by omega, by exact_mod_cast h1, b, by simpa using h2⟩
    have hb : byId c w (id : Int) = .ok (some b) := by
      rw [byId, if_pos ⟨by omega, by exact_mod_cast h1⟩, Int.toNat_natCast, h2]
    rw [radialForceEngine, if_pos hx, hb, Res.bind_ok]
    simp only [hoff]
    split_ifs with h0
    · rw [(sqNorm_normalized_eq_zero _).mp h0, normalized_zero, smul_zero, single_zero, addF_zero]
    · rw [addForceTo_eq]; rfl
  · intro id ids' w _ h
    have : ¬ existsBody c w id = true := by
      rw [existsBody_iff]
      rintro ⟨h1, h2, b, h3⟩
      rw [h h1 h2] at h3; cases h3
    rw [radialForceEngine, if_neg this]
  · intro b
    refine ⟨?_, ?_, ?_⟩
    · intro h; simp only [h, normalized_zero, smul_zero]
    · intro h
      constructor
      · simp only [norm3_smul, norm3_normalized h, mul_one]
      · simp only [dot_smul_left', dot_self_normalized]
    · simp only [dot_smul_left', normalized, hperp, mul_zero]

/-- C129 for ids that are not negative: the torque engine adds its torque to each listed id, once per listing, and does
nothing else.  Missing: negative ids, see `C129_violated`. -/
theorem C129_torque_partial (t : V3) (ids : List Int) (h : ∀ id ∈ ids, 0 ≤ id) (w : World) :
    torqueEngine t ids w = .ok { w with torque := fun j => w.torque j + ids.count (j : Int) • t } := by
  induction ids generalizing w with
  | nil => simp [torqueEngine]
  | cons i l ih =>
    rw [torqueEngine, addTorqueTo, if_pos (h i (List.mem_cons_self ..)), Res.bind_ok, ih fun j hj => h j (List.mem_cons_of_mem _ hj)]
    obtain ⟨m, rfl⟩ := Int.eq_ofNat_of_zero_le (h i (List.mem_cons_self ..))
    congr 1
    simp only [Int.toNat_natCast, World.mk.injEq, true_and, and_true]
    funext j
    by_cases hj : j = m
    · subst hj
      simp only [if_true, List.count_cons_self, add_smul, one_smul]
      abel
    · have hne : (m : Int) ≠ (j : Int) := by exact_mod_cast Ne.symm hj
      simp only [if_neg hj, List.count_cons_of_ne hne]

/-- A case for `C129_torque_partial`. -/
example : ∃ w', torqueEngine ![0, 0, 2] [1, 0, 1] exTwo = .ok w' ∧ w'.torque 1 = exTwo.torque 1 + ![0, 0, 4] ∧ w'.torque 0 = exTwo.torque 0 + ![0, 0, 2] := by
  refine ⟨_, C129_torque_partial _ _ (by decide) _, ?_, ?_⟩
  · have : List.count ((1 : Nat) : Int) [1, 0, 1] = 2 := by decide
    simp only [this]
    congr 1
    apply v3_ext <;> simp <;> norm_num
  · have : List.count ((0 : Nat) : Int) [1, 0, 1] = 1 := by decide
    simp only [this, one_smul]

/-- C129 fails for a negative id, which the force engine skips: the torques are written before their storage. -/
theorem C129_violated (t : V3) (ids : List Int) (w : World) (id : Int) (h : id < 0) (hid : id ∈ ids) :
    torqueEngine t ids w = .ub := by
  induction ids generalizing w with
  | nil => simp at hid
  | cons i l ih =>
    rw [torqueEngine, addTorqueTo]
    split_ifs with h0
    · rcases List.mem_cons.mp hid with rfl | hid
      · omega
      · exact ih _ hid
    · rfl

/-- Cases for C123: a body listed twice, ids that do not exist, a body off the axis. -/
example : ∃ w', forceEngine exCtx ![1, 0, 0] [0, -1, 7, 0] exHeldWorld = .ok w' ∧
    w'.force 0 = ![3, 0, 1] ∧ Present exCtx exHeldWorld 0 exHeld ∧ offset 0 ![0, 0, 1] exHeld.st.pos ≠ 0 := by
  obtain ⟨w', h, fs, rfl, h1, -⟩ := C123_force exCtx ![1, 0, 0] [0, -1, 7, 0] exHeldWorld
  have hp : Present exCtx exHeldWorld 0 exHeld := ⟨by simp [exCtx], exHeld_held.here⟩
  refine ⟨_, h, ?_, hp, ?_⟩
  · show fs 0 = _
    rw [h1 0 exHeld hp]
    have : List.count ((0 : Nat) : Int) [0, -1, 7, 0] = 2 := by decide
    show _ + List.count ((0 : Nat) : Int) [0, -1, 7, 0] • _ = _
    rw [this]
    apply v3_ext <;> simp [exHeldWorld, exWorld] <;> norm_num
  · intro h
    have := congrFun h 0
    simp [offset, exHeld, exBod, dot, sqNorm] at this

/-! ## C124: drag -/

theorem dragEngine_listed (c : Ctx) (force : ℝ → V3 → V3) (radius : Nat → Option ℝ) (ids : List Int) (hr : InRange c ids)
    (w : World) : ∃ w', dragEngine c force radius ids w = .ok w' ∧ Pushed c w w' (fun j b => ids.count (j : Int) •
      match radius j with
      | none => 0
      | some r => force r b.st.vel) := by
  refine ⟨_, listed_sum (c := c) (step := dragEngine c force radius) (fun j b =>
      match radius j with
      | none => 0
      | some r => force r b.st.vel) (fun _ => rfl) ?_ ids ?_ w, pushed_listed ids _⟩
  · intro id ids w b h1 h2
    rw [dragEngine, byId, if_pos ⟨by omega, by exact_mod_cast h1⟩, Int.toNat_natCast, h2]
    simp only [Res.bind_ok]
    cases hrad : radius id with
    | none => simp only [single_zero, addF_zero]
    | some r => simp only [addForceTo_eq, Res.bind_ok]
  · intro id ids' w hid h
    obtain ⟨h1, h2⟩ := hr id hid
    rw [dragEngine, byId, if_pos ⟨h1, h2⟩, h h1 h2]
    rfl

/-- C124.  The drag engine adds to each listed sphere that exists, once per listing, a force against its
velocity of size `½ ρ C_d π r² |v|²`; other shapes and missing bodies get none.  Missing: ids that
were never used, see `C124_violated`. -/
theorem C124_drag_partial (c : Ctx) (Rho Cd : ℝ) (hR : 0 ≤ Rho) (hC : 0 ≤ Cd) (radius : Nat → Option ℝ) (ids : List Int)
    (hr : InRange c ids) (w : World) : ∃ (w' : World) (F : Nat → Bod → V3), dragEngine c (dragForce Rho Cd) radius ids w = .ok w' ∧
      Pushed c w w' (fun j b => ids.count (j : Int) • F j b) ∧
      (∀ j b, radius j = none → F j b = 0) ∧
      ∀ j b r, radius j = some r → norm3 (F j b) = 0.5 * Rho * Cd * (Real.pi * r ^ 2) * sqNorm b.st.vel ∧
        ∃ k : ℝ, k ≤ 0 ∧ F j b = k • b.st.vel := by
  obtain ⟨w', h1, h2⟩ := dragEngine_listed c (dragForce Rho Cd) radius ids hr w
  refine ⟨w', _, h1, h2, ?_, ?_⟩
  · intro j b h; simp [h]
  · intro j b r h
    simp only [h, dragForce]
    by_cases hv : b.st.vel = 0
    · rw [if_neg (by simpa using hv), hv]
      refine ⟨?_, 0, le_rfl, by simp⟩
      simp [norm3, sqNorm, dot]
    · rw [if_pos hv]
      have hpos := norm3_pos hv
      have hpi := Real.pi_pos
      constructor
      · rw [norm3_smul, norm3_normalized hv, mul_one]
        rw [show -(0.5 : ℝ) * Rho * (r * r * Real.pi) * Cd * sqNorm b.st.vel =
          -(0.5 * Rho * Cd * (Real.pi * r ^ 2) * sqNorm b.st.vel) by ring, abs_neg, abs_of_nonneg]
        have := sqNorm_nonneg b.st.vel
        positivity
      · refine ⟨(-(0.5 : ℝ) * Rho * (r * r * Real.pi) * Cd * sqNorm b.st.vel) * (1 / norm3 b.st.vel), ?_, ?_⟩
        · have := sqNorm_nonneg b.st.vel
          have h3 : 0 ≤ 0.5 * Rho * (r * r * Real.pi) * Cd * sqNorm b.st.vel * (1 / norm3 b.st.vel) := by
            have : 0 ≤ r * r := mul_self_nonneg r
            positivity
          linarith
        · rw [normalized, smul_smul]

/-- C124.  The linear drag engine adds `-6 π ν r v`. -/
theorem C124_linear_partial (c : Ctx) (nu : ℝ) (radius : Nat → Option ℝ) (ids : List Int) (hr : InRange c ids) (w : World) :
    ∃ (w' : World) (F : Nat → Bod → V3), dragEngine c (linearDragForce nu) radius ids w = .ok w' ∧
      Pushed c w w' (fun j b => ids.count (j : Int) • F j b) ∧
      (∀ j b, radius j = none → F j b = 0) ∧
      ∀ j b r, radius j = some r → F j b = -((6 * Real.pi * nu * r) • b.st.vel) := by
  obtain ⟨w', h1, h2⟩ := dragEngine_listed c (linearDragForce nu) radius ids hr w
  refine ⟨w', _, h1, h2, ?_, ?_⟩
  · intro j b h; simp [h]
  · intro j b r h
    simp only [h, linearDragForce]
    by_cases hv : b.st.vel = 0
    · rw [if_neg (by simpa using hv), hv]; simp
    · rw [if_pos hv, neg_smul]

/-- C124 fails for ids beyond the container: it is read outside before `exists` is asked. -/
theorem C124_violated (force : ℝ → V3 → V3) (radius : Nat → Option ℝ) (w : World) :
    dragEngine exCtx force radius [1] w = .ub ∧ dragEngine exCtx force radius [-1] w = .ub := ⟨rfl, rfl⟩

/-- The hypotheses of `C124_drag_partial` are met by the default density and coefficient and a moving
sphere. -/
example : (0 : ℝ) ≤ 1.225 ∧ (0 : ℝ) ≤ 0.47 ∧ InRange exCtx [0] ∧ ∃ b, Present exCtx exTwo 0 b ∧ b.st.vel ≠ 0 := by
  refine ⟨by norm_num, by norm_num, by decide, _, ⟨by simp [exCtx], rfl⟩, fun h => ?_⟩
  have := congrFun h 0
  simp [exBod, exState] at this

/-! ## C126: gravity towards a body or an axis -/

/-- Specification: not a clump and let through by the mask. -/
def Attracted (inMask : Nat → Bool) (j : Nat) (b : Bod) : Prop := Kind.isClump b.kind = false ∧ inMask j = true

/-- C126.  Gravity towards an axis: every body but clumps gets a force of size mass times acceleration,
perpendicular to the axis and pointing to it; bodies on the axis get none. -/
theorem C126_axial (c : Ctx) (p d : V3) (hd : d ≠ 0) (acc : ℝ) (inMask : Nat → Bool) (w : World) :
    ∃ (w' : World) (F : Nat → Bod → V3), axialGravity c p d acc inMask w = .ok w' ∧ Pushed c w w' F ∧
      (∀ j b, ¬ Attracted inMask j b ∨ offset p d b.st.pos = 0 → F j b = 0) ∧
      ∀ j b, Attracted inMask j b → offset p d b.st.pos ≠ 0 →
        norm3 (F j b) = |acc * b.st.mass| ∧ dot (F j b) d = 0 ∧
        dot (F j b) (offset p d b.st.pos) = -(acc * b.st.mass) * norm3 (offset p d b.st.pos) := by
  have hd2 : sqNorm d ≠ 0 := fun h => hd (sqNorm_eq_zero.mp h)
  have hoff : ∀ x, p + (-dot (p - x) (p + d - p) / sqNorm (p + d - p)) • (p + d - p) - x = -offset p d x := by
    intro x
    rw [add_sub_cancel_left, offset]
    have : -dot (p - x) d = dot (x - p) d := by simp only [dot, Pi.sub_apply]; ring
    rw [this]; abel
  have hperp : ∀ x, dot (offset p d x) d = 0 := by
    intro x
    have : dot (offset p d x) d = dot (x - p) d - (dot (x - p) d / sqNorm d) * sqNorm d := by
      simp only [offset, sqNorm, dot, Pi.sub_apply, Pi.smul_apply, smul_eq_mul]; ring
    rw [this, div_mul_cancel₀ _ hd2, sub_self]
  have hneg : ∀ v : V3, normalized (-v) = -normalized v := by
    intro v
    have : sqNorm (-v) = sqNorm v := by simp only [sqNorm, dot, Pi.neg_apply]; ring
    simp only [normalized, norm3, this, smul_neg]
  refine ⟨_, fun j b => if Kind.isClump b.kind || !inMask j then 0 else
      (acc * b.st.mass) • normalized (-offset p d b.st.pos), overBodies_each _ (fun j b =>
      if Kind.isClump b.kind || !inMask j then 0 else (acc * b.st.mass) • normalized (-offset p d b.st.pos)) ?_ c.size w,
      pushed_each _, ?_, ?_⟩
  · intro id b w
    simp only [hoff]
    by_cases h : (Kind.isClump b.kind || !inMask id) = true
    · simp only [h, if_true, single_zero, addF_zero]
    · simp only [h, Bool.false_eq_true, if_false]
      split_ifs with h0
      · rw [(sqNorm_normalized_eq_zero _).mp h0, normalized_zero, smul_zero, single_zero, addF_zero]
      · rw [addForceTo_eq]
  · intro j b h
    beta_reduce
    rcases h with h | h
    · rw [if_pos]
      simp only [Attracted, not_and, Bool.not_eq_true] at h
      cases hk : Kind.isClump b.kind with
      | true => rfl
      | false => simp [h hk]
    · rw [h, neg_zero, normalized_zero, smul_zero, ite_self]
  · intro j b ⟨h1, h2⟩ h
    have hc : ¬ (Kind.isClump b.kind || !inMask j) = true := by simp [h1, h2]
    simp only [if_neg hc]
    refine ⟨?_, ?_, ?_⟩
    · rw [norm3_smul, norm3_normalized (by simpa using h), mul_one]
    · rw [dot_smul_left', hneg]
      have : dot (-normalized (offset p d b.st.pos)) d = -(1 / norm3 (offset p d b.st.pos) * dot (offset p d b.st.pos) d) := by
        simp only [normalized, dot, Pi.neg_apply, Pi.smul_apply, smul_eq_mul]; ring
      rw [this, hperp]; ring
    · rw [dot_smul_left', hneg]
      have : dot (-normalized (offset p d b.st.pos)) (offset p d b.st.pos) =
          -dot (normalized (offset p d b.st.pos)) (offset p d b.st.pos) := by
        simp only [dot, Pi.neg_apply]; ring
      rw [this, dot_self_normalized]; ring

/-- The total of all forces. -/
def allForces (c : Ctx) (w : World) : V3 := ((List.range c.size).map w.force).sum

/-- C126.  Gravity towards a body that exists: every other body but clumps gets a force of size mass times
acceleration towards it, and with `reciprocal` the forces balance: the total of all forces does not
change.  Missing: a central body that does not exist, and what a central clump does to itself; see
`C126_violated_missing` and `C126_violated_self`. -/
theorem C126_central_partial (c : Ctx) (acc : ℝ) (k : Nat) (cb : Bod) (reciprocal : Bool) (inMask : Nat → Bool) (w : World)
    (hk : Present c w k cb) :
    ∃ w', centralGravity c acc k reciprocal inMask w = .ok w' ∧ w' = { w with force := w'.force } ∧
      (∀ j b, Present c w j b → j ≠ k → Attracted inMask j b → cb.st.pos ≠ b.st.pos →
        w'.force j = w.force j + (acc * b.st.mass / norm3 (cb.st.pos - b.st.pos)) • (cb.st.pos - b.st.pos)) ∧
      (∀ j b, Present c w j b → j ≠ k → ¬ Attracted inMask j b → w'.force j = w.force j) ∧
      (reciprocal = false → w'.force k = w.force k) ∧
      (reciprocal = true → allForces c w' = allForces c w) := by
  obtain ⟨g, hg⟩ : ∃ g : Nat → Bod → V3, g = fun j b => if Kind.isClump b.kind || decide (j = k) || !inMask j then 0 else
      (acc * b.st.mass) • normalized (cb.st.pos - b.st.pos) := ⟨_, rfl⟩
  obtain ⟨G, hG⟩ : ∃ G : Nat → Bod → Nat → V3, G = fun j b => single j (g j b) + single k (if reciprocal then -g j b else 0) := ⟨_, rfl⟩
  have hbyId : byId c w (k : Int) = .ok (some cb) := by
    rw [byId, if_pos ⟨by omega, by exact_mod_cast hk.1⟩, Int.toNat_natCast, hk.2]
  have hrun : centralGravity c acc k reciprocal inMask w = .ok (addF (((List.range c.size).map fun id => match w.bodies id with
      | none => 0
      | some b => G id b).sum) w) := by
    rw [centralGravity, hbyId, Res.bind_ok]
    refine overBodies_sum _ G ?_ _ _
    intro id b w
    have hdec : decide ((id : Int) = (k : Int)) = decide (id = k) := by simp
    simp only [hG, hg, hdec]
    cases h1 : Kind.isClump b.kind with
    | true => cases reciprocal <;> simp [single_zero, addF_zero]
    | false =>
      by_cases h2 : id = k
      · cases reciprocal <;> simp [h2, single_zero, addF_zero]
      · cases h3 : inMask id with
        | false => cases reciprocal <;> simp [h2, single_zero, addF_zero]
        | true =>
          have hadd : addForceTo ((k : Nat) : Int) = addForceTo (k : Int) := rfl
          cases reciprocal with
          | false => simp [h2, single_zero, addForceTo_eq]
          | true => simp [h2, addForceTo_eq, addF_addF]
  refine ⟨_, hrun, rfl, ?_, ?_, ?_, ?_⟩
  · intro j b hj hjk ha hne
    show w.force j + _ = _
    congr 1
    rw [sum_at, sum_only _ _ j, if_pos hj.1, hj.2]
    · simp only [hG, hg, Pi.add_apply, single, if_true, hjk, if_false, add_zero]
      simp only [ha.1, ha.2, decide_false, Bool.or_false, Bool.not_true, Bool.false_eq_true, if_false, normalized]
      rw [smul_smul]
      congr 1
      ring
    · intro i hi
      cases hb : w.bodies i with
      | none => rfl
      | some bi => simp only [hG, Pi.add_apply, single, Ne.symm hi, if_false, hjk, add_zero]
  · intro j b hj hjk ha
    show w.force j + _ = _
    rw [sum_at, sum_only _ _ j, if_pos hj.1, hj.2]
    · simp only [hG, hg, Pi.add_apply, single, if_true, hjk, if_false, add_zero]
      rw [if_pos, add_zero]
      simp only [Attracted, not_and, Bool.not_eq_true] at ha
      cases hc : Kind.isClump b.kind with
      | true => rfl
      | false => simp [ha hc]
    · intro i hi
      cases hb : w.bodies i with
      | none => rfl
      | some bi => simp only [hG, Pi.add_apply, single, Ne.symm hi, if_false, hjk, add_zero]
  · intro hrec
    show w.force k + _ = _
    rw [sum_at]
    have : ∀ l : List Nat, (l.map fun id => (match w.bodies id with
      | none => (0 : Nat → V3)
      | some b => G id b) k).sum = 0 := by
      intro l
      induction l with
      | nil => rfl
      | cons i l ih =>
        rw [List.map_cons, List.sum_cons, ih, add_zero]
        cases hb : w.bodies i with
        | none => rfl
        | some bi =>
          by_cases hi : i = k
          · subst hi; simp [hG, hg, single, hrec]
          · simp [hG, single, Ne.symm hi, hrec]
    rw [this, add_zero]
  · intro hrec
    have hsum : ∀ (l : List Nat) (A B : Nat → V3), (l.map fun j => A j + B j).sum = (l.map A).sum + (l.map B).sum := by
      intro l A B
      induction l with
      | nil => simp
      | cons a l ih => simp only [List.map_cons, List.sum_cons, ih]; abel
    show ((List.range c.size).map fun j => w.force j + _).sum = _
    rw [hsum, allForces]
    have hz : ∀ l : List Nat, (∀ i ∈ l, i < c.size) → ((List.range c.size).map fun j => ((l.map fun id => match w.bodies id with
      | none => (0 : Nat → V3)
      | some b => G id b).sum : Nat → V3) j).sum = 0 := by
      intro l hl
      induction l with
      | nil =>
        have : ((List.range c.size).map fun _ => (0 : V3)).sum = 0 := by simp
        exact this
      | cons i l ih =>
        simp only [List.map_cons, List.sum_cons, Pi.add_apply]
        rw [hsum, ih fun j hj => hl j (List.mem_cons_of_mem _ hj), add_zero]
        cases hb : w.bodies i with
        | none =>
          show ((List.range c.size).map fun _ => (0 : V3)).sum = 0
          simp
        | some bi =>
          simp only [hG]
          show ((List.range c.size).map fun j => single i (g i bi) j + single k (if reciprocal = true then -g i bi else 0) j).sum = 0
          rw [hsum, sum_only _ _ i (fun j hj => by simp [single, hj]), sum_only _ _ k (fun j hj => by simp [single, hj]),
            if_pos (hl i (List.mem_cons_self ..)), if_pos hk.1]
          simp [single, hrec]
    rw [hz _ (fun i hi => List.mem_range.mp hi), add_zero]

/-- C126 fails for a central body that does not exist, in particular for the default `-1` and for an
erased one. -/
theorem C126_violated_missing (c : Ctx) (acc : ℝ) (reciprocal : Bool) (inMask : Nat → Bool) (w : World) :
    centralGravity c acc (-1) reciprocal inMask w = .ub ∧
      ∀ k : Nat, k < c.size → w.bodies k = none → centralGravity c acc k reciprocal inMask w = .ub := by
  constructor
  · rw [centralGravity, byId, if_neg (by omega)]; rfl
  · intro k h1 h2
    rw [centralGravity, byId, if_pos ⟨by omega, by exact_mod_cast h1⟩, Int.toNat_natCast, h2]
    rfl

/-- A clump of unit mass at the origin with two members, a heavy one and a light one. -/
noncomputable def exCentral : World := exWorld fun j =>
  if j = 0 then some (exBod { exState 0 0 with pos := ![1, 0, 0], mass := 3 } (.member 2))
  else if j = 1 then some (exBod { exState 0 0 with pos := ![-3, 0, 0], mass := 1 } (.member 2))
  else if j = 2 then some (exBod { exState 0 0 with mass := 4 } (.clump [(0, ⟨![1, 0, 0], Quat.one⟩), (1, ⟨![-3, 0, 0], Quat.one⟩)]))
  else none

/-- C126 fails for a clump as central body: its own members are attracted too, and without
`reciprocal` the clump, which should feel nothing, gets a net force. -/
theorem C126_violated_self : ∃ w', centralGravity ⟨1, 0, 0, 3, true⟩ 1 2 false (fun _ => true) exCentral = .ok w' ∧
    (w'.force 0 - exCentral.force 0) + (w'.force 1 - exCentral.force 1) + (w'.force 2 - exCentral.force 2) = ![-2, 0, 0] := by
  obtain ⟨w', h, -, h1, -, h2, -⟩ := C126_central_partial ⟨1, 0, 0, 3, true⟩ 1 2
    (exBod { exState 0 0 with mass := 4 } (.clump [(0, ⟨![1, 0, 0], Quat.one⟩), (1, ⟨![-3, 0, 0], Quat.one⟩)])) false (fun _ => true)
    exCentral ⟨by simp, by simp [exCentral, exWorld]⟩
  refine ⟨w', h, ?_⟩
  have e0 := h1 0 (exBod { exState 0 0 with pos := ![1, 0, 0], mass := 3 } (.member 2)) ⟨by simp, by simp [exCentral, exWorld]⟩
    (by decide) ⟨rfl, rfl⟩ (fun h => by have := congrFun h 0; simp [exBod, exState] at this)
  have e1 := h1 1 (exBod { exState 0 0 with pos := ![-3, 0, 0], mass := 1 } (.member 2)) ⟨by simp, by simp [exCentral, exWorld]⟩
    (by decide) ⟨rfl, rfl⟩ (fun h => by have := congrFun h 0; simp [exBod, exState] at this)
  have e2 := h2 rfl
  rw [e0, e1, e2]
  have n0 : norm3 ((exBod { exState 0 0 with mass := 4 } (.clump [(0, ⟨![1, 0, 0], Quat.one⟩), (1, ⟨![-3, 0, 0], Quat.one⟩)])).st.pos -
      (exBod { exState 0 0 with pos := ![1, 0, 0], mass := 3 } (.member 2)).st.pos) = 1 := by
    simp [norm3, sqNorm, dot, exBod, exState]
  have n1 : norm3 ((exBod { exState 0 0 with mass := 4 } (.clump [(0, ⟨![1, 0, 0], Quat.one⟩), (1, ⟨![-3, 0, 0], Quat.one⟩)])).st.pos -
      (exBod { exState 0 0 with pos := ![-3, 0, 0], mass := 1 } (.member 2)).st.pos) = 3 := by
    simp only [norm3]
    rw [Real.sqrt_eq_iff_mul_self_eq_of_pos (by norm_num)]
    simp [sqNorm, dot, exBod, exState]
  rw [n0, n1]
  apply v3_ext <;> simp [exBod, exState] <;> norm_num

/-- The hypotheses of `C126_axial` and `C126_central_partial` are met. -/
example : (![0, 0, 2] : V3) ≠ 0 ∧ Present ⟨1, 0, 0, 3, true⟩ exCentral 0 (exBod { exState 0 0 with pos := ![1, 0, 0], mass := 3 } (.member 2)) ∧
    Attracted (fun _ => true) 1 (exBod { exState 0 0 with pos := ![-3, 0, 0], mass := 1 } (.member 2)) ∧
    offset 0 ![0, 0, 2] (![1, 0, 0] : V3) ≠ 0 := by
  refine ⟨fun h => ?_, ⟨by simp, by simp [exCentral, exWorld]⟩, ⟨rfl, rfl⟩, fun h => ?_⟩
  · have := congrFun h 2; simp at this
  · have := congrFun h 0; simp [offset, dot] at this

end Verif.Drive
