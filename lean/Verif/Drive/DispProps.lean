import Verif.Drive.GravityProps

/-!
# C127 and C128: erased bodies, and the step displacer
-/
namespace Verif.Drive
open Verif.Mech

/-! ## C127: engines that list an erased body -/

/-- Specification: the scene after the body `k` was erased. -/
def erased (k : Nat) (w : World) : World := { w with bodies := fun j => if j = k then none else w.bodies j }

/-- Specification: an engine does to the other bodies the same whether or not body `k` was erased. -/
def Unharmed (run : World → Res World) (k : Nat) (w : World) : Prop :=
  ∀ w1, run w = .ok w1 → ∃ w2, run (erased k w) = .ok w2 ∧ w2.bodies k = none ∧
    ∀ j, j ≠ k → w2.bodies j = w1.bodies j ∧ w2.force j = w1.force j

theorem erased_present {c : Ctx} {k j : Nat} {w : World} (h : j ≠ k) (b : Bod) :
    Present c (erased k w) j b ↔ Present c w j b := by
  simp only [Present, erased, if_neg h]

theorem pushed_unharmed {c : Ctx} {k : Nat} {w w1 w2 : World} {g : Nat → Bod → V3} (h1 : Pushed c w w1 g)
    (h2 : Pushed c (erased k w) w2 g) :
    w2.bodies k = none ∧ ∀ j, j ≠ k → w2.bodies j = w1.bodies j ∧ w2.force j = w1.force j := by
  obtain ⟨f1, rfl, p1, q1⟩ := h1
  obtain ⟨f2, rfl, p2, q2⟩ := h2
  refine ⟨by simp [erased], ?_⟩
  intro j hj
  refine ⟨by simp [erased, hj], ?_⟩
  show f2 j = f1 j
  by_cases hp : ∃ b, Present c w j b
  · obtain ⟨b, hb⟩ := hp
    rw [p1 j b hb, p2 j b ((erased_present hj b).mpr hb)]
    rfl
  · rw [q1 j fun b hb => hp ⟨b, hb⟩, q2 j fun b hb => hp ⟨b, (erased_present hj b).mp hb⟩]
    rfl

/-- C127.  Erasing a body does not change what the force engine, the radial force engine and the drag engines that list it
do to the other bodies. -/
theorem C127_force_partial (c : Ctx) (ids : List Int) (k : Nat) (w : World) :
    (∀ f, Unharmed (forceEngine c f ids) k w) ∧
    (∀ p d fNorm, sqNorm d = 1 → Unharmed (radialForceEngine c p d fNorm ids) k w) ∧
    (∀ force radius, InRange c ids → Unharmed (dragEngine c force radius ids) k w) := by
  refine ⟨?_, ?_, ?_⟩
  · intro f w1 h
    obtain ⟨w1', e1, p1⟩ := C123_force c f ids w
    obtain ⟨w2, e2, p2⟩ := C123_force c f ids (erased k w)
    rw [e1] at h; cases h
    exact ⟨w2, e2, pushed_unharmed p1 p2⟩
  · intro p d n hd w1 h
    obtain ⟨F, hF, -⟩ := C123_radial c p d hd n
    obtain ⟨w1', e1, p1⟩ := hF ids w
    obtain ⟨w2, e2, p2⟩ := hF ids (erased k w)
    rw [e1] at h; cases h
    exact ⟨w2, e2, pushed_unharmed p1 p2⟩
  · intro force radius hr w1 h
    obtain ⟨w1', e1, p1⟩ := dragEngine_listed c force radius ids hr w
    obtain ⟨w2, e2, p2⟩ := dragEngine_listed c force radius ids hr (erased k w)
    rw [e1] at h; cases h
    exact ⟨w2, e2, pushed_unharmed p1 p2⟩

/-- C127.  The same for every kinematic engine, also in the state it keeps. -/
theorem C127_kinematic_partial (T : V3 → V3 → Quat) (c : Ctx) (e : Kin) (ids : List Int) (k : Nat) (w : World)
    {e1 : Kin} {w1 : World} (h : e.action T c ids w = .ok (e1, w1)) :
    ∃ w2, e.action T c ids (erased k w) = .ok (e1, w2) ∧ w2.bodies k = none ∧
      ∀ j, j ≠ k → w2.bodies j = w1.bodies j ∧ w2.force j = w1.force j := by
  unfold Kin.action at h ⊢
  by_cases he : ids.isEmpty = true
  · rw [if_pos he] at h ⊢
    cases h
    exact ⟨_, rfl, by simp [erased], fun j hj => ⟨by simp [erased, hj], rfl⟩⟩
  · rw [if_neg he] at h ⊢
    by_cases hr : InRange c ids
    swap
    · rw [onEach_ub hr] at h; cases h
    rw [onEach_stops hr, Res.bind_ok] at h ⊢
    obtain ⟨r, hr'⟩ := apply_adds T c ids e w.force
    rw [hr' (stops ids w) rfl] at h
    rw [hr' (stops ids (erased k w)) rfl]
    cases r with
    | throws => cases h
    | ub => cases h
    | ok x =>
      rw [Res.bind_ok] at h ⊢
      cases h
      exact ⟨_, rfl, by simp [adds, stops, erased], fun j hj => ⟨by simp [adds, stops, erased, hj], rfl⟩⟩

/-- C127 fails for the step displacer: listing an erased body is always undefined, also when the scene was in
order before. -/
theorem C127_violated (c : Ctx) (mov : V3) (rot : Quat) (setVel : Bool) (ids : List Int) (k : Nat) (w : World)
    (hk : (k : Int) ∈ ids) : stepDisplacer c mov rot setVel ids (erased k w) = .ub := by
  have h0 : (erased k w).bodies k = none := by simp [erased]
  generalize erased k w = w' at h0
  induction ids generalizing w' with
  | nil => simp at hk
  | cons id ids ih =>
    by_cases hid : 0 ≤ id ∧ id < c.size
    swap
    · rw [stepDisplacer, byId, if_neg hid]; rfl
    · rw [stepDisplacer, byId, if_pos hid]
      obtain ⟨m, rfl⟩ := Int.eq_ofNat_of_zero_le hid.1
      simp only [Int.toNat_natCast, Res.bind_ok]
      cases hb : w'.bodies m with
      | none => rfl
      | some b =>
        have hm : m ≠ k := by rintro rfl; rw [h0] at hb; cases hb
        simp only
        refine ih ?_ _ ?_
        · rcases List.mem_cons.mp hk with hk | hk
          · exact absurd (by exact_mod_cast hk.symm) hm
          · exact hk
        · simp only [World.setBody, if_neg hm.symm, h0]

/-- Cases for C127: one of two listed bodies is erased. -/
example : ∃ w1, forceEngine ⟨1, 0, 0, 2, true⟩ ![1, 0, 0] [0, 1] exTwo = .ok w1 ∧ (exTwo.bodies 0).isSome ∧ (exTwo.bodies 1).isSome := by
  obtain ⟨w1, h, -⟩ := C123_force ⟨1, 0, 0, 2, true⟩ ![1, 0, 0] [0, 1] exTwo
  exact ⟨w1, h, rfl, rfl⟩

/-! ## C128: the step displacer -/

/-- Specification: two orientations turn every vector alike. -/
def SameTurn (p q : Quat) : Prop := ∀ x, p.rot x = q.rot x

/-- What the displacer makes of one state. -/
noncomputable def displaced (c : Ctx) (mov : V3) (rot : Quat) (setVel : Bool) (st : State) : State :=
  if setVel then { st with vel := (1 / c.dt) • mov, angVel := ((toAngleAxis rot).1 / c.dt) • normalized (toAngleAxis rot).2 }
  else { st with pos := st.pos + mov, ori := rot.mul st.ori }

theorem displacer_eq (c : Ctx) (mov : V3) (rot : Quat) (setVel : Bool) (ids : List Int) (w : World)
    (h : ∀ id ∈ ids, 0 ≤ id ∧ id < c.size ∧ (w.bodies id.toNat).isSome) :
    stepDisplacer c mov rot setVel ids w = .ok { w with bodies := fun j => (w.bodies j).map fun b =>
      { b with st := (displaced c mov rot setVel)^[ids.count (j : Int)] b.st } } := by
  induction ids generalizing w with
  | nil =>
    simp [stepDisplacer]
  | cons id ids ih =>
    obtain ⟨h1, h2, h3⟩ := h id (List.mem_cons_self ..)
    obtain ⟨m, rfl⟩ := Int.eq_ofNat_of_zero_le h1
    rw [Int.toNat_natCast] at h3
    obtain ⟨b, hb⟩ := Option.isSome_iff_exists.mp h3
    rw [stepDisplacer, byId, if_pos ⟨h1, h2⟩]
    simp only [Int.toNat_natCast, Res.bind_ok, hb]
    have := ih (w.setBody m { b with st := displaced c mov rot setVel b.st }) (by
      intro id hid
      obtain ⟨g1, g2, g3⟩ := h id (List.mem_cons_of_mem _ hid)
      refine ⟨g1, g2, ?_⟩
      simp only [World.setBody]
      split_ifs
      · rfl
      · exact g3)
    refine Eq.trans (b := stepDisplacer c mov rot setVel ids (w.setBody m { b with st := displaced c mov rot setVel b.st })) ?_ ?_
    · congr 2
    · rw [this]
      congr 1
      simp only [World.setBody, World.mk.injEq, and_true]
      funext j
      by_cases hj : j = m
      · subst hj
        simp [hb]
      · have : List.count (j : Int) ((m : Int) :: ids) = List.count (j : Int) ids := by
          rw [List.count_cons_of_ne]
          intro hc; exact hj (by exact_mod_cast hc.symm)
        simp only [if_neg hj, this]

/-- C128.  Without `setVelocities`, a pass over bodies that exist, each listed once, moves each listed body by the given
displacement, composes the given rotation with its orientation, and changes nothing else. -/
theorem C128_direct (c : Ctx) (mov : V3) (rot : Quat) (ids : List Int) (hnd : ids.Nodup) (w : World)
    (h : ∀ id ∈ ids, 0 ≤ id ∧ id < c.size ∧ (w.bodies id.toNat).isSome) :
    ∃ w', stepDisplacer c mov rot false ids w = .ok w' ∧ w' = { w with bodies := w'.bodies } ∧
      ∀ j : Nat, ((j : Int) ∈ ids → ∃ b, w.bodies j = some b ∧
          w'.bodies j = some { b with st := { b.st with pos := b.st.pos + mov, ori := rot.mul b.st.ori } }) ∧
        ((j : Int) ∉ ids → w'.bodies j = w.bodies j) := by
  refine ⟨_, displacer_eq c mov rot false ids w h, rfl, ?_⟩
  intro j
  constructor
  · intro hj
    obtain ⟨-, -, h3⟩ := h _ hj
    rw [Int.toNat_natCast] at h3
    obtain ⟨b, hb⟩ := Option.isSome_iff_exists.mp h3
    refine ⟨b, hb, ?_⟩
    have : ids.count (j : Int) = 1 := List.count_eq_one_of_mem hnd hj
    simp [hb, this, displaced]
  · intro hj
    have : ids.count (j : Int) = 0 := List.count_eq_zero_of_not_mem hj
    simp [this]

theorem iterate_vel (c : Ctx) (mov : V3) (rot : Quat) (n : Nat) (st : State) :
    (displaced c mov rot true)^[n + 1] st = displaced c mov rot true st := by
  induction n with
  | zero => rfl
  | succ n ih => rw [Function.iterate_succ_apply', ih]; simp [displaced]

theorem neg_rot (q : Quat) (x : V3) : (⟨-q.w, -q.x, -q.y, -q.z⟩ : Quat).rot x = q.rot x := by
  apply v3_ext <;> simp [Quat.rot, Quat.toMat] <;> ring

theorem angleAxis_unit (q : Quat) : sqNorm (normalized (toAngleAxis q).2) = 1 := by
  have : (toAngleAxis q).2 ≠ 0 := by
    simp only [toAngleAxis]
    split_ifs with h hw
    · intro hc; have := congrFun hc 0; simp at this
    · intro hc
      rw [smul_eq_zero] at hc
      rcases hc with hc | hc
      · simp at hc; exact h hc
      · rw [hc] at h; exact h (by simp [norm3, sqNorm, dot])
    · intro hc
      rw [smul_eq_zero] at hc
      rcases hc with hc | hc
      · simp at hc; exact h hc
      · rw [hc] at h; exact h (by simp [norm3, sqNorm, dot])
  have h1 := norm3_normalized this
  rw [norm3, Real.sqrt_eq_one] at h1
  exact h1

/-- The quaternion of the angle and the axis of a unit quaternion turns like it. -/
theorem angleAxis_turn {q : Quat} (hq : q.sqNorm = 1) (x : V3) :
    (ofAngleAxis (toAngleAxis q).1 (normalized (toAngleAxis q).2)).rot x = q.rot x := by
  obtain ⟨v, hv⟩ : ∃ v : V3, v = ![q.x, q.y, q.z] := ⟨_, rfl⟩
  have hn2 : norm3 v ^ 2 = q.x ^ 2 + q.y ^ 2 + q.z ^ 2 := by
    rw [norm3, Real.sq_sqrt (sqNorm_nonneg v), hv]; simp [sqNorm, dot]; ring
  have hw2 : q.w ^ 2 + norm3 v ^ 2 = 1 := by
    rw [hn2]; simp only [Quat.sqNorm] at hq; linarith
  by_cases hn : norm3 v = 0
  · have hv0 : v = 0 := by
      by_contra hc; exact absurd hn (norm3_pos hc).ne'
    have e0 := congrFun hv0 0
    have e1 := congrFun hv0 1
    have e2 := congrFun hv0 2
    rw [hv] at e0 e1 e2
    simp at e0 e1 e2
    have hw : q.w ^ 2 = 1 := by rw [hn] at hw2; linarith
    have ha : (toAngleAxis q).1 = 0 := by simp only [toAngleAxis, ← hv, if_pos hn]
    rw [ha, ofAngleAxis_rot (angleAxis_unit q), turn_zero]
    apply v3_ext <;> simp [Quat.rot, Quat.toMat, e0, e1, e2] <;> nlinarith
  · have hn0 : 0 < norm3 v := lt_of_le_of_ne (norm3_nonneg v) (Ne.symm hn)
    obtain ⟨z, hz⟩ : ∃ z : ℂ, z = ⟨|q.w|, norm3 v⟩ := ⟨_, rfl⟩
    have hz1 : ‖z‖ = 1 := by
      rw [hz, Complex.norm_def, Complex.normSq_mk, Real.sqrt_eq_one, abs_mul_abs_self]
      linarith [hw2, sq q.w, sq (norm3 v)]
    have hz0 : z ≠ 0 := by intro h; rw [h] at hz1; simp at hz1
    have hc : Real.cos z.arg = |q.w| := by rw [Complex.cos_arg hz0, hz1, div_one, hz]
    have hs : Real.sin z.arg = norm3 v := by rw [Complex.sin_arg, hz1, div_one, hz]
    have ha1 : (toAngleAxis q).1 = 2 * z.arg := by simp only [toAngleAxis, ← hv, if_neg hn, hz]
    have ha2 : (toAngleAxis q).2 = (1 / (if q.w < 0 then -norm3 v else norm3 v)) • v := by
      simp only [toAngleAxis, ← hv, if_neg hn]
    have hunit : norm3 (toAngleAxis q).2 = 1 := by
      rw [ha2, norm3_smul]
      split_ifs
      · rw [abs_div, abs_neg, abs_of_pos hn0, abs_one]; field_simp
      · rw [abs_div, abs_of_pos hn0, abs_one]; field_simp
    have hnorm : normalized (toAngleAxis q).2 = (toAngleAxis q).2 := by
      rw [normalized, hunit]; simp
    rw [hnorm, ha1]
    by_cases hwn : q.w < 0
    · have : ofAngleAxis (2 * z.arg) (toAngleAxis q).2 = ⟨-q.w, -q.x, -q.y, -q.z⟩ := by
        rw [ofAngleAxis, show (0.5 : ℝ) * (2 * z.arg) = z.arg by ring, hc, hs, ha2, abs_of_neg hwn, if_pos hwn]
        simp only [Quat.mk.injEq, true_and, Pi.smul_apply, smul_eq_mul]
        refine ⟨?_, ?_, ?_⟩ <;> (rw [show (v _ : ℝ) = _ from congrFun hv _]; simp; field_simp)
      rw [this, neg_rot]
    · have : ofAngleAxis (2 * z.arg) (toAngleAxis q).2 = q := by
        rw [ofAngleAxis, show (0.5 : ℝ) * (2 * z.arg) = z.arg by ring, hc, hs, ha2, abs_of_nonneg (not_lt.mp hwn), if_neg hwn]
        obtain ⟨qw, qx, qy, qz⟩ := q
        simp only [Quat.mk.injEq, true_and, Pi.smul_apply, smul_eq_mul]
        refine ⟨?_, ?_, ?_⟩ <;> (rw [show (v _ : ℝ) = _ from congrFun hv _]; simp; field_simp)
      rw [this]

/-- C128.  With `setVelocities`, a listed body held in all degrees of freedom makes in the integrator's next step exactly
the displacement and the rotation that the other mode makes at once, for every unit quaternion (also
with negative real part, and however often the body is listed). -/
theorem C128_velocities (c : Ctx) (mov : V3) (rot : Quat) (hrot : rot.sqNorm = 1) (ids : List Int) (w : World)
    (h : ∀ id ∈ ids, 0 ≤ id ∧ id < c.size ∧ (w.bodies id.toNat).isSome) {P : Params} (hdt : P.dt = c.dt) (hdt0 : c.dt ≠ 0)
    {id : Nat} (hid : (id : Int) ∈ ids) {b : Bod} (hb : Held P w id b) (hw : ClumpsOk w) (order : List Nat) (hnd : order.Nodup)
    (ho : id ∈ order) :
    ∃ w1 w2 b2, stepDisplacer c mov rot true ids w = .ok w1 ∧ Mech.action P order w1 = .ok w2 ∧ w2.bodies id = some b2 ∧
      b2.st.pos = b.st.pos + mov ∧ SameTurn b2.st.ori (rot.mul b.st.ori) := by
  have h1 := displacer_eq c mov rot true ids w h
  obtain ⟨n, hn⟩ : ∃ n, ids.count (id : Int) = n + 1 :=
    ⟨ids.count (id : Int) - 1, by have := List.count_pos_iff.mpr hid; omega⟩
  obtain ⟨w1, hw1⟩ : ∃ w1 : World, w1 = { w with bodies := fun j => (w.bodies j).map fun b =>
      { b with st := (displaced c mov rot true)^[ids.count (j : Int)] b.st } } := ⟨_, rfl⟩
  rw [← hw1] at h1
  have hb1 : w1.bodies id = some { b with st := displaced c mov rot true b.st } := by
    rw [hw1]
    show (w.bodies id).map _ = _
    rw [hb.here, Option.map_some, hn, iterate_vel]
  have hheld : Held P w1 id { b with st := displaced c mov rot true b.st } := by
    refine ⟨hb1, hb.notMember, ?_, ?_, hb.moves, ?_, ?_, ?_⟩
    · rw [hw1]; exact hb.mine
    · exact hb.blocked
    · exact hb.unit
    · rw [hw1]; exact hb.aperiodic
    · rw [hw1]; exact hb.noMove
  have hck : ClumpsOk w1 := by
    apply hw.of_sig
    rw [hw1]
    intro j
    cases hj : w.bodies j with
    | none => simp [hj]
    | some bj => simp [hj, Bod.sig]
  obtain ⟨w2, b2, g1, -, g2, g3, g4⟩ := held_step hheld hck order hnd ho (angleAxis_unit rot)
    (ω := (toAngleAxis rot).1 / c.dt) (by simp [displaced])
  refine ⟨w1, w2, b2, h1, g1, g2, ?_, ?_⟩
  · rw [g3, hdt]
    simp [displaced, smul_smul, mul_inv_cancel₀ hdt0]
  · intro x
    have e : (toAngleAxis rot).1 / c.dt * P.dt = (toAngleAxis rot).1 := by rw [hdt]; field_simp
    have e' : (displaced c mov rot true b.st).ori = b.st.ori := by simp [displaced]
    rw [g4, e]
    simp only [e']
    rw [Quat.rot_mul (ofAngleAxis_unit (angleAxis_unit rot) _) hb.unit, angleAxis_turn hrot, Quat.rot_mul hrot hb.unit]

/-- C128 fails for an id listed twice: without `setVelocities` the body moves twice as far. -/
theorem C128_violated_twice : ∃ w' b', stepDisplacer exCtx ![1, 0, 0] Quat.one false [0, 0] exHeldWorld = .ok w' ∧
    w'.bodies 0 = some b' ∧ b'.st.pos = exHeld.st.pos + ![2, 0, 0] := by
  refine ⟨_, { exHeld with st := (displaced exCtx ![1, 0, 0] Quat.one false)^[List.count ((0 : Nat) : Int) [0, 0]] exHeld.st },
    displacer_eq exCtx ![1, 0, 0] Quat.one false [0, 0] exHeldWorld ?_, ?_, ?_⟩
  · intro id hid
    simp at hid
    subst hid
    exact ⟨le_rfl, by decide, rfl⟩
  · simp only [exHeld_held.here, Option.map_some]
  · have : List.count ((0 : Nat) : Int) [0, 0] = 2 := by decide
    simp only [this]
    apply v3_ext <;> simp [displaced, exHeld, exBod] <;> norm_num

/-- The hypotheses of C128 are met: half a turn and a shift of the held body. -/
example : (⟨0, 0, 0, 1⟩ : Quat).sqNorm = 1 ∧ Held exParams exHeldWorld 0 exHeld ∧ ClumpsOk exHeldWorld ∧
    exParams.dt = exCtx.dt ∧ exCtx.dt ≠ 0 ∧ (∀ id ∈ ([0] : List Int), 0 ≤ id ∧ id < exCtx.size ∧ (exHeldWorld.bodies id.toNat).isSome) :=
  ⟨by simp [Quat.sqNorm], exHeld_held, exHeld_clumps, by simp [exParams, exCtx], by simp [exCtx], by
    intro id hid
    simp at hid
    subst hid
    exact ⟨le_rfl, by decide, rfl⟩⟩

end Verif.Drive
