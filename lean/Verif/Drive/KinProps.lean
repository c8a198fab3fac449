import Verif.Drive.KinMotion
import Mathlib.Algebra.BigOperators.Group.Finset.Basic
import Mathlib.Algebra.BigOperators.Intervals

/-!
# C118: bodies driven by the kinematic engines move along the prescribed screw
-/
namespace Verif.Drive
open Verif.Mech

/-- Specification: at this moment the engine prescribes a screw motion: about the axis through `z`
along `a`, with angular velocity `ω`, and along it with velocity `v`. -/
inductive Screw (c : Ctx) (a z : V3) : Kin → ℝ → ℝ → Prop where
  | translation (v : ℝ) : Screw c a z (.translation v a) 0 v
  | rotation (ω : ℝ) : Screw c a z (.rotation ⟨ω, a, true, z⟩) ω 0
  | harmonic (ω A f fi : ℝ) :
    Screw c a z (.harmonicRot ⟨ω, a, true, z⟩ A f fi)
      (-(A * (2 * Real.pi * f)) * Real.sin (2 * Real.pi * f * c.time + fi)) 0
  | helix (ω v t : ℝ) (around : Bool) : Screw c a z (.helix ⟨ω, a, around, z⟩ v t) ω v
  | table (ω0 v0 t : ℝ) (around : Bool) (times vals : List ℝ) (wrap : Bool) (slope : ℝ) (pos p : Nat) (ω : ℝ)
    (h : reading wrap c.time times vals pos = .ok (some ω, p)) :
    Screw c a z (.interpHelix ⟨ω0, a, around, z⟩ v0 t times vals wrap slope pos) ω (ω * slope)

/-- Specification: one pass of the simulation loop as seen by the driven body `id`: the engine, then the
integrator; whatever else runs until the next pass leaves the body where it is. -/
def Pass (T : V3 → V3 → Quat) (c : Ctx) (P : Params) (ids : List Int) (order : List Nat) (e : Kin) (id : Nat)
    (w w' : World) : Prop :=
  ∃ e' w1 w2 b2 b', e.action T c ids w = .ok (e', w1) ∧ Mech.action P order w1 = .ok w2 ∧
    w2.bodies id = some b2 ∧ w'.bodies id = some b' ∧ b'.st.pos = b2.st.pos ∧ b'.st.ori = b2.st.ori

/-! ## One pass -/

/-- What a screw adds to the velocities of a body at `x`. -/
theorem screw_action (T : V3 → V3 → Quat) {c : Ctx} {a z : V3} {e : Kin} {ω v : ℝ} (ha : sqNorm a = 1)
    (hs : Screw c a z e ω v) {ids : List Int} (hr : InRange c ids) (hne : ids ≠ []) (w : World) :
    ∃ e', e.action T c ids w = .ok (e', adds ids (fun x =>
      (v • a + (1 / c.dt) • (turn a (ω * c.dt) (x - z) + z - x), ω • a)) (stops ids w)) := by
  have he : ids.isEmpty = false := by cases ids <;> simp_all
  have hrot : ∀ (r : Rot) (w : World), applyRotation c r ids w = .ok (adds ids (fun x =>
        (if r.rotateAroundZero then aroundZero c r x else 0, r.angularVelocity • r.rotationAxis)) w) := fun r w =>
      onEach_uniform hr (fun x => if r.rotateAroundZero then aroundZero c r x else 0)
        (fun _ => r.angularVelocity • r.rotationAxis) w
  have hconst : ∀ (v ω : V3) (w : World), onEach c (addVel v ω) ids w = .ok (adds ids (fun _ => (v, ω)) w) :=
      fun v ω w => onEach_uniform hr (fun _ => v) (fun _ => ω) w
  have haz : ∀ (ω : ℝ) (b : Bool) (x : V3), aroundZero c ⟨ω, a, b, z⟩ x = (1 / c.dt) • (turn a (ω * c.dt) (x - z) + z - x) := by
    intro ω b x
    simp only [aroundZero, ofAngleAxis_rot ha]
  have hhelix : ∀ (ω lin t : ℝ) (b : Bool) (w : World), applyHelix c ⟨ω, a, b, z⟩ lin t ids w =
      .ok (⟨ω, a, true, z⟩, t + ω * c.dt, adds ids (fun x =>
      (lin • a + (1 / c.dt) • (turn a (ω * c.dt) (x - z) + z - x), ω • a)) w) := by
    intro ω lin t b w
    simp only [applyHelix, he, Bool.false_eq_true, if_false, hconst, Res.bind_ok, hrot, adds_adds, if_true, haz]
    simp
  cases hs with
  | translation v =>
    refine ⟨.translation v a, ?_⟩
    simp only [Kin.action, he, Bool.false_eq_true, if_false, onEach_stops hr, Res.bind_ok, Kin.apply, applyTranslation, hconst]
    simp [turn_zero]
  | rotation ω =>
    refine ⟨.rotation ⟨ω, a, true, z⟩, ?_⟩
    simp only [Kin.action, he, Bool.false_eq_true, if_false, onEach_stops hr, Res.bind_ok, Kin.apply, hrot, if_true, haz]
    simp
  | harmonic ω A f fi =>
    have e1 : harmonicSpin c A f fi = -(A * (2 * Real.pi * f)) * Real.sin (2 * Real.pi * f * c.time + fi) := by
      simp only [harmonicSpin]
      rw [show f * 2 * Real.pi = 2 * Real.pi * f by ring]
      ring
    refine ⟨.harmonicRot ⟨harmonicSpin c A f fi, a, true, z⟩ A f fi, ?_⟩
    simp only [Kin.action, he, Bool.false_eq_true, if_false, onEach_stops hr, Res.bind_ok, Kin.apply, hrot, if_true, haz, e1]
    simp
  | helix ω v t b =>
    refine ⟨.helix ⟨ω, a, true, z⟩ v (t + ω * c.dt), ?_⟩
    simp only [Kin.action, he, Bool.false_eq_true, if_false, onEach_stops hr, Res.bind_ok, Kin.apply, hhelix]
  | table ω0 v0 t b times vals wrap slope pos p ω h =>
    refine ⟨.interpHelix ⟨ω, a, true, z⟩ (ω * slope) (t + ω * c.dt) times vals wrap slope p, ?_⟩
    simp only [Kin.action, he, Bool.false_eq_true, if_false, onEach_stops hr, Res.bind_ok, Kin.apply, h, hhelix]

theorem adds_stops_sig (ids : List Int) (g : V3 → V3 × V3) (w : World) : SameSig w (adds ids g (stops ids w)) := by
  intro j
  simp only [adds, stops]
  cases w.bodies j with
  | none => rfl
  | some b =>
    simp only [Option.map_some]
    split_ifs <;> rfl

/-- C118, one step.  A body held in all degrees of freedom and listed once moves exactly along the
screw and turns with it, and nothing goes wrong. -/
theorem C118_step (T : V3 → V3 → Quat) {c : Ctx} {P : Params} {a z : V3} {e : Kin} {ω v : ℝ} (ha : sqNorm a = 1)
    (hs : Screw c a z e ω v) {ids : List Int} (hr : InRange c ids) {id : Nat} (hid : ids.count (id : Int) = 1)
    (hdt : c.dt ≠ 0) (hP : P.dt = c.dt) {w : World} {b : Bod} (hb : Held P w id b) (hw : ClumpsOk w)
    {order : List Nat} (hnd : order.Nodup) (ho : id ∈ order) :
    ∃ e' w1 w2 b2, e.action T c ids w = .ok (e', w1) ∧ Mech.action P order w1 = .ok w2 ∧
      w2.bodies id = some b2 ∧
      b2.st.pos = z + turn a (ω * c.dt) (b.st.pos - z) + (v * c.dt) • a ∧
      ∀ u, b2.st.ori.rot u = turn a (ω * c.dt) (b.st.ori.rot u) := by
  have hmem : (id : Int) ∈ ids := List.count_pos_iff.mp (by omega)
  obtain ⟨e', h1⟩ := screw_action T ha hs hr (fun h => by simp [h] at hmem) w
  obtain ⟨g, hg⟩ : ∃ g : V3 → V3 × V3, g = (fun x =>
      (v • a + (1 / c.dt) • (turn a (ω * c.dt) (x - z) + z - x), ω • a)) := ⟨_, rfl⟩
  rw [← hg] at h1
  have hb1 : (adds ids g (stops ids w)).bodies id = some (addVel (g b.st.pos).1 (g b.st.pos).2 (stop b)) := by
    simp only [adds, stops, hb.here, Option.map_some, hmem, if_true, hid, one_smul]
    rfl
  have hheld : Held P (adds ids g (stops ids w)) id (addVel (g b.st.pos).1 (g b.st.pos).2 (stop b)) :=
    ⟨hb1, hb.notMember, hb.mine, hb.blocked, hb.moves, hb.unit, hb.aperiodic, hb.noMove⟩
  have hck : ClumpsOk (adds ids g (stops ids w)) := hw.of_sig (adds_stops_sig ids g w)
  have hang : (addVel (g b.st.pos).1 (g b.st.pos).2 (stop b)).st.angVel = ω • a := by
    simp [addVel, stop, hg]
  obtain ⟨w2, b2, h2, -, h3, h4, h5⟩ := held_step hheld hck order hnd ho ha hang
  refine ⟨e', _, w2, b2, h1, h2, h3, ?_, ?_⟩
  · rw [h4, hP]
    have : (addVel (g b.st.pos).1 (g b.st.pos).2 (stop b)).st.vel =
        v • a + (1 / c.dt) • (turn a (ω * c.dt) (b.st.pos - z) + z - b.st.pos) := by simp [addVel, stop, hg]
    rw [this]
    show b.st.pos + _ = _
    rw [smul_add, smul_smul, smul_smul, mul_one_div, div_self hdt, one_smul, mul_comm c.dt v]
    abel
  · intro u
    rw [h5, hP]
    show ((ofAngleAxis (ω * c.dt) a).mul b.st.ori).rot u = _
    rw [Quat.rot_mul (ofAngleAxis_unit ha _) hb.unit, ofAngleAxis_rot ha]

/-- C118.  Over any number of steps, with time steps and velocities that change from step to step, the
body is where the screw by the total angle and the total advance puts it, and turned by the total
angle. -/
theorem C118_motion (T : V3 → V3 → Quat) {a z : V3} (ha : sqNorm a = 1) {ids : List Int} {id : Nat}
    (hid : ids.count (id : Int) = 1) (c : Nat → Ctx) (P : Nat → Params) (order : Nat → List Nat) (e : Nat → Kin)
    (ω v : Nat → ℝ) (W : Nat → World) (B : Nat → Bod) (n : Nat)
    (hs : ∀ k < n, Screw (c k) a z (e k) (ω k) (v k)) (hr : ∀ k < n, InRange (c k) ids)
    (hdt : ∀ k < n, (c k).dt ≠ 0 ∧ (P k).dt = (c k).dt) (ho : ∀ k < n, (order k).Nodup ∧ id ∈ order k)
    (hw : ∀ k < n, ClumpsOk (W k)) (hb : ∀ k < n, Held (P k) (W k) id (B k)) (hn : (W n).bodies id = some (B n))
    (hp : ∀ k < n, Pass T (c k) (P k) ids (order k) (e k) id (W k) (W (k + 1))) :
    (B n).st.pos = z + turn a (∑ k ∈ Finset.range n, ω k * (c k).dt) ((B 0).st.pos - z) +
        (∑ k ∈ Finset.range n, v k * (c k).dt) • a ∧
      ∀ u, (B n).st.ori.rot u = turn a (∑ k ∈ Finset.range n, ω k * (c k).dt) ((B 0).st.ori.rot u) := by
  have hB : ∀ k, k ≤ n → (W k).bodies id = some (B k) := by
    intro k hk
    rcases Nat.lt_or_eq_of_le hk with h | rfl
    · exact (hb k h).here
    · exact hn
  suffices h : ∀ m, m ≤ n → (B m).st.pos = z + turn a (∑ k ∈ Finset.range m, ω k * (c k).dt) ((B 0).st.pos - z) +
        (∑ k ∈ Finset.range m, v k * (c k).dt) • a ∧
      ∀ u, (B m).st.ori.rot u = turn a (∑ k ∈ Finset.range m, ω k * (c k).dt) ((B 0).st.ori.rot u) from h n le_rfl
  intro m
  induction m with
  | zero =>
    intro _
    simp [turn_zero]
  | succ m ih =>
    intro hm
    obtain ⟨ih1, ih2⟩ := ih (by omega)
    have hlt : m < n := by omega
    obtain ⟨e1, w1, w2, b2, h1, h2, h3, h4, h5⟩ := C118_step T ha (hs m hlt) (hr m hlt) hid (hdt m hlt).1 (hdt m hlt).2
      (hb m hlt) (hw m hlt) (ho m hlt).1 (ho m hlt).2
    obtain ⟨e1', w1', w2', b2', b', g1, g2, g3, g4, g5, g6⟩ := hp m hlt
    rw [h1] at g1
    injection g1 with g1
    injection g1 with _ g1
    subst g1
    rw [h2] at g2
    injection g2 with g2
    subst g2
    rw [h3] at g3
    injection g3 with g3
    subst g3
    rw [hB (m + 1) hm] at g4
    injection g4 with g4
    subst g4
    rw [Finset.sum_range_succ, Finset.sum_range_succ, add_comm _ (ω m * (c m).dt)]
    constructor
    · rw [g5, h4, ih1]
      have e2 : z + turn a (∑ k ∈ Finset.range m, ω k * (c k).dt) ((B 0).st.pos - z) +
          (∑ k ∈ Finset.range m, v k * (c k).dt) • a - z =
          turn a (∑ k ∈ Finset.range m, ω k * (c k).dt) ((B 0).st.pos - z) + (∑ k ∈ Finset.range m, v k * (c k).dt) • a := by
        abel
      rw [e2, turn_add, turn_turn ha, turn_axis ha, add_smul]
      abel
    · intro u
      rw [g6, h5, ih2, turn_turn ha]

/-- C118.  Bodies on the same screw keep their distances and their relative orientation: they move as
one rigid body. -/
theorem C118_rigid {a z : V3} (ha : sqNorm a = 1) {Θ V : ℝ} {x y x' y' : V3} {p q p' q' : Quat}
    (hx : x' = z + turn a Θ (x - z) + V • a) (hy : y' = z + turn a Θ (y - z) + V • a)
    (hp : ∀ u, p'.rot u = turn a Θ (p.rot u)) (hq : ∀ u, q'.rot u = turn a Θ (q.rot u)) :
    norm3 (x' - y') = norm3 (x - y) ∧ ∀ u v, dot (p'.rot u) (q'.rot v) = dot (p.rot u) (q.rot v) := by
  have e : x' - y' = turn a Θ (x - y) := by
    rw [hx, hy, show x - y = (x - z) - (y - z) by abel, turn_sub a Θ (x - z) (y - z)]
    abel
  constructor
  · rw [norm3, norm3, e, turn_sqNorm ha]
  · intro u v
    rw [hp, hq, ← ofAngleAxis_rot ha, ← ofAngleAxis_rot ha, Quat.dot_rot (ofAngleAxis_unit ha Θ)]

/-- C118.  The angle a helix engine reports grows by exactly the angle it turned its bodies. -/
theorem C118_reported (T : V3 → V3 → Quat) (c : Ctx) (ids : List Int) (hne : ids ≠ []) (w : World) (r : Rot) (v t : ℝ)
    (e' : Kin) (w' : World) (h : (Kin.helix r v t).action T c ids w = .ok (e', w')) :
    e' = .helix { r with rotateAroundZero := true } v (t + r.angularVelocity * c.dt) := by
  have he : ids.isEmpty = false := by cases ids <;> simp_all
  by_cases hr : InRange c ids
  · simp only [Kin.action, he, Bool.false_eq_true, if_false, onEach_stops hr, Res.bind_ok, Kin.apply, applyHelix] at h
    rw [show onEach c (addVel (v • r.rotationAxis) 0) ids (stops ids w) = _ from
      onEach_uniform hr (fun _ => v • r.rotationAxis) (fun _ => 0) _, Res.bind_ok,
      show applyRotation c { r with rotateAroundZero := true } ids _ = _ from
      onEach_uniform hr (fun x => if true then aroundZero c { r with rotateAroundZero := true } x else 0)
        (fun _ => r.angularVelocity • r.rotationAxis) _] at h
    simp only [Res.bind_ok] at h
    injection h with h
    injection h with h _
    exact h.symm
  · rw [Kin.action, he] at h
    simp [onEach_ub hr] at h

/-! ## Cases -/

/-- A held body one unit from the axis. -/
noncomputable def exHeld : Bod := exBod { exState dofAll 0 with pos := ![1, 0, 0] } .standalone

/-- A scene with this body alone. -/
noncomputable def exHeldWorld : World := exWorld fun j => if j = 0 then some exHeld else none

theorem exHeld_held : Held exParams exHeldWorld 0 exHeld where
  here := by simp [exHeldWorld, exWorld]
  notMember := by intro k; simp [exHeld, exBod]
  mine := ⟨rfl, rfl⟩
  blocked := rfl
  moves := Or.inr rfl
  unit := by simp [exHeld, exBod, exState, Quat.sqNorm, Quat.one]
  aperiodic := rfl
  noMove := rfl

theorem exHeld_clumps : ClumpsOk exHeldWorld := by
  intro id b ms hb hk
  simp only [exHeldWorld, exWorld] at hb
  split_ifs at hb
  injection hb with hb
  rw [← hb] at hk
  simp [exHeld, exBod] at hk

/-- The time step is one. -/
def exCtx : Ctx := ⟨1, 0, 0, 1, true⟩

theorem exAxis_unit : sqNorm (![0, 0, 1] : V3) = 1 := by simp [sqNorm, dot]

theorem turn_half (x : V3) : turn ![0, 0, 1] Real.pi x = ![-x 0, -x 1, x 2] := by
  unfold turn
  rw [Real.cos_pi, Real.sin_pi]
  apply v3_ext
  · simp [dot]
  · simp [dot]
  · simp [dot]; ring

/-- The hypotheses of `C118_step` are met; half a turn about the z axis puts the body on the other
side. -/
example (T : V3 → V3 → Quat) : ∃ e' w1 w2 b2,
    (Kin.rotation ⟨Real.pi, ![0, 0, 1], true, 0⟩).action T exCtx [0] exHeldWorld = .ok (e', w1) ∧
      Mech.action exParams [0] w1 = .ok w2 ∧ w2.bodies 0 = some b2 ∧ b2.st.pos = ![-1, 0, 0] := by
  obtain ⟨e', w1, w2, b2, h1, h2, h3, h4, -⟩ := C118_step T exAxis_unit (Screw.rotation (c := exCtx) (z := 0) Real.pi) (ids := [0])
    (by decide) (id := 0) (by decide) (by simp [exCtx]) (P := exParams) (by simp [exParams, exCtx])
    exHeld_held exHeld_clumps (order := [0]) (by decide) (by decide)
  refine ⟨e', w1, w2, b2, h1, h2, h3, ?_⟩
  rw [h4]
  simp only [exCtx, mul_one, turn_half]
  apply v3_ext <;> simp [exHeld, exBod]

/-- The hypotheses of `C118_motion` are met by a run. -/
example (T : V3 → V3 → Quat) : ∃ (W : Nat → World) (B : Nat → Bod), Held exParams (W 0) 0 (B 0) ∧ ClumpsOk (W 0) ∧
    (W 1).bodies 0 = some (B 1) ∧
    Pass T exCtx exParams [0] [0] (.helix ⟨Real.pi, ![0, 0, 1], false, 0⟩ 2 0) 0 (W 0) (W 1) := by
  obtain ⟨e', w1, w2, b2, h1, h2, h3, -, -⟩ := C118_step T exAxis_unit (Screw.helix (c := exCtx) (z := 0) Real.pi 2 0 false)
    (ids := [0]) (by decide) (id := 0) (by decide) (by simp [exCtx]) (P := exParams) (by simp [exParams, exCtx])
    exHeld_held exHeld_clumps (order := [0]) (by decide) (by decide)
  exact ⟨fun k => if k = 0 then exHeldWorld else w2, fun k => if k = 0 then exHeld else b2, exHeld_held, exHeld_clumps,
    h3, e', w1, w2, b2, b2, h1, h2, h3, h3, rfl, rfl⟩

/-- C118 fails for an id listed twice: the body gets twice the velocity.  Half a turn should take it
from `(1,0,0)` to `(-1,0,0)`; it ends at `(-3,0,0)`. -/
theorem C118_violated_twice (T : V3 → V3 → Quat) : ∃ e' w1 w2 b2,
    (Kin.rotation ⟨Real.pi, ![0, 0, 1], true, 0⟩).action T exCtx [0, 0] exHeldWorld = .ok (e', w1) ∧
      Mech.action exParams [0] w1 = .ok w2 ∧ w2.bodies 0 = some b2 ∧ b2.st.pos = ![-3, 0, 0] := by
  obtain ⟨e', h1⟩ := screw_action T exAxis_unit (Screw.rotation (c := exCtx) (z := 0) Real.pi) (ids := [0, 0])
    (by decide) (by simp) exHeldWorld
  obtain ⟨g, hg⟩ : ∃ g : V3 → V3 × V3, g = (fun x =>
      ((0 : ℝ) • ![0, 0, 1] + (1 / exCtx.dt) • (turn ![0, 0, 1] (Real.pi * exCtx.dt) (x - 0) + 0 - x),
        Real.pi • ![0, 0, 1])) := ⟨_, rfl⟩
  rw [← hg] at h1
  have hb1 : (adds [0, 0] g (stops [0, 0] exHeldWorld)).bodies 0 =
      some (addVel ((2 : ℕ) • (g exHeld.st.pos).1) ((2 : ℕ) • (g exHeld.st.pos).2) (stop exHeld)) := by
    simp only [adds, stops, exHeld_held.here, Option.map_some]
    rfl
  have hheld : Held exParams (adds [0, 0] g (stops [0, 0] exHeldWorld)) 0
      (addVel ((2 : ℕ) • (g exHeld.st.pos).1) ((2 : ℕ) • (g exHeld.st.pos).2) (stop exHeld)) :=
    ⟨hb1, exHeld_held.notMember, exHeld_held.mine, exHeld_held.blocked, exHeld_held.moves, exHeld_held.unit,
      exHeld_held.aperiodic, exHeld_held.noMove⟩
  have hck := exHeld_clumps.of_sig (adds_stops_sig [0, 0] g exHeldWorld)
  have hang : (addVel ((2 : ℕ) • (g exHeld.st.pos).1) ((2 : ℕ) • (g exHeld.st.pos).2) (stop exHeld)).st.angVel =
      (2 * Real.pi) • ![0, 0, 1] := by
    simp [addVel, stop, hg]
  obtain ⟨w2, b2, h2, -, h3, h4, -⟩ := held_step hheld hck [0] (by decide) (by decide) exAxis_unit hang
  refine ⟨e', _, w2, b2, h1, h2, h3, ?_⟩
  rw [h4]
  have : (addVel ((2 : ℕ) • (g exHeld.st.pos).1) ((2 : ℕ) • (g exHeld.st.pos).2) (stop exHeld)).st.vel = ![-4, 0, 0] := by
    simp only [addVel, stop, hg, exCtx, mul_one, turn_half]
    apply v3_ext <;> simp [exHeld, exBod] <;> norm_num
  rw [this]
  apply v3_ext <;> simp [addVel, stop, exHeld, exBod, exParams] <;> norm_num

end Verif.Drive
