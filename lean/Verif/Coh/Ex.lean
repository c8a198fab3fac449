import Verif.Coh.Lemmas

/-!
# Two unit spheres along the x axis, for examples and counterexamples
-/
namespace Verif.Coh

open Verif.Mech

/-- The first sphere, at rest in the origin. -/
def sA : State := exState 0 0

/-- The second sphere, at distance `d`, moving along y. -/
def sB (d u : ℝ) : State := { exState 0 0 with pos := ![d, 0, 0], vel := ![0, u, 0] }

/-- Time step one, no periodicity. -/
def cx : GeomCtx := ⟨1, 0, 0, false⟩

/-- Their contact geometry. -/
noncomputable def exSc (d u : ℝ) : ScGeom :=
  { normal := ![1, 0, 0], contactPoint := ![1 - 0.5 * (2 - d), 0, 0], pd := 2 - d, r1 := 1, r2 := 1, twist := 0,
    ortho := 0, shearInc := ![0, u, 0] }

/-- The same with rotations. -/
noncomputable def exG (d u : ℝ) : Geom6 := ⟨exSc d u, Quat.one, Quat.one, 0, 0⟩

theorem ex_vec (d u : ℝ) : (sB d u).pos + cx.shift2 - sA.pos = ![d, 0, 0] := by
  apply v3_ext <;> simp [sA, sB, cx, exState]

theorem ex_norm {d : ℝ} (hd : 0 < d) : norm3 (![d, 0, 0] : V3) = d := by
  have : sqNorm (![d, 0, 0] : V3) = d ^ 2 := by simp [sqNorm, dot]; ring
  rw [norm3, this, Real.sqrt_sq hd.le]

theorem ex_pre (d u : ℝ) (hd : 0 < d) (g : ScGeom) (b : Bool) (hg : b = false → g.normal = ![1, 0, 0]) :
    precompute { g with contactPoint := sA.pos + (1 - 0.5 * (1 + 1 - d)) • (1 / d) • (![d, 0, 0] : V3), pd := 1 + 1 - d, r1 := 1, r2 := 1 }
      sA (sB d u) cx ((1 / d) • ![d, 0, 0]) b = exSc d u := by
  have hn : ((1 / d) • ![d, 0, 0] : V3) = ![1, 0, 0] := by
    apply v3_ext <;> simp [hd.ne']
  rw [hn]
  have hcp : sA.pos + (1 - 0.5 * (1 + 1 - d)) • (![1, 0, 0] : V3) = ![1 - 0.5 * (2 - d), 0, 0] := by
    apply v3_ext <;> simp [sA, exState]
    left; ring
  rw [hcp]
  have hpd : 1 + 1 - d = 2 - d := by ring
  rw [hpd]
  unfold precompute
  have hs : ∀ x y z : V3, (cx.dt • ((incidentVel ⟨![1, 0, 0], ![1 - 0.5 * (2 - d), 0, 0], 2 - d, 1, 1, x, y, z⟩ sA (sB d u) cx) -
      dot ![1, 0, 0] (incidentVel ⟨![1, 0, 0], ![1 - 0.5 * (2 - d), 0, 0], 2 - d, 1, 1, x, y, z⟩ sA (sB d u) cx) • (![1, 0, 0] : V3))) =
      ![0, u, 0] := by
    intro x y z
    have c0 : ∀ v : V3, cross 0 v = 0 := fun v => by apply v3_ext <;> simp
    apply v3_ext <;> simp [incidentVel, cx, sA, sB, exState, dot, c0]
  cases b with
  | true =>
    simp only [if_true]
    rw [hs]
    rfl
  | false =>
    have := hg rfl
    simp only [Bool.false_eq_true, if_false, this]
    rw [hs]
    have h1 : cross (![1, 0, 0] : V3) ![1, 0, 0] = 0 := cross_self _
    have h2 : (cx.dt * 0.5 * dot ![1, 0, 0] (sA.angVel + (sB d u).angVel)) • (![1, 0, 0] : V3) = 0 := by
      apply v3_ext <;> simp [sA, sB, exState, dot]
    rw [h1, h2]
    rfl

theorem rotVec_one : rotVec Quat.one = 0 := by
  apply v3_ext <;> simp [rotVec, Quat.one]

/-- A new contact. -/
theorem ex_new (d u : ℝ) (hd : 0 < d) (h2 : d ≤ 2) :
    sphereSphere6 1 none false 1 1 sA (sB d u) cx = .ok (some (exG d u)) := by
  have hs : sphereSphere 1 none false false 1 1 sA (sB d u) cx = .ok (some (exSc d u)) := by
    unfold sphereSphere
    simp only [ex_vec, ex_norm hd]
    rw [if_neg, if_neg hd.ne']
    · simp only [Option.isNone_none, Option.getD_none]
      rw [ex_pre d u hd ScGeom.new true (by simp)]
    · rintro ⟨-, -, h⟩
      have : sqNorm (![d, 0, 0] : V3) = d ^ 2 := by simp [sqNorm, dot]; ring
      rw [this] at h
      nlinarith
  unfold sphereSphere6
  simp only [Option.map_none, hs]
  rfl

/-- A contact that is there already, the orientations being those of reference. -/
theorem ex_old (d u d' u' : ℝ) (hd : 0 < d) :
    sphereSphere6 1 (some (exG d' u')) true 1 1 sA (sB d u) cx = .ok (some (exG d u)) := by
  have hs : sphereSphere 1 (some (exSc d' u')) true false 1 1 sA (sB d u) cx = .ok (some (exSc d u)) := by
    unfold sphereSphere
    simp only [ex_vec, ex_norm hd]
    rw [if_neg (by simp), if_neg hd.ne']
    simp only [Option.isNone_some, Option.getD_some]
    rw [ex_pre d u hd (exSc d' u') false (fun _ => rfl)]
  unfold sphereSphere6
  simp only [Option.map_some]
  rw [show (exG d' u').g = exSc d' u' from rfl, hs]
  have hd : delta { exG d' u' with g := exSc d u } sA (sB d u) = Quat.one := by
    unfold delta
    have : ((sA.ori.mul Quat.one.conj).mul (Quat.one.mul (sB d u).ori.conj)) = Quat.one := by
      ext <;> simp [sA, sB, exState, Quat.one, Quat.mul, Quat.conj]
    show Quat.normalize ((sA.ori.mul Quat.one.conj).mul (Quat.one.mul (sB d u).ori.conj)) = _
    rw [this]
    exact Quat.normalize_of_unit (by simp [Quat.sqNorm, Quat.one])
  simp only [updateRotations, hd, rotVec_one]
  congr 2
  simp only [exG, Geom6.mk.injEq, true_and]
  constructor
  · simp [dot]
  · apply v3_ext <;> simp [dot]

theorem ex_unit (d u : ℝ) : sqNorm (exG d u).g.normal = 1 := by simp [exG, exSc, sqNorm, dot]

/-- No shear force, no shear: the trial force vanishes. -/
theorem ex_trial (cfg : Cfg) (d u : ℝ) (p : Phys) (fresh : Bool) (h : fresh = false → p.Fs = 0) :
    trial cfg (exSc d u) p fresh = ![0, -(p.ks * u), 0] := by
  have : (if fresh then 0 else p.Fs) = 0 := by
    cases fresh with
    | true => rfl
    | false => simpa using h rfl
  unfold trial
  simp only [this]
  apply v3_ext <;> simp [exSc, ScGeom.rotate]

theorem norm_y (a : ℝ) : norm3 (![0, a, 0] : V3) = |a| := by
  have : sqNorm (![0, a, 0] : V3) = a ^ 2 := by simp [sqNorm, dot]; ring
  rw [norm3, this, Real.sqrt_sq_eq_abs]

end Verif.Coh
