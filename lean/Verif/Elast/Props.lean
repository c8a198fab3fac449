import Verif.Elast.Model

/-!
# Contacts of elastic materials: order of bodies, stiffnesses, radii
-/
namespace Verif.Elast
open Verif

/-- The radii with bodies exchanged. -/
theorem radii_swap (r1 r2 : ℝ) : radii r2 r1 = ((radii r1 r2).2, (radii r1 r2).1) := rfl

/-- **C326 (order).** Stiffnesses do not depend on which body comes first. -/
theorem C326_order (m1 m2 : Mat) (r1 r2 : ℝ) :
    normGo m1 m2 (some (r1, r2)) none = normGo m2 m1 (some (r2, r1)) none ∧ normGo m1 m2 none none = normGo m2 m1 none none ∧
    shearGo m1 m2 (some (r1, r2)) none = shearGo m2 m1 (some (r2, r1)) none ∧
    shearGo m1 m2 none none = shearGo m2 m1 none none := by
  unfold normGo shearGo
  dsimp only
  rw [radii_swap r1 r2]
  dsimp only
  generalize (radii r1 r2).1 = a
  generalize (radii r1 r2).2 = b
  refine ⟨?_, ?_, ?_, ?_⟩ <;> (congr 1 <;> first | ring | skip)

theorem quot_ok {a b k : ℝ} (h : quot a b = .ok k) : b ≠ 0 ∧ k = a / b := by
  unfold quot at h
  by_cases h0 : b = 0
  · rw [if_pos h0] at h; cases h
  · rw [if_neg h0] at h; cases h; exact ⟨h0, rfl⟩

theorem quot_pos {a b : ℝ} (h : 0 < b) : quot a b = .ok (a / b) := by
  unfold quot; rw [if_neg h.ne']

/-- **C326 (spheres).** Between two spheres the stiffnesses are defined, positive and twice those of the bodies in series, a body
having Young's modulus times radius in the normal direction and Poisson's ratio times that in shear. -/
theorem C326_spheres {m1 m2 : Mat} {r1 r2 : ℝ} (e1 : 0 < m1.young) (e2 : 0 < m2.young) (p1 : 0 < m1.poisson)
    (p2 : 0 < m2.poisson) (h1 : 0 < r1) (h2 : 0 < r2) :
    ∃ p, shearGo m1 m2 (some (r1, r2)) none = .ok p ∧ normGo m1 m2 (some (r1, r2)) none = .ok p.kn ∧ 0 < p.kn ∧ 0 < p.ks ∧
      2 / p.kn = 1 / (m1.young * r1) + 1 / (m2.young * r2) ∧
      2 / p.ks = 1 / (m1.poisson * (m1.young * r1)) + 1 / (m2.poisson * (m2.young * r2)) := by
  have hr : radii r1 r2 = (r1, r2) := by unfold radii; rw [if_pos h1, if_pos h2]
  unfold shearGo normGo
  dsimp only
  rw [hr]
  dsimp only
  rw [quot_pos (by positivity), quot_pos (by positivity)]
  refine ⟨_, rfl, rfl, ?_, ?_, ?_, ?_⟩
  · dsimp only; positivity
  · dsimp only; positivity
  · dsimp only
    field_simp
    ring
  · dsimp only
    field_simp
    ring

/-- **C326 (flat).** A flat body, whose radius is not positive, counts with the radius of the sphere. -/
theorem C326_flat (m1 m2 : Mat) {r1 r2 : ℝ} (h1 : 0 < r1) (h2 : ¬0 < r2) :
    shearGo m1 m2 (some (r1, r2)) none = shearGo m1 m2 (some (r1, r1)) none ∧
    normGo m1 m2 (some (r1, r2)) none = normGo m1 m2 (some (r1, r1)) none := by
  have hr : radii r1 r2 = radii r1 r1 := by unfold radii; rw [if_pos h1, if_neg h2]; simp
  unfold shearGo normGo
  dsimp only
  rw [hr]
  exact ⟨rfl, rfl⟩

/-- **C326 (kept).** A contact that exists keeps its stiffnesses. -/
theorem C326_kept (m1 m2 : Mat) (g : Option (ℝ × ℝ)) (p : Phys) (k : ℝ) :
    shearGo m1 m2 g (some p) = .ok p ∧ normGo m1 m2 g (some k) = .ok k := ⟨rfl, rfl⟩

/-- **C326 (plain, partial).** Without radii the normal stiffness of a contact without shear is twice that of the moduli in
series. -/
theorem C326_plain_partial {m1 m2 : Mat} (e1 : 0 < m1.young) (e2 : 0 < m2.young) :
    ∃ k, normGo m1 m2 none none = .ok k ∧ 0 < k ∧ 2 / k = 1 / m1.young + 1 / m2.young := by
  unfold normGo
  dsimp only
  rw [quot_pos (by positivity)]
  refine ⟨_, rfl, by positivity, ?_⟩
  field_simp
  ring

/-- **C326 (violated).** Without radii a contact with shear has no shear stiffness, and its normal stiffness is the one meant for
shear: it differs from that of the contact without shear whenever both bodies have the same Poisson's ratio other than one. -/
theorem C326_violated {m1 m2 : Mat} (e1 : 0 < m1.young) (e2 : 0 < m2.young) (p1 : 0 < m1.poisson)
    (p2 : m2.poisson = m1.poisson) (hp : m1.poisson ≠ 1) :
    ∃ p k, shearGo m1 m2 none none = .ok p ∧ normGo m1 m2 none none = .ok k ∧ p.ks = 0 ∧ p.kn = m1.poisson * k ∧
      p.kn ≠ k := by
  unfold shearGo normGo
  dsimp only
  rw [p2]
  rw [quot_pos (by positivity), quot_pos (by positivity)]
  have e : 2 * m1.young * m1.poisson * m2.young * m1.poisson / (m1.young * m1.poisson + m2.young * m1.poisson) =
      m1.poisson * (2 * m1.young * m2.young / (m1.young + m2.young)) := by
    field_simp
  refine ⟨_, _, rfl, rfl, rfl, e, ?_⟩
  dsimp only
  rw [e]
  intro h
  have hk : 0 < 2 * m1.young * m2.young / (m1.young + m2.young) := by positivity
  exact hp (mul_right_cancel₀ hk.ne' (by rw [h, one_mul]))

/-- A material. -/
noncomputable def exMat : Mat := ⟨100, 1 / 4⟩

/-- A case for C326: spheres of radius one. -/
example : shearGo exMat exMat (some (1, 1)) none = .ok ⟨100, 25⟩ := by
  unfold shearGo radii quot exMat
  norm_num

/-- A case for C326: without radii the normal stiffness is a quarter and there is none in shear. -/
example : shearGo exMat exMat none none = .ok ⟨25, 0⟩ ∧ normGo exMat exMat none none = .ok 100 := by
  unfold shearGo normGo quot exMat
  norm_num

end Verif.Elast
