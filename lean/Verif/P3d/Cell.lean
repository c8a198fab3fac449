import Verif.P3d.Props
import Mathlib.Analysis.Matrix.Order
import Mathlib.Analysis.SpecialFunctions.ContinuousFunctionalCalculus.Rpow.Basic

/-! # C256: the deformation of the cell -/
namespace Verif.P3d

open scoped MatrixOrder Matrix.Norms.L2Operator
open Matrix

/-- A matrix as a rotation times a stretch. -/
structure Polar (a r p : M3) : Prop where
  prod : a = r * p
  left : r.transpose * r = 1
  stretch : p.PosSemidef

/-- A symmetric positive matrix has no rotation. -/
theorem Polar.one {a r p : M3} (h : Polar a r p) (ha : a.PosDef) : r = 1 := by
  have hT : a.transpose = a := by simpa [Matrix.conjTranspose_eq_transpose_of_trivial] using ha.isHermitian.eq
  have pT : p.transpose = p := by simpa [Matrix.conjTranspose_eq_transpose_of_trivial] using h.stretch.isHermitian.eq
  have h2 : p * p = a * a := by
    calc p * p = p.transpose * (r.transpose * r) * p := by rw [h.left, Matrix.mul_one, pT]
      _ = a.transpose * a := by rw [h.prod, Matrix.transpose_mul]; simp only [Matrix.mul_assoc]
      _ = a * a := by rw [hT]
  have hp : p = a := by
    have e1 := CFC.sqrt_mul_self p (ha := h.stretch.nonneg)
    have e2 := CFC.sqrt_mul_self a (ha := ha.posSemidef.nonneg)
    rw [← e1, h2, e2]
  have hu : IsUnit a.det := ha.isUnit.map Matrix.detMonoidHom
  have h3 := h.prod
  rw [hp] at h3
  have h4 : r * a * a⁻¹ = a * a⁻¹ := by rw [← h3]
  rwa [Matrix.mul_assoc, Matrix.mul_nonsing_inv _ hu, Matrix.mul_one] at h4

/-- **C256**: with the velocity gradient of the engine, the cell gets the strain rate of the engine, applied to the rotation of the cell. -/
theorem C256_cell {e g : Eng} {i : Inp} {m : M3} (h : e.action i = .ok (g, m)) (hp : Polar i.trsf i.rot i.nonrot) :
    i.trsf + i.dt • m * i.trsf = i.trsf + i.dt • (tensor g.strainRate * i.rot) := by
  obtain ⟨hdt, _, hdet, _, _, _, _, rfl⟩ := action_ok h
  have hu : IsUnit i.trsf.det := isUnit_iff_ne_zero.2 hdet
  have hr : i.rot * i.rot.transpose = 1 := mul_eq_one_comm.1 hp.left
  congr 1
  unfold velGrad
  rw [smul_smul, mul_one_div_cancel hdt.ne', one_smul, Matrix.sub_mul, Matrix.one_mul, Matrix.mul_assoc _ (i.trsf)⁻¹, Matrix.nonsing_inv_mul _ hu, Matrix.mul_one,
    Matrix.mul_add, ← hp.prod, add_sub_cancel_left, Matrix.mul_assoc i.rot.transpose, ← Matrix.mul_assoc, hr, Matrix.one_mul, Matrix.smul_mul]

/-- **C256**: a cell deformed without rotation gets the strain rate itself, and remains without rotation. -/
theorem C256_symmetric {e g : Eng} {i : Inp} {m : M3} (h : e.action i = .ok (g, m)) (hp : Polar i.trsf i.rot i.nonrot) (hs : i.trsf.PosDef) :
    i.trsf + i.dt • m * i.trsf = i.trsf + i.dt • tensor g.strainRate ∧ (i.trsf + i.dt • m * i.trsf).transpose = i.trsf + i.dt • m * i.trsf := by
  have h1 := C256_cell h hp
  rw [hp.one hs, Matrix.mul_one] at h1
  refine ⟨h1, ?_⟩
  have hT : i.trsf.transpose = i.trsf := by simpa [Matrix.conjTranspose_eq_transpose_of_trivial] using hs.isHermitian.eq
  have ht : (tensor g.strainRate).transpose = tensor g.strainRate := by
    unfold tensor
    ext a b; fin_cases a <;> fin_cases b <;> rfl
  rw [h1, Matrix.transpose_add, Matrix.transpose_smul, hT, ht]

/-- Steps of the engine and of the cell, `trsf += dt*velGrad*trsf` (core/Cell.cpp 8-10), with no rate limited. -/
inductive Both : Eng → ℕ → Eng → M3 → Prop
  | zero (e : Eng) : Both e 0 e 1
  | succ {e f g : Eng} {k : ℕ} {t m : M3} {i : Inp} (h : Both e k f t) (hd : f.dead = false) (ht : i.trsf = t) (hs : t.PosDef)
    (hp : Polar i.trsf i.rot i.nonrot) (h1 : f.action i = .ok (g, m)) (h2 : g.progress = f.progress + 1 / f.nSteps) : Both e (k + 1) g (t + i.dt • m * t)

theorem Both.even {a f : Eng} {k : ℕ} {t : M3} (h : Both a k f t) : Even a k f := by
  induction h with
  | zero => exact .zero _
  | succ _ hd _ _ _ h1 h2 ih => exact .succ ih hd h1 h2

theorem tensor_add (v w : V6) (c : ℝ) : tensor (fun j => v j + w j * c) = tensor v + c • tensor w := by
  unfold tensor
  ext a b; fin_cases a <;> fin_cases b <;> simp <;> ring

theorem start_strain {e f : Eng} {b : Bool} (h : e.start = .ok (f, b)) : f.strain = e.strain := by
  unfold Eng.start at h
  split_ifs at h
  · rcases hb : based e.setup.paths e.setup.pe with b' | _ | _
    · rw [hb, Res.bind_ok] at h; cases h; rfl
    · rw [hb] at h; simp at h
    · rw [hb] at h; simp at h
  · cases h; rfl

theorem even_corr {u : Eng} {p : ℝ} {n : ℤ} (hn : 0 < n) (h : u.finish.progress = p + 1 / n) (h1 : u.progress = p) (h2 : u.nSteps = n) : u.corr = 1 := by
  have hN : (0 : ℝ) < n := by exact_mod_cast hn
  have : u.progress + u.corr / u.nSteps = p + 1 / n := h
  rw [h1, h2] at this
  have := add_left_cancel this
  field_simp at this
  exact this

/-- With all strains prescribed, what is recorded is what was applied. -/
theorem even_strain {a f g : Eng} {n : Fin 6 → ℕ → ℕ} {k : ℕ} {i : Inp} {m : M3} (ha : Fits a n) (hm : ∀ j, a.mask j = false) (h : Even a k f)
    (hk : (k : ℤ) < a.nSteps) (h1 : f.action i = .ok (g, m)) (h2 : g.progress = f.progress + 1 / f.nSteps) : g.strain = fun j => f.strain j + g.strainRate j * i.dt := by
  obtain ⟨hdt, hn, _, f', b, hs, hadv, _⟩ := action_ok h1
  obtain ⟨hi, e1, e2, _⟩ := start_inv ha (h.inv ha hk.le) hs
  obtain ⟨g', u, c, x1, x2, x3, _, _⟩ := hi.advance ha hk b i hdt
  rw [x1] at hadv
  cases hadv
  have hps : f'.ps = [] := by
    apply List.eq_nil_iff_forall_not_mem.2
    intro j hj
    have := (hi.ps j).1 hj
    rw [hm j] at this; cases this
  have hup : u.progress = f.progress := by rw [x3]; exact e1
  have hun : u.nSteps = f.nSteps := by rw [x3]; exact e2
  have hc := even_corr hn (by rw [← x2]; exact h2) hup hun
  funext j
  have hpe := (hi.pe j).2 (hm j)
  have hg : g.strainRate j = slope a n j (c j) / i.dt := by
    rw [x2]; show u.strainRate j * u.corr = _
    rw [hc, mul_one, x3]; simp [Eng.control, Eng.update, hps, hpe]
  have hgs : g.strain j = f'.strain j + slope a n j (c j) / i.dt * i.dt := by
    rw [x2, x3]; simp [Eng.finish, Eng.control, Eng.update, hpe]
  rw [hgs, hg, start_strain hs]

/-- **C256 (partial).** With all strains prescribed and no rate limited, a cell which was not deformed and remains positive definite is deformed by the
recorded strain, and by the goal at the end. -/
theorem C256_strain_partial {a f : Eng} {n : Fin 6 → ℕ → ℕ} {k : ℕ} {t : M3} (ha : Fits a n) (hm : ∀ j, a.mask j = false) (h : Both a k f t)
    (hk : (k : ℤ) ≤ a.nSteps) : t = 1 + tensor f.strain ∧ ((k : ℤ) = a.nSteps → t = 1 + tensor a.goal) := by
  have key : t = 1 + tensor f.strain := by
    induction h with
    | zero =>
      have : a.strain = 0 := by funext j; have := ha.zero j; rw [hm j] at this; simpa using this
      rw [this]
      have h0 : tensor 0 = 0 := by unfold tensor; ext a b; fin_cases a <;> fin_cases b <;> simp
      rw [h0, add_zero]
    | @succ e g k t m i h hd ht hs hp h1 h2 ih =>
      have ih := ih (by push_cast at hk; omega)
      have hst := even_strain ha hm h.even (by push_cast at hk; omega) h1 h2
      have := (C256_symmetric h1 hp (by rw [ht]; exact hs)).1
      rw [ht] at this
      rw [this, hst, tensor_add, ih, add_assoc]
  refine ⟨key, fun hN => ?_⟩
  rw [key]
  have : f.strain = a.goal := by
    funext j
    have := C254_goal_partial ha h.even hN j
    rw [hm j] at this; simpa using this
  rw [this]

end Verif.P3d
