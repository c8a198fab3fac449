import Verif.Lbm.Model

/-!
# Fluid on a lattice: collisions, borders, walls, flags and counters
-/
namespace Verif.Lbm
open Verif

/-! ## Specification -/

/-- The nine populations with their directions on the lattice. -/
def Pop.dirs (p : Pop) : List ((ℝ × ℝ) × ℝ) :=
  [((0, 0), p.f0), ((1, 0), p.f1), ((0, 1), p.f2), ((-1, 0), p.f3), ((0, -1), p.f4), ((1, 1), p.f5), ((-1, 1), p.f6),
    ((-1, -1), p.f7), ((1, -1), p.f8)]

/-- Density: the sum of the populations. -/
noncomputable def Pop.density (p : Pop) : ℝ := (p.dirs.map fun d => d.2).sum

/-- Momentum along x. -/
noncomputable def Pop.momX (p : Pop) : ℝ := (p.dirs.map fun d => d.1.1 * d.2).sum

/-- Momentum along y. -/
noncomputable def Pop.momY (p : Pop) : ℝ := (p.dirs.map fun d => d.1.2 * d.2).sum

theorem density_eq (p : Pop) : p.density = p.f0 + p.f1 + p.f2 + p.f3 + p.f4 + p.f5 + p.f6 + p.f7 + p.f8 := by
  simp only [Pop.density, Pop.dirs, List.map_cons, List.map_nil, List.sum_cons, List.sum_nil]; ring

theorem momX_eq (p : Pop) : p.momX = p.f1 - p.f3 + p.f5 - p.f6 - p.f7 + p.f8 := by
  simp only [Pop.momX, Pop.dirs, List.map_cons, List.map_nil, List.sum_cons, List.sum_nil]; ring

theorem momY_eq (p : Pop) : p.momY = p.f2 - p.f4 + p.f5 + p.f6 - p.f7 - p.f8 := by
  simp only [Pop.momY, Pop.dirs, List.map_cons, List.map_nil, List.sum_cons, List.sum_nil]; ring

/-! ## C321: collisions -/

theorem collide_ok {ω c2 fx fy : ℝ} {p q : Pop} (h : collide ω c2 fx fy p = .ok q) :
    p.density ≠ 0 ∧ c2 ≠ 0 ∧ q = { f0 := collide1 (4 / 9) 0 0 p.density (p.momX / p.density) (p.momY / p.density) ω c2 fx fy p.f0
                                   f1 := collide1 (1 / 9) 1 0 p.density (p.momX / p.density) (p.momY / p.density) ω c2 fx fy p.f1
                                   f2 := collide1 (1 / 9) 0 1 p.density (p.momX / p.density) (p.momY / p.density) ω c2 fx fy p.f2
                                   f3 := collide1 (1 / 9) (-1) 0 p.density (p.momX / p.density) (p.momY / p.density) ω c2 fx fy p.f3
                                   f4 := collide1 (1 / 9) 0 (-1) p.density (p.momX / p.density) (p.momY / p.density) ω c2 fx fy p.f4
                                   f5 := collide1 (1 / 36) 1 1 p.density (p.momX / p.density) (p.momY / p.density) ω c2 fx fy p.f5
                                   f6 := collide1 (1 / 36) (-1) 1 p.density (p.momX / p.density) (p.momY / p.density) ω c2 fx fy p.f6
                                   f7 := collide1 (1 / 36) (-1) (-1) p.density (p.momX / p.density) (p.momY / p.density) ω c2 fx fy p.f7
                                   f8 := collide1 (1 / 36) 1 (-1) p.density (p.momX / p.density) (p.momY / p.density) ω c2 fx fy p.f8 } := by
  unfold collide at h
  rw [← density_eq, ← momX_eq, ← momY_eq] at h
  by_cases h0 : p.density = 0
  · simp only [h0, ↓reduceIte] at h; cases h
  by_cases h1 : c2 = 0
  · simp only [h0, h1, ↓reduceIte] at h; cases h
  simp only [h0, h1, ↓reduceIte] at h
  cases h
  exact ⟨h0, h1, rfl⟩

/-- **C321 (defined).** A collision is defined exactly at a node with a density, when the lattice speed is not zero. -/
theorem C321_defined (ω c2 fx fy : ℝ) (p : Pop) :
    (∃ q, collide ω c2 fx fy p = .ok q) ↔ p.density ≠ 0 ∧ c2 ≠ 0 := by
  constructor
  · rintro ⟨q, h⟩
    exact ⟨(collide_ok h).1, (collide_ok h).2.1⟩
  · rintro ⟨h0, h1⟩
    unfold collide
    rw [← density_eq]
    simp only [h0, h1, ↓reduceIte]
    exact ⟨_, rfl⟩

/-- **C321 (mass).** A collision keeps the density. -/
theorem C321_mass {ω c2 fx fy : ℝ} {p q : Pop} (h : collide ω c2 fx fy p = .ok q) : q.density = p.density := by
  obtain ⟨h0, h1, rfl⟩ := collide_ok h
  have e := density_eq p
  have ex := momX_eq p
  have ey := momY_eq p
  rw [density_eq]
  generalize hd : p.density = d at *
  generalize p.momX = x at *
  generalize p.momY = y at *
  simp only [collide1]
  field_simp
  rw [e]
  ring

/-- **C321 (momentum).** A collision changes the momentum by the body force times the density over three times the square of
the lattice speed, and by nothing else, whatever the relaxation. -/
theorem C321_momentum {ω c2 fx fy : ℝ} {p q : Pop} (h : collide ω c2 fx fy p = .ok q) :
    q.momX = p.momX + p.density * fx / (3 * c2) ∧ q.momY = p.momY + p.density * fy / (3 * c2) := by
  obtain ⟨h0, h1, rfl⟩ := collide_ok h
  have e := density_eq p
  have ex := momX_eq p
  have ey := momY_eq p
  generalize hd : p.density = d at *
  generalize hx : p.momX = x at *
  generalize hy : p.momY = y at *
  rw [momX_eq, momY_eq]
  simp only [collide1]
  constructor
  · field_simp
    rw [ex]
    ring
  · field_simp
    rw [ey]
    ring

/-- A fluid at rest with density one. -/
noncomputable def rest : Pop := ⟨4 / 9, 1 / 9, 1 / 9, 1 / 9, 1 / 9, 1 / 36, 1 / 36, 1 / 36, 1 / 36⟩

theorem rest_density : rest.density = 1 := by rw [density_eq]; norm_num [rest]

/-- **C321 (rest).** A fluid at rest without body force stays as it is. -/
theorem C321_rest (ω c2 d : ℝ) (hd : d ≠ 0) (hc : c2 ≠ 0) :
    collide ω c2 0 0 ⟨4 / 9 * d, 1 / 9 * d, 1 / 9 * d, 1 / 9 * d, 1 / 9 * d, 1 / 36 * d, 1 / 36 * d, 1 / 36 * d, 1 / 36 * d⟩ =
      .ok ⟨4 / 9 * d, 1 / 9 * d, 1 / 9 * d, 1 / 9 * d, 1 / 9 * d, 1 / 36 * d, 1 / 36 * d, 1 / 36 * d, 1 / 36 * d⟩ := by
  set p : Pop := ⟨4 / 9 * d, 1 / 9 * d, 1 / 9 * d, 1 / 9 * d, 1 / 9 * d, 1 / 36 * d, 1 / 36 * d, 1 / 36 * d, 1 / 36 * d⟩ with hp
  have e : p.density = d := by rw [density_eq, hp]; ring
  have ex : p.momX = 0 := by rw [momX_eq, hp]; ring
  have ey : p.momY = 0 := by rw [momY_eq, hp]; ring
  obtain ⟨q, hq⟩ := (C321_defined ω c2 0 0 p).2 ⟨by rw [e]; exact hd, hc⟩
  rw [hq]
  obtain ⟨-, -, rfl⟩ := collide_ok hq
  rw [e, ex, ey]
  congr 1
  ext <;> simp only [collide1, hp] <;> ring

/-- A case for C321: a fluid with a body force gains momentum and no mass. -/
example : ∃ q, collide 1 1 3 0 rest = .ok q ∧ q.density = 1 ∧ q.momX = 1 := by
  obtain ⟨q, h⟩ := (C321_defined 1 1 3 0 rest).2 ⟨by rw [rest_density]; norm_num, by norm_num⟩
  refine ⟨q, h, by rw [C321_mass h, rest_density], ?_⟩
  rw [(C321_momentum h).1, rest_density, momX_eq]
  norm_num [rest]

/-! ## C322: borders -/

/-- **C322 (momentum).** A condition imposed on a node gives the momentum of the density and velocity imposed, at every side and
corner. -/
theorem C322_momentum {ρ ux uy : ℝ} {s : Side} {p q : Pop} (h : mixteBC "d2q9" ρ ux uy s p = .ok q) :
    q.momX = ρ * ux ∧ q.momY = ρ * uy := by
  rw [momX_eq, momY_eq]
  unfold mixteBC at h
  simp only [↓reduceIte] at h
  cases s <;> (cases h; constructor <;> ring)

/-- The corners. -/
def Side.corner : Side → Prop
  | .xmym | .xmyp | .xpym | .xpyp => True
  | _ => False

/-- Normal of a side, pointing into the fluid, and zero at corners. -/
def Side.normal : Side → ℝ × ℝ
  | .xm => (1, 0)
  | .xp => (-1, 0)
  | .ym => (0, 1)
  | .yp => (0, -1)
  | _ => (0, 0)

/-- The populations that run along a side or leave the fluid there are not changed. -/
def Kept (s : Side) (p q : Pop) : Prop :=
  ∀ d ∈ p.dirs, d.1.1 * s.normal.1 + d.1.2 * s.normal.2 ≤ 0 → d ∈ q.dirs

/-- **C322 (pressure).** A pressure condition at the outlet, top or bottom gives density one and no velocity along the side. -/
theorem C322_pressure {s : Side} (hs : s = .xp ∨ s = .ym ∨ s = .yp) {dP rho cs nb : ℝ} {p q : Pop}
    (h : border "d2q9" s 1 dP rho cs nb p = .ok q) :
    q.density = 1 ∧ q.momX * s.normal.2 - q.momY * s.normal.1 = 0 := by
  rw [density_eq, momX_eq, momY_eq]
  unfold border choose mixteBC at h
  rcases hs with rfl | rfl | rfl <;> simp only [↓reduceIte] at h <;> cases h <;> simp only [Side.normal] <;>
    constructor <;> ring

/-- **C322 (inlet).** A pressure condition at the inlet gives the density of the prescribed pressure and no velocity along it. -/
theorem C322_inlet {dP rho cs nb : ℝ} {p q : Pop} (h : border "d2q9" .xm 1 dP rho cs nb p = .ok q) :
    rho * cs ^ 2 ≠ 0 ∧ rho * cs ^ 2 * (q.density - 1) = dP ∧ q.momY = 0 := by
  rw [density_eq, momY_eq]
  unfold border choose mixteBC at h
  by_cases h0 : rho * cs * cs = 0
  · simp only [h0, ↓reduceIte] at h; cases h
  have h0' : rho * cs ^ 2 ≠ 0 := fun h' => h0 (by rw [← h']; ring)
  by_cases h1 : 1 + dP / (rho * cs * cs) = 0
  · simp only [h0, h1, ↓reduceIte] at h; cases h
  simp only [h0, h1, ↓reduceIte] at h
  cases h
  have e : rho * cs ^ 2 * (dP / (rho * cs * cs)) = dP := by
    rw [show rho * cs ^ 2 = rho * cs * cs by ring]; exact mul_div_cancel₀ dP h0
  generalize dP / (rho * cs * cs) = t at *
  refine ⟨h0', ?_, by ring⟩
  rw [← e]
  field_simp
  ring

/-- **C322 (velocity, partial).** A velocity condition gives a fluid at rest: at sides with the density of the populations that
run along it and twice those that leave, at corners with that of the neighbour.  At sides other types do the same. -/
theorem C322_velocity_partial {s : Side} {type : ℤ} {dP rho cs nb : ℝ} {p q : Pop}
    (h : border "d2q9" s type dP rho cs nb p = .ok q) (ht : type = 2 ∨ type ≠ 1 ∧ ¬s.corner) :
    q.momX = 0 ∧ q.momY = 0 ∧ (s.corner → q.density = nb) := by
  rw [density_eq, momX_eq, momY_eq]
  unfold border choose mixteBC at h
  rcases ht with rfl | ⟨h1, hc⟩
  · cases s <;> simp only [↓reduceIte, show (2 : ℤ) ≠ 1 by decide] at h <;> cases h <;>
      refine ⟨by ring, by ring, fun hc => ?_⟩ <;> first | exact hc.elim | ring
  · by_cases h2 : type = 2
    · subst h2
      cases s <;> simp only [↓reduceIte, show (2 : ℤ) ≠ 1 by decide] at h <;> cases h <;>
        refine ⟨by ring, by ring, fun hc' => ?_⟩ <;> first | exact hc'.elim | ring
    · cases s <;> simp only [↓reduceIte, h1, h2] at h <;> cases h <;>
        first | exact (hc trivial).elim | exact ⟨by ring, by ring, fun hc' => hc'.elim⟩

/-- **C322 (kept).** A condition at a side changes only the populations that enter the fluid there. -/
theorem C322_kept {s : Side} (hs : ¬s.corner) {type : ℤ} {dP rho cs nb : ℝ} {p q : Pop}
    (h : border "d2q9" s type dP rho cs nb p = .ok q) : Kept s p q := by
  unfold border at h
  cases hc : choose s type dP rho cs nb p with
  | ub => rw [hc] at h; cases h
  | throws => rw [hc] at h; cases h
  | ok a =>
    obtain ⟨d, ux, uy⟩ := a
    rw [hc] at h
    unfold mixteBC at h
    simp only [↓reduceIte] at h
    intro e he hn
    simp only [Pop.dirs, List.mem_cons, List.not_mem_nil, or_false] at he
    cases s <;> first | exact (hs trivial).elim | skip
    all_goals
      cases h
      rcases he with rfl | rfl | rfl | rfl | rfl | rfl | rfl | rfl | rfl <;>
        first
        | (exfalso; norm_num [Side.normal] at hn; done)
        | simp [Pop.dirs]

/-- **C322 (mass).** A velocity condition at a side gives back what leaves: the density is that of the populations along the
side and twice those that leave. -/
theorem C322_mass {type : ℤ} {dP rho cs nb : ℝ} {p q : Pop} (ht : type ≠ 1) :
    (border "d2q9" .xm type dP rho cs nb p = .ok q → q.density = p.f0 + p.f2 + p.f4 + 2 * (p.f3 + p.f6 + p.f7)) ∧
    (border "d2q9" .xp type dP rho cs nb p = .ok q → q.density = p.f0 + p.f2 + p.f4 + 2 * (p.f1 + p.f5 + p.f8)) ∧
    (border "d2q9" .ym type dP rho cs nb p = .ok q → q.density = p.f0 + p.f1 + p.f3 + 2 * (p.f4 + p.f7 + p.f8)) ∧
    (border "d2q9" .yp type dP rho cs nb p = .ok q → q.density = p.f0 + p.f1 + p.f3 + 2 * (p.f2 + p.f5 + p.f6)) := by
  rw [density_eq]
  unfold border choose mixteBC
  by_cases h2 : type = 2
  · subst h2
    simp only [↓reduceIte, show (2 : ℤ) ≠ 1 by decide]
    refine ⟨?_, ?_, ?_, ?_⟩ <;> (intro h; cases h; ring)
  · simp only [↓reduceIte, ht, h2]
    refine ⟨?_, ?_, ?_, ?_⟩ <;> (intro h; cases h; ring)

/-- **C322 (violated).** The documented type −1 at a corner leaves a node without density, and the collision there is
undefined. -/
theorem C322_violated {s : Side} (hs : s.corner) (dP rho cs nb ω c2 fx fy : ℝ) (p : Pop) :
    ∃ q, border "d2q9" s (-1) dP rho cs nb p = .ok q ∧ q.density = 0 ∧ collide ω c2 fx fy q = .ub := by
  have main : ∃ q, border "d2q9" s (-1) dP rho cs nb p = .ok q ∧ q.density = 0 := by
    unfold border choose mixteBC
    cases s <;> first | exact hs.elim | skip
    all_goals
      simp only [↓reduceIte, show (-1 : ℤ) ≠ 1 by decide, show (-1 : ℤ) ≠ 2 by decide]
      refine ⟨_, rfl, ?_⟩
      rw [density_eq]
      ring
  obtain ⟨q, h, h0⟩ := main
  refine ⟨q, h, h0, ?_⟩
  unfold collide
  rw [← density_eq]
  simp only [h0, ↓reduceIte]

/-- **C322 (violated, pressure).** The documented pressure condition at a corner ends the program. -/
theorem C322_violated_exit {s : Side} (hs : s.corner) (dP rho cs nb : ℝ) (p : Pop) :
    border "d2q9" s 1 dP rho cs nb p = .throws := by
  unfold border choose
  cases s <;> first | exact hs.elim | simp only [↓reduceIte]

/-- A case for C322: a corner with density two and velocity (1, −1). -/
example : ∃ q, mixteBC "d2q9" 2 1 (-1) .xmyp rest = .ok q ∧ q.momX = 2 ∧ q.momY = -2 := by
  have h : ∃ q, mixteBC "d2q9" 2 1 (-1) .xmyp rest = .ok q := by
    unfold mixteBC
    simp only [↓reduceIte]
    exact ⟨_, rfl⟩
  obtain ⟨q, h⟩ := h
  have := C322_momentum h
  exact ⟨q, h, by rw [this.1]; norm_num, by rw [this.2]; norm_num⟩

/-- A case for C322: an inlet with twice the reference pressure. -/
example : ∃ q, border "d2q9" .xm 1 1 1 1 0 rest = .ok q ∧ q.density = 2 := by
  have h : ∃ q, border "d2q9" .xm 1 1 1 1 0 rest = .ok q := by
    unfold border choose mixteBC
    norm_num
  obtain ⟨q, h⟩ := h
  refine ⟨q, h, ?_⟩
  have := (C322_inlet h).2.1
  linarith

/-- A case for C322: a corner takes the density of its neighbour. -/
example : ∃ q, border "d2q9" .xpym 2 0 1 1 3 rest = .ok q ∧ q.density = 3 ∧ q.momX = 0 := by
  have h : ∃ q, border "d2q9" .xpym 2 0 1 1 3 rest = .ok q := by
    unfold border choose mixteBC
    norm_num
  obtain ⟨q, h⟩ := h
  have := C322_velocity_partial h (Or.inl rfl)
  exact ⟨q, h, this.2.2 trivial, this.1⟩

/-! ## C323: walls of bodies -/

/-- **C323 (mass).** Bounce back at a wall keeps the mass on the link, whatever the velocity of the wall. -/
theorem C323_mass (w ex ey ρs vx vy pf ps : ℝ) (isol : ℤ) :
    (bounce w ex ey ρs vx vy pf ps isol).fluid + (bounce w ex ey ρs vx vy pf ps isol).solid = pf + ps := by
  simp only [bounce]; ring

/-- **C323 (rest).** At a wall at rest all that leaves the fluid comes back. -/
theorem C323_rest (w ex ey ρs pf ps : ℝ) (isol : ℤ) : (bounce w ex ey ρs 0 0 pf ps isol).fluid = pf := by
  simp only [bounce]; split_ifs <;> ring

/-- **C323 (moving).** A wall that moves towards the fluid, against the direction of the link, sends back more than it gets. -/
theorem C323_moving {w ex ey ρs vx vy pf ps : ℝ} {isol : ℤ} (hw : 0 < w) (hρ : 0 < ρs) (hi : isol < 5)
    (hv : ex * vx + ey * vy < 0) : pf < (bounce w ex ey ρs vx vy pf ps isol).fluid := by
  simp only [bounce, ge_iff_le, not_le.2 hi, ↓reduceIte]
  have : 3 * w * ρs * (ex * vx + ey * vy) < 0 := mul_neg_of_pos_of_neg (by positivity) hv
  linarith

/-- **C323 (equilibrium).** A fluid that moves with the wall stays so: when what leaves is the share of a direction in a fluid of
the density and velocity of the wall, what comes back is the share of the opposite direction. -/
theorem C323_equilibrium {w ex ey ρs vx vy ps : ℝ} {isol : ℤ} (hi : isol < 5) :
    (bounce w ex ey ρs vx vy (w * ρs * (1 + 3 * (ex * vx + ey * vy))) ps isol).fluid =
      w * ρs * (1 + 3 * (-ex * vx + -ey * vy)) := by
  simp only [bounce, ge_iff_le, not_le.2 hi, ↓reduceIte]
  ring

/-- **C323 (force, partial).** At nodes with fewer than five walls, twice the force on the body is the momentum that leaves the
fluid less the momentum that comes back in the opposite direction. -/
theorem C323_force_partial {w ex ey ρs vx vy pf ps : ℝ} {isol : ℤ} (hi : isol < 5) :
    2 * (bounce w ex ey ρs vx vy pf ps isol).forceX = ex * pf - -ex * (bounce w ex ey ρs vx vy pf ps isol).fluid ∧
    2 * (bounce w ex ey ρs vx vy pf ps isol).forceY = ey * pf - -ey * (bounce w ex ey ρs vx vy pf ps isol).fluid := by
  simp only [bounce, ge_iff_le, not_le.2 hi, ↓reduceIte]
  constructor <;> ring

/-- **C323 (violated).** At nodes with five walls or more the force on a moving body is not the momentum the fluid loses. -/
theorem C323_violated {w ex ey ρs vx vy pf ps : ℝ} {isol : ℤ} (hi : 5 ≤ isol) (hx : ex ≠ 0) (hw : 0 < w) (hρ : 0 < ρs)
    (hv : ex * vx + ey * vy ≠ 0) :
    2 * (bounce w ex ey ρs vx vy pf ps isol).forceX ≠ ex * pf - -ex * (bounce w ex ey ρs vx vy pf ps isol).fluid := by
  simp only [bounce, ge_iff_le, hi, ↓reduceIte]
  intro h
  have e : ex * (3 * w * ρs * (ex * vx + ey * vy)) = 0 := by linarith
  exact mul_ne_zero hx (mul_ne_zero (by positivity) hv) e

/-- A case for C323: a wall moving towards the fluid. -/
example : (bounce (1 / 9) 1 0 3 (-1) 0 2 0 1).fluid = 4 ∧ (bounce (1 / 9) 1 0 3 (-1) 0 2 0 1).forceX = 3 ∧
    (bounce (1 / 9) 1 0 3 (-1) 0 2 0 6).fluid = 2 := by
  norm_num [bounce]

/-! ## C324: sides of nodes -/

/-- The side or corner a node of the grid lies on. -/
def Lies (nx ny i j : ℤ) : Side → Prop
  | .xm => i = 0 ∧ j ≠ 0 ∧ j ≠ ny - 1
  | .xp => i = nx - 1 ∧ j ≠ 0 ∧ j ≠ ny - 1
  | .ym => j = 0 ∧ i ≠ 0 ∧ i ≠ nx - 1
  | .yp => j = ny - 1 ∧ i ≠ 0 ∧ i ≠ nx - 1
  | .xmym => i = 0 ∧ j = 0
  | .xmyp => i = 0 ∧ j = ny - 1
  | .xpym => i = nx - 1 ∧ j = 0
  | .xpyp => i = nx - 1 ∧ j = ny - 1

/-- **C324 (sides, partial).** On a grid of at least two nodes each way, every node gets the condition of the side or corner it
lies on, and inner nodes get none. -/
theorem C324_sides_partial {nx ny i j : ℤ} (hx : 2 ≤ nx) (hy : 2 ≤ ny) (hi : 0 ≤ i ∧ i < nx) (hj : 0 ≤ j ∧ j < ny) :
    ∃ o, sideOf (dispatch nx ny i j) = .ok o ∧ ∀ s, o = some s ↔ Lies nx ny i j s := by
  simp only [sideOf, dispatch, Bool.or_eq_true, decide_eq_true_eq]
  split_ifs
  all_goals first
    | (exfalso; omega)
    | (refine ⟨_, rfl, fun s => ?_⟩
       cases s <;> simp only [Lies, Option.some.injEq, reduceCtorEq, true_iff, false_iff] <;> omega)

/-- **C324 (violated).** On a grid one node wide both nodes at an end get the condition of the left corner, and those between
get that of the left side alone. -/
theorem C324_violated {ny j : ℤ} (hy : 2 ≤ ny) (hj : 0 ≤ j ∧ j < ny) :
    Lies 1 ny 0 j .xm ∧ Lies 1 ny 0 j .xp ∧ sideOf (dispatch 1 ny 0 j) = .ok (some .xm) ∨
    (∃ a b, a ≠ b ∧ Lies 1 ny 0 j a ∧ Lies 1 ny 0 j b ∧ sideOf (dispatch 1 ny 0 j) = .ok (some a)) := by
  by_cases c : j = 0
  · subst c
    refine Or.inr ⟨.xmym, .xpym, by decide, ⟨rfl, rfl⟩, ⟨rfl, rfl⟩, ?_⟩
    simp [sideOf, dispatch]
  by_cases d : j = ny - 1
  · have h0 : ¬ny - 1 = 0 := by omega
    refine Or.inr ⟨.xmyp, .xpyp, by decide, ⟨rfl, d⟩, ⟨rfl, d⟩, ?_⟩
    subst d
    simp [sideOf, dispatch, h0]
  · refine Or.inl ⟨⟨rfl, c, d⟩, ⟨rfl, c, d⟩, ?_⟩
    have h1 : 0 < j := by omega
    have h2 : j < ny - 1 := by omega
    simp [sideOf, dispatch, h1, h2]

/-- A case for C324: the bottom right corner of a grid. -/
example : sideOf (dispatch 4 3 3 0) = .ok (some .xpym) := by decide

/-! ## C325: new obstacle and fluid nodes -/

/-- What one node gives. -/
theorem count_cons (n : Node) (l : List Node) (c : ℕ × ℕ) :
    count (n :: l) c = ({ n with wasO := n.isO, newO := if n.isO then !n.wasO else n.newO
                                 newF := if n.isO then n.newF else n.wasO } ::
        (count l (c.1 + (n.isO && !n.wasO).toNat, c.2 + (!n.isO && n.wasO).toNat)).1,
      (count l (c.1 + (n.isO && !n.wasO).toNat, c.2 + (!n.isO && n.wasO).toNat)).2) := by
  obtain ⟨a, b, x, y⟩ := n
  cases a <;> cases b <;> simp [count, checkNewObstacle, checkNewFluid]

/-- **C325 (counters).** The counters rise by the nodes that became obstacles and by those that became fluid. -/
theorem C325_counters (l : List Node) (c : ℕ × ℕ) :
    (count l c).2.1 = c.1 + l.countP (fun n => n.isO && !n.wasO) ∧
    (count l c).2.2 = c.2 + l.countP (fun n => !n.isO && n.wasO) := by
  induction l generalizing c with
  | nil => exact ⟨rfl, rfl⟩
  | cons n l ih =>
    rw [count_cons]
    obtain ⟨h1, h2⟩ := ih (c.1 + (n.isO && !n.wasO).toNat, c.2 + (!n.isO && n.wasO).toNat)
    dsimp only
    rw [h1, h2, List.countP_cons, List.countP_cons]
    obtain ⟨a, b, x, y⟩ := n
    cases a <;> cases b <;> simp <;> omega

/-- **C325 (nodes).** After the loop every node remembers what it is, what it is has not changed, and one whose flags were
cleared before is marked as new exactly when it changed. -/
theorem C325_nodes (l : List Node) (c : ℕ × ℕ) (h : ∀ n ∈ l, n.newO = false ∧ n.newF = false) :
    List.Forall₂ (fun n m => m.isO = n.isO ∧ m.wasO = n.isO ∧ m.newO = (n.isO && !n.wasO) ∧ m.newF = (!n.isO && n.wasO)) l
      (count l c).1 := by
  induction l generalizing c with
  | nil => exact .nil
  | cons n l ih =>
    rw [count_cons]
    refine .cons ?_ (ih _ fun m hm => h m (List.mem_cons_of_mem _ hm))
    obtain ⟨h1, h2⟩ := h n List.mem_cons_self
    dsimp only
    rw [h1, h2]
    refine ⟨rfl, rfl, ?_, ?_⟩ <;> cases n.isO <;> simp

/-- **C325 (once).** Going over the nodes again, with bodies where they are, counts nothing. -/
theorem C325_once (l : List Node) (c c' : ℕ × ℕ) : (count (count l c).1 c').2 = c' := by
  induction l generalizing c c' with
  | nil => rfl
  | cons n l ih =>
    rw [count_cons, count_cons]
    dsimp only
    have e1 : (n.isO && !n.isO).toNat = 0 := by cases n.isO <;> rfl
    have e2 : (!n.isO && n.isO).toNat = 0 := by cases n.isO <;> rfl
    rw [e1, e2]
    exact ih _ _

/-- A case for C325: two nodes become obstacles, one becomes fluid. -/
example : (count [⟨true, false, false, false⟩, ⟨true, true, false, false⟩, ⟨false, true, false, false⟩,
    ⟨true, false, false, false⟩] (0, 0)).2 = (2, 1) := by decide

end Verif.Lbm
