import Verif.Dt.StepProps
import Mathlib.Algebra.BigOperators.Group.Finset.Basic
import Mathlib.Tactic.Module

/-!
# The linear network of contacts: specification of stability

Small motions of the bodies about the present state, the forces with which contacts resist, and the explicit (leapfrog) integration of
the motion without damping.
-/
namespace Verif.Dt
open Verif.Mech
open scoped Classical

/-- Displacements and rotations of the bodies, or their velocities. -/
abbrev Motion := ℕ → V3 × V3

/-- The relative displacement at the contact point. -/
def rel (c : Contact) (x : Motion) : V3 :=
  ((x c.id2).1 - c.refR2 • cross (x c.id2).2 c.normal) - ((x c.id1).1 + c.refR1 • cross (x c.id1).2 c.normal)

/-- The relative rotation. -/
def rot (c : Contact) (x : Motion) : V3 := (x c.id2).2 - (x c.id1).2

/-- A spring with one stiffness along a direction and another across. -/
def spring (n : V3) (kn ks : ℝ) (d : V3) : V3 := ((kn - ks) * dot d n) • n + ks • d

/-- Force and torque of the contacts on body `i`. -/
noncomputable def netForce (cs : List Contact) (x : Motion) (i : Nat) : V3 × V3 :=
  (cs.map fun c => if c.normalForce = 0 then 0 else
    let f := spring c.normal c.kn c.ks (rel c x)
    let m := spring c.normal c.ktw c.kr (rot c x)
    (if c.id1 = i then (f, c.refR1 • cross c.normal f + m) else 0) + (if c.id2 = i then (-f, c.refR2 • cross c.normal f - m) else 0)).sum

/-- Accelerations: only moving bodies are accelerated. -/
noncomputable def netAcc (bodies : List (Option Bd)) (cs : List Contact) (x : Motion) : Motion := fun i =>
  match bodies[i]? with
  | some (some b) => if b.dynamic = true ∧ b.clumpMember = false then
      let f := netForce cs x i
      ((1 / b.mass) • f.1, fun a => f.2 a / b.inertia a)
    else 0
  | _ => 0

/-- One step: displacements and velocities. -/
noncomputable def netStep (bodies : List (Option Bd)) (cs : List Contact) (dt : ℝ) (s : Motion × Motion) : Motion × Motion :=
  let v := s.2 + dt • netAcc bodies cs s.1
  (s.1 + dt • v, v)

/-- Many steps. -/
noncomputable def netRun (bodies : List (Option Bd)) (cs : List Contact) (dt : ℝ) (s : Motion × Motion) : Nat → Motion × Motion
  | 0 => s
  | n + 1 => netStep bodies cs dt (netRun bodies cs dt s n)

/-- Only moving bodies move. -/
def Free (bodies : List (Option Bd)) (x : Motion) : Prop := ∀ i, (¬ ∃ b, Moves bodies i b) → x i = 0

/-- Twice the kinetic energy, as a bilinear form. -/
noncomputable def massForm (bodies : List (Option Bd)) (x y : Motion) : ℝ :=
  ∑ i ∈ Finset.range bodies.length, match bodies[i]? with
    | some (some b) => b.mass * dot (x i).1 (y i).1 + (b.inertia 0 * (x i).2 0 * (y i).2 0 + b.inertia 1 * (x i).2 1 * (y i).2 1 + b.inertia 2 * (x i).2 2 * (y i).2 2)
    | _ => 0

/-- Twice the elastic energy, as a bilinear form. -/
noncomputable def stiffForm (cs : List Contact) (x y : Motion) : ℝ :=
  (cs.map fun c => if c.normalForce = 0 then 0 else dot (spring c.normal c.kn c.ks (rel c x)) (rel c y) + dot (spring c.normal c.ktw c.kr (rot c x)) (rot c y)).sum

/-! ## Forms -/

/-- A symmetric bilinear form. -/
structure IsForm {V : Type} [AddCommGroup V] [Module ℝ V] (B : V → V → ℝ) : Prop where
  symm : ∀ x y, B x y = B y x
  add : ∀ x y z, B (x + y) z = B x z + B y z
  smul : ∀ (t : ℝ) x z, B (t • x) z = t * B x z

variable {V : Type} [AddCommGroup V] [Module ℝ V]

theorem IsForm.add_r {B : V → V → ℝ} (h : IsForm B) (x y z : V) : B x (y + z) = B x y + B x z := by
  rw [h.symm, h.add, h.symm y, h.symm z]

theorem IsForm.smul_r {B : V → V → ℝ} (h : IsForm B) (t : ℝ) (x z : V) : B x (t • z) = t * B x z := by
  rw [h.symm, h.smul, h.symm]

/-- The quantity the integration keeps. -/
def invariant (M K : V → V → ℝ) (dt : ℝ) (s : V × V) : ℝ := M s.2 s.2 + K s.1 (s.1 + (-dt) • s.2)

theorem invariant_step {M K : V → V → ℝ} (hM : IsForm M) (hK : IsForm K) (dt : ℝ) (x v a : V) (ha : ∀ w, (w = v ∨ w = a) → M a w = - K x w) :
    invariant M K dt (x + dt • (v + dt • a), v + dt • a) = invariant M K dt (x, v) := by
  have h1 := ha v (Or.inl rfl)
  have h2 := ha a (Or.inr rfl)
  simp only [invariant, hM.add, hM.smul, hM.add_r, hM.smul_r, hK.add, hK.smul, hK.add_r, hK.smul_r]
  rw [hM.symm v a, h1, h2, hK.symm v x, hK.symm a x, hK.symm a v]
  ring

theorem invariant_bound {M K : V → V → ℝ} (hK : IsForm K) {dt θ : ℝ} {x v : V} (hpos : ∀ z, 0 ≤ K z z) (hθ : dt ^ 2 * K v v ≤ 4 * θ * M v v) :
    (1 - θ) * M v v ≤ invariant M K dt (x, v) := by
  have h := hpos (x + (-(dt / 2)) • v)
  simp only [invariant, hK.add, hK.smul, hK.add_r, hK.smul_r] at h ⊢
  rw [hK.symm v x] at h
  nlinarith

/-! ## Products of vectors -/

theorem spring_dot (n : V3) (kn ks : ℝ) (d w : V3) : dot (spring n kn ks d) w = (kn - ks) * dot d n * dot w n + ks * dot d w := by
  simp [spring, dot]; ring

theorem rel_add (c : Contact) (x y : Motion) : rel c (x + y) = rel c x + rel c y := by
  apply v3_ext <;> simp [rel] <;> ring

theorem rel_smul (c : Contact) (t : ℝ) (x : Motion) : rel c (t • x) = t • rel c x := by
  apply v3_ext <;> simp [rel] <;> ring

theorem rot_add (c : Contact) (x y : Motion) : rot c (x + y) = rot c x + rot c y := by
  apply v3_ext <;> simp [rot] <;> ring

theorem rot_smul (c : Contact) (t : ℝ) (x : Motion) : rot c (t • x) = t • rot c x := by
  apply v3_ext <;> simp [rot] <;> ring

theorem stiff_isForm (cs : List Contact) : IsForm (stiffForm cs) := by
  refine ⟨?_, ?_, ?_⟩
  · intro x y
    rw [stiffForm, stiffForm]
    congr 1
    apply List.map_congr_left
    intro c _
    rw [spring_dot, spring_dot, spring_dot, spring_dot, dot_comm (rel c x) (rel c y), dot_comm (rot c x) (rot c y)]
    split_ifs
    · rfl
    · ring
  · intro x y z
    induction cs with
    | nil => simp [stiffForm]
    | cons c t ih =>
      have e : ∀ x y, stiffForm (c :: t) x y = stiffForm [c] x y + stiffForm t x y := by intro x y; simp [stiffForm]
      rw [e, e, e, ih]
      have : stiffForm [c] (x + y) z = stiffForm [c] x z + stiffForm [c] y z := by
        simp only [stiffForm, List.map_cons, List.map_nil, List.sum_cons, List.sum_nil, add_zero, spring_dot, rel_add, rot_add]
        split_ifs
        · simp
        · simp [dot]; ring
      rw [this]; ring
  · intro r x z
    induction cs with
    | nil => simp [stiffForm]
    | cons c t ih =>
      have e : ∀ x y, stiffForm (c :: t) x y = stiffForm [c] x y + stiffForm t x y := by intro x y; simp [stiffForm]
      rw [e, e, ih]
      have : stiffForm [c] (r • x) z = r * stiffForm [c] x z := by
        simp only [stiffForm, List.map_cons, List.map_nil, List.sum_cons, List.sum_nil, add_zero, spring_dot, rel_smul, rot_smul]
        split_ifs
        · simp
        · simp [dot]; ring
      rw [this]; ring

theorem mass_isForm (bodies : List (Option Bd)) : IsForm (massForm bodies) := by
  refine ⟨?_, ?_, ?_⟩
  · intro x y
    apply Finset.sum_congr rfl
    intro i _
    split
    · rw [dot_comm]; ring
    · rfl
  · intro x y z
    rw [massForm, massForm, massForm, ← Finset.sum_add_distrib]
    apply Finset.sum_congr rfl
    intro i _
    split
    · simp [dot]; ring
    · simp
  · intro r x z
    rw [massForm, massForm, Finset.mul_sum]
    apply Finset.sum_congr rfl
    intro i _
    split
    · simp [dot]; ring
    · simp

theorem mass_nonneg {bodies : List (Option Bd)} (hm : ∀ i b, Moves bodies i b → 0 < b.mass ∧ ∀ a, 0 < b.inertia a) {x : Motion} (hx : Free bodies x) :
    0 ≤ massForm bodies x x := by
  apply Finset.sum_nonneg
  intro i _
  split
  · rename_i b hb
    by_cases hmv : ∃ b, Moves bodies i b
    · obtain ⟨b', hb'⟩ := hmv
      obtain rfl : b' = b := by have := hb'.1; rw [hb] at this; simpa using this.symm
      obtain ⟨h1, h2⟩ := hm i b' hb'
      have e0 := mul_nonneg (h2 0).le (mul_self_nonneg ((x i).2 0))
      have e1 := mul_nonneg (h2 1).le (mul_self_nonneg ((x i).2 1))
      have e2 := mul_nonneg (h2 2).le (mul_self_nonneg ((x i).2 2))
      have e3 := mul_nonneg h1.le (sqNorm_nonneg (x i).1)
      rw [sqNorm] at e3
      nlinarith
    · rw [hx i hmv]; simp [dot]
  · exact le_rfl

/-! ## Virtual work -/

/-- Work of a force and torque along a motion. -/
def work (f d : V3 × V3) : ℝ := dot f.1 d.1 + dot f.2 d.2

theorem netForce_cons (c : Contact) (t : List Contact) (x : Motion) (i : Nat) : netForce (c :: t) x i = netForce [c] x i + netForce t x i := by
  simp [netForce]

theorem work_add (f g d : V3 × V3) : work (f + g) d = work f d + work g d := by simp [work, dot]; ring

theorem work_one (c : Contact) (x w : Motion) {n : Nat} (h1 : c.id1 < n) (h2 : c.id2 < n) :
    ∑ i ∈ Finset.range n, work (netForce [c] x i) (w i) = - stiffForm [c] x w := by
  by_cases h0 : c.normalForce = 0
  · simp [netForce, stiffForm, h0, work, dot]
  · set f := spring c.normal c.kn c.ks (rel c x) with hf
    set m := spring c.normal c.ktw c.kr (rot c x) with hm
    have e : ∀ i, work (netForce [c] x i) (w i) = (if c.id1 = i then work (f, c.refR1 • cross c.normal f + m) (w c.id1) else 0) +
        (if c.id2 = i then work (-f, c.refR2 • cross c.normal f - m) (w c.id2) else 0) := by
      intro i
      simp only [netForce, List.map_cons, List.map_nil, List.sum_cons, List.sum_nil, add_zero, h0, if_false]
      rw [work_add, ← hf, ← hm]
      have hz : ∀ d : V3 × V3, work 0 d = 0 := by intro d; simp [work, dot]
      by_cases g1 : c.id1 = i <;> by_cases g2 : c.id2 = i <;> simp [g1, g2, hz]
    rw [Finset.sum_congr rfl (fun i _ => e i), Finset.sum_add_distrib, Finset.sum_ite_eq, Finset.sum_ite_eq, if_pos (Finset.mem_range.mpr h1), if_pos (Finset.mem_range.mpr h2)]
    simp only [stiffForm, List.map_cons, List.map_nil, List.sum_cons, List.sum_nil, add_zero, h0, if_false]
    rw [← hf, ← hm]
    simp [work, dot, rel, rot]
    ring

theorem work_all (cs : List Contact) (x w : Motion) {n : Nat} (h : ∀ c ∈ cs, c.id1 < n ∧ c.id2 < n) :
    ∑ i ∈ Finset.range n, work (netForce cs x i) (w i) = - stiffForm cs x w := by
  induction cs with
  | nil => simp [netForce, stiffForm, work, dot]
  | cons c t ih =>
    have e : stiffForm (c :: t) x w = stiffForm [c] x w + stiffForm t x w := by simp [stiffForm]
    rw [e, neg_add, ← work_one c x w (h c (by simp)).1 (h c (by simp)).2, ← ih (fun c' hc' => h c' (by simp [hc'])), ← Finset.sum_add_distrib]
    apply Finset.sum_congr rfl
    intro i _
    rw [netForce_cons, work_add]

theorem virtual_work {bodies : List (Option Bd)} {cs : List Contact} (hm : ∀ i b, Moves bodies i b → 0 < b.mass ∧ ∀ a, 0 < b.inertia a)
    (hc : ∀ c ∈ cs, c.id1 < bodies.length ∧ c.id2 < bodies.length) (x : Motion) {w : Motion} (hw : Free bodies w) :
    massForm bodies (netAcc bodies cs x) w = - stiffForm cs x w := by
  rw [← work_all cs x w hc, massForm]
  apply Finset.sum_congr rfl
  intro i hi
  by_cases hmv : ∃ b, Moves bodies i b
  · obtain ⟨b, hb⟩ := hmv
    obtain ⟨h1, h2⟩ := hm i b hb
    simp only [netAcc, hb.1, hb.2.1, hb.2.2, and_self, if_true, work, dot]
    have := h1.ne'
    have := (h2 0).ne'
    have := (h2 1).ne'
    have := (h2 2).ne'
    simp
    field_simp
  · rw [hw i hmv]
    split
    · simp [dot, work]
    · simp [work, dot]

theorem netAcc_free (bodies : List (Option Bd)) (cs : List Contact) (x : Motion) : Free bodies (netAcc bodies cs x) := by
  intro i hi
  rw [netAcc]
  split
  · rename_i b hb
    rw [if_neg]
    rintro ⟨h1, h2⟩
    exact hi ⟨b, hb, h1, h2⟩
  · rfl

theorem netStep_free {bodies : List (Option Bd)} {cs : List Contact} {dt : ℝ} {s : Motion × Motion} (h2 : Free bodies s.2) :
    Free bodies (netStep bodies cs dt s).2 := by
  intro i hi
  simp only [netStep]
  rw [Pi.add_apply, Pi.smul_apply, h2 i hi, netAcc_free bodies cs s.1 i hi]
  simp

/-! ## Energy and stiffness of bodies -/

/-- The sum over bodies and axes of stiffness times square of the motion. -/
noncomputable def diagonal (n : Nat) (cs : List Contact) (x : Motion) : ℝ :=
  ∑ i ∈ Finset.range n, ∑ a : Fin 3, (bodyK cs i a * (x i).1 a ^ 2 + bodyR cs i a * (x i).2 a ^ 2)

theorem diagonal_one {c : Contact} (h0 : c.normalForce ≠ 0) {n : Nat} (h1 : c.id1 < n) (h2 : c.id2 < n) (x : Motion) :
    diagonal n [c] x = ∑ a : Fin 3, (contactK c a * (x c.id1).1 a ^ 2 + contactR c c.refR1 a * (x c.id1).2 a ^ 2) +
      ∑ a : Fin 3, (contactK c a * (x c.id2).1 a ^ 2 + contactR c c.refR2 a * (x c.id2).2 a ^ 2) := by
  have e : ∀ i, (∑ a : Fin 3, (bodyK [c] i a * (x i).1 a ^ 2 + bodyR [c] i a * (x i).2 a ^ 2)) =
      (if c.id1 = i then ∑ a : Fin 3, (contactK c a * (x c.id1).1 a ^ 2 + contactR c c.refR1 a * (x c.id1).2 a ^ 2) else 0) +
      (if c.id2 = i then ∑ a : Fin 3, (contactK c a * (x c.id2).1 a ^ 2 + contactR c c.refR2 a * (x c.id2).2 a ^ 2) else 0) := by
    intro i
    simp only [bodyK, bodyR, List.map_cons, List.map_nil, List.sum_cons, List.sum_nil, add_zero, h0, if_false]
    by_cases g1 : c.id1 = i <;> by_cases g2 : c.id2 = i
    · subst g1
      simp only [g2, if_true]
      rw [← Finset.sum_add_distrib]
      apply Finset.sum_congr rfl
      intro a _
      ring
    · simp [g1, g2]
    · simp [g1, g2]
    · simp [g1, g2]
  rw [diagonal, Finset.sum_congr rfl (fun i _ => e i), Finset.sum_add_distrib, Finset.sum_ite_eq, Finset.sum_ite_eq, if_pos (Finset.mem_range.mpr h1), if_pos (Finset.mem_range.mpr h2)]

theorem diagonal_cons (n : Nat) (c : Contact) (t : List Contact) (x : Motion) : diagonal n (c :: t) x = diagonal n [c] x + diagonal n t x := by
  rw [diagonal, diagonal, diagonal, ← Finset.sum_add_distrib]
  apply Finset.sum_congr rfl
  intro i _
  rw [← Finset.sum_add_distrib]
  apply Finset.sum_congr rfl
  intro a _
  rw [show bodyK (c :: t) i a = bodyK [c] i a + bodyK t i a by simp [bodyK], show bodyR (c :: t) i a = bodyR [c] i a + bodyR t i a by simp [bodyR]]
  ring

/-- If the energy of each contact is bounded by the diagonal, so is that of all. -/
theorem stiff_le_diagonal {n : Nat} {cs : List Contact} {q : ℝ} (x : Motion) (h : ∀ c ∈ cs, stiffForm [c] x x ≤ q * diagonal n [c] x) :
    stiffForm cs x x ≤ q * diagonal n cs x := by
  induction cs with
  | nil => simp [stiffForm, diagonal, bodyK, bodyR]
  | cons c t ih =>
    have e : stiffForm (c :: t) x x = stiffForm [c] x x + stiffForm t x x := by simp [stiffForm]
    rw [e, diagonal_cons, mul_add]
    exact add_le_add (h c (by simp)) (ih fun c' hc' => h c' (by simp [hc']))

/-- If the step squared times the stiffness is bounded by mass, the diagonal is bounded by kinetic energy. -/
theorem diagonal_le_mass {bodies : List (Option Bd)} {cs : List Contact} {p d : ℝ}
    (h : ∀ i b, Moves bodies i b → ∀ a, d * bodyK cs i a ≤ p * b.mass ∧ d * bodyR cs i a ≤ p * b.inertia a) {x : Motion} (hx : Free bodies x) :
    d * diagonal bodies.length cs x ≤ p * massForm bodies x x := by
  rw [diagonal, massForm, Finset.mul_sum, Finset.mul_sum]
  apply Finset.sum_le_sum
  intro i hi
  by_cases hmv : ∃ b, Moves bodies i b
  · obtain ⟨b, hb⟩ := hmv
    have h' := h i b hb
    rw [hb.1]
    simp only [Fin.sum_univ_three, dot]
    have k0 := mul_le_mul_of_nonneg_right (h' 0).1 (sq_nonneg ((x i).1 0))
    have k1 := mul_le_mul_of_nonneg_right (h' 1).1 (sq_nonneg ((x i).1 1))
    have k2 := mul_le_mul_of_nonneg_right (h' 2).1 (sq_nonneg ((x i).1 2))
    have r0 := mul_le_mul_of_nonneg_right (h' 0).2 (sq_nonneg ((x i).2 0))
    have r1 := mul_le_mul_of_nonneg_right (h' 1).2 (sq_nonneg ((x i).2 1))
    have r2 := mul_le_mul_of_nonneg_right (h' 2).2 (sq_nonneg ((x i).2 2))
    nlinarith
  · rw [hx i hmv]
    split <;> simp [dot]

end Verif.Dt
