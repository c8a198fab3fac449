import Verif.Meas.Lemmas

/-!
# Stress of an assembly of bodies

**C183** `getStress` is the mean stress: it is what the external forces do, is symmetric when the bodies are in equilibrium and
does not depend on the order of the bodies of a contact nor on the images of bodies in a periodic cell.
**C184** The stresses of the single bodies average to the stress of the assembly.
-/
namespace Verif.Meas
open Verif Verif.Mech Matrix

/-! ### Specification -/

/-- position of body `i` -/
def place (s : MScene) (i : Nat) : V3 := match s.bodies[i]? with | some (some b) => b.pos | _ => 0

/-- by how much the second body of a contact is displaced to be where it touches the first -/
def jump (s : MScene) (I : MIntr) : V3 := if s.periodic then s.cell.hSize *ᵥ (fun a => (I.cellDist a : ℝ)) else 0

/-- the bodies of a contact exist, and are not nodes of a grid -/
structure Sound (s : MScene) (I : MIntr) : Prop where
  one : ∃ b, s.bodies[I.id1]? = some (some b) ∧ b.shape ≠ .gridNode
  two : ∃ b, s.bodies[I.id2]? = some (some b) ∧ b.shape ≠ .gridNode

/-- the force a contact exerts on its second body -/
def pull (I : MIntr) : V3 := I.normalForce + I.shearForce

/-- what one contact exerts on body `k` -/
def forceOn (k : Nat) (I : MIntr) : V3 := (if I.id1 = k then -pull I else 0) + (if I.id2 = k then pull I else 0)

/-- moment of one contact on body `k` about the centre of the body -/
def momentOn (s : MScene) (k : Nat) (I : MIntr) : V3 :=
  (if I.id1 = k then cross (I.contactPoint - place s I.id1) (-pull I) else 0) +
  (if I.id2 = k then cross (I.contactPoint - (place s I.id2 + jump s I)) (pull I) else 0)

/-- the contacts of a scene -/
def contacts (s : MScene) : List MIntr := s.intrs.filter fun I => I.real

/-- total contact force on body `k` -/
def contactForce (s : MScene) (k : Nat) : V3 := ((contacts s).map (forceOn k)).sum

/-- total moment of the contacts on body `k` -/
def contactMoment (s : MScene) (k : Nat) : V3 := ((contacts s).map (momentOn s k)).sum

/-- all contacts have their bodies -/
def AllSound (s : MScene) : Prop := ∀ I ∈ s.intrs, I.real = true → Sound s I

/-! ### C183 -/

theorem Sound.lt1 {s : MScene} {I : MIntr} (h : Sound s I) : I.id1 < s.bodies.length := by
  obtain ⟨b, hb, -⟩ := h.one
  exact (List.getElem?_eq_some_iff.mp hb).1

theorem Sound.lt2 {s : MScene} {I : MIntr} (h : Sound s I) : I.id2 < s.bodies.length := by
  obtain ⟨b, hb, -⟩ := h.two
  exact (List.getElem?_eq_some_iff.mp hb).1

theorem stressStep_ok {s : MScene} {I : MIntr} (h : I.real = true → Sound s I) (m : M3) :
    stressStep s m I = .ok (m + if I.real = true then vecMulVec (pull I) (place s I.id1 - place s I.id2 - jump s I) else 0) := by
  by_cases hr : I.real = true
  · obtain ⟨b1, h1, g1⟩ := (h hr).one
    obtain ⟨b2, h2, -⟩ := (h hr).two
    have g : isGrid b1 = false := by unfold isGrid; split <;> simp_all
    rw [stressStep, if_neg (by rw [hr]; decide), body_ok h1, Res.bind_ok, if_neg (by rw [g]; decide), body_ok h2, Res.bind_ok,
      if_pos hr]
    simp [place, h1, h2, pull, branch, jump, shift]
  · rw [stressStep, if_pos (by simpa using hr), if_neg hr, add_zero]

/-- the sum that `getStress` divides by the volume -/
def stressSum (s : MScene) : M3 :=
  ((contacts s).map fun I => vecMulVec (pull I) (place s I.id1 - place s I.id2 - jump s I)).sum

theorem getStress_eq {s : MScene} (h : AllSound s) {V : ℝ} (hV : V ≠ 0) :
    getStress s V = .ok (some (V⁻¹ • stressSum s)) := by
  rw [getStress, if_neg hV, Res.bind_ok, foldR_sum _ _ _ (fun I hI m => stressStep_ok (h I hI) m) 0, Res.bind_ok, zero_add, over,
    if_neg hV, stressSum, contacts, sum_filter_map]

theorem sum_single (n : Nat) (p : Nat → V3) (i : Nat) (hi : i < n) (f : V3) :
    ∑ k ∈ Finset.range n, vecMulVec (if i = k then f else 0) (p k) = vecMulVec f (p i) := by
  rw [Finset.sum_eq_single i]
  · simp
  · intro b _ hb; rw [if_neg (Ne.symm hb)]; simp
  · intro hn; exact absurd (Finset.mem_range.mpr hi) hn

theorem sum_single_vec (n : Nat) (i : Nat) (hi : i < n) (f : V3) :
    ∑ k ∈ Finset.range n, (if i = k then f else 0) = f := by
  rw [Finset.sum_ite_eq, if_pos (Finset.mem_range.mpr hi)]

theorem sum_forces (s : MScene) (l : List MIntr) (h : ∀ I ∈ l, Sound s I) :
    ∑ k ∈ Finset.range s.bodies.length, vecMulVec ((l.map (forceOn k)).sum) (place s k) =
      -(l.map fun I => vecMulVec (pull I) (place s I.id1 - place s I.id2)).sum := by
  induction l with
  | nil => simp
  | cons I l ih =>
    have hI := h I (by simp)
    simp only [List.map_cons, List.sum_cons, add_vecMulVec, Finset.sum_add_distrib]
    rw [ih fun J hJ => h J (by simp [hJ])]
    simp only [forceOn, add_vecMulVec, Finset.sum_add_distrib]
    rw [sum_single _ _ _ hI.lt1, sum_single _ _ _ hI.lt2, neg_add, neg_vecMulVec, vecMulVec_sub]
    abel

/-- **C183 (mean stress).** Without periodic cell, if each body is balanced by an external force, then `getStress` times the
volume is the sum of the external forces times the positions where they act: what is put into the assembly from outside. -/
theorem C183_external (s : MScene) (h : AllSound s) (hp : s.periodic = false) (V : ℝ) (hV : V ≠ 0) (E : Nat → V3)
    (hE : ∀ k < s.bodies.length, contactForce s k + E k = 0) :
    ∃ σ, getStress s V = .ok (some σ) ∧ V • σ = ∑ k ∈ Finset.range s.bodies.length, vecMulVec (E k) (place s k) := by
  refine ⟨_, getStress_eq h hV, ?_⟩
  rw [smul_smul, mul_inv_cancel₀ hV, one_smul]
  have hs : ∀ I ∈ contacts s, Sound s I := by
    intro I hI
    have hI := List.mem_filter.mp hI
    exact h I hI.1 (by simpa using hI.2)
  have e := sum_forces s (contacts s) hs
  have e2 : ∑ k ∈ Finset.range s.bodies.length, vecMulVec (E k) (place s k) =
      -∑ k ∈ Finset.range s.bodies.length, vecMulVec ((contacts s).map (forceOn k)).sum (place s k) := by
    rw [← Finset.sum_neg_distrib]
    refine Finset.sum_congr rfl fun k hk => ?_
    rw [← neg_vecMulVec]
    congr 1
    exact (neg_eq_of_add_eq_zero_right (hE k (Finset.mem_range.mp hk))).symm
  rw [e2, e, neg_neg, stressSum]
  simp only [jump, hp, Bool.false_eq_true, if_false, sub_zero]

theorem sum_moments (s : MScene) (l : List MIntr) (h : ∀ I ∈ l, Sound s I) :
    ∑ k ∈ Finset.range s.bodies.length, (l.map (momentOn s k)).sum =
      (l.map fun I => cross (place s I.id1 - place s I.id2 - jump s I) (pull I)).sum := by
  induction l with
  | nil => simp
  | cons I l ih =>
    have hI := h I (by simp)
    simp only [List.map_cons, List.sum_cons, Finset.sum_add_distrib]
    rw [ih fun J hJ => h J (by simp [hJ])]
    simp only [momentOn, Finset.sum_add_distrib]
    rw [sum_single_vec _ _ hI.lt1, sum_single_vec _ _ hI.lt2]
    congr 1
    apply v3_ext <;> simp <;> ring

theorem sum_vec_entry {α : Type} (f : α → V3) (l : List α) (i : Fin 3) : (l.map f).sum i = (l.map fun a => f a i).sum := by
  induction l with
  | nil => simp
  | cons a l ih => simp [ih]

theorem sum_map_sub' {α : Type} (f g : α → ℝ) (l : List α) :
    (l.map fun a => f a - g a).sum = (l.map f).sum - (l.map g).sum := by
  induction l with
  | nil => simp
  | cons a l ih => simp only [List.map_cons, List.sum_cons, ih]; ring

/-- the skew part of `Σ f ⊗ b` is `Σ b × f` -/
theorem symmetric_of_cross {α : Type} (f b : α → V3) (l : List α) (h : (l.map fun a => cross (b a) (f a)).sum = 0) :
    ((l.map fun a => vecMulVec (f a) (b a)).sum).transpose = (l.map fun a => vecMulVec (f a) (b a)).sum := by
  have c (i : Fin 3) := congrFun h i
  have c0 := c 0
  have c1 := c 1
  have c2 := c 2
  rw [sum_vec_entry] at c0 c1 c2
  simp only [cross_zero', cross_one', cross_two', sum_map_sub', Pi.zero_apply] at c0 c1 c2
  apply skew_eq_zero
  · rw [sum_entry, sum_entry]; simp only [vecMulVec_entry]
    have e1 : (l.map fun a => b a 1 * f a 2) = l.map fun a => f a 2 * b a 1 := by simp only [mul_comm]
    have e2 : (l.map fun a => b a 2 * f a 1) = l.map fun a => f a 1 * b a 2 := by simp only [mul_comm]
    rw [e1, e2] at c0; linarith
  · rw [sum_entry, sum_entry]; simp only [vecMulVec_entry]
    have e1 : (l.map fun a => b a 2 * f a 0) = l.map fun a => f a 0 * b a 2 := by simp only [mul_comm]
    have e2 : (l.map fun a => b a 0 * f a 2) = l.map fun a => f a 2 * b a 0 := by simp only [mul_comm]
    rw [e1, e2] at c1; linarith
  · rw [sum_entry, sum_entry]; simp only [vecMulVec_entry]
    have e1 : (l.map fun a => b a 0 * f a 1) = l.map fun a => f a 1 * b a 0 := by simp only [mul_comm]
    have e2 : (l.map fun a => b a 1 * f a 0) = l.map fun a => f a 0 * b a 1 := by simp only [mul_comm]
    rw [e1, e2] at c2; linarith

/-- **C183 (symmetry).** If the moments of the contacts on each body cancel, the stress is symmetric, in a periodic cell or not. -/
theorem C183_symmetric (s : MScene) (h : AllSound s) (V : ℝ) (hV : V ≠ 0)
    (hM : ∀ k < s.bodies.length, contactMoment s k = 0) :
    ∃ σ, getStress s V = .ok (some σ) ∧ σ.transpose = σ := by
  refine ⟨_, getStress_eq h hV, ?_⟩
  have hs : ∀ I ∈ contacts s, Sound s I := by
    intro I hI
    have hI := List.mem_filter.mp hI
    exact h I hI.1 (by simpa using hI.2)
  have e := sum_moments s (contacts s) hs
  have z : ∑ k ∈ Finset.range s.bodies.length, ((contacts s).map (momentOn s k)).sum = 0 :=
    Finset.sum_eq_zero fun k hk => hM k (Finset.mem_range.mp hk)
  rw [z] at e
  rw [Matrix.transpose_smul, stressSum, symmetric_of_cross _ _ _ e.symm]

/-- a contact seen from its other body -/
def turned (I : MIntr) : MIntr :=
  { I with id1 := I.id2, id2 := I.id1, normalForce := -I.normalForce, shearForce := -I.shearForce, normal := -I.normal, cellDist := -I.cellDist, refR1 := I.refR2, refR2 := I.refR1 }

theorem jump_turned (s : MScene) (I : MIntr) : jump s (turned I) = -jump s I := by
  unfold jump
  by_cases hp : s.periodic = true
  · rw [if_pos hp, if_pos hp]
    have : (fun a => ((turned I).cellDist a : ℝ)) = -fun a => (I.cellDist a : ℝ) := by
      funext a; simp [turned]
    rw [this, mulVec_neg]
  · rw [if_neg hp, if_neg hp, neg_zero]

/-- **C183 (order of bodies).** Which body of a contact comes first does not matter. -/
theorem C183_turned (s : MScene) (h : AllSound s) (p : MIntr → Bool) (V : ℝ) (hV : V ≠ 0) :
    getStress { s with intrs := s.intrs.map fun I => if p I then turned I else I } V = getStress s V := by
  have h' : AllSound { s with intrs := s.intrs.map fun I => if p I then turned I else I } := by
    intro I hI hr
    obtain ⟨J, hJ, rfl⟩ := List.mem_map.mp hI
    by_cases hp : p J = true
    · rw [if_pos hp] at hr ⊢; exact ⟨(h J hJ hr).two, (h J hJ hr).one⟩
    · rw [if_neg hp] at hr ⊢; exact ⟨(h J hJ hr).one, (h J hJ hr).two⟩
  rw [getStress_eq h hV, getStress_eq h' hV]
  congr 3
  unfold stressSum contacts
  rw [sum_filter_map, sum_filter_map, List.map_map]
  congr 1
  refine List.map_congr_left fun I _ => ?_
  simp only [Function.comp]
  by_cases hp : p I = true
  · rw [if_pos hp]
    have e1 : (turned I).real = I.real := rfl
    rw [e1]
    congr 1
    have e2 : pull (turned I) = -pull I := by simp [pull, turned]; abel
    show vecMulVec (pull (turned I)) (place s I.id2 - place s I.id1 - jump s (turned I)) = _
    rw [e2, jump_turned]
    ext i j
    simp only [vecMulVec_entry, Pi.neg_apply, Pi.sub_apply]
    ring
  · rw [if_neg hp]; rfl

/-- body `k` is replaced by its image shifted by `z` periods, and the period shifts of its contacts follow -/
def reimage (s : MScene) (k : Nat) (z : Fin 3 → ℤ) : MScene :=
  { s with
    bodies := s.bodies.modify k (Option.map fun b => { b with pos := b.pos + s.cell.hSize *ᵥ fun a => (z a : ℝ) })
    intrs := s.intrs.map fun I => { I with cellDist := I.cellDist + (if I.id1 = k then z else 0) - (if I.id2 = k then z else 0) } }

theorem reimage_look (s : MScene) (k : Nat) (z : Fin 3 → ℤ) (i : Nat) (b : MBody) (h : s.bodies[i]? = some (some b)) :
    (reimage s k z).bodies[i]? =
      some (some { b with pos := b.pos + if i = k then s.cell.hSize *ᵥ (fun a => (z a : ℝ)) else 0 }) := by
  simp only [reimage, List.getElem?_modify, h]
  by_cases hk : k = i
  · subst hk; simp
  · have : ¬ i = k := fun e => hk e.symm
    simp [hk, this]

/-- **C183 (images).** In a periodic cell the stress does not depend on which image of a body is kept. -/
theorem C183_images (s : MScene) (h : AllSound s) (hp : s.periodic = true) (k : Nat) (z : Fin 3 → ℤ) (V : ℝ) (hV : V ≠ 0) :
    getStress (reimage s k z) V = getStress s V := by
  have h' : AllSound (reimage s k z) := by
    intro I hI hr
    obtain ⟨J, hJ, rfl⟩ := List.mem_map.mp hI
    obtain ⟨b1, e1, g1⟩ := (h J hJ hr).one
    obtain ⟨b2, e2, g2⟩ := (h J hJ hr).two
    exact ⟨⟨_, reimage_look s k z _ b1 e1, g1⟩, ⟨_, reimage_look s k z _ b2 e2, g2⟩⟩
  rw [getStress_eq h hV, getStress_eq h' hV]
  congr 3
  unfold stressSum contacts
  rw [sum_filter_map, sum_filter_map]
  show (List.map _ (s.intrs.map _)).sum = _
  rw [List.map_map]
  congr 1
  refine List.map_congr_left fun I hI => ?_
  simp only [Function.comp]
  by_cases hr : I.real = true
  · rw [if_pos hr, if_pos hr]
    obtain ⟨b1, e1, -⟩ := (h I hI hr).one
    obtain ⟨b2, e2, -⟩ := (h I hI hr).two
    congr 1
    have p1 : place (reimage s k z) I.id1 = place s I.id1 + if I.id1 = k then s.cell.hSize *ᵥ (fun a => (z a : ℝ)) else 0 := by
      unfold place; rw [reimage_look s k z _ b1 e1, e1]
    have p2 : place (reimage s k z) I.id2 = place s I.id2 + if I.id2 = k then s.cell.hSize *ᵥ (fun a => (z a : ℝ)) else 0 := by
      unfold place; rw [reimage_look s k z _ b2 e2, e2]
    rw [p1, p2]
    unfold jump
    have hp' : (reimage s k z).periodic = true := hp
    rw [if_pos hp, if_pos hp']
    show _ - s.cell.hSize *ᵥ _ = _
    have e : (fun a => (((I.cellDist + (if I.id1 = k then z else 0) - (if I.id2 = k then z else 0)) a : ℤ) : ℝ)) =
        (fun a => (I.cellDist a : ℝ)) + (if I.id1 = k then fun a => (z a : ℝ) else 0) - (if I.id2 = k then fun a => (z a : ℝ) else 0) := by
      funext a
      simp only [Pi.add_apply, Pi.sub_apply, Int.cast_add, Int.cast_sub]
      by_cases h1 : I.id1 = k <;> by_cases h2 : I.id2 = k <;> simp [h1, h2]
    rw [e, mulVec_sub, mulVec_add]
    by_cases h1 : I.id1 = k <;> by_cases h2 : I.id2 = k <;> simp [h1, h2] <;> abel
  · rw [if_neg hr, if_neg hr]

/-- **C183 (volume).** In a periodic cell the volume of the cell is meant if none is given. -/
theorem C183_volume (s : MScene) (hp : s.periodic = true) (hd : s.cell.hSize.det ≠ 0) :
    getStress s 0 = getStress s s.cell.hSize.det := by
  rw [getStress, getStress, if_pos rfl, if_neg hd, defaultVolume, if_pos hp]

/-! ### C184 -/

/-- radius of body `k`, if it is a sphere -/
def sphereR (s : MScene) (k : Nat) : ℝ := match s.bodies[k]? with | some (some ⟨.sphere r, _, _, _, _, _, _, _, _, _, _, _, _⟩) => r | _ => 0

/-- a contact of two spheres which knows their radii -/
structure OfSpheres (s : MScene) (I : MIntr) : Prop where
  one : ∃ b r, s.bodies[I.id1]? = some (some b) ∧ b.shape = .sphere r ∧ 0 < r ∧ I.refR1 = r
  two : ∃ b r, s.bodies[I.id2]? = some (some b) ∧ b.shape = .sphere r ∧ 0 < r ∧ I.refR2 = r

theorem sphereR_eq {s : MScene} {k : Nat} {b : MBody} {r : ℝ} (h : s.bodies[k]? = some (some b)) (hs : b.shape = .sphere r) :
    sphereR s k = r := by
  unfold sphereR
  rw [h]
  cases b
  simp only at hs
  subst hs
  rfl

theorem OfSpheres.sound {s : MScene} {I : MIntr} (h : OfSpheres s I) : Sound s I := by
  obtain ⟨b, r, hb, hs, -⟩ := h.one
  obtain ⟨b', r', hb', hs', -⟩ := h.two
  exact ⟨⟨b, hb, by rw [hs]; simp⟩, ⟨b', hb', by rw [hs']; simp⟩⟩

/-- volume of a ball -/
noncomputable def ballVolume (r : ℝ) : ℝ := 4 / 3 * Real.pi * r ^ 3

theorem perVolume_ball {r : ℝ} (hr : 0 < r) : perVolume r = (ballVolume r)⁻¹ := by
  unfold perVolume ballVolume
  have := Real.pi_pos
  field_simp

theorem ballVolume_pos {r : ℝ} (hr : 0 < r) : 0 < ballVolume r := by
  unfold ballVolume
  have := Real.pi_pos
  positivity

/-- what one contact adds to the stress of body `k` -/
noncomputable def bodyPart (s : MScene) (I : MIntr) (k : Nat) : M3 :=
  (if I.id1 = k then (ballVolume (sphereR s k))⁻¹ • vecMulVec (-pull I) (I.contactPoint - place s I.id1) else 0) +
  (if I.id2 = k then (ballVolume (sphereR s k))⁻¹ • vecMulVec (pull I) (I.contactPoint - (place s I.id2 + jump s I)) else 0)

theorem bodyStressStep_ok {s : MScene} {I : MIntr} (h : I.real = true → OfSpheres s I) (m : Nat → M3) :
    bodyStressStep s m I = .ok (m + if I.real = true then bodyPart s I else 0) := by
  by_cases hr : I.real = true
  · obtain ⟨b1, r1, h1, g1, p1, e1⟩ := (h hr).one
    obtain ⟨b2, r2, h2, g2, p2, e2⟩ := (h hr).two
    have q1 := sphereR_eq h1 g1
    have q2 := sphereR_eq h2 g2
    have l1 : place s I.id1 = b1.pos := by simp [place, h1]
    have l2 : place s I.id2 = b2.pos := by simp [place, h2]
    rw [bodyStressStep, if_neg (by rw [hr]; decide), body_ok h1, Res.bind_ok, body_ok h2, Res.bind_ok, if_pos hr]
    have key : ∀ x : V3, x = b2.pos + jump s I →
        Function.update (Function.update m I.id1 (m I.id1 - perVolume I.refR1 • vecMulVec (I.normalForce + I.shearForce) (I.contactPoint - b1.pos)))
          I.id2 (Function.update m I.id1 (m I.id1 - perVolume I.refR1 • vecMulVec (I.normalForce + I.shearForce) (I.contactPoint - b1.pos)) I.id2
            + perVolume I.refR2 • vecMulVec (I.normalForce + I.shearForce) (I.contactPoint - x)) = m + bodyPart s I := by
      intro x hx
      subst hx
      funext k
      rw [e1, e2, perVolume_ball p1, perVolume_ball p2]
      simp only [Pi.add_apply, bodyPart, l1, l2, ← pull.eq_1]
      by_cases a2 : I.id2 = k
      · subst a2
        rw [Function.update_self, if_pos rfl, q2]
        by_cases a1 : I.id1 = I.id2
        · have : r1 = r2 := by rw [← q1, ← q2, a1]
          subst this
          rw [a1, Function.update_self, if_pos rfl, neg_vecMulVec, smul_neg]; abel
        · rw [Function.update_of_ne (Ne.symm a1), if_neg a1, zero_add]
      · rw [Function.update_of_ne (Ne.symm a2), if_neg a2]
        by_cases a1 : I.id1 = k
        · subst a1; rw [Function.update_self, if_pos rfl, q1, neg_vecMulVec, smul_neg]; abel
        · rw [Function.update_of_ne (Ne.symm a1), if_neg a1]; simp
    by_cases hp : s.periodic = false
    · rw [if_pos hp]
      have : b2.pos = b2.pos + jump s I := by simp [jump, hp]
      exact congrArg Res.ok (key _ this)
    · rw [if_neg hp]
      have : b2.pos + shift s I = b2.pos + jump s I := by simp [jump, shift, hp]
      exact congrArg Res.ok (key _ this)
  · rw [bodyStressStep, if_pos (by simpa using hr), if_neg hr, add_zero]

theorem bodyStresses_eq {s : MScene} (h : ∀ I ∈ s.intrs, I.real = true → OfSpheres s I) :
    bodyStresses s = .ok (((contacts s).map (bodyPart s)).sum) := by
  rw [bodyStresses, foldR_sum _ _ _ (fun I hI m => bodyStressStep_ok (h I hI) m), contacts, sum_filter_map]
  have : (fun _ => 0 : Nat → M3) = 0 := rfl
  rw [this, zero_add]

theorem sum_fun_entry (f : MIntr → Nat → M3) (l : List MIntr) (k : Nat) : (l.map f).sum k = (l.map fun a => f a k).sum := by
  induction l with
  | nil => simp
  | cons a l ih => simp [ih]

theorem sum_single_mat (n : Nat) (i : Nat) (hi : i < n) (c : Nat → ℝ) (hc : c i ≠ 0) (m : M3) :
    ∑ k ∈ Finset.range n, c k • (if i = k then (c k)⁻¹ • m else 0) = m := by
  rw [Finset.sum_eq_single i]
  · rw [if_pos rfl, smul_smul, mul_inv_cancel₀ hc, one_smul]
  · intro b _ hb; rw [if_neg (Ne.symm hb), smul_zero]
  · intro hn; exact absurd (Finset.mem_range.mpr hi) hn

theorem sum_parts (s : MScene) (l : List MIntr) (h : ∀ I ∈ l, OfSpheres s I) :
    ∑ k ∈ Finset.range s.bodies.length, ballVolume (sphereR s k) • (l.map fun I => bodyPart s I k).sum =
      (l.map fun I => vecMulVec (pull I) (place s I.id1 - place s I.id2 - jump s I)).sum := by
  induction l with
  | nil => simp
  | cons I l ih =>
    have hI := h I (by simp)
    obtain ⟨b1, r1, h1, g1, p1, -⟩ := hI.one
    obtain ⟨b2, r2, h2, g2, p2, -⟩ := hI.two
    have n1 : ballVolume (sphereR s I.id1) ≠ 0 := by rw [sphereR_eq h1 g1]; exact (ballVolume_pos p1).ne'
    have n2 : ballVolume (sphereR s I.id2) ≠ 0 := by rw [sphereR_eq h2 g2]; exact (ballVolume_pos p2).ne'
    simp only [List.map_cons, List.sum_cons, smul_add, Finset.sum_add_distrib]
    rw [ih fun J hJ => h J (by simp [hJ])]
    congr 1
    simp only [bodyPart, smul_add, Finset.sum_add_distrib]
    rw [sum_single_mat _ _ hI.sound.lt1 (fun k => ballVolume (sphereR s k)) n1,
      sum_single_mat _ _ hI.sound.lt2 (fun k => ballVolume (sphereR s k)) n2]
    ext i j
    simp only [Matrix.add_apply, vecMulVec_entry, Pi.neg_apply, Pi.sub_apply, Pi.add_apply]
    ring

/-- **C184 (average).** The stresses of the single spheres, weighted by their volumes, add up to the stress of the assembly
times its volume. -/
theorem C184_average (s : MScene) (h : ∀ I ∈ s.intrs, I.real = true → OfSpheres s I) (V : ℝ) (hV : V ≠ 0) :
    ∃ t σ, bodyStresses s = .ok t ∧ getStress s V = .ok (some σ) ∧
      ∑ k ∈ Finset.range s.bodies.length, ballVolume (sphereR s k) • t k = V • σ := by
  refine ⟨_, _, bodyStresses_eq h, getStress_eq (fun I hI hr => (h I hI hr).sound) hV, ?_⟩
  rw [smul_smul, mul_inv_cancel₀ hV, one_smul]
  simp only [sum_fun_entry]
  refine sum_parts s (contacts s) fun I hI => ?_
  have hI := List.mem_filter.mp hI
  exact h I hI.1 (by simpa using hI.2)

theorem sum_append_pairs (f : MIntr → List (V3 × V3)) (l : List MIntr) (g : V3 × V3 → M3) (F : MIntr → M3)
    (h : ∀ I, ((f I).map g).sum = F I) : ((l.flatMap f).map g).sum = (l.map F).sum := by
  induction l with
  | nil => simp
  | cons a l ih => simp [List.flatMap_cons, ih, h]

theorem sum_append_pairs' (f : MIntr → List (V3 × V3)) (l : List MIntr) (g : V3 × V3 → V3) (F : MIntr → V3)
    (h : ∀ I, ((f I).map g).sum = F I) : ((l.flatMap f).map g).sum = (l.map F).sum := by
  induction l with
  | nil => simp
  | cons a l ih => simp [List.flatMap_cons, ih, h]

/-- forces on body `k` and where they act with respect to its centre -/
def loads (s : MScene) (k : Nat) (I : MIntr) : List (V3 × V3) :=
  (if I.id1 = k then [(-pull I, I.contactPoint - place s I.id1)] else []) ++
  (if I.id2 = k then [(pull I, I.contactPoint - (place s I.id2 + jump s I))] else [])

/-- **C184 (symmetry).** The stress of a sphere is symmetric if the moments of its contacts cancel. -/
theorem C184_symmetric (s : MScene) (h : ∀ I ∈ s.intrs, I.real = true → OfSpheres s I) (k : Nat)
    (hM : contactMoment s k = 0) : ∃ t, bodyStresses s = .ok t ∧ (t k).transpose = t k := by
  refine ⟨_, bodyStresses_eq h, ?_⟩
  rw [sum_fun_entry]
  have e : (contacts s).map (fun I => bodyPart s I k) = (contacts s).map fun I =>
      (ballVolume (sphereR s k))⁻¹ • ((loads s k I).map fun x => vecMulVec x.1 x.2).sum := by
    refine List.map_congr_left fun I _ => ?_
    unfold bodyPart loads
    by_cases a1 : I.id1 = k <;> by_cases a2 : I.id2 = k <;> simp [a1, a2, smul_add]
  rw [e, sum_map_smul', Matrix.transpose_smul,
    ← sum_append_pairs (loads s k) (contacts s) (fun x => vecMulVec x.1 x.2) _ (fun I => rfl)]
  congr 1
  apply symmetric_of_cross
  rw [sum_append_pairs' (loads s k) (contacts s) (fun x => cross x.2 x.1) (momentOn s k)]
  · exact hM
  · intro I
    unfold loads momentOn
    by_cases a1 : I.id1 = k <;> by_cases a2 : I.id2 = k <;> simp [a1, a2]

/-! ### Cases -/

/-- a sphere at rest -/
noncomputable def ball (p : V3) (r : ℝ) : MBody :=
  { shape := .sphere r, pos := p, vel := 0, angVel := 0, angMom := 0, mass := 1, inertia := ![1, 1, 1], ori := Quat.one,
    dynamic := true, aspherical := false, clumpId := none, mask := 1, mat := 0 }

/-- a cubic cell -/
noncomputable def unitCell : Peri.Cell := { Peri.raw with hSize := !![4, 0, 0; 0, 4, 0; 0, 0, 4] }

/-- two spheres pressed against each other along x, with a gap of nothing -/
def pressed : MIntr :=
  { id1 := 0, id2 := 2, real := true, normalForce := ![5, 0, 0], shearForce := 0, normal := ![1, 0, 0], contactPoint := ![1, 0, 0],
    refR1 := 1, refR2 := 1, cellDist := 0, kn := 1, ks := 1, tanPhi := 0 }

/-- two spheres in contact, a place without body between them and an interaction that is not real -/
noncomputable def pair : MScene :=
  { bodies := [some (ball 0 1), none, some (ball ![2, 0, 0] 1)],
    intrs := [pressed, { pressed with real := false, id1 := 1, id2 := 7 }],
    periodic := false, cell := unitCell, dt := 1, gravity := 0, force := fun _ => 0, friction := [0] }

theorem pair_spheres : ∀ I ∈ pair.intrs, I.real = true → OfSpheres pair I := by
  intro I hI hr
  simp only [pair, List.mem_cons, List.not_mem_nil, or_false] at hI
  rcases hI with rfl | rfl
  · exact ⟨⟨_, 1, rfl, rfl, by norm_num, rfl⟩, ⟨_, 1, rfl, rfl, by norm_num, rfl⟩⟩
  · cases hr

theorem pair_sound : AllSound pair := fun I hI hr => (pair_spheres I hI hr).sound

/-- the external forces which hold the two spheres together -/
def holding : Nat → V3 := fun k => if k = 0 then ![5, 0, 0] else if k = 2 then ![-5, 0, 0] else 0

theorem pair_contacts : contacts pair = [pressed] := rfl

example : ∀ k < pair.bodies.length, contactForce pair k + holding k = 0 := by
  intro k hk
  have : k = 0 ∨ k = 1 ∨ k = 2 := by simp [pair] at hk; omega
  rcases this with rfl | rfl | rfl <;> rw [contactForce, pair_contacts] <;>
    simp [forceOn, pressed, pull, holding]

example : ∀ k < pair.bodies.length, contactMoment pair k = 0 := by
  intro k hk
  have : k = 0 ∨ k = 1 ∨ k = 2 := by simp [pair] at hk; omega
  rcases this with rfl | rfl | rfl <;> rw [contactMoment, pair_contacts] <;> apply v3_ext <;>
    simp [momentOn, pressed, pull, place, pair, ball, jump, cross]

/-- the stress found is a pressure of 10 over the volume along x -/
example : getStress pair 10 = .ok (some (!![-1, 0, 0; 0, 0, 0; 0, 0, 0])) := by
  rw [getStress_eq pair_sound (by norm_num), stressSum, pair_contacts]
  congr 2
  ext i j
  fin_cases i <;> fin_cases j <;> simp [pressed, pull, place, pair, ball, jump, vecMulVec_entry] <;> norm_num

end Verif.Meas
