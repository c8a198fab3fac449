import Verif.Meas.StressProps
import Mathlib.Tactic.NormNum

/-!
# C182: flipping the periodic cell

"All cells generating an identical grid are equivalent and can be flipped one over another": flipping must keep the grid of
periodic images and, for every interaction, where the second body is with respect to the first.
-/
namespace Verif.Meas
open Verif Verif.Mech Matrix

/-! ### Specification -/

/-- the grid of points generated by the columns of a matrix -/
def grid (h : M3) : Set V3 := { x | ∃ z : Fin 3 → ℤ, x = h *ᵥ fun a => (z a : ℝ) }

/-- what a flip must keep: the grid, the volume, the bodies, the number of interactions, and for each of them everything but the
period shift, and the displacement of the second body it stands for -/
structure KeepsGrid (s s' : MScene) : Prop where
  grid_eq : grid s'.cell.hSize = grid s.cell.hSize
  volume_eq : s'.cell.hSize.det = s.cell.hSize.det
  bodies_eq : s'.bodies = s.bodies
  contacts_eq : List.Forall₂ (fun I J => { J with cellDist := I.cellDist } = I ∧
    s'.cell.hSize *ᵥ (fun a => (J.cellDist a : ℝ)) = s.cell.hSize *ᵥ (fun a => (I.cellDist a : ℝ))) s.intrs s'.intrs

/-- a cell a simulation can be run with -/
def Proper (s : MScene) : Prop := s.cell.hSize.det ≠ 0

/-- a matrix of integers which has `det(Id+flip)=1`, as the message of the code asks for, and nothing on the diagonal -/
structure FlipOk (g : M3) (f : M3i) : Prop where
  entries : g = f.map fun z => (z : ℝ)
  diag : ∀ i, f i i = 0
  det_one : (1 + f).det = 1
  nonzero : f ≠ 0

/-! ### Proof -/

theorem truncInt_int (z : ℤ) : truncInt (z : ℝ) = z := by
  unfold truncInt; split <;> simp

theorem truncInt_map (f : M3i) : (f.map fun z => (z : ℝ)).map truncInt = f := by
  ext i j; simp [truncInt_int]

theorem invFlip_mul (f : M3i) (hd : ∀ i, f i i = 0) (h1 : (1 + f).det = 1) : (1 + f) * invFlip f = 1 := by
  have d0 := hd 0
  have d1 := hd 1
  have d2 := hd 2
  rw [det_fin_three] at h1
  simp only [Matrix.add_apply, Matrix.one_apply_eq, Matrix.one_apply_ne (show (0 : Fin 3) ≠ 1 by decide),
    Matrix.one_apply_ne (show (0 : Fin 3) ≠ 2 by decide), Matrix.one_apply_ne (show (1 : Fin 3) ≠ 0 by decide),
    Matrix.one_apply_ne (show (1 : Fin 3) ≠ 2 by decide), Matrix.one_apply_ne (show (2 : Fin 3) ≠ 0 by decide),
    Matrix.one_apply_ne (show (2 : Fin 3) ≠ 1 by decide), d0, d1, d2, zero_add, add_zero] at h1
  ext i j
  fin_cases i <;> fin_cases j <;>
    simp [Matrix.mul_apply, Fin.sum_univ_three, invFlip, Matrix.one_apply, d0, d1, d2] <;> linarith

theorem toReal_mulVec (m : M3i) (z : Fin 3 → ℤ) : (fun a => ((m *ᵥ z) a : ℝ)) = toReal m *ᵥ fun a => (z a : ℝ) := by
  funext a
  simp [toReal, mulVec, dotProduct]

theorem toReal_mul (m n : M3i) : toReal (m * n) = toReal m * toReal n := by
  ext i j
  simp [toReal, Matrix.mul_apply]

theorem toReal_one : toReal 1 = 1 := by
  ext i j
  simp only [toReal, Matrix.map_apply, Matrix.one_apply]
  split <;> simp

theorem toReal_add (m n : M3i) : toReal (m + n) = toReal m + toReal n := by
  ext i j; simp [toReal]

theorem toReal_det (m : M3i) : (toReal m).det = (m.det : ℝ) := by
  rw [det_fin_three, det_fin_three]; simp [toReal]

theorem toReal_lit (a b c d e f g h i : ℤ) : toReal !![a, b, c; d, e, f; g, h, i] =
    !![(a : ℝ), b, c; d, e, f; g, h, i] := by
  ext k l; fin_cases k <;> fin_cases l <;> rfl

/-- **C182 for any flip that fits**, given or found: the scene keeps its grid. -/
theorem flip_keeps (s : MScene) (hs : Proper s) (given : M3) (f : M3i) (hc : chosenFlip s.cell.hSize given = some f)
    (hd : ∀ i, f i i = 0) (h1 : (1 + f).det = 1) :
    ∃ s', flipCell s given = .ok (toReal f, s') ∧ s'.cell.hSize = s.cell.hSize * toReal (1 + f) ∧ KeepsGrid s s' := by
  have hH : s.cell.hSize + s.cell.hSize * toReal f = s.cell.hSize * toReal (1 + f) := by
    rw [toReal_add, toReal_one, mul_add, mul_one]
  have hdet : (s.cell.hSize * toReal (1 + f)).det = s.cell.hSize.det := by
    rw [det_mul, toReal_det, h1]; simp
  have hinv := invFlip_mul f hd h1
  have hinvR : toReal (1 + f) * toReal (invFlip f) = 1 := by rw [← toReal_mul, hinv, toReal_one]
  have hpl : ∃ c, Peri.postLoad { s.cell with hSize := s.cell.hSize + s.cell.hSize * toReal f } = .ok c ∧
      c.hSize = s.cell.hSize * toReal (1 + f) := by
    rw [Peri.postLoad, Peri.integrate]
    simp only [zero_smul, zero_mul, add_zero]
    rw [hH, if_neg (by rw [hdet]; exact hs)]
    exact ⟨_, rfl, rfl⟩
  obtain ⟨c, hc1, hc2⟩ := hpl
  refine ⟨{ s with cell := c, intrs := s.intrs.map (flipIntr f) }, ?_, hc2, ?_, ?_, rfl, ?_⟩
  · rw [flipCell, hc]; simp only; rw [hc1, Res.bind_ok]
  · show grid c.hSize = _
    rw [hc2]
    ext x
    constructor
    · rintro ⟨z, rfl⟩
      refine ⟨(1 + f) *ᵥ z, ?_⟩
      rw [toReal_mulVec, mulVec_mulVec]
    · rintro ⟨z, rfl⟩
      refine ⟨invFlip f *ᵥ z, ?_⟩
      rw [toReal_mulVec, mulVec_mulVec, mul_assoc, hinvR, mul_one]
  · show c.hSize.det = _; rw [hc2, hdet]
  · show List.Forall₂ _ s.intrs (s.intrs.map (flipIntr f))
    rw [List.forall₂_map_right_iff, List.forall₂_same]
    intro I _
    refine ⟨rfl, ?_⟩
    show c.hSize *ᵥ (fun a => ((invFlip f *ᵥ I.cellDist) a : ℝ)) = _
    rw [hc2, toReal_mulVec, mulVec_mulVec, mul_assoc, hinvR, mul_one]

/-- **C182 (part).** A given flip with `det(Id+flip)=1` and nothing on the diagonal keeps grid, volume and contacts; the flip is
returned. -/
theorem C182_given_partial (s : MScene) (hs : Proper s) (g : M3) (f : M3i) (h : FlipOk g f) :
    ∃ s', flipCell s g = .ok (g, s') ∧ KeepsGrid s s' := by
  have hg : g ≠ 0 := by
    intro e
    apply h.nonzero
    ext i j
    have := congrFun (congrFun (h.entries.symm.trans e) i) j
    simpa using this
  have hc : chosenFlip s.cell.hSize g = some f := by
    unfold chosenFlip
    rw [if_neg hg, h.entries, truncInt_map]
  obtain ⟨s', e1, -, e2⟩ := flip_keeps s hs g f hc h.diag h.det_one
  refine ⟨s', ?_, e2⟩
  rw [e1, h.entries]; rfl

/-- all angles between the vectors of the cell are at most right angles, and the projections of each vector on the others shorter
than these: there is nothing to flip -/
def Reduced (h : M3) : Prop :=
  ∀ i j, i ≠ j → 0 ≤ dot (Peri.col h i) (Peri.col h j) ∧ dot (Peri.col h j) (Peri.col h i) < dot (Peri.col h i) (Peri.col h i)

theorem col_dot_pos {h : M3} (hd : h.det ≠ 0) (i : Fin 3) : 0 < dot (Peri.col h i) (Peri.col h i) := by
  have h0 := sqNorm_nonneg (Peri.col h i)
  rcases lt_or_eq_of_le h0 with h | e
  · exact h
  · exfalso
    apply hd
    have z := sqNorm_eq_zero.mp e.symm
    apply det_eq_zero_of_column_eq_zero i
    intro a
    exact congrFun z a

/-- **C182 (part).** The automatic flip leaves a cell alone which has nothing to flip. -/
theorem C182_nothing_partial (s : MScene) (hs : Proper s) (hr : Reduced s.cell.hSize) : flipCell s 0 = .ok (0, s) := by
  have : autoFlip s.cell.hSize = 0 := by
    ext i j
    rw [autoFlip, Matrix.of_apply]
    by_cases hij : i = j
    · rw [if_pos hij]; rfl
    · rw [if_neg hij]
      obtain ⟨a, b⟩ := hr i j hij
      rw [dot_comm] at a
      have p := col_dot_pos hs i
      rw [Int.floor_eq_zero_iff.mpr ⟨div_nonneg a p.le, by rw [div_lt_one p]; exact b⟩]
      rfl
  rw [flipCell, chosenFlip, if_pos rfl, if_pos this]

/-- **C182 (part).** The automatic flip keeps grid, volume and contacts if `det(Id+flip)` happens to be 1, for instance if no two
vectors both have to be changed by the other. -/
theorem C182_auto_partial (s : MScene) (hs : Proper s) (h1 : (1 + autoFlip s.cell.hSize).det = 1) :
    ∃ g s', flipCell s 0 = .ok (g, s') ∧ KeepsGrid s s' := by
  by_cases hz : autoFlip s.cell.hSize = 0
  · refine ⟨0, s, by rw [flipCell, chosenFlip, if_pos rfl, if_pos hz], rfl, rfl, rfl, ?_⟩
    exact List.forall₂_same.mpr fun I _ => ⟨rfl, rfl⟩
  · obtain ⟨s', e1, -, e2⟩ := flip_keeps s hs 0 (autoFlip s.cell.hSize) (by rw [chosenFlip, if_pos rfl, if_neg hz])
      (fun i => by simp [autoFlip]) h1
    exact ⟨_, s', e1, e2⟩

/-! ### Cases and violations -/

/-- a periodic scene with a contact across the boundary -/
noncomputable def sheared (h : M3) : MScene :=
  { pair with periodic := true, cell := { unitCell with hSize := h }, intrs := [{ pressed with cellDist := ![0, 1, 0] }] }

/-- a cell sheared by more than its length -/
noncomputable def farH : M3 := !![1, 3 / 2, 0; 0, 1, 0; 0, 0, 1]

theorem farH_auto : autoFlip farH = !![0, -1, 0; 0, 0, 0; 0, 0, 0] := by
  ext i j
  fin_cases i <;> fin_cases j <;> simp [autoFlip, farH, Peri.col, dot]
  · rw [show (3 / 2 : ℝ) = (1 : ℤ) + 1 / 2 by norm_num, Int.floor_intCast_add, Int.floor_eq_zero_iff.mpr (by norm_num)]; norm_num
  · norm_num

/-- it is flipped automatically, and the contact across the boundary follows -/
example : ∃ g s', flipCell (sheared farH) 0 = .ok (g, s') ∧ KeepsGrid (sheared farH) s' := by
  refine C182_auto_partial _ ?_ ?_
  · show farH.det ≠ 0
    simp [det_fin_three, farH]
  · show (1 + autoFlip farH).det = 1
    rw [farH_auto, det_fin_three]
    simp [Matrix.one_apply]

/-- given flips that fit -/
example : FlipOk (!![0, 2, -1; 0, 0, 3; 0, 0, 0]) !![0, 2, -1; 0, 0, 3; 0, 0, 0] :=
  ⟨by ext i j; fin_cases i <;> fin_cases j <;> simp,
   by intro i; fin_cases i <;> rfl,
   by rw [det_fin_three]; simp [Matrix.one_apply],
   by intro h; have := congrFun (congrFun h 0) 1; simp at this⟩

example : Reduced (!![4, 1, 0; 0, 4, 0; 0, 0, 4]) := by
  intro i j hij
  fin_cases i <;> fin_cases j <;> simp_all [Peri.col, dot] <;> norm_num

/-- a cell sheared a little the other way -/
noncomputable def backH : M3 := !![1, -1 / 10, 0; 0, 1, 0; 0, 0, 1]

theorem backH_auto : autoFlip backH = !![0, 1, 0; 1, 0, 0; 0, 0, 0] := by
  ext i j
  fin_cases i <;> fin_cases j <;> simp [autoFlip, backH, Peri.col, dot]
  · rw [show (-1 / 10 : ℝ) = (-1 : ℤ) + 9 / 10 by norm_num, Int.floor_intCast_add, Int.floor_eq_zero_iff.mpr (by norm_num)]; norm_num
  · rw [show (-1 / 10 / (-1 / 10 * (-1 / 10) + 1) : ℝ) = (-1 : ℤ) + 91 / 101 by norm_num, Int.floor_intCast_add,
      Int.floor_eq_zero_iff.mpr (by norm_num)]; norm_num

/-- **C182 fails for cells with an obtuse angle**: each of the two vectors is increased by the other, both become the same, the
cell has no volume any more and an exception is thrown. -/
theorem C182_violated_degenerate : Proper (sheared backH) ∧ flipCell (sheared backH) 0 = .throws := by
  refine ⟨by show backH.det ≠ 0; simp [det_fin_three, backH], ?_⟩
  have hc : chosenFlip (sheared backH).cell.hSize 0 = some !![0, 1, 0; 1, 0, 0; 0, 0, 0] := by
    show chosenFlip backH 0 = _
    rw [chosenFlip, if_pos rfl, backH_auto, if_neg]
    intro h; have := congrFun (congrFun h 0) 1; simp at this
  rw [flipCell, hc]
  simp only
  rw [Peri.postLoad, Peri.integrate]
  simp only [zero_smul, zero_mul, add_zero]
  rw [if_pos]
  · rfl
  · show (backH + backH * toReal _).det = 0
    rw [toReal_lit]
    simp [det_fin_three, backH]; norm_num

/-- a cell sheared by more than its length the other way -/
noncomputable def farBackH : M3 := !![1, -3 / 2, 0; 0, 1, 0; 0, 0, 1]

theorem farBackH_auto : autoFlip farBackH = !![0, 2, 0; 1, 0, 0; 0, 0, 0] := by
  ext i j
  fin_cases i <;> fin_cases j <;> simp [autoFlip, farBackH, Peri.col, dot]
  · rw [show (-3 / 2 : ℝ) = (-2 : ℤ) + 1 / 2 by norm_num, Int.floor_intCast_add, Int.floor_eq_zero_iff.mpr (by norm_num)]; norm_num
  · rw [show (-3 / 2 / (-3 / 2 * (-3 / 2) + 1) : ℝ) = (-1 : ℤ) + 7 / 13 by norm_num, Int.floor_intCast_add,
      Int.floor_eq_zero_iff.mpr (by norm_num)]; norm_num

/-- **C182 fails without being noticed**: here `det(Id+flip)` is −1, the volume becomes negative and a body across the boundary is
put on the other side. -/
theorem C182_violated_contact : Proper (sheared farBackH) ∧
    ∃ g s', flipCell (sheared farBackH) 0 = .ok (g, s') ∧ ¬ KeepsGrid (sheared farBackH) s' ∧ s'.cell.hSize.det < 0 ∧
      ∃ I ∈ s'.intrs, s'.cell.hSize *ᵥ (fun a => (I.cellDist a : ℝ)) ≠ farBackH *ᵥ ![0, 1, 0] := by
  have hc : chosenFlip (sheared farBackH).cell.hSize 0 = some !![0, 2, 0; 1, 0, 0; 0, 0, 0] := by
    show chosenFlip farBackH 0 = _
    rw [chosenFlip, if_pos rfl, farBackH_auto, if_neg]
    intro h; have := congrFun (congrFun h 0) 1; simp at this
  have hdet : (farBackH + farBackH * toReal !![0, 2, 0; 1, 0, 0; 0, 0, 0]).det = -1 := by
    rw [toReal_lit]
    simp [det_fin_three, farBackH]; norm_num
  have hd0 : farBackH.det = 1 := by simp [det_fin_three, farBackH]
  refine ⟨by show farBackH.det ≠ 0; rw [hd0]; norm_num, toReal !![0, 2, 0; 1, 0, 0; 0, 0, 0], ?_⟩
  have hpl : ∃ c, Peri.postLoad { (sheared farBackH).cell with
      hSize := (sheared farBackH).cell.hSize + (sheared farBackH).cell.hSize * toReal !![0, 2, 0; 1, 0, 0; 0, 0, 0] } = .ok c ∧
      c.hSize = farBackH + farBackH * toReal !![0, 2, 0; 1, 0, 0; 0, 0, 0] := by
    rw [Peri.postLoad, Peri.integrate]
    simp only [zero_smul, zero_mul, add_zero]
    rw [if_neg (by show (farBackH + farBackH * toReal _).det ≠ 0; rw [hdet]; norm_num)]
    exact ⟨_, rfl, rfl⟩
  obtain ⟨c, hc1, hc2⟩ := hpl
  refine ⟨{ sheared farBackH with cell := c, intrs := (sheared farBackH).intrs.map (flipIntr !![0, 2, 0; 1, 0, 0; 0, 0, 0]) }, ?_, ?_, ?_, ?_⟩
  · rw [flipCell, hc]; simp only; rw [hc1, Res.bind_ok]
  · intro k
    have := k.volume_eq
    change c.hSize.det = farBackH.det at this
    rw [hc2, hdet, hd0] at this
    norm_num at this
  · show c.hSize.det < 0; rw [hc2, hdet]; norm_num
  · refine ⟨flipIntr !![0, 2, 0; 1, 0, 0; 0, 0, 0] { pressed with cellDist := ![0, 1, 0] }, by simp [sheared], ?_⟩
    show c.hSize *ᵥ _ ≠ _
    rw [hc2, toReal_lit]
    intro h
    have := congrFun h 1
    simp [farBackH, flipIntr, invFlip, mulVec, dotProduct, Fin.sum_univ_three, Matrix.mul_apply] at this

/-- **C182 fails for given flips with a diagonal**: `det(Id+flip)` is 1, as asked for, but the shifts of the contacts are changed
by a matrix which is not the inverse. -/
theorem C182_violated_diagonal : ∃ f : M3i, (1 + f).det = 1 ∧ Proper (sheared 1) ∧
    ∃ s', flipCell (sheared 1) (f.map fun z => (z : ℝ)) = .ok (f.map fun z => (z : ℝ), s') ∧
      ∃ I ∈ s'.intrs, s'.cell.hSize *ᵥ (fun a => (I.cellDist a : ℝ)) ≠ (1 : M3) *ᵥ ![0, 1, 0] := by
  have hdet : ((1 : M3) + 1 * toReal !![1, 1, 0; 1, 0, 0; 0, 0, 0]).det = 1 := by
    rw [toReal_lit]; simp [det_fin_three, Matrix.one_apply]
  refine ⟨!![1, 1, 0; 1, 0, 0; 0, 0, 0], by rw [det_fin_three]; simp [Matrix.one_apply], by show (1 : M3).det ≠ 0; simp, ?_⟩
  have hc : chosenFlip (sheared 1).cell.hSize ((!![1, 1, 0; 1, 0, 0; 0, 0, 0] : M3i).map fun z => (z : ℝ)) =
      some !![1, 1, 0; 1, 0, 0; 0, 0, 0] := by
    rw [chosenFlip, if_neg, truncInt_map]
    intro h; have := congrFun (congrFun h 0) 1; simp at this
  have hpl : ∃ c, Peri.postLoad { (sheared 1).cell with
      hSize := (sheared 1).cell.hSize + (sheared 1).cell.hSize * toReal !![1, 1, 0; 1, 0, 0; 0, 0, 0] } = .ok c ∧
      c.hSize = (1 : M3) + 1 * toReal !![1, 1, 0; 1, 0, 0; 0, 0, 0] := by
    rw [Peri.postLoad, Peri.integrate]
    simp only [zero_smul, zero_mul, add_zero]
    rw [if_neg (by show ((1 : M3) + 1 * toReal _).det ≠ 0; rw [hdet]; norm_num)]
    exact ⟨_, rfl, rfl⟩
  obtain ⟨c, hc1, hc2⟩ := hpl
  refine ⟨{ sheared 1 with cell := c, intrs := (sheared 1).intrs.map (flipIntr !![1, 1, 0; 1, 0, 0; 0, 0, 0]) }, ?_, ?_⟩
  · rw [flipCell, hc]; simp only; rw [hc1, Res.bind_ok]; rfl
  · refine ⟨flipIntr !![1, 1, 0; 1, 0, 0; 0, 0, 0] { pressed with cellDist := ![0, 1, 0] }, by simp [sheared], ?_⟩
    show c.hSize *ᵥ _ ≠ _
    rw [hc2, toReal_lit]
    intro h
    have := congrFun h 0
    simp [flipIntr, invFlip, mulVec, dotProduct, Fin.sum_univ_three, Matrix.mul_apply, Matrix.one_apply] at this

end Verif.Meas
