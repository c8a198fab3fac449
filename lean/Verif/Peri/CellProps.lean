import Verif.Peri.Cell
import Verif.Peri.WrapProps
import Mathlib.Analysis.Real.Sqrt
/-!
# C31 (points), C56, C93: the periodic cell
-/
namespace Verif.Peri
open Verif Verif.Mech Matrix

/-! ## Specification -/

/-- the cached values of the cell are those of its base vectors, and neither the cell nor the transformation is degenerate.  It
holds for a new cell and is kept by every operation (`C56_ok_new`, `C56_reference`). -/
structure CellOk (c : Cell) : Prop where
  vol : c.hSize.det ≠ 0
  trsf : c.trsf.det ≠ 0
  inv : c.invTrsf = c.trsf⁻¹
  size : ∀ i, c.size i = norm3 (col c.hSize i)
  shear : c.shear = unitCols c.hSize
  unshear : c.unshear = c.shear⁻¹

/-- `q` is the image of the point `p` in the cell spanned by the columns of `h`, `k` periods away: `p = q + h k`, and `q` has
coordinates between 0 (inclusive) and 1 (exclusive) along the base vectors -/
structure ImageIn (h : M3) (p q : V3) (k : Fin 3 → Int) : Prop where
  shift : p = q + h *ᵥ (fun a => (k a : ℝ))
  inside : ∃ f : V3, q = h *ᵥ f ∧ ∀ a, 0 ≤ f a ∧ f a < 1

/-! ## Lemmas -/

theorem sqNorm_pos {v : V3} (h : v ≠ 0) : 0 < sqNorm v := by
  have h0 : 0 ≤ sqNorm v := by
    unfold sqNorm dot; nlinarith [mul_self_nonneg (v 0), mul_self_nonneg (v 1), mul_self_nonneg (v 2)]
  rcases h0.lt_or_eq with h1 | h1
  · exact h1
  · exfalso; apply h
    have e : v 0 * v 0 + v 1 * v 1 + v 2 * v 2 = 0 := h1.symm
    have a0 := mul_self_nonneg (v 0); have a1 := mul_self_nonneg (v 1); have a2 := mul_self_nonneg (v 2)
    have b0 : v 0 = 0 := mul_self_eq_zero.mp (by linarith)
    have b1 : v 1 = 0 := mul_self_eq_zero.mp (by linarith)
    have b2 : v 2 = 0 := mul_self_eq_zero.mp (by linarith)
    funext i; fin_cases i
    · exact b0
    · exact b1
    · exact b2

theorem norm3_pos {v : V3} (h : v ≠ 0) : 0 < norm3 v := Real.sqrt_pos.mpr (sqNorm_pos h)

theorem col_ne {h : M3} (hd : h.det ≠ 0) (i : Fin 3) : col h i ≠ 0 := by
  intro hc
  exact hd (Matrix.det_eq_zero_of_column_eq_zero i (fun a => congrFun hc a))

theorem len_pos {h : M3} (hd : h.det ≠ 0) (i : Fin 3) : 0 < norm3 (col h i) := norm3_pos (col_ne hd i)

/-- base vectors = directions times lengths -/
theorem unitCols_mul {h : M3} (hd : h.det ≠ 0) : unitCols h * Matrix.diagonal (fun i => norm3 (col h i)) = h := by
  ext a i
  rw [Matrix.mul_diagonal]
  exact div_mul_cancel₀ _ (len_pos hd i).ne'

theorem unitCols_det {h : M3} (hd : h.det ≠ 0) : (unitCols h).det ≠ 0 := by
  intro h0
  apply hd
  rw [← unitCols_mul hd, Matrix.det_mul, h0, zero_mul]

theorem isUnit_det {m : M3} (h : m.det ≠ 0) : IsUnit m.det := isUnit_iff_ne_zero.mpr h

theorem inv_mul_self {m : M3} (h : m.det ≠ 0) : m⁻¹ * m = 1 := Matrix.nonsing_inv_mul m (isUnit_det h)
theorem mul_inv_self {m : M3} (h : m.det ≠ 0) : m * m⁻¹ = 1 := Matrix.mul_nonsing_inv m (isUnit_det h)

theorem mulVec_inj {m : M3} (h : m.det ≠ 0) {x y : V3} (e : m *ᵥ x = m *ᵥ y) : x = y := by
  have := congrArg (m⁻¹ *ᵥ ·) e
  simpa [Matrix.mulVec_mulVec, inv_mul_self h] using this

theorem shift_zero (h : M3) (p : V3) : p = p + h *ᵥ (fun a => (((0 : Fin 3 → Int) a : Int) : ℝ)) := by
  have : (fun a => (((0 : Fin 3 → Int) a : Int) : ℝ)) = 0 := by funext a; simp
  rw [this, Matrix.mulVec_zero, add_zero]

/-- the image in the cell is unique -/
theorem ImageIn.unique {h : M3} (hd : h.det ≠ 0) {p p' q q' : V3} {k k' j : Fin 3 → Int} (w : ImageIn h p q k) (w' : ImageIn h p' q' k')
    (hp : p' = p + h *ᵥ (fun a => (j a : ℝ))) : q' = q ∧ k' = k + j := by
  obtain ⟨f, e, hf⟩ := w.inside
  obtain ⟨f', e', hf'⟩ := w'.inside
  have key : h *ᵥ (f' + fun a => (k' a : ℝ)) = h *ᵥ (f + (fun a => (k a : ℝ)) + fun a => (j a : ℝ)) := by
    rw [Matrix.mulVec_add, Matrix.mulVec_add, Matrix.mulVec_add, ← e, ← e', ← w.shift, ← w'.shift, hp]
  have hx := mulVec_inj hd key
  have each : ∀ a, f' a = f a ∧ k' a = k a + j a := by
    intro a
    have ha := congrFun hx a
    simp only [Pi.add_apply] at ha
    exact Wrapped.unique (lo := 0) (sz := 1) (x := f a + k a) (x' := f' a + k' a) one_pos ⟨(hf a).1, by simpa using (hf a).2, by simp⟩
      ⟨(hf' a).1, by simpa using (hf' a).2, by simp⟩ (by rw [ha]; simp)
  refine ⟨?_, funext fun a => (each a).2⟩
  rw [e, e']
  congr 1
  exact funext fun a => (each a).1

theorem diag_mulVec (s : V3) (x : V3) : Matrix.diagonal s *ᵥ x = fun a => s a * x a := by
  funext a; exact Matrix.mulVec_diagonal s x a

theorem hSize_mulVec {c : Cell} (h : CellOk c) (x : V3) : c.hSize *ᵥ x = c.shear *ᵥ (fun a => c.size a * x a) := by
  conv_lhs => rw [← unitCols_mul h.vol, ← Matrix.mulVec_mulVec, diag_mulVec]
  rw [h.shear]
  congr 1
  funext a
  rw [h.size]

theorem shear_unshear {c : Cell} (h : CellOk c) (p : V3) : c.shear *ᵥ (c.unshear *ᵥ p) = p := by
  rw [h.unshear, Matrix.mulVec_mulVec, mul_inv_self (by rw [h.shear]; exact unitCols_det h.vol), Matrix.one_mulVec]

theorem size_pos {c : Cell} (h : CellOk c) (i : Fin 3) : 0 < c.size i := by rw [h.size]; exact len_pos h.vol i

theorem wrapPt_wrapped {c : Cell} (h : CellOk c) (p : V3) :
    ∃ k : Fin 3 → Int, ∀ a, Wrapped 0 (c.size a) (p a) (wrapPt c p a) (k a) :=
  ⟨fun a => (C31_number (size_pos h a) (p a)).1.choose, fun a => (C31_number (size_pos h a) (p a)).1.choose_spec⟩

theorem image_of_wrapped {c : Cell} (h : CellOk c) {p q : V3} {k : Fin 3 → Int}
    (hk : ∀ a, Wrapped 0 (c.size a) ((c.unshear *ᵥ p) a) (q a) (k a)) : ImageIn c.hSize p (c.shear *ᵥ q) k := by
  refine ⟨?_, fun a => q a / c.size a, ?_, fun a => ⟨?_, ?_⟩⟩
  · rw [hSize_mulVec h, ← Matrix.mulVec_add]
    conv_lhs => rw [← shear_unshear h p]
    congr 1
    funext a
    have := (hk a).shift
    simp only [Pi.add_apply]; linarith
  · rw [hSize_mulVec h]
    congr 1
    funext a
    rw [mul_div_cancel₀ _ (size_pos h a).ne']
  · exact div_nonneg (hk a).ge (size_pos h a).le
  · rw [div_lt_one (size_pos h a)]; have := (hk a).lt; linarith

/-! ## C31: points -/

/-- C31: wrapping a point along the axes of the cell (rectangular cell). -/
theorem C31_point {c : Cell} (h : CellOk c) (p : V3) :
    (∃ k : Fin 3 → Int, ∀ a, Wrapped 0 (c.size a) (p a) (wrapPt c p a) (k a)) ∧
      ((∀ a, 0 ≤ p a ∧ p a < c.size a) → wrapPt c p = p) ∧
      ∀ k : Fin 3 → Int, wrapPt c (fun a => p a + k a * c.size a) = wrapPt c p :=
  ⟨wrapPt_wrapped h p, fun hp => funext fun a => (C31_number (size_pos h a) (p a)).2.1 (hp a).1 (hp a).2,
    fun k => funext fun a => (C31_number (size_pos h a) (p a)).2.2 (k a)⟩

/-- C31: wrapping a point into the cell, which may be sheared and rotated, gives its image in the cell; points in the cell stay
where they are; a shift by whole periods makes no difference. -/
theorem C31_sheared {c : Cell} (h : CellOk c) (p : V3) :
    (∃ k, ImageIn c.hSize p (wrapShearedPt c p) k) ∧ (∀ f : V3, (∀ a, 0 ≤ f a ∧ f a < 1) → wrapShearedPt c (c.hSize *ᵥ f) = c.hSize *ᵥ f) ∧
      ∀ k, wrapShearedPt c (p + intrShiftPos c k) = wrapShearedPt c p := by
  have key : ∀ p, ∃ k, ImageIn c.hSize p (wrapShearedPt c p) k := by
    intro p
    obtain ⟨k, hk⟩ := wrapPt_wrapped h (c.unshear *ᵥ p)
    exact ⟨k, image_of_wrapped h hk⟩
  refine ⟨key p, fun f hf => ?_, fun k => ?_⟩
  · obtain ⟨k, hk⟩ := key (c.hSize *ᵥ f)
    have w : ImageIn c.hSize (c.hSize *ᵥ f) (c.hSize *ᵥ f) 0 := ⟨shift_zero _ _, f, rfl, hf⟩
    exact (w.unique (j := 0) h.vol hk (shift_zero _ _)).1
  · obtain ⟨k1, h1⟩ := key p
    obtain ⟨k2, h2⟩ := key (p + intrShiftPos c k)
    exact (h1.unique h.vol h2 rfl).1

/-- C31: the variant reporting the periods gives the same image and the right periods, as long as they are `int`s. -/
theorem C31_sheared_period {c : Cell} (h : CellOk c) (p : V3) (k : Fin 3 → Int) (hf : ∀ a, FitsInt (k a))
    (hk : ImageIn c.hSize p (wrapShearedPt c p) k) : wrapShearedPtP c p = .ok (wrapShearedPt c p, k) := by
  obtain ⟨k', hk'⟩ := wrapPt_wrapped h (c.unshear *ᵥ p)
  have e : k' = k := by
    have := (hk.unique (j := 0) h.vol (image_of_wrapped h hk') (shift_zero _ _)).2
    simpa using this
  rw [e] at hk'
  have each : ∀ a, wrapNumP ((c.unshear *ᵥ p) a) (c.size a) = .ok (wrapPt c (c.unshear *ᵥ p) a, k a) :=
    fun a => (C31_period (size_pos h a) _).1 (k a) (hf a) (hk' a)
  unfold wrapShearedPtP wrapPtP
  rw [each 0, each 1, each 2]
  simp only [Res.bind_ok]
  congr 1
  refine Prod.ext ?_ ?_
  · change c.shear *ᵥ _ = c.shear *ᵥ _
    congr 1
    funext a; fin_cases a <;> rfl
  · funext a; fin_cases a <;> rfl

/-! ## C56 -/

theorem integrate_ok {dt : ℝ} {c c' : Cell} (h : integrate dt c = .ok c') :
    c'.hSize = c.hSize + (dt • c.velGrad) * c.hSize ∧ c'.trsf = c.trsf + (dt • c.velGrad) * c.trsf ∧ c'.hSize.det ≠ 0 ∧
      c'.invTrsf = c'.trsf⁻¹ ∧ c'.prevHSize = c.hSize ∧ c'.vGradTimesPrevH = c.velGrad * c.hSize ∧
      (∀ i, c'.size i = norm3 (col c'.hSize i)) ∧ c'.shear = unitCols c'.hSize ∧ c'.unshear = c'.shear⁻¹ ∧
      c'.velGrad = c.velGrad ∧ c'.nextVelGrad = c.nextVelGrad ∧ c'.velGradChanged = c.velGradChanged := by
  unfold integrate at h
  dsimp only at h
  split at h
  · cases h
  · rename_i hd
    cases h
    exact ⟨rfl, rfl, hd, rfl, rfl, rfl, fun _ => rfl, rfl, rfl, rfl, rfl, rfl⟩

theorem grow (g h : M3) : h + g * h = (1 + g) * h := by rw [add_mul, one_mul]

/-- C56: whatever the velocity gradient and the time step, the update of the cell keeps the reference base, and the cell stays
consistent; the base follows the velocity gradient. -/
theorem C56_reference {dt : ℝ} {c c' : Cell} (hc : CellOk c) (h : integrate dt c = .ok c') :
    hSize0 c' = hSize0 c ∧ CellOk c' ∧ c'.hSize = (1 + dt • c.velGrad) * c.hSize ∧ c'.trsf = (1 + dt • c.velGrad) * c.trsf := by
  obtain ⟨h1, h2, h3, h4, h5, h6, h7, h8, h9, -⟩ := integrate_ok h
  rw [grow] at h1 h2
  have hF : (1 + dt • c.velGrad).det ≠ 0 := by
    intro h0; apply h3; rw [h1, Matrix.det_mul, h0, zero_mul]
  have ht : c'.trsf.det ≠ 0 := by rw [h2, Matrix.det_mul]; exact mul_ne_zero hF hc.trsf
  refine ⟨?_, ⟨h3, ht, h4, h7, h8, h9⟩, h1, h2⟩
  unfold hSize0
  rw [h4, h1, h2, Matrix.mul_inv_rev, hc.inv, Matrix.mul_assoc, ← Matrix.mul_assoc (1 + dt • c.velGrad)⁻¹, inv_mul_self hF, one_mul]

/-- C56: the update throws exactly if the cell would become degenerate. -/
theorem C56_degenerate {dt : ℝ} {c : Cell} (hc : CellOk c) :
    integrate dt c = .throws ↔ (1 + dt • c.velGrad).det = 0 := by
  have e : (c.hSize + (dt • c.velGrad) * c.hSize).det = (1 + dt • c.velGrad).det * c.hSize.det := by rw [grow, Matrix.det_mul]
  unfold integrate
  dsimp only
  constructor
  · intro h
    split at h
    · rename_i h0
      rw [e] at h0
      exact (mul_eq_zero.mp h0).resolve_right hc.vol
    · cases h
  · intro h0
    rw [if_pos (by rw [e, h0, zero_mul])]

theorem C56_ok_new : ∃ c, newCell = .ok c ∧ CellOk c ∧ hSize0 c = 1 := by
  have h1 : (raw.hSize + ((0 : ℝ) • raw.velGrad) * raw.hSize) = 1 := by simp [raw]
  have h2 : (raw.trsf + ((0 : ℝ) • raw.velGrad) * raw.trsf) = 1 := by simp [raw]
  refine ⟨_, by unfold newCell integrate; dsimp only; rw [if_neg (by rw [h1]; simp)], ⟨?_, ?_, rfl, fun _ => rfl, rfl, rfl⟩, ?_⟩
  · dsimp only; rw [h1]; simp
  · dsimp only; rw [h2]; simp
  · unfold hSize0; dsimp only; rw [h1, h2]; simp

/-- the fields the user's request does not touch -/
structure SameShape (c c' : Cell) : Prop where
  hSize : c'.hSize = c.hSize
  trsf : c'.trsf = c.trsf
  invTrsf : c'.invTrsf = c.invTrsf
  rate : c'.vGradTimesPrevH = c.vGradTimesPrevH

/-- a history: before each step the user may assign the velocity gradient (any number of times); each step has its own length -/
abbrev History := List (List M3 × ℝ)

/-- runs the history: assignments, then the step -/
noncomputable def runCell : History → Cell → Res Cell
  | [], c => .ok c
  | (as, dt) :: hs, c => (cellStep dt (as.foldl (fun c m => setVelGrad m c) c)).bind (runCell hs)

/-- the velocity gradient in force after the history: the last one assigned, or the initial one -/
def lastAssigned (g : M3) : History → M3
  | [] => g
  | (as, _) :: hs => lastAssigned (as.getLast?.getD g) hs

/-- the base after the history: each step uses the gradient assigned before the *previous* step -/
noncomputable def deformed (g : M3) : History → M3 → M3
  | [], h => h
  | (as, dt) :: hs, h => deformed (as.getLast?.getD g) hs ((1 + dt • g) * h)

/-- no request is pending -/
def Quiet (c : Cell) : Prop := c.velGradChanged = false ∧ c.nextVelGrad = 0

theorem assigns (as : List M3) (c : Cell) :
    as.foldl (fun c m => setVelGrad m c) c =
      { c with nextVelGrad := as.getLast?.getD c.nextVelGrad, velGradChanged := decide (as ≠ []) || c.velGradChanged } := by
  induction as generalizing c with
  | nil => simp
  | cons a as ih =>
    rw [List.foldl_cons, ih]
    cases as with
    | nil => simp [setVelGrad]
    | cons b bs => simp [setVelGrad, List.getLast?_cons]

theorem cellStep_ok {dt : ℝ} {c c' : Cell} (hc : CellOk c) (hq : Quiet c) (as : List M3)
    (h : cellStep dt (as.foldl (fun c m => setVelGrad m c) c) = .ok c') :
    CellOk c' ∧ Quiet c' ∧ hSize0 c' = hSize0 c ∧ c'.hSize = (1 + dt • c.velGrad) * c.hSize ∧ c'.velGrad = as.getLast?.getD c.velGrad := by
  rw [assigns, hq.1, hq.2, Bool.or_false] at h
  obtain ⟨c1, hc1⟩ : ∃ c1, c1 = ({ c with nextVelGrad := as.getLast?.getD 0, velGradChanged := decide (as ≠ []) } : Cell) := ⟨_, rfl⟩
  rw [← hc1] at h
  have ok1 : CellOk c1 := by rw [hc1]; exact ⟨hc.vol, hc.trsf, hc.inv, hc.size, hc.shear, hc.unshear⟩
  unfold cellStep at h
  cases hi : integrate dt c1 with
  | throws => rw [hi] at h; cases h
  | ub => rw [hi] at h; cases h
  | ok c2 =>
    rw [hi] at h
    simp only [Res.bind_ok] at h
    obtain ⟨r1, r2, r3, r4⟩ := C56_reference ok1 hi
    obtain ⟨-, -, -, -, -, -, -, -, -, v1, v2, v3⟩ := integrate_ok hi
    have e0 : hSize0 c1 = hSize0 c := by rw [hc1]; rfl
    have e1 : c1.velGrad = c.velGrad := by rw [hc1]
    have e2 : c1.hSize = c.hSize := by rw [hc1]
    have e3 : c1.nextVelGrad = as.getLast?.getD 0 := by rw [hc1]
    have e4 : c1.velGradChanged = decide (as ≠ []) := by rw [hc1]
    cases h
    by_cases ha : as = []
    · subst ha
      have nt : takeOver c2 = c2 := by
        unfold takeOver; rw [if_neg]; rw [v2, v3, e3, e4]; simp
      rw [nt]
      refine ⟨⟨r2.vol, r2.trsf, r2.inv, r2.size, r2.shear, r2.unshear⟩, ⟨?_, ?_⟩, ?_, ?_, ?_⟩
      · change c2.velGradChanged = false; rw [v3, e4]; rfl
      · change c2.nextVelGrad = 0; rw [v2, e3]; rfl
      · change hSize0 c2 = _; rw [r1, e0]
      · change c2.hSize = _; rw [r3, e1, e2]
      · change c2.velGrad = _; rw [v1, e1]; rfl
    · have yt : takeOver c2 = { c2 with velGrad := c2.nextVelGrad, velGradChanged := false, nextVelGrad := 0 } := by
        unfold takeOver; rw [if_pos]; left; rw [v3, e4]; simpa using ha
      rw [yt]
      refine ⟨⟨r2.vol, r2.trsf, r2.inv, r2.size, r2.shear, r2.unshear⟩, ⟨rfl, rfl⟩, ?_, ?_, ?_⟩
      · change hSize0 c2 = _; rw [r1, e0]
      · change c2.hSize = _; rw [r3, e1, e2]
      · change c2.nextVelGrad = _
        rw [v2, e3]
        cases hl : as.getLast? with
        | none => exact absurd (List.getLast?_eq_none_iff.mp hl) ha
        | some m => rfl

/-- C56: over any history of assignments and steps the reference base never changes, the velocity gradient is the last one
assigned before the last step, and each step deforms the cell with the gradient in force before it, so that an assignment shows
in the deformation one step later. -/
theorem C56_history (hs : History) {c c' : Cell} (hc : CellOk c) (hq : Quiet c) (h : runCell hs c = .ok c') :
    hSize0 c' = hSize0 c ∧ c'.velGrad = lastAssigned c.velGrad hs ∧ c'.hSize = deformed c.velGrad hs c.hSize ∧ CellOk c' ∧ Quiet c' := by
  induction hs generalizing c with
  | nil => cases h; exact ⟨rfl, rfl, rfl, hc, hq⟩
  | cons x hs ih =>
    obtain ⟨as, dt⟩ := x
    unfold runCell at h
    cases hstep : cellStep dt (as.foldl (fun c m => setVelGrad m c) c) with
    | throws => rw [hstep] at h; cases h
    | ub => rw [hstep] at h; cases h
    | ok c1 =>
      rw [hstep] at h
      simp only [Res.bind_ok] at h
      obtain ⟨k1, k2, k3, k4, k5⟩ := cellStep_ok hc hq as hstep
      obtain ⟨i1, i2, i3, i4, i5⟩ := ih k1 k2 h
      refine ⟨i1.trans k3, ?_, ?_, i4, i5⟩
      · rw [i2, k5]; rfl
      · rw [i3, k5, k4]; rfl

/-- C56: reading the velocity gradient right after assigning it gives the old one, and nothing else of the cell changes. -/
theorem C56_assignment_waits (m : M3) (c : Cell) : (setVelGrad m c).velGrad = c.velGrad ∧ SameShape c (setVelGrad m c) :=
  ⟨rfl, rfl, rfl, rfl, rfl⟩

/-! ## C93: velocity across periods -/

/-- C93: the velocity added to a contact across `k` periods is the rate at which the position shift of those periods changed in
the step: over the step the position shift changes by `dt` times the velocity shift. -/
theorem C93_velocity_shift {dt : ℝ} {c c' : Cell} (h : integrate dt c = .ok c') (k : Fin 3 → Int) :
    intrShiftPos c' k = intrShiftPos c k + dt • intrShiftVel c' k := by
  obtain ⟨h1, -, -, -, -, h6, -⟩ := integrate_ok h
  unfold intrShiftPos intrShiftVel
  rw [h1, h6, Matrix.add_mulVec, Matrix.smul_mul, Matrix.smul_mulVec]

/-- C93: taking over a new velocity gradient during the step does not change the shifts. -/
theorem C93_unaffected (c : Cell) (k : Fin 3 → Int) :
    intrShiftPos (takeOver c) k = intrShiftPos c k ∧ intrShiftVel (takeOver c) k = intrShiftVel c k := by
  unfold takeOver
  split <;> exact ⟨rfl, rfl⟩

/-- C93: shifts by periods add up, and the opposite periods give the opposite shift. -/
theorem C93_additive (c : Cell) (k l : Fin 3 → Int) :
    intrShiftPos c (k + l) = intrShiftPos c k + intrShiftPos c l ∧ intrShiftVel c (k + l) = intrShiftVel c k + intrShiftVel c l ∧
      intrShiftPos c (-k) = -intrShiftPos c k ∧ intrShiftVel c (-k) = -intrShiftVel c k := by
  have e1 : (fun a => (((k + l) a : Int) : ℝ)) = (fun a => (k a : ℝ)) + fun a => (l a : ℝ) := by funext a; simp
  have e2 : (fun a => (((-k) a : Int) : ℝ)) = -(fun a => (k a : ℝ)) := by funext a; simp
  unfold intrShiftPos intrShiftVel
  rw [e1, e2]
  exact ⟨Matrix.mulVec_add _ _ _, Matrix.mulVec_add _ _ _, Matrix.mulVec_neg _ _, Matrix.mulVec_neg _ _⟩

/-! ## C94: assigning the size -/

theorem norm3_smul (v : V3) (r : ℝ) (hr : 0 ≤ r) : norm3 (fun a => v a * r) = norm3 v * r := by
  have e : sqNorm (fun a => v a * r) = sqNorm v * (r * r) := by unfold sqNorm dot; ring
  unfold norm3
  rw [e, Real.sqrt_mul' _ (mul_self_nonneg r), Real.sqrt_mul_self hr]

/-- C94: assigning positive lengths to `size` gives the cell those lengths and keeps the directions of its base vectors. -/
theorem C94_size (s : V3) (hs : ∀ a, 0 < s a) {c : Cell} (hc : CellOk c) :
    ∃ c', setSize s c = .ok c' ∧ CellOk c' ∧ c'.size = s ∧ ∀ i, ∃ r, 0 < r ∧ col c'.hSize i = fun a => col c.hSize i a * r := by
  obtain ⟨g, hg⟩ : ∃ g : M3, g = fun a k => c.hSize a k * (s k / norm3 (col c.hSize k)) := ⟨_, rfl⟩
  have pos : ∀ i, 0 < s i / norm3 (col c.hSize i) := fun i => div_pos (hs i) (len_pos hc.vol i)
  have ge : g = c.hSize * Matrix.diagonal (fun k => s k / norm3 (col c.hSize k)) := by
    rw [hg]; ext a k; rw [Matrix.mul_diagonal]
  have gd : g.det ≠ 0 := by
    rw [ge, Matrix.det_mul, Matrix.det_diagonal]
    exact mul_ne_zero hc.vol (Finset.prod_ne_zero_iff.mpr fun i _ => (pos i).ne')
  obtain ⟨c1, hc1⟩ : ∃ c1, c1 = ({ c with hSize := g, refHSize := g } : Cell) := ⟨_, rfl⟩
  have e1 : c1.hSize + ((0 : ℝ) • c1.velGrad) * c1.hSize = g := by rw [hc1]; simp
  have e2 : c1.trsf + ((0 : ℝ) • c1.velGrad) * c1.trsf = c.trsf := by rw [hc1]; simp
  have hset : setSize s c = integrate 0 c1 := by unfold setSize postLoad; rw [hc1, hg]
  cases hi : integrate 0 c1 with
  | throws =>
    exfalso
    unfold integrate at hi
    dsimp only at hi
    rw [if_neg (by rw [e1]; exact gd)] at hi
    cases hi
  | ub =>
    exfalso
    unfold integrate at hi
    dsimp only at hi
    rw [if_neg (by rw [e1]; exact gd)] at hi
    cases hi
  | ok c' =>
    obtain ⟨h1, h2, h3, h4, h5, h6, h7, h8, h9, -⟩ := integrate_ok hi
    rw [e1] at h1
    rw [e2] at h2
    have hcol : ∀ i, col c'.hSize i = fun a => col c.hSize i a * (s i / norm3 (col c.hSize i)) := by
      intro i; rw [h1, hg]; rfl
    refine ⟨c', by rw [hset, hi], ⟨h3, by rw [h2]; exact hc.trsf, h4, h7, h8, h9⟩, ?_, fun i => ⟨_, pos i, hcol i⟩⟩
    funext i
    rw [h7, hcol, norm3_smul _ _ (pos i).le, mul_div_cancel₀ _ (len_pos hc.vol i).ne']

/-! ## A concrete cell -/

/-- a sheared cell: base vectors (2,0,0), (1,3,0), (0,0,4) -/
def exH : M3 := !![2, 1, 0; 0, 3, 0; 0, 0, 4]

theorem exH_det : exH.det = 24 := by
  rw [Matrix.det_fin_three]; simp [exH]; norm_num

/-- the cell with that base, made from a new one -/
theorem exCell : ∃ c0 c, newCell = .ok c0 ∧ setHSize exH c0 = .ok c ∧ CellOk c ∧ Quiet c ∧ c.hSize = exH ∧ c.velGrad = 0 := by
  have h1 : (raw.hSize + ((0 : ℝ) • raw.velGrad) * raw.hSize) = 1 := by simp [raw]
  have h2 : (raw.trsf + ((0 : ℝ) • raw.velGrad) * raw.trsf) = 1 := by simp [raw]
  cases hn : newCell with
  | throws => obtain ⟨c, h, _⟩ := C56_ok_new; rw [hn] at h; cases h
  | ub => obtain ⟨c, h, _⟩ := C56_ok_new; rw [hn] at h; cases h
  | ok c0 =>
    obtain ⟨g1, g2, g3, g4, g5, g6, g7, g8, g9, g10, g11, g12⟩ := integrate_ok hn
    have t0 : c0.trsf = 1 := g2.trans h2
    have v0 : c0.velGrad = 0 := g10
    have e1 : exH + ((0 : ℝ) • c0.velGrad) * exH = exH := by simp
    have e2 : c0.trsf + ((0 : ℝ) • c0.velGrad) * c0.trsf = 1 := by rw [t0]; simp
    have hs : ∃ c, setHSize exH c0 = .ok c := by
      unfold setHSize postLoad integrate
      dsimp only
      rw [if_neg (by rw [e1, exH_det]; norm_num)]
      exact ⟨_, rfl⟩
    obtain ⟨c, hc⟩ := hs
    obtain ⟨k1, k2, k3, k4, k5, k6, k7, k8, k9, k10, k11, k12⟩ := integrate_ok (c := { c0 with hSize := exH, refHSize := exH }) hc
    refine ⟨c0, c, rfl, hc, ⟨k3, ?_, k4, k7, k8, k9⟩, ⟨?_, ?_⟩, ?_, ?_⟩
    · rw [k2]; dsimp only; rw [e2]; simp
    · rw [k12]; exact g12
    · rw [k11]; exact g11
    · rw [k1]; exact e1
    · rw [k10]; exact v0

/-- C31, example: in that cell the point (5,7,9) has the image (1,1,1): one period of the first vector, two of the second and of the
third away. -/
example : ∃ c : Cell, CellOk c ∧ c.hSize = exH ∧ wrapShearedPtP c ![5, 7, 9] = .ok (![1, 1, 1], ![1, 2, 2]) := by
  obtain ⟨c0, c, -, -, hc, -, he, -⟩ := exCell
  refine ⟨c, hc, he, ?_⟩
  have im : ImageIn c.hSize ![5, 7, 9] ![1, 1, 1] ![1, 2, 2] := by
    refine ⟨?_, ![1 / 3, 1 / 3, 1 / 4], ?_, fun a => ?_⟩
    · rw [he]; funext a
      fin_cases a <;> simp [exH, dotProduct, Fin.sum_univ_three] <;> norm_num
    · rw [he]; funext a
      fin_cases a <;> simp [exH, dotProduct, Fin.sum_univ_three] <;> norm_num
    · fin_cases a <;> norm_num
  obtain ⟨k, hk⟩ := (C31_sheared hc ![5, 7, 9]).1
  obtain ⟨e1, e2⟩ := im.unique (j := 0) hc.vol hk (shift_zero _ _)
  have e3 : k = ![1, 2, 2] := by simpa using e2
  rw [e3] at hk
  rw [C31_sheared_period hc _ _ (fun a => by fin_cases a <;> norm_num [FitsInt]) hk, e1]

/-- C56, C93, example: the user assigns two gradients before the first step; the second step deforms with the last one. -/
example (g1 g2 : M3) (h : (1 + (1 / 10 : ℝ) • g2).det ≠ 0) : ∃ c c' : Cell, CellOk c ∧ Quiet c ∧
    runCell [([g1, g2], 1), ([], 1 / 10)] c = .ok c' ∧ hSize0 c' = hSize0 c ∧ c'.hSize = (1 + (1 / 10 : ℝ) • g2) * exH := by
  obtain ⟨c0, c, -, -, hc, hq, he, hv⟩ := exCell
  have step1 : ∃ c1, cellStep 1 ([g1, g2].foldl (fun c m => setVelGrad m c) c) = .ok c1 := by
    have hci : CellOk ([g1, g2].foldl (fun c m => setVelGrad m c) c) := ⟨hc.vol, hc.trsf, hc.inv, hc.size, hc.shear, hc.unshear⟩
    unfold cellStep
    cases hi : integrate 1 ([g1, g2].foldl (fun c m => setVelGrad m c) c) with
    | ok c1 => exact ⟨_, rfl⟩
    | throws =>
      exfalso
      have := (C56_degenerate hci).mp hi
      rw [show ([g1, g2].foldl (fun c m => setVelGrad m c) c).velGrad = 0 from hv] at this
      simp at this
    | ub => exfalso; unfold integrate at hi; dsimp only at hi; split at hi <;> cases hi
  obtain ⟨c1, h1⟩ := step1
  obtain ⟨k1, k2, k3, k4, k5⟩ := cellStep_ok hc hq [g1, g2] h1
  have step2 : ∃ c2, cellStep (1 / 10) (([] : List M3).foldl (fun c m => setVelGrad m c) c1) = .ok c2 := by
    unfold cellStep
    cases hi : integrate (1 / 10) (([] : List M3).foldl (fun c m => setVelGrad m c) c1) with
    | ok c1 => exact ⟨_, rfl⟩
    | throws =>
      exfalso
      have := (C56_degenerate k1).mp hi
      rw [k5] at this
      exact h this
    | ub => exfalso; unfold integrate at hi; dsimp only at hi; split at hi <;> cases hi
  obtain ⟨c2, h2⟩ := step2
  have hr : runCell [([g1, g2], 1), ([], 1 / 10)] c = .ok c2 := by
    unfold runCell; rw [h1]; simp only [Res.bind_ok]; unfold runCell; rw [h2]; rfl
  obtain ⟨r1, r2, r3, -⟩ := C56_history _ hc hq hr
  refine ⟨c, c2, hc, hq, hr, r1, ?_⟩
  rw [r3, hv, he]
  simp [deformed]

/-- C94, example: the sheared cell is given the lengths 1, 1, 1. -/
example : ∃ c c' : Cell, CellOk c ∧ c.hSize = exH ∧ setSize (fun _ => 1) c = .ok c' ∧ c'.size = fun _ => 1 := by
  obtain ⟨c0, c, -, -, hc, -, he, -⟩ := exCell
  obtain ⟨c', h1, -, h3, -⟩ := C94_size (fun _ => 1) (fun _ => one_pos) hc
  exact ⟨c, c', hc, he, h1, h3⟩

end Verif.Peri
