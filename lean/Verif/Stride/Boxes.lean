import Verif.Stride.Reach
import Verif.Peri.CellProps
import Mathlib.Tactic.FieldSimp
/-!
# C108: bounding boxes contain the shapes
-/
namespace Verif.Stride
open Verif Verif.Mech Matrix
open Verif.Peri (Cell CellOk)

/-! ## Specification -/

/-- the points of a shape placed in space -/
def Occupies (sh : Shp) (pos : V3) (ori : Quat) (p : V3) : Prop :=
  match sh with
  | .sphere r => sqNorm (p - pos) ≤ r ^ 2
  | .facet v => ∃ t : Fin 3 → ℝ, (∀ k, 0 ≤ t k) ∧ t 0 + t 1 + t 2 = 1 ∧ p = pos + ori.toMat *ᵥ (t 0 • v 0 + t 1 • v 1 + t 2 • v 2)
  | .box e => ∃ x : V3, (∀ k, |x k| ≤ |e k|) ∧ p = pos + ori.toMat *ᵥ x
  | .other => False

/-- a point inside a box given by its corners -/
def InBox (bx : V3 × V3) (p : V3) : Prop := ∀ i, bx.1 i ≤ p i ∧ p i ≤ bx.2 i

/-- base vector `k` is perpendicular to the other two: the cell is sheared in one plane at most -/
def PlaneShear (c : Cell) (k : Fin 3) : Prop :=
  dot (Peri.col c.shear k) (Peri.col c.shear (k + 1)) = 0 ∧ dot (Peri.col c.shear k) (Peri.col c.shear (k + 2)) = 0

/-- the flag is up to date (Cell.cpp 34): without it the base vectors are perpendicular -/
def ShearFlag (c : Cell) : Prop := c.hasShear = false → ∀ k, PlaneShear c k

/-! ## Lemmas -/

theorem toMat_add (q : Quat) (a b : V3) : q.toMat *ᵥ (a + b) = q.toMat *ᵥ a + q.toMat *ᵥ b := Matrix.mulVec_add _ _ _

theorem comp_le_of_sq {v : V3} {r : ℝ} (hr : 0 ≤ r) (h : sqNorm v ≤ r ^ 2) (i : Fin 3) : |v i| ≤ r := by
  apply abs_le_of_sq_le_sq _ hr
  unfold sqNorm dot at h
  fin_cases i <;> simp <;> nlinarith [sq_nonneg (v 0), sq_nonneg (v 1), sq_nonneg (v 2)]

theorem unit_col {c : Cell} (hc : CellOk c) (i : Fin 3) : dot (Peri.col c.shear i) (Peri.col c.shear i) = 1 := by
  have hl := Peri.len_pos hc.vol i
  have hn : norm3 (Peri.col c.hSize i) ^ 2 = sqNorm (Peri.col c.hSize i) := by
    unfold norm3; exact Real.sq_sqrt (by unfold sqNorm dot; nlinarith [sq_nonneg (Peri.col c.hSize i 0), sq_nonneg (Peri.col c.hSize i 1), sq_nonneg (Peri.col c.hSize i 2)])
  rw [hc.shear]
  have : dot (Peri.col (Peri.unitCols c.hSize) i) (Peri.col (Peri.unitCols c.hSize) i) = sqNorm (Peri.col c.hSize i) / norm3 (Peri.col c.hSize i) ^ 2 := by
    unfold dot Peri.unitCols sqNorm dot Peri.col
    field_simp
  rw [this, hn, div_self]
  rw [← hn]; positivity

theorem shear_sq (c : Cell) (u : V3) : sqNorm (c.shear *ᵥ u) =
    u 0 ^ 2 * dot (Peri.col c.shear 0) (Peri.col c.shear 0) + u 1 ^ 2 * dot (Peri.col c.shear 1) (Peri.col c.shear 1) +
    u 2 ^ 2 * dot (Peri.col c.shear 2) (Peri.col c.shear 2) + 2 * u 0 * u 1 * dot (Peri.col c.shear 0) (Peri.col c.shear 1) +
    2 * u 0 * u 2 * dot (Peri.col c.shear 0) (Peri.col c.shear 2) + 2 * u 1 * u 2 * dot (Peri.col c.shear 1) (Peri.col c.shear 2) := by
  unfold sqNorm dot Peri.col
  simp only [Matrix.mulVec, dotProduct, Fin.sum_univ_three]
  ring

theorem skew_eq {c : Cell} (hc : CellOk c) (i : Fin 3) :
    skew c i = 1 - dot (Peri.col c.shear (i + 1)) (Peri.col c.shear (i + 2)) ^ 2 := by
  have h1 := unit_col hc (i + 1)
  have h2 := unit_col hc (i + 2)
  unfold skew
  generalize Peri.col c.shear (i + 1) = a at *
  generalize Peri.col c.shear (i + 2) = b at *
  have : sqNorm (cross a b) = dot a a * dot b b - dot a b ^ 2 := by
    unfold sqNorm cross dot; simp; ring
  rw [this, h1, h2, one_mul]

theorem cross_ne {c : Cell} (hc : CellOk c) (i : Fin 3) : 0 < skew c i := by
  have hne : cross (Peri.col c.shear (i + 1)) (Peri.col c.shear (i + 2)) ≠ 0 := by
    intro h
    apply Peri.unitCols_det hc.vol
    rw [← hc.shear, Matrix.det_fin_three]
    have h0 := congrFun h 0; have h1 := congrFun h 1; have h2 := congrFun h 2
    unfold cross Peri.col at h0 h1 h2
    simp only [Matrix.cons_val_zero, Matrix.cons_val_one, Matrix.cons_val_two, Matrix.cons_val, Pi.zero_apply, Matrix.head_cons, Matrix.tail_cons] at h0 h1 h2
    fin_cases i
    · simp at h0 h1 h2
      linear_combination c.shear 0 0 * h0 + c.shear 1 0 * h1 + c.shear 2 0 * h2
    · simp at h0 h1 h2
      linear_combination c.shear 0 1 * h0 + c.shear 1 1 * h1 + c.shear 2 1 * h2
    · simp at h0 h1 h2
      linear_combination c.shear 0 2 * h0 + c.shear 1 2 * h1 + c.shear 2 2 * h2
  exact Peri.sqNorm_pos hne

/-- two skew coordinates with cosine `e` between the axes, a third one perpendicular -/
theorem plane_bound {x y z e r h : ℝ} (hr : 0 ≤ r) (hrh : r ≤ h) (he : 0 < 1 - e ^ 2) (hs : x ^ 2 + y ^ 2 + z ^ 2 + 2 * x * y * e ≤ r ^ 2) :
    |x| ≤ h + 0.5 * h * (1 / (1 - e ^ 2) - 1) ∧ |z| ≤ r := by
  have hh : 0 ≤ h := hr.trans hrh
  constructor
  · have h1 : x ^ 2 * (1 - e ^ 2) ≤ r ^ 2 := by nlinarith [sq_nonneg (y + x * e), sq_nonneg z]
    have hk : 0 < 1 / (1 - e ^ 2) := by positivity
    apply abs_le_of_sq_le_sq _ (by nlinarith [mul_nonneg hh hk.le])
    have hx : x ^ 2 ≤ r ^ 2 * (1 / (1 - e ^ 2)) := by
      rw [mul_one_div, le_div_iff₀ he]; exact h1
    generalize 1 / (1 - e ^ 2) = k at *
    have : r ^ 2 ≤ h ^ 2 := by nlinarith
    have h2 : r ^ 2 * k ≤ h ^ 2 * k := by nlinarith
    nlinarith [mul_nonneg (sq_nonneg h) (sq_nonneg (k - 1))]
  · apply abs_le_of_sq_le_sq _ hr
    nlinarith [sq_nonneg (x * e + y), mul_nonneg (sq_nonneg x) he.le]

theorem half_ge {enl : ℝ} (he : 0 < enl → 1 ≤ enl) {r : ℝ} (hr : 0 ≤ r) : r ≤ (if 0 < enl then enl else 1) * r := enlarged_ge he hr

/-- coordinates along the base vectors of a point of the sphere -/
theorem skew_coord {c : Cell} (hc : CellOk c) {k : Fin 3} (hk : PlaneShear c k) {r h : ℝ} (hr : 0 ≤ r) (hrh : r ≤ h) {u : V3}
    (hu : sqNorm (c.shear *ᵥ u) ≤ r ^ 2) (i : Fin 3) :
    |u i| ≤ h + 0.5 * h * (1 / skew c (i + 1) - 1) + 0.5 * h * (1 / skew c (i + 2) - 1) := by
  have sq := shear_sq c u
  have u0 := unit_col hc 0; have u1 := unit_col hc 1; have u2 := unit_col hc 2
  have s0 : skew c 0 = 1 - dot (Peri.col c.shear 1) (Peri.col c.shear 2) ^ 2 := skew_eq hc 0
  have s1 : skew c 1 = 1 - dot (Peri.col c.shear 2) (Peri.col c.shear 0) ^ 2 := skew_eq hc 1
  have s2 : skew c 2 = 1 - dot (Peri.col c.shear 0) (Peri.col c.shear 1) ^ 2 := skew_eq hc 2
  have p0 := cross_ne hc 0; have p1 := cross_ne hc 1; have p2 := cross_ne hc 2
  have dcomm : ∀ a b : V3, dot a b = dot b a := fun a b => by unfold dot; ring
  have d20 := dcomm (Peri.col c.shear 2) (Peri.col c.shear 0)
  have d10 := dcomm (Peri.col c.shear 1) (Peri.col c.shear 0)
  have d21 := dcomm (Peri.col c.shear 2) (Peri.col c.shear 1)
  rw [d20] at s1
  rw [u0, u1, u2] at sq
  rw [sq] at hu
  clear sq
  unfold PlaneShear at hk
  rw [s0] at p0; rw [s1] at p1; rw [s2] at p2
  fin_cases k
  · have k1 : dot (Peri.col c.shear 0) (Peri.col c.shear 1) = 0 := hk.1
    have k2 : dot (Peri.col c.shear 0) (Peri.col c.shear 2) = 0 := hk.2
    rw [k1, k2] at hu
    rw [k2] at s1; rw [k1] at s2
    generalize dot (Peri.col c.shear 1) (Peri.col c.shear 2) = e at *
    have b1 := plane_bound (x := u 1) (y := u 2) (z := u 0) (e := e) hr hrh p0 (by linarith)
    have b2 := plane_bound (x := u 2) (y := u 1) (z := u 0) (e := e) hr hrh p0 (by linarith)
    fin_cases i <;> simp [s0, s1, s2]
    · linarith [b1.2]
    · have := b1.1; simp at this; linarith
    · have := b2.1; simp at this; linarith
  · have k1 : dot (Peri.col c.shear 1) (Peri.col c.shear 2) = 0 := hk.1
    have k2 : dot (Peri.col c.shear 0) (Peri.col c.shear 1) = 0 := by rw [← d10]; exact hk.2
    rw [k1, k2] at hu
    rw [k1] at s0; rw [k2] at s2
    generalize dot (Peri.col c.shear 0) (Peri.col c.shear 2) = e at *
    have b1 := plane_bound (x := u 0) (y := u 2) (z := u 1) (e := e) hr hrh p1 (by linarith)
    have b2 := plane_bound (x := u 2) (y := u 0) (z := u 1) (e := e) hr hrh p1 (by linarith)
    fin_cases i <;> simp [s0, s1, s2]
    · have := b1.1; simp at this; linarith
    · linarith [b1.2]
    · have := b2.1; simp at this; linarith
  · have k1 : dot (Peri.col c.shear 0) (Peri.col c.shear 2) = 0 := by rw [← d20]; exact hk.1
    have k2 : dot (Peri.col c.shear 1) (Peri.col c.shear 2) = 0 := by rw [← d21]; exact hk.2
    rw [k1, k2] at hu
    rw [k1] at s1; rw [k2] at s0
    generalize dot (Peri.col c.shear 0) (Peri.col c.shear 1) = e at *
    have b1 := plane_bound (x := u 0) (y := u 1) (z := u 2) (e := e) hr hrh p2 (by linarith)
    have b2 := plane_bound (x := u 1) (y := u 0) (z := u 2) (e := e) hr hrh p2 (by linarith)
    fin_cases i <;> simp [s0, s1, s2]
    · have := b1.1; simp at this; linarith
    · have := b2.1; simp at this; linarith
    · linarith [b1.2]

/-! ## C108 -/

/-- **C108, partial (spheres).** The box made for a sphere contains all its points, whatever the position, in a non-periodic scene and
in a periodic one whose cell is sheared in one plane at most (boxes are then in coordinates along the base vectors), provided the
enlargement factor is not between 0 and 1.  Missing: cells sheared in several planes (`C108_violated_shear`); factors below 1
(`C108_violated_factor`). -/
theorem C108_sphere_partial (enl : ℝ) (he : 0 < enl → 1 ≤ enl) (cell : Option Cell)
    (hcell : ∀ c, cell = some c → CellOk c ∧ ShearFlag c ∧ ∃ k, PlaneShear c k) (r : ℝ) (hr : 0 ≤ r) (pos : V3) (ori : Quat) (p : V3)
    (hp : Occupies (.sphere r) pos ori p) : InBox (sphereBox enl cell r pos) (unshearPt cell p) := by
  unfold Occupies at hp
  have hrh := half_ge he hr
  cases cell with
  | none =>
    intro i
    have := abs_le.mp (comp_le_of_sq hr hp i)
    simp only [sphereBox, sphereHalf, unshearPt, Pi.sub_apply, Pi.add_apply] at *
    constructor <;> linarith [this.1, this.2]
  | some c =>
    obtain ⟨hc, hf, k, hk⟩ := hcell c rfl
    have hu : c.shear *ᵥ (c.unshear *ᵥ p - c.unshear *ᵥ pos) = p - pos := by
      rw [Matrix.mulVec_sub, Peri.shear_unshear hc, Peri.shear_unshear hc]
    rw [← hu] at hp
    generalize hh : (if 0 < enl then enl else 1) * r = h at hrh
    have key : ∀ i, |(c.unshear *ᵥ p - c.unshear *ᵥ pos) i| ≤ sphereHalf enl (some c) r i := by
      intro i
      unfold sphereHalf
      rw [hh]
      dsimp only
      cases hs : c.hasShear with
      | true => rw [if_pos rfl]; exact skew_coord hc hk hr hrh hp i
      | false =>
        rw [if_neg (by simp)]
        have := skew_coord hc (hf hs 0) hr hrh hp i
        have e1 : ∀ i, skew c i = 1 := by
          intro i
          rw [skew_eq hc i]
          have := (hf hs (i + 1)).1
          have e : (i + 1 + 1 : Fin 3) = i + 2 := by fin_cases i <;> rfl
          rw [e] at this; rw [this]; norm_num
        rw [e1, e1] at this
        norm_num at this
        exact this
    intro i
    have := abs_le.mp (key i)
    simp only [sphereBox, unshearPt, Pi.sub_apply, Pi.add_apply] at *
    constructor <;> linarith [this.1, this.2]

theorem conv_le {t x : Fin 3 → ℝ} (h0 : ∀ k, 0 ≤ t k) (h1 : t 0 + t 1 + t 2 = 1) :
    min (min (x 0) (x 1)) (x 2) ≤ t 0 * x 0 + t 1 * x 1 + t 2 * x 2 ∧ t 0 * x 0 + t 1 * x 1 + t 2 * x 2 ≤ max (max (x 0) (x 1)) (x 2) := by
  have a0 := h0 0; have a1 := h0 1; have a2 := h0 2
  constructor
  · have m0 : min (min (x 0) (x 1)) (x 2) ≤ x 0 := (min_le_left _ _).trans (min_le_left _ _)
    have m1 : min (min (x 0) (x 1)) (x 2) ≤ x 1 := (min_le_left _ _).trans (min_le_right _ _)
    have m2 : min (min (x 0) (x 1)) (x 2) ≤ x 2 := min_le_right _ _
    generalize min (min (x 0) (x 1)) (x 2) = m at *
    have : m = t 0 * m + t 1 * m + t 2 * m := by rw [← add_mul, ← add_mul, h1, one_mul]
    nlinarith
  · have m0 : x 0 ≤ max (max (x 0) (x 1)) (x 2) := (le_max_left _ _).trans (le_max_left _ _)
    have m1 : x 1 ≤ max (max (x 0) (x 1)) (x 2) := (le_max_right _ _).trans (le_max_left _ _)
    have m2 : x 2 ≤ max (max (x 0) (x 1)) (x 2) := le_max_right _ _
    generalize max (max (x 0) (x 1)) (x 2) = m at *
    have : m = t 0 * m + t 1 * m + t 2 * m := by rw [← add_mul, ← add_mul, h1, one_mul]
    nlinarith

/-- **C108 (facets).** The box made for a facet contains all its points, for every position and orientation, with and without a cell,
whatever its shear; and it is the smallest such box: each face is reached by a vertex. -/
theorem C108_facet (cell : Option Cell) (v : Fin 3 → V3) (pos : V3) (ori : Quat) :
    (∀ p, Occupies (.facet v) pos ori p → InBox (facetBox cell v pos ori) (unshearPt cell p)) ∧
    ∀ i, (∃ k, (facetBox cell v pos ori).1 i = unshearPt cell (pos + ori.toMat *ᵥ v k) i) ∧
      ∃ k, (facetBox cell v pos ori).2 i = unshearPt cell (pos + ori.toMat *ᵥ v k) i := by
  constructor
  · rintro p ⟨t, h0, h1, rfl⟩ i
    have hlin : unshearPt cell (pos + ori.toMat *ᵥ (t 0 • v 0 + t 1 • v 1 + t 2 • v 2)) i =
        t 0 * unshearPt cell (pos + ori.toMat *ᵥ v 0) i + t 1 * unshearPt cell (pos + ori.toMat *ᵥ v 1) i +
          t 2 * unshearPt cell (pos + ori.toMat *ᵥ v 2) i := by
      have hpos : pos = t 0 • pos + t 1 • pos + t 2 • pos := by rw [← add_smul, ← add_smul, h1, one_smul]
      have e : pos + ori.toMat *ᵥ (t 0 • v 0 + t 1 • v 1 + t 2 • v 2) = t 0 • (pos + ori.toMat *ᵥ v 0) + t 1 • (pos + ori.toMat *ᵥ v 1) +
          t 2 • (pos + ori.toMat *ᵥ v 2) := by
        rw [Matrix.mulVec_add, Matrix.mulVec_add, Matrix.mulVec_smul, Matrix.mulVec_smul, Matrix.mulVec_smul]
        conv_lhs => rw [hpos]
        simp only [smul_add]
        abel
      rw [e]
      cases cell with
      | none => simp [unshearPt]; ring
      | some c =>
        simp only [unshearPt]
        rw [Matrix.mulVec_add, Matrix.mulVec_add, Matrix.mulVec_smul, Matrix.mulVec_smul, Matrix.mulVec_smul]
        simp only [Pi.add_apply, Pi.smul_apply, smul_eq_mul]
    rw [hlin]
    exact conv_le (x := fun k => unshearPt cell (pos + ori.toMat *ᵥ v k) i) h0 h1
  · intro i
    refine ⟨?_, ?_⟩
    · unfold facetBox
      dsimp only
      rcases min_choice (min (unshearPt cell (pos + ori.toMat *ᵥ v 0) i) (unshearPt cell (pos + ori.toMat *ᵥ v 1) i)) (unshearPt cell (pos + ori.toMat *ᵥ v 2) i) with h | h
      · rw [h]
        rcases min_choice (unshearPt cell (pos + ori.toMat *ᵥ v 0) i) (unshearPt cell (pos + ori.toMat *ᵥ v 1) i) with h | h <;> rw [h]
        · exact ⟨0, rfl⟩
        · exact ⟨1, rfl⟩
      · rw [h]; exact ⟨2, rfl⟩
    · unfold facetBox
      dsimp only
      rcases max_choice (max (unshearPt cell (pos + ori.toMat *ᵥ v 0) i) (unshearPt cell (pos + ori.toMat *ᵥ v 1) i)) (unshearPt cell (pos + ori.toMat *ᵥ v 2) i) with h | h
      · rw [h]
        rcases max_choice (unshearPt cell (pos + ori.toMat *ᵥ v 0) i) (unshearPt cell (pos + ori.toMat *ᵥ v 1) i) with h | h <;> rw [h]
        · exact ⟨0, rfl⟩
        · exact ⟨1, rfl⟩
      · rw [h]; exact ⟨2, rfl⟩

theorem abs_sign_mul (a e : ℝ) : ∃ x : ℝ, |x| = |e| ∧ a * x = |a * e| := by
  rcases le_total 0 (a * e) with h | h
  · exact ⟨e, rfl, (abs_of_nonneg h).symm⟩
  · exact ⟨-e, abs_neg e, by rw [abs_of_nonpos h]; ring⟩

/-- **C108 (boxes).** The functor for boxes rejects sheared cells; otherwise its box contains all points of the body, for every position
and orientation, and is the smallest such box. -/
theorem C108_box (cell : Option Cell) (e : V3) (pos : V3) (ori : Quat) :
    (boxBox cell e pos ori = .throws ∧ ∃ c, cell = some c ∧ c.hasShear = true) ∨
    ∃ bx, boxBox cell e pos ori = .ok bx ∧ (∀ p, Occupies (.box e) pos ori p → InBox bx p) ∧
      ∀ i, (∃ p, Occupies (.box e) pos ori p ∧ p i = bx.1 i) ∧ ∃ p, Occupies (.box e) pos ori p ∧ p i = bx.2 i := by
  have key : (∀ p, Occupies (.box e) pos ori p → InBox (pos - boxHalf e ori, pos + boxHalf e ori) p) ∧
      ∀ i, (∃ p, Occupies (.box e) pos ori p ∧ p i = (pos - boxHalf e ori) i) ∧ ∃ p, Occupies (.box e) pos ori p ∧ p i = (pos + boxHalf e ori) i := by
    constructor
    · rintro p ⟨x, hx, rfl⟩ i
      have hm : (ori.toMat *ᵥ x) i = ori.toMat i 0 * x 0 + ori.toMat i 1 * x 1 + ori.toMat i 2 * x 2 := by
        simp [Matrix.mulVec, dotProduct, Fin.sum_univ_three]
      have hb : ∀ k, |ori.toMat i k * x k| ≤ |ori.toMat i k * e k| := fun k => by
        rw [abs_mul, abs_mul]; exact mul_le_mul_of_nonneg_left (hx k) (abs_nonneg _)
      have := abs_le.mp (hb 0); have := abs_le.mp (hb 1); have := abs_le.mp (hb 2)
      simp only [Pi.sub_apply, Pi.add_apply, boxHalf, hm]
      constructor <;> linarith
    · intro i
      obtain ⟨x0, a0, b0⟩ := abs_sign_mul (ori.toMat i 0) (e 0)
      obtain ⟨x1, a1, b1⟩ := abs_sign_mul (ori.toMat i 1) (e 1)
      obtain ⟨x2, a2, b2⟩ := abs_sign_mul (ori.toMat i 2) (e 2)
      constructor
      · refine ⟨_, ⟨![-x0, -x1, -x2], ?_, rfl⟩, ?_⟩
        · intro k; fin_cases k <;> simp [a0, a1, a2]
        · simp only [Pi.add_apply, Pi.sub_apply, boxHalf, Matrix.mulVec, dotProduct, Fin.sum_univ_three]
          simp only [Matrix.cons_val_zero, Matrix.cons_val_one, Matrix.cons_val]
          linarith
      · refine ⟨_, ⟨![x0, x1, x2], ?_, rfl⟩, ?_⟩
        · intro k; fin_cases k <;> simp [a0, a1, a2]
        · simp only [Pi.add_apply, boxHalf, Matrix.mulVec, dotProduct, Fin.sum_univ_three]
          simp only [Matrix.cons_val_zero, Matrix.cons_val_one, Matrix.cons_val]
          linarith
  unfold boxBox
  cases cell with
  | none => exact Or.inr ⟨_, rfl, key⟩
  | some c =>
    cases hs : c.hasShear with
    | true => left; simp [hs]
    | false => right; exact ⟨_, by simp [hs], key⟩

/-- a cell with the given base vectors of unit length, as `integrateAndUpdate` leaves it -/
noncomputable def unitCell (h : M3) : Cell :=
  { Peri.raw with
    hSize := h
    size := fun i => norm3 (Peri.col h i)
    shear := Peri.unitCols h
    unshear := (Peri.unitCols h)⁻¹
    hasShear := true
    invTrsf := (1 : M3)⁻¹ }

theorem unitCell_ok {h : M3} (hd : h.det ≠ 0) : CellOk (unitCell h) :=
  ⟨hd, by simp [unitCell, Peri.raw], by simp [unitCell, Peri.raw], fun _ => rfl, rfl, rfl⟩

theorem unitCols_of_unit {h : M3} (hn : ∀ i, sqNorm (Peri.col h i) = 1) : Peri.unitCols h = h := by
  ext a i
  unfold Peri.unitCols norm3
  rw [hn i, Real.sqrt_one, div_one]

/-- base vectors of unit length, sheared in all planes -/
noncomputable def skewBase : M3 := !![1, 7 / 25, 2 / 7; 0, 24 / 25, -6 / 7; 0, 0, 3 / 7]

theorem skewBase_unit (i : Fin 3) : sqNorm (Peri.col skewBase i) = 1 := by
  unfold sqNorm dot Peri.col skewBase
  fin_cases i <;> simp <;> norm_num

theorem skewBase_det : skewBase.det ≠ 0 := by
  rw [Matrix.det_fin_three]; unfold skewBase; simp

/-- **C108 is false** in a cell sheared in several planes: a sphere of radius 1 sticks out of its box. -/
theorem C108_violated_shear : ∃ (c : Cell) (p : V3), CellOk c ∧ c.hasShear = true ∧ Occupies (.sphere 1) 0 Quat.one p ∧
    ¬ InBox (sphereBox (-1) (some c) 1 0) (unshearPt (some c) p) := by
  have hok := unitCell_ok skewBase_det
  have hsh : (unitCell skewBase).shear = skewBase := unitCols_of_unit skewBase_unit
  have hp : (unitCell skewBase).shear *ᵥ ![8 / 5, -5 / 3, -28 / 15] = ![3 / 5, 0, -4 / 5] := by
    rw [hsh]; unfold skewBase
    ext a; fin_cases a <;> simp [Matrix.mulVec, dotProduct, Fin.sum_univ_three] <;> norm_num
  refine ⟨unitCell skewBase, ![3 / 5, 0, -4 / 5], hok, rfl, ?_, fun h => ?_⟩
  · unfold Occupies sqNorm dot; simp; norm_num
  · have h0 := (h 0).2
    have hun : (unitCell skewBase).unshear *ᵥ ![3 / 5, 0, -4 / 5] = ![8 / 5, -5 / 3, -28 / 15] := by
      rw [← hp, hok.unshear, Matrix.mulVec_mulVec, Matrix.nonsing_inv_mul _ (by
        rw [isUnit_iff_ne_zero, hsh]; exact skewBase_det), Matrix.one_mulVec]
    have s1 : skew (unitCell skewBase) (0 + 1) = 1 - (2 / 7) ^ 2 := by
      rw [skew_eq hok, hsh]; unfold dot Peri.col skewBase; simp
    have s2 : skew (unitCell skewBase) (0 + 2) = 1 - (7 / 25) ^ 2 := by
      rw [skew_eq hok, hsh]; unfold dot Peri.col skewBase; simp
    unfold sphereBox unshearPt sphereHalf at h0
    dsimp only at h0
    rw [hun, if_pos (show (unitCell skewBase).hasShear = true from rfl)] at h0
    simp only [Pi.add_apply, s1, s2, Matrix.mulVec_zero, Pi.zero_apply, Matrix.cons_val_zero] at h0
    norm_num at h0

/-- **C108 is false** for an enlargement factor between 0 and 1 (accepted as it is): the box is smaller than the sphere. -/
theorem C108_violated_factor : ∃ p : V3, Occupies (.sphere 1) 0 Quat.one p ∧ ¬ InBox (sphereBox (1 / 2) none 1 0) (unshearPt none p) := by
  refine ⟨![1, 0, 0], ?_, fun h => ?_⟩
  · unfold Occupies sqNorm dot; simp
  · have := (h 0).2
    unfold sphereBox unshearPt sphereHalf at this
    simp at this
    norm_num at this

/-- the hypotheses of `C108_sphere_partial` in a cell sheared in the plane of x and y -/
example : ∃ c : Cell, CellOk c ∧ ShearFlag c ∧ PlaneShear c 2 ∧ ¬ PlaneShear c 0 ∧ c.hasShear = true := by
  have hu : ∀ i, sqNorm (Peri.col (!![1, 3 / 5, 0; 0, 4 / 5, 0; 0, 0, 1] : M3) i) = 1 := by
    intro i; unfold sqNorm dot Peri.col; fin_cases i <;> simp <;> norm_num
  have hd : (!![1, 3 / 5, 0; 0, 4 / 5, 0; 0, 0, 1] : M3).det ≠ 0 := by rw [Matrix.det_fin_three]; simp
  have hsh : (unitCell !![1, 3 / 5, 0; 0, 4 / 5, 0; 0, 0, 1]).shear = !![1, 3 / 5, 0; 0, 4 / 5, 0; 0, 0, 1] := unitCols_of_unit hu
  refine ⟨unitCell _, unitCell_ok hd, fun h => (by cases h), ?_, ?_, rfl⟩
  · unfold PlaneShear; rw [hsh]; unfold dot Peri.col; simp
  · unfold PlaneShear; rw [hsh]; unfold dot Peri.col; simp

end Verif.Stride
