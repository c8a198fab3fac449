import Verif.Mech.Geom
import Mathlib.Tactic.Positivity
import Mathlib.Tactic.NormNum

/-! # Vector algebra for the contact geometry of boxes and facets -/
namespace Verif.Mech

theorem dot_sub_left (a b c : V3) : dot (a - b) c = dot a c - dot b c := by simp only [dot, Pi.sub_apply]; ring
theorem dot_sub_right (a b c : V3) : dot a (b - c) = dot a b - dot a c := by simp only [dot, Pi.sub_apply]; ring
theorem dot_add_left (a b c : V3) : dot (a + b) c = dot a c + dot b c := by simp only [dot, Pi.add_apply]; ring
theorem dot_add_right (a b c : V3) : dot a (b + c) = dot a b + dot a c := by simp only [dot, Pi.add_apply]; ring
theorem dot_smul_l (k : ℝ) (a b : V3) : dot (k • a) b = k * dot a b := by
  simp only [dot, Pi.smul_apply, smul_eq_mul]; ring
theorem dot_smul_r (k : ℝ) (a b : V3) : dot a (k • b) = k * dot a b := by
  simp only [dot, Pi.smul_apply, smul_eq_mul]; ring
theorem dot_neg_l (a b : V3) : dot (-a) b = -dot a b := by simp only [dot, Pi.neg_apply]; ring
theorem dot_neg_r (a b : V3) : dot a (-b) = -dot a b := by simp only [dot, Pi.neg_apply]; ring

theorem cross_cross (a b c : V3) : cross (cross a b) c = dot a c • b - dot b c • a := by
  apply v3_ext <;> simp [dot] <;> ring

theorem cross_cross_self (a w : V3) : cross a (cross a w) = dot a w • a - dot a a • w := by
  apply v3_ext <;> simp [dot] <;> ring

theorem dot_cross_left (a b : V3) : dot (cross a b) a = 0 := by simp [dot]; ring
theorem dot_cross_right (a b : V3) : dot (cross a b) b = 0 := by simp [dot]; ring

theorem sqNorm_crossed (a b : V3) : sqNorm (cross a b) = sqNorm a * sqNorm b - dot a b ^ 2 := by
  simp [sqNorm, dot]; ring

/-- Coordinates in the orthonormal basis `n`, `m`, `n × m`. -/
theorem basis (n m w : V3) (hn : dot n n = 1) (hm : dot m m = 1) (hnm : dot n m = 0) :
    w = dot n w • n + dot m w • m + dot (cross n m) w • cross n m := by
  have hmn : dot m n = 0 := by rw [dot_comm]; exact hnm
  have h1 : dot (cross n m) (cross n m) = 1 := by
    have := sqNorm_crossed n m
    simp only [sqNorm] at this
    rw [this, hn, hm, hnm]; norm_num
  have h2 := cross_cross_self (cross n m) w
  rw [h1, one_smul, cross_cross n m w] at h2
  have h3 : cross (cross n m) (dot n w • m - dot m w • n) = -(dot n w • n) - dot m w • m := by
    have a1 := cross_cross n m m
    have a2 := cross_cross n m n
    rw [hnm, hm, zero_smul, one_smul, zero_sub] at a1
    rw [hn, hmn, zero_smul, one_smul, sub_zero] at a2
    have : cross (cross n m) (dot n w • m - dot m w • n) =
        dot n w • cross (cross n m) m - dot m w • cross (cross n m) n := by
      generalize cross n m = t
      apply v3_ext <;> simp <;> ring
    rw [this, a1, a2, smul_neg]
  rw [h3] at h2
  have h4 : w = dot (cross n m) w • cross n m - (-(dot n w • n) - dot m w • m) := by
    rw [h2]; abel
  refine h4.trans ?_
  abel

/-- Scalar product of vectors of the plane normal to `n`. -/
theorem dot_plane (n m a b : V3) (hn : dot n n = 1) (hm : dot m m = 1) (hnm : dot n m = 0) (ha : dot n a = 0) :
    dot a b = dot m a * dot m b + dot (cross n m) a * dot (cross n m) b := by
  have e := basis n m a hn hm hnm
  rw [ha, zero_smul, zero_add] at e
  have := congrArg (fun x => dot x b) e
  simp only [dot_add_left, dot_smul_l] at this
  exact this

theorem plane_coords (x y a b ε u s : ℝ) (hxy : x * x + y * y = 1) (hf : x * a + y * b = 0) (he : x * ε < 0)
    (hb : b < 0) (hs : 0 ≤ s) (hp : x * u + y * s ≤ s) (ht : 0 < x * u) : u * ε ≤ 0 ∧ u * a + s * b ≤ 0 := by
  have hx : x ≠ 0 := by rintro rfl; simp at ht
  have hx2 : 0 < x * x := mul_self_pos.mpr hx
  refine ⟨?_, ?_⟩
  · have : (x * x) * (u * ε) < 0 := by
      have := mul_neg_of_pos_of_neg ht he
      nlinarith
    nlinarith
  · -- `x² (u a + s b) = x b (s x - u y)`
    have h1 : (x * x) * (u * a + s * b) = b * ((x * x) * s - (x * u) * y) := by
      linear_combination (x * u) * hf
    have h2 : 0 ≤ (x * x) * s - (x * u) * y := by
      by_cases hy : y ≤ 0
      · have := mul_nonneg hx2.le hs
        have := mul_nonneg ht.le (by linarith : 0 ≤ -y)
        nlinarith
      · have hy : 0 < y := not_le.mp hy
        have h3 : (x * u) * y ≤ (s * (1 - y)) * y := mul_le_mul_of_nonneg_right (by linarith) hy.le
        have hy1 : y ≤ 1 := by nlinarith
        have h4 : x * x = (1 - y) * (1 + y) := by linarith
        rw [h4]
        have := mul_nonneg hs (by linarith : (0 : ℝ) ≤ 1 - y)
        nlinarith
    have h3 : (x * x) * (u * a + s * b) ≤ 0 := by
      rw [h1]; exact mul_nonpos_of_nonpos_of_nonneg hb.le h2
    by_contra h
    have := mul_pos hx2 (not_le.mp h)
    linarith

/-- Beyond the end of the far edge the vertex is the closest point. -/
theorem vertex_case {n m n2 p e f : V3} (hn : dot n n = 1) (hm : dot m m = 1) (hnm : dot n m = 0)
    (hn2 : dot n2 n2 = 1) (hnn2 : dot n n2 = 0) (hp : dot n p = 0)
    (hme : dot m e = 0) (hmf : dot m f < 0) (h2f : dot n2 f = 0) (h2e : dot n2 e < 0) (h2p : dot n2 p ≤ dot m p)
    (hs : 0 ≤ dot m p) (ht : 0 < dot n2 (p - dot m p • m)) : dot p e ≤ 0 ∧ dot p f ≤ 0 := by
  rw [dot_plane n m p e hn hm hnm hp, dot_plane n m p f hn hm hnm hp]
  rw [dot_plane n m n2 n2 hn hm hnm hnn2] at hn2
  rw [dot_plane n m n2 f hn hm hnm hnn2] at h2f
  rw [dot_plane n m n2 e hn hm hnm hnn2, hme, mul_zero, zero_add] at h2e
  rw [dot_plane n m n2 p hn hm hnm hnn2] at h2p
  rw [dot_sub_right, dot_smul_r, dot_plane n m n2 p hn hm hnm hnn2, dot_comm n2 m] at ht
  obtain ⟨a, b⟩ := plane_coords (dot (cross n m) n2) (dot m n2) (dot (cross n m) f) (dot m f) (dot (cross n m) e)
    (dot (cross n m) p) (dot m p) (by linarith) (by linarith) h2e hmf hs (by linarith) (by linarith)
  rw [hme, mul_zero, zero_add]
  exact ⟨a, by linarith⟩

/-! ## Triangles -/

/-- The triangle with the given vertices. -/
def InTriangle (v : Fin 3 → V3) (x : V3) : Prop :=
  ∃ a b c : ℝ, 0 ≤ a ∧ 0 ≤ b ∧ 0 ≤ c ∧ a + b + c = 1 ∧ x = a • v 0 + b • v 1 + c • v 2

theorem closest_of_vertices {v : Fin 3 → V3} {p q : V3} (h : ∀ i, dot (p - q) (v i - q) ≤ 0) (x : V3)
    (hx : InTriangle v x) : sqNorm (p - q) ≤ sqNorm (p - x) := by
  obtain ⟨a, b, c, ha, hb, hc, hs, rfl⟩ := hx
  have e : dot (p - q) (a • v 0 + b • v 1 + c • v 2 - q) =
      a * dot (p - q) (v 0 - q) + b * dot (p - q) (v 1 - q) + c * dot (p - q) (v 2 - q) := by
    simp only [dot_sub_right, dot_add_right, dot_smul_r]
    linear_combination dot (p - q) q * hs
  have h1 : dot (p - q) (a • v 0 + b • v 1 + c • v 2 - q) ≤ 0 := by
    rw [e]
    have := mul_nonpos_of_nonneg_of_nonpos ha (h 0)
    have := mul_nonpos_of_nonneg_of_nonpos hb (h 1)
    have := mul_nonpos_of_nonneg_of_nonpos hc (h 2)
    linarith
  generalize a • v 0 + b • v 1 + c • v 2 = x at h1
  have h2 : sqNorm (p - x) = sqNorm (p - q) - 2 * dot (p - q) (x - q) + sqNorm (x - q) := by
    simp only [sqNorm, dot, Pi.sub_apply]; ring
  have := sqNorm_nonneg (x - q)
  linarith

theorem in_vertex (v : Fin 3 → V3) (i : Fin 3) : InTriangle v (v i) := by
  fin_cases i
  · exact ⟨1, 0, 0, by norm_num, le_refl _, le_refl _, by norm_num, by simp⟩
  · exact ⟨0, 1, 0, le_refl _, by norm_num, le_refl _, by norm_num, by simp⟩
  · exact ⟨0, 0, 1, le_refl _, le_refl _, by norm_num, by norm_num, by simp⟩

/-- What the derived attributes of a facet mean. -/
structure FacetOk (f : Facet) (v : Fin 3 → V3) : Prop where
  nn : dot f.normal f.normal = 1
  plane : ∀ i, dot f.normal (v i) = 0
  unit : ∀ i, dot (f.ne i) (f.ne i) = 1
  ortho : ∀ i, dot f.normal (f.ne i) = 0
  start : ∀ i, dot (f.ne i) (v i) = f.icr
  stop : ∀ i, dot (f.ne i) (v (i + 1)) = f.icr
  third : ∀ i, dot (f.ne i) (v (i + 2)) < f.icr
  icr0 : 0 ≤ f.icr
  vert : ∀ i, f.vl i • f.vu i = v i

theorem fin3_21 (i : Fin 3) : i + 2 + 1 = i := by revert i; decide
theorem fin3_22 (i : Fin 3) : i + 2 + 2 = i + 1 := by revert i; decide
theorem fin3_11 (i : Fin 3) : i + 1 + 1 = i + 2 := by revert i; decide
theorem fin3_12 (i : Fin 3) : i + 1 + 2 = i := by revert i; decide
theorem fin3_cases (i j : Fin 3) : j = i ∨ j = i + 1 ∨ j = i + 2 := by revert i j; decide

theorem in_face {f : Facet} {v : Fin 3 → V3} (h : FacetOk f v) {x : V3} (hx : dot f.normal x = 0)
    (hb : ∀ i, dot (f.ne i) x ≤ f.icr) : InTriangle v x := by
  set n := f.normal
  set m := f.ne 0
  set τ := cross n m
  have hn := h.nn
  have hm := h.unit 0
  have hnm := h.ortho 0
  -- coordinates of the two edges at vertex 0
  have he : dot n (v 1 - v 0) = 0 := by rw [dot_sub_right, h.plane, h.plane, sub_zero]
  have hf : dot n (v 2 - v 0) = 0 := by rw [dot_sub_right, h.plane, h.plane, sub_zero]
  have hw : dot n (x - v 0) = 0 := by rw [dot_sub_right, h.plane, hx, sub_zero]
  have be := basis n m (v 1 - v 0) hn hm hnm
  have bf := basis n m (v 2 - v 0) hn hm hnm
  have bw := basis n m (x - v 0) hn hm hnm
  have hme : dot m (v 1 - v 0) = 0 := by
    rw [dot_sub_right]; have a := h.stop 0; have b := h.start 0
    rw [show (0 : Fin 3) + 1 = 1 from rfl] at a
    linarith
  have hmf : dot m (v 2 - v 0) < 0 := by
    rw [dot_sub_right]; have a := h.third 0; have b := h.start 0
    rw [show (0 : Fin 3) + 2 = 2 from rfl] at a
    linarith
  rw [he, zero_smul, zero_add, hme, zero_smul, zero_add] at be
  rw [hf, zero_smul, zero_add] at bf
  rw [hw, zero_smul, zero_add] at bw
  have h2e : dot (f.ne 2) (v 1 - v 0) < 0 := by
    rw [dot_sub_right]
    have a := h.stop 2; have b := h.third 2
    rw [show (2 : Fin 3) + 1 = 0 from rfl] at a
    rw [show (2 : Fin 3) + 2 = 1 from rfl] at b
    linarith
  have hε : dot τ (v 1 - v 0) ≠ 0 := by
    intro h0
    have : v 1 - v 0 = 0 := by rw [be]; show dot τ (v 1 - v 0) • τ = 0; rw [h0, zero_smul]
    rw [this] at h2e
    simp [dot] at h2e
  set ε := dot τ (v 1 - v 0)
  set a := dot τ (v 2 - v 0)
  set b := dot m (v 2 - v 0)
  set X := dot τ (x - v 0)
  set Y := dot m (x - v 0)
  have hb0 : b ≠ 0 := ne_of_lt hmf
  -- barycentric coordinates
  have hxc : x - v 0 = ((X - Y / b * a) / ε) • (v 1 - v 0) + (Y / b) • (v 2 - v 0) := by
    conv_rhs => rw [be, bf]
    rw [bw]
    show Y • m + X • τ = ((X - Y / b * a) / ε) • (ε • τ) + (Y / b) • (b • m + a • τ)
    rw [smul_smul, div_mul_cancel₀ _ hε, smul_add, smul_smul, div_mul_cancel₀ _ hb0, smul_smul, sub_smul]
    abel
  set α := (X - Y / b * a) / ε
  set β := Y / b
  have hβ : 0 ≤ β := by
    have : Y ≤ 0 := by
      show dot m (x - v 0) ≤ 0
      rw [dot_sub_right]; have := hb 0; have := h.start 0
      linarith
    exact div_nonneg_of_nonpos this hmf.le
  have hα : 0 ≤ α := by
    have h1 : dot (f.ne 2) (x - v 0) ≤ 0 := by
      rw [dot_sub_right]; have := hb 2; have a := h.stop 2
      rw [show (2 : Fin 3) + 1 = 0 from rfl] at a
      linarith
    have h2 : dot (f.ne 2) (v 2 - v 0) = 0 := by
      rw [dot_sub_right]; have a := h.stop 2; have b := h.start 2
      rw [show (2 : Fin 3) + 1 = 0 from rfl] at a
      linarith
    rw [hxc, dot_add_right, dot_smul_r, dot_smul_r, h2, mul_zero, add_zero] at h1
    by_contra hc
    have := mul_pos_of_neg_of_neg (not_le.mp hc) h2e
    linarith
  have hαβ : α + β ≤ 1 := by
    have s1 := h.start 1
    have t1 := h.stop 1
    have u1 := h.third 1
    rw [show (1 : Fin 3) + 1 = 2 from rfl] at t1
    rw [show (1 : Fin 3) + 2 = 0 from rfl] at u1
    have h1 := hb 1
    have h2 : dot (f.ne 1) (x - v 0) ≤ f.icr - dot (f.ne 1) (v 0) := by rw [dot_sub_right]; linarith
    rw [hxc, dot_add_right, dot_smul_r, dot_smul_r, dot_sub_right, dot_sub_right, s1, t1] at h2
    have h3 : (α + β - 1) * (f.icr - dot (f.ne 1) (v 0)) ≤ 0 := by linarith
    by_contra hc
    have := mul_pos (sub_pos.mpr (not_le.mp hc)) (sub_pos.mpr u1)
    linarith
  refine ⟨1 - α - β, α, β, by linarith, hα, hβ, by ring, ?_⟩
  have : x = v 0 + (α • (v 1 - v 0) + β • (v 2 - v 0)) := by rw [← hxc]; abel
  rw [this]
  apply v3_ext <;> simp <;> ring

/-- A point of the line of an edge between its ends. -/
theorem on_edge {f : Facet} {v : Fin 3 → V3} (h : FacetOk f v) (i : Fin 3) {x : V3} (hx : dot f.normal x = 0)
    (hi : dot (f.ne i) x = f.icr) (h1 : dot (f.ne (i + 1)) x ≤ f.icr) (h2 : dot (f.ne (i + 2)) x ≤ f.icr) :
    InTriangle v x :=
  in_face h hx fun j => by
    rcases fin3_cases i j with rfl | rfl | rfl
    · exact hi.le
    · exact h1
    · exact h2


theorem farEdge_spec (f : Facet) (cp : V3) :
    (farEdge f cp).2 = dot (f.ne (farEdge f cp).1) cp ∧ ∀ j, dot (f.ne j) cp ≤ (farEdge f cp).2 := by
  unfold farEdge
  dsimp only
  have key : ∀ b0 b1 b2 B : ℝ, b0 ≤ B → b1 ≤ B → b2 ≤ B → b0 = dot (f.ne 0) cp → b1 = dot (f.ne 1) cp →
      b2 = dot (f.ne 2) cp → ∀ j, dot (f.ne j) cp ≤ B := by
    intro b0 b1 b2 B h0 h1 h2 e0 e1 e2 j
    fin_cases j
    · exact e0 ▸ h0
    · exact e1 ▸ h1
    · exact e2 ▸ h2
  split_ifs with h1 h2 h2
  · exact ⟨rfl, key _ _ _ _ (h1.le.trans (le_of_lt h2)) h2.le (le_refl _) rfl rfl rfl⟩
  · exact ⟨rfl, key _ _ _ _ h1.le (le_refl _) (not_lt.mp h2) rfl rfl rfl⟩
  · exact ⟨rfl, key _ _ _ _ h2.le ((not_lt.mp h1).trans h2.le) (le_refl _) rfl rfl rfl⟩
  · exact ⟨rfl, key _ _ _ _ (le_refl _) (not_lt.mp h1) (not_lt.mp h2) rfl rfl rfl⟩

theorem norm3_unit {n : V3} (h : dot n n = 1) : norm3 n = 1 := by
  rw [norm3, sqNorm, h, Real.sqrt_one]

/-- The boundary point used by the functor belongs to the facet and none is closer. -/
theorem boundary_closest {f : Facet} {v : Fin 3 → V3} (h : FacetOk f v) (cl : V3) (normal : V3) (L : ℝ)
    (hnorm : normal = f.normal ∨ normal = -f.normal) (hL : dot normal cl = L) (m : Fin 3) (bm : ℝ)
    (hm : bm = dot (f.ne m) (cl - L • normal)) (hmax : ∀ j, dot (f.ne j) (cl - L • normal) ≤ bm) (hb : f.icr ≤ bm) :
    InTriangle v (boundaryPoint f 0 f.icr (cl - L • normal) m bm) ∧
    ∀ x, InTriangle v x → sqNorm (cl - boundaryPoint f 0 f.icr (cl - L • normal) m bm) ≤ sqNorm (cl - x) := by
  have hnn : dot normal normal = 1 := by
    rcases hnorm with rfl | rfl
    · exact h.nn
    · rw [dot_neg_l, dot_neg_r, neg_neg]; exact h.nn
  have hno : ∀ x, dot f.normal x = 0 ↔ dot normal x = 0 := by
    intro x
    rcases hnorm with rfl | rfl
    · rfl
    · rw [dot_neg_l, neg_eq_zero]
  set cp := cl - L • normal with hcp
  have hcpn : dot normal cp = 0 := by rw [hcp, dot_sub_right, dot_smul_r, hnn, hL]; ring
  have hclp : ∀ q, cl - q = L • normal + (cp - q) := by intro q; rw [hcp]; abel
  clear_value cp
  have hvn : ∀ i, dot normal (v i) = 0 := fun i => (hno _).mp (h.plane i)
  have hmn : ∀ i, dot normal (f.ne i) = 0 := fun i => (hno _).mp (h.ortho i)
  -- closeness needs only the part in the plane
  have hclose : ∀ q, dot normal q = 0 → (∀ i, dot (cp - q) (v i - q) ≤ 0) →
      ∀ x, InTriangle v x → sqNorm (cl - q) ≤ sqNorm (cl - x) := by
    intro q hq hi
    refine closest_of_vertices fun i => ?_
    rw [hclp, dot_add_left, dot_smul_l, dot_sub_right, hvn, hq, sub_zero, mul_zero, zero_add]
    exact hi i
  have hshift : ∀ w : V3, dot normal (cp - w) = dot normal cp - dot normal w := fun w => dot_sub_right _ _ _
  -- at a vertex `w` shared by the far edge and the edge with normal `n2`
  have hvert : ∀ w e f' : Fin 3, ∀ k : Fin 3, dot (f.ne m) (v w) = f.icr → dot (f.ne k) (v w) = f.icr →
      dot (f.ne m) (v e) = f.icr → dot (f.ne m) (v f') < f.icr → dot (f.ne k) (v f') = f.icr →
      dot (f.ne k) (v e) < f.icr → f.icr < dot (cp + (f.icr - bm) • f.ne m) (f.ne k) →
      (∀ i, i = w ∨ i = e ∨ i = f') → ∀ i, dot (cp - v w) (v i - v w) ≤ 0 := by
    intro w e f' k h1 h2 h3 h4 h5 h6 h7 hall i
    have := vertex_case (n := normal) (m := f.ne m) (n2 := f.ne k) (p := cp - v w) (e := v e - v w) (f := v f' - v w)
      hnn (h.unit m) (hmn m) (h.unit k) (hmn k) (by rw [hshift, hcpn, hvn, sub_zero])
      (by rw [dot_sub_right]; linarith) (by rw [dot_sub_right]; linarith) (by rw [dot_sub_right]; linarith)
      (by rw [dot_sub_right]; linarith)
      (by rw [dot_sub_right, dot_sub_right, h1, h2]; have := hmax k; linarith)
      (by rw [dot_sub_right, h1]; linarith)
      (by
        rw [dot_sub_right, dot_smul_r, dot_sub_right, dot_sub_right, h1, h2, ← hm]
        rw [dot_add_left, dot_smul_l, dot_comm cp, dot_comm (f.ne m)] at h7
        linarith)
    rcases hall i with rfl | rfl | rfl
    · rw [sub_self]; simp [dot]
    · exact this.1
    · exact this.2
  unfold boundaryPoint
  dsimp only
  simp only [sub_zero, h.vert]
  split_ifs with hA hB
  · -- vertex m
    refine ⟨in_vertex v m, hclose _ (hvn m) (hvert m (m + 1) (m + 2) (m + 2) (h.start m) ?_ (h.stop m) (h.third m)
      (h.start _) ?_ hA fun i => fin3_cases m i)⟩
    · have := h.stop (m + 2); rwa [fin3_21] at this
    · have := h.third (m + 2); rwa [fin3_22] at this
  · -- vertex m + 1
    refine ⟨in_vertex v (m + 1), hclose _ (hvn _) (hvert (m + 1) m (m + 2) (m + 1) (h.stop m) (h.start _) (h.start m)
      (h.third m) ?_ ?_ hB fun i => ?_)⟩
    · have := h.stop (m + 1); rwa [fin3_11] at this
    · have := h.third (m + 1); rwa [fin3_12] at this
    · rcases fin3_cases m i with e | e | e
      · exact Or.inr (Or.inl e)
      · exact Or.inl e
      · exact Or.inr (Or.inr e)
  · -- edge m
    have hqn : dot normal (cp + (f.icr - bm) • f.ne m) = 0 := by
      rw [dot_add_right, dot_smul_r, hcpn, hmn, mul_zero, add_zero]
    have hqm : dot (f.ne m) (cp + (f.icr - bm) • f.ne m) = f.icr := by
      rw [dot_add_right, dot_smul_r, h.unit, ← hm]; ring
    refine ⟨on_edge h m ((hno _).mpr hqn) hqm ?_ ?_, hclose _ hqn fun i => ?_⟩
    · rw [dot_comm]; exact not_lt.mp hB
    · rw [dot_comm]; exact not_lt.mp hA
    · have e : cp - (cp + (f.icr - bm) • f.ne m) = (bm - f.icr) • f.ne m := by
        rw [sub_smul, sub_smul]; abel
      rw [e, dot_smul_l, dot_sub_right, hqm]
      refine mul_nonpos_of_nonneg_of_nonpos (by linarith) ?_
      rcases fin3_cases m i with rfl | rfl | rfl
      · rw [h.start, sub_self]
      · rw [h.stop, sub_self]
      · have := h.third m; linarith

/-- The facet part of the functor finds the closest point of the triangle. -/
theorem facetLocal_spec {f : Facet} {v : Fin 3 → V3} (h : FacetOk f v) (radius : ℝ) (cl : V3) (normal : V3) (L : ℝ)
    (hnorm : normal = f.normal ∨ normal = -f.normal) (hL : dot normal cl = L) (hL0 : 0 ≤ L) :
    ∃ q, InTriangle v q ∧ (∀ x, InTriangle v x → sqNorm (cl - q) ≤ sqNorm (cl - x)) ∧
    match facetLocal f 0 f.icr radius cl normal L with
    | .ok (n, pd) => pd = radius - norm3 (cl - q) ∧ cl - q = norm3 (cl - q) • n ∧ dot n n = 1
    | .throws => False
    | .ub => cl = q ∧ ∃ i, dot (f.ne i) q = f.icr := by
  have hnn : dot normal normal = 1 := by
    rcases hnorm with rfl | rfl
    · exact h.nn
    · rw [dot_neg_l, dot_neg_r, neg_neg]; exact h.nn
  have hno : ∀ x, dot f.normal x = 0 ↔ dot normal x = 0 := by
    intro x
    rcases hnorm with rfl | rfl
    · rfl
    · rw [dot_neg_l, neg_eq_zero]
  obtain ⟨hm, hmax⟩ := farEdge_spec f (cl - L • normal)
  unfold facetLocal
  dsimp only
  by_cases hb : (farEdge f (cl - L • normal)).2 < f.icr
  · have hcpn : dot normal (cl - L • normal) = 0 := by rw [dot_sub_right, dot_smul_r, hnn, hL]; ring
    have e : cl - (cl - L • normal) = L • normal := by abel
    have hN : norm3 (L • normal) = L := by
      rw [norm3, sqNorm_smul, sqNorm, hnn, mul_one, Real.sqrt_sq hL0]
    refine ⟨cl - L • normal, in_face h ((hno _).mpr hcpn) fun j => ((hmax j).trans hb.le), ?_, ?_⟩
    · refine closest_of_vertices fun i => ?_
      rw [e, dot_smul_l, dot_sub_right, hcpn, (hno _).mp (h.plane i), sub_zero, mul_zero]
    · rw [if_pos hb, e, hN, normalized, norm3_unit hnn, div_one, one_smul]
      exact ⟨rfl, rfl, hnn⟩
  · obtain ⟨h1, h2⟩ := boundary_closest h cl normal L hnorm hL _ _ hm hmax (not_lt.mp hb)
    refine ⟨_, h1, h2, ?_⟩
    rw [if_neg hb]
    by_cases h0 : norm3 (cl - boundaryPoint f 0 f.icr (cl - L • normal) (farEdge f (cl - L • normal)).1
        (farEdge f (cl - L • normal)).2) = 0
    · rw [if_pos h0]
      have hz := sub_eq_zero.mp (norm3_eq_zero.mp h0)
      refine ⟨hz, (farEdge f (cl - L • normal)).1, ?_⟩
      -- the centre is the boundary point: it lies in the plane and on the far edge
      have hq : dot f.normal (boundaryPoint f 0 f.icr (cl - L • normal) (farEdge f (cl - L • normal)).1
          (farEdge f (cl - L • normal)).2) = 0 := by
        obtain ⟨a, b, c, -, -, -, -, e⟩ := h1
        rw [e]
        simp only [dot_add_right, dot_smul_r, h.plane, mul_zero, add_zero]
      have hL1 : L = 0 := by
        rw [← hL, hz]; exact (hno _).mp hq
      apply le_antisymm
      · obtain ⟨a, b, c, ha, hb, hc, hs, e⟩ := h1
        have hle : ∀ j, dot (f.ne (farEdge f (cl - L • normal)).1) (v j) ≤ f.icr := by
          intro j
          rcases fin3_cases (farEdge f (cl - L • normal)).1 j with e | e | e
          · rw [e, h.start]
          · rw [e, h.stop]
          · rw [e]; exact (h.third _).le
        rw [e]
        simp only [dot_add_right, dot_smul_r]
        have := mul_le_mul_of_nonneg_left (hle 0) ha
        have := mul_le_mul_of_nonneg_left (hle 1) hb
        have := mul_le_mul_of_nonneg_left (hle 2) hc
        have : a * f.icr + b * f.icr + c * f.icr = f.icr := by linear_combination f.icr * hs
        linarith
      · have h3 := not_lt.mp hb
        rw [hm] at h3
        have h4 : cl - L • normal = cl := by rw [hL1, zero_smul, sub_zero]
        rw [← hz]
        refine h3.trans (le_of_eq ?_)
        rw [h4]
    · rw [if_neg h0]
      refine ⟨rfl, ?_, ?_⟩
      · rw [smul_smul, mul_one_div, div_self h0, one_smul]
      · have := norm3_sq (cl - boundaryPoint f 0 f.icr (cl - L • normal) (farEdge f (cl - L • normal)).1
          (farEdge f (cl - L • normal)).2)
        rw [← sqNorm, sqNorm_smul, ← this]
        field_simp


/-! ## Facets made by `utils.facet` -/

theorem edge_sum (v : Fin 3 → V3) : facetEdge v 0 + facetEdge v 1 + facetEdge v 2 = 0 := by
  show (v 1 - v 0) + (v 2 - v 1) + (v 0 - v 2) = 0
  abel

theorem facetNormal_eq (v : Fin 3 → V3) :
    facetNormal v = (1 / norm3 (cross (facetEdge v 0) (facetEdge v 1))) • cross (facetEdge v 0) (facetEdge v 1) := by
  unfold facetNormal
  dsimp only
  rw [show (2 * (0.5 * norm3 (cross (facetEdge v 0) (facetEdge v 1))) : ℝ) =
    norm3 (cross (facetEdge v 0) (facetEdge v 1)) by ring]

theorem facetNormal_edge (v : Fin 3 → V3) (i : Fin 3) : dot (facetNormal v) (facetEdge v i) = 0 := by
  rw [facetNormal_eq, dot_smul_l]
  have h0 := dot_cross_left (facetEdge v 0) (facetEdge v 1)
  have h1 := dot_cross_right (facetEdge v 0) (facetEdge v 1)
  have h2 : facetEdge v 2 = -(facetEdge v 0 + facetEdge v 1) := by
    have := edge_sum v
    rw [eq_neg_iff_add_eq_zero, add_comm]; exact this
  fin_cases i
  · show _ * dot _ (facetEdge v 0) = 0
    rw [h0, mul_zero]
  · show _ * dot _ (facetEdge v 1) = 0
    rw [h1, mul_zero]
  · show _ * dot _ (facetEdge v 2) = 0
    rw [h2, dot_neg_r, dot_add_right, h0, h1]; simp

theorem facetNormal_unit (v : Fin 3 → V3) (h : cross (facetEdge v 0) (facetEdge v 1) ≠ 0) :
    dot (facetNormal v) (facetNormal v) = 1 := by
  rw [facetNormal_eq, ← sqNorm, sqNorm_smul, ← norm3_sq]
  have := (norm3_pos h).ne'
  field_simp

/-- Every edge spans the same parallelogram with the next one. -/
theorem cross_edges (v : Fin 3 → V3) (i : Fin 3) :
    cross (facetEdge v i) (facetEdge v (i + 1)) = cross (facetEdge v 0) (facetEdge v 1) := by
  fin_cases i
  · rfl
  · show cross (v 2 - v 1) (v 0 - v 2) = cross (v 1 - v 0) (v 2 - v 1)
    apply v3_ext <;> simp <;> ring
  · show cross (v 0 - v 2) (v 1 - v 0) = cross (v 1 - v 0) (v 2 - v 1)
    apply v3_ext <;> simp <;> ring

theorem edge_ne_zero (v : Fin 3 → V3) (h : cross (facetEdge v 0) (facetEdge v 1) ≠ 0) (i : Fin 3) :
    facetEdge v i ≠ 0 := by
  intro h0
  apply h
  rw [← cross_edges v i, h0]
  apply v3_ext <;> simp

theorem norm3_edgeNormal (v : Fin 3 → V3) (h : cross (facetEdge v 0) (facetEdge v 1) ≠ 0) (i : Fin 3) :
    norm3 (cross (facetEdge v i) (facetNormal v)) = norm3 (facetEdge v i) := by
  unfold norm3
  rw [sqNorm_crossed, dot_comm, facetNormal_edge]
  rw [show sqNorm (facetNormal v) = 1 from facetNormal_unit v h]
  simp

theorem dot_edgeNormal (v : Fin 3 → V3) (h : cross (facetEdge v 0) (facetEdge v 1) ≠ 0) (i : Fin 3) (x : V3) :
    norm3 (facetEdge v i) * dot (edgeNormal v i) x = dot (cross (facetEdge v i) (facetNormal v)) x := by
  rw [edgeNormal, normalized, norm3_edgeNormal v h, dot_smul_l]
  have := (norm3_pos (edge_ne_zero v h i)).ne'
  field_simp

theorem dot_cross_swap (a b c : V3) : dot (cross a b) c = -dot b (cross a c) := by
  simp [dot]; ring

/-- Distance of the opposite vertex from an edge, times the length of the edge. -/
theorem edge_height (v : Fin 3 → V3) (h : cross (facetEdge v 0) (facetEdge v 1) ≠ 0) (i : Fin 3) :
    norm3 (facetEdge v i) * dot (edgeNormal v i) (facetEdge v (i + 1)) =
      -norm3 (cross (facetEdge v 0) (facetEdge v 1)) := by
  rw [dot_edgeNormal v h, dot_cross_swap, cross_edges, facetNormal_eq, dot_smul_l, ← sqNorm, ← norm3_sq]
  have := (norm3_pos h).ne'
  field_simp

theorem edge_along (v : Fin 3 → V3) (i : Fin 3) : dot (edgeNormal v i) (facetEdge v i) = 0 := by
  rw [edgeNormal, normalized, dot_smul_l, dot_cross_left, mul_zero]

theorem facetEdge_sub (v : Fin 3 → V3) (c : V3) : facetEdge (fun i => v i - c) = facetEdge v := by
  funext i
  show v (i + 1) - c - (v i - c) = v (i + 1) - v i
  abel

theorem facetNormal_sub (v : Fin 3 → V3) (c : V3) : facetNormal (fun i => v i - c) = facetNormal v := by
  unfold facetNormal; rw [facetEdge_sub]

theorem edgeNormal_sub (v : Fin 3 → V3) (c : V3) : edgeNormal (fun i => v i - c) = edgeNormal v := by
  funext i
  unfold edgeNormal; rw [facetEdge_sub, facetNormal_sub]

/-- Perimeter. -/
noncomputable def perimeter (v : Fin 3 → V3) : ℝ :=
  norm3 (facetEdge v 0) + norm3 (facetEdge v 1) + norm3 (facetEdge v 2)

theorem centre_eq (v : Fin 3 → V3) : perimeter v • (inscribedCircleCenter v - v 0) =
    perimeter v • ((1 / perimeter v) • (norm3 (facetEdge v 0) • (v 2 - v 0) + norm3 (facetEdge v 2) • (v 1 - v 0))) := by
  have e : norm3 (v 2 - v 0) = norm3 (v 0 - v 2) := by
    unfold norm3
    rw [show v 2 - v 0 = -(v 0 - v 2) by abel]
    congr 1
    simp [sqNorm, dot]
    ring
  rw [inscribedCircleCenter, e]
  congr 1
  show v 0 + _ - v 0 = _
  rw [add_sub_cancel_left]
  rfl

theorem utilsFacet_ok (v : Fin 3 → V3) (h : cross (facetEdge v 0) (facetEdge v 1) ≠ 0) :
    FacetOk (utilsFacet v).1 (fun i => v i - (utilsFacet v).2) := by
  set c := inscribedCircleCenter v with hc
  have l := fun i => norm3_pos (edge_ne_zero v h i)
  have hp : 0 < perimeter v := by
    unfold perimeter; have := l 0; have := l 1; have := l 2; linarith
  have hN := norm3_pos h
  set N := norm3 (cross (facetEdge v 0) (facetEdge v 1)) with hNd
  have hcen : perimeter v • (c - v 0) = norm3 (facetEdge v 0) • (v 2 - v 0) + norm3 (facetEdge v 2) • (v 1 - v 0) := by
    rw [hc, centre_eq, smul_smul, mul_one_div, div_self hp.ne', one_smul]
  have e0 : v 1 - v 0 = facetEdge v 0 := rfl
  have e1 : v 2 - v 1 = facetEdge v 1 := rfl
  have e2 : v 0 - v 2 = facetEdge v 2 := rfl
  -- scalar products with the centre
  have hdc : ∀ w : V3, perimeter v * dot w (c - v 0) =
      norm3 (facetEdge v 2) * dot w (facetEdge v 0) - norm3 (facetEdge v 0) * dot w (facetEdge v 2) := by
    intro w
    have := congrArg (dot w) hcen
    rw [dot_smul_r, dot_add_right, dot_smul_r, dot_smul_r, e0,
      show v 2 - v 0 = -facetEdge v 2 by rw [← e2]; abel, dot_neg_r] at this
    linarith
  have hicr : (utilsFacet v).1.icr = N / perimeter v := by
    show norm3 (facetEdge (fun i => v i - c) 0) * dot (edgeNormal (fun i => v i - c) 0) (facetEdge (fun i => v i - c) 2) /
      perimeter (fun i => v i - c) = _
    have hpe : perimeter (fun i => v i - c) = perimeter v := by unfold perimeter; rw [facetEdge_sub]
    rw [facetEdge_sub, edgeNormal_sub, hpe]
    congr 1
    have a := edge_height v h 0
    rw [show (0 : Fin 3) + 1 = 1 from rfl, ← hNd] at a
    have b := edge_along v 0
    have c2 : facetEdge v 2 = -facetEdge v 0 - facetEdge v 1 := by
      rw [← e0, ← e1, ← e2]; abel
    rw [c2, dot_sub_right, dot_neg_r, b]
    linarith
  have hnv : ∀ i, dot (facetNormal v) (v i - c) = 0 := by
    have h0 : dot (facetNormal v) (c - v 0) = 0 := by
      have := hdc (facetNormal v)
      rw [facetNormal_edge, facetNormal_edge, mul_zero, mul_zero, sub_zero] at this
      exact (mul_eq_zero.mp this).resolve_left hp.ne'
    have h00 : dot (facetNormal v) (v 0 - c) = 0 := by
      rw [show v 0 - c = -(c - v 0) by abel, dot_neg_r, h0, neg_zero]
    intro i
    fin_cases i
    · exact h00
    · show dot (facetNormal v) (v 1 - c) = 0
      rw [show v 1 - c = facetEdge v 0 + (v 0 - c) by rw [← e0]; abel, dot_add_right, facetNormal_edge, h00, add_zero]
    · show dot (facetNormal v) (v 2 - c) = 0
      rw [show v 2 - c = -facetEdge v 2 + (v 0 - c) by rw [← e2]; abel, dot_add_right, dot_neg_r, facetNormal_edge, h00]
      simp
  -- distance of the centre from each edge
  have hh := fun i => edge_height v h i
  have ha := fun i => edge_along v i
  have hdist : ∀ i, perimeter v * dot (edgeNormal v i) (v i - c) = N := by
    have step : ∀ i, perimeter v * dot (edgeNormal v i) (v i - c) =
        perimeter v * dot (edgeNormal v i) (v i - v 0) - perimeter v * dot (edgeNormal v i) (c - v 0) := by
      intro i
      rw [show v i - c = (v i - v 0) - (c - v 0) by abel, dot_sub_right]; ring
    intro i
    rw [step, hdc]
    have hhi := hh i
    have hai := ha i
    fin_cases i
    · show perimeter v * dot (edgeNormal v 0) (v 0 - v 0) - (norm3 (facetEdge v 2) * dot (edgeNormal v 0) (facetEdge v 0) -
        norm3 (facetEdge v 0) * dot (edgeNormal v 0) (facetEdge v 2)) = N
      change norm3 (facetEdge v 0) * dot (edgeNormal v 0) (facetEdge v 1) = -N at hhi
      change dot (edgeNormal v 0) (facetEdge v 0) = 0 at hai
      have z : dot (edgeNormal v 0) (v 0 - v 0) = 0 := by rw [sub_self]; simp [dot]
      have c2 : facetEdge v 2 = -facetEdge v 0 - facetEdge v 1 := by
        rw [← e0, ← e1, ← e2]; abel
      have q : dot (edgeNormal v 0) (facetEdge v 2) = -dot (edgeNormal v 0) (facetEdge v 1) := by
        rw [c2, dot_sub_right, dot_neg_r, hai]; ring
      rw [z, hai, q]; linarith
    · show perimeter v * dot (edgeNormal v 1) (v 1 - v 0) - (norm3 (facetEdge v 2) * dot (edgeNormal v 1) (facetEdge v 0) -
        norm3 (facetEdge v 0) * dot (edgeNormal v 1) (facetEdge v 2)) = N
      change norm3 (facetEdge v 1) * dot (edgeNormal v 1) (facetEdge v 2) = -N at hhi
      change dot (edgeNormal v 1) (facetEdge v 1) = 0 at hai
      have c0 : facetEdge v 0 = -facetEdge v 1 - facetEdge v 2 := by
        rw [← e0, ← e1, ← e2]; abel
      have q : dot (edgeNormal v 1) (facetEdge v 0) = -dot (edgeNormal v 1) (facetEdge v 2) := by
        rw [c0, dot_sub_right, dot_neg_r, hai]; ring
      rw [e0, q, perimeter]; linarith
    · show perimeter v * dot (edgeNormal v 2) (v 2 - v 0) - (norm3 (facetEdge v 2) * dot (edgeNormal v 2) (facetEdge v 0) -
        norm3 (facetEdge v 0) * dot (edgeNormal v 2) (facetEdge v 2)) = N
      change norm3 (facetEdge v 2) * dot (edgeNormal v 2) (facetEdge v 0) = -N at hhi
      change dot (edgeNormal v 2) (facetEdge v 2) = 0 at hai
      rw [show v 2 - v 0 = -facetEdge v 2 by rw [← e2]; abel, dot_neg_r, hai]
      linarith
  have hstart : ∀ i, dot (edgeNormal v i) (v i - c) = N / perimeter v := by
    intro i
    rw [eq_div_iff hp.ne', mul_comm]; exact hdist i
  have hicr0 : 0 < N / perimeter v := div_pos hN hp
  have hv : ∀ i, v i - c ≠ 0 := by
    intro i h0
    have := hstart i
    rw [h0] at this
    have z : dot (edgeNormal v i) 0 = 0 := by simp [dot]
    rw [z] at this
    linarith
  refine ⟨?_, ?_, ?_, ?_, ?_, ?_, ?_, ?_, ?_⟩
  · show dot (facetNormal fun i => v i - c) (facetNormal fun i => v i - c) = 1
    rw [facetNormal_sub]; exact facetNormal_unit v h
  · intro i
    show dot (facetNormal fun i => v i - c) (v i - c) = 0
    rw [facetNormal_sub]; exact hnv i
  · intro i
    show dot (edgeNormal (fun i => v i - c) i) (edgeNormal (fun i => v i - c) i) = 1
    rw [edgeNormal_sub, edgeNormal, normalized, norm3_edgeNormal v h, ← sqNorm, sqNorm_smul, ← norm3_sq,
      norm3_edgeNormal v h]
    have := (l i).ne'
    field_simp
  · intro i
    show dot (facetNormal fun i => v i - c) (edgeNormal (fun i => v i - c) i) = 0
    rw [facetNormal_sub, edgeNormal_sub, edgeNormal, normalized, dot_smul_r, dot_comm, dot_cross_right, mul_zero]
  · intro i
    show dot (edgeNormal (fun i => v i - c) i) (v i - c) = (utilsFacet v).1.icr
    rw [edgeNormal_sub, hicr]; exact hstart i
  · intro i
    show dot (edgeNormal (fun i => v i - c) i) (v (i + 1) - c) = (utilsFacet v).1.icr
    rw [edgeNormal_sub, hicr, show v (i + 1) - c = facetEdge v i + (v i - c) by
      show v (i + 1) - c = (v (i + 1) - v i) + (v i - c); abel, dot_add_right, edge_along, zero_add]
    exact hstart i
  · intro i
    show dot (edgeNormal (fun i => v i - c) i) (v (i + 2) - c) < (utilsFacet v).1.icr
    rw [edgeNormal_sub, hicr, show v (i + 2) - c = facetEdge v (i + 1) + facetEdge v i + (v i - c) by
      show v (i + 2) - c = (v (i + 1 + 1) - v (i + 1)) + (v (i + 1) - v i) + (v i - c)
      rw [fin3_11]; abel, dot_add_right, dot_add_right, edge_along, hstart]
    have hhi := hh i
    have : dot (edgeNormal v i) (facetEdge v (i + 1)) < 0 := by
      by_contra hge
      have := mul_nonneg (l i).le (not_lt.mp hge)
      linarith
    linarith
  · rw [hicr]; exact hicr0.le
  · intro i
    show norm3 (v i - c) • ((1 / norm3 (v i - c)) • (v i - c)) = v i - c
    rw [smul_smul, mul_one_div, div_self (norm3_pos (hv i)).ne', one_smul]

end Verif.Mech
