import Verif.Mech.GeomLemmas
import Verif.Mech.ContactProps

/-!
# C89-C92: contact geometry of spheres, boxes and facets

Specification: the contact of a sphere with a body is described by the point of the body closest to the centre of the sphere
(at its periodic image).  `IsClosest` does not refer to the model.
-/
namespace Verif.Mech

/-- `q` is the point of `S` closest to `p`. -/
def IsClosest (S : V3 → Prop) (p q : V3) : Prop := S q ∧ ∀ x, S x → norm3 (p - q) ≤ norm3 (p - x)

/-- The points of a body given in local coordinates. -/
def placed (s : State) (S : V3 → Prop) (x : V3) : Prop := ∃ y, S y ∧ x = s.pos + s.ori.rot y

/-- A sphere of the given radius touches the body at its point `q`: what the geometry of the contact must be. -/
structure Touches (p : V3) (radius : ℝ) (q : V3) (g : ScGeom) : Prop where
  depth : g.pd = radius - norm3 (p - q)
  normal : p - q = norm3 (p - q) • g.normal
  unit : norm3 g.normal = 1
  /-- in the middle between the body's closest and the sphere's deepest point -/
  point : g.contactPoint = (1 / 2 : ℝ) • (q + (p - radius • g.normal))

/-! ## Rigid placement -/

theorem transpose_rot (q : Quat) (x : V3) : q.toMat.transpose.mulVec x = q.conj.rot x := by
  rw [← Quat.toMat_mulVec]
  congr 1
  ext i j
  fin_cases i <;> fin_cases j <;> simp [Quat.toMat, Quat.conj] <;> ring

theorem sqNorm_rot {q : Quat} (h : q.sqNorm = 1) (x : V3) : Verif.Mech.sqNorm (q.rot x) = Verif.Mech.sqNorm x :=
  Quat.dot_rot h x x

theorem norm3_rot {q : Quat} (h : q.sqNorm = 1) (x : V3) : norm3 (q.rot x) = norm3 x := by
  rw [norm3, sqNorm_rot h, norm3]

theorem norm3_le {a b : V3} (h : sqNorm a ≤ sqNorm b) : norm3 a ≤ norm3 b := Real.sqrt_le_sqrt h

/-- The centre of the sphere in local coordinates of the body. -/
def localCentre (s1 s2 : State) (c : GeomCtx) : V3 := s1.ori.conj.rot (s2.pos + c.shift2 - s1.pos)

theorem world_sub {s1 s2 : State} {c : GeomCtx} (ho : s1.ori.sqNorm = 1) (y : V3) :
    s2.pos + c.shift2 - (s1.pos + s1.ori.rot y) = s1.ori.rot (localCentre s1 s2 c - y) := by
  rw [localCentre, Quat.rot_sub, Quat.rot_conj_rot ho]
  abel

theorem world_norm {s1 s2 : State} {c : GeomCtx} (ho : s1.ori.sqNorm = 1) (y : V3) :
    norm3 (s2.pos + c.shift2 - (s1.pos + s1.ori.rot y)) = norm3 (localCentre s1 s2 c - y) := by
  rw [world_sub ho, norm3_rot ho]

theorem placed_closest {s1 s2 : State} {c : GeomCtx} (ho : s1.ori.sqNorm = 1) {S : V3 → Prop} {q : V3} (hq : S q)
    (h : ∀ x, S x → sqNorm (localCentre s1 s2 c - q) ≤ sqNorm (localCentre s1 s2 c - x)) :
    IsClosest (placed s1 S) (s2.pos + c.shift2) (s1.pos + s1.ori.rot q) := by
  refine ⟨⟨q, hq, rfl⟩, ?_⟩
  rintro _ ⟨x, hx, rfl⟩
  rw [world_norm ho, world_norm ho]
  exact norm3_le (h x hx)

theorem cauchy_unit {n w : V3} (hn : dot n n = 1) : dot n w ≤ norm3 w := by
  have h := sqNorm_crossed n w
  rw [show sqNorm n = 1 from hn, one_mul] at h
  have h1 := sqNorm_nonneg (cross n w)
  apply Real.le_sqrt_of_sq_le
  linarith

/-! ## C89: two spheres -/

/-- **C89.** Two spheres: undefined only when the centres coincide; without a previous contact one is reported exactly when the
centres are not farther apart than `factor` times the sum of radii; its normal points from the first to the second centre, its
depth is the overlap, and the contact point is on the line of centres, half the depth inside each sphere. -/
theorem C89_spheres (factor : ℝ) (old : Option ScGeom) (isReal force : Bool) (r1 r2 : ℝ) (s1 s2 : State) (c : GeomCtx)
    (hr : 0 ≤ factor * (r1 + r2)) :
    match sphereSphere factor old isReal force r1 r2 s1 s2 c with
    | .ok (some g) =>
      norm3 g.normal = 1 ∧ s2.pos + c.shift2 - s1.pos = norm3 (s2.pos + c.shift2 - s1.pos) • g.normal ∧
      g.pd = r1 + r2 - norm3 (s2.pos + c.shift2 - s1.pos) ∧
      g.contactPoint = s1.pos + (r1 - g.pd / 2) • g.normal ∧
      g.contactPoint = s2.pos + c.shift2 - (r2 - g.pd / 2) • g.normal ∧
      (isReal = true ∨ force = true ∨ norm3 (s2.pos + c.shift2 - s1.pos) ≤ factor * (r1 + r2))
    | .ok none => isReal = false ∧ force = false ∧ factor * (r1 + r2) < norm3 (s2.pos + c.shift2 - s1.pos)
    | .throws => False
    | .ub => s2.pos + c.shift2 = s1.pos := by
  have hsq := norm3_sq (s2.pos + c.shift2 - s1.pos)
  have hnn := norm3_nonneg (s2.pos + c.shift2 - s1.pos)
  cases hs : sphereSphere factor old isReal force r1 r2 s1 s2 c with
  | throws =>
    unfold sphereSphere at hs
    simp only at hs
    split_ifs at hs
  | ub =>
    unfold sphereSphere at hs
    simp only at hs
    split_ifs at hs with h1 h2
    exact sub_eq_zero.mp (norm3_eq_zero.mp h2)
  | ok o =>
    cases o with
    | none =>
      unfold sphereSphere at hs
      simp only at hs
      split_ifs at hs with h1 h2
      · obtain ⟨a, b, h⟩ := h1
        refine ⟨by simpa using a, by simpa using b, ?_⟩
        by_contra hc
        have := mul_self_le_mul_self hnn (not_lt.mp hc)
        nlinarith
      · injection hs with hs
        simp at hs
    | some g =>
      obtain ⟨h0, hn, hpd, -, -, hcp⟩ := sphereSphere_geom hs
      have hb : s2.pos + c.shift2 - s1.pos = norm3 (s2.pos + c.shift2 - s1.pos) • g.normal := by
        rw [hn, smul_smul, mul_one_div, div_self h0, one_smul]
      have hcp' : g.contactPoint = s1.pos + (r1 - g.pd / 2) • g.normal := by
        rw [hcp, show (0.5 : ℝ) * g.pd = g.pd / 2 by norm_num; ring]
      refine ⟨?_, hb, hpd, hcp', ?_, ?_⟩
      · rw [hn, norm3, sqNorm_smul, ← hsq]
        rw [show (1 / norm3 (s2.pos + c.shift2 - s1.pos)) ^ 2 *
          (norm3 (s2.pos + c.shift2 - s1.pos) * norm3 (s2.pos + c.shift2 - s1.pos)) = 1 by field_simp, Real.sqrt_one]
      · rw [hcp']
        have e : s2.pos + c.shift2 = s1.pos + norm3 (s2.pos + c.shift2 - s1.pos) • g.normal := by
          rw [← hb]; abel
        rw [e]
        have e2 : norm3 (s2.pos + c.shift2 - s1.pos) = r1 + r2 - g.pd := by rw [hpd]; ring
        rw [e2]
        apply v3_ext <;> simp <;> ring
      · by_contra hc
        push Not at hc
        obtain ⟨a, b, hc⟩ := hc
        have hlt : (factor * (r1 + r2)) ^ 2 - sqNorm (s2.pos + c.shift2 - s1.pos) < 0 := by
          rw [← hsq]
          have := mul_self_lt_mul_self hr hc
          nlinarith
        unfold sphereSphere at hs
        simp only at hs
        rw [if_pos ⟨by simpa using a, by simpa using b, hlt⟩] at hs
        injection hs with hs
        simp at hs

/-- The case `some` of `C89_spheres` arises: two unit spheres one and a half apart. -/
example : ∃ g, sphereSphere 1 none false false 1 1 (exState 0 0) { exState 0 0 with pos := ![3 / 2, 0, 0] } exCtx =
    .ok (some g) := by
  have h : norm3 (![3 / 2, 0, 0] + exCtx.shift2 - (exState 0 0).pos) = 3 / 2 := by
    have : sqNorm (![3 / 2, 0, 0] + exCtx.shift2 - (exState 0 0).pos) = (3 / 2) ^ 2 := by
      simp [sqNorm, dot, exCtx, exState]; norm_num
    rw [norm3, this, Real.sqrt_sq (by norm_num)]
  have := C89_spheres 1 none false false 1 1 (exState 0 0) { exState 0 0 with pos := ![3 / 2, 0, 0] } exCtx (by norm_num)
  revert this
  cases sphereSphere 1 none false false 1 1 (exState 0 0) { exState 0 0 with pos := ![3 / 2, 0, 0] } exCtx with
  | throws => exact fun h => h.elim
  | ub =>
    intro e
    have e0 := congrFun e 0
    simp [exCtx, exState] at e0
  | ok o =>
    cases o with
    | none =>
      rintro ⟨-, -, h3⟩
      simp only at h3
      rw [h] at h3
      norm_num at h3
    | some g => exact fun _ => ⟨g, rfl⟩

/-! ## C91: facet and sphere -/

theorem triangle_plane {f : Facet} {v : Fin 3 → V3} (h : FacetOk f v) {x : V3} (hx : InTriangle v x) :
    dot f.normal x = 0 := by
  obtain ⟨a, b, c, -, -, -, -, rfl⟩ := hx
  simp only [dot_add_right, dot_smul_r, h.plane, mul_zero, add_zero]

theorem facetSphere_ok {f : Facet} {v : Fin 3 → V3} (h : FacetOk f v) (radius : ℝ) (old : Option ScGeom)
    (isReal force : Bool) (s1 s2 : State) (c : GeomCtx) (ho : s1.ori.sqNorm = 1) :
    match facetSphere 0 f radius old isReal force s1 s2 c with
    | .ok (some g) => (∃ q, IsClosest (placed s1 (InTriangle v)) (s2.pos + c.shift2) q ∧
        Touches (s2.pos + c.shift2) radius q g) ∧ (isReal = false → 0 < g.pd)
    | .ok none => isReal = false ∧ ∀ x, placed s1 (InTriangle v) x → radius ≤ norm3 (s2.pos + c.shift2 - x)
    | .throws => False
    | .ub => ∃ y, InTriangle v y ∧ (∃ i, dot (f.ne i) y = f.icr) ∧ s2.pos + c.shift2 = s1.pos + s1.ori.rot y := by
  unfold facetSphere
  simp only [transpose_rot, Quat.toMat_mulVec]
  rw [show s1.ori.conj.rot (s2.pos + c.shift2 - s1.pos) = localCentre s1 s2 c from rfl]
  set cl := localCentre s1 s2 c with hcl
  have hcond : ∃ (normal : V3) (L : ℝ), (if dot f.normal cl < 0 then -f.normal else f.normal) = normal ∧
      (if dot f.normal cl < 0 then -dot f.normal cl else dot f.normal cl) = L ∧
      (normal = f.normal ∨ normal = -f.normal) ∧ dot normal cl = L ∧ 0 ≤ L := by
    by_cases hneg : dot f.normal cl < 0
    · refine ⟨-f.normal, -dot f.normal cl, if_pos hneg, if_pos hneg, Or.inr rfl, dot_neg_l _ _, by linarith⟩
    · exact ⟨f.normal, dot f.normal cl, if_neg hneg, if_neg hneg, Or.inl rfl, rfl, not_lt.mp hneg⟩
  obtain ⟨normal, L, e1, e2, hnorm, hL, hL0⟩ := hcond
  rw [e1, e2]
  by_cases hfar : L > radius ∧ ¬ isReal = true ∧ ¬ force = true
  · rw [if_pos hfar]
    refine ⟨by simpa using hfar.2.1, ?_⟩
    rintro _ ⟨y, hy, rfl⟩
    rw [world_norm ho]
    have hnn : dot normal normal = 1 := by
      rcases hnorm with rfl | rfl
      · exact h.nn
      · rw [dot_neg_l, dot_neg_r, neg_neg]; exact h.nn
    have hp : dot normal y = 0 := by
      rcases hnorm with rfl | rfl
      · exact triangle_plane h hy
      · rw [dot_neg_l, triangle_plane h hy, neg_zero]
    have := cauchy_unit (w := localCentre s1 s2 c - y) hnn
    rw [dot_sub_right, hp, sub_zero] at this
    rw [← hcl] at this ⊢
    linarith [hfar.1]
  · rw [if_neg hfar]
    have hicr : ¬ f.icr - radius * 0 < 0 := by rw [mul_zero, sub_zero]; exact not_lt.mpr h.icr0
    rw [if_neg hicr, if_neg hicr, mul_zero, sub_zero]
    obtain ⟨q, hq, hclose, hres⟩ := facetLocal_spec h radius cl normal L hnorm hL hL0
    have hC := placed_closest ho hq hclose
    cases hl : facetLocal f 0 f.icr radius cl normal L with
    | throws => rw [hl] at hres; exact hres
    | ub =>
      rw [hl] at hres
      refine ⟨q, hq, hres.2, ?_⟩
      have := world_sub (s1 := s1) (s2 := s2) (c := c) ho q
      rw [← hcl, hres.1, sub_self] at this
      have z : s1.ori.rot 0 = 0 := by
        have := Quat.rot_smul s1.ori 0 0
        rwa [zero_smul, zero_smul] at this
      rw [z] at this
      exact sub_eq_zero.mp this
    | ok r =>
      obtain ⟨n, pd⟩ := r
      rw [hl] at hres
      obtain ⟨hpd, hn, hu⟩ := hres
      simp only
      have hwn := world_norm (s1 := s1) (s2 := s2) (c := c) ho q
      rw [← hcl] at hwn
      by_cases hk : pd > 0 ∨ isReal = true
      · rw [if_pos hk]
        obtain ⟨a1, a2, a3, a4, a5⟩ := precompute_fields
          { (old.getD ScGeom.new) with
            contactPoint := s2.pos + c.shift2 - (radius - 0.5 * pd) • s1.ori.rot n, pd := pd, r1 := 2 * radius,
            r2 := radius }
          s1 s2 { c with avoidRatcheting := false } (s1.ori.rot n) old.isNone
        have hdir : s2.pos + c.shift2 - (s1.pos + s1.ori.rot q) =
            norm3 (s2.pos + c.shift2 - (s1.pos + s1.ori.rot q)) • s1.ori.rot n := by
          rw [hwn, ← Quat.rot_smul, ← hn, world_sub ho]
        refine ⟨⟨_, hC, ?_, ?_, ?_, ?_⟩, fun hr => ?_⟩
        · rw [a2, hwn]; exact hpd
        · rw [a1]; exact hdir
        · rw [a1, norm3_rot ho]; exact norm3_unit hu
        · rw [a5, a1]
          simp only
          have e : s1.pos + s1.ori.rot q = s2.pos + c.shift2 - norm3 (cl - q) • s1.ori.rot n := by
            rw [← hwn, ← hdir]; abel
          rw [e, hpd]
          generalize norm3 (cl - q) = l
          generalize s1.ori.rot n = N
          apply v3_ext <;> simp <;> ring
        · rw [a2]
          rcases hk with hk | hk
          · exact hk
          · rw [hr] at hk; simp at hk
      · rw [if_neg hk]
        push Not at hk
        refine ⟨by simpa using hk.2, ?_⟩
        intro x hx
        have h1 := hC.2 x hx
        rw [hwn] at h1
        have h2 := hk.1
        linarith

/-- **C91.** A sphere and a facet made from three non-collinear points: the contact geometry is that of the point of the triangle
closest to the centre of the sphere; without a previous contact one is reported exactly when that point is closer than the
radius.  Partial: a centre exactly on the boundary of the triangle is undefined (`C91_violated`), and `shrinkFactor` is zero. -/
theorem C91_facet_partial (v : Fin 3 → V3) (hv : cross (v 1 - v 0) (v 2 - v 1) ≠ 0) (radius : ℝ) (old : Option ScGeom)
    (isReal force : Bool) (s1 s2 : State) (c : GeomCtx) (ho : s1.ori.sqNorm = 1) :
    match facetSphere 0 (utilsFacet v).1 radius old isReal force s1 s2 c with
    | .ok (some g) =>
      (∃ q, IsClosest (placed s1 (InTriangle fun i => v i - (utilsFacet v).2)) (s2.pos + c.shift2) q ∧
        Touches (s2.pos + c.shift2) radius q g) ∧ (isReal = false → 0 < g.pd)
    | .ok none => isReal = false ∧
        ∀ x, placed s1 (InTriangle fun i => v i - (utilsFacet v).2) x → radius ≤ norm3 (s2.pos + c.shift2 - x)
    | .throws => False
    | .ub => placed s1 (InTriangle fun i => v i - (utilsFacet v).2) (s2.pos + c.shift2) := by
  have h := facetSphere_ok (utilsFacet_ok v hv) radius old isReal force s1 s2 c ho
  revert h
  cases facetSphere 0 (utilsFacet v).1 radius old isReal force s1 s2 c with
  | throws => exact fun h => h
  | ub =>
    rintro ⟨y, hy, -, e⟩
    exact ⟨y, hy, e⟩
  | ok o => cases o with
    | none => exact fun h => h
    | some g => exact fun h => h

/-- The facet as created by `utils.facet` occupies the triangle it was created from. -/
theorem C91_initial (v : Fin 3 → V3) (s : State) (hp : s.pos = (utilsFacet v).2) (ho : s.ori = Quat.one) (x : V3) :
    placed s (InTriangle fun i => v i - (utilsFacet v).2) x ↔ InTriangle v x := by
  have e : ∀ (k : V3) (a b c : ℝ), a + b + c = 1 →
      k + (a • (v 0 - k) + b • (v 1 - k) + c • (v 2 - k)) = a • v 0 + b • v 1 + c • v 2 := by
    intro k a b c hs
    apply v3_ext
    · simp; linear_combination -(k 0) * hs
    · simp; linear_combination -(k 1) * hs
    · simp; linear_combination -(k 2) * hs
  constructor
  · rintro ⟨y, ⟨a, b, c, ha, hb, hc, hs, rfl⟩, rfl⟩
    refine ⟨a, b, c, ha, hb, hc, hs, ?_⟩
    rw [ho, Quat.rot_one, hp]
    exact e _ a b c hs
  · rintro ⟨a, b, c, ha, hb, hc, hs, rfl⟩
    refine ⟨_, ⟨a, b, c, ha, hb, hc, hs, rfl⟩, ?_⟩
    rw [ho, Quat.rot_one, hp]
    exact (e _ a b c hs).symm

/-- A triangle for the examples: legs three and four. -/
def exTri (k : ℝ) : Fin 3 → V3 := ![0, ![3 * k, 0, 0], ![0, 4 * k, 0]]

theorem exTri_ok {k : ℝ} (hk : k ≠ 0) : cross (exTri k 1 - exTri k 0) (exTri k 2 - exTri k 1) ≠ 0 := by
  intro h
  have := congrFun h 2
  rw [cross_two'] at this
  simp [exTri] at this
  exact hk this

theorem norm3_of_sq {a : V3} {l : ℝ} (hl : 0 ≤ l) (h : sqNorm a = l ^ 2) : norm3 a = l := by
  rw [norm3, h, Real.sqrt_sq hl]

theorem exTri_centre {k : ℝ} (hk : 0 < k) : inscribedCircleCenter (exTri k) = ![k, k, 0] := by
  have h1 : norm3 (exTri k 1 - exTri k 0) = 3 * k :=
    norm3_of_sq (by linarith) (by simp [exTri, sqNorm, dot]; ring)
  have h2 : norm3 (exTri k 2 - exTri k 1) = 5 * k :=
    norm3_of_sq (by linarith) (by simp [exTri, sqNorm, dot]; ring)
  have h3 : norm3 (exTri k 0 - exTri k 2) = 4 * k :=
    norm3_of_sq (by linarith) (by simp [exTri, sqNorm, dot]; ring)
  have h4 : norm3 (exTri k 2 - exTri k 0) = 4 * k :=
    norm3_of_sq (by linarith) (by simp [exTri, sqNorm, dot]; ring)
  rw [inscribedCircleCenter, h1, h2, h3, h4]
  apply v3_ext
  · simp [exTri]; field_simp; ring
  · simp [exTri]; field_simp; ring
  · simp [exTri]

/-- The case `some` of `C91_facet_partial` arises: a unit sphere half above the centre of the inscribed circle. -/
example : ∃ g, facetSphere 0 (utilsFacet (exTri 1)).1 1 none false false
    { exState 0 0 with pos := (utilsFacet (exTri 1)).2 } { exState 0 0 with pos := ![1, 1, 1 / 2] } exCtx =
    .ok (some g) := by
  have h := C91_facet_partial (exTri 1) (exTri_ok one_ne_zero) 1 none false false
    { exState 0 0 with pos := (utilsFacet (exTri 1)).2 } { exState 0 0 with pos := ![1, 1, 1 / 2] } exCtx
    (by simp [exState, Quat.one, Quat.sqNorm])
  have hi := C91_initial (exTri 1) { exState 0 0 with pos := (utilsFacet (exTri 1)).2 } rfl rfl
  have hin : InTriangle (exTri 1) ![1, 1, 0] :=
    ⟨5 / 12, 1 / 3, 1 / 4, by norm_num, by norm_num, by norm_num, by norm_num, by apply v3_ext <;> simp [exTri]⟩
  revert h
  cases facetSphere 0 (utilsFacet (exTri 1)).1 1 none false false
    { exState 0 0 with pos := (utilsFacet (exTri 1)).2 } { exState 0 0 with pos := ![1, 1, 1 / 2] } exCtx with
  | throws => exact fun h => h.elim
  | ub =>
    intro h
    obtain ⟨a, b, c, -, -, -, -, e⟩ := (hi _).mp h
    have e2 := congrFun e 2
    simp [exCtx, exTri] at e2
  | ok o =>
    cases o with
    | some g => exact fun _ => ⟨g, rfl⟩
    | none =>
      rintro ⟨-, h⟩
      have h1 := h _ ((hi _).mpr hin)
      have h2 : norm3 (![1, 1, 1 / 2] + exCtx.shift2 - ![1, 1, 0]) = 1 / 2 :=
        norm3_of_sq (by norm_num) (by simp [exCtx, sqNorm, dot]; norm_num)
      simp only at h1
      rw [h2] at h1
      norm_num at h1

theorem facetLocal_vertex {f : Facet} {v : Fin 3 → V3} (h : FacetOk f v) (radius : ℝ) (i : Fin 3) :
    facetLocal f 0 f.icr radius (v i) f.normal 0 = .ub := by
  obtain ⟨hm, hmax⟩ := farEdge_spec f (v i - (0 : ℝ) • f.normal)
  have hge : f.icr ≤ (farEdge f (v i - (0 : ℝ) • f.normal)).2 := by
    have := hmax i
    rw [zero_smul, sub_zero, h.start] at this
    rw [zero_smul, sub_zero]; exact this
  obtain ⟨-, h2⟩ := boundary_closest h (v i) f.normal 0 (Or.inl rfl) (h.plane i) _ _ hm hmax hge
  have h3 := h2 _ (in_vertex v i)
  have h4 : sqNorm (v i - v i) = 0 := by rw [sub_self]; simp [sqNorm, dot]
  rw [h4] at h3
  have h5 := sqNorm_eq_zero.mp (le_antisymm h3 (sqNorm_nonneg _))
  unfold facetLocal
  dsimp only
  rw [if_neg (not_lt.mpr hge), if_pos (norm3_eq_zero.mpr h5)]

/-- **C91 (violated at the boundary).** A sphere whose centre lies at a vertex of the facet gets a contact normal computed by
dividing zero by zero. -/
theorem C91_violated (v : Fin 3 → V3) (hv : cross (v 1 - v 0) (v 2 - v 1) ≠ 0) (i : Fin 3) (radius : ℝ) (hr : 0 ≤ radius)
    (s1 s2 : State) (c : GeomCtx) (h1 : s1.pos = (utilsFacet v).2) (ho : s1.ori = Quat.one) (h2 : s2.pos = v i)
    (hc : c.shift2 = 0) : facetSphere 0 (utilsFacet v).1 radius none false false s1 s2 c = .ub := by
  have hok := utilsFacet_ok v hv
  unfold facetSphere
  simp only [transpose_rot]
  have hcl : s1.ori.conj.rot (s2.pos + c.shift2 - s1.pos) = v i - (utilsFacet v).2 := by
    rw [h1, ho, h2, hc, add_zero]
    have : Quat.one.conj = Quat.one := by simp [Quat.conj, Quat.one]
    rw [this, Quat.rot_one]
  rw [hcl]
  have hL : dot (utilsFacet v).1.normal (v i - (utilsFacet v).2) = 0 := hok.plane i
  rw [hL]
  simp only [lt_irrefl, if_false]
  rw [if_neg (by rintro ⟨h, -⟩; exact absurd h (not_lt.mpr hr))]
  have hicr : ¬ (utilsFacet v).1.icr - radius * 0 < 0 := by rw [mul_zero, sub_zero]; exact not_lt.mpr hok.icr0
  rw [if_neg hicr, if_neg hicr, mul_zero, sub_zero, facetLocal_vertex hok radius i]

/-! ## C92: giving a facet new vertices -/

/-- **C92.** Creating the facet again from the new vertices gives the contacts of the new triangle. -/
theorem C92_created_partial (v : Fin 3 → V3) (hv : cross (v 1 - v 0) (v 2 - v 1) ≠ 0) (radius : ℝ) (s1 s2 : State) (c : GeomCtx)
    (hp : s1.pos = (utilsFacet v).2) (ho : s1.ori = Quat.one) (x : V3) (hx : InTriangle v x)
    (hlt : norm3 (s2.pos + c.shift2 - x) < radius) :
    facetSphere 0 (utilsFacet v).1 radius none false false s1 s2 c ≠ .ok none := by
  intro h
  have := C91_facet_partial v hv radius none false false s1 s2 c (by rw [ho]; simp [Quat.one, Quat.sqNorm])
  rw [h] at this
  have := this.2 x ((C91_initial v s1 hp ho x).mpr hx)
  linarith

theorem facetSphere_vertices (f : Facet) (v : Fin 3 → V3) (radius : ℝ) (s1 s2 : State) (c : GeomCtx) :
    facetSphere 0 (setNewVertices f v).1 radius none false false s1 s2 c =
      facetSphere 0 f radius none false false s1 s2 c := rfl

theorem setNewVertices_pos (f : Facet) (v : Fin 3 → V3) : (setNewVertices f v).2 = inscribedCircleCenter v := rfl

theorem utilsFacet_pos (v : Fin 3 → V3) : (utilsFacet v).2 = inscribedCircleCenter v := rfl

/-- **C92 (violated).** After `setNewVerticesOfFacet` the contacts are still those of the old triangle, moved to the new position:
a sphere overlapping the new triangle by half its radius gets no contact. -/
theorem C92_violated : ∃ (v v' : Fin 3 → V3) (s1 s2 : State) (x : V3), cross (v 1 - v 0) (v 2 - v 1) ≠ 0 ∧
    cross (v' 1 - v' 0) (v' 2 - v' 1) ≠ 0 ∧ s1.pos = (setNewVertices (utilsFacet v).1 v').2 ∧ s1.ori = Quat.one ∧
    InTriangle v' x ∧ norm3 (s2.pos + exCtx.shift2 - x) < 1 ∧
    facetSphere 0 (setNewVertices (utilsFacet v).1 v').1 1 none false false s1 s2 exCtx = .ok none := by
  have hc : inscribedCircleCenter (exTri 10) = ![10, 10, 0] := exTri_centre (by norm_num)
  have hc1 : inscribedCircleCenter (exTri 1) = ![1, 1, 0] := exTri_centre (by norm_num)
  refine ⟨exTri 1, exTri 10, { exState 0 0 with pos := ![10, 10, 0] }, { exState 0 0 with pos := ![15, 15, 1 / 2] },
    ![15, 15, 0], exTri_ok (by norm_num), exTri_ok (by norm_num), by rw [setNewVertices_pos, hc], rfl, ?_, ?_, ?_⟩
  · refine ⟨1 / 8, 1 / 2, 3 / 8, by norm_num, by norm_num, by norm_num, by norm_num, ?_⟩
    apply v3_ext <;> simp [exTri] <;> norm_num
  · have : norm3 (![15, 15, 1 / 2] + exCtx.shift2 - ![15, 15, 0]) = 1 / 2 :=
      norm3_of_sq (by norm_num) (by simp [exCtx, sqNorm, dot]; norm_num)
    simp only
    rw [this]; norm_num
  · -- the functor sees the old triangle
    rw [facetSphere_vertices]
    have h := C91_facet_partial (exTri 1) (exTri_ok one_ne_zero) 1 none false false
      { exState 0 0 with pos := ![10, 10, 0] } { exState 0 0 with pos := ![15, 15, 1 / 2] } exCtx
      (by simp [exState, Quat.one, Quat.sqNorm])
    have hfar : ∀ q, placed { exState 0 0 with pos := ![10, 10, 0] }
        (InTriangle fun i => exTri 1 i - (utilsFacet (exTri 1)).2) q → q 0 ≤ 12 := by
      rintro _ ⟨y, ⟨a, b, c, ha, hb, hc, hs, rfl⟩, rfl⟩
      have e : (utilsFacet (exTri 1)).2 = ![1, 1, 0] := by rw [utilsFacet_pos, hc1]
      rw [e, show ({ exState 0 0 with pos := ![10, 10, 0] } : State).ori = Quat.one from rfl, Quat.rot_one]
      simp [exTri]
      linarith
    revert h
    cases facetSphere 0 (utilsFacet (exTri 1)).1 1 none false false
        { exState 0 0 with pos := ![10, 10, 0] } { exState 0 0 with pos := ![15, 15, 1 / 2] } exCtx with
    | throws => exact fun h => h.elim
    | ub =>
      intro h
      have := hfar _ h
      simp [exCtx] at this
      norm_num at this
    | ok o =>
      cases o with
      | none => exact fun _ => rfl
      | some g =>
        rintro ⟨⟨q, hq, ht⟩, hpos⟩
        exfalso
        have hp := hpos rfl
        have h1 := hfar q hq.1
        have h2 : dot ![1, 0, 0] (![15, 15, 1 / 2] + exCtx.shift2 - q) ≤
            norm3 (![15, 15, 1 / 2] + exCtx.shift2 - q) := cauchy_unit (by simp [dot])
        have h3 := ht.depth
        simp only at h3
        rw [h3] at hp
        simp [dot, exCtx] at h2
        simp [exCtx] at hp
        linarith

end Verif.Mech
