import Verif.Mech.GeomProps

/-! # C90: contact geometry of a box and a sphere -/
namespace Verif.Mech

/-- The box with the given half sizes, in local coordinates. -/
def InBox (e : V3) (y : V3) : Prop := ∀ i, |y i| ≤ e i

theorem clampTo_abs {e x : ℝ} (he : 0 ≤ e) : |clampTo e x| ≤ e := by
  unfold clampTo
  dsimp only
  rw [abs_le]
  split_ifs <;> constructor <;> linarith

theorem clampTo_closest {e x y : ℝ} (he : 0 ≤ e) (hy : |y| ≤ e) : |x - clampTo e x| ≤ |x - y| := by
  obtain ⟨h1, h2⟩ := abs_le.mp hy
  unfold clampTo
  dsimp only
  rw [abs_le]
  split_ifs with a b b
  · linarith
  · rw [abs_of_neg (by linarith)]; constructor <;> linarith
  · rw [abs_of_pos (by linarith)]; constructor <;> linarith
  · rw [sub_self]; constructor <;> linarith [abs_nonneg (x - y)]

theorem clampTo_excess {e x : ℝ} (he : 0 ≤ e) : |x - clampTo e x| = max (|x| - e) 0 := by
  unfold clampTo
  dsimp only
  split_ifs with a b b
  · linarith
  · rw [abs_of_neg (by linarith : x < 0), abs_of_neg (by linarith), max_eq_left (by linarith)]; ring
  · rw [abs_of_pos (by linarith : 0 < x), abs_of_pos (by linarith), max_eq_left (by linarith)]
  · rw [sub_self, abs_zero, max_eq_right]
    have : |x| ≤ e := abs_le.mpr ⟨by linarith, by linarith⟩
    linarith

theorem boxInside_iff {e x : V3} : boxInside e x ↔ InBox e x := by
  unfold boxInside InBox
  refine forall_congr' fun i => ?_
  rw [abs_le]
  constructor
  · rintro ⟨a, b⟩; exact ⟨not_lt.mp a, not_lt.mp b⟩
  · rintro ⟨a, b⟩; exact ⟨not_lt.mpr a, not_lt.mpr b⟩

theorem sqNorm_mono {a b : V3} (h : ∀ i, |a i| ≤ |b i|) : sqNorm a ≤ sqNorm b := by
  have h0 := sq_le_sq.mpr (h 0)
  have h1 := sq_le_sq.mpr (h 1)
  have h2 := sq_le_sq.mpr (h 2)
  unfold sqNorm dot
  nlinarith

theorem comp_le_norm3 (a : V3) (i : Fin 3) : |a i| ≤ norm3 a := by
  apply Real.le_sqrt_of_sq_le
  rw [sq_abs]
  unfold sqNorm dot
  fin_cases i
  · show a 0 ^ 2 ≤ _; nlinarith [mul_self_nonneg (a 1), mul_self_nonneg (a 2)]
  · show a 1 ^ 2 ≤ _; nlinarith [mul_self_nonneg (a 0), mul_self_nonneg (a 2)]
  · show a 2 ^ 2 ≤ _; nlinarith [mul_self_nonneg (a 0), mul_self_nonneg (a 1)]

theorem nearestFace_spec (e x : V3) :
    (nearestFace e x).2 = e (nearestFace e x).1 - |x (nearestFace e x).1| ∧
    ∀ j, (nearestFace e x).2 ≤ e j - |x j| := by
  have key : ∀ B : ℝ, B ≤ e 0 - |x 0| → B ≤ e 1 - |x 1| → B ≤ e 2 - |x 2| → ∀ j, B ≤ e j - |x j| := by
    intro B h0 h1 h2 j
    fin_cases j
    · exact h0
    · exact h1
    · exact h2
  unfold nearestFace
  dsimp only
  split_ifs with h1 h2 h2
  · exact ⟨rfl, key _ (h2.trans h1).le h2.le (le_refl _)⟩
  · exact ⟨rfl, key _ h1.le (le_refl _) (not_lt.mp h2)⟩
  · exact ⟨rfl, key _ h2.le (h2.le.trans (not_lt.mp h1)) (le_refl _)⟩
  · exact ⟨rfl, key _ (le_refl _) (not_lt.mp h1) (not_lt.mp h2)⟩

theorem axisDir_unit (i : Fin 3) (s : ℝ) (hs : s * s = 1) : sqNorm (Function.update (0 : V3) i s) = 1 := by
  fin_cases i <;> simp [sqNorm, dot, Function.update] <;> exact hs

/-- The clamped centre is the closest point of the box. -/
theorem clamp_closest {e : V3} (he : ∀ i, 0 ≤ e i) (x : V3) :
    InBox e (fun i => clampTo (e i) (x i)) ∧
    ∀ y, InBox e y → sqNorm (x - fun i => clampTo (e i) (x i)) ≤ sqNorm (x - y) :=
  ⟨fun i => clampTo_abs (he i), fun _ hy => sqNorm_mono fun i => clampTo_closest (he i) (hy i)⟩

/-- **C90 (centre outside).** A sphere whose centre is not inside the box: the contact geometry is that of the point of the box
closest to the centre; without a previous contact one is reported exactly when that point is not farther than the radius. -/
theorem C90_outside (e : V3) (he : ∀ i, 0 ≤ e i) (radius : ℝ) (old : Option ScGeom) (isReal force : Bool) (s1 s2 : State)
    (c : GeomCtx) (ho : s1.ori.sqNorm = 1) (hout : ¬ placed s1 (InBox e) (s2.pos + c.shift2)) :
    match boxSphere e radius old isReal force s1 s2 c with
    | some g => (∃ q, IsClosest (placed s1 (InBox e)) (s2.pos + c.shift2) q ∧ Touches (s2.pos + c.shift2) radius q g) ∧
        (isReal = true ∨ force = true ∨ 0 ≤ g.pd)
    | none => isReal = false ∧ force = false ∧
        ∀ x, placed s1 (InBox e) x → radius < norm3 (s2.pos + c.shift2 - x) := by
  have hw : s2.pos + c.shift2 = s1.pos + s1.ori.rot (localCentre s1 s2 c) := by
    rw [localCentre, Quat.rot_conj_rot ho]; abel
  have hin : ¬ boxInside e (localCentre s1 s2 c) := fun h => hout ⟨_, boxInside_iff.mp h, hw⟩
  obtain ⟨hq, hclose⟩ := clamp_closest he (localCentre s1 s2 c)
  have hC := placed_closest ho hq hclose
  unfold boxSphere
  dsimp only
  rw [if_neg (show ¬ boxInside e (s1.ori.toMat.transpose.mulVec (s2.pos + c.shift2 - s1.pos)) by
    rw [transpose_rot]; exact hin)]
  simp only [transpose_rot, Quat.toMat_mulVec]
  rw [show s1.ori.conj.rot (s2.pos + c.shift2 - s1.pos) = localCentre s1 s2 c from rfl]
  set q : V3 := fun i => clampTo (e i) (localCentre s1 s2 c i) with hqd
  have hto : s1.ori.rot q - (s2.pos + c.shift2 - s1.pos) = -(s2.pos + c.shift2 - (s1.pos + s1.ori.rot q)) := by abel
  have hne : s2.pos + c.shift2 - (s1.pos + s1.ori.rot q) ≠ 0 := by
    intro h
    exact hout ⟨q, hq, sub_eq_zero.mp h⟩
  rw [hto, norm3_neg]
  set d := s2.pos + c.shift2 - (s1.pos + s1.ori.rot q) with hd
  have hl := norm3_pos hne
  have hdir : normalized (-d) = -((1 / norm3 d) • d) := by rw [normalized, norm3_neg, smul_neg]
  by_cases hk : radius - norm3 d < 0 ∧ ¬ isReal = true ∧ ¬ force = true
  · rw [if_pos hk]
    refine ⟨by simpa using hk.2.1, by simpa using hk.2.2, fun x hx => ?_⟩
    have := hC.2 x hx
    rw [← hd] at this
    linarith [hk.1]
  · rw [if_neg hk, hdir, neg_neg]
    obtain ⟨a1, a2, a3, a4, a5⟩ := precompute_fields
      { (old.getD ScGeom.new) with
        contactPoint := (0.5 : ℝ) • (s1.ori.rot q + s1.pos +
          (s2.pos + c.shift2 + radius • -((1 / norm3 d) • d))),
        pd := radius - norm3 d, r1 := radius, r2 := radius }
      s1 s2 { c with avoidRatcheting := false } ((1 / norm3 d) • d) old.isNone
    refine ⟨⟨_, hC, ?_, ?_, ?_, ?_⟩, ?_⟩
    · rw [a2]
    · rw [a1, ← hd, smul_smul, mul_one_div, div_self hl.ne', one_smul]
    · rw [a1]
      refine norm3_of_sq (by norm_num) ?_
      rw [sqNorm_smul, ← norm3_sq]
      field_simp
    · rw [a5, a1]
      simp only
      rw [show (0.5 : ℝ) = 1 / 2 by norm_num]
      congr 1
      rw [smul_neg]
      abel
    · rw [a2]
      by_contra hc
      push Not at hc
      exact hk ⟨hc.2.2, by simpa using hc.1, by simpa using hc.2.1⟩

/-- Outside the sum of the box and a ball only when far enough in some direction. -/
theorem excess_bound {e loc t : V3} {m r : ℝ} (hm0 : 0 ≤ m) (hr : 0 < r) (he : ∀ i, 0 ≤ e i)
    (hm : ∀ j, m ≤ e j - |loc j|)
    (ht : ∀ x, InBox e x → r ≤ norm3 (loc + t - x)) : m + r ≤ norm3 t := by
  have h := ht _ (clamp_closest he (loc + t)).1
  set E : V3 := fun i => max (|(loc + t) i| - e i) 0 with hE
  have hEi : ∀ i, |((loc + t) - fun i => clampTo (e i) ((loc + t) i)) i| = E i := fun i => clampTo_excess (he i)
  have hE0 : ∀ i, 0 ≤ E i := fun i => le_max_right _ _
  have hs : r ^ 2 ≤ E 0 ^ 2 + E 1 ^ 2 + E 2 ^ 2 := by
    have h1 : r ^ 2 ≤ norm3 ((loc + t) - fun i => clampTo (e i) ((loc + t) i)) ^ 2 := by
      have := mul_self_le_mul_self hr.le h
      nlinarith
    rw [pow_two (norm3 _), norm3_sq] at h1
    have e0 := congrArg (· ^ 2) (hEi 0)
    have e1 := congrArg (· ^ 2) (hEi 1)
    have e2 := congrArg (· ^ 2) (hEi 2)
    simp only [sq_abs] at e0 e1 e2
    unfold sqNorm dot at h1
    nlinarith
  -- each exceeded coordinate moved by the excess plus the distance to the face
  have hti : ∀ i, 0 < E i → E i + m ≤ |t i| := by
    intro i hi
    have h1 : E i = |(loc + t) i| - e i := by
      rcases max_choice (|(loc + t) i| - e i) 0 with h | h
      · exact h
      · exact absurd (show E i = 0 from h) hi.ne'
    have h2 : |(loc + t) i| ≤ |loc i| + |t i| := abs_add_le _ _
    have h3 := hm i
    linarith
  have hsq : ∀ i, E i ^ 2 + 2 * m * E i ≤ t i ^ 2 := by
    intro i
    rcases (hE0 i).lt_or_eq with hi | hi
    · have h1 := hti i hi
      have h2 := mul_self_le_mul_self (by linarith : 0 ≤ E i + m) h1
      rw [← pow_two |t i|, sq_abs] at h2
      nlinarith [mul_self_nonneg m]
    · rw [← hi]; nlinarith [sq_nonneg (t i)]
  have hex : ∃ i, 0 < E i := by
    by_contra hc
    push Not at hc
    have z0 := le_antisymm (hc 0) (hE0 0)
    have z1 := le_antisymm (hc 1) (hE0 1)
    have z2 := le_antisymm (hc 2) (hE0 2)
    rw [z0, z1, z2] at hs
    nlinarith
  obtain ⟨k, hk⟩ := hex
  have hkk : E k ^ 2 + 2 * m * E k + m ^ 2 ≤ t k ^ 2 := by
    have h1 := hti k hk
    have h2 := mul_self_le_mul_self (by linarith : 0 ≤ E k + m) h1
    rw [← pow_two |t k|, sq_abs] at h2
    nlinarith
  have hsum : E 0 ^ 2 + E 1 ^ 2 + E 2 ^ 2 + 2 * m * (E 0 + E 1 + E 2) + m ^ 2 ≤ sqNorm t := by
    have s0 := hsq 0
    have s1 := hsq 1
    have s2 := hsq 2
    unfold sqNorm dot
    fin_cases k
    · change E 0 ^ 2 + 2 * m * E 0 + m ^ 2 ≤ t 0 ^ 2 at hkk
      linarith
    · change E 1 ^ 2 + 2 * m * E 1 + m ^ 2 ≤ t 1 ^ 2 at hkk
      linarith
    · change E 2 ^ 2 + 2 * m * E 2 + m ^ 2 ≤ t 2 ^ 2 at hkk
      linarith
  have hlin : r ≤ E 0 + E 1 + E 2 := by
    have p0 := hE0 0
    have p1 := hE0 1
    have p2 := hE0 2
    by_contra hc
    have := mul_self_lt_mul_self (by linarith : 0 ≤ E 0 + E 1 + E 2) (not_le.mp hc)
    nlinarith [mul_nonneg p0 p1, mul_nonneg p0 p2, mul_nonneg p1 p2]
  apply Real.le_sqrt_of_sq_le
  nlinarith [mul_le_mul_of_nonneg_left hlin hm0]


/-- **C90 (centre inside).** A sphere whose centre is inside the box always has a contact.  Moving the sphere by the depth along
the normal just separates it from the box, and no shorter displacement does.  Partial: the contact point is half way between the
box surface and the deepest point of the sphere only without a periodic shift (`C90_violated_periodic`). -/
theorem C90_inside_partial (e : V3) (he : ∀ i, 0 ≤ e i) (radius : ℝ) (hr : 0 < radius) (old : Option ScGeom)
    (isReal force : Bool) (s1 s2 : State) (c : GeomCtx) (ho : s1.ori.sqNorm = 1)
    (hinside : placed s1 (InBox e) (s2.pos + c.shift2)) :
    ∃ g, boxSphere e radius old isReal force s1 s2 c = some g ∧ norm3 g.normal = 1 ∧ radius ≤ g.pd ∧
      (∀ x, placed s1 (InBox e) x → radius ≤ norm3 (s2.pos + c.shift2 + g.pd • g.normal - x)) ∧
      (∀ t : V3, (∀ x, placed s1 (InBox e) x → radius ≤ norm3 (s2.pos + c.shift2 + t - x)) → g.pd ≤ norm3 t) ∧
      placed s1 (InBox e) (s2.pos + c.shift2 + (g.pd - radius) • g.normal) ∧
      (c.shift2 = 0 → g.contactPoint = (1 / 2 : ℝ) •
        ((s2.pos + c.shift2 + (g.pd - radius) • g.normal) + (s2.pos + c.shift2 - radius • g.normal))) := by
  have hw : s2.pos + c.shift2 = s1.pos + s1.ori.rot (localCentre s1 s2 c) := by
    rw [localCentre, Quat.rot_conj_rot ho]; abel
  have hin : InBox e (localCentre s1 s2 c) := by
    obtain ⟨y, hy, h⟩ := hinside
    have : localCentre s1 s2 c = y := by
      rw [localCentre, h, show s1.pos + s1.ori.rot y - s1.pos = s1.ori.rot y by abel, Quat.conj_rot_rot ho]
    rw [this]; exact hy
  obtain ⟨hm, hmin⟩ := nearestFace_spec e (localCentre s1 s2 c)
  unfold boxSphere
  dsimp only
  rw [if_pos (show boxInside e (s1.ori.toMat.transpose.mulVec (s2.pos + c.shift2 - s1.pos)) by
    rw [transpose_rot]; exact boxInside_iff.mpr hin)]
  simp only [transpose_rot, Quat.toMat_mulVec]
  rw [show s1.ori.conj.rot (s2.pos + c.shift2 - s1.pos) = localCentre s1 s2 c from rfl]
  set loc := localCentre s1 s2 c with hloc
  generalize nearestFace e loc = nf at hm hmin
  obtain ⟨i, m⟩ := nf
  simp only at hm hmin
  have hm0 : 0 ≤ m := by rw [hm]; linarith [hin i]
  obtain ⟨s, hs, hss, hsx⟩ : ∃ s : ℝ, (if loc i > 0 then (1 : ℝ) else -1) = s ∧ s * s = 1 ∧ s * loc i = |loc i| := by
    by_cases h : loc i > 0
    · exact ⟨1, if_pos h, by norm_num, by rw [abs_of_pos h]; ring⟩
    · exact ⟨-1, if_neg h, by norm_num, by rw [abs_of_nonpos (not_lt.mp h)]; ring⟩
  rw [hs]
  set u : V3 := Function.update (0 : V3) i s with hu
  have huu : sqNorm u = 1 := axisDir_unit i s hss
  set n := s1.ori.rot u with hn
  have hnn : sqNorm n = 1 := by rw [hn, sqNorm_rot ho, huu]
  have hn1 : norm3 n = 1 := norm3_of_sq (by norm_num) (by rw [hnn]; norm_num)
  have hnz : normalized n = n := by rw [normalized, hn1, div_one, one_smul]
  rw [hnz]
  have hpt : s2.pos + m • n - (s2.pos - radius • n) = (m + radius) • n := by rw [add_smul]; abel
  rw [hpt]
  have hnorm : norm3 ((m + radius) • n) = m + radius :=
    norm3_of_sq (by linarith) (by rw [sqNorm_smul, hnn, mul_one])
  have hnormd : normalized ((m + radius) • n) = n := by
    rw [normalized, hnorm, smul_smul, one_div, inv_mul_cancel₀ (by linarith), one_smul]
  rw [hnorm, hnormd]
  obtain ⟨a1, a2, a3, a4, a5⟩ := precompute_fields
    { (old.getD ScGeom.new) with
      contactPoint := (0.5 : ℝ) • (s2.pos + m • n + (s2.pos - radius • n)), pd := m + radius, r1 := radius,
      r2 := radius }
    s1 s2 { c with avoidRatcheting := true } n old.isNone
  refine ⟨_, rfl, by rw [a1]; exact hn1, by rw [a2]; simp only; linarith, ?_, ?_, ?_, ?_⟩
  · rintro _ ⟨x, hx, rfl⟩
    rw [a1, a2]
    simp only
    have e1 : s2.pos + c.shift2 + (m + radius) • n - (s1.pos + s1.ori.rot x) =
        s1.ori.rot (loc + (m + radius) • u - x) := by
      rw [hw, Quat.rot_sub, Quat.rot_add, Quat.rot_smul]; abel
    rw [e1, norm3_rot ho]
    refine le_trans ?_ (comp_le_norm3 _ i)
    have e2 : (loc + (m + radius) • u - x) i = loc i + (m + radius) * s - x i := by
      simp [hu]
    rw [e2]
    have h1 : s * (loc i + (m + radius) * s - x i) = e i + radius - s * x i := by
      have : s * (loc i + (m + radius) * s - x i) = s * loc i + (m + radius) * (s * s) - s * x i := by ring
      rw [this, hsx, hss, hm]; ring
    have h2 : s * x i ≤ e i := by
      have habs : |s| = 1 := by
        rcases mul_self_eq_one_iff.mp hss with h | h <;> rw [h] <;> simp
      calc s * x i ≤ |s * x i| := le_abs_self _
        _ = |x i| := by rw [abs_mul, habs, one_mul]
        _ ≤ e i := hx i
    have habs : |s| = 1 := by
      rcases mul_self_eq_one_iff.mp hss with h | h <;> rw [h] <;> simp
    calc radius ≤ s * (loc i + (m + radius) * s - x i) := by rw [h1]; linarith
      _ ≤ |s * (loc i + (m + radius) * s - x i)| := le_abs_self _
      _ = |loc i + (m + radius) * s - x i| := by rw [abs_mul, habs, one_mul]
  · intro t ht
    rw [a2]
    simp only
    have hrt : s1.ori.rot (s1.ori.conj.rot t) = t := Quat.rot_conj_rot ho t
    have : norm3 t = norm3 (s1.ori.conj.rot t) := by
      rw [← norm3_rot ho (s1.ori.conj.rot t), hrt]
    rw [this]
    refine excess_bound hm0 hr he hmin fun x hx => ?_
    have := ht _ ⟨x, hx, rfl⟩
    have e1 : s2.pos + c.shift2 + t - (s1.pos + s1.ori.rot x) = s1.ori.rot (loc + s1.ori.conj.rot t - x) := by
      rw [hw, Quat.rot_sub, Quat.rot_add, hrt]; abel
    rw [e1, norm3_rot ho] at this
    exact this
  · rw [a1, a2]
    simp only
    refine ⟨loc + m • u, fun j => ?_, ?_⟩
    · by_cases hj : j = i
      · subst hj
        have e2 : (loc + m • u) j = loc j + m * s := by simp [hu]
        rw [e2]
        have habs : |s| = 1 := by
          rcases mul_self_eq_one_iff.mp hss with h | h <;> rw [h] <;> simp
        calc |loc j + m * s| = |s * (loc j + m * s)| := by rw [abs_mul, habs, one_mul]
          _ = |e j| := by
            congr 1
            have : s * (loc j + m * s) = s * loc j + m * (s * s) := by ring
            rw [this, hsx, hss, hm]; ring
          _ = e j := abs_of_nonneg (he j)
          _ ≤ e j := le_refl _
      · have e2 : (loc + m • u) j = loc j := by simp [hu, hj]
        rw [e2]; exact hin j
    · rw [add_sub_cancel_right, hw, Quat.rot_add, Quat.rot_smul]; abel
  · intro hc
    rw [a5, a1, a2]
    simp only
    rw [hc, add_zero, add_sub_cancel_right, show (0.5 : ℝ) = 1 / 2 by norm_num]

/-- The hypotheses of `C90_inside_partial` and of `C90_outside` are met: a sphere in a unit cube, and one above it. -/
example : placed (exState 0 0) (InBox ![1, 1, 1]) ({ exState 0 0 with pos := ![0, 0, 1 / 2] } : State).pos ∧
    ¬ placed (exState 0 0) (InBox ![1, 1, 1]) ({ exState 0 0 with pos := ![0, 0, 3 / 2] } : State).pos := by
  constructor
  · refine ⟨![0, 0, 1 / 2], fun i => ?_, ?_⟩
    · fin_cases i <;> norm_num [abs_le]
    · rw [show (exState 0 0).ori = Quat.one from rfl, Quat.rot_one]
      simp [exState]
  · rintro ⟨y, hy, h⟩
    rw [show (exState 0 0).ori = Quat.one from rfl, Quat.rot_one] at h
    have h2 := congrFun h 2
    have := hy 2
    simp [exState] at h2
    simp [← h2] at this
    norm_num [abs_le] at this

/-- **C90 (violated in periodic scenes).** With the centre inside the box, the contact point is computed from the position of the
sphere instead of its periodic image: it can be arbitrarily far from the sphere it belongs to. -/
theorem C90_violated_periodic (D : ℝ) : ∃ (s1 s2 : State) (c : GeomCtx) (g : ScGeom), s1.ori.sqNorm = 1 ∧
    placed s1 (InBox ![1, 1, 1]) (s2.pos + c.shift2) ∧ boxSphere ![1, 1, 1] 1 none false false s1 s2 c = some g ∧
    D < norm3 (g.contactPoint - (s2.pos + c.shift2)) := by
  have ho : (exState 0 0).ori.sqNorm = 1 := by simp [exState, Quat.one, Quat.sqNorm]
  set K : ℝ := |D| + 3 with hK
  have hK0 : 0 < K := by have := abs_nonneg D; linarith
  set s2 : State := { exState 0 0 with pos := ![K, 0, 0] } with hs2
  set c : GeomCtx := { exCtx with shift2 := ![-K, 0, 0] } with hc
  have hp : s2.pos + c.shift2 = 0 := by
    apply v3_ext <;> simp [hs2, hc]
  have hin : placed (exState 0 0) (InBox ![1, 1, 1]) (s2.pos + c.shift2) := by
    rw [hp]
    refine ⟨0, fun i => ?_, ?_⟩
    · fin_cases i <;> simp
    · rw [show (exState 0 0).ori = Quat.one from rfl, Quat.rot_one]; simp [exState]
  -- compare with the same call at the image, without a shift
  have he : ∀ i, (0 : ℝ) ≤ (![1, 1, 1] : V3) i := by intro i; fin_cases i <;> simp
  unfold boxSphere
  dsimp only
  have hb : boxInside ![1, 1, 1] ((exState 0 0).ori.toMat.transpose.mulVec (s2.pos + c.shift2 - (exState 0 0).pos)) := by
    rw [hp, boxInside_iff]
    intro i
    rw [show (0 : V3) - (exState 0 0).pos = 0 by simp [exState], Matrix.mulVec_zero]
    simp [he i]
  refine ⟨exState 0 0, s2, c, _, ho, hin, if_pos hb, ?_⟩
  rw [(precompute_fields _ _ _ _ _ _).2.2.2.2]
  simp only
  have hloc : (exState 0 0).ori.toMat.transpose.mulVec (s2.pos + c.shift2 - (exState 0 0).pos) = 0 := by
    rw [hp, show (0 : V3) - (exState 0 0).pos = 0 by simp [exState], Matrix.mulVec_zero]
  rw [hloc]
  obtain ⟨hm, hmin⟩ := nearestFace_spec ![1, 1, 1] 0
  generalize nearestFace ![1, 1, 1] 0 = nf at hm hmin
  obtain ⟨i, m⟩ := nf
  simp only at hm hmin
  have hm1 : m = 1 := by
    rw [hm]; fin_cases i <;> simp
  rw [hm1, hp, sub_zero, Quat.toMat_mulVec]
  generalize normalized _ = n
  rw [show (0.5 : ℝ) • (s2.pos + (1 : ℝ) • n + (s2.pos - (1 : ℝ) • n)) = s2.pos by
    apply v3_ext <;> simp <;> ring]
  have : norm3 s2.pos = K := norm3_of_sq hK0.le (by simp [hs2, sqNorm, dot]; ring)
  rw [this]
  have := le_abs_self D
  linarith

end Verif.Mech
