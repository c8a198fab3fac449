import Verif.Wire.Params

/-! # Sections, choices and double twists of wires (C277) -/
namespace Verif.Wire

open Verif.Mech

/-- **C277**: a material which is accepted has the section of its diameter, and keeps what it was given. -/
theorem C277_area {m m' : Mat} (h : m.postLoad = .ok m') : m' = { m with area := Real.pi * m.diameter ^ 2 / 4 } := by
  have e : m.section = { m with area := Real.pi * m.diameter ^ 2 / 4 } := by
    unfold Mat.section
    congr 1
    ring
  rw [← e]
  unfold Mat.postLoad checkType checkDT at h
  split_ifs at h <;> simp_all

example : ∃ m', (mat0 1 false []).postLoad = .ok m' := ⟨(mat0 1 false []).section, by norm_num [Mat.postLoad, mat0, checkType, Mat.section]⟩

/-- **C277**: curves with less than two points, or with the origin as first one, and types which are not known are refused. -/
theorem C277_checks (m : Mat) (h : m.ss ≠ []) (hbad : m.ss.length < 2 ∨ m.ss.head? = some 0 ∨ 2 < m.type ∨ (m.isDT = true ∧ (m.type = 1 ∨ m.type = 2) ∧ m.ssDT.length < 2) ∨ (m.type = 0 ∧ m.ssDT ≠ [])) : m.postLoad = .throws := by
  unfold Mat.postLoad
  rw [if_neg h]
  split_ifs with h1 h2
  · rfl
  · rfl
  · rcases hbad with hb | hb | hb | ⟨ha, hb, hc⟩ | ⟨ha, hb⟩
    · exact absurd hb h1
    · exfalso
      apply h2
      rcases hm : m.ss with _ | ⟨p, ps⟩
      · exact absurd hm h
      · rw [hm] at hb
        simp at hb
        rw [hb]
        simp
    · have ht : m.section.type = m.type := rfl
      unfold checkType
      rw [if_neg (by rw [ht]; omega), if_neg (by rw [ht]; omega)]
    · have ht : m.section.type = m.type := rfl
      unfold checkType
      rw [if_neg (by rw [ht]; omega), if_pos (show m.section.type = 1 ∨ m.section.type = 2 from hb), if_pos (show m.section.isDT = true from ha)]
      unfold checkDT
      rw [if_pos (show m.section.ssDT.length < 2 from hc)]
    · unfold checkType
      rw [if_pos (show m.section.type = 0 from ha), if_neg (show ¬ m.section.ssDT = [] from hb)]

example : 2 < (mat0 3 false []).type ∧ (mat0 3 false []).ss ≠ [] := by simp [mat0]

/-- **C277**: bodies of one material whose ids differ by one are double twists if the material says so, with a curve of their own and two sections for types 1 and 2; other pairs are single wires, of the thinner
of two materials. -/
theorem C277_choice (id1 id2 : ℤ) (m1 m2 : Mat) :
    (m1.id = m2.id → m1.isDT = true → (id1 = id2 + 1 ∨ id2 = id1 + 1) → (m1.type = 1 ∨ m1.type = 2) → choose id1 id2 m1 m2 = ⟨2 * m1.area, m1.ssDT, true⟩) ∧
    (m1.id = m2.id → m1.isDT = true → (id1 = id2 + 1 ∨ id2 = id1 + 1) → m1.type = 0 → choose id1 id2 m1 m2 = ⟨m1.area, m1.ss, true⟩) ∧
    (m1.id = m2.id → (m1.isDT = false ∨ ¬(id1 = id2 + 1 ∨ id2 = id1 + 1)) → choose id1 id2 m1 m2 = ⟨m1.area, m1.ss, false⟩) ∧
    (m1.id ≠ m2.id → m1.diameter < m2.diameter → choose id1 id2 m1 m2 = ⟨m1.area, m1.ss, false⟩) ∧
    (m1.id ≠ m2.id → m2.diameter < m1.diameter → choose id1 id2 m1 m2 = ⟨m2.area, m2.ss, false⟩) := by
  have hab : |id1 - id2| = 1 ↔ (id1 = id2 + 1 ∨ id2 = id1 + 1) := by
    rw [abs_eq (by norm_num)]
    constructor
    · rintro (h | h)
      · left; omega
      · right; omega
    · rintro (h | h)
      · left; omega
      · right; omega
  refine ⟨?_, ?_, ?_, ?_, ?_⟩
  · intro h1 h2 h3 h4
    unfold choose
    rw [if_pos h1, if_pos ⟨h2, hab.2 h3⟩, if_pos h4, mul_comm]
  · intro h1 h2 h3 h4
    unfold choose
    rw [if_pos h1, if_pos ⟨h2, hab.2 h3⟩, if_neg (by omega)]
  · intro h1 h2
    unfold choose
    rw [if_pos h1, if_neg]
    rintro ⟨h3, h4⟩
    rcases h2 with h2 | h2
    · rw [h2] at h3; simp at h3
    · exact h2 (hab.1 h4)
  · intro h1 h2
    unfold choose
    rw [if_neg h1, if_pos h2.le]
  · intro h1 h2
    unfold choose
    rw [if_neg h1, if_neg (not_le.2 h2)]

/-- The stiffness of a double twist is positive. -/
theorem kTwist_pos {m : Mat} (hd : 0 < m.diameter) (hp : -1 < m.poisson) (h0 : 0 ≤ m.lambdak) (h1 : m.lambdak ≤ 1) {l area k : ℝ} (hl : 0 < l) (ha : 0 < area) (hk : 0 < k) : 0 < kTwist m l area k := by
  have hkh : 0 < khOf m l area k := by
    unfold khOf
    have hc := Real.cos_arctan_pos (l / (3 * Real.pi * m.diameter))
    have : 0 < 41 / 9 * (1 + m.poisson) + 17 / 4 * Real.tan (Real.arctan (l / (3 * Real.pi * m.diameter))) ^ 2 := by nlinarith [sq_nonneg (Real.tan (Real.arctan (l / (3 * Real.pi * m.diameter))))]
    positivity
  unfold kTwist
  rcases h0.lt_or_eq with h | h
  · nlinarith [mul_pos h hkh, mul_nonneg (sub_nonneg.2 h1) hk.le]
  · rw [← h]; linarith

/-- **C277, part**: a double twist of type 0 has twice the mean of `kh` and the stiffness of a single wire, its further points are reduced by `lambdaEps` in strain and scaled as the first in force, and its curve
is sorted, if the reduced strains are beyond the first.  Missing: other strains. -/
theorem C277_twist_partial {m : Mat} {c : Choice} {q : Pt} {qs : List Pt} (hss : c.ss = q :: qs) (hc : Curve c.ss) (ha : 0 < c.area) (ht : c.twist = true) (h0 : m.type = 0) (hd : 0 < m.diameter) (hp : -1 < m.poisson)
    (hk0 : 0 ≤ m.lambdak) (hk1 : m.lambdak ≤ 1) (heps : 0 < m.lambdaEps) (hle : ∀ x ∈ qs, q.1 < m.lambdaEps * x.1) {l0 : ℝ} (hl : 0 < l0) (d : ℝ) :
    ∃ p kD r, build m m c l0 0 d true = .ok p ∧ kD = 2 * (m.lambdak * khOf m l0 c.area (q.2 * c.area / (q.1 * l0)) + (1 - m.lambdak) * (q.2 * c.area / (q.1 * l0))) ∧ p.kn = kD ∧ r = kD * (q.1 * l0) / (q.2 * c.area) ∧
      Fresh p ((-(q.1 * l0), -(kD * (q.1 * l0))) :: qs.map fun x => (-(m.lambdaEps * (x.1 * l0)), -(r * (x.2 * c.area)))) := by
  obtain ⟨area, ss, twist⟩ := c
  dsimp only at *
  subst hss
  subst ht
  have hq1 := hc.strain q (by simp)
  have hq2 := hc.stress q (by simp)
  have hk : 0 < q.2 * area / (q.1 * l0) := div_pos (mul_pos hq2 ha) (mul_pos hq1 hl)
  have hkD : 0 < kTwist m l0 area (q.2 * area / (q.1 * l0)) := kTwist_pos hd hp hk0 hk1 hl ha hk
  have e : dfPoint (l0 + 0) 0 area = fun x => (-(x.1 * l0), -(x.2 * area)) := by funext x; simp [dfPoint]
  have hquot : quot (-(q.2 * area)) (-(q.1 * l0) + 0) = .ok (q.2 * area / (q.1 * l0)) := by
    unfold quot
    rw [if_neg (by simpa using (mul_pos hq1 hl).ne'), add_zero, neg_div_neg_eq]
  have h2 : m.type ≠ 2 := by omega
  generalize hkDe : kTwist m l0 area (q.2 * area / (q.1 * l0)) = kD at hkD
  have hpts : twistPts m kD ((-(q.1 * l0), -(q.2 * area)) :: qs.map fun x => (-(x.1 * l0), -(x.2 * area))) =
      (-(q.1 * l0), -(kD * (q.1 * l0))) :: qs.map fun x => (-(m.lambdaEps * (x.1 * l0)), -(kD * (q.1 * l0) / (q.2 * area) * (x.2 * area))) := by
    unfold twistPts
    simp only [mul_neg, neg_div_neg_eq, List.map_map]
    congr 1
    apply List.map_congr_left
    intro x _
    ext
    · simp only [Function.comp]; ring
    · simp only [Function.comp]; ring
  have hs1 : List.Pairwise (fun a b : Pt => b.1 < a.1) ((-(q.1 * l0), -(kD * (q.1 * l0))) :: qs.map fun x => (-(m.lambdaEps * (x.1 * l0)), -(kD * (q.1 * l0) / (q.2 * area) * (x.2 * area)))) := by
    rw [List.pairwise_cons]
    constructor
    · intro x hx
      obtain ⟨y, hy, rfl⟩ := List.mem_map.1 hx
      have := mul_lt_mul_of_pos_right (hle y hy) hl
      simp only
      linarith
    · rw [List.pairwise_map]
      refine (List.pairwise_cons.1 hc.sorted).2.imp fun h => ?_
      have := mul_lt_mul_of_pos_left (mul_lt_mul_of_pos_right h hl) heps
      simp only
      linarith
  have hs0 : List.Pairwise (fun a b : Pt => b.1 < a.1) (0 :: (-(q.1 * l0), -(kD * (q.1 * l0))) :: qs.map fun x => (-(m.lambdaEps * (x.1 * l0)), -(kD * (q.1 * l0) / (q.2 * area) * (x.2 * area)))) := by
    rw [List.pairwise_cons]
    refine ⟨fun x hx => ?_, hs1⟩
    have hq := mul_pos hq1 hl
    simp only [Prod.fst_zero]
    rcases List.mem_cons.1 hx with rfl | hx
    · simp only; linarith
    · have := (List.pairwise_cons.1 hs1).1 x hx
      simp only at this
      linarith
  obtain ⟨ks, ek, hks⟩ := slopes_of _ _ hs1
  have hb : build m m ⟨area, q :: qs, true⟩ l0 0 d true = .ok
      { initD := d, linked := true, twist := true, pts := 0 :: (-(q.1 * l0), -(kD * (q.1 * l0))) :: qs.map fun x => (-(m.lambdaEps * (x.1 * l0)), -(kD * (q.1 * l0) / (q.2 * area) * (x.2 * area))), ks := kD :: ks, kn := kD, plastD := 0, limit := 0, dL := 0 } := by
    unfold build
    simp only [List.map_cons, e]
    rw [hquot, Res.bind_ok]
    unfold elastic
    rw [if_pos ⟨rfl, h0⟩, add_zero, hkDe, hpts]
    unfold finish
    dsimp only
    unfold firstPart
    rw [if_neg h2, if_neg h2, Res.bind_ok]
    dsimp only
    rw [ek, Res.bind_ok]
  refine ⟨_, kD, _, hb, hkDe.symm, rfl, rfl, ⟨rfl, rfl, rfl, by simp, hs0, ?_, hkD⟩⟩
  have := SlopesOf.cons 0 _ _ _ hks
  simp only [Prod.snd_zero, Prod.fst_zero, sub_zero, neg_div_neg_eq] at this
  rw [mul_div_cancel_right₀ kD (mul_pos hq1 hl).ne'] at this
  exact this

example : ∀ x ∈ [((1 / 10, 300) : Pt)], ((1 / 100, 200) : Pt).1 < (mat0 0 true []).lambdaEps * x.1 := by
  intro x hx
  simp at hx
  subst hx
  norm_num [mat0]

end Verif.Wire
