import Verif.Pack.PlanLemmas

/-!
# Lemmas on radii
-/
namespace Verif.Pack
open Verif.Mech
open scoped Classical

theorem upperIndex_spec (x : ℝ) (l : List ℝ) : (∀ j v, j < upperIndex x l → l[j]? = some v → v ≤ x) ∧
    (∀ v, l[upperIndex x l]? = some v → x < v) ∧ upperIndex x l ≤ l.length := by
  induction l with
  | nil => exact ⟨by simp [upperIndex], by simp, le_rfl⟩
  | cons w ws ih =>
    rw [upperIndex]
    split_ifs with h
    · refine ⟨?_, ?_, ?_⟩
      · intro j v hj hv
        cases j with
        | zero => simp only [List.getElem?_cons_zero, Option.some.injEq] at hv; rw [← hv]; exact h
        | succ j => exact ih.1 j v (by omega) (by simpa using hv)
      · intro v hv
        exact ih.2.1 v (by simpa using hv)
      · simpa using ih.2.2
    · refine ⟨by intro j v hj; omega, ?_, by simp⟩
      intro v hv
      simp only [List.getElem?_cons_zero, Option.some.injEq] at hv
      rw [← hv]
      exact not_le.mp h

theorem piece_ok {x : ℝ} {cumm : List ℝ} {i : Nat} {norm : ℝ} (h : psdGetPiece x cumm = .ok (i, norm)) :
    ∃ c0 c1, cumm[i]? = some c0 ∧ cumm[i + 1]? = some c1 ∧ c0 ≤ x ∧ x < c1 ∧ norm = (x - c0) / (c1 - c0) := by
  obtain ⟨h1, h2, -⟩ := upperIndex_spec x cumm
  unfold psdGetPiece at h
  split at h
  · cases h
  · rename_i j hj
    rw [hj] at h1 h2
    cases h0 : cumm[j]? with
    | none => rw [h0] at h; cases h
    | some c0 =>
      cases h3 : cumm[j + 1]? with
      | none => rw [h0, h3] at h; cases h
      | some c1 =>
        rw [h0, h3] at h
        dsimp only at h
        obtain ⟨q, hq, h⟩ := bind_eq_ok h
        have e := Res.ok.inj h
        have e1 : j = i := congrArg Prod.fst e
        have e2 : q = norm := congrArg Prod.snd e
        subst e1 e2
        exact ⟨c0, c1, h0, h3, h1 j c0 (Nat.lt_succ_self j) h0, h2 c1 h3, (quot_ok hq).2⟩

/-- In a cumulated distribution from 0 to 1 there is a piece for each number from 0 up to but without 1. -/
theorem piece_exists {x : ℝ} {cumm : List ℝ} (h0 : cumm.head? = some 0) (h1 : cumm.getLast? = some 1) (hx : 0 ≤ x) (hx1 : x < 1) :
    ∃ i norm, psdGetPiece x cumm = .ok (i, norm) ∧ i + 1 < cumm.length := by
  obtain ⟨s1, s2, s3⟩ := upperIndex_spec x cumm
  have hne : cumm ≠ [] := by rintro rfl; cases h0
  have hpos := List.length_pos_of_ne_nil hne
  have hlast : cumm[cumm.length - 1]? = some 1 := by rw [← List.getLast?_eq_getElem?]; exact h1
  have hlt : upperIndex x cumm < cumm.length := by
    by_contra hc
    have := s1 (cumm.length - 1) 1 (by omega) hlast
    linarith
  have hgt : upperIndex x cumm ≠ 0 := by
    intro hc
    rw [hc] at s2
    have := s2 0 (by rw [← List.head?_eq_getElem?]; exact h0)
    linarith
  obtain ⟨i, hi⟩ := Nat.exists_eq_succ_of_ne_zero hgt
  have hi' : upperIndex x cumm = i + 1 := hi
  rw [hi'] at s1 s2 hlt
  obtain ⟨c0, e0⟩ : ∃ c0, cumm[i]? = some c0 := ⟨_, List.getElem?_eq_getElem (by omega)⟩
  obtain ⟨c1, e1⟩ : ∃ c1, cumm[i + 1]? = some c1 := ⟨_, List.getElem?_eq_getElem hlt⟩
  have a0 := s1 i c0 (Nat.lt_succ_self i) e0
  have a1 := s2 c1 e1
  refine ⟨i, (x - c0) / (c1 - c0), ?_, hlt⟩
  unfold psdGetPiece
  rw [hi']
  dsimp only
  rw [e0, e1]
  dsimp only
  rw [quot, if_neg (by linarith)]
  rfl

theorem norm_range {x c0 c1 : ℝ} (h0 : c0 ≤ x) (h1 : x < c1) : 0 ≤ (x - c0) / (c1 - c0) ∧ (x - c0) / (c1 - c0) ≤ 1 := by
  have : 0 < c1 - c0 := by linarith
  exact ⟨div_nonneg (by linarith) this.le, by rw [div_le_one this]; linarith⟩

/-- The values between which `pow3Interp` interpolates. -/
theorem pow3_range {x p q r : ℝ} (hp : 0 ≤ p) (hpq : p ≤ q) (hx : 0 ≤ x) (hx1 : x ≤ 1) (h : pow3Interp x p q = .ok r) :
    0 < p ∧ p ≤ r ∧ r ≤ q ∧ r = (x * (1 / q ^ 2 - 1 / p ^ 2) + 1 / p ^ 2) ^ (-1 / 2 : ℝ) := by
  unfold pow3Interp at h
  obtain ⟨a2, h1, h⟩ := bind_eq_ok h
  obtain ⟨b2, h2, h⟩ := bind_eq_ok h
  obtain ⟨n1, rfl⟩ := quot_ok h1
  obtain ⟨n2, rfl⟩ := quot_ok h2
  obtain ⟨h3, rfl⟩ := power_ok h
  have hp' : 0 < p := lt_of_le_of_ne hp (by rintro rfl; simp at n1)
  have hq' : 0 < q := lt_of_lt_of_le hp' hpq
  have hsq : ∀ {u : ℝ}, 0 < u → (1 / u ^ 2) ^ (-1 / 2 : ℝ) = u := by
    intro u hu
    rw [show (-1 / 2 : ℝ) = -(1 / 2) by norm_num, Real.rpow_neg (by positivity), ← Real.sqrt_eq_rpow, one_div, Real.sqrt_inv, inv_inv,
      Real.sqrt_sq hu.le]
  have hle : 1 / q ^ 2 ≤ 1 / p ^ 2 := one_div_le_one_div_of_le (by positivity) (pow_le_pow_left₀ hp hpq 2)
  refine ⟨hp', ?_, ?_, rfl⟩
  · rw [← hsq hp']
    conv_rhs => rw [hsq hp']
    apply Real.rpow_le_rpow_of_nonpos _ _ (by norm_num)
    · have : 0 < 1 / q ^ 2 := by positivity
      nlinarith
    · nlinarith
  · rw [← hsq hq']
    conv_lhs => rw [hsq hq']
    apply Real.rpow_le_rpow_of_nonpos _ _ (by norm_num)
    · positivity
    · nlinarith

theorem pow3_mono {x y p q r s : ℝ} (hp : 0 ≤ p) (hpq : p ≤ q) (hx : 0 ≤ x) (hxy : x ≤ y) (hy : y ≤ 1)
    (h : pow3Interp x p q = .ok r) (h' : pow3Interp y p q = .ok s) : r ≤ s := by
  obtain ⟨h0, -, -, rfl⟩ := pow3_range hp hpq hx (le_trans hxy hy) h
  obtain ⟨-, -, -, rfl⟩ := pow3_range hp hpq (le_trans hx hxy) hy h'
  have hq : 0 < q := lt_of_lt_of_le h0 hpq
  have hle : 1 / q ^ 2 ≤ 1 / p ^ 2 := one_div_le_one_div_of_le (by positivity) (pow_le_pow_left₀ hp hpq 2)
  have : 0 < 1 / q ^ 2 := by positivity
  apply Real.rpow_le_rpow_of_nonpos _ _ (by norm_num)
  · nlinarith
  · nlinarith

theorem pow3_exists {x p q : ℝ} (hp : 0 < p) (hpq : p ≤ q) (hx : 0 ≤ x) (hx1 : x ≤ 1) : ∃ r, pow3Interp x p q = .ok r := by
  have hq : 0 < q := lt_of_lt_of_le hp hpq
  have hle : 1 / q ^ 2 ≤ 1 / p ^ 2 := one_div_le_one_div_of_le (by positivity) (pow_le_pow_left₀ hp.le hpq 2)
  have : 0 < 1 / q ^ 2 := by positivity
  unfold pow3Interp quot power
  rw [if_neg (by positivity), if_neg (by positivity), Res.bind_ok, Res.bind_ok, if_neg (by nlinarith)]
  exact ⟨_, rfl⟩

/-- What the numbers of `massCumm` are: sums of non-negative terms, times a common factor. -/
theorem massCumm_spec {V poro acc : ℝ} {ss cs l : List ℝ} (hs : ss.Pairwise (· ≤ ·)) (hs0 : ∀ s ∈ ss, 0 ≤ s) (hc : cs.Pairwise (· ≤ ·))
    (h : massCumm V poro acc ss cs = .ok l) : ∃ ws : List ℝ, l = ws.map (fun w => acc + 3 * V * (1 - poro) / Real.pi * w) ∧
      (0 :: ws).Pairwise (· ≤ ·) := by
  induction ss generalizing acc cs l with
  | nil => rw [massCumm] at h; cases h; exact ⟨[], rfl, by simp⟩; simp
  | cons s0 ss ih =>
    cases ss with
    | nil => rw [massCumm] at h; cases h; exact ⟨[], rfl, by simp⟩; simp
    | cons s1 ss =>
      cases cs with
      | nil => rw [massCumm] at h; cases h; exact ⟨[], rfl, by simp⟩; simp
      | cons c0 cs =>
        cases cs with
        | nil => rw [massCumm] at h; cases h; exact ⟨[], rfl, by simp⟩; simp
        | cons c1 cs =>
          rw [massCumm] at h
          obtain ⟨d, h1, h⟩ := bind_eq_ok h
          obtain ⟨p0, h2, h⟩ := bind_eq_ok h
          obtain ⟨p1, h3, h⟩ := bind_eq_ok h
          obtain ⟨l', h4, h⟩ := bind_eq_ok h
          cases h
          obtain ⟨n1, rfl⟩ := quot_ok h1
          obtain ⟨n2, rfl⟩ := quot_ok h2
          obtain ⟨n3, rfl⟩ := quot_ok h3
          obtain ⟨ws, e, hw⟩ := ih hs.of_cons (fun s h => hs0 s (List.mem_cons_of_mem _ h)) hc.of_cons h4
          have a1 : s0 ≤ s1 := (List.pairwise_cons.mp hs).1 s1 (by simp)
          have a2 : c0 ≤ c1 := (List.pairwise_cons.mp hc).1 c1 (by simp)
          have a3 : 0 < s0 := lt_of_le_of_ne (hs0 s0 (by simp)) (by rintro rfl; simp at n2)
          have a4 : 0 ≤ (c1 - c0) * (1 / (s1 - s0)) * (1 / s0 ^ 2 - 1 / s1 ^ 2) := by
            apply mul_nonneg (mul_nonneg (by linarith) (one_div_nonneg.mpr (by linarith)))
            have := one_div_le_one_div_of_le (by positivity : 0 < s0 ^ 2) (pow_le_pow_left₀ a3.le a1 2)
            linarith
          refine ⟨(c1 - c0) * (1 / (s1 - s0)) * (1 / s0 ^ 2 - 1 / s1 ^ 2) ::
            ws.map ((c1 - c0) * (1 / (s1 - s0)) * (1 / s0 ^ 2 - 1 / s1 ^ 2) + ·), ?_, ?_⟩
          · rw [e]
            simp only [List.map_cons, List.map_map, List.cons.injEq]
            refine ⟨by ring, List.map_congr_left fun w _ => ?_⟩
            simp only [Function.comp]
            ring
          · rw [List.pairwise_cons] at hw
            rw [List.pairwise_cons, List.pairwise_cons, List.pairwise_map]
            refine ⟨?_, ?_, hw.2.imp fun h => by linarith⟩
            · intro v hv
              rcases List.mem_cons.mp hv with rfl | hv
              · exact a4
              · obtain ⟨w, h5, rfl⟩ := List.mem_map.mp hv
                linarith [hw.1 w h5]
            · intro v hv
              obtain ⟨w, h5, rfl⟩ := List.mem_map.mp hv
              linarith [hw.1 w h5]

theorem massCumm_length {V poro acc : ℝ} {ss cs l : List ℝ} (hl : ss.length = cs.length) (h : massCumm V poro acc ss cs = .ok l) :
    l.length = ss.length - 1 := by
  induction ss generalizing acc cs l with
  | nil => rw [massCumm] at h; cases h; rfl; simp
  | cons s0 ss ih =>
    cases ss with
    | nil => rw [massCumm] at h; cases h; rfl; simp
    | cons s1 ss =>
      match cs, hl with
      | c0 :: c1 :: cs, hl =>
        rw [massCumm] at h
        obtain ⟨d, h1, h⟩ := bind_eq_ok h
        obtain ⟨p0, h2, h⟩ := bind_eq_ok h
        obtain ⟨p1, h3, h⟩ := bind_eq_ok h
        obtain ⟨l', h4, h⟩ := bind_eq_ok h
        cases h
        have := ih (by simpa using hl) h4
        simp only [List.length_cons] at this ⊢
        omega

theorem getLastD_map (l : List ℝ) (f : ℝ → ℝ) (hl : l ≠ []) : (l.map f).getLastD 0 = f (l.getLastD 0) := by
  rw [List.getLastD_eq_getLast?, List.getLastD_eq_getLast?, List.getLast?_map]
  obtain ⟨x, hx⟩ := Option.isSome_iff_exists.mp (List.getLast?_isSome.mpr hl)
  rw [hx]
  rfl

/-- The cumulated fractions by number made from a distribution by mass are non-decreasing from 0 to 1. -/
theorem massCumm_norm {V poro : ℝ} {ss cs l : List ℝ} (hs : ss.Pairwise (· ≤ ·)) (hs0 : ∀ s ∈ ss, 0 ≤ s) (hc : cs.Pairwise (· ≤ ·))
    (h : massCumm V poro 0 ss cs = .ok l) (hl : (0 :: l).getLastD 0 ≠ 0) :
    let cumm := (0 :: l).map (· / (0 :: l).getLastD 0)
    cumm.Pairwise (· ≤ ·) ∧ cumm.head? = some 0 ∧ cumm.getLast? = some 1 := by
  obtain ⟨ws, e, hw⟩ := massCumm_spec hs hs0 hc h
  intro cumm
  have e' : (0 :: l) = (0 :: ws).map (fun w => 3 * V * (1 - poro) / Real.pi * w) := by
    rw [e]
    simp
  have hlast : (0 :: l).getLastD 0 = 3 * V * (1 - poro) / Real.pi * (0 :: ws).getLastD 0 := by
    rw [e', getLastD_map _ _ (by simp)]
  rw [hlast] at hl
  have hK : 3 * V * (1 - poro) / Real.pi ≠ 0 := left_ne_zero_of_mul hl
  have hW : (0 :: ws).getLastD 0 ≠ 0 := right_ne_zero_of_mul hl
  have hc' : cumm = (0 :: ws).map (· / (0 :: ws).getLastD 0) := by
    simp only [cumm]
    rw [hlast, e', List.map_map]
    apply List.map_congr_left
    intro w _
    simp only [Function.comp]
    rw [mul_div_mul_left _ _ hK]
  have hWpos : 0 < (0 :: ws).getLastD 0 := by
    refine lt_of_le_of_ne ?_ (Ne.symm hW)
    have hmem : (0 :: ws).getLastD 0 ∈ (0 :: ws) := by
      rw [List.getLastD_eq_getLast?, List.getLast?_eq_getLast_of_ne_nil (by simp)]
      exact List.getLast_mem _
    rcases List.mem_cons.mp hmem with h0 | h0
    · exact h0.ge
    · exact (List.pairwise_cons.mp hw).1 _ h0
  refine ⟨?_, ?_, ?_⟩
  · rw [hc', List.pairwise_map]
    exact hw.imp fun h => div_le_div_of_nonneg_right h hWpos.le
  · simp [cumm]
  · rw [hc', List.getLast?_map, List.getLast?_eq_getLast_of_ne_nil (by simp : (0 :: ws) ≠ [])]
    simp only [Option.map_some, Option.some.injEq]
    rw [List.getLastD_eq_getLast?, List.getLast?_eq_getLast_of_ne_nil (by simp : (0 :: ws) ≠ [])] at hW ⊢
    exact div_self hW

end Verif.Pack
