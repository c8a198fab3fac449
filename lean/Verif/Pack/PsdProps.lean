import Verif.Pack.SizeProps
import Verif.Pack.CountProps

/-!
# C136 and C138: which size distributions are accepted, and the porosity attained
-/
namespace Verif.Pack
open Verif.Mech
open scoped Classical

theorem loop_no_ub {a : Args} {d : Dist} (hr : ∀ x, 0 ≤ x → x < 1 → radius a d x ≠ .ub) {n i : Nat} {pack : List Sph} {g : Rnd} (hg : Good g) :
    cloudLoop a d n i pack g ≠ some .ub := by
  induction n generalizing i pack g with
  | zero => intro h; cases h
  | succ n ih =>
    rw [cloudLoop]
    by_cases hi : (i : Int) < a.num ∨ a.num < 0
    · rw [if_pos hi]
      dsimp only
      obtain ⟨hg1, x0, x1, -⟩ := sizeNumber_good hg hi
      have := hr _ x0 x1
      cases hq : radius a d (sizeNumber a i g).1 with
      | ub => exact absurd hq this
      | throws => intro h; cases h
      | ok r =>
        dsimp only
        cases hp : place a r pack maxTry (sizeNumber a i g).2 with
        | mk o g2 =>
          cases o with
          | none => intro h; cases h
          | some c => exact ih (place_spec hg1 hp).1
    · rw [if_neg hi]
      intro h
      cases h

theorem cloud_no_ub {a : Args} (hp : ∀ a', Retry a a' → ∀ s, plan a' s ≠ .ub)
    (hr : ∀ a' s d s', Retry a a' → plan a' s = .ok (d, s') → ∀ x, 0 ≤ x → x < 1 → radius a' d x ≠ .ub) {n : Nat} {sp : SpherePack} {g : Rnd}
    (hg : Good g) : makeCloud n a sp g ≠ some .ub := by
  induction n generalizing a sp g with
  | zero => intro h; cases h
  | succ n ih =>
    rw [makeCloud]
    have h1 := hp a (.refl a) sp.scaling
    have h2 := hr a sp.scaling
    cases hq : plan a sp.scaling with
    | ub => exact absurd hq h1
    | throws => intro h; cases h
    | ok ds =>
      obtain ⟨d, s'⟩ := ds
      have h3 := loop_no_ub (h2 d s' (.refl a) hq) (n := n + 1) (i := 0) (pack := sp.pack) hg
      dsimp only
      cases hl : cloudLoop a d (n + 1) 0 sp.pack g with
      | none => intro h; cases h
      | some x =>
        cases x with
        | ub => exact absurd hl h3
        | throws => intro h; cases h
        | ok x =>
          obtain ⟨e, pack, g1⟩ := x
          have hg1 : Good g1 := (loop_inv (P := fun _ _ => True) (by intros; trivial) hg trivial hl).1
          cases e with
          | all => intro h; cases h
          | stuck i =>
            dsimp only
            by_cases hc : a.num > 0 ∧ d.retries = true
            · rw [if_pos hc]
              have hR : Retry a { a with rMean := -1, porosity := a.poro + (1 - a.poro) / 10 } :=
                ⟨_, _, rfl, Or.inr ⟨rfl, fun hp => ⟨by linarith, by linarith⟩⟩⟩
              exact ih (fun a' h => hp a' (hR.trans h)) (fun a' s d s' h => hr a' s d s' (hR.trans h)) hg1
            · rw [if_neg hc]
              intro h
              cases h

theorem plan_no_ub {a : Args} {s : ℝ} (hps : a.psdSizes ≠ []) (h : psdPlan a a.cell.det s ≠ .ub) : plan a s ≠ .ub := by
  rw [plan, if_neg hps, if_neg (fun h : 0 < a.num ∧ a.psdSizes = [] => hps h.2), if_neg hps]
  split_ifs
  · intro h; cases h
  · cases hq : psdPlan a a.cell.det s with
    | ub => exact absurd hq h
    | throws => intro h; cases h
    | ok x => intro h; cases h
  · exact h

theorem retry_poro {a a' : Args} (h : Retry a a') (hp : a.poro < 1) : a.poro ≤ a'.poro ∧ a'.poro < 1 := by
  obtain ⟨m, p, rfl, ⟨rfl, rfl⟩ | ⟨rfl, h⟩⟩ := h
  · exact ⟨le_rfl, hp⟩
  · have h1 := h hp
    have : Args.poro { a with rMean := -1, porosity := p } = p := poro_of_pos (lt_trans (poro_pos a) h1.1)
    rw [this]
    exact ⟨h1.1.le, h1.2⟩

theorem Retry.same {a a' : Args} (h : Retry a a') : a'.psdSizes = a.psdSizes ∧ a'.psdCumm = a.psdCumm ∧ a'.distributeMass = a.distributeMass ∧
    a'.num = a.num ∧ a'.fuzz = a.fuzz ∧ a'.cell = a.cell ∧ (a.rMean ≤ 0 → a'.rMean ≤ 0) := by
  obtain ⟨m, p, rfl, hm⟩ := h
  refine ⟨rfl, rfl, rfl, rfl, rfl, rfl, fun h0 => ?_⟩
  rcases hm with ⟨rfl, -⟩ | ⟨rfl, -⟩
  · exact h0
  · norm_num

theorem psdPlan_no_ub {a : Args} {s V : ℝ} (hd : a.distributeMass = false) (hV : (if V ≠ 0 then V else a.area * a.psdSizes.getLastD 0) ≠ 0)
    (hp : a.poro < 1) : psdPlan a V s ≠ .ub := by
  rw [psdPlan]
  by_cases h1 : a.psdSizes.length ≠ a.psdCumm.length
  · rw [if_pos h1]; intro h; cases h
  rw [if_neg h1]
  by_cases h2 : a.psdSizes.length ≤ 1
  · rw [if_pos h2]; intro h; cases h
  rw [if_neg h2]
  by_cases h3 : a.psdCumm.head? ≠ some 0 ∧ a.psdCumm.getLast? ≠ some 1
  · rw [if_pos h3]; intro h; cases h
  rw [if_neg h3]
  by_cases h4 : ¬ a.psdSizes.Pairwise (· ≤ ·) ∨ ¬ a.psdCumm.Pairwise (· ≤ ·)
  · rw [if_pos h4]; intro h; cases h
  rw [if_neg h4]
  dsimp only
  simp only [hd, Bool.false_eq_true, if_false, Res.bind_ok]
  rw [quot, if_neg (mul_ne_zero (by linarith) hV), Res.bind_ok]
  by_cases hn : a.num > 1
  · rw [if_pos hn]
    by_cases hr : totVol a.num a.psdSizes a.psdCumm / ((1 - a.poro) * if V ≠ 0 then V else a.area * a.psdSizes.getLastD 0) > 1
    · rw [if_pos hr, power, if_neg (by linarith), Res.bind_ok]
      intro h
      cases h
    · rw [if_neg hr, Res.bind_ok]
      intro h
      cases h
  · rw [if_neg hn, Res.bind_ok]
    intro h
    cases h

/-! ## C136 -/

/-- C136.  A size distribution by number whose cumulated fractions go from 0 to 1 is never read outside of its points, whatever the random
numbers.  Missing: other cumulated fractions, which the check lets pass, see `C136_violated`. -/
theorem C136_number_partial {n : Nat} {a : Args} {sp : SpherePack} {g : Rnd} (hg : Good g) (hps : a.psdSizes ≠ []) (hd : a.distributeMass = false)
    (h0 : a.psdCumm.head? = some 0) (h1 : a.psdCumm.getLast? = some 1) (hp : a.porosity < 1)
    (hV : (if a.hSize = 0 then Matrix.diagonal (a.mx - a.mn) else a.hSize).det ≠ 0) : makeCloud n a sp g ≠ some .ub := by
  have hp' : a.poro < 1 := by
    unfold Args.poro
    split_ifs
    · norm_num
    · exact hp
  apply cloud_no_ub
  · intro a' hR s
    have hp2 := (retry_poro hR hp').2
    obtain ⟨r1, r2, r3, r4, r5, r6, r7⟩ := hR.same
    have hV' : a'.cell.det ≠ 0 := by rw [r6]; exact hV
    exact plan_no_ub (by rw [r1]; exact hps) (psdPlan_no_ub (by rw [r3]; exact hd) (by rw [if_pos hV']; exact hV') hp2)
  · intro a' s d s' hR hpl x x0 x1
    obtain ⟨r1, r2, r3, r4, r5, r6, r7⟩ := hR.same
    rw [← r1] at hps
    rw [← r2] at h0 h1
    rw [← r3] at hd
    rcases (plan_spec hpl).2 with ⟨-, q2, -⟩ | ⟨-, -, q3, -⟩ | ⟨-, -, q⟩
    · exact absurd q2 hps
    · exact absurd q3 hps
    obtain ⟨b1, b2, -, b4, b5, -, -, cumm', rfl, e8, -⟩ := psdPlan_spec q
    rw [e8 hd, radius]
    obtain ⟨i, norm, hi, hlt⟩ := piece_exists h0 h1 x0 x1
    rw [hi, Res.bind_ok]
    dsimp only
    rw [List.getElem?_map, List.getElem?_map, List.getElem?_eq_getElem (by omega), List.getElem?_eq_getElem (by omega)]
    simp only [Option.map_some, hd]
    intro h
    cases h
  · exact hg

theorem massCumm_grows {V poro acc S : ℝ} {ss cs : List ℝ} (hK : 0 ≤ 3 * V * (1 - poro) / Real.pi) (hs : ss.Pairwise (· < ·))
    (hs0 : ∀ s ∈ ss, 0 < s) (hS : ∀ s ∈ ss, s ≤ S) (hc : cs.Pairwise (· ≤ ·)) (hl : ss.length = cs.length) :
    ∃ l, massCumm V poro acc ss cs = .ok l ∧
      acc + 3 * V * (1 - poro) / Real.pi * (2 / S ^ 3) * (cs.getLastD 0 - cs.headD 0) ≤ (acc :: l).getLastD 0 := by
  induction ss generalizing acc cs with
  | nil =>
    cases cs with
    | nil => exact ⟨[], by rw [massCumm]; simp, by simp⟩
    | cons c cs => simp at hl
  | cons p ss ih =>
    cases ss with
    | nil =>
      match cs, hl with
      | [c], hl => exact ⟨[], by rw [massCumm]; simp, by simp⟩
    | cons q ss =>
      match cs, hl with
      | c0 :: c1 :: cs, hl =>
        have a1 : p < q := (List.pairwise_cons.mp hs).1 q (by simp)
        have a2 : 0 < p := hs0 p (by simp)
        have a3 : 0 < q := hs0 q (by simp)
        have a4 : c0 ≤ c1 := (List.pairwise_cons.mp hc).1 c1 (by simp)
        have a5 : p ≤ S := hS p (by simp)
        have a6 : q ≤ S := hS q (by simp)
        have a7 : 0 < S := lt_of_lt_of_le a2 a5
        obtain ⟨l, h1, h2⟩ := ih (acc := acc + 3 * V * (1 - poro) / Real.pi * (c1 - c0) * (1 / (q - p)) * (1 / p ^ 2 - 1 / q ^ 2)) hs.of_cons
          (fun s h => hs0 s (List.mem_cons_of_mem _ h)) (fun s h => hS s (List.mem_cons_of_mem _ h)) hc.of_cons (by simpa using hl)
        refine ⟨(acc + 3 * V * (1 - poro) / Real.pi * (c1 - c0) * (1 / (q - p)) * (1 / p ^ 2 - 1 / q ^ 2)) :: l, ?_, ?_⟩
        · rw [massCumm, quot, if_neg (by linarith), Res.bind_ok, quot, if_neg (by positivity), Res.bind_ok, quot, if_neg (by positivity),
            Res.bind_ok]
          dsimp only
          rw [h1, Res.bind_ok]
        · have e : (acc :: (acc + 3 * V * (1 - poro) / Real.pi * (c1 - c0) * (1 / (q - p)) * (1 / p ^ 2 - 1 / q ^ 2)) :: l).getLastD 0 =
              ((acc + 3 * V * (1 - poro) / Real.pi * (c1 - c0) * (1 / (q - p)) * (1 / p ^ 2 - 1 / q ^ 2)) :: l).getLastD 0 := by
            simp
          rw [e]
          refine le_trans ?_ h2
          have e2 : (c0 :: c1 :: cs).getLastD 0 = (c1 :: cs).getLastD 0 := by simp
          rw [e2]
          have h3 : 1 / (q - p) * (1 / p ^ 2 - 1 / q ^ 2) = 1 / (p * q ^ 2) + 1 / (p ^ 2 * q) := by
            have : q - p ≠ 0 := by linarith
            field_simp
            ring
          have h4 : 1 / S ^ 3 ≤ 1 / (p * q ^ 2) := one_div_le_one_div_of_le (by positivity) (by
            calc p * q ^ 2 ≤ S * S ^ 2 := mul_le_mul a5 (pow_le_pow_left₀ a3.le a6 2) (by positivity) a7.le
              _ = S ^ 3 := by ring)
          have h5 : 1 / S ^ 3 ≤ 1 / (p ^ 2 * q) := one_div_le_one_div_of_le (by positivity) (by
            calc p ^ 2 * q ≤ S ^ 2 * S := mul_le_mul (pow_le_pow_left₀ a2.le a5 2) a6 (by positivity) (by positivity)
              _ = S ^ 3 := by ring)
          have h6 : 2 / S ^ 3 ≤ 1 / (q - p) * (1 / p ^ 2 - 1 / q ^ 2) := by
            rw [h3, show 2 / S ^ 3 = 1 / S ^ 3 + 1 / S ^ 3 by ring]
            linarith
          have h7 := mul_le_mul_of_nonneg_left h6 (mul_nonneg hK (sub_nonneg.mpr a4))
          simp only [List.headD_cons]
          nlinarith

theorem le_getLastD {l : List ℝ} (h : l.Pairwise (· ≤ ·)) : ∀ s ∈ l, s ≤ l.getLastD 0 := by
  intro s hs
  have hne : l ≠ [] := List.ne_nil_of_mem hs
  obtain ⟨i, hi⟩ := List.mem_iff_getElem?.mp hs
  obtain ⟨h1, -⟩ := List.getElem?_eq_some_iff.mp hi
  have h2 : l[l.length - 1]? = some (l.getLastD 0) := by
    rw [List.getLastD_eq_getLast?, List.getLast?_eq_getElem?, List.getElem?_eq_getElem (by omega)]
    rfl
  exact sorted_get h hi h2 (by omega)

/-- C136.  A size distribution by mass with increasing positive sizes and cumulated fractions from 0 to 1 leads to no division by zero and is
never read outside of its points.  Missing: other cumulated fractions, see `C136_violated`. -/
theorem C136_mass_partial {n : Nat} {a : Args} {sp : SpherePack} {g : Rnd} (hg : Good g) (hps : a.psdSizes ≠ []) (hd : a.distributeMass = true)
    (hs : a.psdSizes.Pairwise (· < ·)) (hs0 : ∀ s ∈ a.psdSizes, 0 < s)
    (h0 : a.psdCumm.head? = some 0) (h1 : a.psdCumm.getLast? = some 1) (hp : a.porosity < 1)
    (hV : 0 < (if a.hSize = 0 then Matrix.diagonal (a.mx - a.mn) else a.hSize).det) : makeCloud n a sp g ≠ some .ub := by
  have hp' : a.poro < 1 := by
    unfold Args.poro
    split_ifs
    · norm_num
    · exact hp
  have hpi := Real.pi_pos
  -- what the distribution by number is
  have key : ∀ a', Retry a a' → a'.psdSizes.length = a'.psdCumm.length → a'.psdCumm.Pairwise (· ≤ ·) →
      ∃ l, massCumm (if a'.cell.det ≠ 0 then a'.cell.det else a'.area * a'.psdSizes.getLastD 0) a'.poro 0 a'.psdSizes a'.psdCumm = .ok l ∧
        0 < (0 :: l).getLastD 0 := by
    intro a' hR hl hc
    have hp2 := (retry_poro hR hp').2
    obtain ⟨r1, r2, r3, r4, r5, r6, r7⟩ := hR.same
    have hV' : 0 < a'.cell.det := by rw [r6]; exact hV
    rw [if_pos hV'.ne']
    have hK : 0 < 3 * a'.cell.det * (1 - a'.poro) / Real.pi := by
      apply div_pos _ hpi
      have : 0 < 1 - a'.poro := by linarith
      positivity
    obtain ⟨l, e1, e2⟩ := massCumm_grows (V := a'.cell.det) (poro := a'.poro) (acc := 0) (S := a'.psdSizes.getLastD 0) hK.le (by rw [r1]; exact hs)
      (by rw [r1]; exact hs0) (le_getLastD (by rw [r1]; exact hs.imp le_of_lt)) hc hl
    refine ⟨l, e1, lt_of_lt_of_le ?_ e2⟩
    have e3 : a'.psdCumm.getLastD 0 = 1 := by rw [List.getLastD_eq_getLast?, r2, h1]; rfl
    have e4 : a'.psdCumm.headD 0 = 0 := by rw [List.headD_eq_head?_getD, r2, h0]; rfl
    have e5 : 0 < a'.psdSizes.getLastD 0 := by
      rw [r1]
      obtain ⟨s, hs'⟩ := List.exists_mem_of_ne_nil _ hps
      exact lt_of_lt_of_le (hs0 s hs') (le_getLastD (hs.imp le_of_lt) s hs')
    rw [e3, e4]
    have : 0 < 2 / a'.psdSizes.getLastD 0 ^ 3 := by positivity
    nlinarith [mul_pos hK this]
  apply cloud_no_ub
  · intro a' hR s
    have hk := key a' hR
    obtain ⟨r1, r2, r3, r4, r5, r6, r7⟩ := hR.same
    apply plan_no_ub (by rw [r1]; exact hps)
    rw [psdPlan]
    by_cases k1 : a'.psdSizes.length ≠ a'.psdCumm.length
    · rw [if_pos k1]; intro h; cases h
    rw [if_neg k1]
    by_cases k2 : a'.psdSizes.length ≤ 1
    · rw [if_pos k2]; intro h; cases h
    rw [if_neg k2]
    by_cases k3 : a'.psdCumm.head? ≠ some 0 ∧ a'.psdCumm.getLast? ≠ some 1
    · rw [if_pos k3]; intro h; cases h
    rw [if_neg k3]
    by_cases k4 : ¬ a'.psdSizes.Pairwise (· ≤ ·) ∨ ¬ a'.psdCumm.Pairwise (· ≤ ·)
    · rw [if_pos k4]; intro h; cases h
    rw [if_neg k4]
    obtain ⟨l, e1, e2⟩ := hk (not_not.mp k1) (by by_contra hc; exact k4 (Or.inr hc))
    dsimp only
    rw [r3, hd]
    simp only [if_true]
    rw [e1, Res.bind_ok, Res.bind_ok]
    have fin : ∀ sc : ℝ, (if (0 :: l).getLastD 0 = 0 then Res.ub else Res.ok (Dist.psd (if a'.num > 1 ∧ sc < 1 then
        (a'.psdSizes.map (0.5 * ·)).map (· * sc) else a'.psdSizes.map (0.5 * ·)) ((0 :: l).map (· / (0 :: l).getLastD 0)), sc)) ≠ Res.ub := by
      intro sc
      rw [if_neg e2.ne']
      intro h
      cases h
    by_cases hn : a'.num > 1
    · rw [if_pos hn]
      have hnR : (0 : ℝ) < a'.num := by
        have : (0 : Int) < a'.num := by omega
        exact_mod_cast this
      by_cases hb : (0 :: l).getLastD 0 < a'.num
      · rw [if_pos hb, power, if_neg (not_lt.mpr (div_nonneg e2.le hnR.le)), Res.bind_ok]
        exact fin _
      · rw [if_neg hb, Res.bind_ok]
        exact fin _
    · rw [if_neg hn, Res.bind_ok]
      exact fin _
  · intro a' s d s' hR hpl x x0 x1
    have hk := key a' hR
    obtain ⟨r1, r2, r3, r4, r5, r6, r7⟩ := hR.same
    rw [← r1] at hps hs hs0
    rw [← r2] at h0 h1
    rw [← r3] at hd
    rcases (plan_spec hpl).2 with ⟨-, q2, -⟩ | ⟨-, -, q3, -⟩ | ⟨-, -, q⟩
    · exact absurd q2 hps
    · exact absurd q3 hps
    obtain ⟨b1, b2, -, b4, b5, -, b7, cumm', rfl, -, e9⟩ := psdPlan_spec q
    obtain ⟨l, l1, l2, rfl⟩ := e9 hd
    obtain ⟨-, m2, m3⟩ := massCumm_norm b4 (fun s h => (hs0 s h).le) b5 l1 l2
    have hlen := massCumm_length b1 l1
    -- the scaling is positive
    have hf : 0 < (if a'.num > 1 then s' else 1) := by
      split_ifs with hn
      · refine lt_of_le_of_ne (b7 hn).1 ?_
        rintro rfl
        obtain ⟨l', l3, l4⟩ := hk b1 b5
        rw [l1] at l3
        cases l3
        have hnR : (0 : ℝ) < a'.num := by
          have : (0 : Int) < a'.num := by omega
          exact_mod_cast this
        rw [psdPlan, if_neg (by omega), if_neg (by omega), if_neg (by simp [h0]), if_neg (by rintro (h | h); exacts [h b4, h b5])] at q
        dsimp only at q
        rw [hd] at q
        simp only [if_true] at q
        rw [l1, Res.bind_ok, Res.bind_ok, if_pos hn] at q
        obtain ⟨sc, u1, u2⟩ := bind_eq_ok q
        rw [if_neg l2] at u2
        have hsc : sc = 0 := congrArg Prod.snd (Res.ok.inj u2)
        split_ifs at u1 with hb
        · obtain ⟨-, u3⟩ := power_ok u1
          have := Real.rpow_pos_of_pos (div_pos l4 hnR) (1 / 3)
          linarith
        · have := Res.ok.inj u1
          linarith
      · norm_num
    obtain ⟨i, norm, hi, hlt⟩ := piece_exists m2 m3 x0 x1
    simp only [List.length_map, List.length_cons] at hlt
    obtain ⟨c0, c1, -, -, w1, w2, rfl⟩ := piece_ok hi
    obtain ⟨n0, n1⟩ := norm_range w1 w2
    rw [radius, hi, Res.bind_ok]
    dsimp only
    have t1 : i < a'.psdSizes.length := by omega
    have t2 : i + 1 < a'.psdSizes.length := by omega
    rw [List.getElem?_map, List.getElem?_map, List.getElem?_eq_getElem t1, List.getElem?_eq_getElem t2]
    simp only [Option.map_some, hd, if_true]
    have v0 := hs0 _ (List.getElem_mem t1)
    have v1 : a'.psdSizes[i] ≤ a'.psdSizes[i + 1] := (List.pairwise_iff_getElem.mp hs i (i + 1) t1 t2 (Nat.lt_succ_self i)).le
    obtain ⟨r, hr⟩ := pow3_exists (mul_pos (half_pos v0) hf)
      (mul_le_mul_of_nonneg_right (by linarith : a'.psdSizes[i] / 2 ≤ a'.psdSizes[i + 1] / 2) hf.le) n0 n1
    intro h
    rw [hr] at h
    cases h
  · exact hg

/-- Cumulated fractions from 0 to 0.7. -/
noncomputable def short : Args := { mn := 0, mx := ![1, 1, 1], num := 1, psdSizes := [0.1, 0.2], psdCumm := [0, 0.7] }

/-- C136 is violated: fractions ending at 0.7 are accepted although they must end at 1, and values behind the end of the vectors are
read, for every packing and every generator. -/
theorem C136_violated (n : Nat) (sp : SpherePack) (g : Rnd) : short.psdCumm.getLast? ≠ some 1 ∧ makeCloud (n + 1) short sp g = some .ub := by
  refine ⟨by norm_num [short], ?_⟩
  have hpl : plan short sp.scaling = .ok (.psd [0.5 * 0.1, 0.5 * 0.2] [0, 0.7], sp.scaling) := by
    rw [plan, if_neg (by simp [short]), if_neg (by norm_num [short]), if_neg (by simp [short]), if_neg (by simp [short]), psdPlan,
      if_neg (by simp [short]), if_neg (by simp [short]), if_neg (by simp [short]), if_neg (by norm_num [short])]
    simp [short]
  have hr : radius short (.psd [0.5 * 0.1, 0.5 * 0.2] [0, 0.7]) (((short.num : ℝ) - (0 : Nat) + 0.5) / (short.num + 1)) = .ub := by
    have hx : ((short.num : ℝ) - (0 : Nat) + 0.5) / (short.num + 1) = 0.75 := by norm_num [short]
    rw [hx, radius, psdGetPiece]
    have : upperIndex 0.75 [0, 0.7] = 2 := by norm_num [upperIndex]
    rw [this]
    rfl
  rw [makeCloud, hpl]
  dsimp only
  rw [cloudLoop, if_pos (by simp [short]), sizeNumber, if_pos (by simp [short])]
  dsimp only
  rw [hr]

/-- Hypotheses of `C136_number_partial`, `C135_by_number` and `C135_decreasing` met. -/
noncomputable def whole : Args := { mn := 0, mx := ![1, 1, 1], num := 1, psdSizes := [0.1, 0.2], psdCumm := [0, 1] }

theorem whole_run (g : Rnd) : ∃ n sp' k g', makeCloud n whole .empty g = some (.ok (sp', k, g')) ∧ sp'.pack.length = 1 := by
  have hpl : plan whole 1 = .ok (.psd [0.5 * 0.1, 0.5 * 0.2] [0, 1], 1) := by
    rw [plan, if_neg (by simp [whole]), if_neg (by norm_num [whole]), if_neg (by simp [whole]), if_neg (by simp [whole]), psdPlan,
      if_neg (by simp [whole]), if_neg (by simp [whole]), if_neg (by simp [whole]), if_neg (by norm_num [whole])]
    simp [whole]
  have hr : radius whole (.psd [0.5 * 0.1, 0.5 * 0.2] [0, 1]) (((whole.num : ℝ) - (0 : Nat) + 0.5) / (whole.num + 1)) = .ok 0.0875 := by
    have hx : ((whole.num : ℝ) - (0 : Nat) + 0.5) / (whole.num + 1) = 0.75 := by norm_num [whole]
    rw [hx, radius, psdGetPiece]
    have : upperIndex 0.75 [0, 1] = 1 := by norm_num [upperIndex]
    rw [this]
    norm_num [quot, whole]
  obtain ⟨sp', h1, h2⟩ := cloud_all (n := 2) (a := whole) (sp := .empty) (g := g) hpl
    (by rw [loop_step (by simp [whole]) (by simp [whole]) hr (by simp [SpherePack.empty]), loop_end (by simp [whole])])
  exact ⟨_, sp', _, _, h2, by rw [h1]; rfl⟩

example : whole.psdSizes ≠ [] ∧ (∀ x ∈ whole.psdSizes, 0 ≤ x) ∧ whole.distributeMass = false ∧ whole.psdCumm.head? = some 0 ∧
    whole.psdCumm.getLast? = some 1 ∧ whole.porosity < 1 ∧ 0 < whole.num ∧
    (if whole.hSize = 0 then Matrix.diagonal (whole.mx - whole.mn) else whole.hSize).det ≠ 0 := by
  refine ⟨by simp [whole], ?_, rfl, rfl, rfl, by norm_num [whole], by simp [whole], ?_⟩
  · intro x hx
    simp only [whole, List.mem_cons, List.not_mem_nil, or_false] at hx
    rcases hx with rfl | rfl <;> norm_num
  · simp [whole, Matrix.det_diagonal, Fin.prod_univ_three]

/-- Hypotheses of `C135_by_mass` met. -/
example (g : Rnd) : ∃ n a sp' k g', a.distributeMass = true ∧ a.psdSizes ≠ [] ∧ (∀ x ∈ a.psdSizes, 0 ≤ x) ∧
    makeCloud n a .empty g = some (.ok (sp', k, g')) ∧ sp'.pack.length = 1 := by
  let a : Args := { mn := 0, mx := ![1, 1, 1], num := 1, psdSizes := [0.1, 0.2], psdCumm := [0, 1], distributeMass := true }
  have hdet : a.cell.det = 1 := by simp [a, Args.cell, Args.size, Matrix.det_diagonal, Fin.prod_univ_three]
  have hpo : a.poro = 0.65 := poro_of_pos (by norm_num [a])
  have hpi := Real.pi_pos
  have hpl : ∃ c : ℝ, c ≠ 0 ∧ plan a 1 = .ok (.psd [0.5 * 0.1, 0.5 * 0.2] [0 / c, c / c], 1) := by
    rw [plan, hdet, if_neg (by simp), if_neg (by norm_num [a]), if_neg (by simp [a]), if_neg (by simp [a]), psdPlan,
      if_neg (by simp [a]), if_neg (by simp [a]), if_neg (by simp [a]), if_neg (by norm_num [a]), hpo]
    refine ⟨0 + 3 * 1 * (1 - 0.65) / Real.pi * (1 - 0) * (1 / (0.2 - 0.1)) * (1 / 0.1 ^ 2 - 1 / 0.2 ^ 2), ?_, ?_⟩
    · norm_num [hpi.ne']
    · norm_num [a, massCumm, quot, hpi.ne']
  obtain ⟨c, hc, hpl⟩ := hpl
  have hr : ∃ r, radius a (.psd [0.5 * 0.1, 0.5 * 0.2] [0 / c, c / c]) (((a.num : ℝ) - (0 : Nat) + 0.5) / (a.num + 1)) = .ok r := by
    have hx : ((a.num : ℝ) - (0 : Nat) + 0.5) / (a.num + 1) = 0.75 := by norm_num [a]
    rw [hx, radius, psdGetPiece, zero_div, div_self hc]
    have : upperIndex 0.75 [0, 1] = 1 := by norm_num [upperIndex]
    obtain ⟨r, hr⟩ := pow3_exists (x := 0.75) (p := 0.5 * 0.1) (q := 0.5 * 0.2) (by norm_num) (by norm_num) (by norm_num) (by norm_num)
    refine ⟨r, ?_⟩
    rw [this, ← hr]
    norm_num [quot, a]
  obtain ⟨r, hr⟩ := hr
  obtain ⟨sp', h1, h2⟩ := cloud_all (n := 2) (a := a) (sp := .empty) (g := g) hpl
    (by rw [loop_step (by simp [a]) (by simp [a]) hr (by simp [SpherePack.empty]), loop_end (by simp [a])])
  refine ⟨_, a, sp', _, _, rfl, by simp [a], ?_, h2, by rw [h1]; rfl⟩
  intro x hx
  simp only [a, List.mem_cons, List.not_mem_nil, or_false] at hx
  rcases hx with rfl | rfl <;> norm_num

/-- Hypotheses of `C136_mass_partial` met. -/
example : ∃ a : Args, a.psdSizes ≠ [] ∧ a.distributeMass = true ∧ a.psdSizes.Pairwise (· < ·) ∧ (∀ s ∈ a.psdSizes, 0 < s) ∧
    a.psdCumm.head? = some 0 ∧ a.psdCumm.getLast? = some 1 ∧ a.porosity < 1 ∧
    0 < (if a.hSize = 0 then Matrix.diagonal (a.mx - a.mn) else a.hSize).det := by
  refine ⟨{ mn := 0, mx := ![1, 2, 3], num := 5, psdSizes := [0.1, 0.2, 0.5], psdCumm := [0, 0.3, 1], distributeMass := true },
    by simp, rfl, by norm_num, ?_, rfl, rfl, by norm_num, ?_⟩
  · intro x hx
    simp only [List.mem_cons, List.not_mem_nil, or_false] at hx
    rcases hx with rfl | rfl | rfl <;> norm_num
  · simp [Matrix.det_diagonal, Fin.prod_univ_three]

/-! ## C138 -/

/-- The volume of a list of spheres. -/
noncomputable def volume : List Sph → ℝ
  | [] => 0
  | s :: l => 4 / 3 * Real.pi * s.r ^ 3 + volume l

theorem volume_const {l : List Sph} {r : ℝ} (h : ∀ s ∈ l, s.r = r) : volume l = l.length * (4 / 3 * Real.pi * r ^ 3) := by
  induction l with
  | nil => simp [volume]
  | cons s l ih =>
    rw [volume, ih fun t ht => h t (List.mem_cons_of_mem _ ht), h s (by simp)]
    push_cast [List.length_cons]
    ring

/-- C138.  When only the number of (equal) spheres is given, the spheres made fill the box up to the porosity asked for, or up to a larger
one if there were retries (which delete earlier spheres). -/
theorem C138_porosity {n : Nat} {a : Args} {sp sp' : SpherePack} {g g' : Rnd} {k : Int} (hg : Good g) (hps : a.psdSizes = []) (hn : 0 < a.num)
    (hm : a.rMean ≤ 0) (hf : a.fuzz = 0) (hd : a.distributeMass = false) (hp0 : 0 < a.porosity) (hp1 : a.porosity < 1)
    (hV : (if a.hSize = 0 then Matrix.diagonal (a.mx - a.mn) else a.hSize).det ≠ 0) (h : makeCloud n a sp g = some (.ok (sp', k, g'))) :
    ∃ p old new, sp'.pack = old ++ new ∧ (new.length : Int) = a.num ∧ a.porosity ≤ p ∧ p < 1 ∧ ((old = sp.pack ∧ p = a.porosity) ∨ old = []) ∧
      volume new = (if a.hSize = 0 then Matrix.diagonal (a.mx - a.mn) else a.hSize).det * (1 - p) := by
  obtain ⟨a', d, s, s', old, new, hr, hp, h1, h2, h3, h4, h5, -⟩ := cloud_added hg h
  have hpo : a.poro = a.porosity := poro_of_pos hp0
  have hq := retry_poro hr (by rw [hpo]; exact hp1)
  rw [hpo] at hq
  have hlen : (new.length : Int) = a.num := by
    rcases h3 with ⟨-, h3⟩ | ⟨-, h3⟩
    · omega
    · have := (h3 hn).1
      linarith
  refine ⟨a'.poro, old, new, h1, hlen, hq.1, hq.2, ?_, ?_⟩
  · rcases h2 with h2 | ⟨h2, rfl, -⟩
    · exact Or.inr h2.1
    · exact Or.inl ⟨h2, hpo⟩
  · obtain ⟨r1, r2, r3, r4, r5, r6, r7⟩ := hr.same
    have hnR : (0 : ℝ) < a.num := by exact_mod_cast hn
    rw [← r5] at hf
    rw [← r3] at hd
    have hcell : (if a.hSize = 0 then Matrix.diagonal (a.mx - a.mn) else a.hSize) = a'.cell := r6.symm
    rw [hcell] at hV ⊢
    rcases (plan_spec hp).2 with ⟨q1, -⟩ | ⟨-, -, -, -, mm, rfl, -, ⟨q1, q2, q3⟩ | ⟨q1, -⟩⟩ | ⟨-, q2, -⟩
    · exact absurd q1 (not_lt.mpr (r7 hm))
    · have hrad : ∀ s ∈ new, s.r = mm := by
        intro t ht
        obtain ⟨i, hi⟩ := List.mem_iff_getElem?.mp ht
        obtain ⟨x, hx, -⟩ := h4 i t hi
        rw [radius_fix' hf hd] at hx
        exact (Res.ok.inj hx).symm
      have hl : (new.length : ℝ) = a.num := by exact_mod_cast hlen
      rw [r4] at q2 q3
      have h3 : mm ^ 3 = a'.cell.det * (1 - a'.poro) / (Real.pi * (4 / 3) * (1 + a'.fuzz * a'.fuzz) * a.num) := by
        rw [q3, ← Real.rpow_natCast, ← Real.rpow_mul q2]
        norm_num
      rw [volume_const hrad, hl, h3, hf]
      have hpi := Real.pi_pos.ne'
      field_simp
      ring
    · exact absurd q1 hV
    · rw [r1] at q2
      exact absurd hps q2

/-- Hypotheses of `C138_porosity` and `C135_range` met. -/
example : ∃ n a sp' g g' k, Good g ∧ a.psdSizes = [] ∧ 0 < a.num ∧ a.rMean ≤ 0 ∧ a.fuzz = 0 ∧ a.distributeMass = false ∧ 0 < a.porosity ∧
    a.porosity < 1 ∧ (if a.hSize = 0 then Matrix.diagonal (a.mx - a.mn) else a.hSize).det ≠ 0 ∧
    makeCloud n a .empty g = some (.ok (sp', k, g')) := by
  obtain ⟨t1, t2, t3⟩ := found_plan (p := 0.55) (by norm_num) (by norm_num) 1
  obtain ⟨sp', h1, h2⟩ := cloud_all (n := 2) (a := found 0.55) (sp := .empty) (g := fun _ => 0) t1
    (by rw [loop_step (by simp [found]) (by simp [found]) (radius_fix' rfl rfl) (by simp [SpherePack.empty]), loop_end (by simp [found])])
  exact ⟨3, _, sp', fun _ => 0, _, _, fun _ => by norm_num, rfl, by simp [found], by norm_num [found], rfl, rfl, by norm_num [found],
    by norm_num [found], by simp [found, Matrix.det_diagonal, Fin.prod_univ_three], h2⟩

end Verif.Pack
