import Verif.Cpm.Props
import Mathlib.Analysis.SpecialFunctions.Log.Basic

/-!
# Setting damage and residual strength, and creating contacts

C296 and C298.
-/
namespace Verif.Cpm

open Verif.Mech

/-! ## C296 -/

/-- With linear softening, damage which is set is the one which the law finds afterwards, as long as strains do not exceed the largest one. -/
theorem C296_damage_linear {P : Par} (hP : Good P) (hl : P.law = 0) (hn : P.never = false) (hc : P.cohesive = true) (s : St) {d : ℝ} (h0 : 0 ≤ d) (h1 : d ≤ 1) :
    (setDamage P s d).2 = .ok () ∧ (setDamage P s d).1.omega = d ∧ 0 ≤ (setDamage P s d).1.kappa ∧ (setDamage P s d).1.kappa ≤ P.ef ∧
      ∀ L x eT u, material L P (setDamage P s d).1 x eT = .ok u →
        epsNorm P (x + P.iso / P.E) (setDamage P s d).1.epsNPl eT ≤ (setDamage P s d).1.kappa → u.omega = d := by
  have he0 := hP.e0
  have he : P.e0 < P.ef := by
    rcases hP.law with ⟨_, he⟩ | ⟨hh, _⟩
    · exact he
    · rw [hl] at hh; norm_num at hh
  have hf : 0 < P.ef := by linarith
  -- the strain found
  obtain ⟨k, hk, hd, hk0, hkf⟩ : ∃ k, funcGInv d P.e0 P.ef P.never P.law = .ok k ∧ dmg P k = d ∧ 0 ≤ k ∧ k ≤ P.ef := by
    unfold funcGInv
    by_cases hz : d = 0
    · rw [if_pos (.inl hz)]
      refine ⟨0, rfl, ?_, le_refl _, hf.le⟩
      unfold dmg; rw [if_pos (.inl he0), hz]
    · have hd0 : 0 < d := lt_of_le_of_ne h0 (Ne.symm hz)
      have hq : 0 < 1 - P.e0 / P.ef := by rw [sub_pos, div_lt_one hf]; exact he
      have hq1 : 1 - P.e0 / P.ef < 1 := by have := div_pos he0 hf; linarith
      have hD : 0 < 1 - d * (1 - P.e0 / P.ef) := by nlinarith
      rw [if_neg (by rintro (h | h); exacts [hz h, by rw [hn] at h; cases h]), if_pos hl, if_neg (by rintro (h | h); exacts [hf.ne' h, hD.ne' h])]
      have hle : P.e0 ≤ P.e0 / (1 - d * (1 - P.e0 / P.ef)) := by
        rw [le_div_iff₀ hD]; nlinarith [mul_pos hd0 hq]
      have hkp : 0 < P.e0 / (1 - d * (1 - P.e0 / P.ef)) := div_pos he0 hD
      refine ⟨_, rfl, ?_, hkp.le, ?_⟩
      · unfold dmg left
        rw [if_neg (by rintro (h | h); exacts [by linarith, by rw [hn] at h; cases h]), if_pos hl]
        have hne : P.ef - P.e0 ≠ 0 := ne_of_gt (sub_pos.2 he)
        generalize hgk : P.e0 / (1 - d * (1 - P.e0 / P.ef)) = k at hkp
        have hkD : k * (1 - d * (1 - P.e0 / P.ef)) = P.e0 := by rw [← hgk]; exact div_mul_cancel₀ _ hD.ne'
        have h5 : k * (P.ef - d * (P.ef - P.e0)) = P.e0 * P.ef := by
          have : k * (P.ef - d * (P.ef - P.e0)) = P.ef * (k * (1 - d * (1 - P.e0 / P.ef))) := by field_simp
          rw [this, hkD]; ring
        field_simp
        linear_combination h5
      · rw [div_le_iff₀ hD]
        have : P.ef * (1 - d * (1 - P.e0 / P.ef)) = P.ef - d * (P.ef - P.e0) := by field_simp
        rw [this]; nlinarith
  have e : setDamage P s d = ({ s with omega := d, kappa := k }, .ok ()) := by
    unfold setDamage
    rw [if_neg (by rw [hn]; simp)]
    dsimp only
    rw [hk]
  rw [e]
  refine ⟨rfl, rfl, hk0, hkf, fun L x eT u hu hx => ?_⟩
  obtain ⟨_, om, ho, hu'⟩ := material_ok hu
  dsimp only at hx ho hu'
  rw [if_pos hc, funcG_eq hP, max_eq_right hx, hd] at ho
  cases ho
  rw [hu']

example : Good (par 0) ∧ (setDamage (par 0) St.init (1 / 2)).1.kappa = 4 / 3 := by
  refine ⟨par_good0, ?_⟩
  unfold setDamage funcGInv
  norm_num [par]

/-- The fraction of the stiffness which is left with exponential softening. -/
noncomputable def kept (e0 ef k : ℝ) : ℝ := e0 / k * Real.exp (-(k - e0) / ef)

theorem kept_pos {e0 ef k : ℝ} (h0 : 0 < e0) (hk : e0 ≤ k) : 0 < kept e0 ef k :=
  mul_pos (div_pos h0 (by linarith)) (Real.exp_pos _)

/-- It lies above its tangents. -/
theorem kept_tangent {e0 ef x y : ℝ} (h0 : 0 < e0) (hf : 0 < ef) (hx : e0 ≤ x) (hy : e0 ≤ y) :
    kept e0 ef x * (1 - (y - x) * (1 / x + 1 / ef)) ≤ kept e0 ef y := by
  have hx0 : 0 < x := by linarith
  have hy0 : 0 < y := by linarith
  have h1 : kept e0 ef y = kept e0 ef x * (x / y * Real.exp (-((y - x) / ef))) := by
    unfold kept
    rw [show -(y - e0) / ef = -(x - e0) / ef + -((y - x) / ef) by field_simp; ring, Real.exp_add]
    field_simp
  rw [h1]
  refine mul_le_mul_of_nonneg_left ?_ (kept_pos h0 hx).le
  have h2 : x / y = Real.exp (-Real.log (y / x)) := by
    rw [Real.exp_neg, Real.exp_log (div_pos hy0 hx0), inv_div]
  rw [h2, ← Real.exp_add]
  have h3 := Real.add_one_le_exp (-Real.log (y / x) + -((y - x) / ef))
  have h4 := Real.log_le_sub_one_of_pos (div_pos hy0 hx0)
  have h5 : (y - x) * (1 / x + 1 / ef) = (y / x - 1) + (y - x) / ef := by field_simp
  rw [h5]; linarith

theorem funcGD_exp {e0 ef k : ℝ} (hf : 0 < ef) (hk : 0 < k) : funcGD k e0 ef 1 = .ok (kept e0 ef k * (1 / k + 1 / ef)) := by
  unfold funcGD
  rw [if_neg (by norm_num), if_pos rfl, if_neg (by rintro (h | h); exacts [hk.ne' h, hf.ne' h])]
  congr 1
  unfold kept; ring

theorem invLoop_succ {d e0 ef k : ℝ} (h0 : 0 < e0) (hf : 0 < ef) (hk : e0 ≤ k) (n : ℕ) :
    invLoop d e0 ef (n + 1) k =
      if |(-d + 1 - kept e0 ef k) / (kept e0 ef k * (1 / k + 1 / ef)) / e0| < 1 / 1000 then
        .ok (k - (-d + 1 - kept e0 ef k) / (kept e0 ef k * (1 / k + 1 / ef)))
      else invLoop d e0 ef n (k - (-d + 1 - kept e0 ef k) / (kept e0 ef k * (1 / k + 1 / ef))) := by
  have hk0 : 0 < k := by linarith
  have hd : kept e0 ef k * (1 / k + 1 / ef) ≠ 0 := (mul_pos (kept_pos h0 hk) (by positivity)).ne'
  rw [invLoop, funcGD_exp hf hk0, Res.bind_ok, if_neg (by rintro (h | h); exacts [hd h, h0.ne' h])]
  rfl

theorem invLoop_bound {d e0 ef : ℝ} (h0 : 0 < e0) (hf : 0 < ef) {n : ℕ} {k r : ℝ} (hk : e0 ≤ k) (hH : 1 - d ≤ kept e0 ef k)
    (h : invLoop d e0 ef n k = .ok r) : e0 ≤ r ∧ 1 - d ≤ kept e0 ef r ∧ kept e0 ef r - (1 - d) ≤ (1 + e0 / ef) / 1000 := by
  induction n generalizing k with
  | zero => cases h
  | succ n ih =>
    have hk0 : 0 < k := by linarith
    have hp := kept_pos (ef := ef) h0 hk
    have hc : 0 < 1 / k + 1 / ef := by positivity
    set D := (-d + 1 - kept e0 ef k) / (kept e0 ef k * (1 / k + 1 / ef)) with hD
    have hDn : D ≤ 0 := div_nonpos_of_nonpos_of_nonneg (by linarith) (mul_pos hp hc).le
    have hk' : e0 ≤ k - D := by linarith
    have hDe : D * (kept e0 ef k * (1 / k + 1 / ef)) = -d + 1 - kept e0 ef k := div_mul_cancel₀ _ (mul_pos hp hc).ne'
    have hH' : 1 - d ≤ kept e0 ef (k - D) := by
      have := kept_tangent h0 hf hk hk'
      have e : kept e0 ef k * (1 - (k - D - k) * (1 / k + 1 / ef)) = 1 - d := by linear_combination hDe
      linarith
    rw [invLoop_succ h0 hf hk, ← hD] at h
    split_ifs at h with hs
    · cases h
      refine ⟨hk', hH', ?_⟩
      have hmono : kept e0 ef (k - D) ≤ kept e0 ef k := by
        have := kept_tangent h0 hf hk' hk
        have h6 : 0 ≤ -((k - (k - D)) * (1 / (k - D) + 1 / ef)) := by
          have : 0 < 1 / (k - D) + 1 / ef := by have : 0 < k - D := by linarith
                                                positivity
          nlinarith
        have h7 := kept_pos (ef := ef) h0 hk'
        nlinarith
      rw [abs_div, abs_of_pos h0, abs_of_nonpos hDn, div_lt_iff₀ h0] at hs
      have hk1 : kept e0 ef k ≤ 1 := by
        unfold kept
        have a1 : e0 / k ≤ 1 := (div_le_one hk0).2 hk
        have a2 : Real.exp (-(k - e0) / ef) ≤ 1 := Real.exp_le_one_iff.2 (div_nonpos_of_nonpos_of_nonneg (by linarith) hf.le)
        have a3 := Real.exp_pos (-(k - e0) / ef)
        have a4 : 0 < e0 / k := div_pos h0 hk0
        nlinarith
      have hce : e0 * (1 / k + 1 / ef) ≤ 1 + e0 / ef := by
        have : e0 / k ≤ 1 := (div_le_one hk0).2 hk
        have e : e0 * (1 / k + 1 / ef) = e0 / k + e0 / ef := by ring
        rw [e]; linarith
      have b1 : kept e0 ef k - (1 - d) = -D * (kept e0 ef k * (1 / k + 1 / ef)) := by linear_combination hDe
      have b2 : kept e0 ef k * (1 / k + 1 / ef) ≤ 1 / k + 1 / ef := by nlinarith
      have b3 : -D * (kept e0 ef k * (1 / k + 1 / ef)) ≤ -D * (1 / k + 1 / ef) := mul_le_mul_of_nonneg_left b2 (by linarith)
      have b4 : -D * (1 / k + 1 / ef) ≤ 1 / 1000 * e0 * (1 / k + 1 / ef) := mul_le_mul_of_nonneg_right hs.le hc.le
      linarith
    · exact ih hk' hH' h

/-- With exponential softening, when damage is set without error, the law finds less or the same afterwards, by no more than two thousandths. -/
theorem C296_damage_exp_partial {P : Par} (hP : Good P) (hl : P.law = 1) (hn : P.never = false) (hc : P.cohesive = true) (hef : P.e0 ≤ P.ef) (s : St) {d : ℝ} (h0 : 0 < d)
    (hok : (setDamage P s d).2 = .ok ()) {L : Law} {x : ℝ} {eT : V3} {u : St} (hu : material L P (setDamage P s d).1 x eT = .ok u)
    (hx : epsNorm P (x + P.iso / P.E) (setDamage P s d).1.epsNPl eT ≤ (setDamage P s d).1.kappa) :
    u.omega ≤ d ∧ d - u.omega ≤ 2 / 1000 := by
  have he0 := hP.e0
  have hf : 0 < P.ef := by linarith
  rcases hk : funcGInv d P.e0 P.ef P.never P.law with k | _ | _
  · have e : setDamage P s d = ({ s with omega := d, kappa := k }, .ok ()) := by
      unfold setDamage; rw [if_neg (by rw [hn]; simp)]; dsimp only; rw [hk]
    rw [e] at hu hx
    obtain ⟨_, om, ho, hu'⟩ := material_ok hu
    dsimp only at hx ho hu'
    rw [if_pos hc, funcG_eq hP, max_eq_right hx] at ho
    unfold funcGInv at hk
    rw [if_neg (by rintro (h | h); exacts [h0.ne' h, by rw [hn] at h; cases h]), if_neg (by rw [hl]; norm_num), if_pos hl] at hk
    have hE : 1 - d ≤ kept P.e0 P.ef P.e0 := by
      unfold kept; rw [div_self he0.ne', sub_self]; simp; linarith
    obtain ⟨hke, h1, h2⟩ := invLoop_bound he0 hf (le_refl _) hE hk
    have hdm : dmg P k = 1 - kept P.e0 P.ef k := by
      unfold dmg left kept
      rw [if_neg (by rintro (h | h); exacts [by linarith, by rw [hn] at h; cases h]), if_neg (by rw [hl]; norm_num)]
      ring
    cases ho
    have hr : P.e0 / P.ef ≤ 1 := (div_le_one hf).2 hef
    rw [hu']
    dsimp only
    rw [hdm]
    constructor <;> linarith
  · exfalso
    unfold setDamage at hok; rw [if_neg (by rw [hn]; simp)] at hok; dsimp only at hok; rw [hk] at hok; cases hok
  · exfalso
    unfold setDamage at hok; rw [if_neg (by rw [hn]; simp)] at hok; dsimp only at hok; rw [hk] at hok; cases hok

/-- A damage which is set without error. -/
example : (setDamage { par 1 with e0 := 1, ef := 2 } St.init (1 / 10000)).2 = .ok () := by
  have e : funcGInv (1 / 10000) 1 2 false 1 = .ok (1 + 1 / 15000) := by
    unfold funcGInv
    rw [if_neg (by norm_num), if_neg (by norm_num), if_pos rfl, invLoop_succ (by norm_num) (by norm_num) (le_refl _)]
    norm_num [kept, abs_of_nonneg]
  unfold setDamage
  dsimp only [par]
  rw [e]
  rfl

/-- Total damage cannot be set with exponential softening, the default: there is an error, after which the contact has that damage but its former largest
strain, so that the next step heals it. -/
theorem C296_violated_full {P : Par} (hP : Good P) (hl : P.law = 1) (hn : P.never = false) (hc : P.cohesive = true) (hef : P.e0 ≤ P.ef) (s : St) :
    setDamage P s 1 = ({ s with omega := 1 }, .throws) ∧
      ∀ L x eT u, material L P (setDamage P s 1).1 x eT = .ok u → epsNorm P (x + P.iso / P.E) s.epsNPl eT ≤ s.kappa → s.kappa < P.e0 → u.omega = 0 := by
  have he0 := hP.e0
  have hf : 0 < P.ef := by linarith
  have key : ∀ (n : ℕ) (k : ℝ), P.e0 ≤ k → invLoop 1 P.e0 P.ef n k = .throws := by
    intro n
    induction n with
    | zero => intro k _; rfl
    | succ n ih =>
      intro k hk
      have hk0 : 0 < k := by linarith
      have hp := kept_pos (ef := P.ef) he0 hk
      have hc' : 0 < 1 / k + 1 / P.ef := by positivity
      have hD : (-1 + 1 - kept P.e0 P.ef k) / (kept P.e0 P.ef k * (1 / k + 1 / P.ef)) = -(1 / (1 / k + 1 / P.ef)) := by
        field_simp; ring
      rw [invLoop_succ he0 hf hk, hD, if_neg, ih _ (by have : 0 < 1 / (1 / k + 1 / P.ef) := by positivity
                                                       linarith)]
      rw [abs_div, abs_neg, abs_of_pos (by positivity), abs_of_pos he0, not_lt, le_div_iff₀ he0, le_div_iff₀ hc']
      have a1 : P.e0 / k ≤ 1 := (div_le_one hk0).2 hk
      have a2 : P.e0 / P.ef ≤ 1 := (div_le_one hf).2 hef
      have e : 1 / 1000 * P.e0 * (1 / k + 1 / P.ef) = 1 / 1000 * (P.e0 / k + P.e0 / P.ef) := by ring
      rw [e]; linarith
  have e : setDamage P s 1 = ({ s with omega := 1 }, .throws) := by
    unfold setDamage funcGInv
    rw [if_neg (by rw [hn]; simp), if_neg (by rintro (h | h); exacts [by norm_num at h, by rw [hn] at h; cases h]), if_neg (by rw [hl]; norm_num), if_pos hl,
      key _ _ (le_refl _)]
  refine ⟨e, fun L x eT u hu hx hk => ?_⟩
  rw [e] at hu
  obtain ⟨_, om, ho, hu'⟩ := material_ok hu
  dsimp only at ho hu'
  rw [if_pos hc, funcG_eq hP, max_eq_right hx, dmg, if_pos (.inl hk)] at ho
  cases ho
  rw [hu']

example : Good (par 1) ∧ (par 1).e0 ≤ (par 1).ef := ⟨par_good1, by norm_num [par]⟩

/-- One of Newton's iterations with linear softening. -/
theorem resid_linear {P : Par} (hP : Good P) (hl : P.law = 0) (hn : P.never = false) {k : ℝ} (hk : P.e0 ≤ k) (r : ℝ) (n : ℕ) :
    residLoop P r (n + 1) k =
      if |(left P k - r) * -(P.ef - P.e0)| < 1 / 1000 then .ok (k - (left P k - r) * -(P.ef - P.e0), dmg P (k - (left P k - r) * -(P.ef - P.e0)))
      else residLoop P r n (k - (left P k - r) * -(P.ef - P.e0)) := by
  have he0 := hP.e0
  have he : P.e0 < P.ef := by
    rcases hP.law with ⟨_, he⟩ | ⟨hh, _⟩
    · exact he
    · rw [hl] at hh; norm_num at hh
  have hf : 0 < P.ef := by linarith
  have hk0 : 0 < k := by linarith
  have hne : P.ef - P.e0 ≠ 0 := ne_of_gt (sub_pos.2 he)
  have hq : 1 - P.e0 / P.ef ≠ 0 := by
    rw [show 1 - P.e0 / P.ef = (P.ef - P.e0) / P.ef by field_simp]; exact div_ne_zero hne hf.ne'
  have hg : 1 - dmg P k = left P k * (P.e0 / k) := by
    unfold dmg; rw [if_neg (by rintro (h | h); exacts [by linarith, by rw [hn] at h; cases h])]; ring
  have hD : funcGD k P.e0 P.ef P.law = .ok (P.e0 / ((1 - P.e0 / P.ef) * k * k)) := by
    unfold funcGD; rw [if_pos hl, if_neg (by rintro (h | h | h); exacts [hk0.ne' h, hf.ne' h, hq h])]
  have hdf : 1 / P.e0 * (1 - dmg P k - k * (P.e0 / ((1 - P.e0 / P.ef) * k * k))) = -(1 / (P.ef - P.e0)) := by
    rw [hg, left, if_pos hl, show 1 - P.e0 / P.ef = (P.ef - P.e0) / P.ef by field_simp]
    field_simp; ring
  have hf1 : -r + (1 - dmg P k) * k * (1 / P.e0) = left P k - r := by
    rw [hg]; field_simp; ring
  have hdecr : (left P k - r) / -(1 / (P.ef - P.e0)) = (left P k - r) * -(P.ef - P.e0) := by field_simp
  rw [residLoop, funcG_eq hP, Res.bind_ok, hD, Res.bind_ok]
  dsimp only
  rw [hdf, hf1, hdecr, if_neg (by rintro (h | h); exacts [he0.ne' h, (neg_ne_zero.2 (one_div_ne_zero hne)) h]), funcG_eq hP, Res.bind_ok]

/-- With linear softening, the residual strength which is set is the one which the law finds afterwards, as long as strains do not exceed the largest one. -/
theorem C296_resid_partial {P : Par} (hP : Good P) (hl : P.law = 0) (hn : P.never = false) (hc : P.cohesive = true) (s : St) {r : ℝ} (h0 : 0 ≤ r) (h1 : r ≤ 1) :
    (setResid P s r).2 = .ok () ∧ (setResid P s r).1.resid = r ∧
      ∀ L x eT u, material L P (setResid P s r).1 x eT = .ok u →
        epsNorm P (x + P.iso / P.E) (setResid P s r).1.epsNPl eT ≤ (setResid P s r).1.kappa → u.resid = r := by
  have he0 := hP.e0
  have he : P.e0 < P.ef := by
    rcases hP.law with ⟨_, he⟩ | ⟨hh, _⟩
    · exact he
    · rw [hl] at hh; norm_num at hh
  have hne : P.ef - P.e0 ≠ 0 := ne_of_gt (sub_pos.2 he)
  obtain ⟨k, e, hk⟩ : ∃ k, setResid P s r = ({ s with kappa := k, omega := dmg P k, resid := r }, .ok ()) ∧ residOf P (dmg P k) k = r := by
    unfold setResid
    rw [if_neg (by rw [hn]; simp)]
    by_cases hr : r = 1
    · rw [if_pos hr]
      refine ⟨0, ?_, by unfold residOf; rw [if_pos hc, if_pos he0, hr]⟩
      rw [dmg, if_pos (.inl he0)]
    · rw [if_neg hr]
      have hlf : left P P.ef = 0 := by unfold left; rw [if_pos hl, sub_self, zero_div]
      have hk' : P.e0 ≤ P.ef - (left P P.ef - r) * -(P.ef - P.e0) := by rw [hlf]; nlinarith
      have hlk : left P (P.ef - (left P P.ef - r) * -(P.ef - P.e0)) = r := by
        rw [hlf]; unfold left; rw [if_pos hl]; field_simp; ring
      generalize hgk : P.ef - (left P P.ef - r) * -(P.ef - P.e0) = k at hk' hlk
      have e : residLoop P r 100 P.ef = .ok (k, dmg P k) := by
        rw [resid_linear hP hl hn he.le, hgk]
        split_ifs
        · rfl
        · rw [resid_linear hP hl hn hk', hlk]
          norm_num
      refine ⟨k, by rw [e], ?_⟩
      have hk0 : 0 < k := by linarith
      unfold residOf
      rw [if_pos hc, if_neg (not_lt.2 hk'), dmg, if_neg (by rintro (h | h); exacts [by linarith, by rw [hn] at h; cases h]), hlk]
      field_simp; ring
  rw [e]
  refine ⟨rfl, rfl, fun L x eT u hu hx => ?_⟩
  obtain ⟨_, om, ho, hu'⟩ := material_ok hu
  dsimp only at hx ho hu'
  rw [if_pos hc, funcG_eq hP, max_eq_right hx] at ho
  cases ho
  rw [hu']
  dsimp only
  rw [max_eq_right hx, hk]

/-- With exponential softening it is not: strains being small, the first of Newton's iterations ends the search, since the tolerance is absolute, and the
strength is larger than the one which is set. -/
theorem C296_violated_resid {P : Par} (hP : Good P) (hl : P.law = 1) (hn : P.never = false) (hc : P.cohesive = true) (hef : P.e0 ≤ P.ef) (s : St) {r a : ℝ}
    (ha : a = Real.exp (-(P.ef - P.e0) / P.ef)) (hr1 : r ≠ 1) (hra : r ≠ a) (hs : |P.ef * (r / a - 1)| < 1 / 1000) (hk : P.e0 ≤ P.ef * (2 - r / a)) :
    (setResid P s r).2 = .ok () ∧ (setResid P s r).1.resid = r ∧
      ∀ L x eT u, material L P (setResid P s r).1 x eT = .ok u →
        epsNorm P (x + P.iso / P.E) (setResid P s r).1.epsNPl eT ≤ (setResid P s r).1.kappa → u.resid = a * Real.exp (r / a - 1) ∧ r < u.resid := by
  have he0 := hP.e0
  have hf : 0 < P.ef := by linarith
  have ha0 : 0 < a := by rw [ha]; exact Real.exp_pos _
  have hlf : ∀ k, left P k = Real.exp (-(k - P.e0) / P.ef) := fun k => by unfold left; rw [if_neg (by rw [hl]; norm_num)]
  have hdm : ∀ k, P.e0 ≤ k → dmg P k = 1 - left P k * (P.e0 / k) := fun k hk => by
    unfold dmg; rw [if_neg (by rintro (h | h); exacts [by linarith, by rw [hn] at h; cases h])]
  have e : residLoop P r 100 P.ef = .ok (P.ef * (2 - r / a), dmg P (P.ef * (2 - r / a))) := by
    rw [residLoop, funcG_eq hP, Res.bind_ok, hl, funcGD_exp hf hf, Res.bind_ok]
    have hdf : 1 / P.e0 * (1 - dmg P P.ef - P.ef * (kept P.e0 P.ef P.ef * (1 / P.ef + 1 / P.ef))) = -(a / P.ef) := by
      rw [hdm _ hef, hlf, ← ha, kept, ← ha]; field_simp; ring
    have hf1 : -r + (1 - dmg P P.ef) * P.ef * (1 / P.e0) = a - r := by
      rw [hdm _ hef, hlf, ← ha]; field_simp; ring
    have hde : (a - r) / -(a / P.ef) = P.ef * (r / a - 1) := by field_simp; ring
    dsimp only
    rw [hdf, hf1, hde, if_neg (by rintro (h | h); exacts [he0.ne' h, (neg_ne_zero.2 (div_pos ha0 hf).ne') h]), if_pos hs, ← hl, funcG_eq hP, Res.bind_ok,
      show P.ef - P.ef * (r / a - 1) = P.ef * (2 - r / a) by ring]
  have e2 : setResid P s r = ({ s with kappa := P.ef * (2 - r / a), omega := dmg P (P.ef * (2 - r / a)), resid := r }, .ok ()) := by
    unfold setResid; rw [if_neg (by rw [hn]; simp), if_neg hr1, e]
  rw [e2]
  refine ⟨rfl, rfl, fun L x eT u hu hx => ?_⟩
  obtain ⟨_, om, ho, hu'⟩ := material_ok hu
  dsimp only at hx ho hu'
  rw [if_pos hc, funcG_eq hP, max_eq_right hx] at ho
  cases ho
  have hk0 : 0 < P.ef * (2 - r / a) := by linarith
  have hres : u.resid = a * Real.exp (r / a - 1) := by
    rw [hu']
    dsimp only
    rw [max_eq_right hx, residOf, if_pos hc, if_neg (not_lt.2 hk), hdm _ hk, hlf]
    rw [show (1 - (1 - Real.exp (-(P.ef * (2 - r / a) - P.e0) / P.ef) * (P.e0 / (P.ef * (2 - r / a))))) * (P.ef * (2 - r / a)) / P.e0 =
      Real.exp (-(P.ef * (2 - r / a) - P.e0) / P.ef) by
        generalize P.ef * (2 - r / a) = k at hk0
        field_simp; ring]
    rw [ha, ← Real.exp_add, ← ha]
    congr 1
    field_simp; ring
  refine ⟨hres, ?_⟩
  rw [hres]
  have h1 : r / a - 1 ≠ 0 := by
    intro h
    exact hra (by field_simp at h; linarith)
  have h2 := Real.add_one_lt_exp h1
  have h3 := mul_lt_mul_of_pos_left h2 ha0
  have h4 : a * (r / a - 1 + 1) = r := by field_simp; ring
  linarith

/-- One half is set, the strength is that of an exponential. -/
example : Good { par 1 with e0 := 1 / 10000, ef := 1 / 10000 } ∧ (1 : ℝ) = Real.exp (-(1 / 10000 - 1 / 10000) / (1 / 10000)) ∧ (1 / 2 : ℝ) ≠ 1 ∧
    |(1 / 10000 : ℝ) * (1 / 2 / 1 - 1)| < 1 / 1000 ∧ (1 / 10000 : ℝ) ≤ 1 / 10000 * (2 - 1 / 2 / 1) :=
  ⟨⟨by norm_num [par], .inr ⟨rfl, by norm_num [par]⟩⟩, by norm_num, by norm_num, by norm_num [abs_lt], by norm_num⟩

/-! ## C298 -/

/-- Contacts are cohesive if they are made before the iteration which is given, or always if that is negative; existing physics are kept. -/
theorem C298_cohesive (thr iter : ℤ) (mm : Option ℝ) (a b : Mat) (p : Par) :
    ((ip2 none thr iter mm a b).cohesive = true ↔ thr < 0 ∨ iter < thr) ∧ ip2 (some p) thr iter mm a b = p := by
  refine ⟨?_, rfl⟩
  unfold ip2
  dsimp only
  split_ifs <;> simp

/-- Materials which are shared or copied give the same parameters. -/
theorem C298_shared (thr iter : ℤ) (a : Mat) (i j : ℤ) : ip2 none thr iter none { a with id := i } { a with id := j } = ip2 none thr iter none a a := by
  have key : ∀ b c : Mat, b.young = a.young → c.young = a.young → b.poisson = a.poisson → c.poisson = a.poisson → b.angle = a.angle → c.angle = a.angle →
      b.sigmaT = a.sigmaT → c.sigmaT = a.sigmaT → b.never = a.never → c.never = a.never → b.e0 = a.e0 → c.e0 = a.e0 → b.duct = a.duct → c.duct = a.duct →
      b.shear = a.shear → c.shear = a.shear → b.law = a.law → b.iso = a.iso → c.iso = a.iso →
      ip2 none thr iter none b c =
        { E := a.young, G := a.young * a.poisson, tan := Real.tan a.angle, coh := a.sigmaT, e0 := a.e0, duct := a.duct, ef := 0,
          shear := a.shear, never := a.never, law := a.law, iso := a.iso, cohesive := decide (thr < 0) || decide (iter < thr), area := 0, refLen := 0, refPD := 0,
          kn := 0, ks := 0 } := by
    intro b c h1 h2 h3 h4 h5 h6 h7 h8 h9 h10 h11 h12 h13 h14 h15 h16 h17 h18 h19
    have half : ∀ x : ℝ, 1 / 2 * (x + x) = x := fun x => by ring
    unfold ip2
    dsimp only
    split_ifs with h
    · rw [h1, h3, h5, h7, h9, h11, h13, h15, h17, h18]
    · rw [h1, h2, h3, h4, h5, h6, h7, h8, h9, h10, h11, h12, h13, h14, h15, h16, h17, h18, h19]
      simp only [Option.getD_none, half, Bool.or_self, mul_comm]
  rw [key { a with id := i } { a with id := j } rfl rfl rfl rfl rfl rfl rfl rfl rfl rfl rfl rfl rfl rfl rfl rfl rfl rfl rfl, key a a rfl rfl rfl rfl rfl rfl rfl rfl rfl rfl rfl rfl rfl rfl rfl rfl rfl rfl rfl]

/-- Apart from the damage law, parameters do not depend on the order of the bodies. -/
theorem C298_swap_partial (thr iter : ℤ) (mm : Option ℝ) (a b : Mat) (hs : a.id ≥ 0 → a.id = b.id → a = b) :
    ip2 none thr iter mm b a = { ip2 none thr iter mm a b with law := b.law } := by
  unfold ip2
  dsimp only
  by_cases h : a.id ≥ 0 ∧ a.id = b.id
  · have := hs h.1 h.2
    subst this
    rw [if_pos h]
  · have h' : ¬ (b.id ≥ 0 ∧ b.id = a.id) := by rintro ⟨h1, h2⟩; exact h ⟨by rw [← h2]; exact h1, h2.symm⟩
    rw [if_neg h, if_neg h']
    dsimp only
    rw [add_comm b.young, add_comm b.poisson, add_comm b.angle, add_comm b.sigmaT, add_comm b.e0, add_comm b.duct, add_comm b.shear, add_comm b.iso, Bool.or_comm b.never]

/-- The damage law is the one of the first body: it depends on the order. -/
theorem C298_violated (thr iter : ℤ) (mm : Option ℝ) (a b : Mat) (h : a.law ≠ b.law) :
    (ip2 none thr iter mm a b).law ≠ (ip2 none thr iter mm b a).law := by
  have key : ∀ c d : Mat, (ip2 none thr iter mm c d).law = c.law := by
    intro c d
    unfold ip2
    dsimp only
    split_ifs <;> rfl
  rw [key, key]
  exact h

/-- Two materials: they differ in the law only. -/
def matOf (i law : ℤ) : Mat := { id := i, young := 1, poisson := 1, angle := 0, sigmaT := 1, never := false, e0 := 1, duct := 2, shear := 0, law := law, iso := 0 }

example : ((matOf 0 0).id ≥ 0 → (matOf 0 0).id = (matOf 1 1).id → matOf 0 0 = matOf 1 1) ∧ (matOf 0 0).law ≠ (matOf 1 1).law := by
  constructor
  · intro _ h; norm_num [matOf] at h
  · norm_num [matOf]

/-- The modulus which a `MatchMaker` gives is used between different materials, and is not between bodies which share one. -/
theorem C298_violated_match (thr iter : ℤ) (e : ℝ) (a b : Mat) :
    (¬ (a.id ≥ 0 ∧ a.id = b.id) → (ip2 none thr iter (some e) a b).E = e) ∧ (a.id ≥ 0 → (ip2 none thr iter (some e) a a).E = a.young) := by
  unfold ip2
  constructor
  · intro h; dsimp only; rw [if_neg h]; rfl
  · intro h; dsimp only; rw [if_pos ⟨h, rfl⟩]

/-- Spheres are bonded at their distance, with the section of the smaller one: then they exert no force and are not damaged, whatever the overlap. -/
theorem C298_rest {L : Law} {P Q : Par} {g : ScGeom} {d : V3} {r1 r2 : ℝ} (h0 : 0 < P.e0) (hE : 0 < P.E) (hc : P.cohesive = true) (hi : P.iso ≤ 0)
    (hL : 0 ≤ L.epsSoft) (hf : fresh P (.sphere r1) (.sphere r2) g d = .ok Q) (hg : g.pd = g.r1 + g.r2 - norm3 d) (hn : g.shearInc = 0) {per : Bool} {x y : V3} {o : Out}
    (h : go L per Q St.init g x y = .ok o) : o.keep = true ∧ o.st.Fn = 0 ∧ o.st.Fs = 0 ∧ o.st.kappa = 0 ∧ Q.kn * norm3 d = Q.area * P.E ∧ Q.ks * norm3 d = Q.area * P.G ∧
      Q.area = Real.pi * (if g.r1 ≤ 0 then g.r2 else if g.r2 ≤ 0 then g.r1 else min g.r1 g.r2) ^ 2 := by
  unfold fresh at hf
  dsimp only at hf
  by_cases hd : norm3 d = 0
  · rw [if_pos hd] at hf; cases hf
  rw [if_neg hd] at hf
  cases hf
  obtain ⟨hl, t, hm, hbr⟩ := go_ok h
  generalize hQ : P.withRef (norm3 d) (Real.pi * minRad g.r1 g.r2 ^ 2) (g.r1 + g.r2 - norm3 d) = Q at *
  have q1 : Q.refPD = g.r1 + g.r2 - norm3 d := by rw [← hQ]; rfl
  have q2 : Q.iso = P.iso := by rw [← hQ]; rfl
  have q3 : Q.E = P.E := by rw [← hQ]; rfl
  have q4 : Q.cohesive = true := by rw [← hQ]; exact hc
  have q5 : Q.e0 = P.e0 := by rw [← hQ]; rfl
  have hz : -(-Q.refPD + g.pd) / Q.refLen = 0 := by rw [q1, hg]; simp
  have hr : g.rotate St.init.epsT + (1 / Q.refLen) • g.shearInc = 0 := by
    rw [hn]; apply v3_ext <;> simp [ScGeom.rotate, St.init]
  rw [hz, hr] at hm
  obtain ⟨_, om, ho, ht'⟩ := material_ok hm
  have hN : (0 : ℝ) + Q.iso / Q.E ≤ 0 := by rw [zero_add, q2, q3]; exact div_nonpos_of_nonpos_of_nonneg hi hE.le
  have hk : max (epsNorm Q (0 + Q.iso / Q.E) St.init.epsNPl 0) St.init.kappa = 0 := by
    have : epsNorm Q (0 + Q.iso / Q.E) St.init.epsNPl 0 = 0 := by
      unfold epsNorm
      rw [max_eq_right (by simpa [St.init] using hN)]
      simp [sqNorm, dot]
    rw [this]; simp [St.init]
  rw [if_pos q4, hk, funcG, if_pos (.inl (by rw [q5]; exact h0))] at ho
  cases ho
  rw [hk] at ht'
  have hNL : normalLaw L Q.E 0 (0 + Q.iso / Q.E) St.init.epsNPl = (Q.E * (0 + Q.iso / Q.E - St.init.epsNPl), St.init.epsNPl) :=
    normalLaw_still (by simpa [St.init] using hN) (.inl hL) 0
  have hE' : Q.E ≠ 0 := by rw [q3]; exact hE.ne'
  have hsig : t.sigN = 0 := by
    rw [ht', hNL]; simp only [St.init]; field_simp; ring
  have hsT : t.sigT = 0 := by
    rw [ht']
    dsimp only
    have hy : 0 ≤ yieldT Q 0 (normalLaw L Q.E 0 (0 + Q.iso / Q.E) St.init.epsNPl).1 := le_max_left _ _
    generalize yieldT Q 0 (normalLaw L Q.E 0 (0 + Q.iso / Q.E) St.init.epsNPl).1 = yy at hy
    have z : Q.G • ((0 : V3) - St.init.epsTPl) = 0 := by simp [St.init]
    unfold shearLaw
    dsimp only
    rw [z, if_neg]
    have : sqNorm (0 : V3) = 0 := by simp [sqNorm, dot]
    rw [this]; exact not_lt.2 (mul_self_nonneg yy)
  have hnb : ¬ broken L Q t := by
    rintro ⟨h1, _⟩
    rw [ht'] at h1
    exact absurd h1 (not_lt.2 hN)
  rcases hbr with ⟨hb, _⟩ | ⟨_, ho⟩
  · exact absurd hb hnb
  rw [ho]
  refine ⟨rfl, by simp [hsig], by simp [hsT], by rw [ht'], ?_, ?_, ?_⟩
  · rw [← hQ]; simp only [Par.withRef]; field_simp
  · rw [← hQ]; simp only [Par.withRef]; field_simp
  · rw [← hQ]; rfl

example : ∃ Q, fresh (par 1) (.sphere 1) (.sphere 1) (geomOf (1 / 2) 0) ![3 / 2, 0, 0] = .ok Q := by
  have : norm3 ![3 / 2, 0, 0] = 3 / 2 := by
    unfold norm3
    rw [show sqNorm ![3 / 2, 0, 0] = (3 / 2) ^ 2 by norm_num [sqNorm, dot]; rfl]
    exact Real.sqrt_sq (by norm_num)
  unfold fresh
  dsimp only
  rw [if_neg (by rw [this]; norm_num)]
  exact ⟨_, rfl⟩

/-- Whatever the shapes, a new bond with the linear law breaks entirely at the strain which is the ductility times the strain at which damage starts, and not before. -/
theorem C298_fracture {P Q : Par} {a b : Shape} {g : ScGeom} {d : V3} (hf : fresh P a b g d = .ok Q) (h0 : 0 < P.e0) (h1 : 1 < P.duct) :
    funcG (P.e0 * P.duct) Q.e0 Q.ef false 0 = .ok 1 ∧
      ∀ k, k < P.e0 * P.duct → ∃ w, funcG k Q.e0 Q.ef false 0 = .ok w ∧ w < 1 := by
  have hQ : Q.e0 = P.e0 ∧ Q.ef = P.e0 * P.duct := by
    unfold fresh at hf
    cases a <;> cases b <;> dsimp only at hf <;> (try split_ifs at hf) <;> cases hf <;> exact ⟨rfl, rfl⟩
  have hd : P.e0 < P.e0 * P.duct := by nlinarith
  have hdp : 0 < P.e0 * P.duct := h0.trans hd
  have hq : 0 < 1 - P.e0 / (P.e0 * P.duct) := by
    rw [sub_pos, div_lt_one hdp]; exact hd
  rw [hQ.1, hQ.2]
  constructor
  · unfold funcG
    rw [if_neg (by simpa using hd.le), if_pos rfl, if_neg (by push Not; exact ⟨hdp.ne', hdp.ne', hq.ne'⟩), div_self hq.ne']
  · intro k hk
    unfold funcG
    by_cases hl : k < P.e0
    · exact ⟨0, by rw [if_pos (.inl hl)], one_pos⟩
    · have hkp : 0 < k := h0.trans_le (not_lt.mp hl)
      refine ⟨(1 - P.e0 / k) / (1 - P.e0 / (P.e0 * P.duct)), ?_, ?_⟩
      · rw [if_neg (by simpa using hl), if_pos rfl, if_neg (by push Not; exact ⟨hkp.ne', hdp.ne', hq.ne'⟩)]
      · rw [div_lt_one hq]
        have := div_lt_div_of_pos_left h0 hkp hk
        linarith

example : ∃ Q, fresh { par 1 with duct := 2 } .plane (.sphere 1) (geomOf (1 / 2) 0) ![1, 0, 0] = .ok Q ∧ (0 : ℝ) < (par 1).e0 := by
  unfold fresh
  dsimp only
  rw [if_neg one_ne_zero]
  exact ⟨_, rfl, by norm_num [par]⟩

end Verif.Cpm
