import Verif.Ctl.Model
import Mathlib.Tactic.Linarith
import Mathlib.Tactic.FieldSimp
import Mathlib.Tactic.NormNum
import Mathlib.Tactic.SplitIfs
import Mathlib.Tactic.LinearCombination
import Mathlib.Tactic.FinCases
import Mathlib.Tactic.Positivity

/-! Helper lemmas on the controllers. -/
namespace Verif.Ctl

open Verif.Mech

theorem sgn_mul_abs (x : ℝ) : sgn x * |x| = x := by
  unfold sgn
  by_cases h : x < 0
  · rw [if_pos h, abs_of_neg h]; ring
  · rw [if_neg h]
    by_cases h' : x > 0
    · rw [if_pos h', abs_of_pos h']; ring
    · rw [if_neg h']
      have : x = 0 := le_antisymm (not_lt.1 h') (not_lt.1 h)
      simp [this]

theorem abs_sgn (x : ℝ) : |sgn x| ≤ 1 := by
  unfold sgn
  split_ifs <;> norm_num

theorem sgn_neg_of {x : ℝ} (h : x < 0) : sgn x = -1 := if_pos h

theorem sgn_pos_of {x : ℝ} (h : 0 < x) : sgn x = 1 := by
  unfold sgn; rw [if_neg (not_lt.2 h.le), if_pos h]

theorem abs_clip {x m : ℝ} (hm : 0 ≤ m) : |clip x m| ≤ m := by
  unfold clip
  by_cases h : |x| > m
  · rw [if_pos h, abs_mul, abs_of_nonneg hm]
    exact (mul_le_mul_of_nonneg_right (abs_sgn x) hm).trans (by rw [one_mul])
  · rw [if_neg h]; exact not_lt.1 h

theorem clip_id {x m : ℝ} (h : |x| ≤ m) : clip x m = x := if_neg (not_lt.2 h)

/-- A bounded number raised to a floor below zero stays bounded. -/
theorem abs_max_floor {x m f : ℝ} (h : |x| ≤ m) (hf : f ≤ 0) : |max x f| ≤ m := by
  have := abs_le.1 h
  rcases max_cases x f with ⟨e, _⟩ | ⟨e, hl⟩
  · rw [e]; exact h
  · rw [e, abs_of_nonpos hf]; linarith

theorem minSize_le (s : V3) (a : Fin 3) : minSize s ≤ s a := by
  unfold minSize
  fin_cases a
  · exact min_le_left _ _
  · exact (min_le_right _ _).trans (min_le_left _ _)
  · exact (min_le_right _ _).trans (min_le_right _ _)

theorem le_maxSize (s : V3) (a : Fin 3) : s a ≤ maxSize s := by
  unfold maxSize
  fin_cases a
  · exact le_max_left _ _
  · exact (le_max_left _ _).trans (le_max_right _ _)
  · exact (le_max_right _ _).trans (le_max_right _ _)

theorem spanMax_start (m : ℝ) (l : List V3) : m ≤ spanMax m l := by
  unfold spanMax
  induction l generalizing m with
  | nil => exact le_rfl
  | cons b l ih => exact ((le_max_left _ _).trans ((le_max_left _ _).trans (le_max_left _ _))).trans (ih _)

theorem le_spanMax (m : ℝ) (l : List V3) (b : V3) (hb : b ∈ l) (a : Fin 3) : b a ≤ spanMax m l := by
  induction l generalizing m with
  | nil => cases hb
  | cons c l ih =>
    rcases List.mem_cons.1 hb with rfl | h
    · refine le_trans ?_ (spanMax_start (max (max (max m (b 0)) (b 1)) (b 2)) l)
      fin_cases a
      · exact (le_max_right _ _).trans ((le_max_left _ _).trans (le_max_left _ _))
      · exact (le_max_right _ _).trans (le_max_left _ _)
      · exact le_max_right _ _
    · exact ih _ h

/-! ### PeriIsoCompressor -/

theorem start_ok {e e' : Iso} {i : IsoIn} (h : e.start i = .ok e') :
    e'.stresses = e.stresses ∧ e'.state = e.state ∧ e'.keep = e.keep ∧ e'.updateInt = e.updateInt ∧
      e'.maxUnbalanced = e.maxUnbalanced ∧ e'.unb = e.unb ∧ e'.sigma = e.sigma ∧ e'.avgStiff = e.avgStiff ∧
      e'.maxSpan = (if e.maxSpan ≤ 0 then spanMax e.maxSpan i.spans else e.maxSpan) ∧
      e'.maxDispl = (if e.maxDispl < 0 then 1e-2 * e'.charLen else e.maxDispl) := by
  unfold Iso.start at h
  simp only at h
  split at h
  · cases h
  · cases h
  · injection h with h
    subst h
    exact ⟨rfl, rfl, rfl, rfl, rfl, rfl, rfl, rfl, rfl, rfl⟩

theorem measure_same (e : Iso) (i : IsoIn) :
    (e.measure i).stresses = e.stresses ∧ (e.measure i).state = e.state ∧ (e.measure i).keep = e.keep ∧
      (e.measure i).updateInt = e.updateInt ∧ (e.measure i).maxUnbalanced = e.maxUnbalanced ∧
      (e.measure i).unb = e.unb ∧ (e.measure i).maxSpan = e.maxSpan ∧ (e.measure i).maxDispl = e.maxDispl := by
  unfold Iso.measure
  split_ifs <;> exact ⟨rfl, rfl, rfl, rfl, rfl, rfl, rfl, rfl⟩

theorem balance_same (e : Iso) (i : IsoIn) :
    (e.balance i).stresses = e.stresses ∧ (e.balance i).keep = e.keep ∧ (e.balance i).maxSpan = e.maxSpan ∧
      (e.balance i).maxDispl = e.maxDispl ∧ (e.balance i).sigma = e.sigma ∧
      (e.balance i).updateInt = e.updateInt ∧ (e.balance i).maxUnbalanced = e.maxUnbalanced ∧
      (e.balance i).state = e.state := by
  unfold Iso.balance
  split_ifs <;> exact ⟨rfl, rfl, rfl, rfl, rfl, rfl, rfl, rfl⟩

theorem advance_same (e : Iso) (i : IsoIn) (ok : Bool) :
    (e.advance i ok).stresses = e.stresses ∧ (e.advance i ok).keep = e.keep ∧ (e.advance i ok).maxSpan = e.maxSpan ∧
      (e.advance i ok).maxDispl = e.maxDispl ∧ (e.advance i ok).sigma = e.sigma ∧
      (e.advance i ok).updateInt = e.updateInt ∧ (e.advance i ok).maxUnbalanced = e.maxUnbalanced := by
  have hb := balance_same e i
  unfold Iso.advance
  by_cases h : ok = true
  · rw [if_pos h]
    by_cases h' : ltNum (e.balance i).unb e.maxUnbalanced
    · rw [if_pos h']
      exact ⟨hb.1, hb.2.1, hb.2.2.1, hb.2.2.2.1, hb.2.2.2.2.1, hb.2.2.2.2.2.1, hb.2.2.2.2.2.2.1⟩
    · rw [if_neg h']
      exact ⟨hb.1, hb.2.1, hb.2.2.1, hb.2.2.2.1, hb.2.2.2.2.1, hb.2.2.2.2.2.1, hb.2.2.2.2.2.2.1⟩
  · rw [if_neg h]; exact ⟨rfl, rfl, rfl, rfl, rfl, rfl, rfl⟩

/-- The state advances by one, or not; it advances only if the unbalanced force known is small. -/
theorem advance_state (e : Iso) (i : IsoIn) (ok : Bool) :
    ((e.advance i ok).state = e.state) ∨
      ((e.advance i ok).state = e.state + 1 ∧ ok = true ∧ ltNum (e.balance i).unb e.maxUnbalanced) := by
  have hb := balance_same e i
  unfold Iso.advance
  by_cases h : ok = true
  · rw [if_pos h]
    by_cases h' : ltNum (e.balance i).unb e.maxUnbalanced
    · rw [if_pos h']; exact .inr ⟨rfl, h, h'⟩
    · rw [if_neg h']; exact .inl hb.2.2.2.2.2.2.2
  · rw [if_neg h]; exact .inl rfl

/-- What happens in a call that controls the cell. -/
theorem action_some {e : Iso} {i : IsoIn} {o : IsoOut} {v : V3} (h : e.action i = .ok o) (hv : o.grad = some v) :
    ∃ e1 g sig ok, i.periodic = true ∧ e.state < e.stresses.length ∧ e.start i = .ok e1 ∧
      2.1 * e1.maxSpan ≤ minSize i.size ∧ e1.updateInt ≠ 0 ∧ 0 < i.dt ∧ e1.stresses.getD e1.state 0 < 0 ∧
      (e1.measure i).grow i.size (e1.stresses.getD e1.state 0) = .ok (g, sig, ok) ∧
      (v = fun a => g a / (i.dt * i.size a)) ∧
      o.eng = ({ e1.measure i with sigma := sig } : Iso).advance i ok ∧
      o.hook = decide (o.eng.state ≠ e.state ∧ o.eng.state = e.stresses.length) := by
  unfold Iso.action at h
  by_cases hp : i.periodic = false
  · rw [if_pos hp] at h; cases h
  rw [if_neg hp] at h
  by_cases hs : e.stresses.length ≤ e.state
  · rw [if_pos hs] at h
    injection h with h; subst h; cases hv
  rw [if_neg hs] at h
  cases h1 : e.start i with
  | ub => rw [h1] at h; cases h
  | throws => rw [h1] at h; cases h
  | ok e1 =>
    rw [h1] at h
    simp only at h
    by_cases h2 : minSize i.size < 2.1 * e1.maxSpan
    · rw [if_pos h2] at h; cases h
    rw [if_neg h2] at h
    by_cases h3 : e1.updateInt = 0 ∨ 0 ≤ e1.stresses.getD e1.state 0 ∨ i.dt ≤ 0
    · rw [if_pos h3] at h; cases h
    rw [if_neg h3] at h
    have hm := measure_same e1 i
    have h3' : e1.updateInt ≠ 0 ∧ e1.stresses.getD e1.state 0 < 0 ∧ 0 < i.dt :=
      ⟨fun q => h3 (.inl q), not_le.1 fun q => h3 (.inr (.inl q)), not_le.1 fun q => h3 (.inr (.inr q))⟩
    cases h4 : (e1.measure i).grow i.size ((e1.measure i).stresses.getD (e1.measure i).state 0) with
    | ub => rw [h4] at h; cases h
    | throws => rw [h4] at h; cases h
    | ok q =>
      obtain ⟨g, sig, ok⟩ := q
      rw [h4] at h
      simp only at h
      injection h with h
      subst h
      injection hv with hv
      have hst := start_ok h1
      rw [hm.1, hm.2.1] at h4
      refine ⟨e1, g, sig, ok, by simpa using hp, not_le.1 hs, rfl, not_lt.1 h2, h3'.1, h3'.2.2, h3'.2.1, h4,
        hv.symm, rfl, ?_⟩
      show decide (_ ≠ (e1.measure i).state ∧ _ = List.length (e1.measure i).stresses) = _
      rw [hm.1, hm.2.1, hst.1, hst.2.1]

/-- A call without a growth leaves everything. -/
theorem action_none {e : Iso} {i : IsoIn} {o : IsoOut} (h : e.action i = .ok o) (hv : o.grad = none) :
    o.eng = e ∧ e.stresses.length ≤ e.state ∧ o.hook = false := by
  unfold Iso.action at h
  by_cases hp : i.periodic = false
  · rw [if_pos hp] at h; cases h
  rw [if_neg hp] at h
  by_cases hs : e.stresses.length ≤ e.state
  · rw [if_pos hs] at h
    injection h with h; subst h; exact ⟨rfl, hs, rfl⟩
  rw [if_neg hs] at h
  cases h1 : e.start i with
  | ub => rw [h1] at h; cases h
  | throws => rw [h1] at h; cases h
  | ok e1 =>
    rw [h1] at h
    simp only at h
    split_ifs at h
    split at h
    · cases h
    · cases h
    · injection h with h; subst h; cases hv

/-- The growth of a cell: bounded, and not below the limit. -/
theorem grow_bound {e : Iso} {s : V3} {goal : ℝ} {g sig : V3} {ok : Bool} (hs : ∀ a, 0 < s a)
    (hmin : 2.1 * e.maxSpan ≤ minSize s) (hd : 0 ≤ e.maxDispl) (h : e.grow s goal = .ok (g, sig, ok)) (a : Fin 3) :
    |g a| ≤ e.maxDispl ∧ 2.1 * e.maxSpan ≤ s a + g a := by
  have hla := hmin.trans (minSize_le s a)
  unfold Iso.grow at h
  by_cases hk : e.keep = true
  · rw [if_pos hk] at h
    cases h1 : e.avgGrow s goal with
    | ub => rw [h1] at h; cases h
    | throws => rw [h1] at h; cases h
    | ok q =>
      rw [h1] at h
      simp only at h
      injection h with h
      have hg : g = (q / ((s 0 + s 1 + s 2) / 3)) • s := (congrArg Prod.fst h).symm
      have p0 := hs 0; have p1 := hs 1; have p2 := hs 2; have pa := hs a
      have hA : 0 < (s 0 + s 1 + s 2) / 3 := by positivity
      have hM : 0 < maxSize s := p0.trans_le (le_maxSize s 0)
      have haM := le_maxSize s a
      unfold Iso.avgGrow at h1
      simp only at h1
      set A := (s 0 + s 1 + s 2) / 3 with hAdef
      set r := maxSize s / A with hr
      have hr0 : 0 < r := div_pos hM hA
      generalize 1e-4 * (goal - (e.sigma 0 + e.sigma 1 + e.sigma 2) / 3) * ((area s 0 + area s 1 + area s 2) / 3) /
        (if e.avgStiff > 0 then e.avgStiff else 1) = y at h1
      have hb : ∀ z, z = (if |r * y| > e.maxDispl then sgn y * e.maxDispl / r else y) → |r * z| ≤ e.maxDispl := by
        intro z hz
        by_cases hc : |r * y| > e.maxDispl
        · rw [if_pos hc] at hz
          have : r * z = sgn y * e.maxDispl := by rw [hz]; field_simp
          rw [this, abs_mul, abs_of_nonneg hd]
          exact (mul_le_mul_of_nonneg_right (abs_sgn y) hd).trans (by rw [one_mul])
        · rw [if_neg hc] at hz
          rw [hz]; exact not_lt.1 hc
      generalize (if |r * y| > e.maxDispl then sgn y * e.maxDispl / r else y) = z at h1 hb
      by_cases hlow : z < -(minSize s - 2.1 * e.maxSpan) / r
      · rw [if_pos hlow] at h1; cases h1
      · rw [if_neg hlow] at h1
        injection h1 with h1
        rw [h1] at hlow
        have hq := hb q h1.symm
        have hlow := not_lt.1 hlow
        have hga : g a = (s a / maxSize s) * (r * q) := by
          rw [hg]
          show q / A * s a = _
          rw [hr]; field_simp
        have hf0 : 0 ≤ s a / maxSize s := (div_pos pa hM).le
        have hf1 : s a / maxSize s ≤ 1 := (div_le_one hM).2 haM
        refine ⟨?_, ?_⟩
        · rw [hga, abs_mul, abs_of_nonneg hf0]
          calc s a / maxSize s * |r * q| ≤ 1 * |r * q| := mul_le_mul_of_nonneg_right hf1 (abs_nonneg _)
            _ ≤ e.maxDispl := by rw [one_mul]; exact hq
        · have h5 : -(minSize s - 2.1 * e.maxSpan) ≤ r * q := by
            have := mul_le_mul_of_nonneg_left hlow hr0.le
            have h6 : r * (-(minSize s - 2.1 * e.maxSpan) / r) = -(minSize s - 2.1 * e.maxSpan) := by field_simp
            rw [h6] at this; exact this
          have h7 : -(minSize s - 2.1 * e.maxSpan) ≤ g a := by
            rw [hga]
            have h8 := mul_le_mul_of_nonneg_left h5 hf0
            have h9 : 0 ≤ minSize s - 2.1 * e.maxSpan := by linarith
            have h10 := mul_le_mul_of_nonneg_right hf1 h9
            linarith
          have := minSize_le s a
          linarith
  · rw [if_neg hk] at h
    injection h with h
    have hg := (congrFun (congrArg Prod.fst h) a).symm
    simp only at hg
    rw [hg]
    refine ⟨abs_max_floor (abs_clip hd) (by linarith), ?_⟩
    have := le_max_right (clip (1e-4 * (goal - e.sigma a) * area s a / (if e.avgStiff > 0 then e.avgStiff else 1))
      e.maxDispl) (-(s a - 2.1 * e.maxSpan))
    linarith

/-- Sizes after a step with growths `g`. -/
theorem grown_of {s g : V3} {dt : ℝ} (hs : ∀ a, 0 < s a) (hdt : 0 < dt) (a : Fin 3) :
    grown s (fun a => g a / (dt * s a)) dt a = |s a + g a| := by
  unfold grown
  have h1 := (hs a).ne'
  have h2 := hdt.ne'
  congr 1
  field_simp

end Verif.Ctl
