import Verif.Pack.CloudRun

/-!
# Lemmas on the choice of radii in `makeCloud`
-/
namespace Verif.Pack
open Verif.Mech
open scoped Classical

theorem bind_eq_ok {α β : Type _} {r : Res α} {f : α → Res β} {b : β} (h : r.bind f = .ok b) : ∃ a, r = .ok a ∧ f a = .ok b := by
  cases r with
  | ok a => exact ⟨a, rfl, h⟩
  | throws => cases h
  | ub => cases h

theorem power_ok {x y z : ℝ} (h : power x y = .ok z) : 0 ≤ x ∧ z = x ^ y := by
  unfold power at h
  split_ifs at h with h1
  cases h
  exact ⟨not_lt.mp h1, rfl⟩

theorem quot_ok {x y z : ℝ} (h : quot x y = .ok z) : y ≠ 0 ∧ z = x / y := by
  unfold quot at h
  split_ifs at h with h1
  cases h
  exact ⟨h1, rfl⟩

theorem psdPlan_spec {a : Args} {V s s' : ℝ} {d : Dist} (h : psdPlan a V s = .ok (d, s')) :
    a.psdSizes.length = a.psdCumm.length ∧ 2 ≤ a.psdSizes.length ∧ (a.psdCumm.head? = some 0 ∨ a.psdCumm.getLast? = some 1) ∧
    a.psdSizes.Pairwise (· ≤ ·) ∧ a.psdCumm.Pairwise (· ≤ ·) ∧ (¬ a.num > 1 → s' = s) ∧ (a.num > 1 → 0 ≤ s' ∧ s' ≤ 1) ∧
    ∃ cumm, d = .psd (a.psdSizes.map fun x => x / 2 * if a.num > 1 then s' else 1) cumm ∧
      (a.distributeMass = false → cumm = a.psdCumm) ∧
      (a.distributeMass = true → ∃ l, massCumm (if V ≠ 0 then V else a.area * a.psdSizes.getLastD 0) a.poro 0 a.psdSizes a.psdCumm = .ok l ∧
        (0 :: l).getLastD 0 ≠ 0 ∧ cumm = (0 :: l).map (· / (0 :: l).getLastD 0)) := by
  rw [psdPlan] at h
  by_cases h1 : a.psdSizes.length ≠ a.psdCumm.length
  · rw [if_pos h1] at h; cases h
  rw [if_neg h1] at h
  by_cases h2 : a.psdSizes.length ≤ 1
  · rw [if_pos h2] at h; cases h
  rw [if_neg h2] at h
  by_cases h3 : a.psdCumm.head? ≠ some 0 ∧ a.psdCumm.getLast? ≠ some 1
  · rw [if_pos h3] at h; cases h
  rw [if_neg h3] at h
  by_cases h4 : ¬ a.psdSizes.Pairwise (· ≤ ·) ∨ ¬ a.psdCumm.Pairwise (· ≤ ·)
  · rw [if_pos h4] at h; cases h
  rw [if_neg h4] at h
  dsimp only at h
  obtain ⟨cumm, hc, hb⟩ := bind_eq_ok h
  obtain ⟨sc, hs, hf⟩ := bind_eq_ok hb
  clear h hb
  have h3' : a.psdCumm.head? = some 0 ∨ a.psdCumm.getLast? = some 1 := by
    by_contra hh
    push Not at hh
    exact h3 hh
  push Not at h4 h1
  obtain ⟨e, hd', hz⟩ : s' = sc ∧
      d = .psd (if a.num > 1 ∧ sc < 1 then (a.psdSizes.map (0.5 * ·)).map (· * sc) else a.psdSizes.map (0.5 * ·))
        (cumm.map (· / if a.distributeMass then cumm.getLastD 0 else 1)) ∧ (a.distributeMass = true → cumm.getLastD 0 ≠ 0) := by
    by_cases k1 : a.distributeMass = true
    · rw [if_pos k1] at hf
      by_cases k2 : cumm.getLastD 0 = 0
      · rw [if_pos k2] at hf; cases hf
      · rw [if_neg k2] at hf
        cases hf
        exact ⟨rfl, by simp [k1], fun _ => k2⟩
    · rw [if_neg k1] at hf
      cases hf
      exact ⟨rfl, by simp [k1], fun h => absurd h k1⟩
  have hmap : ∀ f : ℝ, (a.psdSizes.map (0.5 * ·)).map (· * f) = a.psdSizes.map fun x => x / 2 * f := by
    intro f
    rw [List.map_map]
    apply List.map_congr_left
    intro x _
    simp only [Function.comp]
    ring
  have hmap1 : a.psdSizes.map (0.5 * ·) = a.psdSizes.map fun x => x / 2 * 1 := by
    apply List.map_congr_left
    intro x _
    ring
  have hs1 : a.num > 1 → 0 ≤ s' ∧ s' ≤ 1 := by
    intro hn
    have hn0 : (0 : ℝ) < a.num := by
      have : (0 : Int) < a.num := by omega
      exact_mod_cast this
    rw [if_pos hn] at hs
    rw [e]
    by_cases k1 : a.distributeMass = true
    · rw [if_pos k1] at hs
      split_ifs at hs with k2
      · obtain ⟨q1, q2⟩ := power_ok hs
        rw [q2]
        exact ⟨Real.rpow_nonneg q1 _, Real.rpow_le_one q1 (by rw [div_le_one hn0]; exact k2.le) (by norm_num)⟩
      · cases hs; norm_num
    · rw [if_neg k1] at hs
      obtain ⟨ratio, -, hs⟩ := bind_eq_ok hs
      split_ifs at hs with k3
      · obtain ⟨q1, q2⟩ := power_ok hs
        rw [q2]
        exact ⟨Real.rpow_nonneg q1 _, Real.rpow_le_one_of_one_le_of_nonpos k3.le (by norm_num)⟩
      · cases hs; norm_num
  refine ⟨h1, by omega, h3', h4.1, h4.2, ?_, hs1, cumm.map (· / if a.distributeMass then cumm.getLastD 0 else 1), ?_, ?_, ?_⟩
  · intro hn
    rw [if_neg hn] at hs
    cases hs
    exact e
  · have hrad : (if a.num > 1 ∧ sc < 1 then (a.psdSizes.map (0.5 * ·)).map (· * sc) else a.psdSizes.map (0.5 * ·)) =
        a.psdSizes.map fun x => x / 2 * if a.num > 1 then s' else 1 := by
      by_cases hn : a.num > 1
      · have := hs1 hn
        simp only [hn, true_and, if_true]
        split_ifs with hsc
        · rw [hmap, e]
        · rw [hmap1, show s' = 1 by linarith [not_lt.mp hsc]]
      · simp only [hn, false_and, if_false]
        exact hmap1
    rw [hd', hrad]
  · intro hd
    rw [if_neg (by simp [hd])] at hc
    cases hc
    simp [hd]
  · intro hd
    rw [if_pos hd] at hc
    obtain ⟨l, hl, hc⟩ := bind_eq_ok hc
    cases hc
    exact ⟨l, hl, hz hd, by simp [hd]⟩

theorem plan_spec {a : Args} {s s' : ℝ} {d : Dist} (h : plan a s = .ok (d, s')) :
    ¬ (a.cell.det = 0 ∧ a.hSize ≠ 0) ∧
    ((0 < a.rMean ∧ a.psdSizes = [] ∧ d = .rmean a.rMean ∧ s' = s) ∨
     (¬ 0 < a.rMean ∧ 0 < a.num ∧ a.psdSizes = [] ∧ s' = s ∧ ∃ m, d = .num m ∧ 0 ≤ m ∧
        ((a.cell.det ≠ 0 ∧ 0 ≤ a.cell.det * (1 - a.poro) / (Real.pi * (4 / 3) * (1 + a.fuzz * a.fuzz) * a.num) ∧
            m = (a.cell.det * (1 - a.poro) / (Real.pi * (4 / 3) * (1 + a.fuzz * a.fuzz) * a.num)) ^ (1 / 3 : ℝ)) ∨
         (a.cell.det = 0 ∧ a.area ≠ 0 ∧ 0 ≤ a.area * (1 - a.poro) / (Real.pi * (1 + a.fuzz * a.fuzz) * a.num) ∧
            m = (a.area * (1 - a.poro) / (Real.pi * (1 + a.fuzz * a.fuzz) * a.num)) ^ (0.5 : ℝ)))) ∨
     (¬ 0 < a.rMean ∧ a.psdSizes ≠ [] ∧ psdPlan a a.cell.det s = .ok (d, s'))) := by
  rw [plan] at h
  split_ifs at h with h1 h2 h3 h4 h5 h6 h7
  all_goals refine ⟨h1, ?_⟩
  · cases h
    exact Or.inl ⟨h2, h3, rfl, rfl⟩
  · cases hp : psdPlan a a.cell.det s <;> rw [hp] at h <;> cases h
  · obtain ⟨m, hm, h⟩ := bind_eq_ok h
    cases h
    obtain ⟨q1, q2⟩ := power_ok hm
    exact Or.inr (Or.inl ⟨h2, h4.1, h4.2, rfl, m, rfl, by rw [q2]; exact Real.rpow_nonneg q1 _, Or.inl ⟨h5, q1, q2⟩⟩)
  · obtain ⟨m, hm, h⟩ := bind_eq_ok h
    cases h
    obtain ⟨q1, q2⟩ := power_ok hm
    exact Or.inr (Or.inl ⟨h2, h4.1, h4.2, rfl, m, rfl, by rw [q2]; exact Real.rpow_nonneg q1 _, Or.inr ⟨not_not.mp h5, h6, q1, q2⟩⟩)
  · exact Or.inr (Or.inr ⟨h2, h7, h⟩)

theorem plan_retries {a : Args} {s s' : ℝ} {d : Dist} (h : plan a s = .ok (d, s')) :
    (0 < a.rMean → d.retries = false) ∧ (¬ 0 < a.rMean → d.retries = true) := by
  rcases (plan_spec h).2 with ⟨h1, -, rfl, -⟩ | ⟨h1, -, -, -, m, rfl, -⟩ | ⟨h1, -, h2⟩
  · exact ⟨fun _ => rfl, fun h => absurd h1 h⟩
  · exact ⟨fun h => absurd h h1, fun _ => rfl⟩
  · obtain ⟨-, -, -, -, -, -, -, cumm, rfl, -⟩ := psdPlan_spec h2
    exact ⟨fun h => absurd h h1, fun _ => rfl⟩

/-- A completed call: what it kept, what it added. -/
theorem cloud_added {n : Nat} {a : Args} {sp sp' : SpherePack} {g g' : Rnd} {k : Int} (hg : Good g)
    (h : makeCloud n a sp g = some (.ok (sp', k, g'))) : ∃ a' d s s' old new, Retry a a' ∧ plan a' s = .ok (d, s') ∧
      sp'.pack = old ++ new ∧ ((old = [] ∧ a.num > 0 ∧ ¬ 0 < a.rMean) ∨ (old = sp.pack ∧ a' = a ∧ s = sp.scaling)) ∧
      ((k = sp'.pack.length ∧ (a.num ≤ 0 ∨ (new.length : Int) = a.num)) ∨
        (k = new.length ∧ (0 < a.num → 0 < a.rMean ∧ (new.length : Int) < a.num))) ∧
      (∀ (i : Nat) (s : Sph), new[i]? = some s → ∃ x, radius a' d x = .ok s.r ∧ 0 ≤ x ∧ x < 1 ∧ (a.num > 0 → x = ((a.num : ℝ) - i + 0.5) / (a.num + 1))) ∧
      sp'.scaling = s' ∧ sp'.isPeriodic = a.periodic := by
  obtain ⟨a', d, s, s', m, g1, e, pack0, q1, q2, q3, q4, q5, q6, q7, q8⟩ := cloud_loop hg h
  have hnum : a'.num = a.num := by obtain ⟨m, p, rfl, -⟩ := q2; rfl
  obtain ⟨-, i', ⟨new, e1, e2, e3⟩, -, h4⟩ := loop_inv (P := fun i p => ∃ new, p = pack0 ++ new ∧ new.length = i ∧
      ∀ (i : Nat) (s : Sph), new[i]? = some s → ∃ x, radius a' d x = .ok s.r ∧ 0 ≤ x ∧ x < 1 ∧ (a.num > 0 → x = ((a.num : ℝ) - i + 0.5) / (a.num + 1)))
    (by
      rintro i pack c r ⟨w1, ⟨x, w2, w3, w4, w5⟩, -⟩ ⟨new, rfl, rfl, w⟩
      refine ⟨new ++ [{ c := c, r := r }], by rw [List.append_assoc], by simp, ?_⟩
      intro j t ht
      rcases lt_trichotomy j new.length with hj | rfl | hj
      · rw [List.getElem?_append_left hj] at ht
        exact w j t ht
      · rw [List.getElem?_append_right le_rfl] at ht
        simp only [Nat.sub_self, List.getElem?_cons_zero, Option.some.injEq] at ht
        subst ht
        rw [hnum] at w5
        exact ⟨x, w2, w3, w4, w5⟩
      · rw [List.getElem?_eq_none (by simp; omega)] at ht
        cases ht)
    q1 ⟨[], by simp, rfl, by simp⟩ q4
  refine ⟨a', d, s, s', pack0, new, q2, q3, e1, ?_, ?_, e3, q8, q7⟩
  · rcases q5 with ⟨r1, r2, d', s'', r3, r4⟩ | r
    · refine Or.inl ⟨r1, r2, fun hm => ?_⟩
      rw [(plan_retries r3).1 hm] at r4
      cases r4
    · exact Or.inr r
  · rw [hnum] at h4 q6
    rcases h4 with ⟨rfl, h5⟩ | ⟨rfl, h5, h6⟩
    · rcases q6 with ⟨r1, -⟩ | ⟨i, r1, r2, r3⟩
      · cases r1
      · cases r1
        refine Or.inr ⟨by rw [r2, e2], fun hn => ⟨?_, by omega⟩⟩
        have hret : d.retries ≠ true := fun hh => r3 ⟨hn, hh⟩
        have hm : 0 < a'.rMean := by
          by_contra hm
          exact hret ((plan_retries q3).2 hm)
        obtain ⟨m, p, rfl, ⟨rfl, -⟩ | ⟨rfl, -⟩⟩ := q2
        · exact hm
        · norm_num at hm
    · rcases q6 with ⟨-, r2⟩ | ⟨i, r1, -⟩
      · refine Or.inl ⟨r2, ?_⟩
        by_cases hn : a.num ≤ 0
        · exact Or.inl hn
        · right
          simp only [List.length_nil] at h6
          omega
      · cases r1

end Verif.Pack
