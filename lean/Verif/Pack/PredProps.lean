import Verif.Pack.PredLemmas
import Mathlib.Order.SymmDiff
import Mathlib.Tactic.NormNum

/-!
# C139, C140, C141: solids given by predicates
-/
namespace Verif.Pack
open Verif.Mech
open scoped Classical

/-! ## Specification -/

/-- The part of `normal` perpendicular to `edge`. -/
noncomputable def perp (edge normal : V3) : V3 := normal - (dot edge normal / dot edge edge) • edge

/-- The set of points a solid stands for. -/
noncomputable def Solid.set : Solid → Set V3
  | .union A B => A.set ∪ B.set
  | .inter A B => A.set ∩ B.set
  | .diff A B => A.set \ B.set
  | .xor A B => symmDiff A.set B.set
  | .sphere center radius => {x | norm3 (x - center) ≤ radius}
  | .box mn mx => {x | ∀ i, mn i ≤ x i ∧ x i ≤ mx i}
  | .parallelepiped o a b c => {x | ∃ s t u : ℝ, (0 ≤ s ∧ s ≤ 1) ∧ (0 ≤ t ∧ t ≤ 1) ∧ (0 ≤ u ∧ u ≤ 1) ∧
      x = o + s • (a - o) + t • (b - o) + u • (c - o)}
  | .cylinder c1 c2 radius => {x | ∃ (s : ℝ) (w : V3), (0 ≤ s ∧ s ≤ 1) ∧ dot w (c2 - c1) = 0 ∧ norm3 w ≤ radius ∧
      x = c1 + s • (c2 - c1) + w}
  | .hyperboloid c1 c2 R a => {x | ∃ (s : ℝ) (w : V3), (0 ≤ s ∧ s ≤ 1) ∧ dot w (c2 - c1) = 0 ∧
      sqNorm w ≤ a ^ 2 + (R ^ 2 - a ^ 2) * (2 * s - 1) ^ 2 ∧ x = c1 + s • (c2 - c1) + w}
  | .ellipsoid c abc => {x | ((x 0 - c 0) / abc 0) ^ 2 + ((x 1 - c 1) / abc 1) ^ 2 + ((x 2 - c 2) / abc 2) ^ 2 ≤ 1}
  | .notch c edge normal aperture => {x | ¬ (0 < dot (cross edge normal) (x - c) ∧
      |dot (perp edge normal) (x - c)| < aperture / 2 * norm3 (perp edge normal))}

/-- Arguments that describe a solid: edges of a parallelepiped form a right-handed system, axes have a length, radii are positive, edge
and normal of a notch are not parallel. -/
def Solid.Proper : Solid → Prop
  | .union A B | .inter A B | .diff A B | .xor A B => A.Proper ∧ B.Proper
  | .sphere _ _ | .box _ _ => True
  | .parallelepiped o a b c => 0 < dot (a - o) (cross (b - o) (c - o))
  | .cylinder c1 c2 _ => c1 ≠ c2
  | .hyperboloid c1 c2 R a => c1 ≠ c2 ∧ 0 < a ∧ a ≤ R
  | .ellipsoid _ abc => ∀ i, 0 < abc i
  | .notch _ edge normal _ => cross edge normal ≠ 0

/-! ## C139 -/

theorem inside_ellipsoid {c abc x : V3} {pad : ℝ} (h : ∀ i, 0 < abc i - pad) : (Solid.ellipsoid c abc).inside x pad ↔
    ((x 0 - c 0) / (abc 0 - pad)) ^ 2 + ((x 1 - c 1) / (abc 1 - pad)) ^ 2 + ((x 2 - c 2) / (abc 2 - pad)) ^ 2 ≤ 1 := by
  have h0 := h 0
  have h1 := h 1
  have h2 := h 2
  rw [Solid.inside, if_neg (by push Not; exact ⟨h1.ne', h2.ne'⟩)]
  simp only [div_pow, ← sq]
  set E := 1 - (x 1 - c 1) ^ 2 / (abc 1 - pad) ^ 2 - (x 2 - c 2) ^ 2 / (abc 2 - pad) ^ 2 with hE
  have hs : 0 < (abc 0 - pad) ^ 2 := by positivity
  have key : (x 0 - c 0) ^ 2 / (abc 0 - pad) ^ 2 + (x 1 - c 1) ^ 2 / (abc 1 - pad) ^ 2 + (x 2 - c 2) ^ 2 / (abc 2 - pad) ^ 2 ≤ 1 ↔
      (x 0 - c 0) ^ 2 ≤ E * (abc 0 - pad) ^ 2 := by
    rw [← div_le_iff₀ hs, hE]
    constructor <;> intro k <;> linarith
  rw [key]
  by_cases hd : E * (abc 0 - pad) ^ 2 < 0
  · rw [if_pos hd]
    constructor
    · exact False.elim
    · intro k
      nlinarith [sq_nonneg (x 0 - c 0)]
  · rw [if_neg hd]
    push Not at hd
    have e : norm3 (![Real.sqrt (E * (abc 0 - pad) ^ 2) + c 0, x 1, x 2] - c) =
        Real.sqrt (E * (abc 0 - pad) ^ 2 + (x 1 - c 1) ^ 2 + (x 2 - c 2) ^ 2) := by
      unfold norm3
      congr 1
      simp only [sqNorm, dot, Pi.sub_apply, Matrix.cons_val_zero, Matrix.cons_val_one, Matrix.cons_val]
      have := Real.mul_self_sqrt hd
      nlinarith
    rw [e]
    unfold norm3
    rw [Real.sqrt_le_sqrt_iff (by positivity)]
    simp only [sqNorm, dot, Pi.sub_apply]
    constructor <;> intro k <;> nlinarith

/-- The frame of a notch against its arguments. -/
theorem notch_frame {edge normal : V3} (h : cross edge normal ≠ 0) (v : V3) :
    0 < norm3 (perp edge normal) ∧ dot (notchFrame edge normal).2.1 v = dot (perp edge normal) v / norm3 (perp edge normal) ∧
    dot (notchFrame edge normal).2.2 v = dot (cross edge normal) v / (norm3 edge * norm3 (perp edge normal)) := by
  have he : edge ≠ 0 := by
    rintro rfl
    apply h
    apply v3_ext <;> simp
  have hp := norm3_pos he
  have hm : normal - dot (normalized edge) normal • normalized edge = perp edge normal := by
    unfold perp normalized
    rw [dot_smul_l, smul_smul, show dot edge edge = norm3 edge * norm3 edge from (norm3_sq _).symm]
    congr 2
    field_simp
  have hc : cross edge (perp edge normal) = cross edge normal := by
    unfold perp
    apply v3_ext <;> simp <;> ring
  have hm0 : perp edge normal ≠ 0 := by
    intro e
    rw [e] at hc
    apply h
    rw [← hc]
    apply v3_ext <;> simp
  have hq := norm3_pos hm0
  refine ⟨hq, ?_, ?_⟩
  · simp only [notchFrame, hm]
    rw [normalized, dot_smul_l]
    field_simp
  · simp only [notchFrame, hm]
    have : cross (normalized edge) (normalized (perp edge normal)) =
        ((norm3 edge)⁻¹ * (norm3 (perp edge normal))⁻¹) • cross edge normal := by
      rw [← hc]
      unfold normalized
      apply v3_ext <;> simp <;> ring
    rw [this, dot_smul_l]
    field_simp

theorem inside_notch_zero {c edge normal x : V3} {ap : ℝ} (h : cross edge normal ≠ 0) : (Solid.notch c edge normal ap).inside x 0 ↔
    x ∈ (Solid.notch c edge normal ap).set := by
  obtain ⟨hq, h1, h2⟩ := notch_frame h (x - c)
  have he : 0 < norm3 edge := by
    apply norm3_pos
    rintro rfl
    apply h
    apply v3_ext <;> simp
  rw [Solid.inside, Solid.set]
  dsimp only
  rw [h1, h2, Set.mem_setOf_eq]
  have hpos : 0 < norm3 edge * norm3 (perp edge normal) := mul_pos he hq
  have k1 : -(dot (cross edge normal) (x - c) / (norm3 edge * norm3 (perp edge normal))) ≥ 0 ↔ ¬ 0 < dot (cross edge normal) (x - c) := by
    rw [ge_iff_le, Left.nonneg_neg_iff, div_le_iff₀ hpos, zero_mul, not_lt]
  have k2 : (dot (perp edge normal) (x - c) / norm3 (perp edge normal) - ap / 2 ≥ 0 ∨
      -(dot (perp edge normal) (x - c) / norm3 (perp edge normal)) - ap / 2 ≥ 0) ↔
      ¬ |dot (perp edge normal) (x - c)| < ap / 2 * norm3 (perp edge normal) := by
    have e1 : dot (perp edge normal) (x - c) / norm3 (perp edge normal) - ap / 2 ≥ 0 ↔
        ap / 2 * norm3 (perp edge normal) ≤ dot (perp edge normal) (x - c) := by
      rw [ge_iff_le, sub_nonneg, le_div_iff₀ hq]
    have e2 : -(dot (perp edge normal) (x - c) / norm3 (perp edge normal)) - ap / 2 ≥ 0 ↔
        ap / 2 * norm3 (perp edge normal) ≤ -dot (perp edge normal) (x - c) := by
      rw [ge_iff_le, sub_nonneg, ← neg_div, le_div_iff₀ hq]
    rw [e1, e2, not_lt, le_abs]
  rw [not_and_or, ← k1, ← k2]
  by_cases a1 : -(dot (cross edge normal) (x - c) / (norm3 edge * norm3 (perp edge normal))) ≥ 0
  · rw [if_pos a1]; exact ⟨fun _ => Or.inl a1, fun _ => trivial⟩
  rw [if_neg a1]
  by_cases a2 : dot (perp edge normal) (x - c) / norm3 (perp edge normal) - ap / 2 ≥ 0
  · rw [if_pos a2]; exact ⟨fun _ => Or.inr (Or.inl a2), fun _ => trivial⟩
  rw [if_neg a2]
  by_cases a3 : -(dot (perp edge normal) (x - c) / norm3 (perp edge normal)) - ap / 2 ≥ 0
  · rw [if_pos a3]; exact ⟨fun _ => Or.inr (Or.inr a3), fun _ => trivial⟩
  rw [if_neg a3, if_pos (not_le.mp a1)]
  constructor
  · exact False.elim
  · rintro (k | k | k)
    exacts [a1 k, a2 k, a3 k]

/-- C139.  Asked without a pad, a predicate is true exactly for the points of the solid, for all solids built by unions, intersections,
differences and symmetric differences.  Missing: improper arguments, see `C139_violated_lefthanded` and `C139_violated_degenerate`. -/
theorem C139_set_partial {s : Solid} (h : s.Proper) (x : V3) : s.inside x 0 ↔ x ∈ s.set := by
  induction s with
  | union A B ihA ihB => rw [Solid.inside, Solid.set, ihA h.1, ihB h.2]; rfl
  | inter A B ihA ihB => rw [Solid.inside, Solid.set, ihA h.1, ihB h.2]; rfl
  | diff A B ihA ihB => rw [Solid.inside, Solid.set, neg_zero, ihA h.1, ihB h.2]; rfl
  | xor A B ihA ihB =>
    rw [Solid.inside, Solid.set, ihA h.1, ihB h.2, Set.mem_symmDiff]
    tauto
  | sphere center radius => rw [Solid.inside, Solid.set, sub_zero]; rfl
  | box mn mx =>
    rw [Solid.inside, Solid.set]
    simp only [add_zero, sub_zero, ge_iff_le]
    rfl
  | parallelepiped o a b c =>
    rw [Solid.Proper] at h
    obtain ⟨n1, n2, n3⟩ := cross_ne_zero_of_triple h.ne'
    obtain ⟨t1, t2⟩ := triple_rot (a - o) (b - o) (c - o)
    have hxa (n : V3) (p : V3) : dot (x - p) n = dot (x - o) n - dot (p - o) n := by
      rw [← dot_sub_left]; congr 1; abel
    rw [inside_piped, normalized_dot n1, normalized_dot n2, normalized_dot n3, normalized_dot n1, normalized_dot n2, normalized_dot n3,
      le_div_iff₀ (norm3_pos n1), le_div_iff₀ (norm3_pos n2), le_div_iff₀ (norm3_pos n3), div_le_iff₀ (norm3_pos n1),
      div_le_iff₀ (norm3_pos n2), div_le_iff₀ (norm3_pos n3), hxa _ a, hxa _ b, hxa _ c, t1, t2]
    simp only [zero_mul, neg_zero]
    set D := dot (a - o) (cross (b - o) (c - o)) with hD
    rw [Solid.set, Set.mem_setOf_eq]
    constructor
    · rintro ⟨k1, k2, k3, k4, k5, k6⟩
      refine ⟨dot (x - o) (cross (b - o) (c - o)) / D, dot (x - o) (cross (c - o) (a - o)) / D, dot (x - o) (cross (a - o) (b - o)) / D,
        ⟨div_nonneg k1 h.le, (div_le_one h).mpr (by linarith)⟩, ⟨div_nonneg k3 h.le, (div_le_one h).mpr (by linarith)⟩,
        ⟨div_nonneg k5 h.le, (div_le_one h).mpr (by linarith)⟩, ?_⟩
      have hc := cramer (a - o) (b - o) (c - o) (x - o)
      rw [← hD] at hc
      have : x - o = D⁻¹ • (D • (x - o)) := by rw [smul_smul, inv_mul_cancel₀ h.ne', one_smul]
      rw [hc, smul_add, smul_add, smul_smul, smul_smul, smul_smul] at this
      refine (add_sub_cancel o x).symm.trans ((congrArg (o + ·) this).trans ?_)
      simp only [div_eq_inv_mul]
      abel
    · rintro ⟨s, t, u, hs, ht, hu, rfl⟩
      have e : o + s • (a - o) + t • (b - o) + u • (c - o) - o = s • (a - o) + t • (b - o) + u • (c - o) := by abel
      have z1 : dot (b - o) (cross (b - o) (c - o)) = 0 := by simp [dot]; ring
      have z2 : dot (c - o) (cross (b - o) (c - o)) = 0 := by simp [dot]; ring
      have z3 : dot (a - o) (cross (c - o) (a - o)) = 0 := by simp [dot]; ring
      have z4 : dot (c - o) (cross (c - o) (a - o)) = 0 := by simp [dot]; ring
      have z5 : dot (a - o) (cross (a - o) (b - o)) = 0 := by simp [dot]; ring
      have z6 : dot (b - o) (cross (a - o) (b - o)) = 0 := by simp [dot]; ring
      rw [e]
      simp only [dot_add_left, dot_smul_l, z1, z2, z3, z4, z5, z6, t1, t2, ← hD, mul_zero, add_zero, zero_add]
      refine ⟨mul_nonneg hs.1 h.le, ?_, mul_nonneg ht.1 h.le, ?_, mul_nonneg hu.1 h.le, ?_⟩ <;> nlinarith [hs.2, ht.2, hu.2]
  | cylinder c1 c2 r =>
    rw [Solid.Proper] at h
    have hp := norm3_pos (sub_ne_zero.mpr (Ne.symm h))
    rw [inside_cylinder h, Solid.set, Set.mem_setOf_eq, sub_zero, sub_zero]
    constructor
    · rintro ⟨k1, k2, k3⟩
      obtain ⟨w, w1, w2, w3⟩ := axis_split h x
      exact ⟨_, w, ⟨div_nonneg k1 hp.le, (div_le_one hp).mpr k2⟩, w1, by rw [w3]; exact k3, w2⟩
    · rintro ⟨s, w, hs, hw, hr, rfl⟩
      rw [along_of_split h hw, axisDist_of_split h hw]
      exact ⟨mul_nonneg hs.1 hp.le, by nlinarith [hs.2], hr⟩
  | hyperboloid c1 c2 R a =>
    obtain ⟨h, h0, h1⟩ := h
    have hp := norm3_pos (sub_ne_zero.mpr (Ne.symm h))
    have hR : 0 ≤ R ^ 2 - a ^ 2 := by nlinarith
    rw [inside_hyperboloid h h0 h1, Solid.set, Set.mem_setOf_eq, sub_zero, sub_zero]
    constructor
    · rintro ⟨k1, k2, k3⟩
      obtain ⟨w, w1, w2, w3⟩ := axis_split h x
      refine ⟨_, w, ⟨div_nonneg k1 hp.le, (div_le_one hp).mpr k2⟩, w1, ?_, w2⟩
      rw [← w3, norm3_le_iff (Real.sqrt_nonneg _), Real.sq_sqrt (by positivity)] at k3
      exact k3
    · rintro ⟨s, w, hs, hw, hr, rfl⟩
      rw [along_of_split h hw, axisDist_of_split h hw, mul_div_assoc, div_self hp.ne', mul_one]
      refine ⟨mul_nonneg hs.1 hp.le, by nlinarith [hs.2], ?_⟩
      rw [norm3_le_iff (Real.sqrt_nonneg _), Real.sq_sqrt (by positivity)]
      exact hr
  | ellipsoid c abc =>
    rw [inside_ellipsoid (by intro i; rw [sub_zero]; exact h i), Solid.set, Set.mem_setOf_eq]
    simp only [sub_zero]
  | notch c edge normal ap => exact inside_notch_zero h

/-- C139 is violated by parallelepipeds whose edges form a left-handed system: no point is in them. -/
theorem C139_violated_lefthanded : ∃ s : Solid, s = .parallelepiped 0 ![1, 0, 0] ![0, 0, 1] ![0, 1, 0] ∧ ![0.5, 0.5, 0.5] ∈ s.set ∧
    ∀ x pad, 0 ≤ pad → ¬ s.inside x pad := by
  refine ⟨_, rfl, ?_, ?_⟩
  · rw [Solid.set, Set.mem_setOf_eq]
    refine ⟨0.5, 0.5, 0.5, by norm_num, by norm_num, by norm_num, ?_⟩
    apply v3_ext <;> simp
  · intro x pad hp h
    rw [inside_piped] at h
    have hn : cross ((![0, 0, 1] : V3) - 0) (![0, 1, 0] - 0) ≠ 0 := by
      intro e
      have := congrFun e 0
      simp at this
    have h1 := h.1
    have h2 := h.2.1
    rw [normalized_dot hn] at h1 h2
    have k1 : 0 ≤ dot (x - 0) (cross ((![0, 0, 1] : V3) - 0) (![0, 1, 0] - 0)) := by
      have := (le_div_iff₀ (norm3_pos hn)).mp (le_trans hp h1)
      linarith
    have k2 : dot (x - ![1, 0, 0]) (cross ((![0, 0, 1] : V3) - 0) (![0, 1, 0] - 0)) ≤ 0 := by
      have := (div_le_iff₀ (norm3_pos hn)).mp (le_trans h2 (neg_nonpos.mpr hp))
      linarith
    simp [dot] at k1 k2
    linarith

/-- C139 is violated by cylinders without height and hyperboloids with a skirt wider than their bases: all points, or all points between
the bases, are in them. -/
theorem C139_violated_degenerate (c x : V3) (r pad : ℝ) : (Solid.cylinder c c r).inside x pad ∧
    ∃ s : Solid, s = .hyperboloid 0 ![0, 0, 2] 1 2 ∧ ∀ a b : ℝ, s.inside ![a, b, 1] 0 := by
  constructor
  · rw [Solid.inside, if_pos (by rw [sub_self]; exact norm3_eq_zero.mpr rfl)]
    trivial
  · refine ⟨_, rfl, fun a b => ?_⟩
    have hn : norm3 ((![0, 0, 2] : V3) - 0) = 2 := by
      rw [norm3, show sqNorm ((![0, 0, 2] : V3) - 0) = 2 ^ 2 by simp [sqNorm, dot]; norm_num]
      exact Real.sqrt_sq (by norm_num)
    have ha : along 0 ![0, 0, 2] ![a, b, 1] = 1 := by
      rw [along_eq, hn]
      simp [dot]
    rw [Solid.inside, hn, ha, if_neg (by norm_num), if_neg (by norm_num)]
    have : skirt 2 1 2 1 = none := by
      rw [skirt, if_neg (by norm_num)]
      dsimp only
      rw [if_pos (by norm_num)]
    rw [this]
    trivial

end Verif.Pack
