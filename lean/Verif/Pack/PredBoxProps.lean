import Verif.Pack.PredProps

/-!
# C140: bounding boxes of solids
-/
namespace Verif.Pack
open Verif.Mech
open scoped Classical

theorem foldl_min_le {f : Fin 8 → ℝ} : ∀ (l : List (Fin 8)) (m : ℝ), l.foldl (fun m k => min m (f k)) m ≤ m ∧
    ∀ k ∈ l, l.foldl (fun m k => min m (f k)) m ≤ f k
  | [], m => ⟨le_refl m, fun _ h => by simp at h⟩
  | a :: l, m => by
    obtain ⟨h1, h2⟩ := foldl_min_le (f := f) l (min m (f a))
    rw [List.foldl_cons]
    refine ⟨h1.trans (min_le_left _ _), ?_⟩
    intro k hk
    rcases List.mem_cons.mp hk with rfl | hk
    · exact h1.trans (min_le_right _ _)
    · exact h2 k hk

theorem le_foldl_max {f : Fin 8 → ℝ} : ∀ (l : List (Fin 8)) (m : ℝ), m ≤ l.foldl (fun m k => max m (f k)) m ∧
    ∀ k ∈ l, f k ≤ l.foldl (fun m k => max m (f k)) m
  | [], m => ⟨le_refl m, fun _ h => by simp at h⟩
  | a :: l, m => by
    obtain ⟨h1, h2⟩ := le_foldl_max (f := f) l (max m (f a))
    rw [List.foldl_cons]
    refine ⟨(le_max_left _ _).trans h1, ?_⟩
    intro k hk
    rcases List.mem_cons.mp hk with rfl | hk
    · exact (le_max_right _ _).trans h1
    · exact h2 k hk

/-- A convex combination of edges lies between the extreme vertices. -/
theorem combo_between {o a b c s t u L U : ℝ} (hs : 0 ≤ s ∧ s ≤ 1) (ht : 0 ≤ t ∧ t ≤ 1) (hu : 0 ≤ u ∧ u ≤ 1)
    (v : Fin 8 → ℝ) (hv : v = ![o, a, a + (b - o), b, c, c + (a - o), c + (a - o) + (b - o), c + (b - o)])
    (hL : ∀ k, L ≤ v k) (hU : ∀ k, v k ≤ U) :
    L ≤ o + s * (a - o) + t * (b - o) + u * (c - o) ∧ o + s * (a - o) + t * (b - o) + u * (c - o) ≤ U := by
  have l0 := hL 0
  have l1 := hL 1
  have l2 := hL 2
  have l3 := hL 3
  have l4 := hL 4
  have l5 := hL 5
  have l6 := hL 6
  have l7 := hL 7
  have u0 := hU 0
  have u1 := hU 1
  have u2 := hU 2
  have u3 := hU 3
  have u4 := hU 4
  have u5 := hU 5
  have u6 := hU 6
  have u7 := hU 7
  subst hv
  simp at l0 l1 l2 l3 l4 l5 l6 l7 u0 u1 u2 u3 u4 u5 u6 u7
  have bnd : ∀ s X : ℝ, 0 ≤ s ∧ s ≤ 1 → (0 ≤ X → 0 ≤ s * X ∧ s * X ≤ X) ∧ (X ≤ 0 → X ≤ s * X ∧ s * X ≤ 0) := by
    intro s X h
    constructor <;> intro hX <;> constructor <;> nlinarith [h.1, h.2]
  obtain ⟨p1, p2⟩ := bnd s (a - o) hs
  obtain ⟨q1, q2⟩ := bnd t (b - o) ht
  obtain ⟨r1, r2⟩ := bnd u (c - o) hu
  rcases le_total 0 (a - o) with ha | ha <;> rcases le_total 0 (b - o) with hb | hb <;> rcases le_total 0 (c - o) with hc | hc <;>
    (first | (have P := p1 ha) | (have P := p2 ha)) <;> (first | (have Q := q1 hb) | (have Q := q2 hb)) <;>
    (first | (have R := r1 hc) | (have R := r2 hc)) <;> constructor <;> linarith [P.1, P.2, Q.1, Q.2, R.1, R.2]

theorem perp_comp {w h : V3} (hw : dot w h = 0) : w 0 ^ 2 * sqNorm h ≤ sqNorm w * (h 1 ^ 2 + h 2 ^ 2) ∧
    w 1 ^ 2 * sqNorm h ≤ sqNorm w * (h 0 ^ 2 + h 2 ^ 2) ∧ w 2 ^ 2 * sqNorm h ≤ sqNorm w * (h 0 ^ 2 + h 1 ^ 2) := by
  unfold dot at hw
  unfold sqNorm dot
  have e0 : (w 0 * h 0) ^ 2 = (w 1 * h 1 + w 2 * h 2) ^ 2 := by
    have : w 0 * h 0 = -(w 1 * h 1 + w 2 * h 2) := by linarith
    rw [this]; ring
  have e1 : (w 1 * h 1) ^ 2 = (w 0 * h 0 + w 2 * h 2) ^ 2 := by
    have : w 1 * h 1 = -(w 0 * h 0 + w 2 * h 2) := by linarith
    rw [this]; ring
  have e2 : (w 2 * h 2) ^ 2 = (w 0 * h 0 + w 1 * h 1) ^ 2 := by
    have : w 2 * h 2 = -(w 0 * h 0 + w 1 * h 1) := by linarith
    rw [this]; ring
  refine ⟨?_, ?_, ?_⟩
  · nlinarith [sq_nonneg (w 1 * h 2 - w 2 * h 1)]
  · nlinarith [sq_nonneg (w 0 * h 2 - w 2 * h 0)]
  · nlinarith [sq_nonneg (w 0 * h 1 - w 1 * h 0)]

/-- Points around an axis, not farther from it than `r`, lie in the box of the cylinder. -/
theorem cylinder_in_box {c1 c2 w : V3} {r s : ℝ} (h : c1 ≠ c2) (hs : 0 ≤ s ∧ s ≤ 1) (hw : dot w (c2 - c1) = 0) (hr : norm3 w ≤ r) :
    ∃ mn mx, cylinderBox c1 c2 r = some (mn, mx) ∧ ∀ i, mn i ≤ ((c1 + s • (c2 - c1) + w) i : EReal) ∧ ((c1 + s • (c2 - c1) + w) i : EReal) ≤ mx i := by
  have hp := norm3_pos (sub_ne_zero.mpr (Ne.symm h))
  have hr0 : 0 ≤ r := (norm3_nonneg w).trans hr
  rw [cylinderBox, if_neg hp.ne']
  refine ⟨_, _, rfl, ?_⟩
  have hk : ∀ i, |w i| ≤ r * (![Real.sqrt ((c1 1 - c2 1) ^ 2 + (c1 2 - c2 2) ^ 2) / norm3 (c2 - c1),
      Real.sqrt ((c1 0 - c2 0) ^ 2 + (c1 2 - c2 2) ^ 2) / norm3 (c2 - c1),
      Real.sqrt ((c1 0 - c2 0) ^ 2 + (c1 1 - c2 1) ^ 2) / norm3 (c2 - c1)] : V3) i := by
    have one : ∀ x K : ℝ, 0 ≤ K → x ^ 2 * sqNorm (c2 - c1) ≤ sqNorm w * K → |x| ≤ r * (Real.sqrt K / norm3 (c2 - c1)) := by
      intro x K hK hx
      rw [← mul_div_assoc, le_div_iff₀ hp]
      apply abs_le_of_sq_le_sq' _ (by positivity) |>.2
      rw [mul_pow, mul_pow, sq_abs, Real.sq_sqrt hK, sq (norm3 _), norm3_sq]
      refine hx.trans (mul_le_mul_of_nonneg_right ?_ hK)
      rw [← norm3_sq, sq]
      exact mul_self_le_mul_self (norm3_nonneg w) hr
    obtain ⟨k0, k1, k2⟩ := perp_comp hw
    simp only [Pi.sub_apply] at k0 k1 k2
    intro i
    fin_cases i
    · refine one _ _ (by positivity) (k0.trans_eq ?_); ring
    · refine one _ _ (by positivity) (k1.trans_eq ?_); ring
    · refine one _ _ (by positivity) (k2.trans_eq ?_); ring
  intro i
  have hi := abs_le.mp (hk i)
  simp only [fin, EReal.coe_le_coe_iff, Pi.add_apply, Pi.smul_apply, Pi.sub_apply, smul_eq_mul]
  have b1 : min (c1 i) (c2 i) ≤ c1 i + s * (c2 i - c1 i) := by
    rcases le_total (c1 i) (c2 i) with k | k
    · rw [min_eq_left k]; nlinarith [hs.1]
    · rw [min_eq_right k]; nlinarith [hs.2]
  have b2 : c1 i + s * (c2 i - c1 i) ≤ max (c1 i) (c2 i) := by
    rcases le_total (c1 i) (c2 i) with k | k
    · rw [max_eq_right k]; nlinarith [hs.2]
    · rw [max_eq_left k]; nlinarith [hs.1]
  constructor <;> linarith [hi.1, hi.2]

/-- C140.  The box of a solid contains all points of the solid, and the predicate is true only in the box, for all solids built by set
operations.  Missing: improper arguments, see `C140_violated`. -/
theorem C140_box_partial {s : Solid} (h : s.Proper) {x : V3} (hx : s.inside x 0) :
    ∃ mn mx, s.aabb = some (mn, mx) ∧ ∀ i, mn i ≤ (x i : EReal) ∧ (x i : EReal) ≤ mx i := by
  have both : ∀ s : Solid, s.Proper → (∃ mn mx, s.aabb = some (mn, mx)) ∧
      (s.inside x 0 → ∃ mn mx, s.aabb = some (mn, mx) ∧ ∀ i, mn i ≤ (x i : EReal) ∧ (x i : EReal) ≤ mx i) := by
    intro s
    induction s with
    | union A B ihA ihB =>
      intro h
      obtain ⟨⟨a1, a2, ha⟩, kA⟩ := ihA h.1
      obtain ⟨⟨b1, b2, hb⟩, kB⟩ := ihB h.2
      have e : (Solid.union A B).aabb = some (fun i => min (a1 i) (b1 i), fun i => max (a2 i) (b2 i)) := by
        rw [Solid.aabb, ha, hb]; rfl
      refine ⟨⟨_, _, e⟩, fun k => ⟨_, _, e, ?_⟩⟩
      rw [Solid.inside] at k
      rcases k with k | k
      · obtain ⟨m1, m2, e1, e2⟩ := kA k
        rw [ha] at e1
        obtain ⟨rfl, rfl⟩ := Prod.mk.inj (Option.some.inj e1)
        exact fun i => ⟨(min_le_left _ _).trans (e2 i).1, (e2 i).2.trans (le_max_left _ _)⟩
      · obtain ⟨m1, m2, e1, e2⟩ := kB k
        rw [hb] at e1
        obtain ⟨rfl, rfl⟩ := Prod.mk.inj (Option.some.inj e1)
        exact fun i => ⟨(min_le_right _ _).trans (e2 i).1, (e2 i).2.trans (le_max_right _ _)⟩
    | inter A B ihA ihB =>
      intro h
      obtain ⟨⟨a1, a2, ha⟩, kA⟩ := ihA h.1
      obtain ⟨⟨b1, b2, hb⟩, kB⟩ := ihB h.2
      have e : (Solid.inter A B).aabb = some (fun i => max (a1 i) (b1 i), fun i => min (a2 i) (b2 i)) := by
        rw [Solid.aabb, ha, hb]; rfl
      refine ⟨⟨_, _, e⟩, fun k => ⟨_, _, e, ?_⟩⟩
      rw [Solid.inside] at k
      obtain ⟨m1, m2, e1, e2⟩ := kA k.1
      rw [ha] at e1
      obtain ⟨rfl, rfl⟩ := Prod.mk.inj (Option.some.inj e1)
      obtain ⟨m3, m4, e3, e4⟩ := kB k.2
      rw [hb] at e3
      obtain ⟨rfl, rfl⟩ := Prod.mk.inj (Option.some.inj e3)
      exact fun i => ⟨max_le (e2 i).1 (e4 i).1, le_min (e2 i).2 (e4 i).2⟩
    | diff A B ihA ihB =>
      intro h
      obtain ⟨kA, kA'⟩ := ihA h.1
      refine ⟨kA, fun k => ?_⟩
      rw [Solid.inside] at k
      exact kA' k.1
    | xor A B ihA ihB =>
      intro h
      obtain ⟨⟨a1, a2, ha⟩, kA⟩ := ihA h.1
      obtain ⟨⟨b1, b2, hb⟩, kB⟩ := ihB h.2
      have e : (Solid.xor A B).aabb = some (fun i => min (a1 i) (b1 i), fun i => max (a2 i) (b2 i)) := by
        rw [Solid.aabb, ha, hb]; rfl
      refine ⟨⟨_, _, e⟩, fun k => ⟨_, _, e, ?_⟩⟩
      rw [Solid.inside] at k
      rcases k with ⟨k, -⟩ | ⟨-, k⟩
      · obtain ⟨m1, m2, e1, e2⟩ := kA k
        rw [ha] at e1
        obtain ⟨rfl, rfl⟩ := Prod.mk.inj (Option.some.inj e1)
        exact fun i => ⟨(min_le_left _ _).trans (e2 i).1, (e2 i).2.trans (le_max_left _ _)⟩
      · obtain ⟨m1, m2, e1, e2⟩ := kB k
        rw [hb] at e1
        obtain ⟨rfl, rfl⟩ := Prod.mk.inj (Option.some.inj e1)
        exact fun i => ⟨(min_le_right _ _).trans (e2 i).1, (e2 i).2.trans (le_max_right _ _)⟩
    | sphere c r =>
      intro h
      refine ⟨⟨_, _, rfl⟩, fun k => ⟨_, _, rfl, fun i => ?_⟩⟩
      rw [Solid.inside, sub_zero] at k
      have := abs_le.mp ((comp_le (x - c) i).trans k)
      rw [Pi.sub_apply] at this
      simp only [fin, EReal.coe_le_coe_iff]
      constructor <;> linarith [this.1, this.2]
    | box mn mx =>
      intro h
      refine ⟨⟨_, _, rfl⟩, fun k => ⟨_, _, rfl, fun i => ?_⟩⟩
      rw [Solid.inside] at k
      have := k i
      simp only [fin, EReal.coe_le_coe_iff]
      constructor <;> linarith [this.1, this.2]
    | parallelepiped o a b c =>
      intro h
      refine ⟨⟨_, _, rfl⟩, fun k => ⟨_, _, rfl, fun i => ?_⟩⟩
      rw [C139_set_partial h, Solid.set] at k
      obtain ⟨s, t, u, hs, ht, hu, rfl⟩ := k
      simp only [fin, EReal.coe_le_coe_iff, Pi.add_apply, Pi.smul_apply, Pi.sub_apply, smul_eq_mul]
      refine combo_between hs ht hu (fun k => pipedVertices o a b c k i) ?_ (fun k => ?_) (fun k => ?_)
      · funext k
        fin_cases k <;> rfl
      · exact (foldl_min_le (f := fun k => pipedVertices o a b c k i) _ _).2 k (List.mem_finRange k)
      · exact (le_foldl_max (f := fun k => pipedVertices o a b c k i) _ _).2 k (List.mem_finRange k)
    | cylinder c1 c2 r =>
      intro h
      constructor
      · rw [Solid.aabb, cylinderBox]
        rw [if_neg (norm3_pos (sub_ne_zero.mpr (Ne.symm h))).ne']
        exact ⟨_, _, rfl⟩
      · intro k
        rw [C139_set_partial h, Solid.set] at k
        obtain ⟨s, w, hs, hw, hr, rfl⟩ := k
        exact cylinder_in_box h hs hw hr
    | hyperboloid c1 c2 R a =>
      intro h
      constructor
      · rw [Solid.aabb, cylinderBox]
        rw [if_neg (norm3_pos (sub_ne_zero.mpr (Ne.symm h.1))).ne']
        exact ⟨_, _, rfl⟩
      · intro k
        rw [C139_set_partial h, Solid.set] at k
        obtain ⟨s, w, hs, hw, hr, rfl⟩ := k
        refine cylinder_in_box h.1 hs hw ?_
        rw [norm3_le_iff (h.2.1.le.trans h.2.2)]
        have h1 : (2 * s - 1) ^ 2 ≤ 1 := by nlinarith [hs.1, hs.2]
        have h2 : 0 ≤ R ^ 2 - a ^ 2 := by nlinarith [h.2.1, h.2.2]
        nlinarith
    | ellipsoid c abc =>
      intro h
      refine ⟨⟨_, _, rfl⟩, fun k => ⟨_, _, rfl, fun i => ?_⟩⟩
      rw [C139_set_partial h, Solid.set, Set.mem_setOf_eq] at k
      have h1 : |(x i - c i) / abc i| ≤ 1 := by
        rw [abs_le_one_iff_mul_self_le_one]
        fin_cases i <;> simp only [Fin.zero_eta, Fin.mk_one, Fin.reduceFinMk] <;>
          nlinarith [sq_nonneg ((x 0 - c 0) / abc 0), sq_nonneg ((x 1 - c 1) / abc 1), sq_nonneg ((x 2 - c 2) / abc 2)]
      rw [abs_div, abs_of_pos (h i), div_le_one (h i), abs_le] at h1
      simp only [fin, EReal.coe_le_coe_iff]
      constructor <;> linarith [h1.1, h1.2]
    | notch c e n a =>
      intro h
      exact ⟨⟨_, _, rfl⟩, fun k => ⟨_, _, rfl, fun i => ⟨bot_le, le_top⟩⟩⟩
  exact (both s h).2 hx

/-- C140 is violated by parallelepipeds with coplanar edges, which are whole planes, by flat ellipsoids, and by cylinders without height, which
contain everything and whose box is not made of numbers. -/
theorem C140_violated : (∃ (s : Solid) (x : V3) (mx : Fin 3 → EReal) (mn : Fin 3 → EReal),
      s = .parallelepiped 0 ![1, 0, 0] ![0, 1, 0] ![1, 1, 0] ∧ s.inside x 0 ∧ s.aabb = some (mn, mx) ∧ mx 0 < x 0) ∧
    (∃ (s : Solid) (x : V3) (mx : Fin 3 → EReal) (mn : Fin 3 → EReal),
      s = .ellipsoid 0 ![0, 1, 1] ∧ s.inside x 0 ∧ s.aabb = some (mn, mx) ∧ mx 1 < x 1) ∧
    ∀ (c x : V3) (r : ℝ), (Solid.cylinder c c r).inside x 0 ∧ (Solid.cylinder c c r).aabb = none := by
  refine ⟨⟨_, ![100, 100, 0], _, _, rfl, ?_, rfl, ?_⟩, ⟨_, ![0, 100, 0], _, _, rfl, ?_, rfl, ?_⟩, ?_⟩
  · rw [inside_piped]
    simp [dot, normalized]
  · simp only [fin]
    rw [EReal.coe_lt_coe_iff]
    simp [List.finRange_succ, pipedVertices]
    norm_num
  · rw [Solid.inside, if_neg (by simp)]
    simp [norm3]
  · simp only [fin]
    rw [EReal.coe_lt_coe_iff]
    simp
  · intro c x r
    refine ⟨(C139_violated_degenerate c x r 0).1, ?_⟩
    rw [Solid.aabb, cylinderBox]
    rw [if_pos (by rw [sub_self]; exact norm3_eq_zero.mpr rfl)]

/-- Hypotheses of `C139_set_partial` and `C140_box_partial` met: a block with a hole, joined with a leaning parallelepiped. -/
example : ∃ s : Solid, s = .union (.diff (.box 0 ![4, 4, 4]) (.cylinder ![2, 2, 0] ![2, 2, 4] 1)) (.parallelepiped 0 ![1, 0, 0] ![1, 1, 0] ![0, 0, 1]) ∧
    s.Proper ∧ s.inside ![0.5, 0.5, 0.5] 0 := by
  refine ⟨_, rfl, ⟨⟨trivial, ?_⟩, ?_⟩, ?_⟩
  · intro e
    have := congrFun e 2
    simp at this
  · rw [Solid.Proper]
    simp [dot]
  · have hp : (Solid.parallelepiped 0 ![1, 0, 0] ![1, 1, 0] ![0, 0, 1]).Proper := by
      rw [Solid.Proper]; simp [dot]
    rw [Solid.inside]
    right
    rw [C139_set_partial hp, Solid.set]
    refine ⟨0, 0.5, 0.5, by norm_num, by norm_num, by norm_num, ?_⟩
    apply v3_ext <;> simp

end Verif.Pack
