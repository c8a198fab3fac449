import Verif.Pack.PredBoxProps

/-!
# C141: padding of solids
-/
namespace Verif.Pack
open Verif.Mech
open scoped Classical

/-- Solids without symmetric differences, hyperboloids, ellipsoids and notches. -/
def Solid.Plain : Solid → Prop
  | .union A B | .inter A B | .diff A B => A.Plain ∧ B.Plain
  | .xor _ _ | .hyperboloid _ _ _ _ | .ellipsoid _ _ | .notch _ _ _ _ => False
  | .sphere _ _ | .box _ _ | .parallelepiped _ _ _ _ | .cylinder _ _ _ => True

/-- Intersections of spheres, boxes, parallelepipeds and cylinders. -/
def Solid.Convex : Solid → Prop
  | .inter A B => A.Convex ∧ B.Convex
  | .union _ _ | .diff _ _ | .xor _ _ | .hyperboloid _ _ _ _ | .ellipsoid _ _ | .notch _ _ _ _ => False
  | .sphere _ _ | .box _ _ | .parallelepiped _ _ _ _ | .cylinder _ _ _ => True

/-- Moving by `d` costs `d` of the pad. -/
theorem pad_move {s : Solid} (h : s.Plain) : ∀ {x y : V3} {p d : ℝ}, s.inside x p → norm3 (y - x) ≤ d → s.inside y (p - d) := by
  induction s with
  | union A B ihA ihB =>
    intro x y p d hx hd
    rw [Solid.inside] at hx ⊢
    exact hx.imp (fun k => ihA h.1 k hd) (fun k => ihB h.2 k hd)
  | inter A B ihA ihB =>
    intro x y p d hx hd
    rw [Solid.inside] at hx ⊢
    exact hx.imp (fun k => ihA h.1 k hd) (fun k => ihB h.2 k hd)
  | diff A B ihA ihB =>
    intro x y p d hx hd
    rw [Solid.inside] at hx ⊢
    refine ⟨ihA h.1 hx.1 hd, fun k => hx.2 ?_⟩
    have := ihB h.2 k (y := x) (d := d) (by rw [norm3_nsub]; exact hd)
    rwa [show -(p - d) - d = -p by ring] at this
  | xor A B => exact h.elim
  | sphere c r =>
    intro x y p d hx hd
    rw [Solid.inside] at hx ⊢
    have := norm3_add_le (y - x) (x - c)
    rw [sub_add_sub_cancel] at this
    linarith
  | box mn mx =>
    intro x y p d hx hd
    rw [Solid.inside] at hx ⊢
    intro i
    have h1 := hx i
    have h2 := abs_le.mp ((comp_le (y - x) i).trans hd)
    rw [Pi.sub_apply] at h2
    constructor <;> linarith [h1.1, h1.2, h2.1, h2.2]
  | parallelepiped o a b c =>
    intro x y p d hx hd
    rw [inside_piped] at hx ⊢
    have mv (v n : V3) : |dot (y - v) (normalized n) - dot (x - v) (normalized n)| ≤ d := by
      rw [← dot_sub_left]
      have e : y - v - (x - v) = y - x := by abel
      rw [e]
      have h1 := abs_dot_le (y - x) (normalized n)
      have h2 := normalized_le n
      nlinarith [norm3_nonneg (y - x), norm3_nonneg (normalized n)]
    obtain ⟨h1, h2, h3, h4, h5, h6⟩ := hx
    refine ⟨?_, ?_, ?_, ?_, ?_, ?_⟩
    · linarith [(abs_le.mp (mv o (cross (b - o) (c - o)))).1]
    · linarith [(abs_le.mp (mv a (cross (b - o) (c - o)))).2]
    · linarith [(abs_le.mp (mv o (cross (c - o) (a - o)))).1]
    · linarith [(abs_le.mp (mv b (cross (c - o) (a - o)))).2]
    · linarith [(abs_le.mp (mv o (cross (a - o) (b - o)))).1]
    · linarith [(abs_le.mp (mv c (cross (a - o) (b - o)))).2]
  | cylinder c1 c2 r =>
    intro x y p d hx hd
    by_cases hc : c1 = c2
    · subst hc
      exact (C139_violated_degenerate _ _ _ _).1
    · rw [inside_cylinder hc] at hx ⊢
      have h1 := abs_le.mp ((along_move (c1 := c1) (c2 := c2)).trans hd)
      have h2 := axisDist_move (c1 := c1) (c2 := c2) (x := x) (y := y)
      refine ⟨?_, ?_, ?_⟩ <;> linarith [h1.1, h1.2, hx.1, hx.2.1, hx.2.2]
  | hyperboloid c1 c2 R a => exact h.elim
  | ellipsoid c abc => exact h.elim
  | notch c e n a => exact h.elim

/-- C141.  Where a predicate is true with a pad, the whole ball with the pad as radius is in the solid, for spheres, boxes,
parallelepipeds, cylinders, and unions, intersections and differences of them; and smaller pads are met, too.  Missing: the other solids,
see `C141_notch_partial` and the violations below. -/
theorem C141_ball_partial {s : Solid} (hp : s.Proper) (h : s.Plain) {x : V3} {pad : ℝ} (hx : s.inside x pad) :
    (∀ y, norm3 (y - x) ≤ pad → y ∈ s.set) ∧ ∀ p ≤ pad, s.inside x p := by
  refine ⟨fun y hy => ?_, fun p hle => ?_⟩
  · rw [← C139_set_partial hp, ← sub_self pad]
    exact pad_move h hx hy
  · have := pad_move h hx (y := x) (d := pad - p) (by rw [sub_self, norm3_eq_zero.mpr rfl]; linarith)
    rwa [sub_sub_cancel] at this

theorem exists_perp {h : V3} (hh : h ≠ 0) : ∃ p : V3, dot p h = 0 ∧ norm3 p = 1 := by
  by_cases k : h 0 = 0 ∧ h 1 = 0
  · refine ⟨![1, 0, 0], by simp [dot, k.1], ?_⟩
    simp [norm3, sqNorm, dot]
  · have hn : (![-h 1, h 0, 0] : V3) ≠ 0 := by
      intro e
      apply k
      have e0 := congrFun e 0
      have e1 := congrFun e 1
      simp at e0 e1
      exact ⟨e1, e0⟩
    refine ⟨normalized ![-h 1, h 0, 0], ?_, normalized_norm hn⟩
    rw [normalized, dot_smul_l]
    simp [dot]
    right
    ring

/-- A unit vector along `v`, or along any direction given if `v` is zero. -/
theorem exists_dir (v p : V3) (hp : norm3 p = 1) : ∃ u : V3, norm3 u = 1 ∧ v = norm3 v • u ∧ (v = 0 → u = p) := by
  by_cases h : v = 0
  · refine ⟨p, hp, ?_, fun _ => rfl⟩
    rw [h, norm3_eq_zero.mpr rfl, zero_smul]
  · refine ⟨normalized v, normalized_norm h, ?_, fun k => absurd k h⟩
    rw [normalized, smul_smul, mul_inv_cancel₀ (norm3_pos h).ne', one_smul]

/-- C141.  For intersections of spheres, boxes, parallelepipeds and cylinders the predicate is true with a pad exactly where the whole
ball is in the solid.  Missing: unions and differences, for which it may be false although the ball is in the solid. -/
theorem C141_exact_partial {s : Solid} (hp : s.Proper) (h : s.Convex) {x : V3} {pad : ℝ} (h0 : 0 ≤ pad) :
    s.inside x pad ↔ ∀ y, norm3 (y - x) ≤ pad → y ∈ s.set := by
  constructor
  · have hpl : s.Plain := by
      clear hp
      induction s with
      | inter A B ihA ihB => exact ⟨ihA h.1, ihB h.2⟩
      | sphere | box | parallelepiped | cylinder => trivial
      | _ => exact h.elim
    exact fun hx => (C141_ball_partial hp hpl hx).1
  intro hy
  have mv : ∀ u : V3, norm3 u = 1 → norm3 (x + pad • u - x) ≤ pad := by
    intro u hu
    rw [add_sub_cancel_left, norm3_smul', hu, abs_of_nonneg h0, mul_one]
  have mv' : ∀ u : V3, norm3 u = 1 → norm3 (x + (-pad) • u - x) ≤ pad := by
    intro u hu
    rw [add_sub_cancel_left, norm3_smul', hu, abs_neg, abs_of_nonneg h0, mul_one]
  induction s with
  | inter A B ihA ihB =>
    rw [Solid.inside]
    exact ⟨ihA hp.1 h.1 fun y k => (hy y k).1, ihB hp.2 h.2 fun y k => (hy y k).2⟩
  | sphere c r =>
    obtain ⟨u, u1, u2, -⟩ := exists_dir (x - c) ![1, 0, 0] (by simp [norm3, sqNorm, dot])
    have := hy _ (mv u u1)
    rw [Solid.set, Set.mem_setOf_eq] at this
    have e : x + pad • u - c = (norm3 (x - c) + pad) • u := by
      rw [add_smul, ← u2]; abel
    rw [e, norm3_smul', u1, abs_of_nonneg (add_nonneg (norm3_nonneg _) h0)] at this
    rw [Solid.inside]
    linarith
  | box mn mx =>
    rw [Solid.inside]
    intro i
    have hu : norm3 (Pi.single i 1 : V3) = 1 := by
      fin_cases i <;> simp [norm3, sqNorm, dot]
    have k1 := hy _ (mv _ hu)
    have k2 := hy _ (mv' _ hu)
    rw [Solid.set, Set.mem_setOf_eq] at k1 k2
    have k1 := (k1 i).2
    have k2 := (k2 i).1
    simp at k1 k2
    constructor <;> linarith
  | parallelepiped o a b c =>
    obtain ⟨n1, n2, n3⟩ := cross_ne_zero_of_triple (ne_of_gt hp)
    have st (n : V3) (hn : n ≠ 0) (v : V3) : dot (x + pad • normalized n - v) (normalized n) = dot (x - v) (normalized n) + pad ∧
        dot (x + (-pad) • normalized n - v) (normalized n) = dot (x - v) (normalized n) - pad := by
      have hd : dot (normalized n) (normalized n) = 1 := by
        have := norm3_sq (normalized n)
        rw [normalized_norm hn] at this
        rw [sqNorm] at this
        linarith
      constructor
      · rw [add_sub_right_comm, dot_add_left, dot_smul_l, hd]; ring
      · rw [add_sub_right_comm, dot_add_left, dot_smul_l, hd]; ring
    have ask (y : V3) (hy' : norm3 (y - x) ≤ pad) := inside_piped.mp ((C139_set_partial hp y).mpr (hy y hy'))
    rw [inside_piped]
    refine ⟨?_, ?_, ?_, ?_, ?_, ?_⟩
    · have := (ask _ (mv' _ (normalized_norm n1))).1
      rw [(st _ n1 o).2] at this; linarith
    · have := (ask _ (mv _ (normalized_norm n1))).2.1
      rw [(st _ n1 a).1] at this; linarith
    · have := (ask _ (mv' _ (normalized_norm n2))).2.2.1
      rw [(st _ n2 o).2] at this; linarith
    · have := (ask _ (mv _ (normalized_norm n2))).2.2.2.1
      rw [(st _ n2 b).1] at this; linarith
    · have := (ask _ (mv' _ (normalized_norm n3))).2.2.2.2.1
      rw [(st _ n3 o).2] at this; linarith
    · have := (ask _ (mv _ (normalized_norm n3))).2.2.2.2.2
      rw [(st _ n3 c).1] at this; linarith
  | cylinder c1 c2 r =>
    rw [Solid.Proper] at hp
    have hne : c2 - c1 ≠ 0 := sub_ne_zero.mpr (Ne.symm hp)
    have hpos := norm3_pos hne
    have ask (y : V3) (hy' : norm3 (y - x) ≤ pad) := (inside_cylinder hp).mp ((C139_set_partial (s := .cylinder c1 c2 r) hp y).mpr (hy y hy'))
    rw [inside_cylinder hp]
    have hdd : dot (c2 - c1) (c2 - c1) = norm3 (c2 - c1) * norm3 (c2 - c1) := (norm3_sq _).symm
    have al (k : ℝ) : along c1 c2 (x + k • normalized (c2 - c1)) = along c1 c2 x + k := by
      rw [along_eq, along_eq, add_sub_right_comm, dot_add_left, dot_smul_l, normalized, dot_smul_l, hdd]
      field_simp
    obtain ⟨w, w1, w2, w3⟩ := axis_split hp x
    obtain ⟨p, p1, p2⟩ := exists_perp hne
    obtain ⟨u, u1, u2, u3⟩ := exists_dir w p p2
    have hu : dot u (c2 - c1) = 0 := by
      by_cases hw : w = 0
      · rw [u3 hw]; exact p1
      · rw [u2, dot_smul_l] at w1
        rcases mul_eq_zero.mp w1 with k | k
        · exact absurd (norm3_eq_zero.mp k) hw
        · exact k
    refine ⟨?_, ?_, ?_⟩
    · have := (ask _ (mv' _ (normalized_norm hne))).1
      rw [al] at this; linarith
    · have := (ask _ (mv _ (normalized_norm hne))).2.1
      rw [al] at this; linarith
    · have := (ask _ (mv _ u1)).2.2
      have e : x + pad • u = c1 + (along c1 c2 x / norm3 (c2 - c1)) • (c2 - c1) + (norm3 w + pad) • u := by
        rw [add_smul, ← u2, ← add_assoc, ← w2]
      rw [e, axisDist_of_split hp (by rw [dot_smul_l, hu, mul_zero]), norm3_smul', u1,
        abs_of_nonneg (add_nonneg (norm3_nonneg _) h0)] at this
      linarith
  | _ => exact h.elim

/-! ## Notches -/

theorem notch_ortho {edge normal : V3} (h : cross edge normal ≠ 0) : dot (notchFrame edge normal).2.1 (notchFrame edge normal).2.1 = 1 ∧
    dot (notchFrame edge normal).2.2 (notchFrame edge normal).2.2 = 1 ∧ dot (notchFrame edge normal).2.1 (notchFrame edge normal).2.2 = 0 := by
  have he : edge ≠ 0 := by
    rintro rfl
    apply h
    apply v3_ext <;> simp
  have hm0 : normal - dot (normalized edge) normal • normalized edge ≠ 0 := by
    intro e
    have e' : normal = dot (normalized edge) normal • normalized edge := sub_eq_zero.mp e
    apply h
    rw [e']
    unfold normalized
    apply v3_ext <;> simp <;> ring
  have hE : dot (normalized edge) (normalized edge) = 1 := by
    have := norm3_sq (normalized edge)
    rw [normalized_norm he, sqNorm] at this
    linarith
  have hN : dot (notchFrame edge normal).2.1 (notchFrame edge normal).2.1 = 1 := by
    have := norm3_sq (notchFrame edge normal).2.1
    simp only [notchFrame] at this ⊢
    rw [normalized_norm hm0, sqNorm] at this
    linarith
  have hEN : dot (normalized edge) (notchFrame edge normal).2.1 = 0 := by
    simp only [notchFrame]
    rw [normalized, normalized, dot_smul_r]
    rw [← normalized, dot_sub_right, dot_smul_r, hE]
    ring
  refine ⟨hN, ?_, ?_⟩
  · have := sqNorm_crossed (normalized edge) (notchFrame edge normal).2.1
    simp only [sqNorm] at this
    rw [hE, hN, hEN] at this
    simp only [notchFrame] at this ⊢
    rw [this]; norm_num
  · simp only [notchFrame]
    simp [dot]
    ring

theorem bessel {n m v : V3} (hn : dot n n = 1) (hm : dot m m = 1) (hnm : dot n m = 0) : dot n v ^ 2 + dot m v ^ 2 ≤ sqNorm v := by
  have h := sqNorm_nonneg (v - dot n v • n - dot m v • m)
  have e : sqNorm (v - dot n v • n - dot m v • m) = sqNorm v - 2 * dot n v ^ 2 - 2 * dot m v ^ 2 + dot n v ^ 2 * dot n n + dot m v ^ 2 * dot m m +
      2 * dot n v * dot m v * dot n m := by
    simp only [sqNorm, dot, Pi.sub_apply, Pi.smul_apply, smul_eq_mul]
    ring
  rw [e, hn, hm, hnm] at h
  linarith

/-- C141, notches: above the middle of the notch, where the predicate is true with a pad, no point of the ball is in the notch.  Missing:
points below, see `C141_violated_notch`. -/
theorem C141_notch_partial {c edge normal : V3} {ap pad : ℝ} {x : V3} (h : cross edge normal ≠ 0) (ha : 0 ≤ ap) (h0 : 0 ≤ pad)
    (hup : 0 ≤ dot (perp edge normal) (x - c)) (hx : (Solid.notch c edge normal ap).inside x pad) (y : V3) (hy : norm3 (y - x) ≤ pad) :
    y ∈ (Solid.notch c edge normal ap).set := by
  rw [← C139_set_partial (s := .notch c edge normal ap) h]
  by_contra hy0
  obtain ⟨o1, o2, o3⟩ := notch_ortho h
  obtain ⟨hq, f1, -⟩ := notch_frame h (x - c)
  have hnx : 0 ≤ dot (notchFrame edge normal).2.1 (x - c) := by rw [f1]; exact div_nonneg hup hq.le
  set n := (notchFrame edge normal).2.1 with hn
  set m := (notchFrame edge normal).2.2 with hm
  have hb := bessel o1 o2 o3 (v := y - x)
  have hsq : sqNorm (y - x) ≤ pad ^ 2 := (norm3_le_iff h0).mp hy
  have e1 : dot n (y - x) = dot n (y - c) - dot n (x - c) := by rw [← dot_sub_right]; congr 1; abel
  have e2 : dot m (y - x) = dot m (y - c) - dot m (x - c) := by rw [← dot_sub_right]; congr 1; abel
  -- where y is
  have hy1 : 0 < dot m (y - c) ∧ dot n (y - c) < ap / 2 ∧ -(ap / 2) < dot n (y - c) := by
    rw [Solid.inside] at hy0
    simp only [← hn, ← hm] at hy0
    by_cases a1 : -dot m (y - c) ≥ 0
    · rw [if_pos a1] at hy0; exact (hy0 trivial).elim
    rw [if_neg a1] at hy0
    by_cases a2 : dot n (y - c) - ap / 2 ≥ 0
    · rw [if_pos a2] at hy0; exact (hy0 trivial).elim
    rw [if_neg a2] at hy0
    by_cases a3 : -dot n (y - c) - ap / 2 ≥ 0
    · rw [if_pos a3] at hy0; exact (hy0 trivial).elim
    refine ⟨?_, ?_, ?_⟩ <;> linarith
  rw [e1, e2] at hb
  rw [Solid.inside] at hx
  simp only [← hn, ← hm] at hx
  by_cases a1 : -dot m (x - c) ≥ pad
  · nlinarith [sq_nonneg (dot n (y - c) - dot n (x - c)), hy1.1]
  rw [if_neg a1] at hx
  by_cases a2 : dot n (x - c) - ap / 2 ≥ pad
  · nlinarith [sq_nonneg (dot m (y - c) - dot m (x - c)), hy1.2.1]
  rw [if_neg a2] at hx
  by_cases a3 : -dot n (x - c) - ap / 2 ≥ pad
  · nlinarith [sq_nonneg (dot m (y - c) - dot m (x - c)), hy1.2.2]
  rw [if_neg a3] at hx
  by_cases a4 : -dot m (x - c) < 0
  · rw [if_pos a4] at hx; exact hx
  rw [if_neg a4] at hx
  by_cases a5 : dot n (x - c) - ap / 2 > 0
  · rw [if_pos a5] at hx
    have hx2 := Real.le_sqrt' (lt_of_le_of_ne h0 (fun e => by linarith)) |>.mp hx
    nlinarith [hy1.1, hy1.2.1]
  rw [if_neg a5, if_neg (by linarith)] at hx
  exact hx

/-! ## Violations -/

theorem norm3_val {v : V3} {r : ℝ} (hr : 0 ≤ r) (h : sqNorm v = r ^ 2) : norm3 v = r := by
  rw [norm3, h, Real.sqrt_sq hr]

/-- C141 is violated by symmetric differences: in a shell, balls reach into the hole. -/
theorem C141_violated_xor : ∃ (s : Solid) (x y : V3), s = .xor (.sphere 0 2) (.sphere 0 1) ∧ s.inside x 0.5 ∧ norm3 (y - x) ≤ 0.5 ∧
    ¬ s.inside y 0 := by
  have n1 : norm3 (![1, 0, 0] - 0) = 1 := norm3_val (by norm_num) (by simp [sqNorm, dot])
  have n2 : norm3 (![0.75, 0, 0] - 0) = 0.75 := norm3_val (by norm_num) (by simp [sqNorm, dot]; norm_num)
  have n3 : norm3 (![0.75, 0, 0] - ![1, 0, 0]) = 0.25 := norm3_val (by norm_num) (by simp [sqNorm, dot]; norm_num)
  refine ⟨_, ![1, 0, 0], ![0.75, 0, 0], rfl, ?_, by rw [n3]; norm_num, ?_⟩
  · simp only [Solid.inside, n1]
    norm_num
  · simp only [Solid.inside, n2]
    norm_num

/-- C141 is violated by ellipsoids: the half axes are reduced by the pad, which leaves too little on the slopes; and pads larger than the
half axes enlarge the ellipsoid again. -/
theorem C141_violated_ellipsoid : (∃ (s : Solid) (x y : V3), s = .ellipsoid 0 ![2, 1, 1] ∧ s.inside x 0.5 ∧ norm3 (y - x) ≤ 0.5 ∧
      ¬ s.inside y 0) ∧ ∃ (s : Solid) (x y : V3), s = .ellipsoid 0 ![1, 1, 1] ∧ s.inside x 3 ∧ norm3 (y - x) ≤ 3 ∧ ¬ s.inside y 0 := by
  constructor
  · refine ⟨_, ![0.9, 0.4, 0], ![1.04, 0.88, 0], rfl, ?_, ?_, ?_⟩
    · rw [inside_ellipsoid (by intro i; fin_cases i <;> simp <;> norm_num)]
      simp
      norm_num
    · rw [norm3_val (r := 0.5) (by norm_num) (by simp [sqNorm, dot]; norm_num)]
    · rw [inside_ellipsoid (by intro i; fin_cases i <;> simp)]
      simp
      norm_num
  · refine ⟨_, 0, ![3, 0, 0], rfl, ?_, ?_, ?_⟩
    · rw [Solid.inside, if_neg (by simp; norm_num)]
      simp
      refine ⟨by norm_num, ?_⟩
      rw [norm3_eq_zero.mpr rfl]
      exact norm3_nonneg _
    · rw [norm3_val (r := 3) (by norm_num) (by simp [sqNorm, dot]; norm_num)]
    · rw [inside_ellipsoid (by intro i; fin_cases i <;> simp)]
      simp

/-- C141 is violated by hyperboloids: the pad is taken off perpendicular to the axis, not to the surface. -/
theorem C141_violated_hyperboloid : ∃ (s : Solid) (x y : V3), s = .hyperboloid ![0, 0, -1] ![0, 0, 1] 2 1 ∧ s.Proper ∧ s.inside x 0.1 ∧
    norm3 (y - x) ≤ 0.1 ∧ ¬ s.inside y 0 := by
  have hne : (![0, 0, -1] : V3) ≠ ![0, 0, 1] := by
    intro e
    have := congrFun e 2
    simp at this
    norm_num at this
  have hn : norm3 ((![0, 0, 1] : V3) - ![0, 0, -1]) = 2 := norm3_val (by norm_num) (by simp [sqNorm, dot]; norm_num)
  refine ⟨_, ![13 / 11 - 0.1, 0, 4 / 11], ![13 / 11 - 0.02, 0, 4 / 11 - 0.06], rfl, ⟨hne, by norm_num, by norm_num⟩, ?_, ?_, ?_⟩
  · have a1 : along ![0, 0, -1] ![0, 0, 1] ![13 / 11 - 0.1, 0, 4 / 11] = 15 / 11 := by
      rw [along_eq, hn]; simp [dot]; norm_num
    have a2 : axisDist ![0, 0, -1] ![0, 0, 1] ![13 / 11 - 0.1, 0, 4 / 11] = 13 / 11 - 0.1 := by
      rw [axisDist_eq, hn, norm3_val (r := 2 * (13 / 11 - 0.1)) (by norm_num) (by simp [sqNorm, dot]; norm_num)]
      ring
    rw [inside_hyperboloid hne (by norm_num) (by norm_num), hn, a1, a2]
    refine ⟨by norm_num, by norm_num, ?_⟩
    rw [show (1 : ℝ) ^ 2 + (2 ^ 2 - 1 ^ 2) * (2 * (15 / 11 / 2) - 1) ^ 2 = (13 / 11) ^ 2 by norm_num, Real.sqrt_sq (by norm_num)]
  · rw [norm3_val (r := 0.1) (by norm_num) (by simp [sqNorm, dot]; norm_num)]
  · have a1 : along ![0, 0, -1] ![0, 0, 1] ![13 / 11 - 0.02, 0, 4 / 11 - 0.06] = 15 / 11 - 0.06 := by
      rw [along_eq, hn]; simp [dot]; norm_num
    have a2 : axisDist ![0, 0, -1] ![0, 0, 1] ![13 / 11 - 0.02, 0, 4 / 11 - 0.06] = 13 / 11 - 0.02 := by
      rw [axisDist_eq, hn, norm3_val (r := 2 * (13 / 11 - 0.02)) (by norm_num) (by simp [sqNorm, dot]; norm_num)]
      ring
    rw [inside_hyperboloid hne (by norm_num) (by norm_num), hn, a1, a2]
    rintro ⟨-, -, k⟩
    rw [sub_zero, Real.le_sqrt' (by norm_num)] at k
    norm_num at k

/-- C141 is violated by notches: near their lower edge the distance from the upper plane is used instead of the one from the lower. -/
theorem C141_violated_notch : ∃ (s : Solid) (x y : V3), s = .notch 0 ![1, 0, 0] ![0, 1, 0] 2 ∧ s.Proper ∧ s.inside x 1 ∧
    norm3 (y - x) ≤ 1 ∧ ¬ s.inside y 0 := by
  have n1 : norm3 ![1, 0, 0] = 1 := norm3_val (by norm_num) (by simp [sqNorm, dot])
  have n2 : norm3 ![0, 1, 0] = 1 := norm3_val (by norm_num) (by simp [sqNorm, dot])
  have e1 : normalized ![1, 0, 0] = ![1, 0, 0] := by rw [normalized, n1]; simp
  have e2 : normalized ![0, 1, 0] = ![0, 1, 0] := by rw [normalized, n2]; simp
  have hf : notchFrame ![1, 0, 0] ![0, 1, 0] = (![1, 0, 0], ![0, 1, 0], ![0, 0, 1]) := by
    have hd : dot (![1, 0, 0] : V3) ![0, 1, 0] = 0 := by simp [dot]
    simp only [notchFrame, e1, hd, zero_smul, sub_zero, e2]
    congr 2
    apply v3_ext <;> simp
  refine ⟨_, ![0, -1.1, -0.1], ![0, -0.95, 0.05], rfl, ?_, ?_, ?_, ?_⟩
  · rw [Solid.Proper]
    intro e
    have := congrFun e 2
    simp at this
  · rw [Solid.inside, hf]
    simp only [dot, sub_zero]
    simp
    norm_num
  · rw [norm3_le_iff (by norm_num)]
    simp [sqNorm, dot]
    norm_num
  · rw [Solid.inside, hf]
    simp only [dot, sub_zero]
    simp
    norm_num

/-- Hypotheses of `C141_ball_partial` met: a ball in a block with a hole. -/
example : ∃ s : Solid, s = .diff (.box 0 ![4, 4, 4]) (.sphere 0 1) ∧ s.Proper ∧ s.Plain ∧ s.inside ![2, 2, 2] 1 := by
  refine ⟨_, rfl, ⟨trivial, trivial⟩, ⟨trivial, trivial⟩, ?_⟩
  rw [Solid.inside]
  constructor
  · rw [Solid.inside]
    intro i
    fin_cases i <;> simp <;> norm_num
  · rw [Solid.inside]
    intro h
    have h := (norm3_le_iff (by norm_num)).mp h
    simp [sqNorm, dot] at h
    norm_num at h

/-- Hypotheses of `C141_exact_partial` and `C141_notch_partial` met. -/
example : (∃ s : Solid, s = .inter (.box 0 ![4, 4, 4]) (.cylinder ![2, 2, 0] ![2, 2, 4] 1) ∧ s.Proper ∧ s.Convex) ∧
    cross (![1, 0, 0] : V3) ![0, 1, 0] ≠ 0 := by
  refine ⟨⟨_, rfl, ⟨trivial, ?_⟩, ⟨trivial, trivial⟩⟩, ?_⟩
  · intro e
    have := congrFun e 2
    simp at this
  · intro e
    have := congrFun e 2
    simp at this

end Verif.Pack
