import Verif.Pack.SizeLemmas
import Verif.Drive.TableProps
import Mathlib.Analysis.SpecialFunctions.Integrals.Basic

/-!
# C135, C136 and C138: sizes of the spheres of random packings
-/
namespace Verif.Pack
open Verif.Mech
open scoped Classical
open Verif.Drive (OnCurve)

/-! ## Specification -/

/-- The place in the size distribution of the `i`-th sphere made is `x`: evenly spread from large to small when the number of spheres is
given, else any number. -/
def PlaceOf (num : Int) (i : Nat) (x : ℝ) : Prop := 0 ≤ x ∧ x < 1 ∧ (num > 0 → x = ((num : ℝ) - i + 0.5) / (num + 1))

/-- How many spheres there are (up to a common factor) with diameters from the first to `d`, which is in the `k`-th interval, when the
cumulated mass fraction grows linearly between the given sizes: mass divided by the mass of one sphere, integrated. -/
noncomputable def countTo : List ℝ → List ℝ → Nat → ℝ → ℝ
  | s0 :: s1 :: _, c0 :: c1 :: _, 0, d => ∫ t in s0..d, (c1 - c0) / (s1 - s0) / t ^ 3
  | s0 :: s1 :: ss, c0 :: c1 :: cs, k + 1, d => (∫ t in s0..s1, (c1 - c0) / (s1 - s0) / t ^ 3) + countTo (s1 :: ss) (c1 :: cs) k d
  | _, _, _, _ => 0

/-! ## Lemmas -/

theorem count_piece {s0 d w : ℝ} (h0 : 0 < s0) (hd : s0 ≤ d) :
    ∫ t in s0..d, w / t ^ 3 = w / 2 * (1 / s0 ^ 2 - 1 / d ^ 2) := by
  have hd' : 0 < d := lt_of_lt_of_le h0 hd
  have h1 : ∀ t : ℝ, w / t ^ 3 = w * t ^ (-3 : ℤ) := by
    intro t
    rw [zpow_neg, div_eq_mul_inv]
    norm_cast
  simp only [h1]
  rw [intervalIntegral.integral_const_mul, integral_zpow (Or.inr ⟨by norm_num, by
    rw [Set.uIcc_of_le hd]
    exact fun h => absurd h.1 (not_le.mpr h0)⟩)]
  norm_num [zpow_neg]
  ring

theorem massCumm_piece {V poro acc : ℝ} {ss cs l : List ℝ} (hs : ss.Pairwise (· ≤ ·)) (hs0 : ∀ s ∈ ss, 0 ≤ s)
    (h : massCumm V poro acc ss cs = .ok l) {k : Nat} {u v s0 s1 : ℝ} (hu : (acc :: l)[k]? = some u) (hv : l[k]? = some v)
    (h0 : ss[k]? = some s0) (h1 : ss[k + 1]? = some s1) : 0 < s0 ∧ s0 < s1 ∧ ∀ d, s0 ≤ d →
      6 * V * (1 - poro) / Real.pi * countTo ss cs k d = (u - acc) + (v - u) * ((1 / s0 ^ 2 - 1 / d ^ 2) / (1 / s0 ^ 2 - 1 / s1 ^ 2)) := by
  induction ss generalizing acc cs l k with
  | nil => cases h0
  | cons p ss ih =>
    cases ss with
    | nil => simp at h1
    | cons q ss =>
      match cs, h with
      | [], h => rw [massCumm] at h; cases h; cases hv; simp
      | [c], h => rw [massCumm] at h; cases h; cases hv; simp
      | c0 :: c1 :: cs, h =>
        rw [massCumm] at h
        obtain ⟨d, h2, h⟩ := bind_eq_ok h
        obtain ⟨p0, h3, h⟩ := bind_eq_ok h
        obtain ⟨p1, h4, h⟩ := bind_eq_ok h
        obtain ⟨l', h5, h⟩ := bind_eq_ok h
        obtain ⟨n2, rfl⟩ := quot_ok h2
        obtain ⟨n3, rfl⟩ := quot_ok h3
        obtain ⟨n4, rfl⟩ := quot_ok h4
        have a1 : p ≤ q := (List.pairwise_cons.mp hs).1 q (by simp)
        have a3 : 0 < p := lt_of_le_of_ne (hs0 p (by simp)) (by rintro rfl; simp at n3)
        have a4 : p < q := lt_of_le_of_ne a1 (by rintro rfl; simp at n2)
        have a5 : 0 < q := lt_trans a3 a4
        have a6 : 1 / p ^ 2 - 1 / q ^ 2 ≠ 0 := by
          have : 1 / q ^ 2 < 1 / p ^ 2 := one_div_lt_one_div_of_lt (by positivity) (pow_lt_pow_left₀ a4 a3.le (by norm_num))
          linarith
        cases h
        cases k with
        | zero =>
          simp only [List.getElem?_cons_zero, Option.some.injEq, zero_add, List.getElem?_cons_succ] at hu hv h0 h1
          subst hu hv h0 h1
          refine ⟨a3, a4, fun d hd => ?_⟩
          rw [countTo, count_piece a3 hd]
          generalize 1 / p ^ 2 - 1 / q ^ 2 = X at a6 ⊢
          generalize 1 / p ^ 2 - 1 / d ^ 2 = Y
          have hX : X * (Y / X) = Y := mul_div_cancel₀ _ a6
          linear_combination (-(3 * V * (1 - poro) / Real.pi * (c1 - c0) * (1 / (q - p)))) * hX
        | succ k =>
          simp only [List.getElem?_cons_succ] at hu hv h0 h1
          obtain ⟨b1, b2, b3⟩ := ih hs.of_cons (fun s h => hs0 s (List.mem_cons_of_mem _ h)) h5 hu hv h0 h1
          refine ⟨b1, b2, fun d hd => ?_⟩
          have b4 := b3 d hd
          rw [countTo, count_piece a3 a1, mul_add, b4]
          ring

theorem norm_mono {c0 c1 x y : ℝ} (h : c0 < c1) (hxy : x ≤ y) : (x - c0) / (c1 - c0) ≤ (y - c0) / (c1 - c0) :=
  div_le_div_of_nonneg_right (by linarith) (by linarith)

theorem sorted_get {l : List ℝ} (h : l.Pairwise (· ≤ ·)) {i j : Nat} {x y : ℝ} (hi : l[i]? = some x) (hj : l[j]? = some y) (hij : i ≤ j) :
    x ≤ y := by
  obtain ⟨h1, rfl⟩ := List.getElem?_eq_some_iff.mp hi
  obtain ⟨h2, rfl⟩ := List.getElem?_eq_some_iff.mp hj
  rcases Nat.lt_or_eq_of_le hij with h3 | rfl
  · exact List.pairwise_iff_getElem.mp h i j h1 h2 h3
  · exact le_rfl

/-- Radii from a size distribution: which piece, between which radii; larger places have larger radii. -/
theorem psd_radius {a : Args} {radii cumm : List ℝ} (hr : radii.Pairwise (· ≤ ·)) (hr0 : ∀ r ∈ radii, 0 ≤ r) {x r : ℝ}
    (h : radius a (.psd radii cumm) x = .ok r) : ∃ i c0 c1 r0 r1, cumm[i]? = some c0 ∧ cumm[i + 1]? = some c1 ∧ radii[i]? = some r0 ∧
      radii[i + 1]? = some r1 ∧ c0 ≤ x ∧ x < c1 ∧ r0 ≤ r ∧ r ≤ r1 ∧
      (a.distributeMass = false → r = r0 + (x - c0) / (c1 - c0) * (r1 - r0)) ∧
      (a.distributeMass = true → pow3Interp ((x - c0) / (c1 - c0)) r0 r1 = .ok r) := by
  rw [radius] at h
  obtain ⟨⟨i, norm⟩, h1, h⟩ := bind_eq_ok h
  obtain ⟨c0, c1, e0, e1, q0, q1, rfl⟩ := piece_ok h1
  dsimp only at h
  cases e2 : radii[i]? with
  | none => rw [e2] at h; cases h
  | some r0 =>
    cases e3 : radii[i + 1]? with
    | none => rw [e2, e3] at h; cases h
    | some r1 =>
      rw [e2, e3] at h
      dsimp only at h
      have h01 := sorted_get hr e2 e3 (Nat.le_succ i)
      obtain ⟨n0, n1⟩ := norm_range q0 q1
      by_cases hd : a.distributeMass = true
      · rw [if_pos hd] at h
        obtain ⟨-, w1, w2, -⟩ := pow3_range (hr0 r0 (List.mem_of_getElem? e2)) h01 n0 n1 h
        exact ⟨i, c0, c1, r0, r1, e0, e1, e2, e3, q0, q1, w1, w2, (fun h => by rw [hd] at h; cases h), fun _ => h⟩
      · rw [if_neg hd] at h
        cases h
        exact ⟨i, c0, c1, r0, r1, e0, e1, e2, e3, q0, q1, by nlinarith, by nlinarith, fun _ => rfl, fun h => absurd h hd⟩

theorem psd_mono {a : Args} {radii cumm : List ℝ} (hr : radii.Pairwise (· ≤ ·)) (hr0 : ∀ r ∈ radii, 0 ≤ r) (hc : cumm.Pairwise (· ≤ ·))
    {x y r s : ℝ} (hxy : x ≤ y) (h : radius a (.psd radii cumm) x = .ok r) (h' : radius a (.psd radii cumm) y = .ok s) : r ≤ s := by
  obtain ⟨i, c0, c1, r0, r1, e0, e1, e2, e3, q0, q1, w1, w2, w3, w4⟩ := psd_radius hr hr0 h
  obtain ⟨j, d0, d1, s0, s1, f0, f1, f2, f3, p0, p1, v1, v2, v3, v4⟩ := psd_radius hr hr0 h'
  rcases lt_trichotomy i j with hij | rfl | hij
  · have := sorted_get hr e3 f2 hij
    linarith
  · rw [e0] at f0; rw [e1] at f1; rw [e2] at f2; rw [e3] at f3
    cases f0; cases f1; cases f2; cases f3
    have h01 := sorted_get hr e2 e3 (Nat.le_succ i)
    obtain ⟨n0, n1⟩ := norm_range q0 q1
    obtain ⟨m0, m1⟩ := norm_range p0 p1
    have hm := norm_mono (lt_of_le_of_lt q0 q1) hxy
    cases hd : a.distributeMass with
    | true => exact pow3_mono (hr0 r0 (List.mem_of_getElem? e2)) h01 n0 hm m1 (w4 hd) (v4 hd)
    | false => rw [w3 hd, v3 hd]; nlinarith
  · have := sorted_get hc f1 e0 hij
    linarith

theorem psd_lists {a : Args} {V s s' : ℝ} {d : Dist} (h0 : ∀ x ∈ a.psdSizes, 0 ≤ x) (h : psdPlan a V s = .ok (d, s')) :
    ∃ f cumm, d = .psd (a.psdSizes.map fun x => x / 2 * f) cumm ∧ 0 ≤ f ∧ f ≤ 1 ∧ f = (if a.num > 1 then s' else 1) ∧
      (a.psdSizes.map fun x => x / 2 * f).Pairwise (· ≤ ·) ∧ (∀ r ∈ a.psdSizes.map fun x => x / 2 * f, 0 ≤ r) ∧ cumm.Pairwise (· ≤ ·) := by
  obtain ⟨h1, h2, h3, h4, h5, h6, h7, cumm, rfl, h8, h9⟩ := psdPlan_spec h
  have hf : 0 ≤ (if a.num > 1 then s' else 1) ∧ (if a.num > 1 then s' else 1) ≤ 1 := by
    split_ifs with hn
    · exact h7 hn
    · norm_num
  refine ⟨_, cumm, rfl, hf.1, hf.2, rfl, ?_, ?_, ?_⟩
  · rw [List.pairwise_map]
    exact h4.imp fun h => mul_le_mul_of_nonneg_right (by linarith) hf.1
  · intro r hr
    obtain ⟨x, hx, rfl⟩ := List.mem_map.mp hr
    exact mul_nonneg (by linarith [h0 x hx]) hf.1
  · cases hd : a.distributeMass with
    | false => rw [h8 hd]; exact h5
    | true =>
      obtain ⟨l, q1, q2, rfl⟩ := h9 hd
      exact (massCumm_norm h4 h0 h5 q1 q2).1

/-! ## C135 -/

/-- C135.  Without a size distribution, all radii are within the mean radius times `1 ± rRelFuzz`, the mean radius being the one given, if
one is given. -/
theorem C135_range {n : Nat} {a : Args} {sp sp' : SpherePack} {g g' : Rnd} {k : Int} (hg : Good g) (hps : a.psdSizes = [])
    (hf : 0 ≤ a.fuzz) (hf1 : a.fuzz ≤ 1) (h : makeCloud n a sp g = some (.ok (sp', k, g'))) :
    ∃ m old new, sp'.pack = old ++ new ∧ (old = [] ∨ old = sp.pack) ∧ (0 < a.rMean → m = a.rMean) ∧ 0 ≤ m ∧
      ∀ s ∈ new, m * (1 - a.fuzz) ≤ s.r ∧ s.r ≤ m * (1 + a.fuzz) := by
  obtain ⟨a', d, s, s', old, new, h0, hp, h1, h2, h3, h4, -⟩ := cloud_added hg h
  have hm : ∃ m, (d = .rmean m ∨ d = .num m) ∧ 0 ≤ m ∧ (0 < a.rMean → m = a.rMean) := by
    rcases (plan_spec hp).2 with ⟨q1, q2, q3, q4⟩ | ⟨q1, q2, q3, q4, m, q5, q6, -⟩ | ⟨q1, q2, -⟩
    · refine ⟨a'.rMean, Or.inl q3, q1.le, fun hr => ?_⟩
      obtain ⟨m, p, rfl, ⟨q, -⟩ | ⟨q, -⟩⟩ := h0
      · exact q
      · dsimp only at q1; rw [q] at q1; norm_num at q1
    · refine ⟨m, Or.inr q5, q6, fun hr => ?_⟩
      rcases h2 with ⟨-, -, h2⟩ | ⟨-, rfl, -⟩
      · exact absurd hr h2
      · exact absurd hr q1
    · exfalso
      apply q2
      obtain ⟨m, p, rfl, -⟩ := h0
      exact hps
  obtain ⟨m, hd, hm0, hm1⟩ := hm
  have ho : old = [] ∨ old = sp.pack := by
    rcases h2 with h2 | h2
    · exact Or.inl h2.1
    · exact Or.inr h2.1
  refine ⟨m, old, new, h1, ho, hm1, hm0, fun t ht => ?_⟩
  obtain ⟨i, hi⟩ := List.mem_iff_getElem?.mp ht
  obtain ⟨x, hx, x0, x1, -⟩ := h4 i t hi
  have hfz : a'.fuzz = a.fuzz := by obtain ⟨m, p, rfl, -⟩ := h0; rfl
  have key : radius a' (.num m) x = .ok t.r := by
    rcases hd with rfl | rfl
    · exact hx
    · exact hx
  rw [radius, hfz] at key
  by_cases hdm : a'.distributeMass = true
  · rw [if_pos hdm] at key
    obtain ⟨-, w1, w2, -⟩ := pow3_range (mul_nonneg hm0 (by linarith)) (by nlinarith) x0 x1.le key
    exact ⟨w1, w2⟩
  · rw [if_neg hdm] at key
    rw [← Res.ok.inj key]
    have := mul_nonneg hm0 hf
    constructor <;> norm_num <;> nlinarith

/-- C135.  With a size distribution by number, the diameter of the `i`-th sphere made is read off the given curve at the place of the sphere,
times the scaling factor reported, which is between 0 and 1 (and 1 if no number is given). -/
theorem C135_by_number {n : Nat} {a : Args} {sp sp' : SpherePack} {g g' : Rnd} {k : Int} (hg : Good g) (hps : a.psdSizes ≠ [])
    (h0 : ∀ x ∈ a.psdSizes, 0 ≤ x) (hd : a.distributeMass = false) (h : makeCloud n a sp g = some (.ok (sp', k, g'))) :
    ∃ f old new, sp'.pack = old ++ new ∧ (old = [] ∨ old = sp.pack) ∧ 0 ≤ f ∧ f ≤ 1 ∧ (f = if a.num > 1 then sp'.scaling else 1) ∧
      ∀ (i : Nat) (s : Sph), new[i]? = some s → ∃ x y, PlaceOf a.num i x ∧ OnCurve a.psdCumm a.psdSizes x y ∧ 2 * s.r = f * y := by
  obtain ⟨a', d, s, s', old, new, hr, hp, h1, h2, h3, h4, h5, -⟩ := cloud_added hg h
  obtain ⟨m, p, rfl, -⟩ := hr
  have ho : old = [] ∨ old = sp.pack := by
    rcases h2 with h2 | h2
    · exact Or.inl h2.1
    · exact Or.inr h2.1
  rcases (plan_spec hp).2 with ⟨-, q2, -⟩ | ⟨-, -, q3, -⟩ | ⟨-, -, q⟩
  · exact absurd q2 hps
  · exact absurd q3 hps
  obtain ⟨f, cumm, e1, e2, e3, e4, e5, e6, e7⟩ := psd_lists (a := { a with rMean := m, porosity := p }) h0 q
  obtain ⟨-, -, -, -, -, -, -, cumm', e8, e9, -⟩ := psdPlan_spec q
  rw [e1] at e8
  have hcumm : cumm = a.psdCumm := by
    rw [(Dist.psd.inj e8).2]
    exact e9 hd
  subst e1 hcumm
  refine ⟨f, old, new, h1, ho, e2, e3, by rw [h5]; exact e4, fun i t ht => ?_⟩
  obtain ⟨x, hx, x0, x1, x2⟩ := h4 i t ht
  obtain ⟨j, c0, c1, r0, r1, w1, w2, w3, w4, w5, w6, -, -, w7, -⟩ := psd_radius e5 e6 hx
  simp only [List.getElem?_map, Option.map_eq_some_iff] at w3 w4
  obtain ⟨v0, z0, rfl⟩ := w3
  obtain ⟨v1, z1, rfl⟩ := w4
  refine ⟨x, v0 + (x - c0) / (c1 - c0) * (v1 - v0), ⟨x0, x1, x2⟩, Or.inr (Or.inr ⟨j, c0, c1, v0, v1, w1, w2, z0, z1, w5, w6.le, by linarith, ?_⟩), ?_⟩
  · have : c1 - c0 ≠ 0 := by linarith
    field_simp
    ring
  · rw [w7 hd]
    ring

/-- C135.  With a size distribution by mass, the number of spheres below the diameter of the `i`-th sphere is the share of all spheres given
by the place of the sphere. -/
theorem C135_by_mass {n : Nat} {a : Args} {sp sp' : SpherePack} {g g' : Rnd} {k : Int} (hg : Good g) (hps : a.psdSizes ≠ [])
    (h0 : ∀ x ∈ a.psdSizes, 0 ≤ x) (hd : a.distributeMass = true) (h : makeCloud n a sp g = some (.ok (sp', k, g'))) :
    ∃ f old new, sp'.pack = old ++ new ∧ (old = [] ∨ old = sp.pack) ∧ 0 ≤ f ∧ f ≤ 1 ∧ (f = if a.num > 1 then sp'.scaling else 1) ∧
      ∀ (i : Nat) (s : Sph), new[i]? = some s → ∃ x y, PlaceOf a.num i x ∧ 2 * s.r = f * y ∧
        ∃ (j : Nat) (s0 s1 last : ℝ), a.psdSizes[j]? = some s0 ∧ a.psdSizes[j + 1]? = some s1 ∧ s0 ≤ y ∧ y ≤ s1 ∧
          a.psdSizes.getLast? = some last ∧
          countTo a.psdSizes a.psdCumm j y = x * countTo a.psdSizes a.psdCumm (a.psdSizes.length - 2) last := by
  obtain ⟨a', d, s, s', old, new, hr, hp, h1, h2, h3, h4, h5, -⟩ := cloud_added hg h
  obtain ⟨m, p, rfl, -⟩ := hr
  have ho : old = [] ∨ old = sp.pack := by
    rcases h2 with h2 | h2
    · exact Or.inl h2.1
    · exact Or.inr h2.1
  rcases (plan_spec hp).2 with ⟨-, q2, -⟩ | ⟨-, -, q3, -⟩ | ⟨-, -, q⟩
  · exact absurd q2 hps
  · exact absurd q3 hps
  obtain ⟨f, cumm, e1, e2, e3, e4, e5, e6, e7⟩ := psd_lists (a := { a with rMean := m, porosity := p }) h0 q
  obtain ⟨b1, b2, -, b4, b5, -, -, cumm', e8, -, e9⟩ := psdPlan_spec q
  rw [e1] at e8
  obtain ⟨l, l1, l2, l3⟩ := e9 hd
  have hcumm : cumm = (0 :: l).map (· / (0 :: l).getLastD 0) := by
    rw [(Dist.psd.inj e8).2]
    exact l3
  subst e1
  have hlen := massCumm_length b1 l1
  dsimp only at b1 b2 b4 b5 l1 hlen
  refine ⟨f, old, new, h1, ho, e2, e3, by rw [h5]; exact e4, fun i t ht => ?_⟩
  obtain ⟨x, hx, x0, x1, x2⟩ := h4 i t ht
  obtain ⟨j, c0, c1, r0, r1, w1, w2, w3, w4, w5, w6, w7, w8, -, w9⟩ := psd_radius e5 e6 hx
  have w9 := w9 hd
  obtain ⟨n0, n1⟩ := norm_range w5 w6
  obtain ⟨y0, -, -, y1⟩ := pow3_range (e6 r0 (List.mem_of_getElem? w3)) (le_trans w7 w8) n0 n1 w9
  simp only [List.getElem?_map, Option.map_eq_some_iff] at w3 w4
  obtain ⟨v0, z0, rfl⟩ := w3
  obtain ⟨v1, z1, rfl⟩ := w4
  rw [hcumm, List.getElem?_map, Option.map_eq_some_iff] at w1 w2
  obtain ⟨u0, w1, rfl⟩ := w1
  obtain ⟨u1, w2, rfl⟩ := w2
  rw [List.getElem?_cons_succ] at w2
  have hv0 : 0 ≤ v0 := h0 v0 (List.mem_of_getElem? z0)
  have hf0 : 0 < f := lt_of_le_of_ne e2 (by rintro rfl; simp at y0)
  have hr0 : 0 < t.r := lt_of_lt_of_le y0 w7
  obtain ⟨g1, g2, g3⟩ := massCumm_piece b4 h0 l1 w1 w2 z0 z1
  -- the whole
  obtain ⟨k', hk'⟩ : ∃ k', a.psdSizes.length = k' + 2 := ⟨a.psdSizes.length - 2, by omega⟩
  obtain ⟨pl, hpl⟩ : ∃ v, a.psdSizes[k']? = some v := ⟨_, List.getElem?_eq_getElem (by omega)⟩
  obtain ⟨last, hlast⟩ : ∃ v, a.psdSizes[k' + 1]? = some v := ⟨_, List.getElem?_eq_getElem (by omega)⟩
  obtain ⟨ul, hul⟩ : ∃ v, ((0 : ℝ) :: l)[k']? = some v := ⟨_, List.getElem?_eq_getElem (by simp; omega)⟩
  obtain ⟨vl, hvl⟩ : ∃ v, l[k']? = some v := ⟨_, List.getElem?_eq_getElem (by omega)⟩
  obtain ⟨g4, g5, g6⟩ := massCumm_piece b4 h0 l1 hul hvl hpl hlast
  have hL : (0 :: l).getLastD 0 = vl := by
    rw [List.getLastD_eq_getLast?, List.getLast?_eq_getElem?]
    rw [show ((0 : ℝ) :: l).length - 1 = k' + 1 by simp; omega, List.getElem?_cons_succ, hvl]
    rfl
  have htot := g6 last g5.le
  have hX : 1 / pl ^ 2 - 1 / last ^ 2 ≠ 0 := by
    have : 1 / last ^ 2 < 1 / pl ^ 2 := one_div_lt_one_div_of_lt (by positivity) (pow_lt_pow_left₀ g5 g4.le (by norm_num))
    linarith
  rw [div_self hX, mul_one] at htot
  rw [hL] at w5 w6 w9 l2 y1 n0 n1
  -- the diameter
  have hf2 : 0 < f / 2 := by linarith
  have hy : 1 / (2 * t.r / f) ^ 2 = (x - u0 / vl) / (u1 / vl - u0 / vl) * (1 / v1 ^ 2 - 1 / v0 ^ 2) + 1 / v0 ^ 2 := by
    have hv1 : 0 < v1 := lt_trans g1 g2
    have hpos : 0 ≤ (x - u0 / vl) / (u1 / vl - u0 / vl) * (1 / (v1 / 2 * f) ^ 2 - 1 / (v0 / 2 * f) ^ 2) + 1 / (v0 / 2 * f) ^ 2 := by
      have k1 : 0 < 1 / (v1 / 2 * f) ^ 2 := by positivity
      have k2 : 1 / (v1 / 2 * f) ^ 2 ≤ 1 / (v0 / 2 * f) ^ 2 := one_div_le_one_div_of_le (by positivity)
        (pow_le_pow_left₀ (by positivity) (mul_le_mul_of_nonneg_right (by linarith) e2) 2)
      nlinarith
    have hsq : 1 / t.r ^ 2 = (x - u0 / vl) / (u1 / vl - u0 / vl) * (1 / (v1 / 2 * f) ^ 2 - 1 / (v0 / 2 * f) ^ 2) + 1 / (v0 / 2 * f) ^ 2 := by
      rw [y1, show (-1 / 2 : ℝ) = -(1 / 2) by norm_num, Real.rpow_neg hpos, ← Real.sqrt_eq_rpow, inv_pow, Real.sq_sqrt hpos, one_div, inv_inv]
    rw [div_pow, mul_pow, one_div_div]
    have : f ^ 2 / (2 ^ 2 * t.r ^ 2) = (f / 2) ^ 2 * (1 / t.r ^ 2) := by ring
    rw [this, hsq]
    field_simp
  refine ⟨x, 2 * t.r / f, ⟨x0, x1, x2⟩, by field_simp, j, v0, v1, last, z0, z1, ?_, ?_, ?_, ?_⟩
  · rw [le_div_iff₀ hf0]; linarith
  · rw [div_le_iff₀ hf0]; linarith
  · rw [List.getLast?_eq_getElem?, hk']; exact hlast
  · have hd1 := g3 (2 * t.r / f) (by rw [le_div_iff₀ hf0]; linarith)
    have hX1 : 1 / v0 ^ 2 - 1 / v1 ^ 2 ≠ 0 := by
      have : 1 / v1 ^ 2 < 1 / v0 ^ 2 := one_div_lt_one_div_of_lt (by positivity) (pow_lt_pow_left₀ g2 g1.le (by norm_num))
      linarith
    have hN : (1 / v0 ^ 2 - 1 / (2 * t.r / f) ^ 2) / (1 / v0 ^ 2 - 1 / v1 ^ 2) = (x - u0 / vl) / (u1 / vl - u0 / vl) := by
      rw [hy, div_eq_iff hX1]
      ring
    rw [hN] at hd1
    have hu : u1 / vl - u0 / vl ≠ 0 := by linarith
    have hux : (u1 - u0) * ((x - u0 / vl) / (u1 / vl - u0 / vl)) = x * vl - u0 := by
      have e : u1 - u0 = (u1 / vl - u0 / vl) * vl := by field_simp
      rw [e, mul_assoc, mul_comm vl, ← mul_assoc, mul_div_cancel₀ _ hu]
      field_simp
    rw [hux] at hd1
    have hK : 6 * (if ({ a with rMean := m, porosity := p } : Args).cell.det ≠ 0 then ({ a with rMean := m, porosity := p } : Args).cell.det
        else ({ a with rMean := m, porosity := p } : Args).area * a.psdSizes.getLastD 0) * (1 - ({ a with rMean := m, porosity := p } : Args).poro) / Real.pi ≠ 0 := by
      intro hc
      rw [hc, zero_mul] at htot
      apply l2
      linarith
    rw [hk', Nat.add_sub_cancel]
    apply mul_left_cancel₀ hK
    linear_combination hd1 - x * htot

/-- C135.  When the number of spheres is given, they are made in order of decreasing size. -/
theorem C135_decreasing {n : Nat} {a : Args} {sp sp' : SpherePack} {g g' : Rnd} {k : Int} (hg : Good g) (hn : 0 < a.num)
    (hf : 0 ≤ a.fuzz) (hf1 : a.fuzz ≤ 1) (h0 : ∀ x ∈ a.psdSizes, 0 ≤ x) (h : makeCloud n a sp g = some (.ok (sp', k, g'))) :
    ∃ old new, sp'.pack = old ++ new ∧ (old = [] ∨ old = sp.pack) ∧ new.Pairwise fun s t => t.r ≤ s.r := by
  obtain ⟨a', d, s, s', old, new, hr, hp, h1, h2, h3, h4, h5, -⟩ := cloud_added hg h
  have ho : old = [] ∨ old = sp.pack := by
    rcases h2 with h2 | h2
    · exact Or.inl h2.1
    · exact Or.inr h2.1
  refine ⟨old, new, h1, ho, List.pairwise_iff_getElem.mpr fun i j hi hj hij => ?_⟩
  obtain ⟨x, hx, x0, x1, x2⟩ := h4 i _ (List.getElem?_eq_getElem hi)
  obtain ⟨y, hy, y0, y1, y2⟩ := h4 j _ (List.getElem?_eq_getElem hj)
  have hyx : y ≤ x := by
    rw [x2 hn, y2 hn]
    have hn0 : (0 : ℝ) < a.num := by exact_mod_cast hn
    have hij' : (i : ℝ) ≤ j := by exact_mod_cast hij.le
    exact div_le_div_of_nonneg_right (by linarith) (by linarith)
  have hfz : a'.fuzz = a.fuzz := by obtain ⟨m, p, rfl, -⟩ := hr; rfl
  have uniform : ∀ m, 0 ≤ m → radius a' (.num m) x = .ok new[i].r → radius a' (.num m) y = .ok new[j].r → new[j].r ≤ new[i].r := by
    intro m hm e1 e2
    rw [radius, hfz] at e1 e2
    by_cases hdm : a'.distributeMass = true
    · rw [if_pos hdm] at e1 e2
      exact pow3_mono (mul_nonneg hm (by linarith)) (by nlinarith) y0 hyx x1.le e2 e1
    · rw [if_neg hdm] at e1 e2
      rw [← Res.ok.inj e1, ← Res.ok.inj e2]
      have := mul_nonneg hm hf
      nlinarith
  rcases (plan_spec hp).2 with ⟨q1, -, rfl, -⟩ | ⟨-, -, -, -, m, rfl, q6, -⟩ | ⟨-, -, q⟩
  · exact uniform _ q1.le hx hy
  · exact uniform _ q6 hx hy
  · have h0' : ∀ x ∈ a'.psdSizes, 0 ≤ x := by obtain ⟨m, p, rfl, -⟩ := hr; exact h0
    obtain ⟨f, cumm, rfl, e2, e3, e4, e5, e6, e7⟩ := psd_lists h0' q
    exact psd_mono e5 e6 e7 hyx hy hx

end Verif.Pack
