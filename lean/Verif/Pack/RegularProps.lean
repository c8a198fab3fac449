import Verif.Pack.PadProps
import Mathlib.Data.List.ProdSigma
import Mathlib.Tactic.IntervalCases

/-!
# C142, C143: regular packings
-/
namespace Verif.Pack
open Verif.Mech
open scoped Classical

/-! ## Lemmas -/

theorem product_eq {α β γ : Type} (l : List α) (m : List β) (n : List γ) : product l m n = l ×ˢ (m ×ˢ n) := by
  simp only [product, SProd.sprod, List.product, List.map_flatMap, List.map_map]
  rfl

theorem mem_product {α β γ : Type} {l : List α} {m : List β} {n : List γ} {x : α} {y : β} {z : γ} :
    (x, y, z) ∈ product l m n ↔ x ∈ l ∧ y ∈ m ∧ z ∈ n := by
  rw [product_eq, List.mem_product, List.mem_product]

theorem nodup_product {α β γ : Type} {l : List α} {m : List β} {n : List γ} (hl : l.Nodup) (hm : m.Nodup) (hn : n.Nodup) :
    (product l m n).Nodup := by
  rw [product_eq]
  exact hl.product (hm.product hn)

theorem arange_spec {start stop step : ℝ} {l : List ℝ} (hs : 0 < step) (h : arange start stop step = .ok l) :
    l.Nodup ∧ (∀ x ∈ l, ∀ y ∈ l, x ≠ y → step ≤ |x - y|) ∧ ∀ i : Nat, start + i * step < stop → start + i * step ∈ l := by
  rw [arange, if_neg hs.ne'] at h
  cases h
  refine ⟨?_, ?_, ?_⟩
  · apply List.Nodup.map _ List.nodup_range
    intro i j hij
    have : (i : ℝ) * step = j * step := by simpa using hij
    exact_mod_cast mul_right_cancel₀ hs.ne' this
  · intro x hx y hy hne
    obtain ⟨i, -, rfl⟩ := List.mem_map.mp hx
    obtain ⟨j, -, rfl⟩ := List.mem_map.mp hy
    have hij : (i : ℤ) - j ≠ 0 := by
      intro e
      apply hne
      have : i = j := by omega
      rw [this]
    have h1 : (1 : ℝ) ≤ |((i : ℤ) - j : ℤ)| := by exact_mod_cast Int.one_le_abs hij
    have e : start + (i : ℝ) * step - (start + (j : ℝ) * step) = (((i : ℤ) - j : ℤ) : ℝ) * step := by push_cast; ring
    rw [e, abs_mul, abs_of_pos hs]
    push_cast at h1 ⊢
    nlinarith
  · intro i hi
    rw [List.mem_map]
    refine ⟨i, ?_, rfl⟩
    rw [List.mem_range]
    have h1 : (i : ℝ) < (stop - start) / step := by
      rw [lt_div_iff₀ hs]; linarith
    have h2 : (i : ℝ) < (⌈(stop - start) / step⌉ : ℝ) := lt_of_lt_of_le h1 (Int.le_ceil _)
    have h3 : (i : ℤ) < ⌈(stop - start) / step⌉ := by exact_mod_cast h2
    omega

theorem res_bind_ok {α β : Type} {r : Res α} {f : α → Res β} {b : β} (h : r.bind f = .ok b) : ∃ a, r = .ok a ∧ f a = .ok b := by
  cases r with
  | ok a => exact ⟨a, rfl, h⟩
  | throws => simp at h
  | ub => simp at h

theorem ortho_spec {s : Solid} {r gap : ℝ} {l : List V3} (h : regularOrtho s r gap = .ok l) : ∃ mn mx xx yy zz, finiteBox s = .ok (mn, mx) ∧
    arange (mn 0 + r) (mx 0 - r) (2 * r + gap) = .ok xx ∧ arange (mn 1 + r) (mx 1 - r) (2 * r + gap) = .ok yy ∧
    arange (mn 2 + r) (mx 2 - r) (2 * r + gap) = .ok zz ∧
    l = ((product xx yy zz).map fun (x, y, z) => (![x, y, z] : V3)).filter fun c => s.inside c r := by
  obtain ⟨⟨mn, mx⟩, h1, h⟩ := res_bind_ok h
  obtain ⟨xx, h2, h⟩ := res_bind_ok h
  obtain ⟨yy, h3, h⟩ := res_bind_ok h
  obtain ⟨zz, h4, h⟩ := res_bind_ok h
  exact ⟨mn, mx, xx, yy, zz, h1, h2, h3, h4, (Res.ok.inj h).symm⟩

theorem hexa_spec {s : Solid} {r gap : ℝ} {l : List V3} (h : regularHexa s r gap = .ok l) : ∃ mn mx, finiteBox s = .ok (mn, mx) ∧
    l = ((product (rangeTo ((mx 0 - mn 0) / (2 * r + gap))) (rangeTo ((mx 1 - mn 1) / ((2 * r + gap) * Real.sqrt 3 / 2)))
      (rangeTo ((mx 2 - mn 2) / ((2 * r + gap) * Real.sqrt 6 / 3)))).map
      fun (i, j, k) => hexaPoint (2 * r + gap) mn i j k).filter fun c => s.inside c r := by
  obtain ⟨⟨mn, mx⟩, h1, h⟩ := res_bind_ok h
  by_cases h0 : 2 * r + gap = 0
  · simp only [h0, if_true] at h
    cases h
  · simp only [h0, if_false] at h
    exact ⟨mn, mx, h1, (Res.ok.inj h).symm⟩

/-- Squares of differences in the hexagonal grid. -/
theorem hexa_int {i j k i' j' k' : Nat} (h : ¬ (i = i' ∧ j = j' ∧ k = k')) :
    (12 : ℤ) ≤ 3 * (2 * (i : ℤ) + ((j + k) % 2 : Nat) - (2 * i' + ((j' + k') % 2 : Nat))) ^ 2 +
      (3 * ((j : ℤ) - j') + ((k % 2 : Nat) - (k' % 2 : Nat))) ^ 2 + 8 * ((k : ℤ) - k') ^ 2 := by
  obtain ⟨X, hX⟩ : ∃ X, X = 2 * (i : ℤ) + ((j + k) % 2 : Nat) - (2 * i' + ((j' + k') % 2 : Nat)) := ⟨_, rfl⟩
  obtain ⟨Y, hY⟩ : ∃ Y, Y = 3 * ((j : ℤ) - j') + ((k % 2 : Nat) - (k' % 2 : Nat)) := ⟨_, rfl⟩
  obtain ⟨K, hK⟩ : ∃ K, K = (k : ℤ) - k' := ⟨_, rfl⟩
  rw [← hX, ← hY, ← hK]
  have sq : ∀ (x c : ℤ), 0 ≤ c → (c ≤ x ∨ x ≤ -c) → c ^ 2 ≤ x ^ 2 := by
    intro x c hc hx
    rcases hx with hx | hx <;> nlinarith
  by_cases k2 : 2 ≤ K ∨ K ≤ -2
  · have := sq K 2 (by norm_num) k2
    nlinarith [sq_nonneg X, sq_nonneg Y]
  by_cases k0 : K = 0
  · by_cases y2 : 6 ≤ Y ∨ Y ≤ -6
    · have := sq Y 6 (by norm_num) y2
      nlinarith [sq_nonneg X, sq_nonneg K]
    by_cases y0 : Y = 0
    · have hx : 2 ≤ X ∨ X ≤ -2 := by omega
      have := sq X 2 (by norm_num) hx
      nlinarith [sq_nonneg Y, sq_nonneg K]
    · have hx : 1 ≤ X ∨ X ≤ -1 := by omega
      have hy : 3 ≤ Y ∨ Y ≤ -3 := by omega
      have h1 := sq X 1 (by norm_num) hx
      have h2 := sq Y 3 (by norm_num) hy
      nlinarith [sq_nonneg K]
  · have h1 := sq K 1 (by norm_num) (by omega)
    by_cases y2 : 2 ≤ Y ∨ Y ≤ -2
    · have := sq Y 2 (by norm_num) y2
      nlinarith [sq_nonneg X]
    · have hx : 1 ≤ X ∨ X ≤ -1 := by omega
      have hy : 1 ≤ Y ∨ Y ≤ -1 := by omega
      have h3 := sq X 1 (by norm_num) hx
      have h4 := sq Y 1 (by norm_num) hy
      nlinarith

theorem hexa_apart {a : ℝ} (ha : 0 < a) (mn : V3) {i j k i' j' k' : Nat} (h : ¬ (i = i' ∧ j = j' ∧ k = k')) :
    a ≤ norm3 (hexaPoint a mn i j k - hexaPoint a mn i' j' k') := by
  have hi := hexa_int h
  have hr : (12 : ℝ) ≤ 3 * (2 * (i : ℝ) + ((j + k) % 2 : Nat) - (2 * i' + ((j' + k') % 2 : Nat))) ^ 2 +
      (3 * ((j : ℝ) - j') + ((k % 2 : Nat) - (k' % 2 : Nat))) ^ 2 + 8 * ((k : ℝ) - k') ^ 2 := by exact_mod_cast hi
  apply Real.le_sqrt_of_sq_le
  have h3 : Real.sqrt 3 ^ 2 = 3 := Real.sq_sqrt (by norm_num)
  have h6 : Real.sqrt 6 ^ 2 = 6 := Real.sq_sqrt (by norm_num)
  have e : sqNorm (hexaPoint a mn i j k - hexaPoint a mn i' j' k') = (a / 2) ^ 2 *
      ((2 * (i : ℝ) + ((j + k) % 2 : Nat) - (2 * i' + ((j' + k') % 2 : Nat))) ^ 2 +
       Real.sqrt 3 ^ 2 * (((j : ℝ) - j') + 1 / 3 * ((k % 2 : Nat) - (k' % 2 : Nat))) ^ 2 +
       4 / 9 * Real.sqrt 6 ^ 2 * ((k : ℝ) - k') ^ 2) := by
    simp only [hexaPoint, sqNorm, dot, Pi.sub_apply, Pi.add_apply, Pi.smul_apply, smul_eq_mul, Matrix.cons_val_zero, Matrix.cons_val_one,
      Matrix.cons_val]
    ring
  rw [e, h3, h6]
  have h4 : 0 < (a / 2) ^ 2 := by positivity
  nlinarith

/-! ## C142 -/

/-- C142.  Spheres of a regular orthogonal packing are at least the gap apart, and each is wholly in the solid. -/
theorem C142_ortho {s : Solid} {r gap : ℝ} {l : List V3} (ha : 0 < 2 * r + gap) (h : regularOrtho s r gap = .ok l) :
    l.Pairwise (fun p q => 2 * r + gap ≤ norm3 (p - q)) ∧
    ∀ c ∈ l, s.inside c r ∧ (s.Proper → s.Plain → ∀ y, norm3 (y - c) ≤ r → y ∈ s.set) := by
  obtain ⟨mn, mx, xx, yy, zz, -, h1, h2, h3, rfl⟩ := ortho_spec h
  obtain ⟨x1, x2, -⟩ := arange_spec ha h1
  obtain ⟨y1, y2, -⟩ := arange_spec ha h2
  obtain ⟨z1, z2, -⟩ := arange_spec ha h3
  constructor
  · apply List.Pairwise.filter
    rw [List.pairwise_map]
    refine (nodup_product x1 y1 z1).imp_of_mem ?_
    rintro ⟨a, b, c⟩ ⟨a', b', c'⟩ m1 m2 hne
    obtain ⟨ma, mb, mc⟩ := mem_product.mp m1
    obtain ⟨ma', mb', mc'⟩ := mem_product.mp m2
    dsimp only
    by_cases ea : a = a'
    · by_cases eb : b = b'
      · have ec : c ≠ c' := by
          rintro rfl
          exact hne (by rw [ea, eb])
        exact (z2 c mc c' mc' ec).trans (comp_le (![a, b, c] - ![a', b', c']) 2)
      · exact (y2 b mb b' mb' eb).trans (comp_le (![a, b, c] - ![a', b', c']) 1)
    · exact (x2 a ma a' ma' ea).trans (comp_le (![a, b, c] - ![a', b', c']) 0)
  · intro c hc
    have hin : s.inside c r := by simpa using (List.mem_filter.mp hc).2
    exact ⟨hin, fun hp hpl => (C141_ball_partial hp hpl hin).1⟩

/-- C142.  Spheres of a regular hexagonal packing are at least the gap apart, and each is wholly in the solid. -/
theorem C142_hexa {s : Solid} {r gap : ℝ} {l : List V3} (ha : 0 < 2 * r + gap) (h : regularHexa s r gap = .ok l) :
    l.Pairwise (fun p q => 2 * r + gap ≤ norm3 (p - q)) ∧
    ∀ c ∈ l, s.inside c r ∧ (s.Proper → s.Plain → ∀ y, norm3 (y - c) ≤ r → y ∈ s.set) := by
  obtain ⟨mn, mx, -, rfl⟩ := hexa_spec h
  constructor
  · apply List.Pairwise.filter
    rw [List.pairwise_map]
    refine (nodup_product List.nodup_range List.nodup_range List.nodup_range).imp ?_
    rintro ⟨i, j, k⟩ ⟨i', j', k'⟩ hne
    refine hexa_apart ha mn ?_
    rintro ⟨rfl, rfl, rfl⟩
    exact hne rfl
  · intro c hc
    have hin : s.inside c r := by simpa using (List.mem_filter.mp hc).2
    exact ⟨hin, fun hp hpl => (C141_ball_partial hp hpl hin).1⟩

/-! ## C143 -/

/-- Where a plain solid accepts a point with a pad, the point is the pad away from the sides of the box. -/
theorem box_margin {s : Solid} (hp : s.Proper) (hpl : s.Plain) {c mn mx : V3} {r : ℝ} (h0 : 0 ≤ r) (hb : finiteBox s = .ok (mn, mx))
    (hc : s.inside c r) (i : Fin 3) : mn i + r ≤ c i ∧ c i + r ≤ mx i := by
  have hball := (C141_ball_partial hp hpl hc).1
  have hu : norm3 (Pi.single i 1 : V3) = 1 := by
    fin_cases i <;> simp [norm3, sqNorm, dot]
  have k1 := hball (c + r • Pi.single i 1) (by rw [add_sub_cancel_left, norm3_smul', hu, abs_of_nonneg h0, mul_one])
  have k2 := hball (c + (-r) • Pi.single i 1) (by rw [add_sub_cancel_left, norm3_smul', hu, abs_neg, abs_of_nonneg h0, mul_one])
  rw [← C139_set_partial hp] at k1 k2
  obtain ⟨m1, m2, e1, b1⟩ := C140_box_partial hp k1
  obtain ⟨m1', m2', e2, b2⟩ := C140_box_partial hp k2
  rw [e1] at e2
  obtain ⟨rfl, rfl⟩ := Prod.mk.inj (Option.some.inj e2)
  rw [finiteBox, e1] at hb
  by_cases hinf : ∃ i, m2 i - m1 i = ⊤
  · simp only [hinf, if_true] at hb
    cases hb
  · simp only [hinf, if_false] at hb
    have hb := Res.ok.inj hb
    have hmn : mn = fun i => (m1 i).toReal := (congrArg Prod.fst hb).symm
    have hmx : mx = fun i => (m2 i).toReal := (congrArg Prod.snd hb).symm
    push Not at hinf
    have hu1 := (b1 i).2
    have hl1 := (b1 i).1
    have hl2 := (b2 i).1
    -- the corners are finite
    have t1 : m1 i ≠ ⊤ := fun e => by rw [e] at hl1; exact EReal.coe_ne_top _ (top_le_iff.mp hl1)
    have t2 : m2 i ≠ ⊥ := fun e => by rw [e] at hu1; exact EReal.coe_ne_bot _ (le_bot_iff.mp hu1)
    have t3 : m1 i ≠ ⊥ := by
      intro e
      apply hinf i
      rw [e]
      exact EReal.sub_bot t2
    have t4 : m2 i ≠ ⊤ := by
      intro e
      apply hinf i
      rw [e]
      exact EReal.top_sub t1
    rw [hmn, hmx]
    dsimp only
    rw [← EReal.coe_toReal t4 t2, EReal.coe_le_coe_iff] at hu1
    rw [← EReal.coe_toReal t1 t3, EReal.coe_le_coe_iff] at hl2
    simp at hu1 hl2
    constructor <;> linarith

/-- C143.  A regular orthogonal packing fills the grid: no point of the grid where a sphere would be in the solid is left out, unless the
sphere there would touch the upper sides of the box.  Missing: those, see `C143_violated`. -/
theorem C143_ortho_partial {s : Solid} (hp : s.Proper) (hpl : s.Plain) {r gap : ℝ} (h0 : 0 ≤ r) (ha : 0 < 2 * r + gap) {l : List V3}
    (h : regularOrtho s r gap = .ok l) : ∃ mn mx, finiteBox s = .ok (mn, mx) ∧ ∀ n : Fin 3 → Nat, ∀ c : V3,
      (∀ i, c i = mn i + r + n i * (2 * r + gap)) → (∀ i, c i + r ≠ mx i) → s.inside c r → c ∈ l := by
  obtain ⟨mn, mx, xx, yy, zz, hb, h1, h2, h3, rfl⟩ := ortho_spec h
  refine ⟨mn, mx, hb, ?_⟩
  intro n c hc hne hin
  have hm := box_margin hp hpl h0 hb hin
  have hlt (i : Fin 3) : mn i + r + n i * (2 * r + gap) < mx i - r := by
    have := lt_of_le_of_ne (hm i).2 (hne i)
    rw [← hc i]
    linarith
  have m1 := (arange_spec ha h1).2.2 _ (hlt 0)
  have m2 := (arange_spec ha h2).2.2 _ (hlt 1)
  have m3 := (arange_spec ha h3).2.2 _ (hlt 2)
  rw [← hc] at m1 m2 m3
  rw [List.mem_filter]
  refine ⟨List.mem_map.mpr ⟨(c 0, c 1, c 2), mem_product.mpr ⟨m1, m2, m3⟩, ?_⟩, by simpa using hin⟩
  apply v3_ext <;> rfl

/-- The hexagonal close packing with distance `a` between neighbours, from a corner on. -/
noncomputable def hcp (a : ℝ) (mn : V3) (i j k : ℤ) : V3 :=
  ![mn 0 + a * i + (a / 2) * ((j + k) % 2 : ℤ), mn 1 + a * (Real.sqrt 3 / 2) * (j + ((k % 2 : ℤ) : ℝ) / 3), mn 2 + a * (Real.sqrt 6 / 3) * k]

theorem mem_rangeTo {x : ℝ} {n : Nat} (h : (n : ℝ) ≤ x) : n ∈ rangeTo x := by
  have hx : 0 ≤ x := (Nat.cast_nonneg n).trans h
  rw [rangeTo, toInt, if_pos hx, List.mem_range]
  have : (n : ℤ) ≤ ⌊x⌋ := Int.le_floor.mpr (by exact_mod_cast h)
  omega

/-- C143.  A regular hexagonal packing fills the infinite hexagonal close packing through the lower corner of the box: no point of it
where a sphere would be in the solid is left out. -/
theorem C143_hexa {s : Solid} (hp : s.Proper) (hpl : s.Plain) {r gap : ℝ} (h0 : 0 ≤ r) (ha : 0 < 2 * r + gap) {l : List V3}
    (h : regularHexa s r gap = .ok l) : ∃ mn mx, finiteBox s = .ok (mn, mx) ∧ ∀ i j k : ℤ, s.inside (hcp (2 * r + gap) mn i j k) r →
      hcp (2 * r + gap) mn i j k ∈ l := by
  obtain ⟨mn, mx, hb, rfl⟩ := hexa_spec h
  refine ⟨mn, mx, hb, ?_⟩
  intro i j k hin
  generalize hA : 2 * r + gap = a at *
  have h3 : 0 < Real.sqrt 3 := Real.sqrt_pos.mpr (by norm_num)
  have h6 : 0 < Real.sqrt 6 := Real.sqrt_pos.mpr (by norm_num)
  have hm := box_margin hp hpl h0 hb hin
  have hm0 := hm 0
  have hm1 := hm 1
  have hm2 := hm 2
  simp only [hcp, Matrix.cons_val_zero, Matrix.cons_val_one, Matrix.cons_val] at hm0 hm1 hm2
  have e2 : ((k % 2 : ℤ) : ℝ) ≤ 1 := by
    have : k % 2 ≤ 1 := by omega
    exact_mod_cast this
  have e2' : (0 : ℝ) ≤ ((k % 2 : ℤ) : ℝ) := by
    have : 0 ≤ k % 2 := by omega
    exact_mod_cast this
  have e1 : (((j + k) % 2 : ℤ) : ℝ) ≤ 1 := by
    have : (j + k) % 2 ≤ 1 := by omega
    exact_mod_cast this
  have e1' : (0 : ℝ) ≤ (((j + k) % 2 : ℤ) : ℝ) := by
    have : 0 ≤ (j + k) % 2 := by omega
    exact_mod_cast this
  -- indices are not negative
  have hk : 0 ≤ k := by
    have : 0 ≤ a * (Real.sqrt 6 / 3) * k := by linarith [hm2.1]
    have : (0 : ℝ) ≤ k := nonneg_of_mul_nonneg_right this (by positivity)
    exact_mod_cast this
  have hj : 0 ≤ j := by
    have : 0 ≤ a * (Real.sqrt 3 / 2) * (j + ((k % 2 : ℤ) : ℝ) / 3) := by linarith [hm1.1]
    have h4 : (0 : ℝ) ≤ j + ((k % 2 : ℤ) : ℝ) / 3 := nonneg_of_mul_nonneg_right this (by positivity)
    have h5 : (-1 : ℝ) < j := by linarith
    have : -1 < j := by exact_mod_cast h5
    omega
  have hi : 0 ≤ i := by
    have h4 : 0 ≤ a * (i + ((j + k) % 2 : ℤ) / 2) := by nlinarith [hm0.1]
    have h4 : (0 : ℝ) ≤ i + ((j + k) % 2 : ℤ) / 2 := nonneg_of_mul_nonneg_right h4 ha
    have h5 : (-1 : ℝ) < i := by linarith
    have : -1 < i := by exact_mod_cast h5
    omega
  obtain ⟨i, rfl⟩ := Int.eq_ofNat_of_zero_le hi
  obtain ⟨j, rfl⟩ := Int.eq_ofNat_of_zero_le hj
  obtain ⟨k, rfl⟩ := Int.eq_ofNat_of_zero_le hk
  have m0 : i ∈ rangeTo ((mx 0 - mn 0) / a) := by
    apply mem_rangeTo
    rw [le_div_iff₀ ha]
    push_cast at hm0
    nlinarith [hm0.2]
  have m1 : j ∈ rangeTo ((mx 1 - mn 1) / (a * Real.sqrt 3 / 2)) := by
    apply mem_rangeTo
    rw [le_div_iff₀ (by positivity)]
    push_cast at hm1
    have : 0 ≤ a * (Real.sqrt 3 / 2) * (((k : ℤ) % 2 : ℤ) / 3 : ℝ) := by positivity
    push_cast at this
    nlinarith [hm1.2]
  have m2 : k ∈ rangeTo ((mx 2 - mn 2) / (a * Real.sqrt 6 / 3)) := by
    apply mem_rangeTo
    rw [le_div_iff₀ (by positivity)]
    push_cast at hm2
    nlinarith [hm2.2]
  rw [List.mem_filter]
  refine ⟨List.mem_map.mpr ⟨(i, j, k), mem_product.mpr ⟨m0, m1, m2⟩, ?_⟩, by simpa using hin⟩
  have c1 : ((((j : ℤ) + (k : ℤ)) % 2 : ℤ) : ℝ) = (((j + k) % 2 : Nat) : ℝ) := by norm_cast
  have c2 : (((k : ℤ) % 2 : ℤ) : ℝ) = ((k % 2 : Nat) : ℝ) := by norm_cast
  apply v3_ext
  · simp [hexaPoint, hcp]; rw [c1]; ring
  · simp [hexaPoint, hcp]; rw [c2]; ring
  · simp [hexaPoint, hcp]; ring

theorem finiteBox_box (mn mx : V3) : finiteBox (.box mn mx) = .ok (mn, mx) := by
  have : ¬ ∃ i, fin mx i - fin mn i = ⊤ := by
    rintro ⟨i, hi⟩
    simp only [fin] at hi
    rw [← EReal.coe_sub] at hi
    exact EReal.coe_ne_top _ hi
  simp only [finiteBox, Solid.aabb]
  rw [if_neg this]
  simp [fin]

/-- C143 is violated by regular orthogonal packings: into a cube just as wide as the sphere no sphere is put, as the end of a range is
left out. -/
theorem C143_violated : ∃ s : Solid, s = .box 0 ![2, 2, 2] ∧ regularOrtho s 1 0 = .ok [] ∧ s.inside ![1, 1, 1] 1 := by
  refine ⟨_, rfl, ?_, ?_⟩
  · have h : arange (0 + 1) (2 - 1) (2 * 1 + 0) = .ok [] := by
      rw [arange, if_neg (by norm_num)]
      norm_num
    rw [regularOrtho, finiteBox_box, Res.bind_ok]
    simp only [Matrix.cons_val_zero, Matrix.cons_val_one, Matrix.cons_val, Pi.zero_apply]
    rw [h]
    simp [product]
  · rw [Solid.inside]
    intro i
    fin_cases i <;> simp <;> norm_num

/-- Hypotheses of `C142_ortho`, `C142_hexa`, `C143_ortho_partial` and `C143_hexa` met. -/
example : ∃ (s : Solid) (r gap : ℝ) (l m : List V3), s = .box 0 ![4, 4, 4] ∧ s.Proper ∧ s.Plain ∧ 0 ≤ r ∧ 0 < 2 * r + gap ∧
    regularOrtho s r gap = .ok l ∧ regularHexa s r gap = .ok m ∧ ![1.5, 1.5, 1.5] ∈ l := by
  have h0 : (0 : ℝ) < 2 * 0.5 + 0 := by norm_num
  obtain ⟨l, hl⟩ : ∃ l, regularOrtho (.box 0 ![4, 4, 4]) 0.5 0 = .ok l := by
    simp only [regularOrtho, finiteBox_box, Res.bind_ok, arange, if_neg h0.ne']
    exact ⟨_, rfl⟩
  obtain ⟨m, hm⟩ : ∃ l, regularHexa (.box 0 ![4, 4, 4]) 0.5 0 = .ok l := by
    simp only [regularHexa, finiteBox_box, Res.bind_ok, if_neg h0.ne']
    exact ⟨_, rfl⟩
  refine ⟨_, 0.5, 0, l, m, rfl, trivial, trivial, by norm_num, by norm_num, hl, hm, ?_⟩
  obtain ⟨mn, mx, hb, h⟩ := C143_ortho_partial (s := .box 0 ![4, 4, 4]) trivial trivial (by norm_num) h0 hl
  rw [finiteBox_box] at hb
  have hb := Res.ok.inj hb
  have e1 : mn = 0 := (congrArg Prod.fst hb).symm
  have e2 : mx = ![4, 4, 4] := (congrArg Prod.snd hb).symm
  subst e1 e2
  apply h (fun _ => 1)
  · intro i
    fin_cases i <;> simp <;> norm_num
  · intro i
    fin_cases i <;> simp <;> norm_num
  · rw [Solid.inside]
    intro i
    fin_cases i <;> simp <;> norm_num

end Verif.Pack
