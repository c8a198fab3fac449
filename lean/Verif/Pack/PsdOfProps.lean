import Verif.Pack.DensityProps
import Mathlib.Algebra.Order.BigOperators.Group.List

/-!
# C154: the size distribution of a packing
-/
namespace Verif.Pack
open Verif.Mech
open scoped Classical

/-- The share of the spheres below a diameter, by volume or by number. -/
noncomputable def shareBelow (mass : Bool) (l : List Sph) (d : ℝ) : ℝ :=
  if mass then ((l.filter fun s => 2 * s.r < d).map fun s => s.r ^ 3).sum / (l.map fun s => s.r ^ 3).sum
  else ((l.filter fun s => 2 * s.r < d).length : ℝ) / l.length

/-! ## Lemmas -/

/-- The weight of the spheres with the given property. -/
noncomputable def weightOf (w : Sph → ℝ) (p : Sph → Prop) (l : List Sph) : ℝ := ((l.filter fun s => p s).map w).sum

theorem weightOf_cons (w : Sph → ℝ) (p : Sph → Prop) (s : Sph) (l : List Sph) :
    weightOf w p (s :: l) = (if p s then w s else 0) + weightOf w p l := by
  rw [weightOf, List.filter_cons]
  by_cases h : p s <;> simp [h, weightOf]

theorem histogram_get (w : Sph → ℝ) (bin : Sph → Nat) (l : List Sph) (init : List ℝ) (b : Nat) (x : ℝ) (hx : init[b]? = some x) :
    (l.foldl (fun hist s => hist.modify (bin s) (· + w s)) init)[b]? = some (x + weightOf w (fun s => bin s = b) l) := by
  induction l generalizing init x with
  | nil => simp [weightOf, hx]
  | cons s l ih =>
    have hm : (init.modify (bin s) fun x => x + w s)[b]? = some (x + if bin s = b then w s else 0) := by
      by_cases h : bin s = b <;> simp [List.getElem?_modify, hx, h]
    rw [List.foldl_cons, ih _ _ hm, weightOf_cons, add_assoc]
    by_cases h : bin s = b <;> simp [h]

theorem histogram_length (w : Sph → ℝ) (bin : Sph → Nat) (l : List Sph) (init : List ℝ) :
    (l.foldl (fun hist s => hist.modify (bin s) (· + w s)) init).length = init.length := by
  induction l generalizing init with
  | nil => rfl
  | cons s l ih => rw [List.foldl_cons, ih, List.length_modify]

theorem weightOf_lt_succ (w : Sph → ℝ) (bin : Sph → Nat) (l : List Sph) (i : Nat) :
    weightOf w (fun s => bin s < i + 1) l = weightOf w (fun s => bin s < i) l + weightOf w (fun s => bin s = i) l := by
  induction l with
  | nil => simp [weightOf]
  | cons s l ih =>
    rw [weightOf_cons, weightOf_cons, weightOf_cons, ih]
    rcases lt_trichotomy (bin s) i with h | h | h
    · rw [if_pos (by omega), if_pos h, if_neg h.ne]; ring
    · rw [if_pos (by omega), if_neg (by omega), if_pos h]; ring
    · rw [if_neg (by omega), if_neg (by omega), if_neg (by omega)]; ring

theorem take_sum (w : Sph → ℝ) (bin : Sph → Nat) (l : List Sph) (hist : List ℝ)
    (h : ∀ b < hist.length, hist[b]? = some (weightOf w (fun s => bin s = b) l)) (i : Nat) (hi : i ≤ hist.length) :
    (hist.take i).sum = weightOf w (fun s => bin s < i) l := by
  induction i with
  | zero => simp [weightOf]
  | succ i ih =>
    rw [List.take_add_one, List.sum_append, ih (by omega), h i (by omega), weightOf_lt_succ]
    simp

theorem cumulate_get (h : List ℝ) (acc : ℝ) (hle : ∀ i ≤ h.length, acc + (h.take i).sum ≤ 1) (i : Nat) (hi : i ≤ h.length) :
    (cumulate acc h)[i]? = some (acc + (h.take i).sum) := by
  induction h generalizing acc i with
  | nil => simp at hi; simp [hi, cumulate]
  | cons x t ih =>
    have h1 := hle 1 (by simp)
    simp only [List.take_succ_cons, List.take_zero, List.sum_cons, List.sum_nil, add_zero] at h1
    rw [cumulate, min_eq_right h1]
    cases i with
    | zero => simp
    | succ i =>
      rw [List.getElem?_cons_succ, ih]
      · simp [add_assoc]
      · intro j hj
        have := hle (j + 1) (by simpa using hj)
        simpa [add_assoc] using this
      · simpa using hi

theorem cumulate_length (h : List ℝ) (acc : ℝ) : (cumulate acc h).length = h.length + 1 := by
  induction h generalizing acc with
  | nil => rfl
  | cons x t ih => rw [cumulate, List.length_cons, ih, List.length_cons]

theorem weightOf_le {w : Sph → ℝ} {l : List Sph} (hw : ∀ s ∈ l, 0 ≤ w s) (p : Sph → Prop) : weightOf w p l ≤ (l.map w).sum := by
  induction l with
  | nil => simp [weightOf]
  | cons s l ih =>
    rw [weightOf_cons, List.map_cons, List.sum_cons]
    have := hw s (List.mem_cons_self ..)
    have := ih fun t ht => hw t (List.mem_cons_of_mem _ ht)
    split_ifs <;> linarith

theorem weightOf_all {w : Sph → ℝ} {l : List Sph} {p : Sph → Prop} (hp : ∀ s ∈ l, p s) : weightOf w p l = (l.map w).sum := by
  rw [weightOf, List.filter_eq_self.mpr (by simpa using hp)]

theorem weightOf_congr {w : Sph → ℝ} {l : List Sph} {p q : Sph → Prop} (h : ∀ s ∈ l, (p s ↔ q s)) : weightOf w p l = weightOf w q l := by
  have : l.filter (fun s => decide (p s)) = l.filter (fun s => decide (q s)) :=
    List.filter_congr fun s hs => decide_eq_decide.mpr (h s hs)
  rw [weightOf, weightOf, this]

/-- What `extrema` finds. -/
theorem extrema_spec {l : List Sph} (h0 : l ≠ []) : ∃ lo hi a b, extrema l = some (a, b) ∧
    (∃ s ∈ l, 2 * s.r = lo) ∧ (∃ s ∈ l, 2 * s.r = hi) ∧ (∀ s ∈ l, lo ≤ 2 * s.r ∧ 2 * s.r ≤ hi) ∧
    (lo ≠ hi → a = lo ∧ b = hi) ∧ (lo = hi → a = lo - 0.5 ∧ b = hi + 0.5) := by
  cases l with
  | nil => exact absurd rfl h0
  | cons s l =>
    have e1 : (fun (m : ℝ) (s : Sph) => min (2 * s.r) m) = fun m s => min m (2 * s.r) := by funext m s; exact min_comm _ _
    have e2 : (fun (m : ℝ) (s : Sph) => max (2 * s.r) m) = fun m s => max m (2 * s.r) := by funext m s; exact max_comm _ _
    obtain ⟨a1, a2, a3⟩ := foldl_minOf (fun s => 2 * s.r) l (2 * s.r)
    obtain ⟨b1, b2, b3⟩ := foldl_maxOf (fun s => 2 * s.r) l (2 * s.r)
    simp only [extrema, e1, e2]
    generalize l.foldl (fun m s => min m (2 * s.r)) (2 * s.r) = lo at *
    generalize l.foldl (fun m s => max m (2 * s.r)) (2 * s.r) = hi at *
    have c1 : ∃ t ∈ s :: l, 2 * t.r = lo := by
      rcases a3 with h | ⟨t, ht, h⟩
      · exact ⟨s, List.mem_cons_self .., h.symm⟩
      · exact ⟨t, List.mem_cons_of_mem _ ht, h.symm⟩
    have c2 : ∃ t ∈ s :: l, 2 * t.r = hi := by
      rcases b3 with h | ⟨t, ht, h⟩
      · exact ⟨s, List.mem_cons_self .., h.symm⟩
      · exact ⟨t, List.mem_cons_of_mem _ ht, h.symm⟩
    have c3 : ∀ t ∈ s :: l, lo ≤ 2 * t.r ∧ 2 * t.r ≤ hi := by
      intro t ht
      rcases List.mem_cons.mp ht with rfl | ht
      · exact ⟨a1, b1⟩
      · exact ⟨a2 t ht, b2 t ht⟩
    by_cases h : lo = hi
    · rw [if_pos h]
      exact ⟨lo, hi, _, _, rfl, c1, c2, c3, fun h' => absurd h h', fun _ => ⟨rfl, rfl⟩⟩
    · rw [if_neg h]
      exact ⟨lo, hi, _, _, rfl, c1, c2, c3, fun _ => ⟨rfl, rfl⟩, fun h' => absurd h' h⟩

/-- A sphere is below the `i`-th edge exactly if its bin is. -/
theorem binOf_lt {n : Nat} {a b d : ℝ} (hn : 0 < n) (hab : a < b) (hd : a ≤ d) {i : Nat} (hi : i < n) :
    binOf n a b d < i ↔ d < a + i * (b - a) / n := by
  have hba : 0 < b - a := sub_pos.mpr hab
  have hn' : (0 : ℝ) < n := by exact_mod_cast hn
  have h0 : 0 ≤ (n : ℝ) * (d - a) / (b - a) := div_nonneg (mul_nonneg hn'.le (sub_nonneg.mpr hd)) hba.le
  have e : binOf n a b d < i ↔ ⌊(n : ℝ) * (d - a) / (b - a)⌋ < (i : ℤ) := by
    rw [binOf]
    have := Int.floor_nonneg.mpr h0
    omega
  rw [e, Int.floor_lt, div_lt_iff₀ hba, ← sub_lt_iff_lt_add', lt_div_iff₀ hn']
  push_cast
  rw [mul_comm (n : ℝ)]

/-! ## C154 -/

/-- C154.  The size distribution of a packing with spheres of positive radius: edges are evenly spaced from the smallest to the largest
diameter (half a unit beyond if all are equal), and at each edge but the last the value is the share of the spheres with a smaller
diameter; at the last it is 1.  Missing: the order of the lists returned, see `C154_violated_order`. -/
theorem C154_psd_partial {l : List Sph} (h0 : l ≠ []) (hr : ∀ s ∈ l, 0 < s.r) {bins : Int} (hb : 0 < bins) (mass : Bool) :
    ∃ edges cumm lo hi, psd bins mass l = .ok (edges, cumm) ∧ (edges.length : Int) = bins + 1 ∧ (cumm.length : Int) = bins + 1 ∧
    (∀ s ∈ l, lo ≤ 2 * s.r ∧ 2 * s.r ≤ hi) ∧ lo < hi ∧
    ((∃ s ∈ l, ∃ t ∈ l, s.r ≠ t.r) → (∃ s ∈ l, 2 * s.r = lo) ∧ ∃ s ∈ l, 2 * s.r = hi) ∧
    ((∀ s ∈ l, ∀ t ∈ l, s.r = t.r) → hi = lo + 1 ∧ ∀ s ∈ l, 2 * s.r = (lo + hi) / 2) ∧
    (∀ i : Nat, i ≤ bins → edges[i]? = some (lo + i * (hi - lo) / bins)) ∧
    (∀ i : Nat, i < bins → cumm[i]? = some (shareBelow mass l (lo + i * (hi - lo) / bins))) ∧
    cumm[bins.toNat]? = some 1 := by
  obtain ⟨lo, hi, a, b, he, hlo, hhi, hall, hne, heq⟩ := extrema_spec h0
  obtain ⟨n, rfl⟩ := Int.eq_ofNat_of_zero_le hb.le
  have hn : 0 < n := by exact_mod_cast hb
  have hn' : (n : ℝ) ≠ 0 := by exact_mod_cast hn.ne'
  have hlohi : lo ≤ hi := by obtain ⟨s, hs, -⟩ := hlo; exact (hall s hs).1.trans (hall s hs).2
  have hab : a < b := by
    by_cases h : lo = hi
    · obtain ⟨e1, e2⟩ := heq h; rw [e1, e2, h]; norm_num; linarith
    · obtain ⟨e1, e2⟩ := hne h; rw [e1, e2]; exact lt_of_le_of_ne hlohi h
  have hall' : ∀ s ∈ l, a ≤ 2 * s.r ∧ 2 * s.r ≤ b := by
    intro s hs
    obtain ⟨k1, k2⟩ := hall s hs
    by_cases h : lo = hi
    · obtain ⟨e1, e2⟩ := heq h
      rw [e1, e2]
      norm_num
      constructor <;> linarith
    · obtain ⟨e1, e2⟩ := hne h; rw [e1, e2]; exact ⟨k1, k2⟩
  have hsum : 0 < (l.map fun s => s.r ^ 3).sum := by
    refine List.sum_pos _ ?_ (by simpa using h0)
    intro v hv
    obtain ⟨t, ht, rfl⟩ := List.mem_map.mp hv
    exact pow_pos (hr t ht) 3
  have hlen : (0 : ℝ) < l.length := by exact_mod_cast List.length_pos_of_ne_nil h0
  set w : Sph → ℝ := fun s => if mass then s.r ^ 3 / (l.map fun s => s.r ^ 3).sum else 1 / l.length with hw
  have hw0 : ∀ s ∈ l, 0 ≤ w s := by
    intro s hs
    simp only [hw]
    split_ifs
    · exact div_nonneg (pow_nonneg (hr s hs).le 3) hsum.le
    · positivity
  have div_sum : ∀ (m : List Sph) (v : ℝ), (m.map fun s => s.r ^ 3 / v).sum = (m.map fun s => s.r ^ 3).sum / v := by
    intro m v
    induction m with
    | nil => simp
    | cons s m ih => simp [ih, add_div]
  have weight : ∀ p : Sph → Prop, weightOf w p l = if mass then ((l.filter fun s => p s).map fun s => s.r ^ 3).sum / (l.map fun s => s.r ^ 3).sum
      else ((l.filter fun s => p s).length : ℝ) / l.length := by
    intro p
    rw [weightOf, hw]
    cases mass
    · simp [div_eq_mul_inv]
    · simp only [if_true]; rw [div_sum]
  have htot : (l.map w).sum = 1 := by
    have := weight fun _ => True
    rw [weightOf_all fun _ _ => trivial] at this
    rw [this]
    split_ifs
    · simp [hsum.ne']
    · simp [hlen.ne']
  set hist := histogram n a b w l with hh
  have hhl : hist.length = n := by rw [hh, histogram, histogram_length, List.length_replicate]
  have hget : ∀ j < hist.length, hist[j]? = some (weightOf w (fun s => binOf n a b (2 * s.r) = j) l) := by
    intro j hj
    rw [hh, histogram, histogram_get w (fun s => binOf n a b (2 * s.r)) l _ j 0, zero_add]
    rw [hhl] at hj
    simp [hj]
  have htake := take_sum w (fun s => binOf n a b (2 * s.r)) l hist hget
  have hle : ∀ i ≤ hist.length, 0 + (hist.take i).sum ≤ 1 := by
    intro i hi
    rw [zero_add, htake i hi, ← htot]
    exact weightOf_le hw0 _
  have hcum := cumulate_get hist 0 hle
  refine ⟨(List.range (n + 1)).map fun (i : Nat) => a + i * (b - a) / n, cumulate 0 hist, a, b, ?_, ?_, ?_, hall', hab, ?_, ?_, ?_, ?_, ?_⟩
  · rw [psd, he]
    simp only [sum_foldl, zero_add]
    rw [if_neg (by omega), if_neg (by omega), if_neg (by simp [hsum.ne'])]
    simp only [Int.toNat_natCast, Int.ofNat_eq_natCast]
    rfl
  · simp
  · rw [cumulate_length, hhl]; simp
  · rintro ⟨s, hs, t, ht, hst⟩
    have h : lo ≠ hi := by
      intro h
      have h1 := hall s hs
      have h2 := hall t ht
      exact hst (by linarith [h1.1, h1.2, h2.1, h2.2])
    obtain ⟨e1, e2⟩ := hne h
    rw [e1, e2]
    exact ⟨hlo, hhi⟩
  · intro hsame
    have h : lo = hi := by
      obtain ⟨s, hs, e1⟩ := hlo
      obtain ⟨t, ht, e2⟩ := hhi
      rw [← e1, ← e2, hsame s hs t ht]
    obtain ⟨e1, e2⟩ := heq h
    rw [e1, e2, h]
    refine ⟨by ring, fun s hs => ?_⟩
    have := hall s hs
    linarith
  · intro i hi
    have : i < n + 1 := by
      have : (i : ℤ) ≤ (n : ℤ) := hi
      omega
    simp [this]
  · intro i hi
    have hin : i < n := by have : (i : ℤ) < (n : ℤ) := hi; omega
    rw [hcum i (by omega), zero_add, htake i (by omega)]
    congr 1
    rw [weightOf_congr (q := fun s => 2 * s.r < a + i * (b - a) / n) fun s hs => binOf_lt hn hab (hall' s hs).1 hin, weight]
    simp [shareBelow]
  · rw [Int.toNat_natCast, hcum n (by omega), zero_add, htake n (by omega), weightOf_all, htot]
    intro s _
    rw [binOf]
    omega

/-- Two spheres in four bins. -/
example : ∃ edges cumm, psd 4 true [{ c := 0, r := 1 }, { c := ![9, 0, 0], r := 2 }] = .ok (edges, cumm) ∧ edges.length = 5 := by
  obtain ⟨edges, cumm, lo, hi, h, h1, -⟩ := C154_psd_partial (l := [{ c := 0, r := 1 }, { c := ![9, 0, 0], r := 2 }]) (by simp)
    (by simp) (bins := 4) (by norm_num) true
  exact ⟨edges, cumm, h, by omega⟩

/-- C154, the other outcomes. -/
theorem C154_empty (bins : Int) (mass : Bool) : psd bins mass [] = .ok ([], []) := rfl

/-- C154 is violated by the order of the lists: the documentation says that the cumulated shares come first, but the edges do. -/
theorem C154_violated_order : ∃ (l : List Sph) (first second : List ℝ), psd 1 false l = .ok (first, second) ∧ first = [1.5, 2.5] ∧ second = [0, 1] := by
  refine ⟨[{ c := 0, r := 1 }], [1.5, 2.5], [0, 1], ?_, rfl, rfl⟩
  have hd : ∃ edges cumm, psd 1 false [{ c := 0, r := 1 }] = .ok (edges, cumm) ∧ edges = [1.5, 2.5] ∧ cumm = [0, 1] := by
    refine ⟨_, _, ?_, rfl, rfl⟩
    simp only [psd, extrema, List.foldl_nil]
    norm_num [histogram, binOf, cumulate, List.range_succ]
  obtain ⟨e, c, h, rfl, rfl⟩ := hd
  exact h

end Verif.Pack
