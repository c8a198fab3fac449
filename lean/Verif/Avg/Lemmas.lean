import Verif.Avg.Poly
import Mathlib.Algebra.Order.BigOperators.Group.List
import Mathlib.Algebra.BigOperators.Ring.List
import Mathlib.Data.List.Nodup

/-!
# Lemmas on grids and averages
-/
namespace Verif.Avg

theorem mem_span {a b k : ℤ} : k ∈ span a b ↔ a ≤ k ∧ k ≤ b := by
  simp only [span, List.mem_map, List.mem_range]
  constructor
  · rintro ⟨n, hn, rfl⟩; omega
  · rintro ⟨h1, h2⟩; exact ⟨(k - a).toNat, by omega, by omega⟩

theorem span_nodup (a b : ℤ) : (span a b).Nodup :=
  List.Nodup.map (fun _ _ h => by simpa using h) List.nodup_range

theorem toInt_ok {x : ℝ} {i : ℤ} (h : toInt x = .ok i) : i = ⌊x⌋ ∧ -2147483648 ≤ x ∧ x < 2147483648 := by
  unfold toInt at h
  split_ifs at h with hx
  simp only [Res.ok.injEq] at h
  exact ⟨h.symm, hx⟩

theorem has_iff {g : Grid} {c : ℤ × ℤ} : g.has c = true ↔ 0 ≤ c.1 ∧ c.1 < g.nx ∧ 0 ≤ c.2 ∧ c.2 < g.ny := by
  simp [Grid.has]

theorem cell_ok {g : Grid} {x y : ℝ} {c : ℤ × ℤ} (h : g.cell x y = .ok c) :
    g.nx ≠ 0 ∧ g.ny ≠ 0 ∧ g.sx ≠ 0 ∧ g.sy ≠ 0 ∧ c.1 = ⌊(x - g.lox) / g.sx⌋ ∧ c.2 = ⌊(y - g.loy) / g.sy⌋ := by
  unfold Grid.cell at h
  split_ifs at h with h0
  push Not at h0
  cases h1 : toInt ((x - g.lox) / g.sx) with
  | ub => rw [h1] at h; simp at h
  | throws => rw [h1] at h; simp at h
  | ok i =>
    cases h2 : toInt ((y - g.loy) / g.sy) with
    | ub => rw [h1, h2] at h; simp at h
    | throws => rw [h1, h2] at h; simp at h
    | ok j =>
      rw [h1, h2] at h
      simp only [Res.bind_ok, Res.ok.injEq] at h
      subst h
      exact ⟨h0.1, h0.2.1, h0.2.2.1, h0.2.2.2, (toInt_ok h1).1, (toInt_ok h2).1⟩

/-- A coordinate and its cell. -/
theorem floor_cell {lo s x : ℝ} {i : ℤ} (hs : 0 < s) (h : i = ⌊(x - lo) / s⌋) : lo + i * s ≤ x ∧ x < lo + (i + 1) * s := by
  have h1 : (i : ℝ) ≤ (x - lo) / s := by rw [h]; exact Int.floor_le _
  have h2 : (x - lo) / s < i + 1 := by rw [h]; exact Int.lt_floor_add_one _
  rw [le_div_iff₀ hs] at h1
  rw [div_lt_iff₀ hs] at h2
  constructor <;> linarith

theorem floor_cell_iff {lo s x : ℝ} {i : ℤ} (hs : 0 < s) : i = ⌊(x - lo) / s⌋ ↔ lo + i * s ≤ x ∧ x < lo + (i + 1) * s := by
  refine ⟨floor_cell hs, fun h => ?_⟩
  symm
  rw [Int.floor_eq_iff, le_div_iff₀ hs, div_lt_iff₀ hs]
  constructor <;> linarith [h.1, h.2]

theorem floor_mono_cell {lo s x y : ℝ} (hs : 0 < s) (h : x ≤ y) : ⌊(x - lo) / s⌋ ≤ ⌊(y - lo) / s⌋ :=
  Int.floor_le_floor (div_le_div_of_nonneg_right (by linarith) hs.le)

/-- What `ellipse` gives. -/
theorem ellipse_ok {g : Grid} {x y rx ry : ℝ} {l : List (ℤ × ℤ)} (h : g.ellipse x y rx ry = .ok l) :
    ∃ a b c, g.cell (x - rx) (y - ry) = .ok a ∧ g.cell (x + rx) (y + ry) = .ok b ∧ g.cell x y = .ok c ∧
      ∀ m, m ∈ l ↔ (a.1 ≤ m.1 ∧ m.1 ≤ b.1 ∧ a.2 ≤ m.2 ∧ m.2 ≤ b.2) ∧ g.has m = true ∧ g.passes x y rx ry c m = true := by
  unfold Grid.ellipse Grid.rectangle at h
  cases h1 : g.cell (x - rx) (y - ry) with
  | ub => rw [h1] at h; simp at h
  | throws => rw [h1] at h; simp at h
  | ok a =>
    cases h2 : g.cell (x + rx) (y + ry) with
    | ub => rw [h1, h2] at h; simp at h
    | throws => rw [h1, h2] at h; simp at h
    | ok b =>
      cases h3 : g.cell x y with
      | ub => rw [h1, h2, h3] at h; simp at h
      | throws => rw [h1, h2, h3] at h; simp at h
      | ok c =>
        rw [h1, h2, h3] at h
        simp only [Res.bind_ok, Res.ok.injEq] at h
        refine ⟨a, b, c, rfl, rfl, rfl, ?_⟩
        rintro ⟨i, j⟩
        rw [← h]
        simp only [List.mem_filter, List.mem_flatMap, List.mem_map, mem_span, Prod.mk.injEq]
        constructor
        · rintro ⟨⟨⟨u, hu, v, hv, rfl, rfl⟩, h5⟩, h6⟩
          exact ⟨⟨hu.1, hu.2, hv.1, hv.2⟩, h5, h6⟩
        · rintro ⟨⟨p1, p2, p3, p4⟩, h5, h6⟩
          exact ⟨⟨⟨i, ⟨p1, p2⟩, j, ⟨p3, p4⟩, rfl, rfl⟩, h5⟩, h6⟩

/-- What `used` gives. -/
theorem used_ok {a : GA} {x y : ℝ} {l : List Pt} (h : a.used x y = .ok l) :
    ∃ cs, a.grid.ellipse x y (a.sd * a.rt) (a.sd * a.rt) = .ok cs ∧ l = cs.flatMap fun c => a.grid.cells c.1 c.2 := by
  unfold GA.used at h
  cases h1 : a.grid.ellipse x y (a.sd * a.rt) (a.sd * a.rt) with
  | ub => rw [h1] at h; simp at h
  | throws => rw [h1] at h; simp at h
  | ok cs =>
    rw [h1] at h
    simp only [Res.bind_ok, Res.ok.injEq] at h
    exact ⟨cs, rfl, h.symm⟩

/-- What `avg` gives. -/
theorem avg_ok {a : GA} {x y : ℝ} {v : Option ℝ} (h : a.avg x y = .ok v) (hc : clipped a.clips ⟨x, y⟩ = false) :
    ∃ l, a.used x y = .ok l ∧
      v = if (l.map (a.weight x y)).sum = 0 then none
        else some ((l.map fun p => a.weight x y p * p.val).sum / (l.map (a.weight x y)).sum) := by
  unfold GA.avg GA.sums at h
  rw [hc] at h
  simp only [Bool.false_eq_true, if_false] at h
  cases h1 : a.used x y with
  | ub => rw [h1] at h; simp at h
  | throws => rw [h1] at h; simp at h
  | ok l =>
    rw [h1] at h
    simp only [Res.bind_ok, Res.ok.injEq] at h
    exact ⟨l, rfl, h.symm⟩

theorem weight_nonneg {a : GA} (h0 : 0 < a.sd0) (x y : ℝ) (p : Pt) : 0 ≤ a.weight x y p := by
  unfold GA.weight
  split_ifs
  · exact le_refl _
  · exact div_nonneg (Real.exp_nonneg _) (mul_nonneg h0.le (Real.sqrt_nonneg _))

theorem weight_pos {a : GA} (h0 : 0 < a.sd0) {x y : ℝ} {p : Pt} (h : (x - p.x) ^ 2 + (y - p.y) ^ 2 ≤ (a.rt * a.sd) ^ 2) :
    0 < a.weight x y p := by
  unfold GA.weight
  rw [if_neg (not_lt.mpr h)]
  exact div_pos (Real.exp_pos _) (mul_pos h0 (Real.sqrt_pos.mpr (by positivity)))

theorem weight_far {a : GA} {x y : ℝ} {p : Pt} (h : (a.rt * a.sd) ^ 2 < (x - p.x) ^ 2 + (y - p.y) ^ 2) : a.weight x y p = 0 := by
  unfold GA.weight; rw [if_pos h]

/-- Weighted sums are between bounds. -/
theorem weighted_bounds (l : List Pt) (w : Pt → ℝ) (m M : ℝ) (hw : ∀ p ∈ l, 0 ≤ w p)
    (hb : ∀ p ∈ l, w p ≠ 0 → m ≤ p.val ∧ p.val ≤ M) :
    m * (l.map w).sum ≤ (l.map fun p => w p * p.val).sum ∧ (l.map fun p => w p * p.val).sum ≤ M * (l.map w).sum := by
  induction l with
  | nil => simp
  | cons p l ih =>
    obtain ⟨i1, i2⟩ := ih (fun q hq => hw q (by simp [hq])) (fun q hq => hb q (by simp [hq]))
    simp only [List.map_cons, List.sum_cons, mul_add]
    have h0 := hw p (by simp)
    by_cases hz : w p = 0
    · rw [hz]; constructor <;> linarith
    · obtain ⟨b1, b2⟩ := hb p (by simp) hz
      have c1 := mul_le_mul_of_nonneg_left b1 h0
      have c2 := mul_le_mul_of_nonneg_left b2 h0
      constructor <;> linarith

/-- One more element in one of the lists. -/
theorem flatMap_push {α β : Type*} {l : List α} (hl : l.Nodup) {f f' : α → List β} {k : α} {p : β} (hk : k ∈ l)
    (h1 : (f' k).Perm (p :: f k)) (h2 : ∀ i, i ≠ k → f' i = f i) : (l.flatMap f').Perm (p :: l.flatMap f) := by
  induction l with
  | nil => simp at hk
  | cons a l ih =>
    rw [List.nodup_cons] at hl
    simp only [List.flatMap_cons]
    by_cases ha : a = k
    · subst ha
      have : l.flatMap f' = l.flatMap f := by
        apply List.flatMap_congr
        intro i hi
        exact h2 i (fun h => hl.1 (h ▸ hi))
      rw [this]
      exact h1.append_right _
    · have hk' : k ∈ l := by
        rcases List.mem_cons.mp hk with h | h
        · exact absurd h.symm ha
        · exact h
      rw [h2 a ha]
      exact ((ih hl.2 hk').append_left _).trans List.perm_middle

end Verif.Avg
