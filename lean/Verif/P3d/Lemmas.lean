import Verif.P3d.Model
import Mathlib.Tactic.Ring
import Mathlib.Tactic.FieldSimp
import Mathlib.Tactic.Linarith
import Mathlib.Data.Rat.Cast.Order

/-! # Paths followed step by step -/
namespace Verif.P3d

/-- Steps at the ends of parts, beginning with zero. -/
def knot (n : ℕ → ℕ) (i : ℕ) : ℕ := if i = 0 then 0 else n (i - 1)

/-- Values at the ends of parts, beginning with zero. -/
noncomputable def level (p : List (ℝ × ℝ)) (i : ℕ) : ℝ := if i = 0 then 0 else (p.getD (i - 1) (0, 0)).2

/-- A scaled path with whole numbers of steps. -/
structure Good (p : List (ℝ × ℝ)) (N : ℤ) (n : ℕ → ℕ) : Prop where
  ne : p ≠ []
  time : ∀ i < p.length, (p.getD i (0, 0)).1 * N = n i
  pos : 0 < n 0
  inc : ∀ i, i + 1 < p.length → n i < n (i + 1)
  last : (n (p.length - 1) : ℤ) = N

/-- The line of a part. -/
noncomputable def line (p : List (ℝ × ℝ)) (n : ℕ → ℕ) (i : ℕ) (k : ℝ) : ℝ :=
  level p i + (level p (i + 1) - level p i) * (k - knot n i) / (knot n (i + 1) - knot n i)

/-- The state of one component before step `k`. -/
structure Track (p : List (ℝ × ℝ)) (n : ℕ → ℕ) (k c : ℕ) (x : ℝ) : Prop where
  part : c < p.length
  lo : knot n c ≤ k
  hi : k ≤ knot n (c + 1)
  val : x = line p n c k

theorem knot_lt {p : List (ℝ × ℝ)} {N : ℤ} {n : ℕ → ℕ} (h : Good p N n) {i : ℕ} (hi : i < p.length) : knot n i < knot n (i + 1) := by
  unfold knot
  rw [if_neg (by omega : ¬ i + 1 = 0), Nat.add_sub_cancel]
  split_ifs with h0
  · subst h0; exact h.pos
  · have := h.inc (i - 1) (by omega)
    rwa [Nat.sub_add_cancel (by omega)] at this

theorem knot_mono {p : List (ℝ × ℝ)} {N : ℤ} {n : ℕ → ℕ} (h : Good p N n) : ∀ {i j : ℕ}, i ≤ j → j ≤ p.length → knot n i ≤ knot n j := by
  intro i j hij
  induction j, hij using Nat.le_induction with
  | base => intro _; exact le_rfl
  | succ j hij ih => intro hj; exact le_trans (ih (by omega)) (knot_lt h (by omega)).le

theorem knot_strict {p : List (ℝ × ℝ)} {N : ℤ} {n : ℕ → ℕ} (h : Good p N n) {i j : ℕ} (hij : i < j) (hj : j ≤ p.length) : knot n i < knot n j :=
  lt_of_lt_of_le (knot_lt h (by omega)) (knot_mono h (by omega) hj)

theorem knot_last {p : List (ℝ × ℝ)} {N : ℤ} {n : ℕ → ℕ} (h : Good p N n) : (knot n p.length : ℤ) = N := by
  have : p.length ≠ 0 := fun h0 => h.ne (List.length_eq_zero_iff.1 h0)
  unfold knot; rw [if_neg this]; exact h.last

theorem line_end {p : List (ℝ × ℝ)} {N : ℤ} {n : ℕ → ℕ} (h : Good p N n) {i : ℕ} (hi : i < p.length) : line p n i (knot n (i + 1)) = level p (i + 1) := by
  have h1 : (knot n i : ℝ) < knot n (i + 1) := by exact_mod_cast knot_lt h hi
  have h2 : (knot n (i + 1) : ℝ) - knot n i ≠ 0 := by linarith
  unfold line; field_simp; ring

theorem line_begin (p : List (ℝ × ℝ)) (n : ℕ → ℕ) (i : ℕ) : line p n i (knot n i) = level p i := by
  unfold line; simp

/-- Whatever part contains the step, its line gives the value. -/
theorem Track.unique {p : List (ℝ × ℝ)} {N : ℤ} {n : ℕ → ℕ} {k c : ℕ} {x : ℝ} (h : Good p N n) (t : Track p n k c x) {i : ℕ} (hi : i < p.length)
    (h1 : knot n i ≤ k) (h2 : k ≤ knot n (i + 1)) : x = line p n i k := by
  have hc := t.part
  rcases Nat.lt_trichotomy i c with hic | hic | hic
  · have a := knot_mono h (show i + 1 ≤ c by omega) hc.le
    have b : k = knot n (i + 1) := le_antisymm h2 (le_trans a t.lo)
    have e : i + 1 = c := by
      by_contra hne
      have := knot_strict h (show i + 1 < c by omega) hc.le
      have := t.lo; omega
    rw [t.val, b, line_end h hi]
    subst e
    exact line_begin p n (i + 1)
  · subst hic; exact t.val
  · have a := knot_mono h (show c + 1 ≤ i by omega) hi.le
    have b : k = knot n (c + 1) := le_antisymm t.hi (le_trans a h1)
    have e : c + 1 = i := by
      by_contra hne
      have := knot_strict h (show c + 1 < i by omega) hi.le
      omega
    rw [t.val, b, line_end h hc]
    subst e
    exact (line_begin p n (c + 1)).symm

/-- The part of step `k`. -/
theorem count_step {p : List (ℝ × ℝ)} {N : ℤ} {n : ℕ → ℕ} {k c : ℕ} {x : ℝ} (h : Good p N n) (hN : 0 < N) (t : Track p n k c x) (hk : (k : ℤ) < N) :
    ∃ c', count (k / N) p c = .ok c' ∧ c' < p.length ∧ knot n c' ≤ k ∧ k < knot n (c' + 1) ∧ x = line p n c' k := by
  have hNr : (0 : ℝ) < N := by exact_mod_cast hN
  have htc := h.time c t.part
  have hkn : knot n (c + 1) = n c := by unfold knot; rw [if_neg (by omega), Nat.add_sub_cancel]
  have hiff : ((k : ℝ) / N ≥ (p.getD c (0, 0)).1) ↔ n c ≤ k := by
    rw [ge_iff_le, le_div_iff₀ hNr, htc]; norm_cast
  unfold count
  rw [if_pos t.part]
  by_cases hc : n c ≤ k
  · have hkc : k = knot n (c + 1) := le_antisymm t.hi (by rw [hkn]; exact hc)
    have hlt : c + 1 < p.length := by
      by_contra hge
      have he : c + 1 = p.length := by have := t.part; omega
      have := knot_last h
      rw [← he, ← hkc] at this; omega
    refine ⟨c + 1, by rw [if_pos (hiff.2 hc)], hlt, hkc.ge, ?_, ?_⟩
    · rw [hkc]; exact knot_lt h hlt
    · rw [t.val, hkc, line_end h t.part, line_begin]
  · refine ⟨c, by rw [if_neg fun hh => hc (hiff.1 hh)], t.part, t.lo, by rw [hkn]; omega, t.val⟩

/-- The rate of step `k` is the slope of the part. -/
theorem rate_step {p : List (ℝ × ℝ)} {N : ℤ} {n : ℕ → ℕ} {k c : ℕ} {g dt : ℝ} (h : Good p N n) (hN : 0 < N) (hg : p.length = 1 → (p.getD 0 (0, 0)).2 = g)
    (hc : c < p.length) (hk : (k : ℤ) < N) :
    rate (k / N) N dt g p c = .ok ((level p (c + 1) - level p c) / ((knot n (c + 1) - knot n c) * dt)) := by
  have hNr : (0 : ℝ) < N := by exact_mod_cast hN
  have hk1 : (k : ℝ) / N < 1 := by rw [div_lt_one hNr]; exact_mod_cast hk
  have l1 : level p (c + 1) = (p.getD c (0, 0)).2 := by unfold level; rw [if_neg (by omega), Nat.add_sub_cancel]
  have k1 : (knot n (c + 1) : ℝ) = (p.getD c (0, 0)).1 * N := by
    rw [h.time c hc]; unfold knot; rw [if_neg (by omega), Nat.add_sub_cancel]
  unfold rate
  by_cases h1 : p.length = 1
  · have c0 : c = 0 := by omega
    subst c0
    rw [if_pos h1, l1, hg h1]
    have : (knot n 1 : ℤ) = N := by rw [← h1]; exact knot_last h
    have e : ((knot n (0 + 1) : ℕ) : ℝ) = N := by exact_mod_cast this
    rw [e]; simp [level, knot]
  · rw [if_neg h1]
    by_cases c0 : c = 0
    · subst c0
      rw [if_pos rfl, l1, k1]; simp [level, knot]
    · rw [if_neg c0, if_pos hk1, if_pos hc, l1, k1]
      have l0 : level p c = (p.getD (c - 1) (0, 0)).2 := by unfold level; rw [if_neg c0]
      have k0 : (knot n c : ℝ) = (p.getD (c - 1) (0, 0)).1 * N := by
        rw [h.time (c - 1) (by omega)]; unfold knot; rw [if_neg c0]
      rw [l0, k0, sub_mul]

/-- One step later. -/
theorem track_step {p : List (ℝ × ℝ)} {N : ℤ} {n : ℕ → ℕ} {k c : ℕ} {x dt : ℝ} (h : Good p N n) (hdt : dt ≠ 0) (hc : c < p.length) (h1 : knot n c ≤ k)
    (h2 : k < knot n (c + 1)) (hx : x = line p n c k) :
    Track p n (k + 1) c (x + (level p (c + 1) - level p c) / ((knot n (c + 1) - knot n c) * dt) * dt) := by
  refine ⟨hc, by omega, h2, ?_⟩
  have h3 : (knot n c : ℝ) < knot n (c + 1) := by exact_mod_cast knot_lt h hc
  have h4 : (knot n (c + 1) : ℝ) - knot n c ≠ 0 := by linarith
  rw [hx]; unfold line; push_cast
  field_simp; ring

theorem track_zero {p : List (ℝ × ℝ)} {N : ℤ} {n : ℕ → ℕ} (h : Good p N n) : Track p n 0 0 0 :=
  ⟨List.length_pos_iff.2 h.ne, by simp [knot], by simp, by simp [line, level, knot]⟩

theorem gather_ok {α : Type} (d : α) (f : Fin 6 → Res α) (g : Fin 6 → α) (h : ∀ i, f i = .ok (g i)) : gather d f = .ok g := by
  unfold gather
  rw [if_pos (fun i => by rw [h i]; simp)]
  congr 1; funext i; rw [h i]; rfl

theorem top_le (v : V6) (m : ℝ) : top v ≤ m ↔ ∀ i, |v i| ≤ m := by
  unfold top; simp

theorem le_top (v : V6) (i : Fin 6) : |v i| ≤ top v := (top_le v (top v)).1 le_rfl i

theorem top_nonneg (v : V6) : 0 ≤ top v := le_trans (abs_nonneg _) (le_top v 0)

end Verif.P3d
