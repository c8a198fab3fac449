import Verif.Tree.Lemmas
import Mathlib.Analysis.SpecialFunctions.Log.Basic
import Mathlib.Analysis.Complex.ExponentialBounds
import Mathlib.Algebra.Order.Floor.Ring

/-! The number of levels the code computes, and when it is enough. -/

namespace Verif.Tree

/-- `numLevels = int(ceil(log(numThreads)))+1`, /repo/py/tree_decomp.py line 27: the natural
logarithm.  Exact real arithmetic instead of the double nearest to the logarithm (for `n ≥ 2` the
logarithm of an integer is irrational, so the ceilings agree unless the double rounds onto an
integer).  With no worker (`log(0)`) Python raises ValueError; the model is used for `n ≥ 1`. -/
noncomputable def numLevels (n : Nat) : Nat := ⌈Real.log n⌉.toNat + 1

theorem numLevels_le {n k : Nat} (h : Real.log n ≤ k) : numLevels n ≤ k + 1 := by
  have : ⌈Real.log n⌉ ≤ (k : ℤ) := Int.ceil_le.mpr (by exact_mod_cast h)
  unfold numLevels; omega

theorem le_numLevels {n k : Nat} (h : (k : ℝ) < Real.log n) : k + 2 ≤ numLevels n := by
  have : (k : ℤ) < ⌈Real.log n⌉ := Int.lt_ceil.mpr (by exact_mod_cast h)
  unfold numLevels; omega

theorem numLevels_pos (n : Nat) : 1 ≤ numLevels n := by unfold numLevels; omega

theorem log_pow (k : Nat) : Real.log ((2 ^ k : Nat) : ℝ) = k * Real.log 2 := by
  push_cast; exact Real.log_pow 2 k

/-- Enough levels for sixteen workers or fewer. -/
theorem enough_small {n : Nat} (h : n ≤ 16) : n ≤ 2 ^ numLevels n := by
  have hl2 := Real.log_two_gt_d9
  have key : ∀ k : Nat, k ≤ 3 → 2 ^ k < n → k + 1 ≤ numLevels n := by
    intro k hk hn
    rcases Nat.eq_zero_or_pos k with h0 | h0
    · subst h0; exact numLevels_pos n
    · obtain ⟨j, rfl⟩ : ∃ j, k = j + 1 := ⟨k - 1, by omega⟩
      refine le_numLevels (k := j) ?_
      have h1 : Real.log ((2 ^ (j + 1) : Nat) : ℝ) < Real.log n := by
        apply Real.log_lt_log
        · exact_mod_cast Nat.pow_pos (by decide)
        · exact_mod_cast hn
      rw [log_pow] at h1
      have h2 : ((j + 1 : Nat) : ℝ) = j + 1 := by push_cast; ring
      rw [h2] at h1
      have h3 : (j : ℝ) ≤ 2 := by exact_mod_cast (by omega : j ≤ 2)
      have h4 : (0 : ℝ) ≤ j := by positivity
      nlinarith
  have mono : ∀ k, k ≤ numLevels n → n ≤ 2 ^ k → n ≤ 2 ^ numLevels n := fun k hk hn =>
    Nat.le_trans hn (Nat.pow_le_pow_right (by decide) hk)
  by_cases h1 : n ≤ 2
  · exact mono 1 (numLevels_pos n) h1
  · by_cases h2 : n ≤ 4
    · exact mono 2 (key 1 (by omega) (by omega)) h2
    · by_cases h3 : n ≤ 8
      · exact mono 3 (key 2 (by omega) (by omega)) h3
      · exact mono 4 (key 3 (by omega) (by omega)) h

/-- Enough levels for powers of two up to 64. -/
theorem enough_pow {k : Nat} (h : k ≤ 6) : k ≤ numLevels (2 ^ k) := by
  by_cases h1 : k ≤ 1
  · exact Nat.le_trans h1 (numLevels_pos _)
  · obtain ⟨j, rfl⟩ : ∃ j, k = j + 2 := ⟨k - 2, by omega⟩
    refine le_numLevels (k := j) ?_
    rw [log_pow]
    have hl2 := Real.log_two_gt_d9
    have h2 : ((j + 2 : Nat) : ℝ) = j + 2 := by push_cast; ring
    rw [h2]
    have h3 : (j : ℝ) ≤ 4 := by exact_mod_cast (by omega : j ≤ 4)
    have h4 : (0 : ℝ) ≤ j := by positivity
    nlinarith

/-- Not enough for the powers of two from 128 on. -/
theorem not_enough_pow {k : Nat} (h : 7 ≤ k) : numLevels (2 ^ k) < k := by
  have hl2 := Real.log_two_lt_d9
  obtain ⟨j, rfl⟩ : ∃ j, k = j + 2 := ⟨k - 2, by omega⟩
  have : numLevels (2 ^ (j + 2)) ≤ j + 1 := by
    refine numLevels_le ?_
    rw [log_pow]
    have h2 : ((j + 2 : Nat) : ℝ) = j + 2 := by push_cast; ring
    rw [h2]
    have h3 : (5 : ℝ) ≤ j := by exact_mod_cast (by omega : 5 ≤ j)
    nlinarith
  omega

/-- Not enough for 17 to 20 workers. -/
theorem not_enough_17 {n : Nat} (h1 : 17 ≤ n) (h2 : n ≤ 20) : 2 ^ numLevels n < n := by
  have : numLevels n ≤ 3 + 1 := by
    refine numLevels_le ?_
    rw [Real.log_le_iff_le_exp (by exact_mod_cast (by omega : 0 < n))]
    have he := Real.exp_one_gt_d9
    have : Real.exp ((3 : Nat) : ℝ) = Real.exp 1 ^ 3 := by rw [← Real.exp_nat_mul]; simp
    rw [this]
    have hn : (n : ℝ) ≤ 20 := by exact_mod_cast h2
    have : (2.7182818283 : ℝ) ^ 3 ≤ Real.exp 1 ^ 3 :=
      pow_le_pow_left₀ (by norm_num) (le_of_lt he) 3
    have h3 : (20 : ℝ) ≤ 2.7182818283 ^ 3 := by norm_num
    linarith
  calc 2 ^ numLevels n ≤ 2 ^ 4 := Nat.pow_le_pow_right (by decide) this
    _ < n := by omega

end Verif.Tree
