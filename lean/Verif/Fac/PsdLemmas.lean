import Verif.Fac.FacProps
import Mathlib.Algebra.BigOperators.Ring.Finset

/-!
# Helper lemmas about size distributions
-/
namespace Verif.Fac
open Verif.Mech
open scoped Classical

theorem diffs_length (l : List ℝ) : ∀ p, (diffs p l).length = l.length := by
  induction l with
  | nil => intro p; rfl
  | cons a t ih => intro p; simp [diffs, ih]

theorem diffs_getD (l : List ℝ) : ∀ p k, k < l.length → (diffs p l).getD k 0 = l.getD k 0 - if k = 0 then p else l.getD (k - 1) 0 := by
  induction l with
  | nil => intro p k hk; simp at hk
  | cons a t ih =>
    intro p k hk
    cases k with
    | zero => simp [diffs]
    | succ k =>
      have := ih a k (by simpa using hk)
      simp only [diffs, List.getD_cons_succ]
      rw [this, if_neg (Nat.succ_ne_zero k)]
      cases k with
      | zero => rw [if_pos rfl]; rfl
      | succ k => rw [if_neg (Nat.succ_ne_zero k)]; rfl

theorem diffs_sum (l : List ℝ) : ∀ p, (diffs p l).sum = l.getLastD p - p := by
  induction l with
  | nil => intro p; simp [diffs]
  | cons a t ih =>
    intro p
    rw [diffs, List.sum_cons, ih, List.getLastD_cons]
    ring

theorem diffs_nonneg (l : List ℝ) : ∀ p, (∀ c ∈ l, p ≤ c) → l.Pairwise (· ≤ ·) → ∀ x ∈ diffs p l, 0 ≤ x := by
  induction l with
  | nil => intro p _ _ x hx; simp [diffs] at hx
  | cons a t ih =>
    intro p h1 h2 x hx
    rw [List.pairwise_cons] at h2
    rw [diffs, List.mem_cons] at hx
    rcases hx with rfl | hx
    · exact sub_nonneg.mpr (h1 a (by simp))
    · exact ih a h2.1 h2.2 x hx

theorem eq_map_range (l : List ℝ) : l = (List.range l.length).map fun k => l.getD k 0 := by
  apply List.ext_getElem
  · simp
  · intro n h1 h2
    simp [List.getD_eq_getElem?_getD, h1]

theorem pickBin_max (N P : Nat → ℝ) (n : Nat) : ∀ (k0 : Nat) (best : ℝ × Nat),
    (pickBin k0 best ((List.range' k0 n).map fun k => (N k, P k)) = best.2 ∧ ∀ k, k0 ≤ k → k < k0 + n → N k - P k ≤ best.1) ∨
    (k0 ≤ pickBin k0 best ((List.range' k0 n).map fun k => (N k, P k)) ∧ pickBin k0 best ((List.range' k0 n).map fun k => (N k, P k)) < k0 + n ∧
      best.1 < N (pickBin k0 best ((List.range' k0 n).map fun k => (N k, P k))) - P (pickBin k0 best ((List.range' k0 n).map fun k => (N k, P k)))) := by
  induction n with
  | zero => intro k0 best; left; exact ⟨rfl, fun k h1 h2 => by omega⟩
  | succ n ih =>
    intro k0 best
    rw [List.range'_succ, List.map_cons, pickBin]
    split_ifs with hc
    · right
      rcases ih (k0 + 1) (N k0 - P k0, k0) with ⟨h1, -⟩ | ⟨h1, h2, h3⟩
      · rw [h1]; exact ⟨le_rfl, by omega, hc⟩
      · exact ⟨by omega, by omega, lt_trans hc h3⟩
    · rcases ih (k0 + 1) best with ⟨h1, h2⟩ | ⟨h1, h2, h3⟩
      · left
        refine ⟨h1, fun k hk1 hk2 => ?_⟩
        rcases Nat.lt_or_ge k0 k with h | h
        · exact h2 k (by omega) (by omega)
        · obtain rfl : k = k0 := by omega
          exact not_lt.mp hc
      · right
        exact ⟨by omega, by omega, h3⟩

/-- The bin picked is not overfull. -/
theorem pickBin_ok {N P : Nat → ℝ} {K : Nat} (hK : 0 < K) (hs : 0 ≤ ∑ k ∈ Finset.range K, (N k - P k)) :
    pickBin 0 (0, 0) ((List.range K).map fun k => (N k, P k)) < K ∧
      P (pickBin 0 (0, 0) ((List.range K).map fun k => (N k, P k))) ≤ N (pickBin 0 (0, 0) ((List.range K).map fun k => (N k, P k))) := by
  rw [List.range_eq_range']
  rcases pickBin_max N P K 0 (0, 0) with ⟨h1, h2⟩ | ⟨h1, h2, h3⟩
  · rw [h1]
    refine ⟨hK, ?_⟩
    dsimp only
    by_contra hn
    have : ∑ k ∈ Finset.range K, (N k - P k) < ∑ _k ∈ Finset.range K, (0 : ℝ) := by
      apply Finset.sum_lt_sum
      · intro k hk
        exact h2 k (by omega) (by simpa using hk)
      · exact ⟨0, by simpa using hK, by linarith⟩
    rw [Finset.sum_const_zero] at this
    linarith
  · exact ⟨by simpa using h2, by dsimp only at h3; linarith⟩

theorem normalise_one {x : ℝ} {cum : List ℝ} (h : cum.getLastD 0 = 1) : normalise x cum = cum := by
  rw [normalise]
  split_ifs
  · dsimp only
    rw [h]
    simp only [div_one, mul_one, List.map_id']
    exact List.take_append_drop 1 cum
  · rfl

end Verif.Fac
