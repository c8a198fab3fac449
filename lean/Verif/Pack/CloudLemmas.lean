import Verif.Pack.Cloud
import Verif.Mech.GeomLemmas
import Mathlib.Tactic.Linarith
import Mathlib.Tactic.NormNum
import Mathlib.Tactic.Positivity
import Mathlib.Tactic.FieldSimp
import Mathlib.Tactic.SplitIfs
import Mathlib.Tactic.FinCases

/-!
# Lemmas on `makeCloud`
-/
namespace Verif.Pack
open Verif.Mech
open scoped Classical

/-- A generator gives numbers from 0 up to but without 1. -/
def Good (g : Rnd) : Prop := ∀ n, 0 ≤ g n ∧ g n < 1

theorem Good.skip {g : Rnd} (h : Good g) (k : Nat) : Good (skip k g) := fun n => h (n + k)

theorem candidate_gen (a : Args) (r : ℝ) (g : Rnd) : ∃ k, (candidate a r g).2 = skip k g := by
  unfold candidate
  by_cases h : a.periodic = true
  · rw [if_pos h]; exact ⟨3, rfl⟩
  · rw [if_neg h]; exact ⟨_, rfl⟩

theorem place_spec {a : Args} {r : ℝ} {pack : List Sph} {n : Nat} {g : Rnd} (hg : Good g) {o : Option V3} {g' : Rnd}
    (h : place a r pack n g = (o, g')) : Good g' ∧ ∀ c, o = some c →
      ∃ g0, Good g0 ∧ c = (candidate a r g0).1 ∧ ∀ s ∈ pack, ¬ overlaps a c r s := by
  induction n generalizing g with
  | zero => cases h; exact ⟨hg, by intro c hc; cases hc⟩
  | succ n ih =>
    obtain ⟨k, hk⟩ := candidate_gen a r g
    rw [place] at h
    dsimp only at h
    by_cases hc : ∃ s ∈ pack, overlaps a (candidate a r g).1 r s
    · rw [if_pos hc, hk] at h
      exact ih (hg.skip k) h
    · rw [if_neg hc, hk] at h
      cases h
      refine ⟨hg.skip k, ?_⟩
      intro c hc'
      cases hc'
      exact ⟨g, hg, rfl, fun s hs ho => hc ⟨s, hs, ho⟩⟩

/-- The `i`-th round adds a sphere `(c, r)`. -/
def Added (a : Args) (d : Dist) (i : Nat) (pack : List Sph) (c : V3) (r : ℝ) : Prop :=
  ((i : Int) < a.num ∨ a.num < 0) ∧
  (∃ x, radius a d x = .ok r ∧ 0 ≤ x ∧ x < 1 ∧ (a.num > 0 → x = ((a.num : ℝ) - i + 0.5) / (a.num + 1))) ∧
  (∃ g, Good g ∧ c = (candidate a r g).1) ∧ ∀ s ∈ pack, ¬ overlaps a c r s

theorem sizeNumber_good {a : Args} {i : Nat} {g : Rnd} (hg : Good g) (hi : (i : Int) < a.num ∨ a.num < 0) :
    Good (sizeNumber a i g).2 ∧ 0 ≤ (sizeNumber a i g).1 ∧ (sizeNumber a i g).1 < 1 ∧
      (a.num > 0 → (sizeNumber a i g).1 = ((a.num : ℝ) - i + 0.5) / (a.num + 1)) := by
  unfold sizeNumber
  by_cases h : a.num > 0
  · rw [if_pos h]
    have h1 : (0 : ℝ) < a.num := by exact_mod_cast h
    have h2 : (i : ℝ) < a.num := by
      have : (i : Int) < a.num := by omega
      exact_mod_cast this
    refine ⟨hg, ?_, ?_, fun _ => rfl⟩
    · apply div_nonneg <;> norm_num <;> linarith
    · rw [div_lt_one (by linarith)]
      have : (0 : ℝ) ≤ i := Nat.cast_nonneg i
      norm_num
      linarith
  · rw [if_neg h]
    exact ⟨hg.skip 1, (hg 0).1, (hg 0).2, fun h' => absurd h' h⟩

theorem loop_inv {a : Args} {d : Dist} {P : Nat → List Sph → Prop}
    (hstep : ∀ i pack c r, Added a d i pack c r → P i pack → P (i + 1) (pack ++ [{ c := c, r := r }]))
    {n i : Nat} {pack : List Sph} {g : Rnd} (hg : Good g) (h0 : P i pack) {e : Ended} {pack' : List Sph} {g' : Rnd}
    (h : cloudLoop a d n i pack g = some (.ok (e, pack', g'))) :
    Good g' ∧ ∃ i', P i' pack' ∧ i ≤ i' ∧ ((e = .stuck i' ∧ ((i' : Int) < a.num ∨ a.num < 0)) ∨
      (e = .all ∧ ¬ ((i' : Int) < a.num ∨ a.num < 0) ∧ (i' = i ∨ (i' : Int) = a.num))) := by
  induction n generalizing i pack g with
  | zero => cases h
  | succ n ih =>
    rw [cloudLoop] at h
    by_cases hi : (i : Int) < a.num ∨ a.num < 0
    · rw [if_pos hi] at h
      dsimp only at h
      obtain ⟨hg1, hx⟩ := sizeNumber_good hg hi
      cases hr : radius a d (sizeNumber a i g).1 with
      | ub => rw [hr] at h; cases h
      | throws => rw [hr] at h; cases h
      | ok r =>
        rw [hr] at h
        dsimp only at h
        cases hp : place a r pack maxTry (sizeNumber a i g).2 with
        | mk o g2 =>
          rw [hp] at h
          obtain ⟨hg2, hc⟩ := place_spec hg1 hp
          cases o with
          | none =>
            dsimp only at h
            cases h
            exact ⟨hg2, i, h0, le_rfl, Or.inl ⟨rfl, hi⟩⟩
          | some c =>
            dsimp only at h
            obtain ⟨g0, hg0, e1, e2⟩ := hc c rfl
            obtain ⟨h1, i', h2, h3, h4⟩ := ih hg2 (hstep i pack c r ⟨hi, ⟨_, hr, hx⟩, ⟨g0, hg0, e1⟩, e2⟩ h0) h
            refine ⟨h1, i', h2, by omega, ?_⟩
            rcases h4 with h4 | ⟨h4, h5, h6⟩
            · exact Or.inl h4
            · refine Or.inr ⟨h4, h5, Or.inr ?_⟩
              omega
    · rw [if_neg hi] at h
      cases h
      exact ⟨hg, i, h0, le_rfl, Or.inr ⟨rfl, hi, Or.inl rfl⟩⟩

/-- Arguments that differ at most in mean radius and porosity: either the same, or no mean radius and a porosity that
is not smaller (for porosities below 1). -/
def Retry (a a' : Args) : Prop := ∃ m p, a' = { a with rMean := m, porosity := p } ∧ ((m = a.rMean ∧ p = a.porosity) ∨
  (m = -1 ∧ (a.poro < 1 → a.poro < p ∧ p < 1)))

theorem Retry.refl (a : Args) : Retry a a := ⟨a.rMean, a.porosity, rfl, Or.inl ⟨rfl, rfl⟩⟩

theorem poro_pos (a : Args) : 0 < a.poro := by
  unfold Args.poro
  split_ifs with h
  · norm_num
  · exact not_le.mp h

theorem poro_of_pos {a : Args} (h : 0 < a.porosity) : a.poro = a.porosity := if_neg (not_le.mpr h)

theorem Retry.trans {a b c : Args} (h : Retry a b) (h' : Retry b c) : Retry a c := by
  obtain ⟨m, p, rfl, h⟩ := h
  obtain ⟨m', p', rfl, h'⟩ := h'
  refine ⟨m', p', rfl, ?_⟩
  rcases h with ⟨rfl, rfl⟩ | ⟨rfl, h⟩
  · exact h'
  · rcases h' with ⟨e1, e2⟩ | ⟨rfl, h'⟩
    · exact Or.inr ⟨e1, fun hp => by rw [e2]; exact h hp⟩
    · refine Or.inr ⟨rfl, fun hp => ?_⟩
      have h1 := h hp
      have h2 : Args.poro { a with rMean := -1, porosity := p } = p := poro_of_pos (lt_trans (poro_pos a) h1.1)
      rw [h2] at h'
      exact ⟨lt_trans h1.1 (h' h1.2).1, (h' h1.2).2⟩

/-- What a completed call does: it ends with a loop over the old packing or, after a retry, over no
spheres. -/
theorem cloud_loop {n : Nat} {a : Args} {sp sp' : SpherePack} {g g' : Rnd} {k : Int} (hg : Good g)
    (h : makeCloud n a sp g = some (.ok (sp', k, g'))) :
    ∃ a' d s s' m g1 e pack0, Good g1 ∧ Retry a a' ∧ plan a' s = .ok (d, s') ∧
      cloudLoop a' d m 0 pack0 g1 = some (.ok (e, sp'.pack, g')) ∧ ((pack0 = [] ∧ a.num > 0 ∧ ∃ d s', plan a sp.scaling = .ok (d, s') ∧ d.retries = true) ∨ (pack0 = sp.pack ∧ a' = a ∧ s = sp.scaling)) ∧
      ((e = .all ∧ k = sp'.pack.length) ∨ (∃ i, e = .stuck i ∧ k = i ∧ ¬ (a'.num > 0 ∧ d.retries = true))) ∧
      sp'.isPeriodic = a.periodic ∧ sp'.scaling = s' := by
  induction n generalizing a sp g with
  | zero => cases h
  | succ n ih =>
    rw [makeCloud] at h
    cases hp : plan a sp.scaling with
    | ub => rw [hp] at h; cases h
    | throws => rw [hp] at h; cases h
    | ok ds =>
      obtain ⟨d, scaling⟩ := ds
      rw [hp] at h
      dsimp only at h
      cases hl : cloudLoop a d (n + 1) 0 sp.pack g with
      | none => rw [hl] at h; cases h
      | some x =>
        rw [hl] at h
        cases x with
        | ub => cases h
        | throws => cases h
        | ok x =>
          obtain ⟨e, pack, g1⟩ := x
          have hg1 : Good g1 := (loop_inv (P := fun _ _ => True) (by intros; trivial) hg trivial hl).1
          cases e with
          | all =>
            dsimp only at h
            cases h
            exact ⟨a, d, _, _, _, g, .all, sp.pack, hg, .refl a, hp, hl, Or.inr ⟨rfl, rfl, rfl⟩, Or.inl ⟨rfl, rfl⟩, rfl, rfl⟩
          | stuck i =>
            dsimp only at h
            by_cases hr : a.num > 0 ∧ d.retries = true
            · rw [if_pos hr] at h
              obtain ⟨a', d', s, s', m, g2, e, pack0, q1, q2, q3, q4, q5, q6, q7, q8⟩ := ih hg1 h
              refine ⟨a', d', s, s', m, g2, e, pack0, q1,
                Retry.trans ⟨_, _, rfl, Or.inr ⟨rfl, fun hp => ⟨by linarith, by linarith⟩⟩⟩ q2, q3, q4, Or.inl ⟨?_, hr.1, d, _, rfl, hr.2⟩,
                q6, q7, q8⟩
              rcases q5 with q5 | q5
              · exact q5.1
              · exact q5.1
            · rw [if_neg hr] at h
              cases h
              exact ⟨a, d, _, _, _, g, .stuck i, sp.pack, hg, .refl a, hp, hl, Or.inr ⟨rfl, rfl, rfl⟩,
                Or.inr ⟨i, rfl, rfl, hr⟩, rfl, rfl⟩

/-- Invariants of a call. -/
theorem cloud_inv {a : Args} {P : List Sph → Prop} (h0 : P [])
    (hstep : ∀ a' d s s', Retry a a' → plan a' s = .ok (d, s') → ∀ i pack c r, Added a' d i pack c r → P pack →
      P (pack ++ [{ c := c, r := r }]))
    {n : Nat} {sp sp' : SpherePack} {g g' : Rnd} {k : Int} (hg : Good g) (hP : P sp.pack)
    (h : makeCloud n a sp g = some (.ok (sp', k, g'))) : P sp'.pack := by
  obtain ⟨a', d, s, s', m, g1, e, pack0, q1, q2, q3, q4, q5, -⟩ := cloud_loop hg h
  have hP0 : P pack0 := by
    rcases q5 with ⟨rfl, -⟩ | ⟨rfl, -⟩
    · exact h0
    · exact hP
  obtain ⟨-, i', h2, -⟩ := loop_inv (P := fun _ p => P p) (hstep a' d s s' q2 q3) q1 hP0 q4
  exact h2

/-! ## Geometry -/

theorem dot_le_norms (a b : V3) : dot a b ≤ norm3 a * norm3 b := by
  have h1 := sqNorm_crossed a b
  have h2 := sqNorm_nonneg (cross a b)
  have h3 : dot a b ^ 2 ≤ (norm3 a * norm3 b) ^ 2 := by
    rw [mul_pow, sq (norm3 a), sq (norm3 b), norm3_sq, norm3_sq]
    linarith
  exact le_trans (le_abs_self _) (abs_le_of_sq_le_sq h3 (mul_nonneg (norm3_nonneg a) (norm3_nonneg b)))

theorem norm3_sub_le (a b : V3) : norm3 (a - b) ≤ norm3 a + norm3 b := by
  have h : sqNorm (a - b) ≤ (norm3 a + norm3 b) ^ 2 := by
    have h1 := dot_le_norms a (-b)
    have h2 : norm3 (-b) = norm3 b := by
      simp only [norm3, sqNorm, dot, Pi.neg_apply]
      congr 1
      ring
    rw [h2] at h1
    have h3 : sqNorm (a - b) = sqNorm a + 2 * dot a (-b) + sqNorm b := by
      simp only [sqNorm, dot, Pi.sub_apply, Pi.neg_apply]
      ring
    rw [h3, ← norm3_sq a, ← norm3_sq b]
    nlinarith
  calc norm3 (a - b) = Real.sqrt (sqNorm (a - b)) := rfl
    _ ≤ Real.sqrt ((norm3 a + norm3 b) ^ 2) := Real.sqrt_le_sqrt h
    _ = _ := Real.sqrt_sq (add_nonneg (norm3_nonneg a) (norm3_nonneg b))

/-- Circular distance: not more than the distance to any image. -/
theorem wrap_le {S : ℝ} (hS : 0 < S) (c p : ℝ) (k : ℤ) :
    0 ≤ min (cellWrapRel c p (p + S)) (cellWrapRel p c (c + S)) ∧
    min (cellWrapRel c p (p + S)) (cellWrapRel p c (c + S)) ≤ |p + k * S - c| := by
  have e1 : cellWrapRel c p (p + S) = Int.fract ((c - p) / S) * S := by
    simp only [cellWrapRel, add_sub_cancel_left, Int.fract]
  have e2 : cellWrapRel p c (c + S) = Int.fract (-((c - p) / S)) * S := by
    simp only [cellWrapRel, add_sub_cancel_left, Int.fract]
    rw [show (p - c) / S = -((c - p) / S) by ring]
  have e3 : p + k * S - c = (k - (c - p) / S) * S := by
    have : (c - p) / S * S = c - p := div_mul_cancel₀ _ hS.ne'
    linarith
  rw [e1, e2, e3, abs_mul, abs_of_pos hS]
  generalize (c - p) / S = x
  have f1 := Int.fract_nonneg x
  have f2 := Int.fract_nonneg (-x)
  refine ⟨le_min (mul_nonneg f1 hS.le) (mul_nonneg f2 hS.le), ?_⟩
  rcases le_or_gt k ⌊x⌋ with hk | hk
  · refine le_trans (min_le_left _ _) (mul_le_mul_of_nonneg_right ?_ hS.le)
    have h1 : (k : ℝ) ≤ ⌊x⌋ := by exact_mod_cast hk
    have h2 := Int.self_sub_floor x
    rw [abs_sub_comm]
    exact le_trans (by linarith) (le_abs_self _)
  · refine le_trans (min_le_right _ _) (mul_le_mul_of_nonneg_right ?_ hS.le)
    have h1 : -k ≤ ⌊-x⌋ := by
      rw [Int.le_floor]
      have : x < k := Int.floor_lt.mp hk
      push_cast
      linarith
    have h1' : -(k : ℝ) ≤ ⌊-x⌋ := by exact_mod_cast h1
    have h2 := Int.self_sub_floor (-x)
    exact le_trans (by linarith) (le_abs_self _)

end Verif.Pack
