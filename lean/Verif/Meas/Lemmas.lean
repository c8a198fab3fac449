import Verif.Meas.Model
import Mathlib.Algebra.BigOperators.Intervals
import Mathlib.Algebra.BigOperators.Fin
import Mathlib.Tactic.FieldSimp
import Mathlib.Tactic.Positivity
import Mathlib.Tactic.Module

/-! # Lemmas on loops over contacts and bodies -/
namespace Verif.Meas
open Verif Verif.Mech Matrix

theorem foldR_sum {α M : Type} [AddCommMonoid M] (f : M → α → Res M) (g : α → M) (l : List α)
    (h : ∀ a ∈ l, ∀ m, f m a = .ok (m + g a)) (m : M) : foldR f m l = .ok (m + (l.map g).sum) := by
  induction l generalizing m with
  | nil => simp [foldR]
  | cons a l ih =>
    rw [foldR, h a (by simp), Res.bind_ok, ih (fun b hb => h b (by simp [hb]))]
    simp [add_assoc]

theorem foldl_sum {α M : Type} [AddCommMonoid M] (g : α → M) (l : List α) (m : M) :
    l.foldl (fun m a => m + g a) m = m + (l.map g).sum := by
  induction l generalizing m with
  | nil => simp
  | cons a l ih => rw [List.foldl_cons, ih]; simp [add_assoc]

theorem foldR_push {α β : Type} (f : α → Res β) (g : α → β) (l : List α) (h : ∀ a ∈ l, f a = .ok (g a)) (acc : List β) :
    foldR (fun acc a => (f a).bind fun b => .ok (acc ++ [b])) acc l = .ok (acc ++ l.map g) := by
  induction l generalizing acc with
  | nil => simp [foldR]
  | cons a l ih =>
    rw [foldR, h a (by simp), Res.bind_ok, Res.bind_ok, ih (fun b hb => h b (by simp [hb]))]
    simp

theorem foldR_ub {α β : Type} (f : β → α → Res β) (l r : List α) (a : α)
    (hl : ∀ x ∈ l, ∀ b, ∃ b', f b x = .ok b') (ha : ∀ b, f b a = .ub) (b : β) : foldR f b (l ++ a :: r) = .ub := by
  induction l generalizing b with
  | nil => simp [foldR, ha]
  | cons x l ih =>
    obtain ⟨b', hb⟩ := hl x (by simp) b
    rw [List.cons_append, foldR, hb, Res.bind_ok]
    exact ih (fun y hy => hl y (by simp [hy])) b'

theorem body_ok {s : MScene} {i : Nat} {b : MBody} (h : s.bodies[i]? = some (some b)) : body s i = .ok b := by
  rw [body, h]

theorem body_inv {s : MScene} {i : Nat} {b : MBody} (h : body s i = .ok b) : s.bodies[i]? = some (some b) := by
  unfold body at h
  split at h
  · rename_i b' hb; rw [hb]; cases h; rfl
  · cases h

theorem sum_map_add' {α M : Type} [AddCommMonoid M] (f g : α → M) (l : List α) :
    (l.map fun a => f a + g a).sum = (l.map f).sum + (l.map g).sum := by
  induction l with
  | nil => simp
  | cons a l ih => simp only [List.map_cons, List.sum_cons, ih]; exact add_add_add_comm _ _ _ _

theorem sum_map_smul' {α : Type} (c : ℝ) (f : α → M3) (l : List α) :
    (l.map fun a => c • f a).sum = c • (l.map f).sum := by
  induction l with
  | nil => simp
  | cons a l ih => simp only [List.map_cons, List.sum_cons, ih, smul_add]

theorem sum_entry {α : Type} (f : α → M3) (l : List α) (i j : Fin 3) :
    (l.map f).sum i j = (l.map fun a => f a i j).sum := by
  induction l with
  | nil => simp
  | cons a l ih => simp [ih]

theorem sum_transpose {α : Type} (f : α → M3) (l : List α) :
    ((l.map f).sum).transpose = (l.map fun a => (f a).transpose).sum := by
  induction l with
  | nil => simp
  | cons a l ih => simp [ih]

theorem sum_filter_map {α M : Type} [AddCommMonoid M] (p : α → Bool) (f : α → M) (l : List α) :
    ((l.filter p).map f).sum = (l.map fun a => if p a then f a else 0).sum := by
  induction l with
  | nil => simp
  | cons a l ih =>
    by_cases h : p a = true
    · simp [List.filter_cons, h, ih]
    · simp [List.filter_cons, h, ih]

theorem vecMulVec_entry (a b : V3) (i j : Fin 3) : vecMulVec a b i j = a i * b j := rfl

/-- a vector times another minus the other way round is the cross product -/
theorem skew_eq_zero {m : M3} (h0 : m 2 1 = m 1 2) (h1 : m 0 2 = m 2 0) (h2 : m 1 0 = m 0 1) : m.transpose = m := by
  ext i j
  fin_cases i <;> fin_cases j <;> simp [Matrix.transpose_apply, h0, h1, h2]

end Verif.Meas
