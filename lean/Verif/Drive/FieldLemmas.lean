import Verif.Drive.Field
import Verif.Drive.KinProps

/-!
# Forces added by the engines
-/
namespace Verif.Drive
open Verif.Mech

/-- The scene with more forces. -/
def addF (F : Nat → V3) (w : World) : World := { w with force := fun j => w.force j + F j }

theorem addF_zero (w : World) : addF 0 w = w := by
  show { w with force := _ } = w
  have : (fun j => w.force j + (0 : Nat → V3) j) = w.force := by funext j; simp
  rw [this]

theorem addF_addF (F G : Nat → V3) (w : World) : addF G (addF F w) = addF (F + G) w := by
  show { w with force := _ } = { w with force := _ }
  congr 1
  funext j
  simp [addF, add_assoc]

/-- A force on one body. -/
def single (id : Nat) (f : V3) : Nat → V3 := fun j => if j = id then f else 0

theorem addForceTo_eq (id : Nat) (f : V3) (w : World) : addForceTo (id : Int) f w = .ok (addF (single id f) w) := by
  rw [addForceTo, if_pos (by omega)]
  congr 1
  show { w with force := _ } = { w with force := _ }
  congr 1
  funext j
  by_cases h : j = id
  · simp [single, h]
  · simp [single, h]

/-- The loops over ids whose body adds the force `f id b` to the body itself. -/
theorem listed_sum {c : Ctx} {step : List Int → World → Res World} (f : Nat → Bod → V3)
    (hnil : ∀ w, step [] w = .ok w)
    (hsome : ∀ (id : Nat) ids (w : World) b, id < c.size → w.bodies id = some b →
      step ((id : Int) :: ids) w = step ids (addF (single id (f id b)) w))
    (ids : List Int)
    (hnone : ∀ id ids' (w : World), id ∈ ids → (0 ≤ id → id < c.size → w.bodies id.toNat = none) →
      step (id :: ids') w = step ids' w) (w : World) :
    step ids w = .ok (addF (fun j => match w.bodies j with
      | none => 0
      | some b => if j < c.size then ids.count (j : Int) • f j b else 0) w) := by
  induction ids generalizing w with
  | nil =>
    rw [hnil]
    congr 1
    conv_lhs => rw [← addF_zero w]
    congr 1
    funext j
    cases w.bodies j <;> simp
  | cons i l ih =>
    have ih := ih (fun id ids' w hid => hnone id ids' w (List.mem_cons_of_mem _ hid))
    by_cases h : 0 ≤ i ∧ i < c.size ∧ ∃ b, w.bodies i.toNat = some b
    · obtain ⟨h0, h1, b, hb⟩ := h
      obtain ⟨k, rfl⟩ := Int.eq_ofNat_of_zero_le h0
      rw [Int.toNat_natCast] at hb
      have hk : k < c.size := by exact_mod_cast h1
      rw [hsome k l w b hk hb, ih, addF_addF]
      congr 2
      funext j
      simp only [addF, Pi.add_apply, single]
      by_cases e : j = k
      · subst e
        rw [hb]
        simp only [if_true, hk, List.count_cons_self]
        rw [succ_nsmul, add_comm]
      · have e' : (k : Int) ≠ (j : Int) := fun h => e (by exact_mod_cast h.symm)
        simp only [e, if_false, zero_add, List.count_cons_of_ne e']
    · rw [hnone i l w (List.mem_cons_self ..) (fun h0 h1 => by
        cases hb : w.bodies i.toNat with
        | none => rfl
        | some b => exact absurd ⟨h0, h1, b, hb⟩ h), ih]
      congr 2
      funext j
      cases hb : w.bodies j with
      | none => rfl
      | some b =>
        simp only
        by_cases hj : j < c.size
        · have e' : i ≠ (j : Int) := by
            rintro rfl
            exact h ⟨by omega, by omega, b, by rw [Int.toNat_natCast, hb]⟩
          rw [List.count_cons_of_ne e']
        · simp [hj]

/-- What a loop over all bodies adds. -/
theorem overBodies_sum (f : Nat → Bod → World → Res World) (G : Nat → Bod → Nat → V3)
    (hf : ∀ id b w, f id b w = .ok (addF (G id b) w)) (l : List Nat) (w : World) :
    overBodies f l w = .ok (addF ((l.map fun id => match w.bodies id with
      | none => 0
      | some b => G id b).sum) w) := by
  induction l generalizing w with
  | nil => simp [overBodies, addF_zero]
  | cons i l ih =>
    rw [overBodies]
    cases hb : w.bodies i with
    | none =>
      simp only
      rw [ih]
      simp [hb]
    | some b =>
      simp only [hf, Res.bind_ok]
      rw [ih, addF_addF]
      simp [hb, addF]

theorem sum_at (l : List Nat) (X : Nat → Nat → V3) (j : Nat) : (l.map X).sum j = (l.map fun id => X id j).sum := by
  induction l with
  | nil => rfl
  | cons a l ih => simp [ih]

/-- A sum in which only one term counts. -/
theorem sum_only (n : Nat) (X : Nat → V3) (j : Nat) (h : ∀ i, i ≠ j → X i = 0) :
    ((List.range n).map X).sum = if j < n then X j else 0 := by
  induction n with
  | zero => simp
  | succ n ih =>
    rw [List.range_succ, List.map_append, List.sum_append, ih]
    by_cases e : n = j
    · subst e; simp
    · rw [List.map_singleton, List.sum_singleton, h n e]
      by_cases h1 : j < n
      · rw [if_pos h1, if_pos (by omega), add_zero]
      · rw [if_neg h1, if_neg (by omega), add_zero]

/-- Loops that put one force on each body. -/
theorem overBodies_each (f : Nat → Bod → World → Res World) (g : Nat → Bod → V3)
    (hf : ∀ id b w, f id b w = .ok (addF (single id (g id b)) w)) (n : Nat) (w : World) :
    overBodies f (List.range n) w = .ok (addF (fun j => match w.bodies j with
      | none => 0
      | some b => if j < n then g j b else 0) w) := by
  rw [overBodies_sum f (fun id b => single id (g id b)) hf]
  congr 2
  funext j
  rw [sum_at, sum_only n _ j]
  · cases hb : w.bodies j with
    | none => simp
    | some b => simp [single]
  · intro i hi
    cases hb : w.bodies i with
    | none => rfl
    | some b => simp [single, Ne.symm hi]

theorem single_zero (id : Nat) : single id 0 = 0 := by
  funext j
  simp [single]

theorem norm3_smul (k : ℝ) (v : V3) : norm3 (k • v) = |k| * norm3 v := by
  rw [norm3, norm3, sqNorm_smul, Real.sqrt_mul (sq_nonneg k), Real.sqrt_sq_eq_abs]

theorem norm3_pos {v : V3} (h : v ≠ 0) : 0 < norm3 v := by
  rw [norm3, Real.sqrt_pos]
  exact lt_of_le_of_ne (sqNorm_nonneg v) fun e => h (sqNorm_eq_zero.mp e.symm)

theorem norm3_nonneg (v : V3) : 0 ≤ norm3 v := Real.sqrt_nonneg _

theorem norm3_normalized {v : V3} (h : v ≠ 0) : norm3 (normalized v) = 1 := by
  have := norm3_pos h
  rw [normalized, norm3_smul, abs_of_pos (by positivity), one_div, inv_mul_cancel₀ this.ne']

theorem normalized_zero : normalized (0 : V3) = 0 := by simp [normalized]

theorem sqNorm_normalized_eq_zero (v : V3) : sqNorm (normalized v) = 0 ↔ v = 0 := by
  rw [sqNorm_eq_zero]
  constructor
  · intro h
    by_contra hv
    have := norm3_normalized hv
    rw [h, norm3] at this
    have h0 : sqNorm (0 : V3) = 0 := sqNorm_eq_zero.mpr rfl
    rw [h0] at this
    simp at this
  · rintro rfl
    exact normalized_zero

theorem dot_smul_left' (k : ℝ) (u v : V3) : dot (k • u) v = k * dot u v := by
  simp only [dot, Pi.smul_apply, smul_eq_mul]; ring

theorem dot_self_normalized (v : V3) : dot (normalized v) v = norm3 v := by
  rw [normalized, dot_smul_left']
  by_cases h : v = 0
  · subst h; simp [norm3, dot, sqNorm]
  · have := norm3_pos h
    have e : dot v v = norm3 v * norm3 v := by
      rw [norm3, Real.mul_self_sqrt (sqNorm_nonneg v)]; rfl
    rw [e]
    field_simp

end Verif.Drive
