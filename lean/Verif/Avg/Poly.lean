import Verif.Avg.Model
import Mathlib.Tactic.Linarith
import Mathlib.Tactic.FieldSimp
import Mathlib.Tactic.Ring
import Mathlib.Tactic.NormNum
import Mathlib.Tactic.Push

/-!
# Polygons of `clips`: C242
-/
namespace Verif.Avg

/-! ## Lemmas -/

theorem crosses_iff (t i j : P2) : crosses t i j = true ↔
    (¬ (i.y > t.y ↔ j.y > t.y)) ∧ t.x < (j.x - i.x) * (t.y - i.y) / (j.y - i.y) + i.x := by
  simp only [crosses, Bool.and_eq_true, bne_iff_ne, ne_eq, decide_eq_decide, decide_eq_true_eq]

theorem crosses_self (t i : P2) : crosses t i i = false := by
  rw [← Bool.not_eq_true, crosses_iff]; simp

theorem crosses_comm (t i j : P2) : crosses t i j = crosses t j i := by
  rw [Bool.eq_iff_iff, crosses_iff, crosses_iff]
  have : ¬ (i.y > t.y ↔ j.y > t.y) → (j.x - i.x) * (t.y - i.y) / (j.y - i.y) + i.x = (i.x - j.x) * (t.y - j.y) / (i.y - j.y) + j.x := by
    intro h
    have h1 : j.y - i.y ≠ 0 := by
      intro h0
      have : j.y = i.y := by linarith
      rw [this] at h; simp at h
    have h2 : i.y - j.y ≠ 0 := by
      intro h0; apply h1; linarith
    have h3 : i.y - j.y = -(j.y - i.y) := by ring
    rw [h3, div_neg]
    field_simp
    ring
  constructor
  · rintro ⟨h1, h2⟩
    exact ⟨fun h => h1 h.symm, this h1 ▸ h2⟩
  · rintro ⟨h1, h2⟩
    have h1' : ¬ (i.y > t.y ↔ j.y > t.y) := fun h => h1 h.symm
    exact ⟨h1', (this h1').symm ▸ h2⟩

theorem parity_append (t j : P2) (l₁ l₂ : List P2) :
    parity t j (l₁ ++ l₂) = (parity t j l₁ ^^ parity t (l₁.getLastD j) l₂) := by
  induction l₁ generalizing j with
  | nil => simp [parity]
  | cons i l ih =>
    simp only [List.cons_append, parity, ih, Bool.xor_assoc]
    rw [List.getLastD_cons]

theorem inside_cons (t a : P2) (l : List P2) :
    inside t (a :: l) = (crosses t a (l.getLastD a) ^^ parity t a l) := by
  unfold inside
  rw [List.getLast?_cons, ← List.getLastD_eq_getLast?]
  rfl

theorem getLastD_append_cons (l : List P2) (a b : P2) (l' : List P2) : (l ++ a :: l').getLastD b = l'.getLastD a := by
  induction l generalizing b with
  | nil => rw [List.nil_append, List.getLastD_cons]
  | cons c l ih => simp only [List.cons_append, List.getLastD_cons]; exact ih c

theorem inside_append (t p q : P2) (l₁ l₂ : List P2) :
    inside t (p :: (l₁ ++ q :: l₂)) =
      ((crosses t p (l₂.getLastD q) ^^ parity t p l₁) ^^ (crosses t q (l₁.getLastD p) ^^ parity t q l₂)) := by
  rw [inside_cons, getLastD_append_cons, parity_append, parity, Bool.xor_assoc]

theorem parity_reverse (t j : P2) (l : List P2) : parity t (l.getLastD j) (j :: l).dropLast.reverse = parity t j l := by
  induction l generalizing j with
  | nil => simp [parity]
  | cons i l ih =>
    rw [List.dropLast_cons_of_ne_nil (by simp), List.reverse_cons, parity_append, List.getLastD_cons, ih i]
    have : ((i :: l).dropLast.reverse).getLastD (l.getLastD i) = i := by
      cases l with
      | nil => simp
      | cons k l =>
        rw [List.dropLast_cons_of_ne_nil (by simp), List.reverse_cons, getLastD_append_cons]
        simp
    rw [this]
    simp only [parity, Bool.xor_false]
    rw [Bool.xor_comm, crosses_comm]

/-! ## Properties -/

/-- **C242 (start).** It does not matter with which vertex a polygon begins. -/
theorem C242_start (t : P2) (l₁ l₂ : List P2) : inside t (l₁ ++ l₂) = inside t (l₂ ++ l₁) := by
  cases l₁ with
  | nil => simp
  | cons p l₁ =>
    cases l₂ with
    | nil => simp
    | cons q l₂ =>
      rw [List.cons_append, List.cons_append, inside_append, inside_append, Bool.xor_comm]

/-- **C242 (orientation).** It does not matter in which sense the vertices are given. -/
theorem C242_reverse (t : P2) (l : List P2) : inside t l.reverse = inside t l := by
  cases l with
  | nil => rfl
  | cons a l =>
    have hl : (a :: l).getLast? = some (l.getLastD a) := by rw [List.getLast?_cons, ← List.getLastD_eq_getLast?]
    have hr : (a :: l).reverse = l.getLastD a :: (a :: l).dropLast.reverse := by
      have h := List.dropLast_append_getLast? (l.getLastD a) hl
      conv_lhs => rw [← h]
      simp
    have hlast : (a :: l).reverse.getLast? = some a := by simp
    unfold inside
    rw [hlast, hl]
    simp only
    rw [hr]
    simp only [parity]
    rw [parity_reverse, crosses_comm]

/-- **C242 (parts).** A polygon cut along a diagonal: a point is inside it exactly if it is inside one of the two parts. -/
theorem C242_split (t p q : P2) (l₁ l₂ : List P2) :
    inside t (p :: (l₁ ++ q :: l₂)) = (inside t (p :: (l₁ ++ [q])) ^^ inside t (q :: (l₂ ++ [p]))) := by
  rw [inside_append, inside_append, inside_append]
  simp only [List.getLastD_nil, parity, Bool.xor_false]
  rw [crosses_comm t q p]
  cases crosses t p (l₂.getLastD q) <;> cases parity t p l₁ <;> cases crosses t q (l₁.getLastD p) <;>
    cases parity t q l₂ <;> cases crosses t p q <;> rfl

/-- Twice the signed area of the triangle of `t` and a side. -/
def cr (t u v : P2) : ℝ := (v.x - u.x) * (t.y - u.y) - (v.y - u.y) * (t.x - u.x)

theorem cr_neg (t u v : P2) : cr t v u = -cr t u v := by unfold cr; ring

theorem crosses_down {t u v : P2} (h1 : t.y < u.y) (h2 : v.y ≤ t.y) : crosses t u v = true ↔ cr t u v < 0 := by
  rw [crosses_iff]
  have h3 : v.y - u.y < 0 := by linarith
  have : t.x < (v.x - u.x) * (t.y - u.y) / (v.y - u.y) + u.x ↔ cr t u v < 0 := by
    rw [← sub_lt_iff_lt_add, lt_div_iff_of_neg h3]
    unfold cr
    constructor <;> intro h <;> linarith
  rw [this]
  constructor
  · exact fun h => h.2
  · exact fun h => ⟨fun h' => absurd (h'.mp h1) (not_lt.mpr h2), h⟩

theorem crosses_same {t u v : P2} (h : u.y > t.y ↔ v.y > t.y) : crosses t u v = false := by
  rw [← Bool.not_eq_true, crosses_iff]
  exact fun h' => h'.1 h

theorem inside_three (t a b c : P2) : inside t [a, b, c] = (crosses t a c ^^ (crosses t b a ^^ crosses t c b)) := by
  rw [inside_cons]; simp [parity]

/-- The triangle with one vertex above the point. -/
theorem apex_up {t a b c : P2} (ha : t.y < a.y) (hb : b.y ≤ t.y) (hc : c.y ≤ t.y) (hD : 0 < cr t a b + cr t b c + cr t c a)
    (h1 : cr t a b ≠ 0) (h2 : cr t b c ≠ 0) (h3 : cr t c a ≠ 0) :
    inside t [a, b, c] = true ↔ 0 < cr t a b ∧ 0 < cr t b c ∧ 0 < cr t c a := by
  rw [inside_three, crosses_same (u := c) (v := b) ⟨fun h => absurd h (not_lt.mpr hc), fun h => absurd h (not_lt.mpr hb)⟩,
    Bool.xor_false, crosses_comm t b a]
  have e1 := crosses_down ha hb
  have e2 := crosses_down ha hc
  have key : cr t b c * (a.y - t.y) = cr t c a * (t.y - b.y) + cr t a b * (t.y - c.y) := by unfold cr; ring
  rw [cr_neg t c a] at e2
  have hay : 0 < a.y - t.y := by linarith
  rcases lt_or_gt_of_ne h1 with k1 | k1 <;> rcases lt_or_gt_of_ne h3 with k3 | k3
  · exfalso
    have : cr t b c * (a.y - t.y) ≤ 0 := by
      rw [key]
      have := mul_nonpos_of_nonpos_of_nonneg k3.le (show 0 ≤ t.y - b.y by linarith)
      have := mul_nonpos_of_nonpos_of_nonneg k1.le (show 0 ≤ t.y - c.y by linarith)
      linarith
    have : cr t b c ≤ 0 := by
      by_contra hh
      push Not at hh
      have := mul_pos hh hay
      linarith
    linarith
  · have x1 : crosses t a b = true := e1.mpr k1
    have x2 : crosses t a c = true := e2.mpr (by linarith)
    rw [x1, x2]
    simp only [Bool.xor_self, Bool.false_eq_true, false_iff, not_and]
    intro h; linarith
  · have x1 : crosses t a b = false := by rw [← Bool.not_eq_true, e1]; linarith
    have x2 : crosses t a c = false := by rw [← Bool.not_eq_true, e2]; linarith
    rw [x1, x2]
    simp only [Bool.xor_self, Bool.false_eq_true, false_iff, not_and]
    intro _ _; linarith
  · have x1 : crosses t a b = false := by rw [← Bool.not_eq_true, e1]; linarith
    have x2 : crosses t a c = true := e2.mpr (by linarith)
    rw [x1, x2]
    simp only [Bool.xor_false, true_iff]
    refine ⟨k1, ?_, k3⟩
    rcases lt_or_gt_of_ne h2 with k2 | k2
    · exfalso
      have := mul_neg_of_neg_of_pos k2 hay
      have := mul_nonneg k3.le (show 0 ≤ t.y - b.y by linarith)
      have := mul_nonneg k1.le (show 0 ≤ t.y - c.y by linarith)
      linarith
    · exact k2

/-- The triangle with one vertex below the point. -/
theorem apex_down {t a b c : P2} (ha : a.y ≤ t.y) (hb : t.y < b.y) (hc : t.y < c.y) (hD : 0 < cr t a b + cr t b c + cr t c a)
    (h1 : cr t a b ≠ 0) (h2 : cr t b c ≠ 0) (h3 : cr t c a ≠ 0) :
    inside t [a, b, c] = true ↔ 0 < cr t a b ∧ 0 < cr t b c ∧ 0 < cr t c a := by
  rw [inside_three, crosses_same (u := c) (v := b) ⟨fun _ => hb, fun _ => hc⟩, Bool.xor_false, crosses_comm t a c]
  have e1 := crosses_down hb ha
  have e2 := crosses_down hc ha
  have key : cr t b c * (a.y - t.y) = cr t c a * (t.y - b.y) + cr t a b * (t.y - c.y) := by unfold cr; ring
  rw [cr_neg t a b] at e1
  have hb' : 0 < b.y - t.y := by linarith
  have hc' : 0 < c.y - t.y := by linarith
  rcases lt_or_gt_of_ne h1 with k1 | k1 <;> rcases lt_or_gt_of_ne h3 with k3 | k3
  · exfalso
    have p1 := mul_pos_of_neg_of_neg k3 (show t.y - b.y < 0 by linarith)
    have p2 := mul_pos_of_neg_of_neg k1 (show t.y - c.y < 0 by linarith)
    have p3 : 0 < cr t b c * (a.y - t.y) := by rw [key]; linarith
    have : cr t b c ≤ 0 := by
      by_contra hh
      push Not at hh
      have := mul_nonpos_of_nonneg_of_nonpos hh.le (show a.y - t.y ≤ 0 by linarith)
      linarith
    linarith
  · have x1 : crosses t b a = false := by rw [← Bool.not_eq_true, e1]; linarith
    have x2 : crosses t c a = false := by rw [← Bool.not_eq_true, e2]; linarith
    rw [x1, x2]
    simp only [Bool.xor_self, Bool.false_eq_true, false_iff, not_and]
    intro h; linarith
  · have x1 : crosses t b a = true := e1.mpr (by linarith)
    have x2 : crosses t c a = true := e2.mpr k3
    rw [x1, x2]
    simp only [Bool.xor_self, Bool.false_eq_true, false_iff, not_and]
    intro _ _; linarith
  · have x1 : crosses t b a = true := e1.mpr (by linarith)
    have x2 : crosses t c a = false := by rw [← Bool.not_eq_true, e2]; linarith
    rw [x1, x2]
    simp only [Bool.false_xor, true_iff]
    refine ⟨k1, ?_, k3⟩
    rcases lt_or_gt_of_ne h2 with k2 | k2
    · exfalso
      have p1 := mul_neg_of_pos_of_neg k3 (show t.y - b.y < 0 by linarith)
      have p2 := mul_neg_of_pos_of_neg k1 (show t.y - c.y < 0 by linarith)
      have p3 := mul_nonneg_of_nonpos_of_nonpos k2.le (show a.y - t.y ≤ 0 by linarith)
      linarith
    · exact k2

/-- The triangle with no side crossed. -/
theorem apex_none {t a b c : P2} (hab : a.y > t.y ↔ b.y > t.y) (hbc : b.y > t.y ↔ c.y > t.y)
    (_hD : 0 < cr t a b + cr t b c + cr t c a) :
    inside t [a, b, c] = true ↔ 0 < cr t a b ∧ 0 < cr t b c ∧ 0 < cr t c a := by
  rw [inside_three, crosses_same (hab.trans hbc), crosses_same hab.symm, crosses_same hbc.symm]
  simp only [Bool.xor_self, Bool.false_eq_true, false_iff]
  rintro ⟨k1, k2, k3⟩
  have key : cr t b c * (a.y - t.y) + cr t c a * (b.y - t.y) + cr t a b * (c.y - t.y) = 0 := by unfold cr; ring
  by_cases h : a.y > t.y
  · have hb := hab.mp h
    have hc := hbc.mp hb
    have := mul_pos k2 (sub_pos.mpr h)
    have := mul_pos k3 (sub_pos.mpr hb)
    have := mul_pos k1 (sub_pos.mpr hc)
    linarith
  · have hb : ¬ b.y > t.y := fun hb => h (hab.mpr hb)
    have hc : ¬ c.y > t.y := fun hc => hb (hbc.mpr hc)
    push Not at h hb hc
    have n1 := mul_nonpos_of_nonneg_of_nonpos k2.le (sub_nonpos.mpr h)
    have n2 := mul_nonpos_of_nonneg_of_nonpos k3.le (sub_nonpos.mpr hb)
    have n3 := mul_nonpos_of_nonneg_of_nonpos k1.le (sub_nonpos.mpr hc)
    have m1 : a.y = t.y := by
      have : cr t b c * (a.y - t.y) = 0 := by linarith
      rcases mul_eq_zero.mp this with h | h
      · linarith
      · linarith
    have m2 : b.y = t.y := by
      have : cr t c a * (b.y - t.y) = 0 := by linarith
      rcases mul_eq_zero.mp this with h | h
      · linarith
      · linarith
    have : cr t a b = 0 := by unfold cr; rw [m1, m2]; ring
    linarith

theorem inside_rot (t a b c : P2) : inside t [b, c, a] = inside t [a, b, c] := C242_start t [b, c] [a]

/-- A triangle given counterclockwise. -/
theorem triangle_ccw {t a b c : P2} (hD : 0 < cr t a b + cr t b c + cr t c a)
    (h1 : cr t a b ≠ 0) (h2 : cr t b c ≠ 0) (h3 : cr t c a ≠ 0) :
    inside t [a, b, c] = true ↔ 0 < cr t a b ∧ 0 < cr t b c ∧ 0 < cr t c a := by
  have hD1 : 0 < cr t b c + cr t c a + cr t a b := by linarith
  have hD2 : 0 < cr t c a + cr t a b + cr t b c := by linarith
  by_cases ha : t.y < a.y <;> by_cases hb : t.y < b.y <;> by_cases hc : t.y < c.y
  · exact apex_none ⟨fun _ => hb, fun _ => ha⟩ ⟨fun _ => hc, fun _ => hb⟩ hD
  · rw [← inside_rot t a b c, ← inside_rot t b c a, apex_down (not_lt.mp hc) ha hb hD2 h3 h1 h2]
    tauto
  · rw [← inside_rot t a b c, apex_down (not_lt.mp hb) hc ha hD1 h2 h3 h1]
    tauto
  · exact apex_up ha (not_lt.mp hb) (not_lt.mp hc) hD h1 h2 h3
  · exact apex_down (not_lt.mp ha) hb hc hD h1 h2 h3
  · rw [← inside_rot t a b c, apex_up hb (not_lt.mp hc) (not_lt.mp ha) hD1 h2 h3 h1]
    tauto
  · rw [← inside_rot t a b c, ← inside_rot t b c a, apex_up hc (not_lt.mp ha) (not_lt.mp hb) hD2 h3 h1 h2]
    tauto
  · exact apex_none ⟨fun h => absurd h ha, fun h => absurd h hb⟩ ⟨fun h => absurd h hb, fun h => absurd h hc⟩ hD

/-- The point is on the straight line through `u` and `v` (or these are equal). -/
def OnLine (t u v : P2) : Prop := (v.x - u.x) * (t.y - u.y) = (v.y - u.y) * (t.x - u.x)

/-- The point is a mean of the corners with positive weights. -/
def Within (t a b c : P2) : Prop :=
  ∃ α β γ : ℝ, 0 < α ∧ 0 < β ∧ 0 < γ ∧ α + β + γ = 1 ∧ t.x = α * a.x + β * b.x + γ * c.x ∧ t.y = α * a.y + β * b.y + γ * c.y

theorem within_ccw {t a b c : P2} (hD : 0 < cr t a b + cr t b c + cr t c a) :
    (0 < cr t a b ∧ 0 < cr t b c ∧ 0 < cr t c a) ↔ Within t a b c := by
  constructor
  · rintro ⟨k1, k2, k3⟩
    refine ⟨_, _, _, div_pos k2 hD, div_pos k3 hD, div_pos k1 hD, ?_, ?_, ?_⟩
    · field_simp; ring
    · have : t.x * (cr t a b + cr t b c + cr t c a) = cr t b c * a.x + cr t c a * b.x + cr t a b * c.x := by unfold cr; ring
      field_simp; linarith
    · have : t.y * (cr t a b + cr t b c + cr t c a) = cr t b c * a.y + cr t c a * b.y + cr t a b * c.y := by unfold cr; ring
      field_simp; linarith
  · rintro ⟨α, β, γ, ha, hb, hc, hs, hx, hy⟩
    have hα : α = 1 - β - γ := by linarith
    have e1 : cr t a b = γ * (cr t a b + cr t b c + cr t c a) := by unfold cr; rw [hx, hy, hα]; ring
    have e2 : cr t b c = α * (cr t a b + cr t b c + cr t c a) := by unfold cr; rw [hx, hy, hα]; ring
    have e3 : cr t c a = β * (cr t a b + cr t b c + cr t c a) := by unfold cr; rw [hx, hy, hα]; ring
    refine ⟨?_, ?_, ?_⟩
    · rw [e1]; exact mul_pos hc hD
    · rw [e2]; exact mul_pos ha hD
    · rw [e3]; exact mul_pos hb hD

/-- **C242 (triangle).** A point that is on no line through two corners of a triangle is inside exactly if it is a mean of the corners
with positive weights. -/
theorem C242_triangle {t a b c : P2} (h : ¬ OnLine c a b) (h1 : ¬ OnLine t a b) (h2 : ¬ OnLine t b c) (h3 : ¬ OnLine t c a) :
    inside t [a, b, c] = true ↔ Within t a b c := by
  have ne : ∀ u v, ¬ OnLine t u v → cr t u v ≠ 0 := by
    intro u v hn h0; apply hn; unfold cr at h0; unfold OnLine; linarith
  have hA : cr t a b + cr t b c + cr t c a ≠ 0 := by
    intro h0; apply h; unfold cr at h0; unfold OnLine; linarith
  rcases lt_or_gt_of_ne hA with hD | hD
  · have hD' : 0 < cr t c b + cr t b a + cr t a c := by
      rw [cr_neg t b c, cr_neg t a b, cr_neg t c a]; linarith
    have hr : inside t [a, b, c] = inside t [c, b, a] := (C242_reverse t [a, b, c]).symm
    rw [hr, triangle_ccw hD' (by rw [cr_neg]; exact neg_ne_zero.mpr (ne _ _ h2)) (by rw [cr_neg]; exact neg_ne_zero.mpr (ne _ _ h1))
      (by rw [cr_neg]; exact neg_ne_zero.mpr (ne _ _ h3)), within_ccw hD']
    constructor
    · rintro ⟨α, β, γ, p⟩
      exact ⟨γ, β, α, p.2.2.1, p.2.1, p.1, by linarith [p.2.2.2.1], by linarith [p.2.2.2.2.1], by linarith [p.2.2.2.2.2]⟩
    · rintro ⟨α, β, γ, p⟩
      exact ⟨γ, β, α, p.2.2.1, p.2.1, p.1, by linarith [p.2.2.2.1], by linarith [p.2.2.2.2.1], by linarith [p.2.2.2.2.2]⟩
  · rw [triangle_ccw hD (ne _ _ h1) (ne _ _ h2) (ne _ _ h3), within_ccw hD]

/-- The hypotheses of `C242_triangle` are met by a point in a triangle. -/
example : ¬ OnLine ⟨0, 4⟩ ⟨0, 0⟩ ⟨4, 0⟩ ∧ ¬ OnLine ⟨1, 1⟩ ⟨0, 0⟩ ⟨4, 0⟩ ∧ ¬ OnLine ⟨1, 1⟩ ⟨4, 0⟩ ⟨0, 4⟩ ∧
    ¬ OnLine ⟨1, 1⟩ ⟨0, 4⟩ ⟨0, 0⟩ ∧ Within ⟨1, 1⟩ ⟨0, 0⟩ ⟨4, 0⟩ ⟨0, 4⟩ := by
  refine ⟨by norm_num [OnLine], by norm_num [OnLine], by norm_num [OnLine], by norm_num [OnLine], 1 / 2, 1 / 4, 1 / 4, ?_⟩
  norm_num

/-- The triangles of a fan around `p`. -/
noncomputable def fan (t p : P2) : P2 → List P2 → Bool
  | _, [] => false
  | a, b :: l => inside t [p, a, b] ^^ fan t p b l

/-- **C242 (fan).** A polygon is, point by point, the even-odd sum of the triangles that its first corner makes with its sides. -/
theorem C242_fan (t p a : P2) (l : List P2) : inside t (p :: a :: l) = fan t p a l := by
  induction l generalizing a with
  | nil =>
    rw [inside_cons]
    simp only [List.getLastD_cons, List.getLastD_nil, parity, fan, Bool.xor_false]
    rw [crosses_comm]; simp
  | cons b l ih =>
    rw [fan, ← ih b]
    have h1 := C242_split t p b [a] l
    simp only [List.cons_append, List.nil_append] at h1
    rw [h1]
    congr 1
    exact (C242_start t [p] (b :: l)).symm

/-- **C242 (rectangle).** Of the sides of a rectangle the left and the lower one belong to it. -/
theorem C242_rectangle (t : P2) {x0 x1 y0 y1 : ℝ} (hx : x0 ≤ x1) (hy : y0 ≤ y1) :
    inside t [⟨x0, y0⟩, ⟨x1, y0⟩, ⟨x1, y1⟩, ⟨x0, y1⟩] = true ↔ x0 ≤ t.x ∧ t.x < x1 ∧ y0 ≤ t.y ∧ t.y < y1 := by
  have hv : ∀ x u v : ℝ, crosses t ⟨x, u⟩ ⟨x, v⟩ = true ↔ (¬ (u > t.y ↔ v > t.y)) ∧ t.x < x := by
    intro x u v; rw [crosses_iff]; simp
  have hh : ∀ u v y : ℝ, crosses t ⟨u, y⟩ ⟨v, y⟩ = false := fun u v y => crosses_same Iff.rfl
  have e : inside t [⟨x0, y0⟩, ⟨x1, y0⟩, ⟨x1, y1⟩, ⟨x0, y1⟩] =
      (crosses t ⟨x0, y0⟩ ⟨x0, y1⟩ ^^ crosses t ⟨x1, y1⟩ ⟨x1, y0⟩) := by
    rw [inside_cons]; simp [parity, hh]
  rw [e]
  by_cases hs : y0 ≤ t.y ∧ t.y < y1
  · have c0 : ¬ (y0 > t.y ↔ y1 > t.y) := fun h => absurd (h.mpr hs.2) (not_lt.mpr hs.1)
    have d0 : crosses t ⟨x0, y0⟩ ⟨x0, y1⟩ = true ↔ t.x < x0 := by rw [hv]; exact ⟨fun h => h.2, fun h => ⟨c0, h⟩⟩
    have d1 : crosses t ⟨x1, y1⟩ ⟨x1, y0⟩ = true ↔ t.x < x1 := by
      rw [hv]; exact ⟨fun h => h.2, fun h => ⟨fun h' => c0 h'.symm, h⟩⟩
    by_cases k0 : t.x < x0
    · rw [d0.mpr k0, d1.mpr (lt_of_lt_of_le k0 hx)]
      simp only [Bool.xor_self, Bool.false_eq_true, false_iff]
      exact fun h => absurd h.1 (not_le.mpr k0)
    · have z0 : crosses t ⟨x0, y0⟩ ⟨x0, y1⟩ = false := by rw [← Bool.not_eq_true, d0]; exact k0
      rw [z0, Bool.false_xor, d1]
      exact ⟨fun h => ⟨not_lt.mp k0, h, hs⟩, fun h => h.2.1⟩
  · have c0 : y0 > t.y ↔ y1 > t.y := by
      constructor
      · intro h; linarith
      · intro h
        by_contra h'
        exact hs ⟨not_lt.mp h', h⟩
    rw [crosses_same (u := ⟨x0, y0⟩) (v := ⟨x0, y1⟩) c0, crosses_same (u := ⟨x1, y1⟩) (v := ⟨x1, y0⟩) c0.symm]
    simp only [Bool.xor_self, Bool.false_eq_true, false_iff]
    exact fun h => hs h.2.2

/-- **C242 (clips).** A point is refused exactly if it is in a polygon to be left out or not in one to be kept. -/
theorem C242_clipped (clips : List Poly) (t : P2) :
    clipped clips t = true ↔ ∃ p ∈ clips, ¬ (inside t p.vertices = true ↔ p.inclusive = true) := by
  unfold clipped
  rw [List.any_eq_true]
  refine exists_congr fun p => and_congr_right fun _ => ?_
  cases inside t p.vertices <;> cases p.inclusive <;> simp

end Verif.Avg
