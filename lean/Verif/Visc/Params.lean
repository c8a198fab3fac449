import Verif.Visc.Props
import Mathlib.Analysis.SpecialFunctions.Trigonometric.Deriv
import Mathlib.Analysis.SpecialFunctions.Trigonometric.Arctan
import Mathlib.Analysis.SpecialFunctions.ExpDeriv
import Mathlib.Analysis.Calculus.Deriv.MeanValue
import Mathlib.Analysis.Real.Pi.Bounds

/-! # C261, C262: parameters of viscoelastic contacts -/
namespace Verif.Visc

open Verif.Mech

theorem serial_comm (a b : ℝ) : serial a b = serial b a := by
  unfold serial; dsimp only; rw [add_comm]

theorem serial_pos {a b : ℝ} (ha : 0 < a) (hb : 0 < b) : serial a b = a * b / (a + b) := by
  unfold serial
  dsimp only
  rw [if_pos ha.ne', if_pos hb.ne', if_pos (by positivity)]
  field_simp
  rw [add_comm]

theorem serial_self (a : ℝ) : serial a a = a / 2 := by
  unfold serial
  dsimp only
  by_cases h : a = 0
  · subst h; simp
  · rw [if_pos h, if_pos]
    · field_simp; norm_num
    · rw [← two_mul]; exact mul_ne_zero two_ne_zero (one_div_ne_zero h)

theorem serial_zero (a : ℝ) : serial a 0 = a := by
  unfold serial
  dsimp only
  by_cases h : a = 0
  · subst h; simp
  · rw [if_pos h, if_neg (by simp : ¬ (0:ℝ) ≠ 0), add_zero, if_pos (one_div_ne_zero h), one_div_one_div]

theorem mean_comm (m a b : Option ℝ) : mean m a b = mean m b a := by unfold mean; rw [add_comm]

theorem masses_comm {m1 m2 : ℝ} : (masses m1 m2).1 + (masses m1 m2).2 = (masses m2 m1).1 + (masses m2 m1).2 ∧ reducedMass m1 m2 = reducedMass m2 m1 := by
  unfold reducedMass masses
  split_ifs with h1 h2 h3 h4 <;> (try exact ⟨rfl, rfl⟩)
  · exact absurd h1.1 h2.2.ne'
  · exact ⟨add_comm _ _, by simp only [mul_comm, add_comm]⟩

/-- The parameters of both materials exchanged. -/
def Four.flip (x : Four) : Four := ⟨(x.kn.2, x.kn.1), (x.ks.2, x.ks.1), (x.cn.2, x.cn.1), (x.cs.2, x.cs.1)⟩

theorem elastic_flip (find : ℝ → ℝ → ℝ → ℝ) (q : Match) {a b : Mat} (m R1 R2 : ℝ) (e3 : a.cn.isSome = b.cn.isSome) (e4 : a.cs.isSome = b.cs.isSome)
    (e6 : a.en.isSome = b.en.isSome) (e7 : a.et.isSome = b.et.isSome) : elastic find q b a m R2 R1 = (elastic find q a b m R1 R2).flip := by
  unfold elastic
  dsimp only
  rw [e3, e4, e6, e7, mean_comm q.en, serial_comm (2 * b.young * R2)]
  split_ifs <;> rfl

theorem four_flip (find : ℝ → ℝ → ℝ → ℝ) (q : Match) {a b : Mat} (m1 m2 R1 R2 : ℝ) (h : a.alike b = true) :
    four find q b a m2 m1 R2 R1 = (four find q a b m1 m2 R1 R2).bind fun x => .ok x.flip := by
  simp only [Mat.alike, Bool.and_eq_true, beq_iff_eq] at h
  obtain ⟨⟨⟨⟨⟨⟨e1, e2⟩, e3⟩, e4⟩, e5⟩, e6⟩, e7⟩ := h
  have ht : timed q a = timed q b := by unfold timed; rw [e5, e6, e7]
  unfold four
  rw [ht, masses_comm.1, mean_comm q.tc, mean_comm q.en, mean_comm q.et, e1, e2, e3, e4, e6, masses_comm.2, elastic_flip find q _ _ _ e3 e4 e6 e7]
  by_cases c1 : timed q b = true
  · rw [if_pos c1, if_pos c1]
    split_ifs <;> rfl
  · rw [if_neg c1, if_neg c1]
    by_cases c2 : b.kn.isSome = true ∧ b.ks.isSome = true ∧ b.cn.isSome = true ∧ b.cs.isSome = true
    · rw [if_pos c2, if_pos c2]; rfl
    · rw [if_neg c2, if_neg c2]
      by_cases c3 : (masses m1 m2).1 + (masses m1 m2).2 = 0 ∧ b.en.isSome = true
      · rw [if_pos c3, if_pos c3]; rfl
      · rw [if_neg c3, if_neg c3]; rfl

theorem rolling_comm (a b : ℝ) : rolling a b = rolling b a := by
  unfold rolling
  rw [add_comm]
  by_cases h : a > 0 ∨ b > 0
  · rw [if_pos h, if_pos h.symm]
  · rw [if_neg h, if_neg (fun h' => h h'.symm)]

/-- **C261**: the parameters do not depend on which body is the first one. -/
theorem C261_swap (find : ℝ → ℝ → ℝ → ℝ) (q : Match) (a b : Mat) (m1 m2 R1 R2 : ℝ) : make find q b a m2 m1 R2 R1 = make find q a b m1 m2 R1 R2 := by
  unfold make
  have hal : b.alike a = a.alike b := by
    unfold Mat.alike
    rw [Bool.beq_comm (a := b.kn.isSome), Bool.beq_comm (a := b.ks.isSome), Bool.beq_comm (a := b.cn.isSome), Bool.beq_comm (a := b.cs.isSome),
      Bool.beq_comm (a := b.tc.isSome), Bool.beq_comm (a := b.en.isSome), Bool.beq_comm (a := b.et.isSome)]
  rw [hal]
  by_cases h : a.alike b = true
  · rw [if_pos h, if_pos h, four_flip find q _ _ _ _ h]
    rcases four find q a b m1 m2 R1 R2 with x | _ | _
    · simp only [Res.bind_ok, Four.flip]
      rw [serial_comm x.kn.2, serial_comm x.ks.2, serial_comm x.cn.2, serial_comm x.cs.2, rolling_comm b.mR, min_comm b.angle]
      by_cases hty : a.mRtype = b.mRtype
      · rw [hty]
      · rw [if_pos (Or.inl (Ne.symm hty)), if_pos (Or.inl hty)]
    · rfl
    · rfl
  · rw [if_neg h, if_neg h]

/-- Parameters given explicitly: all four, and neither contact time nor restitution, with the same type of rolling resistance. -/
structure Explicit (q : Match) (a b : Mat) (n1 n2 s1 s2 c1 c2 d1 d2 : ℝ) : Prop where
  kn : a.kn = some n1 ∧ b.kn = some n2
  ks : a.ks = some s1 ∧ b.ks = some s2
  cn : a.cn = some c1 ∧ b.cn = some c2
  cs : a.cs = some d1 ∧ b.cs = some d2
  untimed : a.tc = none ∧ b.tc = none ∧ a.en = none ∧ b.en = none ∧ a.et = none ∧ b.et = none ∧ q.tc = none
  type : a.mRtype = b.mRtype ∧ (a.mRtype = 1 ∨ a.mRtype = 2)

/-- **C261 (partial).** Parameters given explicitly for both materials are put in series: the inverse of each parameter of a contact is the sum of the inverses of
those of its materials; a parameter which is zero for one material is the one of the other. -/
theorem C261_explicit_partial (find : ℝ → ℝ → ℝ → ℝ) (q : Match) (a b : Mat) (m1 m2 R1 R2 : ℝ) {n1 n2 s1 s2 c1 c2 d1 d2 : ℝ}
    (h : Explicit q a b n1 n2 s1 s2 c1 c2 d1 d2) :
    ∃ p, make find q a b m1 m2 R1 R2 = .ok p ∧ (0 < n1 → 0 < n2 → 1 / p.kn = 1 / n1 + 1 / n2) ∧ (0 < s1 → 0 < s2 → 1 / p.ks = 1 / s1 + 1 / s2) ∧
      (0 < c1 → 0 < c2 → 1 / p.cn = 1 / c1 + 1 / c2) ∧ (0 < d1 → 0 < d2 → 1 / p.cs = 1 / d1 + 1 / d2) ∧ (c2 = 0 → p.cn = c1) ∧ (d2 = 0 → p.cs = d1) ∧
      p.tan = Real.tan (q.angle.getD (min a.angle b.angle)) := by
  have inv : ∀ {x y : ℝ}, 0 < x → 0 < y → 1 / serial x y = 1 / x + 1 / y := by
    intro x y hx hy
    rw [serial_pos hx hy]; field_simp; rw [add_comm]
  obtain ⟨⟨k1, k2⟩, ⟨l1, l2⟩, ⟨g1, g2⟩, ⟨e1, e2⟩, ⟨t1, t2, t3, t4, t5, t6, t7⟩, y1, y2⟩ := h
  have hal : a.alike b = true := by simp [Mat.alike, k1, k2, l1, l2, g1, g2, e1, e2, t1, t2, t3, t4, t5, t6]
  have hf : four find q a b m1 m2 R1 R2 = .ok ⟨(n1, n2), (s1, s2), (c1, c2), (d1, d2)⟩ := by
    unfold four
    rw [if_neg (by simp [timed, t1, t7]), if_pos (by simp [k1, l1, g1, e1])]
    simp [k1, k2, l1, l2, g1, g2, e1, e2]
  refine ⟨{ kn := serial n1 n2, cn := serial c1 c2, ks := serial s1 s2, cs := serial d1 d2, mR := rolling a.mR b.mR, mRtype := a.mRtype, tan := Real.tan (q.angle.getD (min a.angle b.angle)), Fn := 0, Fs := 0 },
    ?_, inv, inv, inv, inv, fun h => by dsimp only; rw [h, serial_zero],
    fun h => by dsimp only; rw [h, serial_zero], rfl⟩
  unfold make
  rw [if_pos hal, hf, Res.bind_ok, if_neg]
  rintro (h | h | h)
  · exact h y1
  · rcases y2 with y2 | y2 <;> omega
  · rcases y2 with y2 | y2 <;> omega

/-- The documented stiffness of a contact is `2*k1*k2/(k1+k2)`; it is half of that. -/
theorem C261_violated (find : ℝ → ℝ → ℝ → ℝ) (q : Match) (a b : Mat) (m1 m2 R1 R2 : ℝ) {n1 n2 s1 s2 c1 c2 d1 d2 : ℝ} (h : Explicit q a b n1 n2 s1 s2 c1 c2 d1 d2)
    (h1 : 0 < n1) (h2 : 0 < n2) : ∃ p, make find q a b m1 m2 R1 R2 = .ok p ∧ p.kn ≠ 2 * n1 * n2 / (n1 + n2) := by
  obtain ⟨p, hp, hk, -⟩ := C261_explicit_partial find q a b m1 m2 R1 R2 h
  refine ⟨p, hp, fun e => ?_⟩
  have := hk h1 h2
  rw [e] at this
  field_simp at this
  nlinarith

/-- Two materials with given stiffness, of one and three. -/
noncomputable def exM (k : ℝ) : Mat :=
  { tc := none, en := none, et := none, kn := some k, cn := some 1, ks := some (k / 2), cs := some 0, young := 0, poisson := 0, mR := 0, mRtype := 1, angle := 1 / 2 }

theorem ex_explicit : Explicit ⟨none, none, none, none⟩ (exM 1) (exM 3) 1 3 (1 / 2) (3 / 2) 1 1 0 0 :=
  ⟨⟨rfl, rfl⟩, ⟨rfl, rfl⟩, ⟨rfl, rfl⟩, ⟨rfl, rfl⟩, ⟨rfl, rfl, rfl, rfl, rfl, rfl, rfl⟩, rfl, Or.inl rfl⟩

example : ∃ p, make (fun _ _ _ => 0) ⟨none, none, none, none⟩ (exM 1) (exM 3) 1 1 1 1 = .ok p ∧ 1 / p.kn = 4 / 3 := by
  obtain ⟨p, h, h1, -⟩ := C261_explicit_partial (fun _ _ _ => 0) _ _ _ 1 1 1 1 ex_explicit
  exact ⟨p, h, by rw [h1 (by norm_num) (by norm_num)]; norm_num⟩

end Verif.Visc
