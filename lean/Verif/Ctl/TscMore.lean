import Verif.Ctl.TscProps

/-!
# More properties of TriaxialStressController: strain rates, measures, numbers of walls, growth of particles
-/
namespace Verif.Ctl

open Verif.Mech

/-! ## Strain rates -/

/-- The strain rate of the box along an axis after a step, both walls active and the axis under strain control. -/
theorem rate_step (t : Tsc) (dt : ℝ) (w : Fin 3 → Bool → Wall) (a : Fin 3) (hm : t.mask a = false)
    (h1 : ∀ u, (w a u).active = true) (hs : t.size w a ≠ 0) :
    (((t.step dt w a true).vel a - (t.step dt w a false).vel a) / t.size w a) - t.goal a =
      t.strainDamping * (t.strainRate w a - t.goal a) := by
  have hv : ∀ u, (t.step dt w a u).vel a =
      (w a u).vel a + (-(normal a u a) * 0.5 * t.goal a * t.size w a - (w a u).vel a) * (1 - t.strainDamping) := by
    intro u
    unfold Tsc.step Tsc.wall
    rw [if_pos (h1 u), if_neg (by rw [hm]; simp)]
    simp
  unfold Tsc.strainRate
  rw [hv, hv]
  have e1 : normal a true a = -1 := by simp [normal]
  have e2 : normal a false a = 1 := by simp [normal]
  rw [e1, e2]
  field_simp
  ring

theorem step_same (t : Tsc) (dt : ℝ) (w : Fin 3 → Bool → Wall) (a : Fin 3) (u : Bool) :
    (t.step dt w a u).pos = (w a u).pos ∧ (t.step dt w a u).active = (w a u).active := by
  unfold Tsc.step Tsc.wall
  split_ifs <;> exact ⟨rfl, rfl⟩

theorem step_size (t : Tsc) (dt : ℝ) (w : Fin 3 → Bool → Wall) : t.size (t.step dt w) = t.size w := by
  unfold Tsc.size
  funext a
  rw [(step_same t dt w a true).1, (step_same t dt w a false).1]

/-- C227, partial: with both walls of an axis active, the strain rate approaches the goal like `strainDamping ^ n`, at an unchanged size of
the box. Missing: that the size changes meanwhile, and boxes with a single moving wall, see `C227_violated_moving` and
`C227_violated`. -/
theorem C227_rate_partial (t : Tsc) (dt : ℝ) (w : Fin 3 → Bool → Wall) (a : Fin 3) (hm : t.mask a = false)
    (h1 : ∀ u, (w a u).active = true) (hs : t.size w a ≠ 0) (n : ℕ) :
    t.strainRate ((t.step dt)^[n] w) a - t.goal a = t.strainDamping ^ n * (t.strainRate w a - t.goal a) := by
  have key : ∀ n : ℕ, t.size ((t.step dt)^[n] w) = t.size w ∧ ∀ u, ((t.step dt)^[n] w a u).active = true := by
    intro n
    induction n with
    | zero => exact ⟨rfl, h1⟩
    | succ n ih =>
      rw [Function.iterate_succ', Function.comp]
      exact ⟨(step_size t dt _).trans ih.1, fun u => (step_same t dt _ a u).2.trans (ih.2 u)⟩
  induction n with
  | zero => simp
  | succ n ih =>
    rw [Function.iterate_succ', Function.comp]
    have hk := key n
    have h2 := rate_step t dt ((t.step dt)^[n] w) a hm hk.2 (by rw [hk.1]; exact hs)
    have h3 : t.strainRate (t.step dt ((t.step dt)^[n] w)) a =
        ((t.step dt ((t.step dt)^[n] w) a true).vel a - (t.step dt ((t.step dt)^[n] w) a false).vel a) /
          t.size ((t.step dt)^[n] w) a := by
      show _ / t.size (t.step dt ((t.step dt)^[n] w)) a = _
      rw [step_size]
    rw [h3, h2, ih, pow_succ]
    ring

/-- A box of size two along all axes with velocities `±v` of its walls, the lower walls active or not. -/
noncomputable def exBox (v : ℝ) (lower : Bool) (a : Fin 3) (u : Bool) : Wall :=
  { pos := fun _ => if u then 1 else -1, vel := fun b => if b = a then (if u then v else -v) else 0, prev := 0, force := 0, stiff := 1,
    active := if u then true else lower }

/-- Strain control of all axes. -/
noncomputable def exR (g : ℝ) : Tsc :=
  { stressDamping := 0.25, strainDamping := 0.99, thickness := 0, goal := fun _ => g, mask := fun _ => false, maxVel := 1 }

theorem ex_size (g v : ℝ) (l : Bool) (a : Fin 3) : (exR g).size (exBox v l) a = 2 := by
  simp [Tsc.size, exBox, exR]
  norm_num

/-- C227 applies to the box at rest. -/
example (n : ℕ) : (exR (-0.1)).strainRate (((exR (-0.1)).step 1)^[n] (exBox 0 true)) 0 = -0.1 + 0.99 ^ n * 0.1 := by
  have h := C227_rate_partial (exR (-0.1)) 1 (exBox 0 true) 0 rfl (by intro u; cases u <;> rfl) (by rw [ex_size]; norm_num) n
  have h0 : (exR (-0.1)).strainRate (exBox 0 true) 0 = 0 := by simp [Tsc.strainRate, exBox]
  rw [h0] at h
  simp only [exR] at h ⊢
  linarith

/-- C227, violated: with one wall of an axis deactivated (as is usual for a fixed base) the rate that is kept is half the goal. -/
theorem C227_violated (g dt : ℝ) : ∃ w : Fin 3 → Bool → Wall, (∀ a, (exR g).strainRate w a = g / 2) ∧
    ((exR g).step dt w = w) ∧ (∀ a, (w a true).active = true) ∧ ∀ a, (exR g).size w a = 2 := by
  have hu : ∀ a : Fin 3, normal a true a = -1 := by intro a; simp [normal]
  refine ⟨fun a u => if u then exBox g false a true else { exBox g false a false with vel := 0 }, ?_, ?_, ?_, ?_⟩
  · intro a
    simp [Tsc.strainRate, Tsc.size, exBox, exR]
    norm_num
  · funext a u
    have hs : ∀ a, (exR g).size (fun a u => if u then exBox g false a true else { exBox g false a false with vel := 0 }) a = 2 := by
      intro a
      simp [Tsc.size, exBox, exR]
      norm_num
    unfold Tsc.step Tsc.wall
    cases u with
    | true =>
      rw [if_pos (by rfl), if_neg (by simp [exR]), hs]
      simp only [if_true]
      have e : (exBox g false a true).vel a + (-(normal a true a) * 0.5 * (exR g).goal a * 2 - (exBox g false a true).vel a) *
          (1 - (exR g).strainDamping) = g := by
        rw [hu]
        simp only [exBox, exR, if_true]
        ring
      rw [e]
      unfold exBox
      congr 1
      funext b
      simp only [if_true]
      split_ifs <;> rfl
    | false => rw [if_neg (by simp [exBox])]; rfl
  · intro a; rfl
  · intro a
    simp [Tsc.size, exBox, exR]
    norm_num

/-- C227, violated for a box that follows its walls: a rate that is exactly the goal is left again. Walls moved by
`dt` times their velocity, the next step sets another strain rate. -/
theorem C227_violated_moving (t : Tsc) (dt : ℝ) (w : Fin 3 → Bool → Wall) (a : Fin 3) (hm : t.mask a = false)
    (h1 : ∀ u, (w a u).active = true) (hs : 0 < t.size w a) (hdt : 0 < dt) (hg : 0 < t.goal a) (hd : 0 < t.strainDamping)
    (w' : Fin 3 → Bool → Wall) (hw : w' = fun a u => { w a u with pos := (w a u).pos + dt • (w a u).vel })
    (hr : t.strainRate w a = t.goal a) :
    ((t.step dt w' a true).vel a - (t.step dt w' a false).vel a) / t.size w' a < t.goal a := by
  have hV : (w a true).vel a - (w a false).vel a = t.goal a * t.size w a := by
    unfold Tsc.strainRate at hr
    rwa [div_eq_iff hs.ne'] at hr
  have hsz : t.size w' a = t.size w a * (1 + dt * t.goal a) := by
    have : t.size w' a = t.size w a + dt * ((w a true).vel a - (w a false).vel a) := by
      rw [hw]; simp [Tsc.size]; ring
    rw [this, hV]; ring
  have hf : 1 < 1 + dt * t.goal a := by have := mul_pos hdt hg; linarith
  have hs' : 0 < t.size w' a := by rw [hsz]; positivity
  have h2 := rate_step t dt w' a hm (by intro u; rw [hw]; exact h1 u) hs'.ne'
  have h3 : t.strainRate w' a < t.goal a := by
    show ((w' a true).vel a - (w' a false).vel a) / t.size w' a < _
    have : (w' a true).vel a - (w' a false).vel a = t.goal a * t.size w a := by rw [hw]; exact hV
    rw [this, div_lt_iff₀ hs', hsz]
    have := mul_pos hg hs
    nlinarith
  have := mul_neg_of_pos_of_neg hd (sub_neg.2 h3)
  linarith

example : ∃ (t : Tsc) (w : Fin 3 → Bool → Wall), (t.mask 0 = false ∧ (∀ u, (w 0 u).active = true) ∧ 0 < t.size w 0 ∧
    0 < t.goal 0 ∧ 0 < t.strainDamping ∧ t.strainRate w 0 = t.goal 0) :=
  ⟨exR 1, exBox 1 true, rfl, by intro u; cases u <;> rfl, by rw [ex_size]; norm_num, by norm_num [exR], by norm_num [exR], by
    simp [Tsc.strainRate, Tsc.size, exBox, exR]⟩

/-! ## Measures -/

/-- The force on a wall of a sample with uniform stress `σ`: the stress times the normal out of the wall, times the area. -/
def traction (σ : M3) (s : V3) (a : Fin 3) (u : Bool) : V3 := fun b => (if u then -1 else 1) * (σ b a * area s a)

/-- C228: for a sample of uniform stress, the stress given for both walls of an axis is the column of the stress tensor, and
`meanStress` a third of its trace. -/
theorem C228_stress (σ : M3) (s : V3) (w : Fin 3 → Bool → Wall) (hs : ∀ a, 0 < s a)
    (hf : ∀ a u, (w a u).force = traction σ s a u) :
    (∀ a u b, stressOf s a u (w a u) b = σ b a) ∧ meanStress s w = (σ 0 0 + σ 1 1 + σ 2 2) / 3 := by
  have hA : ∀ a, area s a ≠ 0 := by
    intro a
    have h0 := (hs 0).ne'; have h1 := (hs 1).ne'; have h2 := (hs 2).ne'
    fin_cases a
    · exact mul_ne_zero h1 h2
    · exact mul_ne_zero h0 h2
    · exact mul_ne_zero h0 h1
  have h1 : ∀ a u b, stressOf s a u (w a u) b = σ b a := by
    intro a u b
    have := hA a
    unfold stressOf
    rw [hf]
    cases u with
    | true =>
      rw [if_pos rfl]
      simp only [traction, Pi.smul_apply, Pi.neg_apply, smul_eq_mul, if_true]
      field_simp
    | false =>
      rw [if_neg (by simp)]
      simp only [traction, Pi.smul_apply, smul_eq_mul, Bool.false_eq_true, if_false]
      field_simp
  refine ⟨h1, ?_⟩
  have h2 : ∀ a u, dot (stressOf s a u (w a u)) ((if u then (-1 : ℝ) else 1) • normal a u) = σ a a := by
    intro a u
    unfold dot
    rw [h1, h1, h1]
    cases u <;> fin_cases a <;> simp [normal]
  unfold meanStress
  show (dot (stressOf s 0 false (w 0 false)) ((if false then (-1 : ℝ) else 1) • normal 0 false) +
    dot (stressOf s 0 true (w 0 true)) ((if true then (-1 : ℝ) else 1) • normal 0 true) +
    dot (stressOf s 1 false (w 1 false)) ((if false then (-1 : ℝ) else 1) • normal 1 false) +
    dot (stressOf s 1 true (w 1 true)) ((if true then (-1 : ℝ) else 1) • normal 1 true) +
    dot (stressOf s 2 false (w 2 false)) ((if false then (-1 : ℝ) else 1) • normal 2 false) +
    dot (stressOf s 2 true (w 2 true)) ((if true then (-1 : ℝ) else 1) • normal 2 true)) / 6 = _
  rw [h2 0 false, h2 0 true, h2 1 false, h2 1 true, h2 2 false, h2 2 true]
  ring

example : meanStress ![1, 2, 3] (fun a u => { exBox 0 true a u with force := traction !![-5, 1, 0; 1, -6, 0; 0, 0, -7] ![1, 2, 3] a u }) =
    -6 := by
  rw [(C228_stress !![-5, 1, 0; 1, -6, 0; 0, 0, -7] ![1, 2, 3] _ (by intro a; fin_cases a <;> simp) (fun _ _ => rfl)).2]
  simp
  norm_num

/-- C228: the strains add up to the logarithm of the ratio of the volumes of the box. -/
theorem C228_volumetric (s s0 : V3) (hs : ∀ a, 0 < s a) (h0 : ∀ a, 0 < s0 a) :
    volStrain s s0 = Real.log (s 0 * s 1 * s 2 / (s0 0 * s0 1 * s0 2)) := by
  unfold volStrain strainOf
  have h : ∀ a, (if s0 a = 0 then s a else s0 a) = s0 a := fun a => if_neg (h0 a).ne'
  simp only [h]
  have p0 := hs 0; have p1 := hs 1; have p2 := hs 2; have q0 := h0 0; have q1 := h0 1; have q2 := h0 2
  rw [← Real.log_mul (div_pos p0 q0).ne' (div_pos p1 q1).ne', ← Real.log_mul (mul_pos (div_pos p0 q0) (div_pos p1 q1)).ne'
    (div_pos p2 q2).ne']
  congr 1
  field_simp

/-- C228: without reference sizes the first strain is zero. -/
theorem C228_first (s : V3) (hs : ∀ a, 0 < s a) : strainOf s 0 = 0 ∧ volStrain s 0 = 0 := by
  have h : ∀ a, strainOf s 0 a = 0 := by
    intro a
    unfold strainOf
    rw [if_pos (by simp), div_self (hs a).ne', Real.log_one]
  exact ⟨funext h, by unfold volStrain; rw [h, h, h]; norm_num⟩

example : volStrain ![1, 1, 2] ![1, 1, 1] = Real.log 2 := by
  rw [C228_volumetric _ _ (by intro a; fin_cases a <;> simp) (by intro a; fin_cases a <;> simp)]
  simp

/-- C228: the volume of spheres is right to one part in ten million. -/
theorem C228_spheres (l : List ℝ) (h : ∀ r ∈ l, 0 ≤ r) :
    |spheresVolume l - (l.map fun r => 4 / 3 * Real.pi * r ^ 3).sum| ≤ 1e-7 * (l.map fun r => 4 / 3 * Real.pi * r ^ 3).sum := by
  have key : 0 ≤ (l.map fun r => 4 / 3 * Real.pi * r ^ 3).sum - spheresVolume l ∧
      (l.map fun r => 4 / 3 * Real.pi * r ^ 3).sum - spheresVolume l ≤ 1e-7 * (l.map fun r => 4 / 3 * Real.pi * r ^ 3).sum := by
    induction l with
    | nil => simp [spheresVolume]
    | cons r l ih =>
      obtain ⟨h1, h2⟩ := ih fun x hx => h x (List.mem_cons_of_mem _ hx)
      have hr := h r List.mem_cons_self
      have hp : 0 ≤ Real.pi * r ^ 3 := mul_nonneg Real.pi_pos.le (pow_nonneg hr 3)
      rw [List.map_cons, List.sum_cons]
      unfold spheresVolume
      norm_num at h1 h2 ⊢
      constructor <;> nlinarith
  rw [abs_sub_comm, abs_of_nonneg key.1]
  exact key.2

example : |spheresVolume [1, 2] - (4 / 3 * Real.pi * 1 ^ 3 + 4 / 3 * Real.pi * 2 ^ 3)| ≤
    1e-7 * (4 / 3 * Real.pi * 1 ^ 3 + 4 / 3 * Real.pi * 2 ^ 3) := by
  have := C228_spheres [1, 2] (by intro r hr; simp at hr; rcases hr with rfl | rfl <;> norm_num)
  simpa using this

/-! ## Numbers of walls -/

/-- C229, partial: `stress(id)` gives the stress of the wall for numbers 0 to 5. Missing: other numbers, see `C229_violated`. -/
theorem C229_stress_partial (l : List V3) (hl : l.length = 6) (id : ℕ) (h : id < 6) :
    getStress l id = .ok (l[id]'(by omega)) := by
  unfold getStress
  rw [if_pos ⟨by omega, by omega⟩]
  simp [hl, h]

example : getStress [0, 1, 2, 3, 4, 5] (3 : ℕ) = .ok 3 := C229_stress_partial _ rfl 3 (by norm_num)

/-- C229, violated: any other number, for instance that of a wall in the scene beyond 5, reads beyond the array instead of raising
an exception. -/
theorem C229_violated (l : List V3) (id : ℤ) (h : id < 0 ∨ 6 ≤ id) : getStress l id = .ub := by
  unfold getStress
  rw [if_neg (by omega)]

example : getStress [0, 1, 2, 3, 4, 5] 6 = .ub := C229_violated _ _ (.inr le_rfl)

/-- The table of wall numbers after steps with the wall numbers given. -/
def tableAfter : List (Fin 6 → ℤ) → Bool × (Fin 6 → ℤ) :=
  List.foldl (fun x ids => (false, syncIds x.1 x.2 ids)) (true, fun _ => 0)

/-- C229, violated for walls named later: wall numbers set after the first step are used for positions and velocities but not for
forces, whatever they are and however many steps follow. -/
theorem C229_violated_ids (ids0 : Fin 6 → ℤ) (later : List (Fin 6 → ℤ)) : (tableAfter (ids0 :: later)).2 = ids0 := by
  have h : ∀ (l : List (Fin 6 → ℤ)) (t : Fin 6 → ℤ),
      (l.foldl (fun x ids => (false, syncIds x.1 x.2 ids)) (false, t)).2 = t := by
    intro l
    induction l with
    | nil => intro t; rfl
    | cons c l ih => intro t; exact ih t
  exact h later ids0

example : (tableAfter [![0, 1, 2, 3, 4, 5], ![6, 7, 8, 9, 10, 11]]).2 ≠ ![6, 7, 8, 9, 10, 11] := by
  rw [C229_violated_ids]
  intro h
  have := congrFun h 0
  simp at this

/-! ## Growth of particles -/

/-- C230, partial: in internal compaction under compressive goals, as long as the mean stress is not tensile, particles grow by at
most `maxMultiplier` (the value then valid) per step, and grow exactly while the compression is less than wanted.
Missing: other stresses and goals, see `C230_violated`. -/
theorem C230_growth_partial (maxM finalM g mean : ℝ) (hM : 1 < maxM) (hF : 1 < finalM) (hg : g < 0) (hm : mean ≤ 0) :
    ∃ k, (multiplier maxM finalM (some g) mean).2 = some k ∧ k ≤ (multiplier maxM finalM (some g) mean).1 ∧
      ((multiplier maxM finalM (some g) mean).1 = if |mean| < |g| then maxM else finalM) ∧ (1 < k ↔ g < mean) := by
  classical
  unfold multiplier
  simp only
  have hbig : 1 < (if |g| ≤ |mean| then finalM else maxM) := by split_ifs <;> assumption
  have hval : (if |g| ≤ |mean| then finalM else maxM) = if |mean| < |g| then maxM else finalM := by
    by_cases h : |g| ≤ |mean|
    · rw [if_pos h, if_neg (not_lt.2 h)]
    · rw [if_neg h, if_pos (not_le.1 h)]
  generalize (if |g| ≤ |mean| then finalM else maxM) = m at hbig hval
  by_cases h0 : mean = 0
  · refine ⟨m, if_pos h0, le_rfl, hval, ?_⟩
    rw [h0]; exact ⟨fun _ => hg, fun _ => hbig⟩
  · refine ⟨1 + (g - mean) / g * (m - 1), by rw [if_neg h0, if_pos hg], ?_, hval, ?_⟩
    · have h1 : (g - mean) / g ≤ 1 := by rw [div_le_one_of_neg hg]; linarith
      have h2 := mul_le_mul_of_nonneg_right h1 (sub_pos.2 hbig).le
      linarith
    · have hm1 := sub_pos.2 hbig
      constructor
      · intro hk
        have h1 : 0 < (g - mean) / g * (m - 1) := by linarith
        have h2 := (mul_pos_iff_of_pos_right hm1).1 h1
        by_contra hc
        have h3 : (g - mean) / g ≤ 0 := div_nonpos_of_nonneg_of_nonpos (by linarith) hg.le
        linarith
      · intro hlt
        have h1 : 0 < (g - mean) / g := div_pos_of_neg_of_neg (by linarith) hg
        have := mul_pos h1 hm1
        linarith

example : ∃ k, (multiplier 1.001 1.00001 (some (-100)) (-50)).2 = some k ∧ 1 < k ∧ k ≤ 1.001 := by
  obtain ⟨k, h1, h2, h3, h4⟩ := C230_growth_partial 1.001 1.00001 (-100) (-50) (by norm_num) (by norm_num) (by norm_num) (by norm_num)
  refine ⟨k, h1, h4.2 (by norm_num), ?_⟩
  rw [h3] at h2
  norm_num at h2 ⊢
  exact h2

/-- C230, violated: with a tensile mean stress or a tensile goal the growth per step exceeds every bound, and it is no number at all with
`stressMask = 0` or with goals whose mean is zero. -/
theorem C230_violated :
    (∀ B : ℝ, ∃ mean k, (multiplier 1.001 1.00001 (some (-1)) mean).2 = some k ∧ B < k) ∧
      (∀ B : ℝ, ∃ mean k, (multiplier 1.001 1.00001 (some 1) mean).2 = some k ∧ B < k) ∧
      (∀ goal mean, mean ≠ 0 → (multiplier 1.001 1.00001 (isoGoal (fun _ => false) goal) mean).2 = none) ∧
      (∀ mean, mean ≠ 0 → (multiplier 1.001 1.00001 (isoGoal (fun _ => true) ![1, -1, 0]) mean).2 = none) := by
  classical
  refine ⟨fun B => ?_, fun B => ?_, fun goal mean h => ?_, fun mean h => ?_⟩
  · have hp : 0 < |B| * 100000 + 1 := by positivity
    refine ⟨|B| * 100000 + 1, 1 + (-1 - (|B| * 100000 + 1)) / -1 * (1.00001 - 1), ?_, ?_⟩
    · have hle : |(-1 : ℝ)| ≤ |(|B| * 100000 + 1)| := by
        rw [abs_of_pos hp]; norm_num
      unfold multiplier
      simp only
      rw [if_neg hp.ne', if_pos (by norm_num), if_pos hle]
    · have := le_abs_self B
      norm_num
      linarith
  · have hp : 0 < |B| * 100000 + 1 := by positivity
    refine ⟨|B| * 100000 + 1, 1 + ((|B| * 100000 + 1) - 1) / 1 * (1.00001 - 1), ?_, ?_⟩
    · have hle : |(1 : ℝ)| ≤ |(|B| * 100000 + 1)| := by
        rw [abs_of_pos hp]; norm_num
      unfold multiplier
      simp only
      rw [if_neg hp.ne', if_neg (by norm_num), if_neg (by norm_num), if_pos hle]
    · have := le_abs_self B
      norm_num
      linarith
  · have : isoGoal (fun _ => false) goal = none := by simp [isoGoal]
    rw [this]
    exact if_neg h
  · have : isoGoal (fun _ => true) ![1, -1, 0] = some 0 := by simp [isoGoal]
    rw [this]
    unfold multiplier
    simp only
    rw [if_neg h, if_neg (lt_irrefl _)]
    simp

end Verif.Ctl
