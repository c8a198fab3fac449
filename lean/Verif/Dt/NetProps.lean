import Verif.Dt.Net

/-!
# Stability with the step of the time stepper: C170
-/
namespace Verif.Dt
open Verif.Mech
open scoped Classical

/-! ## Specification -/

/-- Integration with this step is stable: from any state of motion, kinetic and elastic energy remain bounded for ever. -/
def Stable (bodies : List (Option Bd)) (cs : List Contact) (dt : ℝ) : Prop :=
  ∀ x v, Free bodies x → Free bodies v → ∃ B, ∀ n, massForm bodies (netRun bodies cs dt (x, v) n).2 (netRun bodies cs dt (x, v) n).2 ≤ B ∧
    stiffForm cs (netRun bodies cs dt (x, v) n).1 (netRun bodies cs dt (x, v) n).1 ≤ B

/-- The scenes considered: no clumps, positive masses, unit normals, and contacts that resist. -/
structure Network (bodies : List (Option Bd)) (cs : List Contact) : Prop where
  noClump : ∀ (i : Nat) (b : Bd), bodies[i]? = some (some b) → b.members = none ∧ b.clumpMember = false
  mass : ∀ i b, Moves bodies i b → 0 < b.mass ∧ ∀ a, 0 < b.inertia a
  contact : ∀ c ∈ cs, c.id1 < bodies.length ∧ c.id2 < bodies.length ∧ 0 < c.kn ∧ 0 ≤ c.ks ∧ 0 ≤ c.ktw ∧ 0 ≤ c.kr ∧ sqNorm c.normal = 1
  loaded : ∃ i b, Loaded bodies cs i b

/-- The normal is along an axis. -/
def Aligned (n : V3) : Prop := ∃ a, ∀ b, b ≠ a → n b = 0

/-! ## Springs -/

/-- Twice the energy of a spring. -/
def energy (n : V3) (kn ks : ℝ) (d : V3) : ℝ := dot (spring n kn ks d) d

theorem energy_eq {n : V3} (hn : sqNorm n = 1) (kn ks : ℝ) (d : V3) : energy n kn ks d = kn * dot d n ^ 2 + ks * sqNorm (cross d n) := by
  have : sqNorm (cross d n) = sqNorm d * sqNorm n - dot d n ^ 2 := by simp only [sqNorm, dot, cross_zero', cross_one', cross_two']; ring
  rw [energy, spring_dot, this, hn, sqNorm]; ring

theorem energy_nonneg {n : V3} (hn : sqNorm n = 1) {kn ks : ℝ} (h1 : 0 ≤ kn) (h2 : 0 ≤ ks) (d : V3) : 0 ≤ energy n kn ks d := by
  rw [energy_eq hn]
  exact add_nonneg (mul_nonneg h1 (sq_nonneg _)) (mul_nonneg h2 (sqNorm_nonneg _))

theorem energy_add {n : V3} (hn : sqNorm n = 1) {kn ks : ℝ} (h1 : 0 ≤ kn) (h2 : 0 ≤ ks) (a b : V3) : energy n kn ks (a + b) ≤ 2 * (energy n kn ks a + energy n kn ks b) := by
  have h := energy_nonneg hn h1 h2 (a - b)
  have e : energy n kn ks (a + b) + energy n kn ks (a - b) = 2 * (energy n kn ks a + energy n kn ks b) := by
    simp only [energy, spring_dot]; simp [dot]; ring
  linarith

theorem energy_sub {n : V3} (hn : sqNorm n = 1) {kn ks : ℝ} (h1 : 0 ≤ kn) (h2 : 0 ≤ ks) (a b : V3) : energy n kn ks (a - b) ≤ 2 * (energy n kn ks a + energy n kn ks b) := by
  have h := energy_nonneg hn h1 h2 (a + b)
  have e : energy n kn ks (a + b) + energy n kn ks (a - b) = 2 * (energy n kn ks a + energy n kn ks b) := by
    simp only [energy, spring_dot]; simp [dot]; ring
  linarith

theorem energy_arm {n : V3} (hn : sqNorm n = 1) (kn ks r : ℝ) (t : V3) : energy n kn ks (r • cross t n) = ks * r ^ 2 * sqNorm (cross t n) := by
  have h : dot (cross t n) n = 0 := by simp only [dot, cross_zero', cross_one', cross_two']; ring
  rw [energy, spring_dot]
  have h' : dot (r • cross t n) n = 0 := by
    have : dot (r • cross t n) n = r * dot (cross t n) n := by simp [dot]; ring
    rw [this, h, mul_zero]
  have h2 : dot (r • cross t n) (r • cross t n) = r ^ 2 * sqNorm (cross t n) := by simp [dot, sqNorm]; ring
  rw [h', h2]; ring

theorem energy_diag {n : V3} (hn : sqNorm n = 1) {kn ks : ℝ} (h1 : 0 ≤ kn) (h2 : 0 ≤ ks) (d : V3) :
    energy n kn ks d ≤ 3 * ∑ a : Fin 3, (kn * n a ^ 2 + ks * (1 - n a ^ 2)) * d a ^ 2 := by
  rw [energy_eq hn, Fin.sum_univ_three]
  have e1 : dot d n ^ 2 ≤ 3 * (n 0 ^ 2 * d 0 ^ 2 + n 1 ^ 2 * d 1 ^ 2 + n 2 ^ 2 * d 2 ^ 2) := by
    rw [dot]; nlinarith [sq_nonneg (d 0 * n 0 - d 1 * n 1), sq_nonneg (d 1 * n 1 - d 2 * n 2), sq_nonneg (d 0 * n 0 - d 2 * n 2)]
  have e2 : sqNorm (cross d n) ≤ 3 * ((1 - n 0 ^ 2) * d 0 ^ 2 + (1 - n 1 ^ 2) * d 1 ^ 2 + (1 - n 2 ^ 2) * d 2 ^ 2) := by
    rw [← hn]
    simp only [sqNorm, dot, cross_zero', cross_one', cross_two']
    nlinarith [sq_nonneg (d 1 * n 2 + d 2 * n 1), sq_nonneg (d 2 * n 0 + d 0 * n 2), sq_nonneg (d 0 * n 1 + d 1 * n 0), sq_nonneg (d 1 * n 2), sq_nonneg (d 2 * n 1),
      sq_nonneg (d 2 * n 0), sq_nonneg (d 0 * n 2), sq_nonneg (d 0 * n 1), sq_nonneg (d 1 * n 0)]
  have := mul_le_mul_of_nonneg_left e1 h1
  have := mul_le_mul_of_nonneg_left e2 h2
  nlinarith

theorem arm_diag (n t : V3) : sqNorm (cross t n) ≤ 3 * ∑ a : Fin 3, (sqNorm n - n a ^ 2) * t a ^ 2 := by
  rw [Fin.sum_univ_three]
  simp only [sqNorm, dot, cross_zero', cross_one', cross_two']
  nlinarith [sq_nonneg (t 1 * n 2 + t 2 * n 1), sq_nonneg (t 2 * n 0 + t 0 * n 2), sq_nonneg (t 0 * n 1 + t 1 * n 0), sq_nonneg (t 1 * n 2), sq_nonneg (t 2 * n 1),
      sq_nonneg (t 2 * n 0), sq_nonneg (t 0 * n 2), sq_nonneg (t 0 * n 1), sq_nonneg (t 1 * n 0)]

theorem energy_aligned {n : V3} (hn : sqNorm n = 1) (ha : Aligned n) (kn ks : ℝ) (d : V3) :
    energy n kn ks d = ∑ a : Fin 3, (kn * n a ^ 2 + ks * (1 - n a ^ 2)) * d a ^ 2 := by
  obtain ⟨a, ha⟩ := ha
  rw [energy_eq hn, Fin.sum_univ_three, ← hn]
  fin_cases a
  · have z1 := ha 1 (by decide)
    have z2 := ha 2 (by decide)
    simp only [sqNorm, dot, cross_zero', cross_one', cross_two', z1, z2]; ring
  · have z1 := ha 0 (by decide)
    have z2 := ha 2 (by decide)
    simp only [sqNorm, dot, cross_zero', cross_one', cross_two', z1, z2]; ring
  · have z1 := ha 0 (by decide)
    have z2 := ha 1 (by decide)
    simp only [sqNorm, dot, cross_zero', cross_one', cross_two', z1, z2]; ring

theorem arm_aligned {n : V3} (ha : Aligned n) (t : V3) : sqNorm (cross t n) = ∑ a : Fin 3, (sqNorm n - n a ^ 2) * t a ^ 2 := by
  obtain ⟨a, ha⟩ := ha
  rw [Fin.sum_univ_three]
  fin_cases a
  · have z1 := ha 1 (by decide)
    have z2 := ha 2 (by decide)
    simp only [sqNorm, dot, cross_zero', cross_one', cross_two', z1, z2]; ring
  · have z1 := ha 0 (by decide)
    have z2 := ha 2 (by decide)
    simp only [sqNorm, dot, cross_zero', cross_one', cross_two', z1, z2]; ring
  · have z1 := ha 0 (by decide)
    have z2 := ha 1 (by decide)
    simp only [sqNorm, dot, cross_zero', cross_one', cross_two', z1, z2]; ring

theorem stiff_one {c : Contact} (h0 : c.normalForce ≠ 0) (x : Motion) :
    stiffForm [c] x x = energy c.normal c.kn c.ks (rel c x) + energy c.normal c.ktw c.kr (rot c x) := by
  simp [stiffForm, h0, energy]

/-- A contact whose springs are bounded by their diagonals. -/
theorem contact_bound {c : Contact} {n : Nat} {q : ℝ} (hl1 : c.id1 < n) (hl2 : c.id2 < n) (hn : sqNorm c.normal = 1) (h1 : 0 ≤ c.kn) (h2 : 0 ≤ c.ks) (h3 : 0 ≤ c.ktw) (h4 : 0 ≤ c.kr)
    (hE : ∀ kn ks d, 0 ≤ kn → 0 ≤ ks → energy c.normal kn ks d ≤ q * ∑ a : Fin 3, (kn * c.normal a ^ 2 + ks * (1 - c.normal a ^ 2)) * d a ^ 2)
    (hA : ∀ t, sqNorm (cross t c.normal) ≤ q * ∑ a : Fin 3, (sqNorm c.normal - c.normal a ^ 2) * t a ^ 2) (x : Motion) :
    stiffForm [c] x x ≤ (4 * q) * diagonal n [c] x := by
  by_cases h0 : c.normalForce = 0
  · have e1 : stiffForm [c] x x = 0 := by simp [stiffForm, h0]
    have e2 : diagonal n [c] x = 0 := by simp [diagonal, bodyK, bodyR, h0]
    rw [e1, e2, mul_zero]
  · rw [stiff_one h0, diagonal_one h0 hl1 hl2]
    have a1 := energy_sub hn h1 h2 ((x c.id2).1 - c.refR2 • cross (x c.id2).2 c.normal) ((x c.id1).1 + c.refR1 • cross (x c.id1).2 c.normal)
    have a2 := energy_sub hn h1 h2 (x c.id2).1 (c.refR2 • cross (x c.id2).2 c.normal)
    have a3 := energy_add hn h1 h2 (x c.id1).1 (c.refR1 • cross (x c.id1).2 c.normal)
    rw [energy_arm hn] at a2 a3
    have a4 := energy_sub hn h3 h4 (x c.id2).2 (x c.id1).2
    have b1 := hE c.kn c.ks (x c.id1).1 h1 h2
    have b2 := hE c.kn c.ks (x c.id2).1 h1 h2
    have b3 := hE c.ktw c.kr (x c.id1).2 h3 h4
    have b4 := hE c.ktw c.kr (x c.id2).2 h3 h4
    have b5 := mul_le_mul_of_nonneg_left (hA (x c.id1).2) (mul_nonneg h2 (sq_nonneg c.refR1))
    have b6 := mul_le_mul_of_nonneg_left (hA (x c.id2).2) (mul_nonneg h2 (sq_nonneg c.refR2))
    have p3 := energy_nonneg hn h3 h4 (x c.id1).2
    have p4 := energy_nonneg hn h3 h4 (x c.id2).2
    change energy c.normal c.kn c.ks (rel c x) ≤ _ at a1
    change energy c.normal c.ktw c.kr (rot c x) ≤ _ at a4
    have split : ∀ r (i : Nat), ∑ a : Fin 3, (contactK c a * (x i).1 a ^ 2 + contactR c r a * (x i).2 a ^ 2) =
        ∑ a : Fin 3, (c.kn * c.normal a ^ 2 + c.ks * (1 - c.normal a ^ 2)) * (x i).1 a ^ 2 +
        c.ks * r ^ 2 * ∑ a : Fin 3, (sqNorm c.normal - c.normal a ^ 2) * (x i).2 a ^ 2 +
        ∑ a : Fin 3, (c.ktw * c.normal a ^ 2 + c.kr * (1 - c.normal a ^ 2)) * (x i).2 a ^ 2 := by
      intro r i
      rw [Finset.mul_sum, ← Finset.sum_add_distrib, ← Finset.sum_add_distrib]
      apply Finset.sum_congr rfl
      intro a _
      rw [contactK, contactR]; ring
    rw [split, split]
    nlinarith

/-- Without shear and moments, along axes. -/
theorem contact_bound_frictionless {c : Contact} {n : Nat} (hl1 : c.id1 < n) (hl2 : c.id2 < n) (hn : sqNorm c.normal = 1) (h1 : 0 ≤ c.kn) (h2 : c.ks = 0) (h3 : c.ktw = 0) (h4 : c.kr = 0)
    (ha : Aligned c.normal) (x : Motion) : stiffForm [c] x x ≤ 2 * diagonal n [c] x := by
  by_cases h0 : c.normalForce = 0
  · have e1 : stiffForm [c] x x = 0 := by simp [stiffForm, h0]
    have e2 : diagonal n [c] x = 0 := by simp [diagonal, bodyK, bodyR, h0]
    rw [e1, e2, mul_zero]
  · rw [stiff_one h0, diagonal_one h0 hl1 hl2]
    have hrel : energy c.normal c.kn c.ks (rel c x) = energy c.normal c.kn c.ks ((x c.id2).1 - (x c.id1).1) := by
      have hd : dot (rel c x) c.normal = dot ((x c.id2).1 - (x c.id1).1) c.normal := by
        simp only [rel, dot, Pi.sub_apply, Pi.add_apply, Pi.smul_apply, smul_eq_mul, cross_zero', cross_one', cross_two']; ring
      rw [energy_eq hn, energy_eq hn, h2, zero_mul, zero_mul, hd]
    have hrot : energy c.normal c.ktw c.kr (rot c x) = 0 := by rw [energy_eq hn, h3, h4]; ring
    have a1 := energy_sub hn h1 h2.ge (x c.id2).1 (x c.id1).1
    rw [energy_aligned hn ha c.kn c.ks (x c.id2).1, energy_aligned hn ha c.kn c.ks (x c.id1).1] at a1
    rw [hrel, hrot]
    have split : ∀ r (i : Nat), ∑ a : Fin 3, (contactK c a * (x i).1 a ^ 2 + contactR c r a * (x i).2 a ^ 2) =
        ∑ a : Fin 3, (c.kn * c.normal a ^ 2 + c.ks * (1 - c.normal a ^ 2)) * (x i).1 a ^ 2 := by
      intro r i
      apply Finset.sum_congr rfl
      intro a _
      rw [contactK, contactR, h2, h3, h4]; ring
    rw [split, split]
    linarith

/-! ## From the step to stability -/

theorem stiff_nonneg {bodies : List (Option Bd)} {cs : List Contact} (h : Network bodies cs) (x : Motion) : 0 ≤ stiffForm cs x x := by
  rw [stiffForm]
  apply List.sum_nonneg
  intro y hy
  obtain ⟨c, hc, rfl⟩ := List.mem_map.mp hy
  obtain ⟨-, -, h1, h2, h3, h4, h5⟩ := h.contact c hc
  have := energy_nonneg h5 h1.le h2 (rel c x)
  have := energy_nonneg h5 h3 h4 (rot c x)
  simp only [energy] at *
  split_ifs <;> linarith

theorem normal_le_one {n : V3} (hn : sqNorm n = 1) (a : Fin 3) : n a ^ 2 ≤ 1 := by
  rw [← hn, sqNorm, dot]
  fin_cases a <;> simp <;> nlinarith [sq_nonneg (n 0), sq_nonneg (n 1), sq_nonneg (n 2)]

theorem network_sane {bodies : List (Option Bd)} {cs : List Contact} (h : Network bodies cs) : Sane bodies.length cs := by
  intro c hc
  obtain ⟨g1, g2, h1, h2, h3, h4, h5⟩ := h.contact c hc
  exact ⟨g1, g2, h1.le, h2, h3, h4, normal_le_one h5⟩

theorem network_clumps {bodies : List (Option Bd)} {cs : List Contact} (h : Network bodies cs) : Clumps bodies := by
  intro i b hb m hm
  rw [(h.noClump i b hb).1] at hm
  simp at hm

/-- A body without translational stiffness has no contacts, hence no rotational stiffness. -/
theorem bodyR_zero {n : Nat} {cs : List Contact} (hs : Sane n cs) (h : ∀ c ∈ cs, 0 < c.kn ∧ sqNorm c.normal = 1) {i : Nat} (h0 : ∀ a, bodyK cs i a = 0) (a : Fin 3) : bodyR cs i a = 0 := by
  induction cs with
  | nil => simp [bodyR]
  | cons c t ih =>
    have eK : ∀ a, bodyK (c :: t) i a = bodyK [c] i a + bodyK t i a := fun a => by simp [bodyK]
    have eR : bodyR (c :: t) i a = bodyR [c] i a + bodyR t i a := by simp [bodyR]
    have hs1 : Sane n [c] := fun c' hc' => hs c' (by simp at hc'; simp [hc'])
    have hst : Sane n t := fun c' hc' => hs c' (by simp [hc'])
    have k1 : ∀ a, bodyK [c] i a = 0 := fun a => by have := h0 a; rw [eK] at this; linarith [bodyK_nonneg hs1 i a, bodyK_nonneg hst i a]
    have k2 : ∀ a, bodyK t i a = 0 := fun a => by have := h0 a; rw [eK] at this; linarith [bodyK_nonneg hs1 i a, bodyK_nonneg hst i a]
    rw [eR, ih hst (fun c' hc' => h c' (by simp [hc'])) k2, add_zero]
    by_cases hf : c.normalForce = 0
    · simp [bodyR, hf]
    · obtain ⟨hkn, hn⟩ := h c (by simp)
      obtain ⟨-, -, -, hks, -⟩ := hs c (by simp)
      have hsum : contactK c 0 + contactK c 1 + contactK c 2 = c.kn + 2 * c.ks := by
        simp only [contactK]
        rw [sqNorm, dot] at hn
        linear_combination (c.kn - c.ks) * hn
      have s0 := k1 0
      have s1 := k1 1
      have s2 := k1 2
      simp only [bodyK, List.map_cons, List.map_nil, List.sum_cons, List.sum_nil, add_zero, hf, if_false] at s0 s1 s2
      by_cases g1 : c.id1 = i
      · exfalso
        by_cases g2 : c.id2 = i
        · simp only [g1, g2, if_true] at s0 s1 s2; linarith
        · simp only [g1, g2, if_true, if_false] at s0 s1 s2; linarith
      · by_cases g2 : c.id2 = i
        · exfalso
          simp only [g1, g2, if_true, if_false] at s0 s1 s2; linarith
        · simp [bodyR, hf, g1, g2]

/-- What an update guarantees of the step: its square times the stiffness of a body is at most a multiple of mass and inertia. -/
theorem step_square {bodies : List (Option Bd)} {cs : List Contact} (h : Network bodies cs) (dt : ℝ) {e : Eng} (hv : e.viscEl = false) (hd : e.densityScaling = false)
    (hl : e.Rstiff.length = e.stiff.length) (hs : 0 < e.safety) (hmax : 0 < e.maxDt) (hpr : 0 < e.previousDt) :
    ∃ e' dt', computeTimeStep bodies cs dt e = .ok (bodies, e', dt') ∧ 0 < dt' ∧
      ∀ i b, Moves bodies i b → ∀ a, dt' ^ 2 * bodyK cs i a ≤ (1.41044 ^ 2 * e.safety ^ 2) * b.mass ∧ dt' ^ 2 * bodyR cs i a ≤ (1.41044 ^ 2 * e.safety ^ 2) * b.inertia a := by
  have hsane := network_sane h
  obtain ⟨e', dt', h1, -, -, h2, -⟩ := C168_step dt (network_clumps h) hsane hv hd hl hs.le (fun i b hb => (h.mass i b hb).1.le) h.loaded
  obtain ⟨e'', dt'', h1', h3, -⟩ := C168_positive dt (network_clumps h) hsane hv hd hl hs h.mass hmax hpr h.loaded
  rw [h1] at h1'
  obtain ⟨-, rfl⟩ : e' = e'' ∧ dt' = dt'' := by simpa using h1'
  refine ⟨e', dt', h1, h3, ?_⟩
  intro i b hb a
  have hnc := (h.noClump i b hb.1).1
  have tK : ∀ a, totalK cs b i a = bodyK cs i a := fun a => by simp [totalK, hnc]
  have tR : ∀ a, totalR cs b i a = bodyR cs i a := fun a => by simp [totalR, hnc]
  obtain ⟨hm, hI⟩ := h.mass i b hb
  have sq : ∀ m k : ℝ, 0 < m → 0 ≤ k → k ≠ 0 → dt' ≤ 1.41044 * e.safety * Real.sqrt (m / k) → dt' ^ 2 * k ≤ (1.41044 ^ 2 * e.safety ^ 2) * m := by
    intro m k hm hk hk0 hle
    have hk' : 0 < k := lt_of_le_of_ne hk (Ne.symm hk0)
    have hsq := pow_le_pow_left₀ h3.le hle 2
    rw [mul_pow, mul_pow, Real.sq_sqrt (div_pos hm hk').le] at hsq
    have := mul_le_mul_of_nonneg_right hsq hk
    rwa [mul_assoc (1.41044 ^ 2 * e.safety ^ 2), div_mul_cancel₀ _ hk0] at this
  by_cases hL : ∃ a, bodyK cs i a ≠ 0
  · have hLd : Loaded bodies cs i b := ⟨hb, hL.imp fun a ha => by rw [tK]; exact ha⟩
    have h2' := h2 i b hLd a
    rw [transStep, rotStep, tK, tR] at h2'
    constructor
    · by_cases hk : bodyK cs i a = 0
      · rw [hk, mul_zero]; positivity
      · exact sq _ _ hm (bodyK_nonneg hsane i a) hk (h2'.1 hk)
    · by_cases hk : bodyR cs i a = 0
      · rw [hk, mul_zero]; have := hI a; positivity
      · exact sq _ _ (hI a) (bodyR_nonneg hsane i a) hk (h2'.2 hk)
  · push_neg at hL
    rw [hL a, bodyR_zero hsane (fun c hc => by obtain ⟨-, -, k1, -, -, -, k2⟩ := h.contact c hc; exact ⟨k1, k2⟩) hL a, mul_zero]
    have := hI a
    constructor <;> positivity

theorem run_free {bodies : List (Option Bd)} {cs : List Contact} {dt : ℝ} {s : Motion × Motion} (h : Free bodies s.2) (n : Nat) :
    Free bodies (netRun bodies cs dt s n).2 := by
  induction n with
  | zero => exact h
  | succ n ih => exact netStep_free ih

/-- Enough for stability: the step squared times elastic energy is less than four times kinetic energy, in every motion. -/
theorem stable_of {bodies : List (Option Bd)} {cs : List Contact} (h : Network bodies cs) {dt θ : ℝ} (h1 : θ < 1)
    (hb : ∀ x, Free bodies x → dt ^ 2 * stiffForm cs x x ≤ 4 * θ * massForm bodies x x) : Stable bodies cs dt := by
  intro x v hx hv
  set H := invariant (massForm bodies) (stiffForm cs) dt (x, v) with hH
  have hM := mass_isForm bodies
  have hK := stiff_isForm cs
  have hinv : ∀ n, invariant (massForm bodies) (stiffForm cs) dt (netRun bodies cs dt (x, v) n) = H := by
    intro n
    induction n with
    | zero => rfl
    | succ n ih =>
      rw [← ih]
      apply invariant_step hM hK
      rintro w (rfl | rfl)
      · exact virtual_work h.mass (fun c hc => ⟨(h.contact c hc).1, (h.contact c hc).2.1⟩) _ (run_free hv n)
      · exact virtual_work h.mass (fun c hc => ⟨(h.contact c hc).1, (h.contact c hc).2.1⟩) _ (netAcc_free bodies cs _)
  have hpos := stiff_nonneg h
  have kin : ∀ n, massForm bodies (netRun bodies cs dt (x, v) n).2 (netRun bodies cs dt (x, v) n).2 ≤ H / (1 - θ) := by
    intro n
    have := invariant_bound (M := massForm bodies) hK (x := (netRun bodies cs dt (x, v) n).1) hpos (hb _ (run_free (cs := cs) (dt := dt) (s := (x, v)) hv n))
    rw [le_div_iff₀ (by linarith), mul_comm]
    refine le_trans this ?_
    exact (hinv n).le
  refine ⟨max (H / (1 - θ)) (2 * H + 2 * (H / (1 - θ)) + 2 * (H / (1 - θ))), fun n => ⟨le_trans (kin n) (le_max_left _ _), le_trans ?_ (le_max_right _ _)⟩⟩
  set y := (netRun bodies cs dt (x, v) n).1 with hy
  set w := (netRun bodies cs dt (x, v) n).2 with hw
  have hfree := run_free (cs := cs) (dt := dt) (s := (x, v)) hv n
  rw [← hw] at hfree
  have e := hinv n
  have k := kin n
  rw [← hw] at k
  have hm0 := mass_nonneg h.mass hfree
  have hbw := hb w hfree
  have hθm : θ * massForm bodies w w ≤ massForm bodies w w := by nlinarith
  have hp := hpos (y + (-dt) • w)
  have hmid := hpos w
  simp only [invariant, ← hy, ← hw, hK.add_r, hK.smul_r] at e
  simp only [hK.add, hK.smul, hK.add_r, hK.smul_r] at hp
  rw [hK.symm w y] at hp
  nlinarith [hp, hmid, sq_nonneg dt, mul_nonneg (sq_nonneg dt) hmid]

/-! ## C170 -/

/-- C170.  With a safety factor up to 0.4 the step the time stepper sets is stable, for all bodies and contacts, of any directions and
stiffnesses.  Missing: larger factors, see `C170_violated`. -/
theorem C170_stable_partial {bodies : List (Option Bd)} {cs : List Contact} (h : Network bodies cs) (dt : ℝ) {e : Eng} (hv : e.viscEl = false) (hd : e.densityScaling = false)
    (hl : e.Rstiff.length = e.stiff.length) (hs : 0 < e.safety) (hs4 : e.safety ≤ 0.4) (hmax : 0 < e.maxDt) (hpr : 0 < e.previousDt) :
    ∃ e' dt', computeTimeStep bodies cs dt e = .ok (bodies, e', dt') ∧ 0 < dt' ∧ Stable bodies cs dt' := by
  obtain ⟨e', dt', h1, h2, h3⟩ := step_square h dt hv hd hl hs hmax hpr
  refine ⟨e', dt', h1, h2, stable_of h (θ := 0.96) (by norm_num) ?_⟩
  intro x hx
  have b1 : stiffForm cs x x ≤ 12 * diagonal bodies.length cs x := by
    apply stiff_le_diagonal
    intro c hc
    obtain ⟨g1, g2, k1, k2, k3, k4, k5⟩ := h.contact c hc
    have := contact_bound (q := 3) g1 g2 k5 k1.le k2 k3 k4 (fun kn ks d p1 p2 => energy_diag k5 p1 p2 d) (arm_diag c.normal) x
    norm_num at this ⊢
    exact this
  have b2 := diagonal_le_mass h3 hx
  have hm := mass_nonneg h.mass hx
  have hsq : e.safety ^ 2 ≤ 0.16 := by nlinarith
  have b3 := mul_le_mul_of_nonneg_left b1 (sq_nonneg dt')
  have b4 := mul_le_mul_of_nonneg_right hsq hm
  nlinarith

/-- C170.  If all normals are along axes a safety factor up to 0.7 is stable. -/
theorem C170_stable_aligned_partial {bodies : List (Option Bd)} {cs : List Contact} (h : Network bodies cs) (ha : ∀ c ∈ cs, Aligned c.normal) (dt : ℝ) {e : Eng} (hv : e.viscEl = false)
    (hd : e.densityScaling = false) (hl : e.Rstiff.length = e.stiff.length) (hs : 0 < e.safety) (hs7 : e.safety ≤ 0.7) (hmax : 0 < e.maxDt) (hpr : 0 < e.previousDt) :
    ∃ e' dt', computeTimeStep bodies cs dt e = .ok (bodies, e', dt') ∧ 0 < dt' ∧ Stable bodies cs dt' := by
  obtain ⟨e', dt', h1, h2, h3⟩ := step_square h dt hv hd hl hs hmax hpr
  refine ⟨e', dt', h1, h2, stable_of h (θ := 0.98) (by norm_num) ?_⟩
  intro x hx
  have b1 : stiffForm cs x x ≤ 4 * diagonal bodies.length cs x := by
    apply stiff_le_diagonal
    intro c hc
    obtain ⟨g1, g2, k1, k2, k3, k4, k5⟩ := h.contact c hc
    have := contact_bound (q := 1) g1 g2 k5 k1.le k2 k3 k4 (fun kn ks d p1 p2 => by rw [energy_aligned k5 (ha c hc), one_mul]) (fun t => by rw [arm_aligned (ha c hc), one_mul]) x
    norm_num at this ⊢
    exact this
  have b2 := diagonal_le_mass h3 hx
  have hm := mass_nonneg h.mass hx
  have hsq : e.safety ^ 2 ≤ 0.49 := by nlinarith
  have b3 := mul_le_mul_of_nonneg_left b1 (sq_nonneg dt')
  have b4 := mul_le_mul_of_nonneg_right hsq hm
  nlinarith

/-- C170.  If moreover there is no shear stiffness, as in the derivation of the documentation, any safety factor up to 1 is stable. -/
theorem C170_stable_frictionless_partial {bodies : List (Option Bd)} {cs : List Contact} (h : Network bodies cs) (ha : ∀ c ∈ cs, Aligned c.normal ∧ c.ks = 0 ∧ c.ktw = 0 ∧ c.kr = 0) (dt : ℝ) {e : Eng}
    (hv : e.viscEl = false) (hd : e.densityScaling = false) (hl : e.Rstiff.length = e.stiff.length) (hs : 0 < e.safety) (hs1 : e.safety ≤ 1) (hmax : 0 < e.maxDt) (hpr : 0 < e.previousDt) :
    ∃ e' dt', computeTimeStep bodies cs dt e = .ok (bodies, e', dt') ∧ 0 < dt' ∧ Stable bodies cs dt' := by
  obtain ⟨e', dt', h1, h2, h3⟩ := step_square h dt hv hd hl hs hmax hpr
  refine ⟨e', dt', h1, h2, stable_of h (θ := 0.995) (by norm_num) ?_⟩
  intro x hx
  have b1 : stiffForm cs x x ≤ 2 * diagonal bodies.length cs x := by
    apply stiff_le_diagonal
    intro c hc
    obtain ⟨g1, g2, k1, -, -, -, k5⟩ := h.contact c hc
    obtain ⟨q1, q2, q3, q4⟩ := ha c hc
    exact contact_bound_frictionless g1 g2 k5 k1.le q2 q3 q4 q1 x
  have b2 := diagonal_le_mass h3 hx
  have hm := mass_nonneg h.mass hx
  have hsq : e.safety ^ 2 ≤ 1 := by nlinarith
  have b3 := mul_le_mul_of_nonneg_left b1 (sq_nonneg dt')
  have b4 := mul_le_mul_of_nonneg_right hsq hm
  nlinarith

/-! ### Two equal spheres in contact along a diagonal -/

/-- A sphere of mass 1 and radius 1. -/
noncomputable def unitBall : Bd := ⟨true, false, none, 1, fun _ => 2 / 5, true, some 1, some 1, -1⟩

/-- Two of them. -/
noncomputable def pair : List (Option Bd) := [some unitBall, some unitBall]

/-- The direction of the contact. -/
noncomputable def diag : V3 := fun _ => 1 / Real.sqrt 3

/-- The contact two spheres of Young's modulus 1 and Poisson's ratio 0.25 make. -/
noncomputable def diagContact : Contact := ⟨0, 1, diag, 1, 1, 1, 1 / 4, ![1, 1, 1], 0, 0, none⟩

example : ∃ p, frictPhys none ⟨0, 1, 1 / 4, 0⟩ ⟨0, 1, 1 / 4, 0⟩ 1 1 = .ok (some p) ∧ p.kn = diagContact.kn ∧ p.ks = diagContact.ks := by
  refine ⟨⟨1, 1 / 4, Real.tan 0⟩, ?_, rfl, rfl⟩
  simp [frictPhys, quot]
  norm_num

theorem diag_sq (a : Fin 3) : diag a ^ 2 = 1 / 3 := by
  rw [diag, div_pow, Real.sq_sqrt (by norm_num)]; norm_num

theorem diag_norm : sqNorm diag = 1 := by
  have h0 := diag_sq 0
  have h1 := diag_sq 1
  have h2 := diag_sq 2
  rw [sqNorm, dot]; nlinarith

theorem diag_force : diagContact.normalForce ≠ 0 := by
  intro h
  have := congrFun h 0
  simp [diagContact] at this

theorem pair_moves {i : Nat} {b : Bd} (h : pair[i]? = some (some b)) : (i = 0 ∨ i = 1) ∧ b = unitBall := by
  match i with
  | 0 => simp [pair] at h; exact ⟨Or.inl rfl, h.symm⟩
  | 1 => simp [pair] at h; exact ⟨Or.inr rfl, h.symm⟩
  | n + 2 => simp [pair] at h

theorem pair_K {i : Nat} (h : i = 0 ∨ i = 1) (a : Fin 3) : totalK [diagContact] unitBall i a = 1 / 2 := by
  have e : contactK diagContact a = 1 / 2 := by
    rw [contactK, show diagContact.normal = diag from rfl, diag_sq]
    norm_num [diagContact]
  have := diag_force
  rcases h with rfl | rfl
  · simp only [totalK, bodyK, List.map_cons, List.map_nil, List.sum_cons, List.sum_nil, this, if_false, e]
    norm_num [diagContact, unitBall]
  · simp only [totalK, bodyK, List.map_cons, List.map_nil, List.sum_cons, List.sum_nil, this, if_false, e]
    norm_num [diagContact, unitBall]

theorem pair_R {i : Nat} (h : i = 0 ∨ i = 1) (a : Fin 3) : totalR [diagContact] unitBall i a = 1 / 6 := by
  have e : ∀ r, r = 1 → contactR diagContact r a = 1 / 6 := by
    rintro r rfl
    rw [contactR, show diagContact.normal = diag from rfl, diag_sq, diag_norm]
    norm_num [diagContact]
  have e1 := e diagContact.refR1 rfl
  have e2 := e diagContact.refR2 rfl
  have := diag_force
  rcases h with rfl | rfl
  · simp only [totalR, bodyR, List.map_cons, List.map_nil, List.sum_cons, List.sum_nil, this, if_false, e1, e2]
    norm_num [diagContact, unitBall]
  · simp only [totalR, bodyR, List.map_cons, List.map_nil, List.sum_cons, List.sum_nil, this, if_false, e1, e2]
    norm_num [diagContact, unitBall]

theorem pair_network : Network pair [diagContact] := by
  refine ⟨?_, ?_, ?_, ?_⟩
  · intro i b hb
    rw [(pair_moves hb).2]
    exact ⟨rfl, rfl⟩
  · rintro i b ⟨hb, -, -⟩
    rw [(pair_moves hb).2]
    refine ⟨by norm_num [unitBall], fun a => by norm_num [unitBall]⟩
  · intro c hc
    simp only [List.mem_singleton] at hc
    subst hc
    exact ⟨by simp [diagContact, pair], by simp [diagContact, pair], by norm_num [diagContact], by norm_num [diagContact], le_rfl, le_rfl, diag_norm⟩
  · exact ⟨0, unitBall, ⟨rfl, rfl, rfl⟩, 0, by rw [pair_K (Or.inl rfl)]; norm_num⟩

/-- The hypotheses of the first theorem hold. -/
example : ∃ e' dt', computeTimeStep pair [diagContact] 0 { eng0 with safety := 0.3 } = .ok (pair, e', dt') ∧ 0 < dt' ∧ Stable pair [diagContact] dt' :=
  C170_stable_partial (e := { eng0 with safety := 0.3 }) pair_network 0 rfl rfl rfl (by norm_num) (by norm_num) maxReal_pos maxReal_pos

theorem aligned_network : Network pair [{ diagContact with normal := ![1, 0, 0], ks := 0 }] := by
  have hn : sqNorm (![1, 0, 0] : V3) = 1 := by simp [sqNorm, dot]
  have hK : totalK [{ diagContact with normal := ![1, 0, 0], ks := 0 }] unitBall 0 0 = 1 := by
    simp only [totalK, bodyK, List.map_cons, List.map_nil, List.sum_cons, List.sum_nil, diag_force, if_false, contactK]
    norm_num [diagContact, unitBall]
  refine ⟨pair_network.noClump, pair_network.mass, ?_, ?_⟩
  · intro c hc
    simp only [List.mem_singleton] at hc
    subst hc
    exact ⟨by simp [diagContact, pair], by simp [diagContact, pair], by norm_num [diagContact], by norm_num [diagContact], le_rfl, le_rfl, hn⟩
  · exact ⟨0, unitBall, ⟨rfl, rfl, rfl⟩, 0, by rw [hK]; norm_num⟩

/-- The hypotheses of the second theorem hold. -/
example : ∃ e' dt', computeTimeStep pair [{ diagContact with normal := ![1, 0, 0], ks := 0 }] 0 { eng0 with safety := 0.7 } = .ok (pair, e', dt') ∧ 0 < dt' ∧ Stable pair [{ diagContact with normal := ![1, 0, 0], ks := 0 }] dt' := by
  refine C170_stable_aligned_partial (e := { eng0 with safety := 0.7 }) aligned_network ?_ 0 rfl rfl rfl (by norm_num) (by norm_num) maxReal_pos maxReal_pos
  intro c hc
  simp only [List.mem_singleton] at hc
  subst hc
  refine ⟨0, ?_⟩
  intro b hb
  fin_cases b <;> simp_all

/-- The hypotheses of the third theorem hold. -/
example : ∃ e' dt', computeTimeStep pair [{ diagContact with normal := ![1, 0, 0], ks := 0 }] 0 eng0 = .ok (pair, e', dt') ∧ 0 < dt' ∧ Stable pair [{ diagContact with normal := ![1, 0, 0], ks := 0 }] dt' := by
  refine C170_stable_frictionless_partial (e := eng0) aligned_network ?_ 0 rfl rfl rfl (by norm_num [eng0]) (by norm_num [eng0]) maxReal_pos maxReal_pos
  intro c hc
  simp only [List.mem_singleton] at hc
  subst hc
  refine ⟨⟨0, ?_⟩, rfl, rfl, rfl⟩
  intro b hb
  fin_cases b <;> simp_all

/-- The step the time stepper sets, with all its attributes at their defaults. -/
theorem pair_step : ∃ e', computeTimeStep pair [diagContact] 0 eng0 = .ok (pair, e', 1.41044 * 0.8 * Real.sqrt 2) := by
  have hc := network_sane pair_network
  have hcl := network_clumps pair_network
  obtain ⟨s, r, d0, p, co, dt', h, -, -, -, h5⟩ := computeTimeStep_ok (e := eng0) 0 hcl hc rfl rfl rfl
  obtain ⟨-, -, x, hx, hxm, hle, hat⟩ := h5 pair_network.loaded
  have hel : ∀ i b, Loaded pair [diagContact] i b → elasticDt eng0.safety b.mass b.inertia (totalK [diagContact] b i) (totalR [diagContact] b i) = 1.41044 * 0.8 * Real.sqrt 2 := by
    rintro i b ⟨⟨hb, -, -⟩, -⟩
    obtain ⟨hi, rfl⟩ := pair_moves hb
    rw [show totalK [diagContact] unitBall i = fun _ => 1 / 2 from funext (pair_K hi), show totalR [diagContact] unitBall i = fun _ => 1 / 6 from funext (pair_R hi)]
    have p1 : period unitBall.mass (max (max (1 / 2) (1 / 2)) (1 / 2)) = 2 := by rw [period, if_pos (by norm_num)]; norm_num [unitBall]
    have p2 : ∀ a, period (unitBall.inertia a) (1 / 6) = 12 / 5 := by intro a; rw [period, if_pos (by norm_num)]; norm_num [unitBall]
    rw [elasticDt, minPeriod]
    rw [p1, p2, p2, p2, min_self, min_self, min_eq_left (by norm_num)]
    rfl
  have hs2 : Real.sqrt 2 < 2 := by rw [Real.sqrt_lt' (by norm_num)]; norm_num
  have hbig : (10 : ℝ) < maxReal := by
    have h1 : (2 : ℝ) ^ 1024 = 2 ^ 54 * 2 ^ 970 := by rw [← pow_add]
    have h2 : (1 : ℝ) ≤ 2 ^ 970 := one_le_pow₀ (by norm_num)
    rw [maxReal, h1]
    have h3 : (2 : ℝ) ^ 54 * 2 ^ 970 - 2 ^ 970 = (2 ^ 54 - 1) * 2 ^ 970 := by ring
    rw [h3]
    exact lt_of_lt_of_le (show (10 : ℝ) < (2 ^ 54 - 1) * 1 by norm_num) (mul_le_mul_of_nonneg_left h2 (by norm_num))
  obtain ⟨i, b, hL⟩ := pair_network.loaded
  have hxe : x = 1.41044 * 0.8 * Real.sqrt 2 := by
    rcases hat with hx0 | ⟨i', b', hL', hx0⟩
    · have := hle i b hL
      rw [hel i b hL] at this
      linarith
    · rw [hx0, hel i' b' hL']
  have hdt : dt' = 1.41044 * 0.8 * Real.sqrt 2 := by
    rw [hx, hxe, show eng0.maxDt = maxReal from rfl, show eng0.previousDt = maxReal from rfl, min_eq_left (show 1.41044 * 0.8 * Real.sqrt 2 ≤ maxReal by linarith), min_eq_left (by linarith)]
  rw [hdt] at h
  exact ⟨_, h⟩

/-- The spheres move towards and from each other. -/
noncomputable def mode : Motion := fun i => if i = 0 then (-diag, 0) else if i = 1 then (diag, 0) else 0

theorem mode_free : Free pair mode := by
  intro i hi
  have h0 : i ≠ 0 := by rintro rfl; exact hi ⟨unitBall, rfl, rfl, rfl⟩
  have h1 : i ≠ 1 := by rintro rfl; exact hi ⟨unitBall, rfl, rfl, rfl⟩
  simp [mode, h0, h1]

theorem mode_acc (y : ℝ) : netAcc pair [diagContact] (y • mode) = (-2 * y) • mode := by
  have hdd : dot diag diag = 1 := diag_norm
  have hrel : rel diagContact (y • mode) = (2 * y) • diag := by
    apply v3_ext <;> simp [rel, mode, diagContact] <;> ring
  have hrot : rot diagContact (y • mode) = 0 := by
    apply v3_ext <;> simp [rot, mode, diagContact]
  have hsp : spring diagContact.normal diagContact.kn diagContact.ks ((2 * y) • diag) = (2 * y) • diag := by
    have : dot ((2 * y) • diag) diag = 2 * y := by
      have : dot ((2 * y) • diag) diag = 2 * y * dot diag diag := by simp [dot]; ring
      rw [this, hdd, mul_one]
    rw [show diagContact.normal = diag from rfl, spring, this]
    apply v3_ext <;> simp [diagContact] <;> ring
  have hsp0 : spring diagContact.normal diagContact.ktw diagContact.kr 0 = 0 := by
    apply v3_ext <;> simp [spring, dot]
  have hcr : cross diagContact.normal ((2 * y) • diag) = 0 := by
    rw [show diagContact.normal = diag from rfl]
    apply v3_ext <;> simp <;> ring
  funext i
  match i with
  | 0 =>
    have : netForce [diagContact] (y • mode) 0 = ((2 * y) • diag, 0) := by
      simp only [netForce, List.map_cons, List.map_nil, List.sum_cons, List.sum_nil, diag_force, if_false, hrel, hrot, hsp, hsp0, hcr]
      simp [diagContact]
    simp only [netAcc, pair, List.getElem?_cons_zero, this]
    rw [if_pos ⟨rfl, rfl⟩]
    ext a
    · simp [unitBall, mode]
    · simp [unitBall, mode]
  | 1 =>
    have : netForce [diagContact] (y • mode) 1 = (-((2 * y) • diag), 0) := by
      simp only [netForce, List.map_cons, List.map_nil, List.sum_cons, List.sum_nil, diag_force, if_false, hrel, hrot, hsp, hsp0, hcr]
      simp [diagContact]
    simp only [netAcc, pair, List.getElem?_cons_succ, List.getElem?_cons_zero, this]
    rw [if_pos ⟨rfl, rfl⟩]
    ext a
    · simp [unitBall, mode]
    · simp [unitBall, mode]
  | n + 2 => simp [netAcc, pair, mode]

/-- The amplitude after each step. -/
theorem mode_run {dt : ℝ} (hdt : dt ^ 2 * 2 > 5) (n : Nat) :
    ∃ y u, netRun pair [diagContact] dt (mode, 0) n = (y • mode, u • mode) ∧ |y - dt * u| ≤ |y| ∧ 2 ^ n ≤ |y| := by
  induction n with
  | zero => exact ⟨1, 0, by simp [netRun], by simp, by simp⟩
  | succ n ih =>
    obtain ⟨y, u, h, h1, h2⟩ := ih
    refine ⟨y + dt * (u - dt * 2 * y), u - dt * 2 * y, ?_, ?_, ?_⟩
    · rw [netRun, h, netStep]
      dsimp only
      rw [mode_acc]
      ext1
      · dsimp only; module
      · dsimp only; module
    all_goals
      have e : y + dt * (u - dt * 2 * y) = (2 - dt ^ 2 * 2) * y - (y - dt * u) := by ring
      have t := abs_sub_abs_le_abs_sub ((2 - dt ^ 2 * 2) * y) (y - dt * u)
      have a1 : |(2 - dt ^ 2 * 2) * y| = (dt ^ 2 * 2 - 2) * |y| := by
        rw [abs_mul, abs_of_neg (by linarith)]; ring
      rw [a1] at t
      have hy := abs_nonneg y
      have key : 2 * |y| ≤ |y + dt * (u - dt * 2 * y)| := by rw [e]; nlinarith
    · rw [show y + dt * (u - dt * 2 * y) - dt * (u - dt * 2 * y) = y by ring]; linarith
    · rw [pow_succ]; linarith

/-- C170 is violated by the default safety factor of 0.8: two equal spheres of the default Poisson's ratio, in contact along a diagonal of
the axes.  The step set for them is unstable, the spheres move apart and together by more than twice as much every step. -/
theorem C170_violated : ∃ e' dt', computeTimeStep pair [diagContact] 0 eng0 = .ok (pair, e', dt') ∧ ¬ Stable pair [diagContact] dt' ∧
    ∀ n, ∃ y : ℝ, (netRun pair [diagContact] dt' (mode, 0) n).1 = y • mode ∧ 2 ^ n ≤ |y| := by
  obtain ⟨e', h⟩ := pair_step
  have hdt : (1.41044 * 0.8 * Real.sqrt 2) ^ 2 * 2 > 5 := by
    rw [mul_pow, Real.sq_sqrt (by norm_num)]; norm_num
  refine ⟨e', _, h, ?_, ?_⟩
  · intro hst
    obtain ⟨B, hB⟩ := hst mode 0 mode_free (fun i _ => rfl)
    obtain ⟨n, hn⟩ := pow_unbounded_of_one_lt B (show (1 : ℝ) < 2 by norm_num)
    obtain ⟨y, u, hrun, -, hy⟩ := mode_run hdt n
    have h2 := (hB n).2
    rw [hrun] at h2
    dsimp only at h2
    have hK := stiff_isForm [diagContact]
    rw [hK.smul, hK.smul_r] at h2
    have hm : stiffForm [diagContact] mode mode = 4 := by
      have hdd : dot diag diag = 1 := diag_norm
      have hrel : rel diagContact mode = (2 : ℝ) • diag := by
        apply v3_ext <;> simp [rel, mode, diagContact] <;> ring
      have hrot : rot diagContact mode = 0 := by
        apply v3_ext <;> simp [rot, mode, diagContact]
      have d1 : dot ((2 : ℝ) • diag) diag = 2 := by
        have : dot ((2 : ℝ) • diag) diag = 2 * dot diag diag := by simp [dot]; ring
        rw [this, hdd]; norm_num
      have d2 : dot ((2 : ℝ) • diag) ((2 : ℝ) • diag) = 4 := by
        have : dot ((2 : ℝ) • diag) ((2 : ℝ) • diag) = 4 * dot diag diag := by simp [dot]; ring
        rw [this, hdd]; norm_num
      simp only [stiffForm, List.map_cons, List.map_nil, List.sum_cons, List.sum_nil, diag_force, if_false, hrel, hrot, spring_dot]
      rw [show diagContact.normal = diag from rfl, d1, d2]
      norm_num [diagContact, dot]
    rw [hm] at h2
    have h1y : (1 : ℝ) ≤ |y| := le_trans (one_le_pow₀ (by norm_num)) hy
    have : |y| ≤ y * y := by rw [← abs_mul_abs_self y]; nlinarith
    nlinarith
  · intro n
    obtain ⟨y, u, hrun, -, hy⟩ := mode_run hdt n
    exact ⟨y, by rw [hrun], hy⟩

end Verif.Dt
