import Verif.Dt.Loop

/-!
# The time step of the stiffness-based time stepper: C168, C169
-/
namespace Verif.Dt
open Verif.Mech
open scoped Classical

/-- Contacts as contact laws make them: no negative stiffness, components of the normal at most one, bodies that exist. -/
def Sane (n : Nat) (cs : List Contact) : Prop :=
  ∀ c ∈ cs, c.id1 < n ∧ c.id2 < n ∧ 0 ≤ c.kn ∧ 0 ≤ c.ks ∧ 0 ≤ c.ktw ∧ 0 ≤ c.kr ∧ ∀ a, c.normal a ^ 2 ≤ 1

/-- Moving bodies under load. -/
def Loaded (bodies : List (Option Bd)) (cs : List Contact) (i : Nat) (b : Bd) : Prop := Moves bodies i b ∧ ∃ a, totalK cs b i a ≠ 0

/-- The step for the motion of a body along an axis. -/
noncomputable def transStep (safety : ℝ) (cs : List Contact) (b : Bd) (i : Nat) (a : Fin 3) : ℝ := 1.41044 * safety * Real.sqrt (b.mass / totalK cs b i a)

/-- The step for the rotation of a body about an axis. -/
noncomputable def rotStep (safety : ℝ) (cs : List Contact) (b : Bd) (i : Nat) (a : Fin 3) : ℝ := 1.41044 * safety * Real.sqrt (b.inertia a / totalR cs b i a)

/-! ## Signs -/

theorem maxReal_pos : 0 < maxReal := by
  rw [maxReal]
  exact sub_pos.mpr (pow_lt_pow_right₀ (by norm_num) (by norm_num))

theorem contactK_nonneg {c : Contact} {a : Fin 3} (h1 : 0 ≤ c.kn) (h2 : 0 ≤ c.ks) (h : c.normal a ^ 2 ≤ 1) : 0 ≤ contactK c a := by
  rw [contactK]
  have := mul_nonneg h1 (sq_nonneg (c.normal a))
  have := mul_nonneg h2 (sub_nonneg.mpr h)
  linarith

theorem contactR_nonneg {c : Contact} {a : Fin 3} (r : ℝ) (h2 : 0 ≤ c.ks) (h3 : 0 ≤ c.ktw) (h4 : 0 ≤ c.kr) (h : c.normal a ^ 2 ≤ 1) : 0 ≤ contactR c r a := by
  rw [contactR]
  have h5 : c.normal a ^ 2 ≤ sqNorm c.normal := by
    rw [sqNorm, dot]
    fin_cases a <;> simp <;> nlinarith [sq_nonneg (c.normal 0), sq_nonneg (c.normal 1), sq_nonneg (c.normal 2)]
  have := mul_nonneg (mul_nonneg h2 (sq_nonneg r)) (sub_nonneg.mpr h5)
  have := mul_nonneg h3 (sq_nonneg (c.normal a))
  have := mul_nonneg h4 (sub_nonneg.mpr h)
  linarith

theorem bodyK_nonneg {n : Nat} {cs : List Contact} (h : Sane n cs) (i : Nat) (a : Fin 3) : 0 ≤ bodyK cs i a := by
  rw [bodyK]
  apply List.sum_nonneg
  intro x hx
  obtain ⟨c, hc, rfl⟩ := List.mem_map.mp hx
  obtain ⟨-, -, h1, h2, -, -, h5⟩ := h c hc
  have := contactK_nonneg h1 h2 (h5 a)
  split_ifs <;> linarith

theorem bodyR_nonneg {n : Nat} {cs : List Contact} (h : Sane n cs) (i : Nat) (a : Fin 3) : 0 ≤ bodyR cs i a := by
  rw [bodyR]
  apply List.sum_nonneg
  intro x hx
  obtain ⟨c, hc, rfl⟩ := List.mem_map.mp hx
  obtain ⟨-, -, h1, h2, h3, h4, h5⟩ := h c hc
  have := contactR_nonneg c.refR1 h2 h3 h4 (h5 a)
  have := contactR_nonneg c.refR2 h2 h3 h4 (h5 a)
  split_ifs <;> linarith

theorem totalK_nonneg {n : Nat} {cs : List Contact} (h : Sane n cs) (b : Bd) (i : Nat) (a : Fin 3) : 0 ≤ totalK cs b i a := by
  refine add_nonneg (bodyK_nonneg h i a) (List.sum_nonneg ?_)
  intro x hx
  obtain ⟨m, -, rfl⟩ := List.mem_map.mp hx
  exact bodyK_nonneg h m a

theorem totalR_nonneg {n : Nat} {cs : List Contact} (h : Sane n cs) (b : Bd) (i : Nat) (a : Fin 3) : 0 ≤ totalR cs b i a := by
  refine add_nonneg (bodyR_nonneg h i a) (List.sum_nonneg ?_)
  intro x hx
  obtain ⟨m, -, rfl⟩ := List.mem_map.mp hx
  exact bodyR_nonneg h m a

/-! ## The step of one body -/

theorem le_max3 (k : V3) (a : Fin 3) : k a ≤ max (max (k 0) (k 1)) (k 2) := by
  fin_cases a <;> simp

theorem max3_mem (k : V3) : ∃ a, max (max (k 0) (k 1)) (k 2) = k a := by
  rcases max_choice (max (k 0) (k 1)) (k 2) with h | h
  · rcases max_choice (k 0) (k 1) with h' | h'
    · exact ⟨0, by rw [h, h']⟩
    · exact ⟨1, by rw [h, h']⟩
  · exact ⟨2, h⟩

theorem max3_pos {k : V3} (h0 : ∀ a, 0 ≤ k a) (h : k ≠ 0) : 0 < max (max (k 0) (k 1)) (k 2) := by
  by_contra hc
  apply h
  funext a
  exact le_antisymm (le_trans (le_max3 k a) (not_lt.mp hc)) (h0 a)

theorem elastic_le_trans {s m : ℝ} {I k r : V3} {a : Fin 3} (hs : 0 ≤ s) (hm : 0 ≤ m) (hk : 0 < k a) :
    elasticDt s m I k r ≤ 1.41044 * s * Real.sqrt (m / k a) := by
  rw [elasticDt]
  apply mul_le_mul_of_nonneg_left _ (by positivity)
  apply Real.sqrt_le_sqrt
  refine le_trans (min_le_left _ _) ?_
  have h := lt_of_lt_of_le hk (le_max3 k a)
  rw [period, if_pos h.ne']
  exact div_le_div_of_nonneg_left hm hk (le_max3 k a)

theorem elastic_le_rot {s m : ℝ} {I k r : V3} {a : Fin 3} (hs : 0 ≤ s) (hr : r a ≠ 0) :
    elasticDt s m I k r ≤ 1.41044 * s * Real.sqrt (I a / r a) := by
  rw [elasticDt]
  apply mul_le_mul_of_nonneg_left _ (by positivity)
  apply Real.sqrt_le_sqrt
  refine le_trans (min_le_right _ _) ?_
  have : I a / r a = period (I a) (r a) := by rw [period, if_pos hr]
  rw [this]
  fin_cases a
  · exact le_trans (min_le_left _ _) (min_le_left _ _)
  · exact le_trans (min_le_left _ _) (min_le_right _ _)
  · exact min_le_right _ _

theorem elastic_attained (s m : ℝ) (I : V3) {k r : V3} : elasticDt s m I k r = 1.41044 * s * Real.sqrt maxReal ∨
    (∃ a, k a ≠ 0 ∧ elasticDt s m I k r = 1.41044 * s * Real.sqrt (m / k a)) ∨ ∃ a, r a ≠ 0 ∧ elasticDt s m I k r = 1.41044 * s * Real.sqrt (I a / r a) := by
  have hp : ∀ m x, period m x = maxReal ∨ (x ≠ 0 ∧ period m x = m / x) := by
    intro m x
    rw [period]; split_ifs with h
    · exact Or.inr ⟨h, rfl⟩
    · exact Or.inl rfl
  have hmin : ∀ x y : ℝ, min x y = x ∨ min x y = y := fun x y => min_choice x y
  simp only [elasticDt, minPeriod]
  obtain ⟨a, ha⟩ := max3_mem k
  rcases hmin (period m (max (max (k 0) (k 1)) (k 2))) (min (min (period (I 0) (r 0)) (period (I 1) (r 1))) (period (I 2) (r 2))) with h | h
  · rw [h]
    rcases hp m (max (max (k 0) (k 1)) (k 2)) with h' | ⟨h0, h'⟩
    · left; rw [h']
    · right; left; exact ⟨a, by rw [← ha]; exact h0, by rw [h', ha]⟩
  · rw [h]
    have : ∃ a, min (min (period (I 0) (r 0)) (period (I 1) (r 1))) (period (I 2) (r 2)) = period (I a) (r a) := by
      rcases hmin (min (period (I 0) (r 0)) (period (I 1) (r 1))) (period (I 2) (r 2)) with h | h
      · rcases hmin (period (I 0) (r 0)) (period (I 1) (r 1)) with h' | h'
        · exact ⟨0, by rw [h, h']⟩
        · exact ⟨1, by rw [h, h']⟩
      · exact ⟨2, h⟩
    obtain ⟨a, ha⟩ := this
    rw [ha]
    rcases hp (I a) (r a) with h' | ⟨h0, h'⟩
    · left; rw [h']
    · right; right; exact ⟨a, h0, by rw [h']⟩

/-! ## The step of the scene -/

/-- What an update does, with the engine that is left. -/
theorem computeTimeStep_ok {bodies : List (Option Bd)} {cs : List Contact} (dt : ℝ) {e : Eng} (hcl : Clumps bodies) (hc : Sane bodies.length cs)
    (hv : e.viscEl = false) (hd : e.densityScaling = false) (hl : e.Rstiff.length = e.stiff.length) :
    ∃ s r d0 p co dt', computeTimeStep bodies cs dt e = .ok (bodies, { e with stiff := s, Rstiff := r, defaultDt := d0, previousDt := p, computedOnce := co }, dt') ∧
      r.length = s.length ∧ d0 = (if e.defaultDt < 0 then e.safety * pwaveTimeStep bodies else e.defaultDt) ∧
      ((¬ ∃ i b, Loaded bodies cs i b) → dt' = (if e.computedOnce then dt else d0) ∧ p = e.previousDt ∧ co = e.computedOnce) ∧
      ((∃ i b, Loaded bodies cs i b) → p = dt' ∧ co = true ∧ ∃ x, dt' = min (min x e.maxDt) (1.05 * e.previousDt) ∧ x ≤ maxReal ∧
        (∀ i b, Loaded bodies cs i b → x ≤ elasticDt e.safety b.mass b.inertia (totalK cs b i) (totalR cs b i)) ∧
        (x = maxReal ∨ ∃ i b, Loaded bodies cs i b ∧ x = elasticDt e.safety b.mass b.inertia (totalK cs b i) (totalR cs b i))) := by
  have hne : ∀ i b, (∃ a, totalK cs b i a ≠ 0) ↔ totalK cs b i ≠ 0 := by
    intro i b
    rw [Ne, funext_iff, not_forall]
    rfl
  have hcomp : ∀ i b, totalK cs b i ≠ 0 → computes (totalK cs b i) (totalR cs b i) :=
    fun i b h => Or.inl (max3_pos (totalK_nonneg hc b i) h).ne'
  set d0 := if e.defaultDt < 0 then e.safety * pwaveTimeStep bodies else e.defaultDt with hd0
  have hrec : (if e.defaultDt < 0 then { e with defaultDt := e.safety * pwaveTimeStep bodies } else e) = { e with defaultDt := d0 } := by
    rw [hd0]; split_ifs <;> rfl
  obtain ⟨s, r, he, hs, hr, gs, gr⟩ := computeStiffnesses_ok (n := bodies.length) (cs := cs) (e := { e with defaultDt := d0 }) hv hl
    (fun c h => ⟨(hc c h).1, (hc c h).2.1⟩)
  obtain ⟨a', h1, ⟨s', r', h2, h2s, h2r⟩, h3, h4, h5, h6⟩ := bodyLoop_ok hcl cs bodies 0 ⟨{ e with defaultDt := d0, stiff := s, Rstiff := r }, maxReal, False⟩ rfl hv hd
    (by dsimp only; rw [hr, hs]) (by dsimp only; rw [hs]; exact le_max_right _ _) (fun j _ => ⟨gs j, gr j⟩)
  dsimp only at h2 h2s h2r h3 h4 h5 h6
  have hcp : a'.computed ↔ ∃ i b, Loaded bodies cs i b := by
    rw [h6]
    constructor
    · rintro (h | ⟨i, b, -, hm, hk, -⟩)
      · exact h.elim
      · exact ⟨i, b, hm, (hne i b).mpr hk⟩
    · rintro ⟨i, b, hm, hk⟩
      have hk := (hne i b).mp hk
      exact Or.inr ⟨i, b, Nat.zero_le _, hm, hk, hcomp i b hk⟩
  have hunf : computeTimeStep bodies cs dt e = if a'.computed then
      .ok (bodies, { a'.eng with previousDt := min (min a'.newDt a'.eng.maxDt) (1.05 * a'.eng.previousDt), computedOnce := true }, min (min a'.newDt a'.eng.maxDt) (1.05 * a'.eng.previousDt))
      else .ok (bodies, a'.eng, if a'.eng.computedOnce then dt else a'.eng.defaultDt) := by
    have hde : a'.eng.densityScaling = false := by rw [h2]; exact hd
    rw [computeTimeStep, hrec]
    dsimp only
    rw [he, Res.bind_ok]
    erw [h1]
    rw [Res.bind_ok]
    dsimp only
    simp only [hde, Bool.false_eq_true, if_false, or_false]
  by_cases hL : ∃ i b, Loaded bodies cs i b
  · refine ⟨s', r', d0, min (min a'.newDt e.maxDt) (1.05 * e.previousDt), true, min (min a'.newDt e.maxDt) (1.05 * e.previousDt), ?_, by rw [h2r, h2s], rfl,
      fun h => absurd hL h, fun _ => ⟨rfl, rfl, a'.newDt, rfl, h3, ?_, ?_⟩⟩
    · rw [hunf, if_pos (hcp.mpr hL), h2]
    · intro i b ⟨hm, hk⟩
      exact h4 i b (Nat.zero_le _) hm ((hne i b).mp hk)
    · exact h5.imp (fun h => h) fun ⟨i, b, _, hm, hk, h⟩ => ⟨i, b, ⟨hm, (hne i b).mpr hk⟩, h⟩
  · refine ⟨s', r', d0, e.previousDt, e.computedOnce, if e.computedOnce then dt else d0, ?_, by rw [h2r, h2s], rfl, fun _ => ⟨rfl, rfl, rfl⟩, fun h => absurd h hL⟩
    rw [hunf, if_neg (fun h => hL (hcp.mp h)), h2]

/-- C168.  Whatever the bodies and contacts are, once a moving body is under load the time step after an update is at most the step for
the motion along, and the rotation about, each axis of each such body, and it is as large as all bounds allow: it is one of these
steps, or the largest allowed, or 1.05 times the previous, or the limit of the number format. -/
theorem C168_step {bodies : List (Option Bd)} {cs : List Contact} (dt : ℝ) {e : Eng} (hcl : Clumps bodies) (hc : Sane bodies.length cs)
    (hv : e.viscEl = false) (hd : e.densityScaling = false) (hl : e.Rstiff.length = e.stiff.length) (hs : 0 ≤ e.safety)
    (hm : ∀ i b, Moves bodies i b → 0 ≤ b.mass) (hL : ∃ i b, Loaded bodies cs i b) :
    ∃ e' dt', computeTimeStep bodies cs dt e = .ok (bodies, e', dt') ∧ dt' ≤ 1.05 * e.previousDt ∧ e'.previousDt = dt' ∧
      (∀ i b, Loaded bodies cs i b → ∀ a, (totalK cs b i a ≠ 0 → dt' ≤ transStep e.safety cs b i a) ∧ (totalR cs b i a ≠ 0 → dt' ≤ rotStep e.safety cs b i a)) ∧
      (dt' = e.maxDt ∨ dt' = 1.05 * e.previousDt ∨ dt' = maxReal ∨ dt' = 1.41044 * e.safety * Real.sqrt maxReal ∨
        ∃ i b a, Loaded bodies cs i b ∧ ((totalK cs b i a ≠ 0 ∧ dt' = transStep e.safety cs b i a) ∨ (totalR cs b i a ≠ 0 ∧ dt' = rotStep e.safety cs b i a))) := by
  obtain ⟨s, r, d0, p, co, dt', h, -, -, -, h5⟩ := computeTimeStep_ok dt hcl hc hv hd hl
  obtain ⟨hp, -, x, hx, -, hle, hat⟩ := h5 hL
  have hdx : dt' ≤ x := by rw [hx]; exact le_trans (min_le_left _ _) (min_le_left _ _)
  refine ⟨_, dt', h, by rw [hx]; exact min_le_right _ _, hp, ?_, ?_⟩
  · intro i b hb a
    constructor
    · intro hk
      exact le_trans hdx (le_trans (hle i b hb) (elastic_le_trans hs (hm i b hb.1) (lt_of_le_of_ne (totalK_nonneg hc b i a) (Ne.symm hk))))
    · intro hr
      exact le_trans hdx (le_trans (hle i b hb) (elastic_le_rot hs hr))
  · rcases min_choice (min x e.maxDt) (1.05 * e.previousDt) with h1 | h1
    · rcases min_choice x e.maxDt with h2 | h2
      · rw [h1, h2] at hx
        subst hx
        right; right
        rcases hat with h3 | ⟨i, b, hb, h3⟩
        · exact Or.inl h3
        · right
          rcases elastic_attained e.safety b.mass b.inertia (k := totalK cs b i) (r := totalR cs b i) with h4 | ⟨a, ha, h4⟩ | ⟨a, ha, h4⟩
          · left; rw [h3, h4]
          · right; exact ⟨i, b, a, hb, Or.inl ⟨ha, by rw [h3, h4]; rfl⟩⟩
          · right; exact ⟨i, b, a, hb, Or.inr ⟨ha, by rw [h3, h4]; rfl⟩⟩
      · left; rw [hx, h1, h2]
    · right; left; rw [hx, h1]

/-- C168.  With positive masses and inertias, and a positive safety factor, largest and previous step, the time step is positive. -/
theorem C168_positive {bodies : List (Option Bd)} {cs : List Contact} (dt : ℝ) {e : Eng} (hcl : Clumps bodies) (hc : Sane bodies.length cs)
    (hv : e.viscEl = false) (hd : e.densityScaling = false) (hl : e.Rstiff.length = e.stiff.length) (hs : 0 < e.safety)
    (hm : ∀ i b, Moves bodies i b → 0 < b.mass ∧ ∀ a, 0 < b.inertia a) (hmax : 0 < e.maxDt) (hpr : 0 < e.previousDt) (hL : ∃ i b, Loaded bodies cs i b) :
    ∃ e' dt', computeTimeStep bodies cs dt e = .ok (bodies, e', dt') ∧ 0 < dt' ∧ 0 < e'.previousDt := by
  obtain ⟨e', dt', h, -, hp, -, h2⟩ := C168_step dt hcl hc hv hd hl hs.le (fun i b h => (hm i b h).1.le) hL
  have hM := maxReal_pos
  have hpos : 0 < dt' := by
    rcases h2 with h2 | h2 | h2 | h2 | ⟨i, b, a, hb, ⟨hk, h2⟩ | ⟨hk, h2⟩⟩
    · rw [h2]; exact hmax
    · rw [h2]; positivity
    · rw [h2]; exact hM
    · rw [h2]
      have := Real.sqrt_pos.mpr hM
      positivity
    · rw [h2, transStep]
      have := Real.sqrt_pos.mpr (div_pos (hm i b hb.1).1 (lt_of_le_of_ne (totalK_nonneg hc b i a) (Ne.symm hk)))
      positivity
    · rw [h2, rotStep]
      have := Real.sqrt_pos.mpr (div_pos ((hm i b hb.1).2 a) (lt_of_le_of_ne (totalR_nonneg hc b i a) (Ne.symm hk)))
      positivity
  exact ⟨e', dt', h, hpos, by rw [hp]; exact hpos⟩

/-! ### A case: two bodies in contact, one of them fixed -/

/-- A ball of mass 4. -/
noncomputable def ball (dynamic : Bool) : Bd := ⟨dynamic, false, none, 4, fun _ => 2, true, some 1, some 1, -1⟩

/-- A contact along x. -/
noncomputable def touch : Contact := ⟨0, 1, ![1, 0, 0], 1, 1, 8, 2, ![5, 0, 0], 0, 0, none⟩

/-- An engine as constructed. -/
noncomputable def eng0 : Eng := ⟨[], [], [], [], -1, maxReal, maxReal, 0.8, false, 1, false, false⟩

theorem scene_clumps : Clumps [some (ball true), some (ball false)] := by
  rintro i b hb m hm
  match i with
  | 0 => simp at hb; subst hb; simp [ball] at hm
  | 1 => simp at hb; subst hb; simp [ball] at hm
  | n + 2 => simp at hb

theorem scene_sane : Sane 2 [touch] := by
  intro c hc
  simp only [List.mem_singleton] at hc
  subst hc
  refine ⟨by simp [touch], by simp [touch], by simp [touch], by simp [touch], by simp [touch], by simp [touch], ?_⟩
  intro a
  fin_cases a <;> simp [touch]

theorem touch_loaded : touch.normalForce ≠ 0 := by
  intro h
  have := congrFun h 0
  simp [touch] at this

theorem scene_K : totalK [touch] (ball true) 0 0 = 8 := by
  have := touch_loaded
  simp [totalK, bodyK, contactK, ball, this]
  simp [touch]

theorem scene_loaded : Loaded [some (ball true), some (ball false)] [touch] 0 (ball true) :=
  ⟨⟨rfl, rfl, rfl⟩, 0, by rw [scene_K]; norm_num⟩

/-- The hypotheses hold: the step is at most 1.41044 · 0.8 · sqrt(4 / 8). -/
example : ∃ e' dt', computeTimeStep [some (ball true), some (ball false)] [touch] 0 eng0 = .ok ([some (ball true), some (ball false)], e', dt') ∧
    dt' ≤ 1.41044 * 0.8 * Real.sqrt (4 / 8) ∧ 0 < dt' := by
  have hm : ∀ i b, Moves [some (ball true), some (ball false)] i b → 0 < b.mass ∧ ∀ a, 0 < b.inertia a := by
    rintro i b ⟨hb, -, -⟩
    match i with
    | 0 => simp at hb; subst hb; simp [ball]
    | 1 => simp at hb; subst hb; simp [ball]
    | n + 2 => simp at hb
  obtain ⟨e', dt', h, -, -, h2, -⟩ := C168_step (e := eng0) 0 scene_clumps scene_sane rfl rfl rfl (by norm_num [eng0]) (fun i b h => (hm i b h).1.le) ⟨0, ball true, scene_loaded⟩
  obtain ⟨e'', dt'', h', h3, -⟩ := C168_positive (e := eng0) 0 scene_clumps scene_sane rfl rfl rfl (by norm_num [eng0]) hm maxReal_pos maxReal_pos ⟨0, ball true, scene_loaded⟩
  rw [h] at h'
  obtain ⟨-, rfl⟩ : e' = e'' ∧ dt' = dt'' := by simpa using h'
  refine ⟨e', dt', h, ?_, h3⟩
  have := (h2 0 _ scene_loaded 0).1 (by rw [scene_K]; norm_num)
  rwa [transStep, scene_K] at this

/-! ## C169 -/

/-- C169.  Once a moving body is under load the time step does not exceed the largest step asked for.  Missing: updates without such
bodies, see `C169_violated`, and what is documented of negative limits, see `C169_violated_negative`. -/
theorem C169_limit_partial {bodies : List (Option Bd)} {cs : List Contact} (dt : ℝ) {e : Eng} (hcl : Clumps bodies) (hc : Sane bodies.length cs)
    (hv : e.viscEl = false) (hd : e.densityScaling = false) (hl : e.Rstiff.length = e.stiff.length) (hL : ∃ i b, Loaded bodies cs i b) :
    ∃ e' dt', computeTimeStep bodies cs dt e = .ok (bodies, e', dt') ∧ dt' ≤ e.maxDt := by
  obtain ⟨s, r, d0, p, co, dt', h, -, -, -, h5⟩ := computeTimeStep_ok dt hcl hc hv hd hl
  obtain ⟨-, -, x, hx, -⟩ := h5 hL
  exact ⟨_, dt', h, by rw [hx]; exact le_trans (min_le_left _ _) (min_le_right _ _)⟩

example : ∃ e' dt', computeTimeStep [some (ball true), some (ball false)] [touch] 0 { eng0 with maxDt := 1 / 100 } = .ok ([some (ball true), some (ball false)], e', dt') ∧ dt' ≤ 1 / 100 :=
  C169_limit_partial (e := { eng0 with maxDt := 1 / 100 }) 0 scene_clumps scene_sane rfl rfl rfl ⟨0, ball true, scene_loaded⟩

/-- C169 is violated as long as nothing is in contact: with a default step of 5 and a largest step of 1, the time step is 5, whatever
bodies there are. -/
theorem C169_violated {bodies : List (Option Bd)} (hcl : Clumps bodies) (dt : ℝ) :
    ∃ e', computeTimeStep bodies [] dt { eng0 with defaultDt := 5, maxDt := 1 } = .ok (bodies, e', 5) := by
  obtain ⟨s, r, d0, p, co, dt', h, -, hd0, h4, -⟩ := computeTimeStep_ok (bodies := bodies) (cs := []) dt (e := { eng0 with defaultDt := 5, maxDt := 1 }) hcl (by intro c hc; simp at hc) rfl rfl rfl
  have hno : ¬ ∃ i b, Loaded bodies [] i b := by
    rintro ⟨i, b, -, a, ha⟩
    apply ha
    simp [totalK, bodyK]
  have hd0' : d0 = 5 := by rw [hd0]; norm_num
  rw [(h4 hno).1, hd0'] at h
  exact ⟨_, by simpa [eng0] using h⟩

/-- C169 is violated by a negative limit, documented to be none: the time step becomes negative. -/
theorem C169_violated_negative {bodies : List (Option Bd)} {cs : List Contact} (dt : ℝ) {e : Eng} (hcl : Clumps bodies) (hc : Sane bodies.length cs)
    (hv : e.viscEl = false) (hd : e.densityScaling = false) (hl : e.Rstiff.length = e.stiff.length) (hL : ∃ i b, Loaded bodies cs i b) (hneg : e.maxDt < 0) :
    ∃ e' dt', computeTimeStep bodies cs dt e = .ok (bodies, e', dt') ∧ dt' < 0 := by
  obtain ⟨e', dt', h, h2⟩ := C169_limit_partial dt hcl hc hv hd hl hL
  exact ⟨e', dt', h, by linarith⟩

example : ∃ e' dt', computeTimeStep [some (ball true), some (ball false)] [touch] 0 { eng0 with maxDt := -1 } = .ok ([some (ball true), some (ball false)], e', dt') ∧ dt' < 0 :=
  C169_violated_negative (e := { eng0 with maxDt := -1 }) 0 scene_clumps scene_sane rfl rfl rfl ⟨0, ball true, scene_loaded⟩ (by norm_num)

end Verif.Dt
