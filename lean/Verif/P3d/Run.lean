import Verif.P3d.Lemmas

/-! # Runs of the controller -/
namespace Verif.P3d

/-- An engine before its first step, paths with points after whole numbers of steps, `n j i` for the i-th point of the j-th path. -/
structure Fits (e : Eng) (n : Fin 6 → ℕ → ℕ) : Prop where
  begin_ : e.progress = 0
  steps : 0 < e.nSteps
  ne : ∀ j, e.paths j ≠ []
  inc : ∀ j i, i + 1 < (e.paths j).length → ((e.paths j).getD i (0, 0)).1 < ((e.paths j).getD (i + 1) (0, 0)).1
  pos : ∀ j, 0 < ((e.paths j).getD 0 (0, 0)).1
  whole : ∀ j i, i < (e.paths j).length → (n j i : ℝ) * ((e.paths j).getLastD (0, 0)).1 = ((e.paths j).getD i (0, 0)).1 * e.nSteps
  last : ∀ j, 1e-9 ≤ |((e.paths j).getLastD (0, 0)).2|
  zero : ∀ j, (if e.mask j then e.stressIdeal j else e.strain j) = 0

/-- Any number of steps, with any stresses, deformations and time steps. -/
inductive Run : Eng → ℕ → Eng → Prop
  | zero (e : Eng) : Run e 0 e
  | succ {e f g : Eng} {k : ℕ} {i : Inp} {m : M3} (h : Run e k f) (hd : f.dead = false) (h1 : f.action i = .ok (g, m)) : Run e (k + 1) g

/-- Runs in which no strain rate was limited: each step is a whole one. -/
inductive Even : Eng → ℕ → Eng → Prop
  | zero (e : Eng) : Even e 0 e
  | succ {e f g : Eng} {k : ℕ} {i : Inp} {m : M3} (h : Even e k f) (hd : f.dead = false) (h1 : f.action i = .ok (g, m))
    (h2 : g.progress = f.progress + 1 / f.nSteps) : Even e (k + 1) g

theorem getLastD_eq (p : List (ℝ × ℝ)) (h : p ≠ []) : p.getLastD (0, 0) = p.getD (p.length - 1) (0, 0) := by
  rw [List.getLastD_eq_getLast?, List.getLast?_eq_getElem?]; rfl

theorem scale_get (g : ℝ) (p : List (ℝ × ℝ)) {i : ℕ} (hi : i < p.length) (hl : 1e-9 ≤ |(p.getLastD (0, 0)).2|) :
    (scale g p).getD i (0, 0) = ((p.getD i (0, 0)).1 * (1 / (p.getLastD (0, 0)).1), (p.getD i (0, 0)).2 * (g / (p.getLastD (0, 0)).2)) := by
  unfold scale
  rw [List.getD_eq_getElem?_getD, List.getD_eq_getElem?_getD, List.getElem?_map, List.getElem?_eq_getElem hi]
  simp only [Option.map_some, Option.getD_some, ge_iff_le, if_pos hl]

theorem scale_len (g : ℝ) (p : List (ℝ × ℝ)) : (scale g p).length = p.length := by simp [scale]

theorem Fits.times {e : Eng} {n : Fin 6 → ℕ → ℕ} (h : Fits e n) (j : Fin 6) : ∀ i < (e.paths j).length, 0 < ((e.paths j).getD i (0, 0)).1 := by
  intro i
  induction i with
  | zero => intro _; exact h.pos j
  | succ i ih => intro hi; exact lt_trans (ih (by omega)) (h.inc j i hi)

theorem Fits.lastpos {e : Eng} {n : Fin 6 → ℕ → ℕ} (h : Fits e n) (j : Fin 6) : 0 < ((e.paths j).getLastD (0, 0)).1 := by
  have := List.length_pos_iff.2 (h.ne j)
  rw [getLastD_eq _ (h.ne j)]
  exact h.times j _ (by omega)

theorem Fits.good {e : Eng} {n : Fin 6 → ℕ → ℕ} (h : Fits e n) (j : Fin 6) : Good (scale (e.goal j) (e.paths j)) e.nSteps (n j) := by
  have hl := h.lastpos j
  have hlen := List.length_pos_iff.2 (h.ne j)
  have hN : (0 : ℝ) < e.nSteps := by exact_mod_cast h.steps
  have hlt : ∀ a b : ℕ, a < (e.paths j).length → b < (e.paths j).length → ((e.paths j).getD a (0, 0)).1 < ((e.paths j).getD b (0, 0)).1 → n j a < n j b := by
    intro a b ha hb hab
    have h1 := h.whole j a ha
    have h2 := h.whole j b hb
    have : (n j a : ℝ) * ((e.paths j).getLastD (0, 0)).1 < n j b * ((e.paths j).getLastD (0, 0)).1 := by
      rw [h1, h2]; exact mul_lt_mul_of_pos_right hab hN
    exact_mod_cast lt_of_mul_lt_mul_right this hl.le
  refine ⟨?_, ?_, ?_, ?_, ?_⟩
  · intro h0
    have := congrArg List.length h0
    rw [scale_len] at this; simp at this; exact h.ne j this
  · intro i hi
    rw [scale_len] at hi
    rw [scale_get _ _ hi (h.last j)]
    have := h.whole j i hi
    dsimp only
    field_simp
    rw [← this, mul_comm]
  · have h1 := h.whole j 0 hlen
    have : (0 : ℝ) < n j 0 * ((e.paths j).getLastD (0, 0)).1 := by rw [h1]; exact mul_pos (h.pos j) hN
    exact_mod_cast pos_of_mul_pos_left this hl.le
  · intro i hi
    rw [scale_len] at hi
    exact hlt i (i + 1) (by omega) hi (h.inc j i hi)
  · rw [scale_len]
    have h1 := h.whole j ((e.paths j).length - 1) (by omega)
    rw [← getLastD_eq _ (h.ne j), mul_comm] at h1
    have := mul_left_cancel₀ hl.ne' h1
    exact_mod_cast this

/-- The value at the end of a path is the goal. -/
theorem Fits.goal {e : Eng} {n : Fin 6 → ℕ → ℕ} (h : Fits e n) (j : Fin 6) :
    level (scale (e.goal j) (e.paths j)) (e.paths j).length = e.goal j := by
  have hlen := List.length_pos_iff.2 (h.ne j)
  have hl := h.last j
  unfold level
  rw [if_neg (by omega), scale_get _ _ (by omega) hl, ← getLastD_eq _ (h.ne j)]
  have : ((e.paths j).getLastD (0, 0)).2 ≠ 0 := by
    intro h0; rw [h0, abs_zero] at hl; norm_num at hl
  dsimp only
  field_simp

theorem increasing_iff : ∀ p : List (ℝ × ℝ), increasing p = true ↔ ∀ i, i + 1 < p.length → (p.getD i (0, 0)).1 < (p.getD (i + 1) (0, 0)).1
  | [] => by simp [increasing]
  | [x] => by simp [increasing]
  | x :: y :: l => by
    rw [increasing, Bool.and_eq_true, increasing_iff (y :: l), decide_eq_true_eq]
    constructor
    · rintro ⟨h1, h2⟩ i hi
      rcases i with _ | i
      · simpa using h1
      · have := h2 i (by simpa using hi)
        simpa using this
    · intro h
      refine ⟨by simpa using h 0 (by simp), fun i hi => ?_⟩
      have := h (i + 1) (by simpa using hi)
      simpa using this

/-- The beginning does not fail but for the second points of paths. -/
theorem Fits.start {e : Eng} {n : Fin 6 → ℕ → ℕ} (h : Fits e n) : e.start = (based e.setup.paths e.setup.pe).bind fun b => .ok (e.setup, b) := by
  unfold Eng.start
  rw [if_pos h.begin_, if_neg, if_neg]
  · rintro ⟨i, _, hi⟩; exact (h.lastpos i).ne' hi
  · rintro ⟨i, hi⟩
    have := (increasing_iff (e.paths i)).2 (h.inc i)
    rw [this] at hi; cases hi

/-- What holds before step `k`; `a` is the engine before the first one. -/
structure Inv (a : Eng) (n : Fin 6 → ℕ → ℕ) (k : ℕ) (e : Eng) : Prop where
  progress : e.progress = k / a.nSteps
  steps : e.nSteps = a.nSteps
  paths : ∀ j, e.paths j = scale (a.goal j) (a.paths j)
  ps : ∀ j, j ∈ e.ps ↔ a.mask j = true
  pe : ∀ j, j ∈ e.pe ↔ a.mask j = false
  stressGoal : ∀ j, a.mask j = true → e.stressGoal j = a.goal j
  strainGoal : ∀ j, a.mask j = false → e.strainGoal j = a.goal j
  maxRate : e.maxRate = a.maxRate
  maxStrain : e.maxStrain = a.maxStrain
  hook : e.hook = a.hook
  track : ∀ j, Track (scale (a.goal j) (a.paths j)) (n j) k (e.counter j) (if a.mask j then e.stressIdeal j else e.strain j)

theorem Fits.inv {e : Eng} {n : Fin 6 → ℕ → ℕ} (h : Fits e n) : Inv e n 0 e.setup := by
  refine ⟨by simp [Eng.setup, h.begin_], rfl, fun j => rfl, fun j => by simp [Eng.setup], fun j => by simp [Eng.setup], fun j hj => by simp [Eng.setup, hj],
    fun j hj => by simp [Eng.setup, hj], rfl, rfl, rfl, fun j => ?_⟩
  have h0 : (if e.mask j = true then e.setup.stressIdeal j else e.setup.strain j) = 0 := h.zero j
  rw [h0]
  exact track_zero (h.good j)

/-- The rates of step `k`. -/
noncomputable def slope (a : Eng) (n : Fin 6 → ℕ → ℕ) (j : Fin 6) (c : ℕ) : ℝ :=
  (level (scale (a.goal j) (a.paths j)) (c + 1) - level (scale (a.goal j) (a.paths j)) c) / (knot (n j) (c + 1) - knot (n j) c)

/-- A step before the last one: it does not fail, and components follow their paths. -/
theorem Inv.advance {a e : Eng} {n : Fin 6 → ℕ → ℕ} {k : ℕ} (ha : Fits a n) (h : Inv a n k e) (hk : (k : ℤ) < a.nSteps) (b : Bool) (i : Inp) (hdt : 0 < i.dt) :
    ∃ (f u : Eng) (c : Fin 6 → ℕ), e.advance b i = .ok f ∧ f = u.finish ∧ u = (e.update i.dt i.sig c fun j => slope a n j (c j) / i.dt).control b i.dt ∧
      (∀ j, c j < (a.paths j).length) ∧ (∀ j, Track (scale (a.goal j) (a.paths j)) (n j) (k + 1) (c j) (if a.mask j then f.stressIdeal j else f.strain j)) := by
  have hc := fun j => count_step (ha.good j) ha.steps (h.track j) hk
  choose c c1 c2 c3 c4 c5 using hc
  have hs : ∀ j, (level (scale (a.goal j) (a.paths j)) (c j + 1) - level (scale (a.goal j) (a.paths j)) (c j)) / ((knot (n j) (c j + 1) - knot (n j) (c j)) * i.dt) =
      slope a n j (c j) / i.dt := fun j => by unfold slope; rw [div_div]
  have hg1 : (gather 0 fun j => count e.progress (e.paths j) (e.counter j)) = .ok c := by
    apply gather_ok
    intro j; rw [h.progress, h.paths]; exact c1 j
  have hg2 : (gather 0 fun j => rate e.progress e.nSteps i.dt (if j ∈ e.ps then e.stressGoal j else e.strainGoal j) (e.paths j) (c j)) =
      .ok fun j => slope a n j (c j) / i.dt := by
    apply gather_ok
    intro j
    rw [h.progress, h.steps, h.paths, ← hs]
    refine rate_step (ha.good j) ha.steps ?_ (c2 j) hk
    intro hl
    have hg := ha.goal j
    rw [scale_len] at hl
    rw [hl] at hg
    have hg' : ((scale (a.goal j) (a.paths j)).getD 0 (0, 0)).2 = a.goal j := by
      simpa [level] using hg
    rw [hg']
    by_cases hm : a.mask j = true
    · rw [if_pos ((h.ps j).2 hm), h.stressGoal j hm]
    · have hm' : a.mask j = false := by simpa using hm
      rw [if_neg fun hp => hm ((h.ps j).1 hp), h.strainGoal j hm']
  refine ⟨_, _, c, ?_, rfl, rfl, fun j => by rw [← scale_len (a.goal j)]; exact c2 j, fun j => ?_⟩
  · unfold Eng.advance
    rw [hg1, Res.bind_ok, hg2, Res.bind_ok]
  · have ht := track_step (dt := i.dt) (ha.good j) hdt.ne' (c2 j) (c3 j) (c4 j) (c5 j)
    rw [hs] at ht
    by_cases hm : a.mask j = true
    · rw [if_pos hm] at ht ⊢
      have hp := (h.ps j).2 hm
      have : ((Eng.control (e.update i.dt i.sig c fun j => slope a n j (c j) / i.dt) b i.dt).finish).stressIdeal j = e.stressIdeal j + slope a n j (c j) / i.dt * i.dt := by
        simp [Eng.finish, Eng.control, Eng.update, hp]
      rw [this]; exact ht
    · have hm' : a.mask j = false := by simpa using hm
      rw [if_neg hm] at ht ⊢
      have hp := (h.pe j).2 hm'
      have : ((Eng.control (e.update i.dt i.sig c fun j => slope a n j (c j) / i.dt) b i.dt).finish).strain j = e.strain j + slope a n j (c j) / i.dt * i.dt := by
        simp [Eng.finish, Eng.control, Eng.update, hp]
      rw [this]; exact ht

/-- The same, with what holds afterwards. -/
theorem Inv.next {a e u : Eng} {n : Fin 6 → ℕ → ℕ} {k : ℕ} (ha : Fits a n) (h : Inv a n k e) (b : Bool) (i : Inp) (c : Fin 6 → ℕ)
    (hu : u = (e.update i.dt i.sig c fun j => slope a n j (c j) / i.dt).control b i.dt)
    (ht : ∀ j, Track (scale (a.goal j) (a.paths j)) (n j) (k + 1) (c j) (if a.mask j then u.finish.stressIdeal j else u.finish.strain j))
    (hp : u.finish.progress = e.progress + 1 / e.nSteps) : Inv a n (k + 1) u.finish := by
  have hN : (0 : ℝ) < a.nSteps := by exact_mod_cast ha.steps
  refine ⟨?_, ?_, ?_, ?_, ?_, ?_, ?_, ?_, ?_, ?_, ?_⟩
  · rw [hp, h.progress, h.steps]; push_cast; field_simp
  · rw [hu]; exact h.steps
  · intro j; rw [hu]; exact h.paths j
  · intro j; rw [hu]; exact h.ps j
  · intro j; rw [hu]; exact h.pe j
  · intro j; rw [hu]; exact h.stressGoal j
  · intro j; rw [hu]; exact h.strainGoal j
  · rw [hu]; exact h.maxRate
  · rw [hu]; exact h.maxStrain
  · rw [hu]; exact h.hook
  · intro j
    have : u.finish.counter j = c j := by rw [hu]; rfl
    rw [this]; exact ht j

/-- An action which did not fail. -/
theorem action_ok {e g : Eng} {i : Inp} {m : M3} (h : e.action i = .ok (g, m)) : 0 < i.dt ∧ 0 < e.nSteps ∧ i.trsf.det ≠ 0 ∧
    ∃ f b, e.start = .ok (f, b) ∧ f.advance b i = .ok g ∧ m = velGrad i.dt g.strainRate i.trsf i.rot i.nonrot := by
  unfold Eng.action at h
  split_ifs at h with h0
  push Not at h0
  rcases hs : e.start with ⟨f, b⟩ | _ | _
  · rw [hs, Res.bind_ok] at h
    dsimp only at h
    rcases ha : f.advance b i with g' | _ | _
    · rw [ha, Res.bind_ok] at h
      cases h
      exact ⟨h0.1, h0.2.1, h0.2.2, f, b, rfl, ha, rfl⟩
    · rw [ha] at h; simp at h
    · rw [ha] at h; simp at h
  · rw [hs] at h; simp at h
  · rw [hs] at h; simp at h

/-- The engine after the beginning. -/
theorem start_inv {a e f : Eng} {n : Fin 6 → ℕ → ℕ} {k : ℕ} {b : Bool} (ha : Fits a n) (he : (k = 0 ∧ e = a) ∨ (0 < k ∧ Inv a n k e)) (h : e.start = .ok (f, b)) :
    Inv a n k f ∧ f.progress = e.progress ∧ f.nSteps = e.nSteps ∧ f.dead = e.dead := by
  rcases he with ⟨rfl, rfl⟩ | ⟨hk, hi⟩
  · rw [ha.start] at h
    rcases hb : based e.setup.paths e.setup.pe with b' | _ | _
    · rw [hb, Res.bind_ok] at h; cases h; exact ⟨ha.inv, rfl, rfl, rfl⟩
    · rw [hb] at h; simp at h
    · rw [hb] at h; simp at h
  · have hN : (0 : ℝ) < a.nSteps := by exact_mod_cast ha.steps
    have hp : e.progress ≠ 0 := by
      rw [hi.progress]
      have : (0 : ℝ) < k := by exact_mod_cast hk
      positivity
    unfold Eng.start at h
    rw [if_neg hp] at h
    cases h
    exact ⟨hi, rfl, rfl, rfl⟩

/-- After whole steps, as many as there are at most. -/
theorem Even.inv {a f : Eng} {n : Fin 6 → ℕ → ℕ} {k : ℕ} (ha : Fits a n) (h : Even a k f) (hk : (k : ℤ) ≤ a.nSteps) :
    (k = 0 ∧ f = a) ∨ (0 < k ∧ Inv a n k f) := by
  induction h with
  | zero => exact .inl ⟨rfl, rfl⟩
  | @succ e g k i m h hd h1 h2 ih =>
    have ih := ih (by push_cast at hk; omega)
    obtain ⟨hdt, _, _, f', b, hs, hadv, _⟩ := action_ok h1
    obtain ⟨hi, e1, e2, _⟩ := start_inv ha ih hs
    obtain ⟨f, u, c, x1, x2, x3, _, x5⟩ := hi.advance ha (by push_cast at hk; omega) b i hdt
    rw [x1] at hadv
    cases hadv
    right
    refine ⟨by omega, ?_⟩
    rw [x2] at x5 h2 ⊢
    exact hi.next ha b i c x3 x5 (by rw [h2, e1, e2])

end Verif.P3d
