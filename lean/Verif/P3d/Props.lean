import Verif.P3d.Run
import Mathlib.Tactic.NormNum

/-! # C254-C256: paths, limits and ends -/
namespace Verif.P3d

/-- The value wanted at the i-th point of a path, which begins with zero; values are relative to the last one, which is the goal. -/
noncomputable def wanted (p : List (ℝ × ℝ)) (g : ℝ) (i : ℕ) : ℝ := if i = 0 then 0 else (p.getD (i - 1) (0, 0)).2 * g / (p.getLastD (0, 0)).2

/-- The step of the i-th point, beginning with zero. -/
def stepOf (n : ℕ → ℕ) (i : ℕ) : ℕ := if i = 0 then 0 else n (i - 1)

/-- A value on a path after `k` steps: between two points it is linear. -/
def OnPath (p : List (ℝ × ℝ)) (g : ℝ) (n : ℕ → ℕ) (k : ℕ) (x : ℝ) : Prop :=
  ∀ i < p.length, stepOf n i ≤ k → k ≤ stepOf n (i + 1) →
    x = wanted p g i + (wanted p g (i + 1) - wanted p g i) * ((k : ℝ) - stepOf n i) / ((stepOf n (i + 1) : ℝ) - stepOf n i)

theorem level_wanted {e : Eng} {n : Fin 6 → ℕ → ℕ} (h : Fits e n) (j : Fin 6) {i : ℕ} (hi : i ≤ (e.paths j).length) :
    level (scale (e.goal j) (e.paths j)) i = wanted (e.paths j) (e.goal j) i := by
  unfold level wanted
  split_ifs with h0
  · rfl
  · rw [scale_get _ _ (by omega) (h.last j)]; dsimp only; ring

theorem track_path {e : Eng} {n : Fin 6 → ℕ → ℕ} (h : Fits e n) (j : Fin 6) {k c : ℕ} {x : ℝ} (t : Track (scale (e.goal j) (e.paths j)) (n j) k c x) :
    OnPath (e.paths j) (e.goal j) (n j) k x := by
  intro i hi h1 h2
  have := t.unique (h.good j) (i := i) (by rw [scale_len]; exact hi) h1 h2
  rw [this, line, level_wanted h j (by omega), level_wanted h j (by omega)]
  rfl

/-- **C254 (partial).** As long as no strain rate is limited, and if points are reached after whole numbers of steps, strains and ideal stresses follow
the paths. -/
theorem C254_path_partial {a f : Eng} {n : Fin 6 → ℕ → ℕ} {k : ℕ} (ha : Fits a n) (h : Even a k f) (hk : (k : ℤ) ≤ a.nSteps) (j : Fin 6) :
    OnPath (a.paths j) (a.goal j) (n j) k (if a.mask j then f.stressIdeal j else f.strain j) := by
  rcases h.inv ha hk with ⟨rfl, rfl⟩ | ⟨_, hi⟩
  · rw [ha.zero j]
    exact track_path ha j (track_zero (ha.good j))
  · exact track_path ha j (hi.track j)

/-- **C254 (partial).** After all steps, strains and ideal stresses are the goals, and not before the engine stops, unless strains are too large. -/
theorem C254_goal_partial {a f : Eng} {n : Fin 6 → ℕ → ℕ} {k : ℕ} (ha : Fits a n) (h : Even a k f) (hk : (k : ℤ) = a.nSteps) (j : Fin 6) :
    (if a.mask j then f.stressIdeal j else f.strain j) = a.goal j := by
  have hlen := List.length_pos_iff.2 (ha.ne j)
  rcases h.inv ha hk.le with ⟨rfl, rfl⟩ | ⟨_, hi⟩
  · have := ha.steps; omega
  · have hg := ha.good j
    have hlast : k = knot (n j) (a.paths j).length := by
      have := knot_last hg
      rw [scale_len] at this; omega
    have := (hi.track j).unique hg (i := (a.paths j).length - 1) (by rw [scale_len]; omega)
      (by rw [hlast]; exact knot_mono hg (by omega) (by rw [scale_len])) (by rw [hlast, Nat.sub_add_cancel hlen])
    rw [this, hlast]
    have he := line_end hg (i := (a.paths j).length - 1) (by rw [scale_len]; omega)
    rw [Nat.sub_add_cancel hlen] at he
    rw [he, ha.goal]

theorem based_ok (paths : Fin 6 → List (ℝ × ℝ)) : ∀ l : List (Fin 6), (∀ j ∈ l, 2 ≤ (paths j).length) → ∃ b, based paths l = .ok b
  | [], _ => ⟨true, rfl⟩
  | j :: l, h => by
    rw [based, if_neg (by have := h j (by simp); omega)]
    split_ifs
    · exact based_ok paths l fun i hi => h i (by simp [hi])
    · exact ⟨false, rfl⟩

theorem even_start {a f : Eng} {n : Fin 6 → ℕ → ℕ} {k : ℕ} (ha : Fits a n) (h2 : ∀ j, a.mask j = false → 2 ≤ (a.paths j).length)
    (he : (k = 0 ∧ f = a) ∨ (0 < k ∧ Inv a n k f)) : ∃ g b, f.start = .ok (g, b) := by
  rcases he with ⟨rfl, rfl⟩ | ⟨hk, hi⟩
  · obtain ⟨b, hb⟩ := based_ok f.setup.paths f.setup.pe (by
      intro j hj
      have : f.mask j = false := by simpa [Eng.setup] using hj
      show 2 ≤ (scale _ _).length
      rw [scale_len]; exact h2 j this)
    exact ⟨f.setup, b, by rw [ha.start, hb, Res.bind_ok]⟩
  · have hN : (0 : ℝ) < a.nSteps := by exact_mod_cast ha.steps
    have hp : f.progress ≠ 0 := by
      rw [hi.progress]
      have : (0 : ℝ) < k := by exact_mod_cast hk
      positivity
    exact ⟨f, false, by unfold Eng.start; rw [if_neg hp]⟩

theorem corr_one {u : Eng} (h : ∀ j, |u.strainRate j| ≤ u.maxRate) : u.corr = 1 := by
  unfold Eng.corr; rw [if_neg (not_lt.2 ((top_le _ _).2 h))]

/-- **C254 (partial).** With all strains prescribed, paths of at least two points, and slopes of paths below the limit, every step works and is a whole
one, applies the slope of the path, and the engine stops after the last one, or when a strain is too large. -/
theorem C254_steps_partial {a f : Eng} {n : Fin 6 → ℕ → ℕ} {k : ℕ} {d : ℝ} (ha : Fits a n) (hm : ∀ j, a.mask j = false) (h2 : ∀ j, 2 ≤ (a.paths j).length)
    (hlim : ∀ j, ∀ c < (a.paths j).length, |(wanted (a.paths j) (a.goal j) (c + 1) - wanted (a.paths j) (a.goal j) c) / ((stepOf (n j) (c + 1) : ℝ) - stepOf (n j) c)| ≤ a.maxRate * d)
    (h : Even a k f) (hk : (k : ℤ) < a.nSteps) (hd : f.dead = false) (i : Inp) (hdt : i.dt = d) (hd0 : 0 < d) (hdet : i.trsf.det ≠ 0) :
    ∃ g m, f.action i = .ok (g, m) ∧ Even a (k + 1) g ∧ (∀ j, f.strain j + g.strainRate j * d = g.strain j) ∧
      (g.dead = true ↔ ((k : ℤ) + 1 = a.nSteps ∨ ∃ j, a.maxStrain < |g.strain j|) ∧ a.hook = false) := by
  have he := h.inv ha hk.le
  obtain ⟨g0, b, hs⟩ := even_start ha (fun j _ => h2 j) he
  obtain ⟨hi, e1, e2, e3⟩ := start_inv ha he hs
  obtain ⟨g, u, c, x1, x2, x3, x4, x5⟩ := hi.advance ha hk b i (by rw [hdt]; exact hd0)
  have hNz : (0 : ℤ) < f.nSteps := by rw [← e2, hi.steps]; exact ha.steps
  have hact : f.action i = .ok (g, velGrad i.dt g.strainRate i.trsf i.rot i.nonrot) := by
    unfold Eng.action
    rw [if_neg (by push Not; exact ⟨by rw [hdt]; exact hd0, hNz, hdet⟩), hs, Res.bind_ok]
    dsimp only
    rw [x1, Res.bind_ok]
  have hps : g0.ps = [] := by
    apply List.eq_nil_iff_forall_not_mem.2
    intro j hj
    have := (hi.ps j).1 hj
    rw [hm j] at this; cases this
  have hur : ∀ j, u.strainRate j = slope a n j (c j) / d := by
    intro j
    have hpe := (hi.pe j).2 (hm j)
    rw [x3]
    simp [Eng.control, Eng.update, hps, hpe, hdt]
  have hmax : u.maxRate = a.maxRate := by rw [x3]; exact hi.maxRate
  have hcorr : u.corr = 1 := by
    apply corr_one
    intro j
    rw [hur, hmax, abs_div, abs_of_pos hd0, div_le_iff₀ hd0]
    have := hlim j (c j) (x4 j)
    unfold slope
    rw [level_wanted ha j (by have := x4 j; omega), level_wanted ha j (by have := x4 j; omega)]
    exact this
  have hprog : g.progress = f.progress + 1 / f.nSteps := by
    have hup : u.progress = g0.progress := by rw [x3]; rfl
    have hun : u.nSteps = g0.nSteps := by rw [x3]; rfl
    rw [x2]
    show u.progress + u.corr / u.nSteps = _
    rw [hup, hun, hcorr, e1, e2]
  have hE : Even a (k + 1) g := .succ h hd hact hprog
  refine ⟨g, _, hact, hE, fun j => ?_, ?_⟩
  · have hpe := (hi.pe j).2 (hm j)
    have hgr : g.strainRate j = slope a n j (c j) / d := by
      rw [x2]; show u.strainRate j * u.corr = _
      rw [hcorr, mul_one, hur]
    have hf0 : g0.strain j = f.strain j := by
      rcases he with ⟨rfl, rfl⟩ | ⟨hk0, _⟩
      · rw [ha.start] at hs
        rcases hb : based f.setup.paths f.setup.pe with b' | _ | _
        · rw [hb, Res.bind_ok] at hs; cases hs; rfl
        · rw [hb] at hs; simp at hs
        · rw [hb] at hs; simp at hs
      · unfold Eng.start at hs
        by_cases h0 : f.progress = 0
        · exfalso
          have hN : (0 : ℝ) < a.nSteps := by exact_mod_cast ha.steps
          have : (0 : ℝ) < k := by exact_mod_cast hk0
          rw [← e1, hi.progress] at h0
          have : (0 : ℝ) < k / a.nSteps := by positivity
          linarith
        · rw [if_neg h0] at hs; cases hs; rfl
    have hgs : g.strain j = g0.strain j + slope a n j (c j) / i.dt * i.dt := by
      rw [x2, x3]; simp [Eng.finish, Eng.control, Eng.update, hpe]
    rw [hgs, hgr, hf0, hdt]
  · have hi' : Inv a n (k + 1) g := by
      rw [x2] at x5 hprog ⊢
      exact hi.next ha b i c x3 x5 (by rw [hprog, e1, e2])
    have hN : (0 : ℝ) < a.nSteps := by exact_mod_cast ha.steps
    have hp1 : (g.progress ≥ 1) ↔ (k : ℤ) + 1 = a.nSteps := by
      rw [hi'.progress, ge_iff_le, le_div_iff₀ hN, one_mul]
      constructor
      · intro h1
        have : a.nSteps ≤ ((k + 1 : ℕ) : ℤ) := by exact_mod_cast h1
        push_cast at this; omega
      · intro h1
        have : a.nSteps ≤ ((k + 1 : ℕ) : ℤ) := by push_cast; omega
        exact_mod_cast this
    have hud : u.dead = false := by rw [x3]; show g0.dead = false; rw [e3, hd]
    have hgd : g.dead = if (g.progress ≥ 1 ∨ top g.strain > a.maxStrain) ∧ a.hook = false then true else false := by
      have h1 : u.maxStrain = a.maxStrain := by rw [x3]; exact hi.maxStrain
      have h2 : u.hook = a.hook := by rw [x3]; exact hi.hook
      rw [x2]; unfold Eng.finish; dsimp only
      rw [h1, h2, hud]
    have htop : top g.strain > a.maxStrain ↔ ∃ j, a.maxStrain < |g.strain j| := by
      rw [gt_iff_lt, ← not_le, top_le]; push Not; rfl
    rw [hgd, ← hp1, ← htop]
    split_ifs with hh
    · exact ⟨fun _ => hh, fun _ => rfl⟩
    · exact ⟨fun h => absurd h (by simp), fun h => absurd h hh⟩

/-- With default paths, and a strain prescribed, the first step reads beyond the end of a path. -/
theorem C254_violated_default (e : Eng) (hp : e.progress = 0) (hd : ∀ j, e.paths j = [(1, 1)]) (j : Fin 6) (hm : e.mask j = false) (i : Inp) :
    e.action i = .ub := by
  have hs : e.start = .ub := by
    unfold Eng.start
    rw [if_pos hp, if_neg, if_neg]
    · have : e.setup.pe ≠ [] := by
        intro h0
        have : j ∈ e.setup.pe := by simp [Eng.setup, hm]
        rw [h0] at this; simp at this
      rcases hl : e.setup.pe with _ | ⟨x, l⟩
      · exact absurd hl this
      · rw [based, if_pos]
        · rfl
        · show (scale _ _).length < 2
          rw [scale_len, hd]; simp
    · rintro ⟨i, _, h⟩; rw [hd] at h; simp at h
    · rintro ⟨i, h⟩; rw [hd] at h; simp [increasing] at h
  unfold Eng.action
  split_ifs
  · rfl
  · rw [hs]; rfl

/-- **C255**: no component of the strain rate applied exceeds the limit; if the limit acts, all rates and the progress of the step are reduced by the same factor. -/
theorem C255_limit_partial {e g : Eng} {i : Inp} {m : M3} (h : e.action i = .ok (g, m)) (h0 : 0 ≤ e.maxRate) :
    (∀ j, |g.strainRate j| ≤ e.maxRate) ∧ ∃ (c : ℝ) (w : V6), 0 ≤ c ∧ c ≤ 1 ∧ (∀ j, g.strainRate j = w j * c) ∧ g.progress = e.progress + c / e.nSteps ∧
      ((∀ j, |w j| ≤ e.maxRate) → c = 1) ∧ ((∃ j, e.maxRate < |w j|) → ∃ j, |g.strainRate j| = e.maxRate) := by
  obtain ⟨_, _, _, f, b, hs, hadv, _⟩ := action_ok h
  have hf : f.maxRate = e.maxRate ∧ f.progress = e.progress ∧ f.nSteps = e.nSteps := by
    unfold Eng.start at hs
    split_ifs at hs
    · rcases hb : based e.setup.paths e.setup.pe with b' | _ | _
      · rw [hb, Res.bind_ok] at hs; cases hs; exact ⟨rfl, rfl, rfl⟩
      · rw [hb] at hs; simp at hs
      · rw [hb] at hs; simp at hs
    · cases hs; exact ⟨rfl, rfl, rfl⟩
  obtain ⟨u, hu, hu1, hu2, hu3⟩ : ∃ u : Eng, g = u.finish ∧ u.maxRate = f.maxRate ∧ u.progress = f.progress ∧ u.nSteps = f.nSteps := by
    unfold Eng.advance at hadv
    rcases hc : (gather 0 fun j => count f.progress (f.paths j) (f.counter j)) with cs | _ | _
    · rw [hc, Res.bind_ok] at hadv
      rcases hr : (gather 0 fun j => rate f.progress f.nSteps i.dt (if j ∈ f.ps then f.stressGoal j else f.strainGoal j) (f.paths j) (cs j)) with rs | _ | _
      · rw [hr, Res.bind_ok] at hadv; cases hadv; exact ⟨_, rfl, rfl, rfl, rfl⟩
      · rw [hr] at hadv; simp at hadv
      · rw [hr] at hadv; simp at hadv
    · rw [hc] at hadv; simp at hadv
    · rw [hc] at hadv; simp at hadv
  have hmr : u.maxRate = e.maxRate := by rw [hu1, hf.1]
  have hc : 0 ≤ u.corr ∧ u.corr ≤ 1 := by
    unfold Eng.corr
    split_ifs with ht
    · have : 0 < top u.strainRate := lt_of_le_of_lt (by rw [hmr]; exact h0) ht
      exact ⟨div_nonneg (by rw [hmr]; exact h0) this.le, by rw [div_le_one this]; exact ht.le⟩
    · exact ⟨zero_le_one, le_rfl⟩
  have hg : ∀ j, g.strainRate j = u.strainRate j * u.corr := fun j => by rw [hu]; rfl
  refine ⟨fun j => ?_, u.corr, u.strainRate, hc.1, hc.2, hg, ?_, fun hw => ?_, ?_⟩
  · rw [hg, abs_mul, abs_of_nonneg hc.1]
    unfold Eng.corr
    split_ifs with ht
    · have hp : 0 < top u.strainRate := lt_of_le_of_lt (by rw [hmr]; exact h0) ht
      rw [mul_div_assoc', div_le_iff₀ hp, hmr, mul_comm]
      exact mul_le_mul_of_nonneg_left (le_top _ j) h0
    · rw [mul_one, ← hmr]
      exact le_trans (le_top _ j) (not_lt.1 ht)
  · rw [hu]; show u.progress + u.corr / u.nSteps = _
    rw [hu2, hu3, hf.2.1, hf.2.2]
  · exact corr_one fun j => by rw [hmr]; exact hw j
  · rintro ⟨j, hj⟩
    have ht : top u.strainRate > u.maxRate := lt_of_lt_of_le (by rw [hmr]; exact hj) (le_top _ j)
    have hp : 0 < top u.strainRate := lt_of_le_of_lt (by rw [hmr]; exact h0) ht
    obtain ⟨q, _, hq⟩ := Finset.exists_mem_eq_sup' (Finset.univ_nonempty (α := Fin 6)) fun i => |u.strainRate i|
    have hq' : top u.strainRate = |u.strainRate q| := hq
    refine ⟨q, ?_⟩
    rw [hg, abs_mul, abs_of_nonneg hc.1, ← hq']
    unfold Eng.corr; rw [if_pos ht, hmr]; field_simp

end Verif.P3d
