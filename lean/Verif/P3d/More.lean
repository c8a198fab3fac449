import Verif.P3d.Cell

/-! # C254-C258: ends, stresses, and what does not hold -/
namespace Verif.P3d

theorem start_same {e f : Eng} {b : Bool} (h : e.start = .ok (f, b)) : f.maxRate = e.maxRate ∧ f.progress = e.progress ∧ f.nSteps = e.nSteps ∧ f.maxStrain = e.maxStrain ∧
    f.hook = e.hook ∧ f.dead = e.dead := by
  unfold Eng.start at h
  split_ifs at h
  · rcases hb : based e.setup.paths e.setup.pe with b' | _ | _
    · rw [hb, Res.bind_ok] at h; cases h; exact ⟨rfl, rfl, rfl, rfl, rfl, rfl⟩
    · rw [hb] at h; simp at h
    · rw [hb] at h; simp at h
  · cases h; exact ⟨rfl, rfl, rfl, rfl, rfl, rfl⟩

theorem advance_ok {f g : Eng} {b : Bool} {i : Inp} (h : f.advance b i = .ok g) :
    ∃ cs rs, (∀ j, count f.progress (f.paths j) (f.counter j) = .ok (cs j)) ∧ g = ((f.update i.dt i.sig cs rs).control b i.dt).finish := by
  unfold Eng.advance at h
  by_cases hc : ∀ j, count f.progress (f.paths j) (f.counter j) ≠ .ub
  · rw [gather, if_pos hc, Res.bind_ok] at h
    rcases hr : (gather 0 fun j => rate f.progress f.nSteps i.dt (if j ∈ f.ps then f.stressGoal j else f.strainGoal j) (f.paths j)
      (val 0 (count f.progress (f.paths j) (f.counter j)))) with rs | _ | _
    · rw [hr, Res.bind_ok] at h
      refine ⟨_, rs, fun j => ?_, (Res.ok.inj h).symm⟩
      have := hc j
      unfold count at this ⊢
      split_ifs at this ⊢ <;> first | rfl | exact absurd rfl this
    · rw [hr] at h; simp at h
    · rw [hr] at h; simp at h
  · rw [gather, if_neg hc] at h; simp at h

/-- **C257**: without hook the engine stops exactly when the steps are done or a strain is too large, and with a hook it is not stopped. -/
theorem C257_end_partial {e g : Eng} {i : Inp} {m : M3} (h : e.action i = .ok (g, m)) (hd : e.dead = false) :
    g.dead = true ↔ (1 ≤ g.progress ∨ ∃ j, e.maxStrain < |g.strain j|) ∧ e.hook = false := by
  obtain ⟨_, _, _, f, b, hs, hadv, _⟩ := action_ok h
  obtain ⟨_, _, _, s4, s5, s6⟩ := start_same hs
  obtain ⟨cs, rs, _, rfl⟩ := advance_ok hadv
  have htop : ∀ v : V6, top v > e.maxStrain ↔ ∃ j, e.maxStrain < |v j| := by
    intro v; rw [gt_iff_lt, ← not_le, top_le]; push Not; rfl
  rw [← htop]
  generalize hu : (f.update i.dt i.sig cs rs).control b i.dt = u
  have h1 : u.maxStrain = e.maxStrain := by rw [← hu]; exact s4
  have h2 : u.hook = e.hook := by rw [← hu]; exact s5
  have h3 : u.dead = false := by rw [← hu, ← hd]; exact s6
  have hgd : u.finish.dead = if (u.finish.progress ≥ 1 ∨ top u.finish.strain > e.maxStrain) ∧ e.hook = false then true else false := by
    unfold Eng.finish; dsimp only; rw [h1, h2, h3]
  rw [hgd]
  split_ifs with hh
  · exact ⟨fun _ => hh, fun _ => rfl⟩
  · exact ⟨fun h => absurd h (by simp), fun h => absurd h hh⟩

/-- If all paths have two points, the step after the last one works. -/
theorem after_ok {a f : Eng} {n : Fin 6 → ℕ → ℕ} {k : ℕ} (ha : Fits a n) (h2 : ∀ j, 2 ≤ (a.paths j).length) (h : Even a k f) (hk : (k : ℤ) = a.nSteps) (i : Inp)
    (hdt : 0 < i.dt) (hdet : i.trsf.det ≠ 0) : ∃ g m, f.action i = .ok (g, m) := by
  have hN : (0 : ℝ) < a.nSteps := by exact_mod_cast ha.steps
  have hkz : 0 < k := by have := ha.steps; omega
  obtain ⟨_, hi⟩ := (h.inv ha hk.le).resolve_left (by rintro ⟨h, _⟩; omega)
  have hp : f.progress = 1 := by
    rw [hi.progress]
    have : (k : ℝ) = a.nSteps := by exact_mod_cast hk
    rw [this, div_self hN.ne']
  have hc : ∀ j, ∃ q, count f.progress (f.paths j) (f.counter j) = .ok q := by
    intro j
    have := (hi.track j).part
    unfold count
    rw [if_pos (by rw [hi.paths j]; exact this)]
    exact ⟨_, rfl⟩
  choose cs hcs using hc
  have hr : ∀ j, ∃ q, rate f.progress f.nSteps i.dt (if j ∈ f.ps then f.stressGoal j else f.strainGoal j) (f.paths j) (cs j) = .ok q := by
    intro j
    unfold rate
    rw [if_neg (by rw [hi.paths, scale_len]; have := h2 j; omega), if_neg (show ¬ f.progress < 1 by rw [hp]; exact lt_irrefl _)]
    split_ifs
    · exact ⟨_, rfl⟩
    · exact ⟨_, rfl⟩
  choose rs hrs using hr
  refine ⟨((f.update i.dt i.sig cs rs).control false i.dt).finish,
    velGrad i.dt ((f.update i.dt i.sig cs rs).control false i.dt).finish.strainRate i.trsf i.rot i.nonrot, ?_⟩
  · unfold Eng.action
    rw [if_neg (by push Not; exact ⟨hdt, by rw [hi.steps]; exact ha.steps, hdet⟩)]
    unfold Eng.start
    rw [if_neg (by rw [hp]; norm_num), Res.bind_ok]
    dsimp only
    unfold Eng.advance
    rw [gather_ok 0 _ cs hcs, Res.bind_ok, gather_ok 0 _ rs hrs, Res.bind_ok, Res.bind_ok]

/-- With a hook which lets the engine go on, it reads beyond the end of paths in the second step after the last one. -/
theorem C257_violated_hook {a f g : Eng} {n : Fin 6 → ℕ → ℕ} {k : ℕ} {i : Inp} {m : M3} (ha : Fits a n) (h0 : 0 ≤ a.maxRate) (h : Even a k f)
    (hk : (k : ℤ) = a.nSteps) (h1 : f.action i = .ok (g, m)) (i' : Inp) : g.action i' = .ub := by
  have hN : (0 : ℝ) < a.nSteps := by exact_mod_cast ha.steps
  have hkz : 0 < k := by have := ha.steps; omega
  obtain ⟨_, hi⟩ := (h.inv ha hk.le).resolve_left (by rintro ⟨h, _⟩; omega)
  have hp : f.progress = 1 := by
    rw [hi.progress]
    have : (k : ℝ) = a.nSteps := by exact_mod_cast hk
    rw [this, div_self hN.ne']
  have hl := C255_limit_partial h1 (by rw [hi.maxRate]; exact h0)
  obtain ⟨_, c, w, c0, _, _, hgp, _, _⟩ := hl
  obtain ⟨_, hn, _, f', b, hs, hadv, _⟩ := action_ok h1
  have hff : f' = f ∧ b = false := by
    unfold Eng.start at hs
    rw [if_neg (by rw [hp]; norm_num)] at hs
    cases hs; exact ⟨rfl, rfl⟩
  obtain ⟨rfl, rfl⟩ := hff
  obtain ⟨cs, rs, hcs, hg⟩ := advance_ok hadv
  have ht := hi.track 0
  have hgood := ha.good 0
  have hcl : f'.counter 0 + 1 = (f'.paths 0).length := by
    rw [hi.paths 0]
    have h1 := ht.part
    have h2 := ht.hi
    have h3 := knot_last hgood
    by_contra hne
    have := knot_strict hgood (i := f'.counter 0 + 1) (j := (scale (a.goal 0) (a.paths 0)).length) (by omega) le_rfl
    omega
  have htime : ((f'.paths 0).getD (f'.counter 0) (0, 0)).1 ≤ 1 := by
    rw [hi.paths 0]
    have h1 := hgood.time _ ht.part
    have h2 := hgood.last
    have h3 := ht.part
    rw [hi.paths 0] at hcl
    have h4 : (scale (a.goal 0) (a.paths 0)).length - 1 = f'.counter 0 := by omega
    rw [h4] at h2
    have : ((n 0 (f'.counter 0) : ℕ) : ℝ) = a.nSteps := by exact_mod_cast h2
    rw [this] at h1
    have := mul_right_cancel₀ hN.ne' (h1.trans (one_mul _).symm)
    exact this.le
  have hc0 : cs 0 = (f'.paths 0).length := by
    have := hcs 0
    unfold count at this
    rw [if_pos (by omega), if_pos (by rw [hp]; exact htime)] at this
    rw [← Res.ok.inj this, hcl]
  have hgc : g.counter 0 = (g.paths 0).length := by rw [hg]; exact hc0
  have hg0 : g.progress ≠ 0 := by
    have : (0 : ℝ) < f'.nSteps := by exact_mod_cast hn
    have : 0 ≤ c / f'.nSteps := div_nonneg c0 this.le
    rw [hgp, hp]; linarith
  unfold Eng.action
  split_ifs
  · rfl
  · unfold Eng.start
    rw [if_neg hg0, Res.bind_ok]
    dsimp only
    unfold Eng.advance
    rw [gather, if_neg]
    · rfl
    · intro hall
      exact hall 0 (by unfold count; rw [if_neg (by omega)])

/-- What was recorded: the strain changes by the rate of the path, whatever was applied. -/
theorem C255_violated_record {a g : Eng} {n : Fin 6 → ℕ → ℕ} {i : Inp} {m : M3} (ha : Fits a n) (h0 : 0 ≤ a.maxRate) (j : Fin 6) (hm : a.mask j = false)
    (hlim : a.maxRate * i.dt < |wanted (a.paths j) (a.goal j) 1 / stepOf (n j) 1|) (h : a.action i = .ok (g, m)) :
    g.strain j = wanted (a.paths j) (a.goal j) 1 / stepOf (n j) 1 ∧ g.strain j ≠ a.strain j + g.strainRate j * i.dt := by
  have hl := (C255_limit_partial h h0).1 j
  obtain ⟨hdt, hn, _, f, b, hs, hadv, _⟩ := action_ok h
  obtain ⟨hi, _⟩ := start_inv ha (.inl ⟨rfl, rfl⟩) hs
  obtain ⟨g', u, c, x1, x2, x3, x4, x5⟩ := hi.advance ha (by have := ha.steps; push_cast; exact this) b i hdt
  rw [x1] at hadv
  cases hadv
  have hz : a.strain j = 0 := by have := ha.zero j; rw [hm] at this; simpa using this
  have hlen := List.length_pos_iff.2 (ha.ne j)
  have hs1 : g.strain j = wanted (a.paths j) (a.goal j) 1 / stepOf (n j) 1 := by
    have ht := track_path ha j (x5 j)
    rw [hm] at ht
    have h1 := (ha.good j).pos
    have := ht 0 hlen (by simp [stepOf]) (by simp only [stepOf]; simp; omega)
    simp only [Bool.false_eq_true, if_false] at this
    rw [this]; simp [wanted, stepOf]
  refine ⟨hs1, fun heq => ?_⟩
  rw [hz, zero_add, hs1] at heq
  rw [heq, abs_mul, abs_of_pos hdt] at hlim
  have := mul_le_mul_of_nonneg_right hl hdt.le
  linarith

/-- **C258 (partial).** Where a stress is prescribed, the error of the next step is extrapolated from those of this one and the one before; the
strain rate is lowered if it is positive and raised otherwise, by a share of the greatest rate; afterwards all are reduced if the limit acts. -/
theorem C258_predict_partial {e g : Eng} {i : Inp} {m : M3} (h : e.action i = .ok (g, m)) (hp : e.progress ≠ 0) (h0 : 0 ≤ e.maxRate) :
    ∃ (c M : ℝ) (w : V6), 0 ≤ c ∧ c ≤ 1 ∧ (∀ j ∈ e.pe, g.strain j = e.strain j + w j * i.dt) ∧ (∀ j, j ∉ e.pe → w j = e.strainRate j) ∧
      IsGreatest (Set.range fun j => |w j|) M ∧ ∀ j ∈ e.ps, j ∉ e.pe → g.stress j = i.sig j ∧
      g.strainRate j = c * (if 0 < 2 * (g.stress j - g.stressIdeal j) - (e.stress j - e.stressIdeal j) then e.strainRate j - M * e.mod else e.strainRate j + M * e.mod) := by
  obtain ⟨hdt, hn, _, f, b, hs, hadv, _⟩ := action_ok h
  have hff : f = e ∧ b = false := by
    unfold Eng.start at hs
    rw [if_neg hp] at hs
    cases hs; exact ⟨rfl, rfl⟩
  obtain ⟨rfl, rfl⟩ := hff
  obtain ⟨cs, rs, hcs, hg⟩ := advance_ok hadv
  generalize hv : f.update i.dt i.sig cs rs = v at hg
  have hvp : ∀ j ∈ f.ps, j ∉ f.pe → v.strainRate j = f.strainRate j := by
    intro j _ hj; rw [← hv]; simp [Eng.update, hj]
  have hmr : (v.control false i.dt).maxRate = f.maxRate := by rw [← hv]; rfl
  have hc : 0 ≤ (v.control false i.dt).corr ∧ (v.control false i.dt).corr ≤ 1 := by
    unfold Eng.corr
    split_ifs with ht
    · have : 0 < top (v.control false i.dt).strainRate := lt_of_le_of_lt (by rw [hmr]; exact h0) ht
      exact ⟨div_nonneg (by rw [hmr]; exact h0) this.le, by rw [div_le_one this]; exact ht.le⟩
    · exact ⟨zero_le_one, le_rfl⟩
  refine ⟨(v.control false i.dt).corr, top v.strainRate, v.strainRate, hc.1, hc.2, fun j hj => ?_, fun j hj => ?_, ⟨?_, ?_⟩, fun j hj hj' => ?_⟩
  · rw [hg, ← hv]; simp [Eng.update, Eng.control, Eng.finish, hj]
  · rw [← hv]; simp [Eng.update, hj]
  · obtain ⟨q, _, hq⟩ := Finset.exists_mem_eq_sup' (Finset.univ_nonempty (α := Fin 6)) fun i => |v.strainRate i|
    exact ⟨q, hq.symm⟩
  · rintro _ ⟨q, rfl⟩; exact le_top _ q
  · have hps : v.ps = f.ps := by rw [← hv]; rfl
    have hne : v.ps ≠ [] := by rw [hps]; exact List.ne_nil_of_mem hj
    have hgr : g.strainRate j = (v.control false i.dt).strainRate j * (v.control false i.dt).corr := by rw [hg]; rfl
    have hgs : g.stress j = v.stress j := by rw [hg]; rfl
    have hgi : g.stressIdeal j = v.stressIdeal j := by rw [hg]; rfl
    have hold : v.stressOld j = f.stress j := by rw [← hv]; rfl
    have hid : v.stressIdeal j - v.stressRate j * i.dt = f.stressIdeal j := by rw [← hv]; simp [Eng.update]
    have hmod : v.mod = f.mod := by rw [← hv]; rfl
    have hctl : (v.control false i.dt).strainRate j = v.predict i.dt j := by
      unfold Eng.control; dsimp only; rw [if_neg hne, if_neg (by simp)]
    refine ⟨by rw [hgs, ← hv]; rfl, ?_⟩
    rw [hgr, hctl, mul_comm, hgs, hgi]
    congr 1
    unfold Eng.predict
    rw [if_pos (by rw [hps]; exact hj), hid, hold, hvp j hj hj', hmod]

theorem control_zero {v : Eng} {b : Bool} {dt : ℝ} (h1 : v.strainRate = 0) (h2 : ∀ j ∈ v.ps, v.stressRate j = 0) (h3 : v.ps ≠ []) (h4 : ∀ k, v.ps.getD k 0 ∈ v.ps) :
    (v.control b dt).strainRate = 0 := by
  have ht : top v.strainRate = 0 := le_antisymm ((top_le _ _).2 fun j => by rw [h1]; simp) (top_nonneg _)
  unfold Eng.control
  dsimp only
  rw [if_neg h3]
  split_ifs
  · funext j
    unfold Eng.estimate
    split_ifs
    · have e1 : (v.ps.map fun k => v.compliance j k * v.stressRate k) = v.ps.map fun _ => (0 : ℝ) := by
        apply List.map_congr_left; intro k hk; rw [h2 k hk, mul_zero]
      have e2 : ((List.range v.pe.length).map fun k : ℕ => v.compliance j (v.ps.getD k 0) * v.stressRate (v.ps.getD k 0)) = (List.range v.pe.length).map fun _ => (0 : ℝ) := by
        apply List.map_congr_left; intro k _; rw [h2 _ (h4 k), mul_zero]
      rw [e1, e2]; simp
    · rw [h1]
  · funext j
    unfold Eng.predict
    rw [ht, h1]; simp

theorem zero_step {a e f' u : Eng} {n : Fin 6 → ℕ → ℕ} {k : ℕ} {b : Bool} {i : Inp} {c : Fin 6 → ℕ} (ha : Fits a n) (hm : ∀ j, a.mask j = true) (hg : a.goal = 0)
    (ih : e.strainRate = 0) (hs : e.start = .ok (f', b)) (hi : Inv a n k f')
    (x3 : u = (f'.update i.dt i.sig c fun j => slope a n j (c j) / i.dt).control b i.dt) : u.strainRate = 0 := by
  have hf0 : f'.strainRate = 0 := by
    rw [← ih]
    unfold Eng.start at hs
    split_ifs at hs
    · rcases hb : based e.setup.paths e.setup.pe with b' | _ | _
      · rw [hb, Res.bind_ok] at hs; cases hs; rfl
      · rw [hb] at hs; simp at hs
      · rw [hb] at hs; simp at hs
    · cases hs; rfl
  have hlev : ∀ j q, level (scale (a.goal j) (a.paths j)) q = 0 := by
    intro j q
    unfold level
    split_ifs
    · rfl
    · by_cases hq : q - 1 < (a.paths j).length
      · rw [scale_get _ _ hq (ha.last j), hg]; simp
      · rw [List.getD_eq_getElem?_getD, List.getElem?_eq_none (by rw [scale_len]; omega)]; rfl
  have hsl : ∀ j q, slope a n j q = 0 := by intro j q; unfold slope; rw [hlev, hlev]; simp
  have hall : ∀ j, j ∈ f'.ps := fun j => (hi.ps j).2 (hm j)
  rw [x3]
  refine control_zero ?_ ?_ (List.ne_nil_of_mem (hall 0)) fun k => hall _
  · funext j
    show (if j ∈ f'.pe then _ else f'.strainRate j) = _
    rw [if_neg fun hj => by have := (hi.pe j).1 hj; rw [hm j] at this; cases this]
    rw [hf0]
  · intro j hj
    show (if j ∈ f'.ps then slope a n j (c j) / i.dt else f'.stressRate j) = _
    rw [if_pos (hall j), hsl, zero_div]

/-- All stresses prescribed with goals of zero: the cell is never deformed, whatever its stress is. -/
theorem C258_violated_zero {a f : Eng} {n : Fin 6 → ℕ → ℕ} {k : ℕ} (ha : Fits a n) (hm : ∀ j, a.mask j = true) (hg : a.goal = 0) (hr : a.strainRate = 0)
    (h : Even a k f) (hk : (k : ℤ) ≤ a.nSteps) : f.strainRate = 0 := by
  induction h with
  | zero => exact hr
  | @succ e g k i m h hd h1 h2 ih =>
    have ih := ih (by push_cast at hk; omega)
    obtain ⟨hdt, _, _, f', b, hs, hadv, _⟩ := action_ok h1
    obtain ⟨hi, _, _, _⟩ := start_inv ha (h.inv ha (by push_cast at hk; omega)) hs
    obtain ⟨g', u, c, x1, x2, x3, _, _⟩ := hi.advance ha (by push_cast at hk; omega) b i hdt
    rw [x1] at hadv
    cases hadv
    have hu : u.strainRate = 0 := zero_step ha hm hg ih hs hi x3
    rw [x2]
    funext j
    show u.strainRate j * u.corr = 0
    rw [hu]; simp

/-- With goals of zero, steps do not fail, and the limit does not act. -/
theorem C258_zero_steps {a f : Eng} {n : Fin 6 → ℕ → ℕ} {k : ℕ} (ha : Fits a n) (hm : ∀ j, a.mask j = true) (hg : a.goal = 0) (hr : a.strainRate = 0) (h0 : 0 ≤ a.maxRate)
    (h : Even a k f) (hk : (k : ℤ) < a.nSteps) (hd : f.dead = false) (i : Inp) (hdt : 0 < i.dt) (hdet : i.trsf.det ≠ 0) :
    ∃ g m, f.action i = .ok (g, m) ∧ Even a (k + 1) g := by
  have he := h.inv ha hk.le
  obtain ⟨f', b, hs⟩ := even_start ha (fun j hj => by rw [hm j] at hj; cases hj) he
  obtain ⟨hi, e1, e2, e3⟩ := start_inv ha he hs
  obtain ⟨g, u, c, x1, x2, x3, _, _⟩ := hi.advance ha hk b i hdt
  have hNz : (0 : ℤ) < f.nSteps := by rw [← e2, hi.steps]; exact ha.steps
  have hact : f.action i = .ok (g, velGrad i.dt g.strainRate i.trsf i.rot i.nonrot) := by
    unfold Eng.action
    rw [if_neg (by push Not; exact ⟨hdt, hNz, hdet⟩), hs, Res.bind_ok]
    dsimp only
    rw [x1, Res.bind_ok]
  refine ⟨g, _, hact, .succ h hd hact ?_⟩
  have hu : u.strainRate = 0 := zero_step ha hm hg (C258_violated_zero ha hm hg hr h hk.le) hs hi x3
  have hc : u.corr = 1 := corr_one fun j => by
    have hmx : u.maxRate = a.maxRate := by rw [x3]; exact hi.maxRate
    rw [hu, hmx]; simpa using h0
  rw [x2]
  show u.progress + u.corr / u.nSteps = _
  rw [hc, x3, ← e1, ← e2]; rfl

/-- Half of the components prescribed as stresses: the first rates are twice those of the elastic material. -/
theorem C258_violated_estimate (e : Eng) (h1 : e.ps = [0, 1, 2]) (h2 : e.pe = [3, 4, 5]) :
    e.estimate 0 = 2 * ((e.stressRate 0 - e.poisson * e.stressRate 1 - e.poisson * e.stressRate 2) / e.young) := by
  unfold Eng.estimate
  rw [h1, h2]
  simp [Eng.compliance, List.range_succ]
  ring

end Verif.P3d
