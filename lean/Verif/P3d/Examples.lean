import Verif.P3d.More

/-! # C254-C258: cases which meet the hypotheses, and points between steps -/
namespace Verif.P3d

/-- Two steps, to a strain of three in the first direction, one third of it in the first step. -/
noncomputable def exA : Eng := { Eng.new with nSteps := 2, goal := fun j => if j = 0 then 3 else 0, paths := fun _ => [(1, 1), (2, 3)] }

def exN : Fin 6 → ℕ → ℕ := fun _ i => i + 1

theorem fits_of {a : Eng} (h1 : a.progress = 0) (h2 : a.nSteps = 2) (h3 : ∀ j, a.paths j = [(1, 1), (2, 3)]) (h4 : a.strain = 0) (h5 : a.stressIdeal = 0) : Fits a exN := by
  refine ⟨h1, by rw [h2]; norm_num, fun j => by rw [h3]; simp, fun j i hi => ?_, fun j => by rw [h3]; simp, fun j i hi => ?_, fun j => by rw [h3]; norm_num, fun j => ?_⟩
  · rw [h3] at hi ⊢
    have : i = 0 := by simp at hi; omega
    subst this; norm_num
  · rw [h3] at hi ⊢
    rw [h2]
    have : i = 0 ∨ i = 1 := by simp at hi; omega
    rcases this with rfl | rfl <;> norm_num [exN]
  · rw [h4, h5]; simp

theorem exA_fits : Fits exA exN := fits_of rfl rfl (fun _ => rfl) rfl rfl

theorem exA_slopes (m d : ℝ) (h : 2 ≤ m * d) (j : Fin 6) (c : ℕ) (hc : c < (exA.paths j).length) :
    |(wanted (exA.paths j) (exA.goal j) (c + 1) - wanted (exA.paths j) (exA.goal j) c) / ((stepOf (exN j) (c + 1) : ℝ) - stepOf (exN j) c)| ≤ m * d := by
  have : c = 0 ∨ c = 1 := by
    have : c < 2 := hc
    omega
  by_cases hj : j = 0
  · rcases this with rfl | rfl <;> simp [wanted, stepOf, exN, exA, hj] <;> norm_num <;> linarith
  · rcases this with rfl | rfl <;> simp [wanted, stepOf, exN, exA, hj] <;> linarith

/-- A step of one, a cell which is not deformed. -/
noncomputable def exI : Inp := { sig := 0, trsf := 1, rot := 1, nonrot := 1, dt := 1 }

theorem exI_det : exI.trsf.det ≠ 0 := by simp [exI]

/-- Both steps of the example. -/
theorem exA_run : ∃ f g : Eng, Even exA 1 f ∧ f.dead = false ∧ f.strain 0 = 1 ∧ Even exA 2 g ∧ g.dead = true ∧ g.strain 0 = 3 := by
  have hmax : exA.maxRate = 1000 := by norm_num [exA, Eng.new]
  have hms : exA.maxStrain = 1000000 := by norm_num [exA, Eng.new]
  have hs := exA_slopes exA.maxRate 1 (by rw [hmax]; norm_num)
  obtain ⟨f, m, hf, hE, hst, hd⟩ := C254_steps_partial exA_fits (fun _ => rfl) (fun j => by simp [exA]) hs (.zero exA) (by norm_num [exA]) rfl exI rfl one_pos exI_det
  have p1 := fun j => C254_path_partial exA_fits hE (by norm_num [exA]) j 0 (by simp [exA]) (by simp [stepOf]) (by simp [stepOf, exN])
  have v1 : f.strain 0 = 1 := by
    have := p1 0
    simp [exA, Eng.new, wanted, stepOf, exN] at this
    rw [this]
  have v2 : ∀ j, |f.strain j| ≤ 1 := by
    intro j
    by_cases hj : j = 0
    · rw [hj, v1]; norm_num
    · have := p1 j
      simp [exA, Eng.new, wanted, stepOf, exN, hj] at this
      rw [this]; norm_num
  have hfd : f.dead = false := by
    rcases hb : f.dead with _ | _
    · rfl
    · rcases (hd.1 hb).1 with h | ⟨j, h⟩
      · norm_num [exA] at h
      · rw [hms] at h; have := v2 j; linarith
  obtain ⟨g, m', hg, hE', _, hd'⟩ := C254_steps_partial exA_fits (fun _ => rfl) (fun j => by simp [exA]) hs hE (by norm_num [exA]) hfd exI rfl one_pos exI_det
  refine ⟨f, g, hE, hfd, v1, hE', hd'.2 ⟨.inl (by norm_num [exA]), rfl⟩, ?_⟩
  have := C254_goal_partial exA_fits hE' (by norm_num [exA]) 0
  simpa [exA, Eng.new] using this

/-- The example of C254. -/
example : ∃ g : Eng, Even exA 2 g ∧ (if exA.mask 0 then g.stressIdeal 0 else g.strain 0) = exA.goal 0 := by
  obtain ⟨_, g, _, _, _, h, _⟩ := exA_run
  exact ⟨g, h, C254_goal_partial exA_fits h (by norm_num [exA]) 0⟩

/-- Defaults with a goal: undefined. -/
example : ({ Eng.new with goal := fun _ => 1 } : Eng).action exI = .ub := C254_violated_default _ rfl (fun _ => rfl) 0 rfl exI

/-- A first step which works. -/
theorem first_ok {a : Eng} {n : Fin 6 → ℕ → ℕ} (ha : Fits a n) (h2 : ∀ j, a.mask j = false → 2 ≤ (a.paths j).length) (i : Inp) (hdt : 0 < i.dt) (hdet : i.trsf.det ≠ 0) :
    ∃ g m, a.action i = .ok (g, m) := by
  obtain ⟨f, b, hs⟩ := even_start ha h2 (.inl ⟨rfl, rfl⟩)
  obtain ⟨hi, _⟩ := start_inv ha (.inl ⟨rfl, rfl⟩) hs
  obtain ⟨g, _, _, x1, _⟩ := hi.advance ha (by have := ha.steps; push_cast; exact this) b i hdt
  refine ⟨g, velGrad i.dt g.strainRate i.trsf i.rot i.nonrot, ?_⟩
  unfold Eng.action
  rw [if_neg (by push Not; exact ⟨hdt, ha.steps, hdet⟩), hs, Res.bind_ok]
  dsimp only
  rw [x1, Res.bind_ok]

/-- A limit of one half. -/
noncomputable def exB : Eng := { exA with maxRate := 1 / 2 }

/-- The example of C255: the rate is at most one half, but a strain of one is recorded. -/
example : ∃ g m, exB.action exI = .ok (g, m) ∧ |g.strainRate 0| ≤ 1 / 2 ∧ g.strain 0 = 1 := by
  have hf : Fits exB exN := fits_of rfl rfl (fun _ => rfl) rfl rfl
  obtain ⟨g, m, h⟩ := first_ok hf (fun j _ => by simp [exB, exA]) exI one_pos exI_det
  have hw : wanted (exB.paths 0) (exB.goal 0) 1 / stepOf (exN 0) 1 = 1 := by simp [wanted, stepOf, exN, exB, exA]
  refine ⟨g, m, h, (C255_limit_partial h (by norm_num [exB])).1 0, ?_⟩
  have := (C255_violated_record hf (by norm_num [exB]) 0 rfl (by rw [hw]; norm_num [exB, exI]) h).1
  rw [this, hw]

/-- The example of C256: one step of the cell. -/
example : ∃ f t, Both exA 1 f t ∧ t = 1 + tensor f.strain := by
  have hmax : exA.maxRate = 1000 := by norm_num [exA, Eng.new]
  have hs := exA_slopes exA.maxRate 1 (by rw [hmax]; norm_num)
  obtain ⟨f, m, hf, hE, _, _⟩ := C254_steps_partial exA_fits (fun _ => rfl) (fun j => by simp [exA]) hs (.zero exA) (by norm_num [exA]) rfl exI rfl one_pos exI_det
  have hp : Polar exI.trsf exI.rot exI.nonrot := ⟨by simp [exI], by simp [exI], Matrix.PosSemidef.one⟩
  have h2 : f.progress = exA.progress + 1 / exA.nSteps := by
    have := (hE.inv exA_fits (by norm_num [exA])).resolve_left (by rintro ⟨h, _⟩; omega)
    rw [this.2.progress]; simp [exA, Eng.new]
  have hb : Both exA 1 f (1 + exI.dt • m * 1) := .succ (.zero exA) rfl rfl Matrix.PosDef.one hp hf h2
  exact ⟨f, _, hb, (C256_strain_partial exA_fits (fun _ => rfl) hb (by norm_num [exA])).1⟩

/-- With a hook. -/
noncomputable def exH : Eng := { exA with hook := true }

/-- The example of C257: the third step works, the fourth one is undefined. -/
example : ∃ f g m, Even exH 2 f ∧ f.action exI = .ok (g, m) ∧ g.action exI = .ub := by
  have hf : Fits exH exN := fits_of rfl rfl (fun _ => rfl) rfl rfl
  have hmax : exH.maxRate = 1000 := by norm_num [exH, exA, Eng.new]
  have hs := exA_slopes exH.maxRate 1 (by rw [hmax]; norm_num)
  obtain ⟨f, m, _, hE, _, hd⟩ := C254_steps_partial hf (fun _ => rfl) (fun j => by simp [exH, exA]) hs (.zero exH) (by norm_num [exH, exA]) rfl exI rfl one_pos exI_det
  have hfd : f.dead = false := by
    rcases hb : f.dead with _ | _
    · rfl
    · have := (hd.1 hb).2; cases this
  obtain ⟨f2, m2, _, hE2, _, _⟩ := C254_steps_partial hf (fun _ => rfl) (fun j => by simp [exH, exA]) hs hE (by norm_num [exH, exA]) hfd exI rfl one_pos exI_det
  obtain ⟨g, m, h⟩ := after_ok hf (fun j => by simp [exH, exA]) hE2 (by norm_num [exH, exA]) exI one_pos exI_det
  exact ⟨f2, g, m, hE2, h, C257_violated_hook hf (by rw [hmax]; norm_num) hE2 (by norm_num [exH, exA]) h exI⟩

/-- All stresses, goals of zero. -/
noncomputable def exZ : Eng := { exA with mask := fun _ => true, goal := 0 }

/-- The example of C258: any stress, no deformation. -/
example (s : V6) : ∃ f, Even exZ 1 f ∧ f.strainRate = 0 := by
  have hf : Fits exZ exN := fits_of rfl rfl (fun _ => rfl) rfl rfl
  have hmax : exZ.maxRate = 1000 := by norm_num [exZ, exA, Eng.new]
  obtain ⟨g, m, h, hE⟩ := C258_zero_steps hf (fun _ => rfl) rfl rfl (by rw [hmax]; norm_num) (.zero exZ) (by norm_num [exZ, exA]) rfl { exI with sig := s } one_pos exI_det
  exact ⟨g, hE, C258_violated_zero hf (fun _ => rfl) rfl rfl hE (by norm_num [exZ, exA])⟩

/-- The example of C258: the second step, with all stresses prescribed. -/
example (s : V6) : ∃ f g m c M, Even exZ 1 f ∧ f.action { exI with sig := s } = .ok (g, m) ∧
    g.strainRate 0 = c * (if 0 < 2 * (g.stress 0 - g.stressIdeal 0) - (f.stress 0 - f.stressIdeal 0) then f.strainRate 0 - M * f.mod else f.strainRate 0 + M * f.mod) := by
  have hf : Fits exZ exN := fits_of rfl rfl (fun _ => rfl) rfl rfl
  have hmax : exZ.maxRate = 1000 := by norm_num [exZ, exA, Eng.new]
  have hms : exZ.maxStrain = 1000000 := by norm_num [exZ, exA, Eng.new]
  obtain ⟨f, m, h, hE⟩ := C258_zero_steps hf (fun _ => rfl) rfl rfl (by rw [hmax]; norm_num) (.zero exZ) (by norm_num [exZ, exA]) rfl { exI with sig := s } one_pos exI_det
  obtain ⟨_, hi⟩ := (hE.inv hf (by norm_num [exZ, exA])).resolve_left (by rintro ⟨h, _⟩; omega)
  have hp : f.progress = 1 / 2 := by rw [hi.progress]; norm_num [exZ, exA]
  have hst : f.strain = 0 := by
    obtain ⟨_, _, _, f', b, hs, hadv, _⟩ := action_ok h
    obtain ⟨hi', _⟩ := start_inv hf (.inl ⟨rfl, rfl⟩) hs
    obtain ⟨cs, rs, _, rfl⟩ := advance_ok hadv
    have h0 : f'.strain = 0 := start_strain hs
    have hr : f'.strainRate = 0 := by
      unfold Eng.start at hs
      rw [if_pos hf.begin_] at hs
      split_ifs at hs
      rcases hb : based exZ.setup.paths exZ.setup.pe with b' | _ | _
      · rw [hb, Res.bind_ok] at hs; cases hs; rfl
      · rw [hb] at hs; simp at hs
      · rw [hb] at hs; simp at hs
    funext j
    have hpe : j ∉ f'.pe := fun hj => by have := (hi'.pe j).1 hj; cases this
    simp [Eng.finish, Eng.control, Eng.update, hpe, h0, hr]
  have hd : f.dead = false := by
    rcases hb : f.dead with _ | _
    · rfl
    · rcases ((C257_end_partial h rfl).1 hb).1 with h | ⟨j, h⟩
      · rw [hp] at h; norm_num at h
      · rw [hst, hms] at h; norm_num at h
  obtain ⟨g, m', h', _⟩ := C258_zero_steps hf (fun _ => rfl) rfl rfl (by rw [hmax]; norm_num) hE (by norm_num [exZ, exA]) hd { exI with sig := s } one_pos exI_det
  obtain ⟨c, M, _, _, _, _, _, _, hall⟩ := C258_predict_partial h' (by rw [hp]; norm_num) (by rw [hi.maxRate, hmax]; norm_num)
  exact ⟨f, g, m', c, M, hE, h', (hall 0 ((hi.ps 0).2 rfl) fun hj => by have := (hi.pe 0).1 hj; cases this).2⟩

/-- The example of C258: the first step with half of the components stresses. -/
example : ({ Eng.new with ps := [0, 1, 2], pe := [3, 4, 5], young := 1, stressRate := fun _ => 1 } : Eng).estimate 0 = 1 := by
  rw [C258_violated_estimate _ rfl rfl]; norm_num [Eng.new]

/-- A path whose first point is between steps: it wants three from a quarter of the steps on. -/
noncomputable def exO : Eng := { Eng.new with nSteps := 2, goal := fun _ => 3, paths := fun _ => [(1 / 4, 1), (1, 1)] }

theorem exO_scale : scale 3 [((1 : ℝ) / 4, (1 : ℝ)), (1, 1)] = [(1 / 4, 3), (1, 3)] := by
  unfold scale; norm_num

theorem exO_paths (j : Fin 6) : exO.setup.paths j = [(1 / 4, 3), (1, 3)] := exO_scale

theorem based_true (p : Fin 6 → List (ℝ × ℝ)) (h : ∀ j, p j = [(1 / 4, 3), (1, 3)]) : ∀ l, based p l = .ok true
  | [] => rfl
  | j :: l => by
    rw [based, h j, if_neg (by simp), if_pos (by norm_num)]
    exact based_true p h l

theorem exO_start : exO.start = .ok (exO.setup, true) := by
  unfold Eng.start
  rw [if_pos (show exO.progress = 0 from rfl), if_neg, if_neg, based_true _ exO_paths, Res.bind_ok]
  · rintro ⟨j, _, h⟩; simp [exO] at h
  · rintro ⟨j, h⟩; simp [exO, increasing] at h; norm_num at h

/-- The path is not followed: after both steps the strain is six. -/
theorem C254_violated_between : ∃ f g m m', exO.action exI = .ok (f, m) ∧ f.action exI = .ok (g, m') ∧ g.progress = 1 ∧ ∀ j, g.strain j = 6 ∧ exO.goal j = 3 := by
  have hpe : ∀ j, j ∈ exO.setup.pe := fun j => by simp [Eng.setup, exO, Eng.new]
  have hps : exO.setup.ps = [] := by simp [Eng.setup, exO, Eng.new]
  have hc1 : (gather 0 fun j => count exO.setup.progress (exO.setup.paths j) (exO.setup.counter j)) = .ok fun _ => 0 := by
    apply gather_ok; intro j
    rw [exO_paths]; unfold count
    simp [Eng.setup, exO, Eng.new]
  have hr1 : (gather 0 fun j => rate exO.setup.progress exO.setup.nSteps exI.dt (if j ∈ exO.setup.ps then exO.setup.stressGoal j else exO.setup.strainGoal j)
      (exO.setup.paths j) 0) = .ok fun _ => 6 := by
    apply gather_ok; intro j
    rw [exO_paths]; unfold rate
    rw [if_neg (by simp), if_pos rfl]
    norm_num [Eng.setup, exO, Eng.new, exI]
  obtain ⟨u, hu⟩ : ∃ u, u = (exO.setup.update exI.dt exI.sig (fun _ => 0) fun _ => 6).control true exI.dt := ⟨_, rfl⟩
  have hus : u.strainRate = fun _ => 6 := by
    funext j; rw [hu]; simp [Eng.control, Eng.update, hps, hpe]
  have hmax : exO.maxRate = 1000 := by norm_num [exO, Eng.new]
  have hc : u.corr = 1 := corr_one fun j => by
    have : u.maxRate = 1000 := by rw [hu]; exact hmax
    rw [this, hus]; norm_num
  have ha : exO.setup.advance true exI = .ok u.finish := by
    unfold Eng.advance; rw [hc1, Res.bind_ok, hr1, Res.bind_ok, hu]
  have hp : u.finish.progress = 1 / 2 := by
    show u.progress + u.corr / u.nSteps = _
    rw [hc, hu]; norm_num [Eng.control, Eng.update, Eng.setup, exO, Eng.new]
  have hpa : ∀ j, u.finish.paths j = [(1 / 4, 3), (1, 3)] := fun j => by rw [hu]; exact exO_paths j
  have hst : ∀ j, u.finish.strain j = 6 := by
    intro j; rw [hu]
    have h0 : exO.setup.strain j = 0 := rfl
    simp [Eng.finish, Eng.control, Eng.update, hpe, h0, exI]
  have hpe' : ∀ j, j ∈ u.finish.pe := fun j => by rw [hu]; exact hpe j
  have hps' : u.finish.ps = [] := by rw [hu]; exact hps
  have hn' : u.finish.nSteps = 2 := by rw [hu]; rfl
  have hc2 : (gather 0 fun j => count u.finish.progress (u.finish.paths j) (u.finish.counter j)) = .ok fun _ => 1 := by
    apply gather_ok; intro j
    have : u.finish.counter j = 0 := by rw [hu]; rfl
    rw [hpa, this, hp]; unfold count
    norm_num
  have hr2 : (gather 0 fun j => rate u.finish.progress u.finish.nSteps exI.dt (if j ∈ u.finish.ps then u.finish.stressGoal j else u.finish.strainGoal j)
      (u.finish.paths j) 1) = .ok fun _ => 0 := by
    apply gather_ok; intro j
    rw [hpa, hp]; unfold rate
    norm_num
  obtain ⟨v, hv⟩ : ∃ v, v = (u.finish.update exI.dt exI.sig (fun _ => 1) fun _ => 0).control false exI.dt := ⟨_, rfl⟩
  have hvs : v.strainRate = fun _ => 0 := by
    funext j; rw [hv]; simp [Eng.control, Eng.update, hps', hpe']
  have hcv : v.corr = 1 := corr_one fun j => by
    have : v.maxRate = 1000 := by rw [hv, hu]; exact hmax
    rw [this, hvs]; norm_num
  have ha2 : u.finish.advance false exI = .ok v.finish := by
    unfold Eng.advance; rw [hc2, Res.bind_ok, hr2, Res.bind_ok, hv]
  refine ⟨u.finish, v.finish, velGrad exI.dt u.finish.strainRate exI.trsf exI.rot exI.nonrot, velGrad exI.dt v.finish.strainRate exI.trsf exI.rot exI.nonrot, ?_, ?_, ?_, fun j => ⟨?_, rfl⟩⟩
  · unfold Eng.action
    rw [if_neg (by push Not; exact ⟨one_pos, by norm_num [exO], exI_det⟩), exO_start, Res.bind_ok]
    dsimp only
    rw [ha, Res.bind_ok]
  · unfold Eng.action
    rw [if_neg (by push Not; exact ⟨one_pos, by rw [hn']; norm_num, exI_det⟩)]
    unfold Eng.start
    rw [if_neg (by rw [hp]; norm_num), Res.bind_ok]
    dsimp only
    rw [ha2, Res.bind_ok]
  · show v.progress + v.corr / v.nSteps = _
    have h1 : v.progress = 1 / 2 := by rw [hv]; exact hp
    have h2 : v.nSteps = 2 := by rw [hv]; exact hn'
    rw [h1, h2, hcv]; norm_num
  · rw [hv]
    have := hst j
    have hpu : j ∈ u.pe := hpe' j
    simp [Eng.finish, Eng.control, Eng.update, hpu] at this ⊢
    exact this

end Verif.P3d
