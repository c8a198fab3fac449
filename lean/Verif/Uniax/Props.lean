import Verif.Uniax.Init

/-!
# Properties of straining: C231-C234
-/
namespace Verif.Uniax

/-- A run of a fresh specimen is one after initialisation. -/
theorem run_init {dt : ℝ} {s t : Sys} {k : ℕ} (hf : Fresh s.e s.w) (ha : s.e.active = true) (h : Run dt s (k + 1) t) :
    ∃ f w1, s.e.init ⟨s.time, dt, s.iter⟩ s.w = .ok (false, f, w1) ∧ Held f w1 ∧ f.active = true ∧
      Run dt ⟨f, w1, s.time, s.iter, s.stopAt⟩ (k + 1) t := by
  induction k generalizing t with
  | zero =>
    cases h with
    | succ h0 h1 =>
      cases h0
      obtain ⟨f, w1, h2, h3, h4, h5⟩ := first_step hf ha h1
      exact ⟨f, w1, h2, h3, h4, .succ (.zero _) h5⟩
  | succ k ih =>
    cases h with
    | succ h0 h1 =>
      obtain ⟨f, w1, h2, h3, h4, h5⟩ := ih h0
      exact ⟨f, w1, h2, h3, h4, .succ h5 h1⟩

/-! ## Examples -/

/-- Two bodies at distance one, at rest. -/
def exW : W := fun i => if i = 0 then some ⟨0, 0, ⟨false, false, false⟩⟩ else if i = 1 then some ⟨1, 0, ⟨false, false, false⟩⟩ else none

/-- An engine with all defaults but the ids, the rate and the cross section. -/
def exEng (r : ℝ) : Eng := { Eng.new with strainRate := some r, posIds := [1], negIds := [0], area := some 1 }

theorem ex_fresh (r : ℝ) : Fresh (exEng r) exW :=
  ⟨rfl, by simp [exEng], .inr (.inl rfl), by simp [exEng, Eng.new], by simp [exEng, Eng.new]⟩

/-- The bodies of the example, with their velocities and blocked. -/
def exHeldW (x0 x1 v0 v1 : ℝ) : W :=
  fun i => if i = 0 then some ⟨x0, v0, ⟨true, false, false⟩⟩ else if i = 1 then some ⟨x1, v1, ⟨true, false, false⟩⟩ else none

/-- The engine of the example after initialisation. -/
def exReady (r : ℝ) : Eng := { exEng r with needsInit := false, L := 1 }

theorem ex_held (r x0 x1 v0 v1 : ℝ) : Held (exReady r) (exHeldW x0 x1 v0 v1) := by
  refine ⟨rfl, by simp [exReady, exEng], by simp [exReady, exEng], by simp [exReady, exEng], ?_, by simp [exReady],
    .inr (.inl rfl), by simp [exReady, exEng, Eng.new], by simp [exReady, exEng, Eng.new]⟩
  intro i hi
  simp only [exReady, exEng, List.mem_singleton] at hi
  rcases hi with rfl | rfl
  · exact ⟨⟨x1, v1, ⟨true, false, false⟩⟩, by simp [exHeldW], rfl⟩
  · exact ⟨⟨x0, v0, ⟨true, false, false⟩⟩, by simp [exHeldW], rfl⟩

/-- A held specimen can always be stepped: bodies move with their velocities. -/
theorem step_exists {dt : ℝ} {s : Sys} {rate : ℝ} (h : Held s.e s.w) (ha : s.e.active = true)
    (hr : s.e.strainRate = some rate) (hi : s.e.interval ≠ 0) : ∃ t, Step dt s t := by
  have hall : s.w.all s.e.posIds = true ∧ s.w.all s.e.negIds = true := by
    rw [W.all_iff, W.all_iff]
    exact ⟨fun i hi => (h.there i (.inl hi)).imp fun b hb => hb.1, fun i hi => (h.there i (.inr hi)).imp fun b hb => hb.1⟩
  have : ∃ o, s.e.action ⟨s.time, dt, s.iter⟩ s.w (fun _ => 0) = .ok o ∧ o.thrown = false := by
    unfold Eng.action Eng.go
    rw [if_neg (by simp [h.ready]), if_neg (by simp [h.pos, h.neg])]
    simp only [hr]
    rw [if_neg (by simp [hall, hi])]
    exact ⟨_, rfl, rfl⟩
  obtain ⟨o, ho, ht⟩ := this
  refine ⟨_, Step.on (w' := fun i => (o.w i).map fun b => { b with pos := b.pos + b.vel * dt }) (fun _ => 0) ha ho ht ⟨?_, ?_⟩⟩
  · intro i; simp
  · intro i b hb _; simp [hb]

/-- A specimen can always be left alone. -/
theorem idle_exists {dt : ℝ} {s : Sys} (ha : s.e.active = false) : ∃ t, Step dt s t := by
  refine ⟨_, Step.off (w' := fun i => (s.w i).map fun b => { b with pos := b.pos + b.vel * dt }) ha ⟨?_, ?_⟩⟩
  · intro i; simp
  · intro i b hb _; simp [hb]

/-! ## C231: acceleration at the beginning -/

/-- The engine is on, with the given rate, time of acceleration and nothing to stop or reverse at. -/
structure Plain (e : Eng) (rate acc : ℝ) : Prop where
  active : e.active = true
  rate : e.strainRate = some rate
  accel : e.accel = acc
  stop : e.stopStrain = none
  limit : e.limit = 0

theorem plain_step {dt rate acc : ℝ} {s t : Sys} (h : Held s.e s.w) (hp : Plain s.e rate acc) (hdt : dt ≠ 0)
    (hs : Step dt s t) : Held t.e t.w ∧ Plain t.e rate acc ∧ t.time = s.time + dt ∧ t.e.L = s.e.L ∧
      t.e.cur = some (rateNow s.e.cur rate acc s.time) ∧
      t.e.len t.w = s.e.len s.w + rateNow s.e.cur rate acc s.time * s.e.L * dt ∧ t.e.strain = s.e.len s.w / s.e.L - 1 := by
  obtain ⟨r, hr, hh, hl, hact, ht, -, -, -, force, he⟩ := held_step h hp.active hdt hs
  rw [hp.rate] at hr
  cases hr
  simp only [hp.stop, elongation, hp.accel, Bool.not_false] at hl hact he
  obtain ⟨e1, -, e2, -, -, -, -, e3, e4, -, -, -, e5, -, e6⟩ := report_same s.e (rateNow s.e.cur rate acc s.time) (s.e.len s.w)
    s.iter force
  have hc := report_cur0 s.e (rateNow s.e.cur rate acc s.time) (s.e.len s.w) s.iter force hp.limit
  refine ⟨hh, ⟨hact, ?_, ?_, ?_, ?_⟩, ht, ?_, ?_, hl, ?_⟩ <;> rw [he]
  · exact e1.trans hp.rate
  · exact e5.trans hp.accel
  · exact e2.trans hp.stop
  · exact e4.trans hp.limit
  · exact e3
  · exact hc
  · exact e6

/-- The rate rises for the time of acceleration. -/
theorem ramp {dt acc : ℝ} {s t : Sys} {k : ℕ} (hf : Fresh s.e s.w) (ha : s.e.active = true)
    (h : Run dt s (k + 1) t) (hdt : 0 < dt) (h0 : s.time = 0) (hc : s.e.cur = some 0) (hacc : s.e.accelTime dt = acc)
    (hpos : 0 < acc) (hsp : s.e.setSpeeds = false) (hst : s.e.stopStrain = none) (hl : s.e.limit = 0) :
    ∃ rate, t.e.strainRate = some rate ∧
      t.e.cur = some (if k * dt < acc + dt then k * dt / acc * rate else rate) := by
  obtain ⟨f, w1, hi, hh, hfa, hr⟩ := run_init hf ha h
  obtain ⟨-, -, -, -, -, -, rate, v, hfe, -⟩ := init_ok hi
  have hp : Plain f rate acc := by
    refine ⟨hfa, ?_, ?_, ?_, ?_⟩ <;> rw [hfe]
    · simp [hsp, hacc]
    · exact hst
    · exact hl
  have hfc : f.cur = some 0 := by rw [hfe]; exact hc
  refine ⟨rate, ?_⟩
  have inv : ∀ (k : ℕ) (t : Sys), Run dt ⟨f, w1, s.time, s.iter, s.stopAt⟩ (k + 1) t →
      Held t.e t.w ∧ Plain t.e rate acc ∧ t.time = (k + 1) * dt ∧
      t.e.cur = some (if k * dt < acc + dt then k * dt / acc * rate else rate) := by
    intro k
    induction k with
    | zero =>
      intro t h
      cases h with
      | succ h1 h2 =>
        cases h1
        obtain ⟨a1, a2, a3, -, a4, -⟩ := plain_step hh hp hdt.ne' h2
        refine ⟨a1, a2, by rw [a3]; simp [h0], ?_⟩
        rw [a4]
        simp only [hfc, rateNow, abs_zero, h0, zero_div, zero_mul, Nat.cast_zero]
        rw [if_pos (show 0 < acc + dt by linarith)]
        congr 1
        by_cases h : 0 < |rate|
        · rw [if_pos h, if_pos hpos.ne']
        · rw [if_neg h]
          exact abs_eq_zero.mp (le_antisymm (not_lt.mp h) (abs_nonneg _))
    | succ k ih =>
      intro t h
      cases h with
      | succ h1 h2 =>
        obtain ⟨b1, b2, b3, b4⟩ := ih _ h1
        obtain ⟨a1, a2, a3, -, a4, -⟩ := plain_step b1 b2 hdt.ne' h2
        refine ⟨a1, a2, by rw [a3, b3]; push_cast; ring, ?_⟩
        rw [a4, b4, b3]
        congr 1
        simp only [rateNow]
        have hk : (0 : ℝ) ≤ k * dt := mul_nonneg (Nat.cast_nonneg _) hdt.le
        push_cast
        by_cases hz : rate = 0
        · subst hz; simp
        have hza : 0 < |rate| := abs_pos.mpr hz
        rw [if_pos hpos.ne']
        by_cases hlt : (k : ℝ) * dt < acc
        · rw [if_pos (show (k : ℝ) * dt < acc + dt by linarith), if_pos, if_pos (by linarith)]
          rw [abs_mul, abs_of_nonneg (div_nonneg hk hpos.le)]
          have : (k : ℝ) * dt / acc < 1 := by rw [div_lt_one hpos]; exact hlt
          calc (k : ℝ) * dt / acc * |rate| < 1 * |rate| := mul_lt_mul_of_pos_right this hza
            _ = |rate| := one_mul _
        · push Not at hlt
          rw [if_neg (show ¬ ((k : ℝ) + 1) * dt < acc + dt by linarith)]
          rw [if_neg]
          rw [not_lt]
          split_ifs with h5
          · rw [abs_mul, abs_of_nonneg (div_nonneg hk hpos.le)]
            have : 1 ≤ (k : ℝ) * dt / acc := by rw [le_div_iff₀ hpos]; linarith
            calc |rate| = 1 * |rate| := (one_mul _).symm
              _ ≤ _ := mul_le_mul_of_nonneg_right this hza.le
          · exact le_refl _
  obtain ⟨-, b, -, d⟩ := inv k t hr
  exact ⟨b.rate, d⟩

/-- **C231 (partial).** If `currentStrainRate` is set to zero before and the engine starts at time zero, the strain rate rises from
zero in proportion to the time until `initAccelTime` has passed, exceeds the requested rate by less than one step's rise in
at most one step, and then is the requested rate for ever.  Missing: what a new engine does, other times of start. -/
theorem C231_ramp_partial {dt acc : ℝ} {s t : Sys} {k : ℕ} (hf : Fresh s.e s.w) (ha : s.e.active = true)
    (h : Run dt s (k + 1) t) (hdt : 0 < dt) (h0 : s.time = 0) (hc : s.e.cur = some 0) (hacc : s.e.initAccelTime = acc)
    (hpos : 0 < acc) (hsp : s.e.setSpeeds = false) (hst : s.e.stopStrain = none) (hl : s.e.limit = 0) :
    ∃ rate, t.e.strainRate = some rate ∧
      t.e.cur = some (if k * dt < acc + dt then k * dt / acc * rate else rate) :=
  ramp hf ha h hdt h0 hc (by simp [Eng.accelTime, hacc, hpos.le]) hpos hsp hst hl

/-- **C231 (partial).** A negative `initAccelTime` is a number of steps: under the same conditions the rate rises in proportion to the steps done,
until that number of steps. -/
theorem C231_steps_partial {dt N : ℝ} {s t : Sys} {k : ℕ} (hf : Fresh s.e s.w) (ha : s.e.active = true)
    (h : Run dt s (k + 1) t) (hdt : 0 < dt) (h0 : s.time = 0) (hc : s.e.cur = some 0) (hacc : s.e.initAccelTime = -N)
    (hpos : 0 < N) (hsp : s.e.setSpeeds = false) (hst : s.e.stopStrain = none) (hl : s.e.limit = 0) :
    ∃ rate, t.e.strainRate = some rate ∧ t.e.cur = some (if (k : ℝ) < N + 1 then k / N * rate else rate) := by
  obtain ⟨rate, h1, h2⟩ := ramp (acc := dt * N) hf ha h hdt h0 hc (by
    unfold Eng.accelTime; rw [hacc, if_neg (by linarith), neg_neg]) (mul_pos hdt hpos) hsp hst hl
  refine ⟨rate, h1, ?_⟩
  rw [h2]
  have e1 : ((k : ℝ) * dt < dt * N + dt) ↔ (k : ℝ) < N + 1 := by
    rw [show dt * N + dt = (N + 1) * dt by ring]; exact mul_lt_mul_iff_left₀ hdt
  have e2 : (k : ℝ) * dt / (dt * N) = k / N := by field_simp
  rw [e2]
  by_cases hk : (k : ℝ) < N + 1
  · rw [if_pos hk, if_pos (e1.2 hk)]
  · rw [if_neg hk, if_neg fun h => hk (e1.1 h)]

/-- **C231 (violated).** A new engine, its `currentStrainRate` being "not a number", strains at the full rate from the first step,
whatever `initAccelTime`. -/
theorem C231_violated {dt : ℝ} {s t : Sys} (hf : Fresh s.e s.w) (ha : s.e.active = true) (h : Step dt s t)
    (hdt : dt ≠ 0) (hc : s.e.cur = none) (hst : s.e.stopStrain = none) (hl : s.e.limit = 0) :
    ∃ rate, t.e.strainRate = some rate ∧ t.e.cur = some rate ∧ t.e.len t.w = s.e.len s.w * (1 + rate * dt) := by
  obtain ⟨f, w1, hi, hh, hfa, hr⟩ := first_step hf ha h
  obtain ⟨-, -, -, -, -, -, rate, v, hfe, -⟩ := init_ok hi
  obtain ⟨-, l1, l2, -⟩ := init_held hi hf
  have hp : Plain f rate f.accel := ⟨hfa, by rw [hfe], rfl, by rw [hfe]; exact hst, by rw [hfe]; exact hl⟩
  obtain ⟨-, p, -, -, p4, p5, -⟩ := plain_step hh hp hdt hr
  have hfc : f.cur = none := by rw [hfe]; exact hc
  refine ⟨rate, p.rate, by rw [p4]; simp [hfc, rateNow], ?_⟩
  rw [p5]
  simp only [hfc, rateNow, l1, l2]
  ring

/-- **C231 (violated, late start).** An engine whose `currentStrainRate` is zero that starts when the simulation has been running for
some time begins with the rate of that time: ten times the requested rate after ten times `initAccelTime`. -/
theorem C231_violated_late {dt acc : ℝ} {s t : Sys} (hf : Fresh s.e s.w) (ha : s.e.active = true) (h : Step dt s t)
    (hdt : dt ≠ 0) (hc : s.e.cur = some 0) (hst : s.e.stopStrain = none) (hl : s.e.limit = 0)
    (hacc : s.e.initAccelTime = acc) (hpos : 0 < acc) (hsp : s.e.setSpeeds = false) (h0 : s.time = 10 * acc) :
    ∃ rate, t.e.strainRate = some rate ∧ t.e.cur = some (10 * rate) := by
  obtain ⟨f, w1, hi, hh, hfa, hr⟩ := first_step hf ha h
  obtain ⟨-, -, -, -, -, -, rate, v, hfe, -⟩ := init_ok hi
  have hp : Plain f rate acc := by
    refine ⟨hfa, ?_, ?_, ?_, ?_⟩ <;> rw [hfe]
    · simp [hsp, Eng.accelTime, hacc, hpos.le]
    · exact hst
    · exact hl
  obtain ⟨-, p, -, -, p4, -⟩ := plain_step hh hp hdt hr
  have hfc : f.cur = some 0 := by rw [hfe]; exact hc
  refine ⟨rate, p.rate, ?_⟩
  rw [p4]
  simp only [hfc, rateNow, abs_zero, h0]
  congr 1
  by_cases hz : rate = 0
  · subst hz; simp
  · rw [if_pos (abs_pos.mpr hz), if_pos hpos.ne', mul_div_assoc, div_self hpos.ne', mul_one]

/-- What the first call does with the example. -/
theorem ex_init (e : Eng) (c : Clock) (he : e.posIds = [1] ∧ e.negIds = [0]) {r : ℝ} (hr : e.strainRate = some r)
    (ha : e.area = some 1) (hs : e.setSpeeds = false) : ∃ f w1, e.init c exW = .ok (false, f, w1) := by
  have hl : e.len (e.block exW) = 1 := by
    rw [block_len]; simp [Eng.len, he, exW, W.pos]
  have hall : exW.all e.posIds = true ∧ exW.all e.negIds = true := by simp [he, W.all, exW]
  unfold Eng.init
  rw [if_neg (by rw [hall.1, hall.2, he.1, he.2]; simp)]
  unfold Eng.start
  simp only [hl]
  rw [if_neg (show ¬ (1 : ℝ) ≤ 0 by norm_num)]
  simp only [Eng.rates, hr, Eng.speeds, hs, if_true, ha, Option.isNone_some]
  exact ⟨_, _, rfl⟩

/-- The example can be started: any engine accepted by the example makes a step. -/
theorem ex_step {dt : ℝ} {s : Sys} (hw : s.w = exW) (hf : Fresh s.e s.w) (ha : s.e.active = true)
    (he : s.e.posIds = [1] ∧ s.e.negIds = [0]) {r : ℝ} (hr : s.e.strainRate = some r) (har : s.e.area = some 1)
    (hs : s.e.setSpeeds = false) (hi : s.e.interval ≠ 0) : ∃ t, Step dt s t := by
  obtain ⟨f, w1, h⟩ := ex_init s.e ⟨s.time, dt, s.iter⟩ he hr har hs
  rw [← hw] at h
  have hh := (init_held h hf).1
  obtain ⟨-, -, -, -, -, -, rate, v, hfe, -⟩ := init_ok h
  obtain ⟨t, ht⟩ := step_exists (dt := dt) (s := ⟨f, w1, s.time, s.iter, s.stopAt⟩) hh (by rw [hfe]; exact ha)
    (by rw [hfe]) (by rw [hfe]; exact hi)
  cases ht with
  | off h0 _ => rw [hfe] at h0; exact absurd (ha.symm.trans h0) (by simp)
  | @on o w' force _ hact ht hm =>
    refine ⟨_, Step.on (s := s) force ha ?_ ht hm⟩
    unfold Eng.action at hact ⊢
    rw [if_neg (by simp [hh.ready])] at hact
    rw [if_pos hf.fresh, h]
    exact hact

/-- The hypotheses of `C231_violated` are met by the example with all defaults; the rate is that asked for at once. -/
example : ∃ s t : Sys, Fresh s.e s.w ∧ s.e.active = true ∧ Step 1 s t ∧ s.e.cur = none ∧ s.e.stopStrain = none ∧
    s.e.limit = 0 ∧ s.e.initAccelTime = -200 := by
  obtain ⟨t, ht⟩ := ex_step (dt := 1) (s := ⟨exEng 1, exW, 0, 0, 0⟩) rfl (ex_fresh 1) rfl ⟨rfl, rfl⟩ (r := 1) rfl rfl rfl
    (by simp [exEng, Eng.new])
  exact ⟨_, t, ex_fresh 1, rfl, ht, rfl, rfl, rfl, rfl⟩

/-- The example with `currentStrainRate=0` and an acceleration of five seconds. -/
def exRamp : Eng := { exEng 1 with cur := some 0, initAccelTime := 5 }

theorem exRamp_fresh : Fresh exRamp exW :=
  ⟨rfl, by simp [exRamp, exEng], .inr (.inl rfl), by simp [exRamp, exEng, Eng.new], by simp [exRamp, exEng, Eng.new]⟩

/-- The hypotheses of `C231_ramp_partial` and `C231_violated_late` are met by the example at two times of start. -/
example : ∀ T : ℝ, ∃ t : Sys, Fresh exRamp exW ∧ exRamp.active = true ∧ Run 1 ⟨exRamp, exW, T, 0, 0⟩ (0 + 1) t ∧
    exRamp.cur = some 0 ∧ exRamp.initAccelTime = 5 ∧ exRamp.setSpeeds = false ∧ exRamp.stopStrain = none ∧
    exRamp.limit = 0 := by
  intro T
  obtain ⟨t, ht⟩ := ex_step (dt := 1) (s := ⟨exRamp, exW, T, 0, 0⟩) rfl exRamp_fresh rfl ⟨rfl, rfl⟩ (r := 1) rfl rfl rfl
    (by simp [exRamp, exEng, Eng.new])
  exact ⟨t, exRamp_fresh, rfl, .succ (.zero _) ht, rfl, rfl, rfl, rfl, rfl⟩

/-- The example with the default of two hundred steps. -/
def exSteps : Eng := { exEng 1 with cur := some 0 }

/-- The hypotheses of `C231_steps_partial` are met by it. -/
example : ∃ t : Sys, Fresh exSteps exW ∧ exSteps.active = true ∧ Run 1 ⟨exSteps, exW, 0, 0, 0⟩ (0 + 1) t ∧
    exSteps.cur = some 0 ∧ exSteps.initAccelTime = -200 ∧ exSteps.setSpeeds = false ∧ exSteps.stopStrain = none ∧
    exSteps.limit = 0 := by
  have hf : Fresh exSteps exW :=
    ⟨rfl, by simp [exSteps, exEng], .inr (.inl rfl), by simp [exSteps, exEng, Eng.new], by simp [exSteps, exEng, Eng.new]⟩
  obtain ⟨t, ht⟩ := ex_step (dt := 1) (s := ⟨exSteps, exW, 0, 0, 0⟩) rfl hf rfl ⟨rfl, rfl⟩ (r := 1) rfl rfl rfl
    (by simp [exSteps, exEng, Eng.new])
  exact ⟨t, hf, rfl, .succ (.zero _) ht, rfl, rfl, rfl, rfl, rfl⟩

end Verif.Uniax
