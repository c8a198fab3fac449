import Verif.Uniax.Stop

/-!
# Properties of straining: C233-C237
-/
namespace Verif.Uniax

/-! ## C233: reversing at a strain -/

/-- The rate reported when the limit is passed for the first time in a tension. -/
theorem report_rev {e : Eng} {r len : ℝ} {iter : ℤ} {force : ℕ → ℝ} (hn : e.notYetReversed = true) (hl : 0 < e.limit)
    (hr : 0 < r) (hs : e.limit < len / e.L - 1) :
    (e.report r len iter force).cur = some (-r) ∧ (e.report r len iter force).notYetReversed = false := by
  have h : Eng.reverses { e with cur := some r, strain := len / e.L - 1 } r = true := by
    simp only [Eng.reverses, hn, Bool.true_and, decide_eq_true_eq]
    exact ⟨hl.ne', .inl ⟨hr, hs⟩⟩
  simp only [Eng.report, h, if_true]
  split_ifs <;> simp

/-- **C233 (partial).** In the step in which a specimen under tension is found beyond `limitStrain` for the first time, the engine
reports the opposite of the rate.  Missing: the motion, see `C233_violated` and `C233_violated_on`. -/
theorem C233_reported_partial {dt rate : ℝ} {s t : Sys} (h : Held s.e s.w) (ha : s.e.active = true) (hdt : dt ≠ 0)
    (hs : Step dt s t) (hr : s.e.strainRate = some rate) (hpos : 0 < rate) (hc : s.e.cur = some rate)
    (hn : s.e.notYetReversed = true) (hl : 0 < s.e.limit) (hx : s.e.limit < s.e.len s.w / s.e.L - 1) :
    t.e.cur = some (-rate) ∧ t.e.notYetReversed = false := by
  obtain ⟨r, hr', -, -, -, -, -, -, -, force, he⟩ := held_step h ha hdt hs
  rw [hr] at hr'
  cases hr'
  have hrn : rateNow s.e.cur rate s.e.accel s.time = rate := by rw [hc]; simp [rateNow]
  rw [hrn] at he
  have := report_rev (iter := s.iter) (force := force) hn hl hpos hx
  rw [he]
  exact this

/-- **C233 (violated, step).** The step that reports the opposite rate and the one after it go on in the old sense. -/
theorem C233_violated_on {dt rate : ℝ} {s t u : Sys} (h : Held s.e s.w) (ha : s.e.active = true) (hdt : dt ≠ 0)
    (hs : Step dt s t) (hu : Step dt t u) (hr : s.e.strainRate = some rate) (hpos : 0 < rate) (hc : s.e.cur = some rate)
    (hn : s.e.notYetReversed = true) (hl : 0 < s.e.limit) (hx : s.e.limit < s.e.len s.w / s.e.L - 1)
    (hst : s.e.stopStrain = none) :
    t.e.cur = some (-rate) ∧ t.e.len t.w = s.e.len s.w + rate * s.e.L * dt ∧
    u.e.len u.w = s.e.len s.w + 2 * (rate * s.e.L * dt) ∧ u.e.cur = some rate := by
  have hrep := C233_reported_partial h ha hdt hs hr hpos hc hn hl hx
  obtain ⟨r, hr', hh, hlen, hact, -, -, -, -, force, he⟩ := held_step h ha hdt hs
  rw [hr] at hr'
  cases hr'
  have hrn : rateNow s.e.cur rate s.e.accel s.time = rate := by rw [hc]; simp [rateNow]
  rw [hrn] at he hlen hact
  simp only [hst, elongation, Bool.not_false] at hlen hact
  obtain ⟨e1, -, e2, -, -, -, -, e3, -⟩ := report_same s.e rate (s.e.len s.w) s.iter force
  have t1 : t.e.strainRate = some rate := by rw [he]; exact e1.trans hr
  have t2 : t.e.stopStrain = none := by rw [he]; exact e2.trans hst
  have t3 : t.e.L = s.e.L := by rw [he]; exact e3
  obtain ⟨r, hr', -, hlen', -, -, -, -, -, force', he'⟩ := held_step hh hact hdt hu
  rw [t1] at hr'
  cases hr'
  have hrn' : rateNow t.e.cur rate t.e.accel t.time = rate := by rw [hrep.1]; simp [rateNow]
  rw [hrn'] at he' hlen'
  simp only [t2, elongation, t3] at hlen'
  refine ⟨hrep.1, hlen, by rw [hlen', hlen]; ring, ?_⟩
  have hno : Eng.reverses { t.e with cur := some rate, strain := t.e.len t.w / t.e.L - 1 } rate = false := by
    simp [Eng.reverses, hrep.2]
  rw [he']
  simp only [Eng.report, hno]
  split_ifs <;> simp_all

/-- The hypotheses of `C233_reported_partial` and `C233_violated_on` are met by the example stretched to its double, with a limit of
one half. -/
example : ∃ (s t u : Sys), Held s.e s.w ∧ s.e.active = true ∧ Step 1 s t ∧ Step 1 t u ∧ s.e.strainRate = some 1 ∧
    s.e.cur = some 1 ∧ s.e.notYetReversed = true ∧ s.e.limit = 1 / 2 ∧ s.e.limit < s.e.len s.w / s.e.L - 1 ∧
    s.e.stopStrain = none := by
  have hh : Held { exReady 1 with cur := some 1, limit := 1 / 2 } (exHeldW 0 2 0 0) :=
    held_eng (ex_held 1 0 2 0 0) rfl rfl rfl rfl rfl
  obtain ⟨t, ht⟩ := step_exists (dt := 1) (s := ⟨{ exReady 1 with cur := some 1, limit := 1 / 2 }, exHeldW 0 2 0 0, 0, 0, 0⟩)
    hh rfl (rate := 1) rfl (by simp [exReady, exEng, Eng.new])
  obtain ⟨r, hr', hh', -, hact, -, -, -, -, force, he⟩ := held_step hh rfl one_ne_zero ht
  cases hr'
  have hact' : t.e.active = true := hact
  obtain ⟨e1, -, -, -, -, -, -, -, -, -, -, e2, -⟩ := report_same { exReady 1 with cur := some 1, limit := 1 / 2 }
    (rateNow (some 1) 1 0 0) (Eng.len { exReady 1 with cur := some 1, limit := 1 / 2 } (exHeldW 0 2 0 0)) 0 force
  obtain ⟨u, hu⟩ := step_exists (dt := 1) (s := t) hh' hact' (rate := 1) (by rw [he]; exact e1)
    (by rw [he]; exact fun h => absurd (e2.symm.trans h) (by simp [exReady, exEng, Eng.new]))
  refine ⟨_, t, u, hh, rfl, ht, hu, rfl, rfl, rfl, rfl, ?_, rfl⟩
  simp only [Eng.len, exReady, exEng, exHeldW, W.pos]
  norm_num

/-- The hypothesis of `C233_violated` is met by the example with a limit. -/
example : ∃ t, Run 1 ⟨{ exEng 1 with limit := 1 / 2 }, exW, 0, 0, 0⟩ 1 t := by
  obtain ⟨t, ht⟩ := ex_step (dt := 1) (s := ⟨{ exEng 1 with limit := 1 / 2 }, exW, 0, 0, 0⟩) rfl
    ⟨rfl, by simp [exEng], .inr (.inl rfl), by simp [exEng, Eng.new], by simp [exEng, Eng.new]⟩ rfl ⟨rfl, rfl⟩ (r := 1) rfl
    rfl rfl (by simp [exEng, Eng.new])
  exact ⟨t, .succ (.zero _) ht⟩

/-! ## C234: the strain of a specimen -/

/-- **C234 (partial).** A new engine with nothing to stop or reverse at lengthens the specimen by the same amount in every step: after
`k` steps it is `1 + k·rate·dt` times as long as at first, and the strain reported is that before the last step.
Missing: an end that is not moved must be at rest, and `asymmetry` one of the three values documented. -/
theorem C234_total_partial {dt : ℝ} {s t : Sys} {k : ℕ} (hf : Fresh s.e s.w) (ha : s.e.active = true)
    (h : Run dt s (k + 1) t) (hdt : dt ≠ 0) (hc : s.e.cur = none) (hst : s.e.stopStrain = none) (hl : s.e.limit = 0) :
    ∃ rate, (s.e.strainRate = some rate ∨ (s.e.strainRate = none ∧ s.e.absSpeed = some (rate * s.e.len s.w))) ∧
      t.e.len t.w = s.e.len s.w * (1 + (k + 1) * rate * dt) ∧ t.e.strain = k * rate * dt := by
  obtain ⟨f, w1, hi, hh, hfa, hr⟩ := run_init hf ha h
  obtain ⟨-, -, -, -, h5, -, rate, v, hfe, hv, hrv, -⟩ := init_ok hi
  obtain ⟨-, l1, l2, -⟩ := init_held hi hf
  have hp : Plain f rate f.accel := ⟨hfa, by rw [hfe], rfl, by rw [hfe]; exact hst, by rw [hfe]; exact hl⟩
  have hfc : f.cur = none := by rw [hfe]; exact hc
  have inv : ∀ (k : ℕ) (t : Sys), Run dt ⟨f, w1, s.time, s.iter, s.stopAt⟩ (k + 1) t →
      Held t.e t.w ∧ Plain t.e rate f.accel ∧ t.e.L = s.e.len s.w ∧ t.e.cur = some rate ∧
      t.e.len t.w = s.e.len s.w * (1 + (k + 1) * rate * dt) ∧ t.e.strain = k * rate * dt := by
    intro k
    induction k with
    | zero =>
      intro t h
      cases h with
      | succ h1 h2 =>
        cases h1
        obtain ⟨a1, a2, -, a3, a4, a5, a6⟩ := plain_step hh hp hdt h2
        simp only [hfc, rateNow] at a4 a5
        refine ⟨a1, a2, a3.trans l2, a4, ?_, ?_⟩
        · rw [a5, l1, l2]; push_cast; ring
        · rw [a6, l1, l2, div_self h5.ne']; simp
    | succ k ih =>
      intro t h
      cases h with
      | succ h1 h2 =>
        obtain ⟨b1, b2, b3, b4, b5, -⟩ := ih _ h1
        obtain ⟨a1, a2, -, a3, a4, a5, a6⟩ := plain_step b1 b2 hdt h2
        simp only [b4, rateNow, lt_self_iff_false, if_false] at a4 a5
        refine ⟨a1, a2, a3.trans b3, a4, ?_, ?_⟩
        · rw [a5, b5, b3]; push_cast; ring
        · rw [a6, b5, b3, mul_div_assoc, mul_div_cancel₀]
          · push_cast; ring
          · exact h5.ne'
  refine ⟨rate, ?_, (inv k t hr).2.2.2.2⟩
  rw [← hv]; exact hrv

/-- The hypotheses of `C234_total_partial` are met by the example. -/
example : ∃ t, Fresh (exEng 1) exW ∧ (exEng 1).active = true ∧ Run 1 ⟨exEng 1, exW, 0, 0, 0⟩ (0 + 1) t ∧
    (exEng 1).cur = none ∧ (exEng 1).stopStrain = none ∧ (exEng 1).limit = 0 := by
  obtain ⟨t, ht⟩ := ex_step (dt := 1) (s := ⟨exEng 1, exW, 0, 0, 0⟩) rfl (ex_fresh 1) rfl ⟨rfl, rfl⟩ (r := 1) rfl rfl rfl
    (by simp [exEng, Eng.new])
  exact ⟨t, ex_fresh 1, rfl, .succ (.zero _) ht, rfl, rfl, rfl⟩

/-- What the first call gives when it throws nothing. -/
theorem action_first {e : Eng} {c : Clock} {w : W} {force : ℕ → ℝ} {o : Out} (hn : e.needsInit = true)
    (h : e.action c w force = .ok o) (ht : o.thrown = false) :
    ∃ f w1, e.init c w = .ok (false, f, w1) ∧ f.go c w1 force = .ok o := by
  unfold Eng.action at h
  rw [if_pos hn] at h
  cases hi : e.init c w with
  | ub => rw [hi] at h; simp at h
  | throws => rw [hi] at h; simp at h
  | ok x =>
    obtain ⟨b, f, w1⟩ := x
    cases b with
    | true => rw [hi] at h; simp only [Res.ok.injEq] at h; rw [← h] at ht; simp at ht
    | false => rw [hi] at h; exact ⟨f, w1, rfl, h⟩

/-- The bodies at the ends after initialisation. -/
theorem init_ends {e f : Eng} {c : Clock} {w w1 : W} (h : e.init c w = .ok (false, f, w1)) {i : ℕ}
    (hi : i ∈ e.posIds ∨ i ∈ e.negIds) : ∃ b, w i = some b ∧ w1 i = some { b with dofs := e.dofs } := by
  obtain ⟨-, -, h3, h4, -, -, rate, v, -, -, -, h9, h10⟩ := init_ok h
  have : ∃ b, w i = some b := by
    rcases hi with hi | hi
    · exact W.all_iff.mp h3 i hi
    · exact W.all_iff.mp h4 i hi
  obtain ⟨b, hb⟩ := this
  refine ⟨b, hb, ?_⟩
  rw [← block_in hi hb]
  cases hs : e.setSpeeds with
  | false => rw [h9 hs]
  | true =>
    obtain ⟨x, -, hx⟩ := h10 hs
    rw [hx, spread_in hi]

/-- The first step of any specimen with a new engine, whatever its asymmetry and its velocities. -/
theorem free_step {dt : ℝ} {s t : Sys} (hn : s.e.needsInit = true) (hd : ∀ i ∈ s.e.posIds, i ∉ s.e.negIds)
    (ha : s.e.active = true) (h : Step dt s t) (hc : s.e.cur = none) (hst : s.e.stopStrain = none) :
    ∃ rate, (s.e.strainRate = some rate ∨ (s.e.strainRate = none ∧ s.e.absSpeed = some (rate * s.e.len s.w))) ∧
      t.e.len t.w = s.e.len s.w +
        ((if s.e.asym ≠ -1 then s.e.share (rate * s.e.len s.w * dt) / dt else s.w.vel (s.e.posIds.headD 0)) -
         (if s.e.asym ≠ 1 then -s.e.share (rate * s.e.len s.w * dt) / dt else s.w.vel (s.e.negIds.headD 0))) * dt := by
  cases h with
  | off h0 _ => rw [ha] at h0; exact absurd h0 (by simp)
  | @on o w' force _ hact ht hm =>
    obtain ⟨f, w1, hi, hg⟩ := action_first hn hact ht
    obtain ⟨b1, hb1, hw1⟩ := init_ends hi (.inl (headD_mem (init_ok hi).1))
    obtain ⟨b2, hb2, hw2⟩ := init_ends hi (.inr (headD_mem (init_ok hi).2.1))
    obtain ⟨h1, h2, h3, h4, h5, h6, rate, v, hfe, hv, hrv, -⟩ := init_ok hi
    have f1 : f.posIds = s.e.posIds := by rw [hfe]
    have f2 : f.negIds = s.e.negIds := by rw [hfe]
    have f3 : f.asym = s.e.asym := by rw [hfe]
    have f4 : f.L = s.e.len s.w := by rw [hfe]
    have f5 : f.cur = none := by rw [hfe]; exact hc
    have f6 : f.stopStrain = none := by rw [hfe]; exact hst
    have f7 : f.strainRate = some rate := by rw [hfe]
    obtain ⟨r, hr, -, -, -, ho⟩ := go_ok hg (f1 ▸ h1) (f2 ▸ h2)
    rw [f7] at hr
    cases hr
    simp only [f5, f6, f4, rateNow, elongation] at ho
    refine ⟨rate, by rw [← hv]; exact hrv, ?_⟩
    have m1 := drive_pos_end (e := f) (dt := dt) (d := rate * s.e.len s.w * dt) (by rw [f1]; exact headD_mem h1)
      (by rw [f2]; exact hd _ (headD_mem h1)) hw1
    have m2 := drive_neg_end (e := f) (dt := dt) (d := rate * s.e.len s.w * dt) (by rw [f2]; exact headD_mem h2)
      (by rw [f1]; exact fun h => hd _ h (headD_mem h2)) hw2
    have ow : o.w = f.drive dt (rate * s.e.len s.w * dt) w1 := by rw [ho]
    have op : o.e.posIds = s.e.posIds := by rw [ho, ← f1]; exact (report_same ..).2.2.2.2.2.1
    have on : o.e.negIds = s.e.negIds := by rw [ho, ← f2]; exact (report_same ..).2.2.2.2.2.2.1
    rw [← ow] at m1 m2
    have k1 := hm.2 _ _ m1 (by split_ifs <;> rfl)
    have k2 := hm.2 _ _ m2 (by split_ifs <;> rfl)
    show o.e.len w' = _
    have hsh : f.share (rate * s.e.len s.w * dt) = s.e.share (rate * s.e.len s.w * dt) := by
      unfold Eng.share; rw [f3]
    rw [hsh] at k1 k2
    generalize s.e.share (rate * s.e.len s.w * dt) = D at *
    have e1 : o.e.len w' = w'.pos (s.e.posIds.headD 0) - w'.pos (s.e.negIds.headD 0) := by
      unfold Eng.len; rw [op, on]
    have e2 : s.e.len s.w = b1.pos - b2.pos := by
      unfold Eng.len; rw [W.pos_some hb1, W.pos_some hb2]
    rw [e1, e2, W.pos_some k1, W.pos_some k2, W.vel_some hb1, W.vel_some hb2, f3]
    split_ifs <;> simp only <;> ring

/-- **C234 (violated, asymmetry).** An `asymmetry` other than the documented -1, 0 and 1 is accepted and strains the specimen at twice
the rate. -/
theorem C234_violated_asym {dt : ℝ} {s t : Sys} (hn : s.e.needsInit = true) (hd : ∀ i ∈ s.e.posIds, i ∉ s.e.negIds)
    (ha : s.e.active = true) (h : Step dt s t) (hdt : dt ≠ 0) (hc : s.e.cur = none) (hst : s.e.stopStrain = none)
    (h1 : s.e.asym ≠ -1) (h2 : s.e.asym ≠ 0) (h3 : s.e.asym ≠ 1) {rate : ℝ} (hr : s.e.strainRate = some rate) :
    t.e.len t.w = s.e.len s.w * (1 + 2 * rate * dt) := by
  obtain ⟨r, hrr, hl⟩ := free_step hn hd ha h hc hst
  rcases hrr with hrr | ⟨hrr, -⟩
  · rw [hr] at hrr
    cases hrr
    rw [hl, if_pos h1, if_pos h3]
    unfold Eng.share
    rw [if_neg h2]
    field_simp
    ring
  · rw [hr] at hrr; cases hrr

/-- A step of a variant of the example. -/
theorem ex_free {dt : ℝ} (e : Eng) (w : W) (hn : e.needsInit = true) (ha : e.active = true)
    (he : e.posIds = [1] ∧ e.negIds = [0]) {r : ℝ} (hr : e.strainRate = some r) (har : e.area = some 1)
    (hs : e.setSpeeds = false) (hi : e.interval ≠ 0) (hw : ∃ b0 b1, w 0 = some b0 ∧ w 1 = some b1 ∧ b0.pos < b1.pos) :
    ∃ t, Step dt ⟨e, w, 0, 0, 0⟩ t := by
  obtain ⟨b0, b1, h0, h1, hlt⟩ := hw
  have hl : e.len (e.block w) = b1.pos - b0.pos := by
    rw [block_len]; simp [Eng.len, he, W.pos_some h0, W.pos_some h1]
  have hall : w.all e.posIds = true ∧ w.all e.negIds = true := by simp [he, W.all, h0, h1]
  have hin : ∃ f, e.init ⟨0, dt, 0⟩ w = .ok (false, f, e.block w) ∧ f.posIds = [1] ∧ f.negIds = [0] ∧ f.strainRate = some r ∧
      f.interval = e.interval := by
    unfold Eng.init
    rw [if_neg (by rw [hall.1, hall.2, he.1, he.2]; simp)]
    unfold Eng.start
    simp only [hl]
    rw [if_neg (show ¬ b1.pos - b0.pos ≤ 0 by linarith)]
    simp only [Eng.rates, hr, Eng.speeds, hs, if_true, har, Option.isNone_some]
    exact ⟨_, rfl, he.1, he.2, rfl, rfl⟩
  obtain ⟨f, hf, f1, f2, f3, f4⟩ := hin
  have hall' : (e.block w).all f.posIds = true ∧ (e.block w).all f.negIds = true := by
    simp [f1, f2, W.all, Eng.block, he, h0, h1]
  have hgo : ∃ o, f.go ⟨0, dt, 0⟩ (e.block w) (fun _ => 0) = .ok o ∧ o.thrown = false := by
    unfold Eng.go
    rw [if_neg (by simp [f1, f2])]
    simp only [f3]
    rw [if_neg (by rw [hall'.1, hall'.2, f4]; simp [hi])]
    exact ⟨_, rfl, rfl⟩
  obtain ⟨o, ho, ht⟩ := hgo
  have hact : e.action ⟨0, dt, 0⟩ w (fun _ => 0) = .ok o := by
    unfold Eng.action
    rw [if_pos hn, hf]
    exact ho
  exact ⟨_, Step.on (s := ⟨e, w, 0, 0, 0⟩) (w' := fun i => (o.w i).map fun b => { b with pos := b.pos + b.vel * dt })
    (fun _ => 0) ha hact ht ⟨fun i => by simp, fun i b hb _ => by simp [hb]⟩⟩

/-- The hypotheses of `C234_violated_asym` are met by the example with `asymmetry=2`. -/
example : ∃ t, Step 1 ⟨{ exEng 1 with asym := 2 }, exW, 0, 0, 0⟩ t ∧ t.e.len t.w = 3 := by
  obtain ⟨t, ht⟩ := ex_free (dt := 1) { exEng 1 with asym := 2 } exW rfl rfl ⟨rfl, rfl⟩ (r := 1) rfl rfl rfl
    (by simp [exEng, Eng.new]) ⟨_, _, rfl, rfl, by simp⟩
  refine ⟨t, ht, ?_⟩
  rw [C234_violated_asym rfl (by simp [exEng]) rfl ht one_ne_zero rfl rfl (by simp) (by simp) (by simp) rfl]
  norm_num [Eng.len, exEng, exW, W.pos]

/-- **C234 (violated, moving end).** With `asymmetry=1` the negative end should not move; bodies of it that move at the beginning keep
moving, blocked at their velocity, and the specimen is strained at another rate. -/
theorem C234_violated_moving {dt : ℝ} {s t : Sys} (hn : s.e.needsInit = true) (hd : ∀ i ∈ s.e.posIds, i ∉ s.e.negIds)
    (ha : s.e.active = true) (h : Step dt s t) (hdt : dt ≠ 0) (hc : s.e.cur = none) (hst : s.e.stopStrain = none)
    (h1 : s.e.asym = 1) {rate : ℝ} (hr : s.e.strainRate = some rate) :
    t.e.len t.w = s.e.len s.w * (1 + rate * dt) - s.w.vel (s.e.negIds.headD 0) * dt := by
  obtain ⟨r, hrr, hl⟩ := free_step hn hd ha h hc hst
  rcases hrr with hrr | ⟨hrr, -⟩
  · rw [hr] at hrr
    cases hrr
    rw [hl, if_pos (by rw [h1]; decide), if_neg (by rw [h1]; simp)]
    unfold Eng.share
    rw [if_neg (by rw [h1]; decide)]
    field_simp
    ring
  · rw [hr] at hrr; cases hrr

/-- The hypotheses of `C234_violated_moving` are met by the example with a negative end moving at 2: the specimen is shortened though it
should be lengthened. -/
example : ∃ t, Step (1 / 4) ⟨{ exEng 1 with asym := 1 }, exHeldW 0 1 2 0, 0, 0, 0⟩ t ∧ t.e.len t.w = 3 / 4 := by
  obtain ⟨t, ht⟩ := ex_free (dt := 1 / 4) { exEng 1 with asym := 1 } (exHeldW 0 1 2 0) rfl rfl ⟨rfl, rfl⟩ (r := 1) rfl rfl
    rfl (by simp [exEng, Eng.new]) ⟨_, _, rfl, rfl, by simp⟩
  refine ⟨t, ht, ?_⟩
  rw [C234_violated_moving rfl (by simp [exEng]) rfl ht (by norm_num) rfl rfl rfl rfl]
  norm_num [Eng.len, exEng, exHeldW, W.pos, W.vel]

/-! ## C235: velocities at once -/

/-- **C235.** With `setSpeeds` the first call gives all bodies of the specimen, up to its reference bodies, one homogeneous
field: velocities differ by the rate times the difference of the positions. -/
theorem C235_homogeneous {e : Eng} {c : Clock} {w : W} {force : ℕ → ℝ} {o : Out} (hf : Fresh e w)
    (h : e.action c w force = .ok o) (ht : o.thrown = false) (hs : e.setSpeeds = true) (hc : e.cur = none)
    (hst : e.stopStrain = none) (hdt : c.dt ≠ 0) :
    ∃ rate, (e.strainRate = some rate ∨ (e.strainRate = none ∧ e.absSpeed = some (rate * e.len w))) ∧
      ∀ i j : ℕ, (∀ k, k = i ∨ k = j → (∃ b, w k = some b) ∧
          (k = e.posIds.headD 0 ∨ k = e.negIds.headD 0 ∨ ¬ (k ∈ e.posIds ∨ k ∈ e.negIds))) →
        o.w.vel i - o.w.vel j = rate * (w.pos i - w.pos j) := by
  obtain ⟨f, w1, hi, hg⟩ := action_first hf.fresh h ht
  obtain ⟨h1, h2, h3, h4, h5, h6, rate, v, hfe, hv, hrv, -, h10⟩ := init_ok hi
  obtain ⟨x, hx, hw1⟩ := h10 hs
  have f1 : f.posIds = e.posIds := by rw [hfe]
  have f2 : f.negIds = e.negIds := by rw [hfe]
  have f3 : f.asym = e.asym := by rw [hfe]
  have f4 : f.L = e.len w := by rw [hfe]
  have f5 : f.cur = none := by rw [hfe]; exact hc
  have f6 : f.stopStrain = none := by rw [hfe]; exact hst
  have f7 : f.strainRate = some rate := by rw [hfe]
  obtain ⟨r, hr, -, -, -, ho⟩ := go_ok hg (f1 ▸ h1) (f2 ▸ h2)
  rw [f7] at hr
  cases hr
  simp only [f5, f6, f4, rateNow, elongation] at ho
  have ow : o.w = f.drive c.dt (rate * e.len w * c.dt) w1 := by rw [ho]
  refine ⟨rate, by rw [← hv]; exact hrv, ?_⟩
  have hL : w.pos (e.posIds.headD 0) - w.pos (e.negIds.headD 0) = e.len w := rfl
  have key : ∀ k, (∃ b, w k = some b) ∧
      (k = e.posIds.headD 0 ∨ k = e.negIds.headD 0 ∨ ¬ (k ∈ e.posIds ∨ k ∈ e.negIds)) →
      o.w.vel k = rate * (w.pos k - w.pos (e.negIds.headD 0)) + x.1 := by
    rintro k ⟨⟨b, hb⟩, hk⟩
    rcases hk with rfl | rfl | hk
    · obtain ⟨b', hb', hw'⟩ := init_ends hi (.inl (headD_mem h1))
      have m1 := drive_pos_end (e := f) (dt := c.dt) (d := rate * e.len w * c.dt) (by rw [f1]; exact headD_mem h1)
        (by rw [f2]; exact hf.disj _ (headD_mem h1)) hw'
      rw [← ow] at m1
      rw [W.vel_some m1, hL, f3]
      have hrest := fun ha => hf.restPos ha _ (headD_mem h1)
      rw [W.vel_some hb'] at hrest
      unfold Eng.share
      rw [f3]
      rcases hf.asym with ha | ha | ha <;> simp only [endSpeeds, ha] at hx <;> simp at hx <;> subst hx <;> simp [ha, hv]
      · exact hrest ha
      · field_simp; ring
      · field_simp
    · obtain ⟨b', hb', hw'⟩ := init_ends hi (.inr (headD_mem h2))
      have m1 := drive_neg_end (e := f) (dt := c.dt) (d := rate * e.len w * c.dt) (by rw [f2]; exact headD_mem h2)
        (by rw [f1]; exact fun h => hf.disj _ h (headD_mem h2)) hw'
      rw [← ow] at m1
      rw [W.vel_some m1, f3]
      have hrest := fun ha => hf.restNeg ha _ (headD_mem h2)
      rw [W.vel_some hb'] at hrest
      unfold Eng.share
      rw [f3]
      rcases hf.asym with ha | ha | ha <;> simp only [endSpeeds, ha] at hx <;> simp at hx <;> subst hx <;> simp [ha, hv]
      · field_simp
      · field_simp
        ring
      · exact hrest ha
    · push Not at hk
      have m1 := drive_else (e := f) (dt := c.dt) (d := rate * e.len w * c.dt) (w := w1) (f2 ▸ hk.2) (f1 ▸ hk.1)
      rw [← ow] at m1
      have hbl : e.block w k = some b := by simp [Eng.block, hk, hb]
      have hsp := spread_out (e := e) (w := e.block w) (p0 := w.pos (e.negIds.headD 0)) (p1 := w.pos (e.posIds.headD 0))
        (v0 := x.1) (v1 := x.2) (by simp [hk]) hbl
      rw [← hw1] at hsp
      rw [W.vel_some (m1.trans hsp), W.pos_some hb, hL]
      have hxv : x.2 - x.1 = rate * e.len w := by
        rw [← hv]
        rcases hf.asym with ha | ha | ha <;> simp only [endSpeeds, ha] at hx <;> simp at hx <;> subst hx <;> ring
      rw [hxv]
      field_simp
  intro i j hij
  rw [key i (hij i (.inl rfl)), key j (hij j (.inr rfl))]
  ring

/-! ## C236: what is rejected -/

/-- **C236 (partial).** With ids of existing bodies at both ends, a rate or a speed and a non-zero `stressUpdateInterval` the first call
is defined; it throws an exception exactly for a specimen without length, for a missing cross section, and for `setSpeeds` with an
undocumented asymmetry.  Missing: what happens without ids, and after an exception. -/
theorem C236_safe_partial {e : Eng} {c : Clock} {w : W} (force : ℕ → ℝ) (hn : e.needsInit = true) (hp : e.posIds ≠ [])
    (hq : e.negIds ≠ []) (hap : w.all e.posIds = true) (haq : w.all e.negIds = true)
    (hr : e.strainRate.isSome = true ∨ e.absSpeed.isSome = true) (hi : e.interval ≠ 0) :
    ∃ o, e.action c w force = .ok o ∧
      (o.thrown = true ↔ e.len w ≤ 0 ∨ e.area = none ∨
        (e.setSpeeds = true ∧ e.asym ≠ -1 ∧ e.asym ≠ 0 ∧ e.asym ≠ 1)) := by
  have hrates : ∀ l, ∃ r v, Eng.rates { e with needsInit := false, L := l } = some (r, v) := by
    intro l
    unfold Eng.rates
    cases h : e.strainRate with
    | some r => exact ⟨_, _, rfl⟩
    | none =>
      cases h' : e.absSpeed with
      | some v => exact ⟨_, _, rfl⟩
      | none => rw [h, h'] at hr; simp at hr
  have hblock : ∀ ids, w.all ids = true → (e.block w).all ids = true := by
    intro ids h
    simp only [W.all, List.all_eq_true] at h ⊢
    intro i hi
    have := h i hi
    unfold Eng.block
    split_ifs <;> simp [this]
  have hspread : ∀ (w : W) (g : Eng) p0 p1 v0 v1 ids, w.all ids = true → (g.spread w p0 p1 v0 v1).all ids = true := by
    intro w g p0 p1 v0 v1 ids h
    simp only [W.all, List.all_eq_true] at h ⊢
    intro i hi
    have := h i hi
    unfold Eng.spread
    split_ifs <;> simp [this]
  have hgo : ∀ (f : Eng) (w1 : W) r, f.posIds = e.posIds → f.negIds = e.negIds → f.strainRate = some r →
      f.interval = e.interval → w1.all e.posIds = true → w1.all e.negIds = true →
      ∃ o, f.go c w1 force = .ok o ∧ o.thrown = false := by
    intro f w1 r f1 f2 f3 f4 a1 a2
    unfold Eng.go
    rw [if_neg (by simp [f1, f2, hp, hq])]
    simp only [f3]
    rw [if_neg (by rw [f1, f2, a1, a2, f4]; simp [hi])]
    exact ⟨_, rfl, rfl⟩
  unfold Eng.action
  rw [if_pos hn]
  unfold Eng.init
  rw [if_neg (by rw [hap, haq]; simp [hp, hq])]
  unfold Eng.start
  simp only [block_len]
  by_cases hl : e.len w ≤ 0
  · rw [if_pos hl]
    exact ⟨_, rfl, by simp [hl]⟩
  · rw [if_neg hl]
    obtain ⟨r, v, hrv⟩ := hrates (e.len w)
    simp only [hrv, Eng.speeds]
    cases hs : e.setSpeeds with
    | false =>
      simp only [if_true]
      cases ha : e.area with
      | none =>
        simp only [Option.isNone_none]
        exact ⟨_, rfl, by simp⟩
      | some a =>
        simp only [Option.isNone_some]
        obtain ⟨o, ho, ht⟩ := hgo { e with needsInit := false, L := e.len w, strainRate := some r, absSpeed := some v, accel := e.accelTime c.dt }
          (e.block w) r rfl rfl rfl rfl (hblock _ hap) (hblock _ haq)
        refine ⟨o, ?_, by simp [ht, hl]⟩
        rw [← ho, ← ha, ← hs]
        rfl
    | true =>
      simp only [Bool.true_eq_false, if_false]
      cases hx : endSpeeds e.asym v with
      | none =>
        refine ⟨_, rfl, by simp only [true_iff]; right; right; refine ⟨trivial, ?_, ?_, ?_⟩ <;> intro h <;> simp [endSpeeds, h] at hx⟩
      | some x =>
        have hasym : ¬ (e.asym ≠ -1 ∧ e.asym ≠ 0 ∧ e.asym ≠ 1) := by
          rintro ⟨k1, k2, k3⟩
          simp [endSpeeds, k1, k2, k3] at hx
        simp only
        cases ha : e.area with
        | none =>
          simp only [Option.isNone_none]
          exact ⟨_, rfl, by simp⟩
        | some a =>
          simp only [Option.isNone_some]
          obtain ⟨o, ho, ht⟩ := hgo { e with needsInit := false, L := e.len w, strainRate := some r, absSpeed := some v, accel := 0 }
            (e.spread (e.block w) ((e.block w).pos (e.negIds.headD 0)) ((e.block w).pos (e.posIds.headD 0)) x.1 x.2) r rfl rfl rfl rfl
            (hspread _ _ _ _ _ _ _ (hblock _ hap)) (hspread _ _ _ _ _ _ _ (hblock _ haq))
          refine ⟨o, ?_, ?_⟩
          · rw [← ho, ← ha, ← hs]
            rfl
          · rw [ht]
            simp only [Bool.false_eq_true, false_iff]
            rintro (h | h | h)
            · exact hl h
            · cases h
            · exact hasym h.2

/-- **C236 (bodies).** After a first call that throws nothing the bodies at the ends are blocked along the axis, across it if
`blockDisplacements`, and against rotation if `blockRotations` - whatever was blocked before -, and no other body has
changed what is blocked. -/
theorem C236_blocked {e : Eng} {c : Clock} {w : W} {force : ℕ → ℝ} {o : Out} (hn : e.needsInit = true)
    (hd : ∀ i ∈ e.posIds, i ∉ e.negIds) (h : e.action c w force = .ok o) (ht : o.thrown = false) (i : ℕ) :
    (o.w i).map Bd.dofs = if i ∈ e.posIds ∨ i ∈ e.negIds then some ⟨true, e.blockDisplacements, e.blockRotations⟩
      else (w i).map Bd.dofs := by
  obtain ⟨f, w1, hi, hg⟩ := action_first hn h ht
  obtain ⟨h1, h2, h3, h4, h5, h6, rate, v, hfe, hv, hrv, h9, h10⟩ := init_ok hi
  have f1 : f.posIds = e.posIds := by rw [hfe]
  have f2 : f.negIds = e.negIds := by rw [hfe]
  obtain ⟨r, hr, -, -, -, ho⟩ := go_ok hg (f1 ▸ h1) (f2 ▸ h2)
  obtain ⟨d, ow⟩ : ∃ d, o.w = f.drive c.dt d w1 := ⟨_, by rw [ho]⟩
  by_cases hi' : i ∈ e.posIds ∨ i ∈ e.negIds
  · rw [if_pos hi']
    obtain ⟨b, hb, hw⟩ := init_ends hi hi'
    rcases hi' with h' | h'
    · rw [ow, drive_pos_end (f1 ▸ h') (f2 ▸ hd i h') hw]
      split_ifs <;> rfl
    · rw [ow, drive_neg_end (f2 ▸ h') (f1 ▸ fun hx => hd i hx h') hw]
      split_ifs <;> rfl
  · rw [if_neg hi']
    push Not at hi'
    rw [ow, drive_else (f2 ▸ hi'.2) (f1 ▸ hi'.1)]
    have hb : e.block w i = w i := by simp [Eng.block, hi']
    cases hs : e.setSpeeds with
    | false => rw [h9 hs, hb]
    | true =>
      obtain ⟨x, -, hx⟩ := h10 hs
      rw [hx]
      unfold Eng.spread
      rw [if_neg (by simp [hi']), hb]
      cases w i <;> rfl

/-- The hypotheses of `C236_safe_partial` and `C236_blocked` are met by the example. -/
example : ∃ o, Eng.action (exEng 1) ⟨0, 1, 0⟩ exW (fun _ => 0) = .ok o ∧ o.thrown = false ∧
    (o.w 0).map Bd.dofs = some ⟨true, false, false⟩ := by
  obtain ⟨o, ho, ht⟩ := C236_safe_partial (e := exEng 1) (c := ⟨0, 1, 0⟩) (w := exW) (fun _ => 0) rfl (by simp [exEng])
    (by simp [exEng]) (by simp [exEng, W.all, exW]) (by simp [exEng, W.all, exW]) (by simp [exEng]) (by simp [exEng, Eng.new])
  have ht' : o.thrown = false := by
    rw [← Bool.not_eq_true, ht]
    simp [Eng.len, exEng, Eng.new, exW, W.pos]
  refine ⟨o, ho, ht', ?_⟩
  rw [C236_blocked rfl (by simp [exEng]) ho ht' 0]
  simp [exEng, Eng.new]

/-- A specimen with a body in the middle. -/
noncomputable def exThree : W := fun i => if i = 2 then some ⟨1 / 4, 7, ⟨false, false, false⟩⟩ else exW i

/-- The example with `setSpeeds`. -/
def exSet : Eng := { exEng 1 with setSpeeds := true }

/-- The hypotheses of `C235_homogeneous` are met by the example with a body in the middle, moving at 7 before. -/
example : ∃ o, Fresh exSet exThree ∧ exSet.action ⟨0, 1, 0⟩ exThree (fun _ => 0) = .ok o ∧ o.thrown = false ∧
    exSet.setSpeeds = true ∧ exSet.cur = none ∧ exSet.stopStrain = none ∧ o.w.vel 2 - o.w.vel 0 = 1 / 4 := by
  obtain ⟨o, ho, ht⟩ := C236_safe_partial (e := exSet) (c := ⟨0, 1, 0⟩) (w := exThree) (fun _ => 0) rfl
    (by simp [exSet, exEng]) (by simp [exSet, exEng]) (by simp [exSet, exEng, W.all, exThree, exW])
    (by simp [exSet, exEng, W.all, exThree, exW]) (by simp [exSet, exEng]) (by simp [exSet, exEng, Eng.new])
  have ht' : o.thrown = false := by
    rw [← Bool.not_eq_true, ht]
    simp [Eng.len, exSet, exEng, Eng.new, exThree, exW, W.pos]
  have hf : Fresh exSet exThree :=
    ⟨rfl, by simp [exSet, exEng], .inr (.inl rfl), by simp [exSet, exEng, Eng.new], by simp [exSet, exEng, Eng.new]⟩
  refine ⟨o, hf, ho, ht', rfl, rfl, rfl, ?_⟩
  obtain ⟨rate, hr, hall⟩ := C235_homogeneous hf ho ht' rfl rfl rfl one_ne_zero
  have hr1 : rate = 1 := by
    rcases hr with hr | ⟨hr, -⟩
    · simpa [exSet, exEng] using hr.symm
    · simp [exSet, exEng] at hr
  rw [hall 2 0 (by rintro k (rfl | rfl) <;> simp [exThree, exW, exSet, exEng]), hr1]
  simp [exThree, exW, W.pos]

/-- **C236 (violated, no ids).** Without ids at one end the first call reads past the end of a list. -/
theorem C236_violated_empty {e : Eng} {c : Clock} {w : W} {force : ℕ → ℝ} (hn : e.needsInit = true)
    (h : e.posIds = [] ∨ e.negIds = []) : e.action c w force = .ub := by
  unfold Eng.action
  rw [if_pos hn]
  unfold Eng.init
  rw [if_pos (.inr h)]

/-- **C236 (violated, again).** An engine whose first call threw an exception takes itself for initialised: the second call throws
nothing and strains the specimen. -/
theorem C236_violated_again {e : Eng} {c c' : Clock} {w : W} {force force' : ℕ → ℝ} {o : Out} (hn : e.needsInit = true)
    (hr : e.strainRate.isSome = true) (hi : e.interval ≠ 0) (h : e.action c w force = .ok o) (ht : o.thrown = true) :
    ∃ o', o.e.action c' o.w force' = .ok o' ∧ o'.thrown = false := by
  have hne : ¬((w.all e.posIds && w.all e.negIds) = false ∨ e.posIds = [] ∨ e.negIds = []) := by
    intro hx
    unfold Eng.action Eng.init at h
    rw [if_pos hn, if_pos hx] at h
    simp at h
  have hwall : ∀ (w1 : W), (∀ i, (w1 i).isSome = (w i).isSome) → (w1.all e.posIds && w1.all e.negIds) ≠ false := by
    intro w1 h1
    have : ∀ ids, w1.all ids = w.all ids := by
      intro ids; simp only [W.all, h1]
    rw [this, this]
    exact fun hx => hne (.inl hx)
  have key : o.e.needsInit = false ∧ o.e.posIds = e.posIds ∧ o.e.negIds = e.negIds ∧ o.e.interval = e.interval ∧
      o.e.strainRate.isSome = true ∧ ∀ i, (o.w i).isSome = (w i).isSome := by
    have hb : ∀ i, (e.block w i).isSome = (w i).isSome := by
      intro i; unfold Eng.block; split_ifs <;> simp
    unfold Eng.action at h
    rw [if_pos hn] at h
    have : ∃ f w1, e.init c w = .ok (true, f, w1) ∧ o = ⟨true, f, w1, none⟩ := by
      cases hi : e.init c w with
      | ub => rw [hi] at h; simp at h
      | throws => rw [hi] at h; simp at h
      | ok x =>
        obtain ⟨b, f, w1⟩ := x
        cases b with
        | true => rw [hi] at h; simp only [Res.ok.injEq] at h; exact ⟨f, w1, rfl, h.symm⟩
        | false =>
          rw [hi] at h
          have h' : f.go c w1 force = .ok o := h
          have f1 : f.posIds = e.posIds := by
            obtain ⟨-, -, -, -, -, -, rate, v, hfe, -⟩ := init_ok hi
            rw [hfe]
          have f2 : f.negIds = e.negIds := by
            obtain ⟨-, -, -, -, -, -, rate, v, hfe, -⟩ := init_ok hi
            rw [hfe]
          obtain ⟨r, -, -, -, -, ho⟩ := go_ok h' (f1 ▸ (init_ok hi).1) (f2 ▸ (init_ok hi).2.1)
          rw [ho] at ht
          simp at ht
    obtain ⟨f, w1, hini, rfl⟩ := this
    unfold Eng.init at hini
    rw [if_neg hne] at hini
    unfold Eng.start at hini
    simp only [block_len] at hini
    by_cases hl : e.len w ≤ 0
    · rw [if_pos hl] at hini
      simp only [Res.ok.injEq, Prod.mk.injEq] at hini
      obtain ⟨-, rfl, rfl⟩ := hini
      exact ⟨rfl, rfl, rfl, rfl, hr, hb⟩
    · rw [if_neg hl] at hini
      obtain ⟨r, hr⟩ := Option.isSome_iff_exists.mp hr
      simp only [Eng.rates, hr, Eng.speeds] at hini
      cases hs : e.setSpeeds with
      | false =>
        simp only [hs, if_true, Res.ok.injEq, Prod.mk.injEq] at hini
        obtain ⟨-, rfl, rfl⟩ := hini
        exact ⟨rfl, rfl, rfl, rfl, rfl, hb⟩
      | true =>
        simp only [hs, Bool.true_eq_false, if_false] at hini
        cases hx : endSpeeds e.asym (r * e.len w) with
        | none =>
          simp only [hx, Res.ok.injEq, Prod.mk.injEq] at hini
          obtain ⟨-, rfl, rfl⟩ := hini
          exact ⟨rfl, rfl, rfl, rfl, rfl, hb⟩
        | some x =>
          simp only [hx, Res.ok.injEq, Prod.mk.injEq] at hini
          obtain ⟨-, rfl, rfl⟩ := hini
          refine ⟨rfl, rfl, rfl, rfl, rfl, fun i => ?_⟩
          rw [← hb i]
          show (Eng.spread _ _ _ _ _ _ i).isSome = _
          unfold Eng.spread
          split_ifs <;> simp
  obtain ⟨k1, k2, k3, k4, k5, k6⟩ := key
  push Not at hne
  unfold Eng.action Eng.go
  rw [if_neg (by simp [k1]), if_neg (by rw [k2, k3]; simp [hne])]
  obtain ⟨r, hr'⟩ := Option.isSome_iff_exists.mp k5
  simp only [hr']
  rw [if_neg (by rw [k2, k3, k4]; simp only [hi, or_false]; exact hwall _ k6)]
  exact ⟨_, rfl, rfl⟩

/-- The hypotheses of `C236_violated_again` are met by the example without a cross section, and those of `C236_violated_empty` by a new
engine. -/
example : ∃ o, Eng.action { exEng 1 with area := none } ⟨0, 1, 0⟩ exW (fun _ => 0) = .ok o ∧ o.thrown = true ∧
    Eng.new.needsInit = true ∧ Eng.new.posIds = [] := by
  obtain ⟨o, ho, ht⟩ := C236_safe_partial (e := { exEng 1 with area := none }) (c := ⟨0, 1, 0⟩) (w := exW) (fun _ => 0) rfl
    (by simp [exEng]) (by simp [exEng]) (by simp [exEng, W.all, exW]) (by simp [exEng, W.all, exW]) (by simp [exEng])
    (by simp [exEng, Eng.new])
  exact ⟨o, ho, ht.mpr (.inr (.inl rfl)), rfl, rfl⟩

/-! ## C237: the stress -/

/-- **C237.** In every call at an iteration that is a multiple of `stressUpdateInterval` the stress is set to `σ` if both ends are
pulled inwards with `σ` times the cross section; in all other calls it is kept. -/
theorem C237_stress {e : Eng} {c : Clock} {w : W} {force : ℕ → ℝ} {o : Out} {a σ : ℝ} (hp : e.posIds ≠ []) (hq : e.negIds ≠ [])
    (h : e.action c w force = .ok o) (ht : o.thrown = false) (ha : e.area = some a) (h0 : a ≠ 0)
    (hpos : (e.posIds.map force).sum = -(σ * a)) (hneg : (e.negIds.map force).sum = σ * a) :
    o.e.avgStress = if e.interval ∣ c.iter then some σ else e.avgStress := by
  have hgo : ∀ (f : Eng) (w1 : W), f.go c w1 force = .ok o → f.posIds = e.posIds → f.negIds = e.negIds → f.area = e.area →
      f.interval = e.interval → f.avgStress = e.avgStress → o.e.avgStress = if e.interval ∣ c.iter then some σ else e.avgStress := by
    intro f w1 hf f1 f2 f3 f4 f5
    obtain ⟨r, -, -, -, -, ho⟩ := go_ok hf (f1 ▸ hp) (f2 ▸ hq)
    rw [ho]
    simp only [Eng.report]
    by_cases hd : e.interval ∣ c.iter
    · rw [if_pos hd, if_pos (show c.iter % f.interval = 0 by rw [f4]; exact Int.emod_eq_zero_of_dvd hd)]
      simp only [Eng.stress, f1, f2, f3, ha, Option.map_some, hpos, hneg]
      congr 1
      field_simp
      ring
    · rw [if_neg hd, if_neg (show ¬ c.iter % f.interval = 0 by rw [f4]; exact fun h => hd (Int.dvd_of_emod_eq_zero h))]
      exact f5
  cases hn : e.needsInit with
  | true =>
    obtain ⟨f, w1, hi, hg⟩ := action_first hn h ht
    obtain ⟨-, -, -, -, -, -, rate, v, hfe, -⟩ := init_ok hi
    refine hgo f w1 hg ?_ ?_ ?_ ?_ ?_ <;> rw [hfe]
  | false =>
    unfold Eng.action at h
    rw [if_neg (by simp [hn])] at h
    exact hgo e w h rfl rfl rfl rfl rfl

/-- The hypotheses of `C237_stress` are met by the example with forces -3 and 3. -/
example : ∃ o, Eng.action (exEng 1) ⟨0, 1, 0⟩ exW (fun i => if i = 1 then -3 else 3) = .ok o ∧ o.thrown = false ∧
    o.e.avgStress = some 3 := by
  obtain ⟨o, ho, ht⟩ := C236_safe_partial (e := exEng 1) (c := ⟨0, 1, 0⟩) (w := exW) (fun i => if i = 1 then -3 else 3) rfl
    (by simp [exEng]) (by simp [exEng]) (by simp [exEng, W.all, exW]) (by simp [exEng, W.all, exW]) (by simp [exEng])
    (by simp [exEng, Eng.new])
  have ht' : o.thrown = false := by
    rw [← Bool.not_eq_true, ht]
    simp [Eng.len, exEng, Eng.new, exW, W.pos]
  refine ⟨o, ho, ht', ?_⟩
  rw [C237_stress (a := 1) (σ := 3) (by simp [exEng]) (by simp [exEng]) ho ht' rfl one_ne_zero (by simp [exEng])
    (by simp [exEng])]
  simp

end Verif.Uniax
