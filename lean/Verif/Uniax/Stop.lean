import Verif.Uniax.Props

/-!
# Properties of straining: C232-C234
-/
namespace Verif.Uniax

/-! ## C232: stopping at a strain -/

/-- What stays in a run: the specimen is held, and the settings are those of the beginning. -/
structure Same (e f : Eng) (w : W) : Prop where
  held : Held f w
  stop : f.stopStrain = e.stopStrain
  L : f.L = e.L
  idle : f.idle = e.idle
  rate : f.strainRate = e.strainRate
  accel : f.accel = e.accel

theorem same_step {dt : ℝ} {e : Eng} {s t : Sys} (h : Same e s.e s.w) (hdt : dt ≠ 0) (hs : Step dt s t) : Same e t.e t.w := by
  cases ha : s.e.active with
  | true =>
    obtain ⟨r, hr, hh, -, -, -, -, -, -, force, he⟩ := held_step h.held ha hdt hs
    obtain ⟨e1, -, e2, e6, -, -, -, e3, e4, -, -, -, e5, -, -⟩ := report_same s.e (rateNow s.e.cur r s.e.accel s.time)
      (s.e.len s.w) s.iter force
    refine ⟨hh, ?_, ?_, ?_, ?_, ?_⟩ <;> rw [he]
    · exact e2.trans h.stop
    · exact e3.trans h.L
    · exact e6.trans h.idle
    · exact e1.trans h.rate
    · exact e5.trans h.accel
  | false =>
    obtain ⟨he, hh, -⟩ := held_idle h.held ha hs
    exact ⟨hh, he ▸ h.stop, he ▸ h.L, he ▸ h.idle, he ▸ h.rate, he ▸ h.accel⟩

theorem same_run {dt : ℝ} {e : Eng} {s t : Sys} {k : ℕ} (h : Same e s.e s.w) (hdt : dt ≠ 0) (hs : Run dt s k t) :
    Same e t.e t.w := by
  induction hs with
  | zero => exact h
  | succ _ h2 ih => exact same_step ih hdt h2

theorem elong_hit {st L len d : ℝ} (h : ((len + d) / L - 1) * st > 0 ∧ |(len + d) / L - 1| ≥ st) :
    elongation (some st) L len d = (L * (st + 1) - len, true) := by
  simp only [elongation]; rw [if_pos h]

theorem elong_miss {st L len d : ℝ} (h : ¬(((len + d) / L - 1) * st > 0 ∧ |(len + d) / L - 1| ≥ st)) :
    elongation (some st) L len d = (d, false) := by
  simp only [elongation]; rw [if_neg h]

/-- One step towards a positive strain to stop at. -/
theorem stop_step {dt st : ℝ} {t u : Sys} (h : Held t.e t.w) (hst : t.e.stopStrain = some st) (hpos : 0 < st)
    (ha : t.e.active = true) (hdt : dt ≠ 0) (hs : Step dt t u) :
    (u.e.active = true ∧ u.e.len u.w < t.e.L * (1 + st)) ∨
    (u.e.active = false ∧ u.e.len u.w = t.e.L * (1 + st) ∧ u.stopAt = t.iter + 1 + t.e.idle) := by
  obtain ⟨r, hr, hh, hl, hact, -, -, hstop, -, -⟩ := held_step h ha hdt hs
  rw [hst] at hl hact hstop
  generalize rateNow t.e.cur r t.e.accel t.time * t.e.L * dt = d at *
  have hL := h.len
  by_cases hc : ((t.e.len t.w + d) / t.e.L - 1) * st > 0 ∧ |(t.e.len t.w + d) / t.e.L - 1| ≥ st
  · rw [elong_hit hc] at hl hact hstop
    right
    refine ⟨hact, ?_, by simpa using hstop⟩
    rw [hl]; ring
  · rw [elong_miss hc] at hl hact hstop
    left
    refine ⟨hact, ?_⟩
    rw [hl]
    by_contra hge
    push Not at hge
    have h1 : st ≤ (t.e.len t.w + d) / t.e.L - 1 := by
      have : 1 + st ≤ (t.e.len t.w + d) / t.e.L := by
        rw [le_div_iff₀ hL]; linarith
      linarith
    refine hc ⟨mul_pos (by linarith) hpos, ?_⟩
    rw [abs_of_nonneg (by linarith)]
    exact h1

/-- **C232 (partial).** With a positive `stopStrain` a specimen is never strained beyond it while the engine is on; the step in which
the engine turns itself off gives exactly this strain and has the simulation stop `idleIterations` steps later.
Missing: compression (negative strains), what happens after. -/
theorem C232_stop_partial {dt st : ℝ} {s t u : Sys} {k : ℕ} (hf : Fresh s.e s.w) (ha : s.e.active = true)
    (hst : s.e.stopStrain = some st) (hpos : 0 < st) (hdt : dt ≠ 0) (hr : Run dt s k t) (hta : t.e.active = true)
    (hs : Step dt t u) :
    (u.e.active = true ∧ u.e.len u.w < s.e.len s.w * (1 + st)) ∨
    (u.e.active = false ∧ u.e.len u.w = s.e.len s.w * (1 + st) ∧ u.stopAt = t.iter + 1 + s.e.idle) := by
  cases k with
  | zero =>
    cases hr
    obtain ⟨f, w1, hi, hh, hfa, h1⟩ := first_step hf ha hs
    obtain ⟨-, -, -, -, -, -, rate, v, hfe, -⟩ := init_ok hi
    have hL := (init_held hi hf).2.2.1
    have := stop_step (t := ⟨f, w1, s.time, s.iter, s.stopAt⟩) hh (by rw [hfe]; exact hst) hpos hfa hdt h1
    simp only [hL] at this
    rw [hfe] at this
    exact this
  | succ k =>
    obtain ⟨f, w1, hi, hh, hfa, h1⟩ := run_init hf ha hr
    obtain ⟨-, -, -, -, -, -, rate, v, hfe, -⟩ := init_ok hi
    have hL := (init_held hi hf).2.2.1
    have hsame := same_run (e := f) (s := ⟨f, w1, s.time, s.iter, s.stopAt⟩) ⟨hh, rfl, rfl, rfl, rfl, rfl⟩ hdt h1
    have hfs : f.stopStrain = some st := by rw [hfe]; exact hst
    have := stop_step hsame.held (hsame.stop.trans hfs) hpos hta hdt hs
    rw [hsame.L, hL, hsame.idle] at this
    rw [hfe] at this
    exact this

/-- The example with a strain to stop at. -/
def exStop (r st : ℝ) : Eng := { exEng r with stopStrain := some st }

theorem exStop_fresh (r st : ℝ) : Fresh (exStop r st) exW :=
  ⟨rfl, by simp [exStop, exEng], .inr (.inl rfl), by simp [exStop, exEng, Eng.new], by simp [exStop, exEng, Eng.new]⟩

theorem exStop_step (r st : ℝ) : ∃ t, Step 1 ⟨exStop r st, exW, 0, 0, 0⟩ t :=
  ex_step (dt := 1) (s := ⟨exStop r st, exW, 0, 0, 0⟩) rfl (exStop_fresh r st) rfl ⟨rfl, rfl⟩ (r := r) rfl rfl rfl
    (by simp [exStop, exEng, Eng.new])

/-- The hypotheses of `C232_stop_partial` are met by the example. -/
example : ∃ u, Fresh (exStop 1 3) exW ∧ (exStop 1 3).active = true ∧ (exStop 1 3).stopStrain = some 3 ∧
    Run 1 ⟨exStop 1 3, exW, 0, 0, 0⟩ 0 ⟨exStop 1 3, exW, 0, 0, 0⟩ ∧ Step 1 ⟨exStop 1 3, exW, 0, 0, 0⟩ u :=
  (exStop_step 1 3).imp fun _ h => ⟨exStop_fresh _ _, rfl, rfl, .zero _, h⟩

/-- **C232 (violated, compression).** With a negative `stopStrain` the first step of a compression goes to this strain at once, whatever
the rate, and ends the straining. -/
theorem C232_violated_compression {dt st rate : ℝ} {s t : Sys} (hf : Fresh s.e s.w) (ha : s.e.active = true)
    (hst : s.e.stopStrain = some st) (hneg : st < 0) (hdt : 0 < dt) (hr : s.e.strainRate = some rate) (hrate : rate < 0)
    (hc : s.e.cur = none) (hs : Step dt s t) : t.e.len t.w = s.e.len s.w * (1 + st) ∧ t.e.active = false := by
  obtain ⟨f, w1, hi, hh, hfa, h1⟩ := first_step hf ha hs
  obtain ⟨-, -, -, -, hlen, -, rate', v, hfe, -, hrr, -⟩ := init_ok hi
  obtain ⟨-, hl0, hL, -⟩ := init_held hi hf
  rcases hrr with hrr | ⟨hrr, -⟩
  · rw [hr] at hrr
    cases hrr
    obtain ⟨r, hr', -, hl, hact, -⟩ := held_step (s := ⟨f, w1, s.time, s.iter, s.stopAt⟩) hh hfa hdt.ne' h1
    have hfr : f.strainRate = some rate := by rw [hfe]
    rw [hfr] at hr'
    cases hr'
    have hfc : f.cur = none := by rw [hfe]; exact hc
    have hfs : f.stopStrain = some st := by rw [hfe]; exact hst
    simp only [hfc, hfs, rateNow, hl0, hL, elongation] at hl hact
    have hnew : (s.e.len s.w + rate * s.e.len s.w * dt) / s.e.len s.w - 1 = rate * dt := by
      field_simp
      ring
    have hn : rate * dt < 0 := mul_neg_of_neg_of_pos hrate hdt
    rw [hnew, if_pos ⟨mul_pos_of_neg_of_neg hn hneg, by linarith [abs_nonneg (rate * dt)]⟩] at hl hact
    refine ⟨?_, hact⟩
    rw [hl]; ring
  · rw [hr] at hrr; cases hrr

/-- The hypotheses of `C232_violated_compression` are met by the example: at a rate of one per cent per step, half of the length is
gone after one step. -/
example : ∃ t, Fresh (exStop (-1 / 100) (-1 / 2)) exW ∧ (exStop (-1 / 100) (-1 / 2)).cur = none ∧
    Step 1 ⟨exStop (-1 / 100) (-1 / 2), exW, 0, 0, 0⟩ t ∧ t.e.len t.w = 1 / 2 := by
  obtain ⟨t, ht⟩ := exStop_step (-1 / 100) (-1 / 2)
  refine ⟨t, exStop_fresh _ _, rfl, ht, ?_⟩
  have := (C232_violated_compression (rate := -1 / 100) (exStop_fresh _ _) rfl rfl (by norm_num) one_pos rfl (by norm_num)
    rfl ht).1
  rw [this]
  norm_num [Eng.len, exStop, exEng, exW, W.pos]

/-- **C232 (violated, after).** The bodies keep the velocities of the last step of straining: in each of the `idleIterations` after
it the specimen is strained by the same amount again. -/
theorem C232_violated_idle {dt : ℝ} {s t u : Sys} {j : ℕ} (h : Held s.e s.w) (ha : s.e.active = true) (hdt : dt ≠ 0)
    (hs : Step dt s t) (hta : t.e.active = false) (hr : Run dt t j u) :
    u.e.len u.w = t.e.len t.w + j * (t.e.len t.w - s.e.len s.w) ∧ u.e.active = false := by
  obtain ⟨r, -, hh, hl, -, -, -, -, hv, -⟩ := held_step h ha hdt hs
  have hd : (t.w.vel (t.e.posIds.headD 0) - t.w.vel (t.e.negIds.headD 0)) * dt = t.e.len t.w - s.e.len s.w := by
    rw [hv, hl]; ring
  have inv : ∀ (j : ℕ) (u : Sys), Run dt t j u → u.e = t.e ∧ Held u.e u.w ∧
      u.w.vel (t.e.posIds.headD 0) = t.w.vel (t.e.posIds.headD 0) ∧
      u.w.vel (t.e.negIds.headD 0) = t.w.vel (t.e.negIds.headD 0) ∧
      u.e.len u.w = t.e.len t.w + j * (t.e.len t.w - s.e.len s.w) := by
    intro j
    induction j with
    | zero => intro u hr; cases hr; exact ⟨rfl, hh, rfl, rfl, by simp⟩
    | succ j ih =>
      intro u hr
      cases hr with
      | succ h1 h2 =>
        obtain ⟨i1, i2, i3, i4, i5⟩ := ih _ h1
        obtain ⟨k1, k2, k3, k4, k5, -⟩ := held_idle i2 (by rw [i1]; exact hta) h2
        rw [i1] at k3 k4 k5
        refine ⟨k1.trans i1, k2, k4.trans i3, k5.trans i4, ?_⟩
        rw [i1] at i5
        rw [k3, i3, i4, hd, i5]
        push_cast; ring
  obtain ⟨i1, -, -, -, i5⟩ := inv j u hr
  exact ⟨i5, i1 ▸ hta⟩

/-- The hypotheses of `C232_violated_idle` are met by the example, which is at its strain after one step and goes on. -/
example : ∃ s t u : Sys, Held s.e s.w ∧ s.e.active = true ∧ Step 1 s t ∧ t.e.active = false ∧ Run 1 t 1 u ∧
    t.e.len t.w = 2 ∧ u.e.len u.w = 3 := by
  have hh : Held { exReady 1 with stopStrain := some 1 } (exHeldW 0 1 0 0) :=
    held_eng (ex_held 1 0 1 0 0) rfl rfl rfl rfl rfl
  obtain ⟨t, ht⟩ := step_exists (dt := 1) (s := ⟨{ exReady 1 with stopStrain := some 1 }, exHeldW 0 1 0 0, 0, 0, 0⟩) hh rfl
    (rate := 1) rfl (by simp [exReady, exEng, Eng.new])
  have hs : Eng.len { exReady 1 with stopStrain := some 1 } (exHeldW 0 1 0 0) = 1 := by
    simp [Eng.len, exReady, exEng, exHeldW, W.pos]
  obtain ⟨r, hr, -, hl, hact, -⟩ := held_step (s := ⟨{ exReady 1 with stopStrain := some 1 }, exHeldW 0 1 0 0, 0, 0, 0⟩) hh rfl
    one_ne_zero ht
  cases hr
  have hel : elongation (some 1) 1 1 (rateNow none 1 0 0 * 1 * 1) = (1, true) := by
    norm_num [elongation, rateNow]
  have e1 : t.e.len t.w = 2 := by
    rw [hl, hs]
    show 1 + (elongation (some 1) 1 1 (rateNow none 1 0 0 * 1 * 1)).1 = 2
    rw [hel]; norm_num
  have e2 : t.e.active = false := by
    rw [hact, hs]
    show (!(elongation (some 1) 1 1 (rateNow none 1 0 0 * 1 * 1)).2) = false
    rw [hel]; rfl
  obtain ⟨u, hu⟩ := idle_exists (dt := 1) e2
  refine ⟨_, t, u, hh, rfl, ht, e2, .succ (.zero _) hu, e1, ?_⟩
  have := (C232_violated_idle hh rfl one_ne_zero ht e2 (.succ (.zero _) hu)).1
  rw [this, e1, hs]; norm_num

/-! ## C233: reversing at a strain -/

/-- The same engine but for what concerns the reversal; the present rates have the same size. -/
def Alike (e f : Eng) : Prop :=
  f = { e with limit := f.limit, notYetReversed := f.notYetReversed, cur := f.cur } ∧ f.cur.map (|·|) = e.cur.map (|·|)

theorem rate_alike {a b : Option ℝ} (h : b.map (|·|) = a.map (|·|)) (rate acc time : ℝ) :
    rateNow b rate acc time = rateNow a rate acc time := by
  cases a with
  | none => cases b with
    | none => rfl
    | some y => simp at h
  | some x => cases b with
    | none => simp at h
    | some y =>
      simp only [Option.map_some, Option.some.injEq] at h
      simp only [rateNow, h]

theorem init_alike {e : Eng} (l : ℝ) (n : Bool) (q : Option ℝ) (c : Clock) (w : W) :
    Eng.init { e with limit := l, notYetReversed := n, cur := q } c w =
      (e.init c w).bind fun x => .ok (x.1, { x.2.1 with limit := l, notYetReversed := n, cur := q }, x.2.2) := by
  unfold Eng.init
  by_cases hc : (w.all e.posIds && w.all e.negIds) = false ∨ e.posIds = [] ∨ e.negIds = []
  · simp only [if_pos hc]; rfl
  · simp only [if_neg hc]
    show Eng.start { e with limit := l, notYetReversed := n, cur := q } c (e.block w) = _
    generalize e.block w = w
    unfold Eng.start
    have hl : Eng.len { e with limit := l, notYetReversed := n, cur := q } w = e.len w := rfl
    simp only [hl]
    by_cases h0 : e.len w ≤ 0
    · simp only [if_pos h0]; rfl
    · simp only [if_neg h0, Eng.rates]
      have hsp : ∀ r v, Eng.speeds { e with limit := l, notYetReversed := n, cur := q, needsInit := false, L := e.len w, strainRate := some r, absSpeed := some v } c w v =
          ((Eng.speeds { e with needsInit := false, L := e.len w, strainRate := some r, absSpeed := some v } c w v).1,
           { (Eng.speeds { e with needsInit := false, L := e.len w, strainRate := some r, absSpeed := some v } c w v).2.1 with limit := l, notYetReversed := n, cur := q },
           (Eng.speeds { e with needsInit := false, L := e.len w, strainRate := some r, absSpeed := some v } c w v).2.2) := by
        intro r v
        unfold Eng.speeds
        cases hs : e.setSpeeds with
        | false => simp [Eng.accelTime]
        | true =>
          simp only [Bool.true_eq_false, if_false]
          cases endSpeeds e.asym v with
          | none => rfl
          | some x => rfl
      cases e.strainRate with
      | some r => simp only [hsp, Res.bind_ok]
      | none =>
        cases e.absSpeed with
        | none => rfl
        | some v => simp only [Option.map_some, hsp, Res.bind_ok]

theorem init_cur {e : Eng} {c : Clock} {w : W} (b : Bool) (g : Eng) (wg : W) (h : e.init c w = .ok (b, g, wg)) :
    g.cur = e.cur := by
  have h1 := init_alike (e := e) e.limit e.notYetReversed e.cur c w
  have h2 : e.init c w = (e.init c w).bind fun x => .ok (x.1, { x.2.1 with limit := e.limit, notYetReversed := e.notYetReversed, cur := e.cur }, x.2.2) := h1
  rw [h] at h2
  simp only [Res.bind_ok, Res.ok.injEq, Prod.mk.injEq] at h2
  rw [h2.2.1]

theorem report_alike1 (e : Eng) (l : ℝ) (n : Bool) (q : Option ℝ) (r len : ℝ) (iter : ℤ) (force : ℕ → ℝ) (a : Bool) :
    let g := { Eng.report { e with limit := l, notYetReversed := n, cur := q } r len iter force with active := a }
    g = { { e.report r len iter force with active := a } with limit := g.limit, notYetReversed := g.notYetReversed, cur := g.cur } := by
  simp only [Eng.report]
  split_ifs <;> rfl

theorem report_alike2 (e : Eng) (l : ℝ) (n : Bool) (q : Option ℝ) (r len : ℝ) (iter : ℤ) (force : ℕ → ℝ) (a : Bool) :
    ({ Eng.report { e with limit := l, notYetReversed := n, cur := q } r len iter force with active := a } : Eng).cur.map (|·|) =
      ({ e.report r len iter force with active := a } : Eng).cur.map (|·|) := by
  simp only [Eng.report]
  split_ifs <;> simp

/-- One call of engines that are alike. -/
theorem go_alike {e f : Eng} {c : Clock} {w : W} {force : ℕ → ℝ} {o : Out} (h : Alike e f) (ho : e.go c w force = .ok o) :
    ∃ o', f.go c w force = .ok o' ∧ o'.thrown = o.thrown ∧ o'.w = o.w ∧ o'.stopAt = o.stopAt ∧ Alike o.e o'.e := by
  obtain ⟨hf, hc⟩ := h
  rw [hf]
  generalize f.limit = l at *
  generalize f.notYetReversed = n at *
  generalize f.cur = q at *
  clear hf
  unfold Eng.go at ho ⊢
  by_cases he : e.posIds = [] ∨ e.negIds = []
  · rw [if_pos he] at ho ⊢
    cases ho
    exact ⟨_, rfl, rfl, rfl, rfl, rfl, hc⟩
  · rw [if_neg he] at ho ⊢
    cases hr : e.strainRate with
    | none => rw [hr] at ho; simp at ho
    | some rate =>
      simp only [hr] at ho
      simp only
      by_cases hx : (w.all e.posIds && w.all e.negIds) = false ∨ e.interval = 0
      · rw [if_pos hx] at ho; simp at ho
      · rw [if_neg hx] at ho ⊢
        rw [rate_alike hc]
        simp only [Res.ok.injEq] at ho
        subst ho
        refine ⟨_, rfl, rfl, rfl, rfl, ?_⟩
        generalize rateNow e.cur rate e.accel c.time = r
        have hl : Eng.len { e with limit := l, notYetReversed := n, cur := q } w = e.len w := rfl
        rw [← hr]
        exact ⟨report_alike1 e l n q r (e.len w) c.iter force (e.active && !(elongation e.stopStrain e.L (e.len w) (r * e.L * c.dt)).2),
          report_alike2 e l n q r (e.len w) c.iter force (e.active && !(elongation e.stopStrain e.L (e.len w) (r * e.L * c.dt)).2)⟩

theorem action_alike {e f : Eng} {c : Clock} {w : W} {force : ℕ → ℝ} {o : Out} (h : Alike e f)
    (ho : e.action c w force = .ok o) :
    ∃ o', f.action c w force = .ok o' ∧ o'.thrown = o.thrown ∧ o'.w = o.w ∧ o'.stopAt = o.stopAt ∧ Alike o.e o'.e := by
  unfold Eng.action at ho ⊢
  have hn : f.needsInit = e.needsInit := by rw [h.1]
  rw [hn]
  cases hni : e.needsInit with
  | false =>
    rw [hni] at ho
    simp only [Bool.false_eq_true, if_false] at ho ⊢
    exact go_alike h ho
  | true =>
    rw [hni] at ho
    simp only [if_true] at ho ⊢
    have hi : f.init c w = (e.init c w).bind fun x => .ok (x.1, { x.2.1 with limit := f.limit, notYetReversed := f.notYetReversed, cur := f.cur }, x.2.2) := by
      rw [← init_alike f.limit f.notYetReversed f.cur c w, ← h.1]
    have hcur : ∀ b g wg, e.init c w = .ok (b, g, wg) → g.cur = e.cur := init_cur
    rw [hi]
    cases hx : e.init c w with
    | ub => rw [hx] at ho; simp at ho
    | throws => rw [hx] at ho; simp at ho
    | ok x =>
      obtain ⟨b, g, wg⟩ := x
      have hg := hcur _ _ _ hx
      rw [hx] at ho
      have ha : Alike g { g with limit := f.limit, notYetReversed := f.notYetReversed, cur := f.cur } :=
        ⟨rfl, by rw [hg]; exact h.2⟩
      cases b with
      | true =>
        simp only [Res.ok.injEq] at ho
        subst ho
        exact ⟨_, rfl, rfl, rfl, rfl, ha⟩
      | false => exact go_alike ha ho

/-- **C233 (violated).** `limitStrain` has no effect on the motion: all runs are those without a limit, though the sense should be
reversed when it is reached. -/
theorem C233_violated {dt : ℝ} {s t : Sys} {k : ℕ} (h : Run dt s k t) :
    ∃ t', Run dt { s with e := { s.e with limit := 0 } } k t' ∧ t'.w = t.w ∧ t'.stopAt = t.stopAt ∧
      t'.e.active = t.e.active ∧ t'.e.strain = t.e.strain := by
  suffices ∃ t', Run dt { s with e := { s.e with limit := 0 } } k t' ∧ t'.w = t.w ∧ t'.stopAt = t.stopAt ∧
      t'.time = t.time ∧ t'.iter = t.iter ∧ Alike t.e t'.e by
    obtain ⟨t', h1, h2, h3, -, -, h4⟩ := this
    refine ⟨t', h1, h2, h3, ?_, ?_⟩ <;> rw [h4.1]
  induction h with
  | zero => exact ⟨_, .zero _, rfl, rfl, rfl, rfl, rfl, rfl⟩
  | succ _ hs ih =>
    obtain ⟨t', h1, h2, h3, h4, h5, h6⟩ := ih
    obtain ⟨e', w', time', iter', stop'⟩ := t'
    simp only at h2 h3 h4 h5 h6
    subst h2 h3 h4 h5
    cases hs with
    | off ha hm =>
      have ha' : e'.active = false := by rw [h6.1]; exact ha
      exact ⟨_, .succ h1 (.off ha' hm), rfl, rfl, rfl, rfl, h6⟩
    | @on o w'' force ha hact ht hm =>
      have ha' : e'.active = true := by rw [h6.1]; exact ha
      obtain ⟨o', p1, p2, p3, p4, p5⟩ := action_alike h6 hact
      refine ⟨_, .succ h1 (.on force ha' p1 (p2.trans ht) (w' := w'') (p3 ▸ hm)), rfl, ?_, rfl, rfl, p5⟩
      show o'.stopAt.getD _ = o.stopAt.getD _
      rw [p4]

end Verif.Uniax
