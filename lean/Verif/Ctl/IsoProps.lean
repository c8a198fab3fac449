import Verif.Ctl.Lemmas

/-!
# Properties of PeriIsoCompressor

The specification speaks of sizes of the cell, the calls of the engine, and what is measured.
-/
namespace Verif.Ctl

open Verif.Mech

/-- Steps of a simulation with the engine: whatever happens inside the cell (`P` says what is assumed), the cell follows its velocity
gradient, which nothing else sets. First engine, size and gradient, then the last ones. -/
inductive IsoRun (P : IsoIn → Prop) (e : Iso) (s v : V3) : Iso → V3 → V3 → Prop
  | refl : IsoRun P e s v e s v
  | step {e1 : Iso} {s1 v1 : V3} {i : IsoIn} {o : IsoOut} : IsoRun P e s v e1 s1 v1 → P i → i.size = s1 →
      e1.action i = .ok o → IsoRun P e s v o.eng (grown s1 (o.grad.getD v1) i.dt) (o.grad.getD v1)

/-! ## An example -/

/-- A cell of size one with a body of size 0.1 and mean stress `-f`. -/
noncomputable def exI (f u : ℝ) (it : ℤ) (s : V3) : IsoIn :=
  { periodic := true, iter := it, dt := 1, size := s, body0 := some (some ![0.1, 0.1, 0.1]), spans := [![0.1, 0.1, 0.1]],
    force := ![f, f, f], stiff := 1, unbalanced := some u }

/-- The engine in the first call, before the cell is changed. -/
noncomputable def exE (keep : Bool) (f : ℝ) : Iso :=
  { Iso.new [-1] keep with charLen := 0.1, maxSpan := 0.1, maxDispl := 1e-3, avgStiff := 1, sigma := fun _ => -f }

theorem ex_start (keep : Bool) (f u : ℝ) (it : ℤ) :
    (Iso.new [-1] keep).start (exI f u it 1) =
      .ok { Iso.new [-1] keep with charLen := 0.1, maxSpan := 0.1, maxDispl := 1e-3 } := by
  have h2 : (![1 / 10, 1 / 10, 1 / 10] : V3) 2 = 1 / 10 := rfl
  unfold Iso.start Iso.new exI spanMax
  norm_num [h2]

theorem ex_measure (keep : Bool) (f u : ℝ) (it : ℤ) :
    ({ Iso.new [-1] keep with charLen := 0.1, maxSpan := 0.1, maxDispl := 1e-3 } : Iso).measure (exI f u it 1) =
      exE keep f := by
  unfold Iso.measure
  rw [if_pos (.inr (.inl (by norm_num [Iso.new])))]
  unfold exE exI
  congr 1
  apply v3_ext <;> simp [area]

theorem ex_minSize : minSize (1 : V3) = 1 := by simp [minSize]

theorem ex_maxSize : maxSize (1 : V3) = 1 := by simp [maxSize]

/-- The growth of the example. -/
theorem ex_grow (keep : Bool) (f : ℝ) (hf : |f - 1| ≤ 4e-3) :
    (exE keep f).grow 1 (-1) = .ok (fun _ => 1e-4 * (f - 1), fun _ => -f + 1e-4 * (f - 1), true) := by
  have hb := abs_le.1 hf
  have e0 : (1e-4 : ℝ) * (-1 - -f) = 1e-4 * (f - 1) := by ring
  have hc : |(1e-4 : ℝ) * (f - 1)| ≤ 1e-3 := by rw [abs_le]; constructor <;> norm_num at hb ⊢ <;> linarith
  have hok : |(-f + 1e-4 * (f - 1) - -1) / -1| ≤ (5e-3 : ℝ) := by
    rw [abs_le]; constructor <;> norm_num at hb ⊢ <;> linarith
  unfold Iso.grow
  cases keep with
  | true =>
    rw [if_pos (show (exE true f).keep = true from rfl)]
    have h1 : (exE true f).avgGrow 1 (-1) = .ok (1e-4 * (f - 1)) := by
      unfold Iso.avgGrow
      rw [ex_minSize, ex_maxSize]
      have hs : ((exE true f).sigma 0 + (exE true f).sigma 1 + (exE true f).sigma 2) / 3 = -f := by
        simp only [exE]; ring
      have ha : (area 1 0 + area 1 1 + area 1 2) / 3 = 1 := by simp [area]; norm_num
      have hz : ((1 : V3) 0 + (1 : V3) 1 + (1 : V3) 2) / 3 = 1 := by simp; norm_num
      have hk : (if (exE true f).avgStiff > 0 then (exE true f).avgStiff else 1) = 1 := by simp [exE]
      simp only [hs, ha, hz, hk, e0]
      rw [show (exE true f).maxDispl = 1e-3 from rfl, show (exE true f).maxSpan = 0.1 from rfl]
      simp only [mul_one, div_one, one_mul]
      rw [if_neg (not_lt.2 hc), if_neg]
      norm_num at hb ⊢
      linarith
    rw [h1]
    simp only
    have hs : ((exE true f).sigma 0 + (exE true f).sigma 1 + (exE true f).sigma 2) / 3 = -f := by
      simp only [exE]; ring
    have hz : ((1 : V3) 0 + (1 : V3) 1 + (1 : V3) 2) / 3 = 1 := by simp; norm_num
    have hk : (exE true f).avgStiff > 0 := by norm_num [exE]
    rw [if_pos hk, if_pos hk, hs, hz, show (exE true f).avgStiff = 1 from rfl]
    simp only [mul_one, div_one]
    congr 1
    refine Prod.ext ?_ (Prod.ext ?_ ?_)
    · funext a; simp
    · funext a; simp [exE]
    · simp only [decide_eq_true_eq, not_lt]; exact hok
  | false =>
    rw [if_neg (show ¬ (exE false f).keep = true by simp [exE, Iso.new])]
    have ha : ∀ a, area 1 a = 1 := by intro a; fin_cases a <;> simp [area]
    have hk : (exE false f).avgStiff > 0 := by norm_num [exE]
    have hg : ∀ a : Fin 3, max (clip (1e-4 * (-1 - (exE false f).sigma a) * area 1 a /
        (if (exE false f).avgStiff > 0 then (exE false f).avgStiff else 1)) (exE false f).maxDispl)
        (-((1 : V3) a - 2.1 * (exE false f).maxSpan)) = 1e-4 * (f - 1) := by
      intro a
      rw [if_pos hk, ha, show (exE false f).avgStiff = 1 from rfl, show (exE false f).sigma a = -f from rfl,
        show (exE false f).maxDispl = 1e-3 from rfl, show (exE false f).maxSpan = 0.1 from rfl, mul_one, div_one, e0,
        clip_id hc]
      apply max_eq_left
      norm_num at hb ⊢
      linarith
    simp only [hg]
    simp only [if_pos hk]
    congr 1
    refine Prod.ext rfl (Prod.ext ?_ ?_)
    · funext a; simp [exE]
    · simp only [decide_eq_true_eq, not_lt]
      intro a
      rw [show (exE false f).avgStiff = 1 from rfl, show (exE false f).sigma a = -f from rfl, mul_one]
      exact hok

/-- A first call that meets the only stress of the series and counts as stable. -/
theorem ex_action (keep : Bool) (f u : ℝ) (it : ℤ) (hf : |f - 1| ≤ 4e-3) (h : it % 20 ≠ 0 ∨ u < 1e-4) :
    ∃ o, (Iso.new [-1] keep).action (exI f u it 1) = .ok o ∧ o.grad = some (fun _ => 1e-4 * (f - 1)) ∧
      o.eng.state = 1 ∧ o.eng.stresses = [-1] ∧ o.eng.maxDispl = 1e-3 ∧ o.eng.maxSpan = 0.1 ∧ o.hook = true ∧
      o.eng.sigma = fun _ => -f + 1e-4 * (f - 1) := by
  have hadv : (({ exE keep f with sigma := fun _ => -f + 1e-4 * (f - 1) } : Iso).advance (exI f u it 1) true).state = 1 := by
    unfold Iso.advance
    rw [if_pos rfl, if_pos]
    · rfl
    · have hmu : ({ exE keep f with sigma := fun _ => -f + 1e-4 * (f - 1) } : Iso).maxUnbalanced = 1e-4 := rfl
      rw [hmu]
      by_cases hm : it % 20 = 0
      · have hb : ({ exE keep f with sigma := fun _ => -f + 1e-4 * (f - 1) } : Iso).balance (exI f u it 1) =
            { exE keep f with sigma := fun _ => -f + 1e-4 * (f - 1), unb := some u } := if_pos hm
        rw [hb]
        exact ⟨u, rfl, h.resolve_left (fun q => q hm)⟩
      · have hb : ({ exE keep f with sigma := fun _ => -f + 1e-4 * (f - 1) } : Iso).balance (exI f u it 1) =
            { exE keep f with sigma := fun _ => -f + 1e-4 * (f - 1) } := if_neg hm
        rw [hb]
        exact ⟨-1, rfl, by norm_num⟩
  have hsame := advance_same ({ exE keep f with sigma := fun _ => -f + 1e-4 * (f - 1) } : Iso) (exI f u it 1) true
  unfold Iso.action
  rw [if_neg (show ¬ (exI f u it 1).periodic = false by simp [exI]),
    if_neg (show ¬ (Iso.new [-1] keep).stresses.length ≤ (Iso.new [-1] keep).state by simp [Iso.new]), ex_start]
  simp only
  rw [if_neg (by rw [show (exI f u it 1).size = 1 from rfl, ex_minSize]; norm_num),
    if_neg (by norm_num [Iso.new, exI]), ex_measure]
  have hg : (exE keep f).grow (exI f u it 1).size ((exE keep f).stresses.getD (exE keep f).state 0) =
      .ok (fun _ => 1e-4 * (f - 1), fun _ => -f + 1e-4 * (f - 1), true) := ex_grow keep f hf
  rw [hg]
  refine ⟨_, rfl, ?_, hadv, hsame.1, hsame.2.2.2.1, hsame.2.2.1, ?_, hsame.2.2.2.2.1⟩
  · show (some fun a => (fun _ => (1e-4 : ℝ) * (f - 1)) a / ((exI f u it 1).dt * (exI f u it 1).size a)) = _
    refine congrArg some (funext fun a => ?_)
    simp [exI]
  · simp only [decide_eq_true_eq]
    rw [hadv]
    exact ⟨by simp [exE, Iso.new], by simp [exE, Iso.new]⟩

/-! ## Limits on the size -/

/-- C216: while the engine controls the cell, no edge gets shorter than 2.1 times the greatest body, and none changes by more than the
limit, which is a hundredth of the characteristic length. -/
theorem C216_limits (e : Iso) (i : IsoIn) (o : IsoOut) (v : V3) (h : e.action i = .ok o) (hv : o.grad = some v)
    (hs : ∀ a, 0 < i.size a) (hb : ∀ sz, i.body0 = some (some sz) → ∀ a, 0 ≤ sz a) (a : Fin 3) :
    2.1 * o.eng.maxSpan ≤ grown i.size v i.dt a ∧ |grown i.size v i.dt a - i.size a| ≤ o.eng.maxDispl ∧
      (e.maxDispl < 0 → 0 < e.charLen → o.eng.maxDispl = e.charLen / 100) ∧
      (e.maxSpan ≤ 0 → ∀ b ∈ i.spans, b a ≤ o.eng.maxSpan) := by
  obtain ⟨e1, g, sig, ok, _, _, hst, hmin, _, hdt, _, hg, rfl, ho, _⟩ := action_some h hv
  have hst' := start_ok hst
  have hm := measure_same e1 i
  have hadv := advance_same ({ e1.measure i with sigma := sig } : Iso) i ok
  have hspan : o.eng.maxSpan = e1.maxSpan := by rw [ho, hadv.2.2.1]; exact hm.2.2.2.2.2.2.1
  have hdis : o.eng.maxDispl = e1.maxDispl := by rw [ho, hadv.2.2.2.1]; exact hm.2.2.2.2.2.2.2
  have hchar : 0 < e.charLen → e1.charLen = e.charLen := by
    intro hc
    unfold Iso.start at hst
    simp only [if_neg (not_le.2 hc)] at hst
    injection hst with hst
    rw [← hst]
  have hd0 : 0 ≤ e1.maxDispl := by
    rw [hst'.2.2.2.2.2.2.2.2.2]
    by_cases hneg : e.maxDispl < 0
    · rw [if_pos hneg]
      have : 0 ≤ e1.charLen := by
        by_cases hc : e.charLen ≤ 0
        · unfold Iso.start at hst
          simp only [if_pos hc] at hst
          cases hbd : i.body0 with
          | none => rw [hbd] at hst; cases hst
          | some q =>
            cases q with
            | none => rw [hbd] at hst; cases hst
            | some sz =>
              rw [hbd] at hst
              simp only at hst
              injection hst with hst
              rw [← hst]
              have := hb sz hbd
              have h0 := this 0; have h1 := this 1; have h2 := this 2
              show 0 ≤ (sz 0 + sz 1 + sz 2) / 3
              positivity
        · rw [hchar (not_le.1 hc)]; exact (not_le.1 hc).le
      positivity
    · rw [if_neg hneg]; exact not_lt.1 hneg
  have hgb := grow_bound hs (by rw [hm.2.2.2.2.2.2.1]; exact hmin) (by rw [hm.2.2.2.2.2.2.2]; exact hd0) hg a
  rw [hm.2.2.2.2.2.2.1, hm.2.2.2.2.2.2.2] at hgb
  rw [grown_of hs hdt, hspan, hdis]
  refine ⟨hgb.2.trans (le_abs_self _), ?_, ?_, ?_⟩
  · have h1 := abs_abs_sub_abs_le (i.size a + g a) (i.size a)
    rw [abs_of_pos (hs a)] at h1
    refine h1.trans ?_
    rw [add_sub_cancel_left]; exact hgb.1
  · intro hneg hc
    rw [hst'.2.2.2.2.2.2.2.2.2, if_pos hneg, hchar hc]; norm_num; ring
  · intro hsp b hbm
    rw [hst'.2.2.2.2.2.2.2.2.1, if_pos hsp]
    exact le_spanMax _ _ b hbm a

/-- In every run from a new engine with the same bodies, the engine knows their greatest span. -/
theorem run_span {sp : List V3} {e : Iso} {s v : V3} {e1 : Iso} {s1 v1 : V3} (h0 : e.maxSpan ≤ 0)
    (h : IsoRun (fun i => i.spans = sp) e s v e1 s1 v1) : e1.maxSpan ≤ 0 ∨ ∀ b ∈ sp, ∀ a, b a ≤ e1.maxSpan := by
  induction h with
  | refl => exact .inl h0
  | @step e2 s2 v2 i o _ hP _ hact ih =>
    cases hv : o.grad with
    | none => rw [(action_none hact hv).1]; exact ih
    | some v =>
      obtain ⟨e3, g, sig, ok, _, _, hst, _, _, _, _, _, _, ho, _⟩ := action_some hact hv
      have hst' := start_ok hst
      have hm := measure_same e3 i
      have hadv := advance_same ({ e3.measure i with sigma := sig } : Iso) i ok
      have hspan : o.eng.maxSpan = e3.maxSpan := by rw [ho, hadv.2.2.1]; exact hm.2.2.2.2.2.2.1
      rw [hspan, hst'.2.2.2.2.2.2.2.2.1]
      by_cases hc : e2.maxSpan ≤ 0
      · rw [if_pos hc]
        exact .inr fun b hb a => le_spanMax _ _ b (hP ▸ hb) a
      · rw [if_neg hc]
        exact ih

/-- C216 over runs: with a new engine and unchanged bodies, after every step in which the engine controls the cell every
edge is at least 2.1 times as long as every body. -/
theorem C216_run (sp : List V3) (e : Iso) (s v : V3) (e1 : Iso) (s1 v1 : V3) (h0 : e.maxSpan ≤ 0)
    (h : IsoRun (fun i => i.spans = sp) e s v e1 s1 v1) (i : IsoIn) (o : IsoOut) (w : V3) (hi : i.spans = sp)
    (hs : i.size = s1) (hact : e1.action i = .ok o) (hw : o.grad = some w) (hpos : ∀ a, 0 < s1 a)
    (hb : ∀ sz, i.body0 = some (some sz) → ∀ a, 0 ≤ sz a) (b : V3) (hbm : b ∈ sp) (a : Fin 3) :
    2.1 * b a ≤ grown s1 w i.dt a := by
  have hl := C216_limits e1 i o w hact hw (hs ▸ hpos) hb a
  have h2 := run_span h0 (.step h hi hs hact)
  rw [hs] at hl
  have h3 : b a ≤ o.eng.maxSpan := by
    rcases run_span h0 h with hneg | _
    · exact hl.2.2.2 hneg b (hi ▸ hbm)
    · rcases h2 with hneg | hall
      · -- spans would be not positive, so the bound on the span is found in this step too
        by_cases hc : e1.maxSpan ≤ 0
        · exact hl.2.2.2 hc b (hi ▸ hbm)
        · exfalso
          obtain ⟨e3, g, sig, ok, _, _, hst, _, _, _, _, _, _, ho, _⟩ := action_some hact hw
          have hst' := start_ok hst
          have hm := measure_same e3 i
          have hadv := advance_same ({ e3.measure i with sigma := sig } : Iso) i ok
          have hspan : o.eng.maxSpan = e3.maxSpan := by rw [ho, hadv.2.2.1]; exact hm.2.2.2.2.2.2.1
          rw [hspan, hst'.2.2.2.2.2.2.2.2.1, if_neg hc] at hneg
          exact hc hneg
      · exact hall b hbm a
  linarith [hl.1]

/-- Both apply to the example, where the cell grows. -/
example : ∃ o v, (Iso.new [-1] false).action (exI 1.004 0 0 1) = .ok o ∧ o.grad = some v ∧
    (∀ a, 2.1 * (0.1 : ℝ) ≤ grown 1 v 1 a) := by
  obtain ⟨o, h, hg, _⟩ := ex_action false 1.004 0 0 (by norm_num [abs_le]) (.inr (by norm_num))
  refine ⟨o, _, h, hg, fun a => ?_⟩
  have hex : (![0.1, 0.1, 0.1] : V3) a = 0.1 := by fin_cases a <;> rfl
  have := C216_run [![0.1, 0.1, 0.1]] (Iso.new [-1] false) 1 0 _ _ _ (by norm_num [Iso.new]) .refl (exI 1.004 0 0 1) o _ rfl rfl h
    hg (fun _ => by simp) (by
      intro sz hz a
      have : sz = ![0.1, 0.1, 0.1] := by injection hz with hz; injection hz with hz; exact hz.symm
      rw [this]; fin_cases a <;> simp <;> norm_num) _ (List.mem_singleton.2 rfl) a
  rw [hex] at this
  exact this

/-! ## Proportions -/

/-- With `keepProportions` the gradient is the same along all axes. -/
theorem keep_same {e : Iso} {i : IsoIn} {o : IsoOut} {v : V3} (h : e.action i = .ok o) (hv : o.grad = some v)
    (hk : e.keep = true) (hs : ∀ a, 0 < i.size a) : o.eng.keep = true ∧ ∀ a b, v a = v b := by
  obtain ⟨e1, g, sig, ok, _, _, hst, _, _, hdt, _, hg, rfl, ho, _⟩ := action_some h hv
  have hst' := start_ok hst
  have hm := measure_same e1 i
  have hadv := advance_same ({ e1.measure i with sigma := sig } : Iso) i ok
  have hk1 : (e1.measure i).keep = true := by rw [hm.2.2.1, hst'.2.2.1]; exact hk
  refine ⟨by rw [ho, hadv.2.1]; exact hk1, ?_⟩
  unfold Iso.grow at hg
  rw [if_pos hk1] at hg
  cases h1 : (e1.measure i).avgGrow i.size (e1.stresses.getD e1.state 0) with
  | ub => rw [h1] at hg; cases hg
  | throws => rw [h1] at hg; cases hg
  | ok q =>
    rw [h1] at hg
    simp only at hg
    injection hg with hg
    have hgv : g = (q / ((i.size 0 + i.size 1 + i.size 2) / 3)) • i.size := (congrArg Prod.fst hg).symm
    intro a b
    have ha := (hs a).ne'; have hb := (hs b).ne'; have hd := hdt.ne'
    simp only [hgv, Pi.smul_apply, smul_eq_mul]
    generalize q / ((i.size 0 + i.size 1 + i.size 2) / 3) = c
    field_simp

/-- C217: with `keepProportions`, through every run, whatever forces act, the proportions of the cell are exactly those it had. -/
theorem C217_proportions (P : IsoIn → Prop) (e : Iso) (s v : V3) (e1 : Iso) (s1 v1 : V3) (hk : e.keep = true)
    (hP : ∀ i, P i → ∀ a, 0 < i.size a) (hv : ∀ a b, v a = v b) (h : IsoRun P e s v e1 s1 v1) (a b : Fin 3) :
    s1 a * s b = s1 b * s a := by
  have key : e1.keep = true ∧ (∀ a b, v1 a = v1 b) ∧ ∀ a b, s1 a * s b = s1 b * s a := by
    induction h with
    | refl => exact ⟨hk, hv, fun a b => mul_comm _ _⟩
    | @step e2 s2 v2 i o _ hPi hsz hact ih =>
      obtain ⟨ik, iv, is⟩ := ih
      have hpos := hP i hPi
      have hgr : ∀ w : V3, (∀ a b, w a = w b) → ∀ a b, grown s2 w i.dt a * s b = grown s2 w i.dt b * s a := by
        intro w hw a b
        unfold grown
        have h1 : s2 a + i.dt * w a * s2 a = (1 + i.dt * w a) * s2 a := by ring
        have h2 : s2 b + i.dt * w b * s2 b = (1 + i.dt * w a) * s2 b := by rw [hw b a]; ring
        rw [h1, h2, abs_mul, abs_mul, ← hsz, abs_of_pos (hpos a), abs_of_pos (hpos b), hsz]
        have := is a b
        linear_combination |1 + i.dt * w a| * this
      cases hv' : o.grad with
      | none =>
        rw [(action_none hact hv').1]
        exact ⟨ik, iv, hgr v2 iv⟩
      | some w =>
        have hw := keep_same hact hv' ik hpos
        exact ⟨hw.1, hw.2, hgr w hw.2⟩
  exact key.2.2 a b

/-- A run of the example, where the cell changes its size. -/
example : ∃ e1 v1, IsoRun (fun i => ∀ a, 0 < i.size a) (Iso.new [-1] true) 1 0 e1 (grown 1 v1 1) v1 ∧ v1 = fun _ => 4e-7 := by
  obtain ⟨o, h, hg, _⟩ := ex_action true 1.004 0 0 (by norm_num [abs_le]) (.inr (by norm_num))
  have hr := IsoRun.step (.refl (P := fun i => ∀ a, 0 < i.size a) (e := Iso.new [-1] true) (s := 1) (v := 0))
    (i := exI 1.004 0 0 1) (fun _ => by simp [exI]) rfl h
  refine ⟨o.eng, o.grad.getD 0, hr, ?_⟩
  rw [hg]
  funext _
  norm_num

/-! ## Going on to the next stress -/

/-- C218, partial: the engine goes on by one stress at a time, only if the stress known (of each axis, or the mean one) is within
0.5% of the goal, and, in the steps with `iter % globalUpdateInt = 0`, only if the unbalanced force then measured is
below `maxUnbalanced`; the hook runs exactly when the last stress is left behind. Missing: the other steps, see `C218_violated`. -/
theorem C218_next_partial (e : Iso) (i : IsoIn) (o : IsoOut) (h : e.action i = .ok o) :
    (o.eng.state = e.state ∨ o.eng.state = e.state + 1) ∧
      (o.eng.state ≠ e.state →
        (e.keep = false → ∀ a, |o.eng.sigma a - e.stresses.getD e.state 0| ≤ 5e-3 * |e.stresses.getD e.state 0|) ∧
        (e.keep = true → |(o.eng.sigma 0 + o.eng.sigma 1 + o.eng.sigma 2) / 3 - e.stresses.getD e.state 0| ≤
          5e-3 * |e.stresses.getD e.state 0|) ∧
        (i.iter % e.updateInt = 0 → ∃ u, i.unbalanced = some u ∧ u < e.maxUnbalanced)) ∧
      (o.hook = true ↔ o.eng.state ≠ e.state ∧ o.eng.state = e.stresses.length) := by
  cases hv : o.grad with
  | none =>
    obtain ⟨h1, _, h3⟩ := action_none h hv
    rw [h1, h3]
    exact ⟨.inl rfl, fun hne => absurd rfl hne, by simp⟩
  | some v =>
    obtain ⟨e1, g, sig, ok, _, _, hst, _, _, _, hgoal, hg, _, ho, hh⟩ := action_some h hv
    have hst' := start_ok hst
    have hm := measure_same e1 i
    have hadv := advance_same ({ e1.measure i with sigma := sig } : Iso) i ok
    have hsig : o.eng.sigma = sig := by rw [ho, hadv.2.2.2.2.1]
    have hstate : ({ e1.measure i with sigma := sig } : Iso).state = e.state := by
      show (e1.measure i).state = _
      rw [hm.2.1, hst'.2.1]
    rw [hst'.1, hst'.2.1] at hg hgoal
    have hcase := advance_state ({ e1.measure i with sigma := sig } : Iso) i ok
    rw [← ho, hstate] at hcase
    refine ⟨hcase.imp id fun q => q.1, fun hne => ?_, by rw [hh]; simp⟩
    obtain ⟨_, hok, hlt⟩ := hcase.resolve_left hne
    subst hok
    have hG : (0 : ℝ) < |e.stresses.getD e.state 0| := abs_pos.2 hgoal.ne
    have conv : ∀ x : ℝ, ¬ |(x - e.stresses.getD e.state 0) / e.stresses.getD e.state 0| > 5e-3 →
        |x - e.stresses.getD e.state 0| ≤ 5e-3 * |e.stresses.getD e.state 0| := by
      intro x hx
      rw [not_lt, abs_div, div_le_iff₀ hG] at hx
      exact hx
    have hkeep : (e1.measure i).keep = e.keep := by rw [hm.2.2.1, hst'.2.2.1]
    refine ⟨?_, ?_, ?_⟩
    · intro hk a
      unfold Iso.grow at hg
      rw [if_neg (by rw [hkeep, hk]; simp)] at hg
      injection hg with hg
      have h2 := congrArg Prod.snd hg
      have h3 : _ = sig := congrArg Prod.fst h2
      have h4 := of_decide_eq_true (congrArg Prod.snd h2)
      rw [hsig]
      apply conv
      rw [← h3]
      exact h4 a
    · intro hk
      unfold Iso.grow at hg
      rw [if_pos (by rw [hkeep, hk])] at hg
      cases h1 : (e1.measure i).avgGrow i.size (e.stresses.getD e.state 0) with
      | ub => rw [h1] at hg; cases hg
      | throws => rw [h1] at hg; cases hg
      | ok q =>
        rw [h1] at hg
        simp only at hg
        injection hg with hg
        have h2 := congrArg Prod.snd hg
        have h3 : _ = sig := congrArg Prod.fst h2
        have h4 := of_decide_eq_true (congrArg Prod.snd h2)
        rw [hsig]
        apply conv
        rw [← h3]
        by_cases hp : (e1.measure i).avgStiff > 0
        · rw [if_pos hp] at h4 ⊢
          have e5 : ((fun a => (e1.measure i).sigma a + q * (e1.measure i).avgStiff) (0 : Fin 3) +
              (fun a => (e1.measure i).sigma a + q * (e1.measure i).avgStiff) (1 : Fin 3) +
              (fun a => (e1.measure i).sigma a + q * (e1.measure i).avgStiff) (2 : Fin 3)) / 3 =
              ((e1.measure i).sigma 0 + (e1.measure i).sigma 1 + (e1.measure i).sigma 2) / 3 +
                q * (e1.measure i).avgStiff := by ring
          rw [e5]; exact h4
        · rw [if_neg hp] at h4 ⊢
          exact h4
    · intro hit
      have hu : ({ e1.measure i with sigma := sig } : Iso).updateInt = e.updateInt := by
        show (e1.measure i).updateInt = _
        rw [hm.2.2.2.1, hst'.2.2.2.1]
      have hmu : ({ e1.measure i with sigma := sig } : Iso).maxUnbalanced = e.maxUnbalanced := by
        show (e1.measure i).maxUnbalanced = _
        rw [hm.2.2.2.2.1, hst'.2.2.2.2.1]
      unfold Iso.balance at hlt
      rw [if_pos (by rw [hu]; exact hit), hmu] at hlt
      exact hlt

/-- It applies to the example, where the only stress is met. -/
example : ∃ o, (Iso.new [-1] false).action (exI 1.004 0 0 1) = .ok o ∧ o.eng.state ≠ (Iso.new [-1] false).state := by
  obtain ⟨o, h, _, hs, _⟩ := ex_action false 1.004 0 0 (by norm_num [abs_le]) (.inr (by norm_num))
  exact ⟨o, h, by rw [hs]; simp [Iso.new]⟩

/-- C218, violated: however unbalanced the packing is, a new engine whose first call falls on a step that is no multiple of
`globalUpdateInt` takes it as stable (the initial value -1 counts), goes on, and at the end of the series runs the hook. -/
theorem C218_violated (u : ℝ) (keep : Bool) : ∃ e i o, e = Iso.new [-1] keep ∧ i.unbalanced = some u ∧
    e.action i = .ok o ∧ o.eng.state = 1 ∧ o.hook = true := by
  obtain ⟨o, h, _, hs, _, _, _, hh, _⟩ := ex_action keep 1 u 1 (by norm_num) (.inl (by norm_num))
  exact ⟨_, _, o, rfl, rfl, h, hs, hh⟩

/-! ## After the last stress -/

/-- C219, partial: after the last stress the engine does nothing any more. Missing: that the cell stays, see `C219_violated`. -/
theorem C219_done_partial (e : Iso) (i : IsoIn) (hp : i.periodic = true) (h : e.stresses.length ≤ e.state) :
    e.action i = .ok ⟨e, none, false⟩ := by
  unfold Iso.action
  rw [if_neg (by rw [hp]; simp), if_pos h]

example : ∃ e : Iso, e.stresses.length ≤ e.state ∧ e.stresses = [-1] :=
  ⟨{ Iso.new [-1] true with state := 1 }, by simp [Iso.new], rfl⟩

/-- After the last stress the cell goes on with the gradient it had. -/
theorem drift (P : IsoIn → Prop) (e : Iso) (s v : V3) (e1 : Iso) (s1 v1 : V3) (h : IsoRun P e s v e1 s1 v1)
    (hend : e1.stresses.length ≤ e1.state) (i : IsoIn) (hP : ∀ s, P { i with size := s }) (hp : i.periodic = true)
    (hdt : 0 < i.dt) (hv : ∀ a, 0 ≤ v1 a) (hs : ∀ a, 0 ≤ s1 a) (n : ℕ) :
    IsoRun P e s v e1 (fun a => s1 a * (1 + i.dt * v1 a) ^ n) v1 := by
  induction n with
  | zero => simpa using h
  | succ n ih =>
    have h1 := IsoRun.step ih (hP _) rfl
      (C219_done_partial e1 { i with size := fun a => s1 a * (1 + i.dt * v1 a) ^ n } hp hend)
    have h2 : grown (fun a => s1 a * (1 + i.dt * v1 a) ^ n) v1 i.dt = fun a => s1 a * (1 + i.dt * v1 a) ^ (n + 1) := by
      funext a
      unfold grown
      have := hv a; have := hs a
      rw [abs_of_nonneg (by positivity)]
      ring
    rw [← h2]
    exact h1

/-- C219, violated: after the last stress was met, the cell goes on growing without end, as the last gradient is never taken
back; the stress just reached is lost. Here the cell has size one when the engine starts, the stress is within 0.4% of the goal,
and every size is exceeded. -/
theorem C219_violated (keep : Bool) (M : ℝ) : ∃ e1 s1 v1, IsoRun (fun _ => True) (Iso.new [-1] keep) 1 0 e1 s1 v1 ∧
    e1.state = 1 ∧ e1.stresses = [-1] ∧ M < s1 0 := by
  obtain ⟨o, h, hg, hs, hst, _⟩ := ex_action keep 1.004 0 0 (by norm_num [abs_le]) (.inr (by norm_num))
  have hr := IsoRun.step (.refl (P := fun _ => True) (e := Iso.new [-1] keep) (s := 1) (v := 0)) (i := exI 1.004 0 0 1)
    trivial rfl h
  rw [hg] at hr
  have hd := drift _ _ _ _ _ _ _ hr (by rw [hs, hst]; simp) (exI 1.004 0 1 1) (fun _ => trivial) rfl one_pos
    (fun a => by simp only [Option.getD_some]; norm_num) (fun a => abs_nonneg _)
  obtain ⟨n, hn⟩ := pow_unbounded_of_one_lt M (show (1 : ℝ) < 1 + 1 * (1e-4 * (1.004 - 1)) by norm_num)
  refine ⟨_, _, _, hd n, hs, hst, hn.trans_le ?_⟩
  simp only [Option.getD_some]
  have h1 : (1 : ℝ) ≤ grown 1 (fun _ => 1e-4 * (1.004 - 1)) (exI 1.004 0 0 1).dt 0 := by
    unfold grown exI
    simp only [Pi.one_apply]
    rw [abs_of_nonneg (by norm_num)]
    norm_num
  have h2 : (0 : ℝ) ≤ (1 + 1 * (1e-4 * (1.004 - 1))) ^ n := by positivity
  calc (1 + 1 * (1e-4 * (1.004 - 1)) : ℝ) ^ n = 1 * (1 + 1 * (1e-4 * (1.004 - 1))) ^ n := by ring
    _ ≤ _ := mul_le_mul_of_nonneg_right h1 h2

/-! ## Unusable scenes -/

/-- C220, partial: with a periodic cell, a characteristic length, a nonzero interval, compressive stresses and a positive time
step, the engine works or raises an exception, and it raises one if the cell is too small for the greatest body.
Missing: scenes it cannot be used on, see `C220_violated`. -/
theorem C220_usable_partial (e : Iso) (i : IsoIn) (hp : i.periodic = true) (hc : 0 < e.charLen) (hu : e.updateInt ≠ 0)
    (hg : ∀ g ∈ e.stresses, g < 0) (hdt : 0 < i.dt) :
    e.action i ≠ .ub ∧
      (e.state < e.stresses.length → (∃ b ∈ i.spans, ∃ a c, i.size c < 2.1 * b a) → e.maxSpan ≤ 0 → e.action i = .throws) := by
  have hst : ∃ e1, e.start i = .ok e1 := by
    unfold Iso.start
    simp only [if_neg (not_le.2 hc)]
    exact ⟨_, rfl⟩
  obtain ⟨e1, h1⟩ := hst
  have hst' := start_ok h1
  have hm := measure_same e1 i
  refine ⟨?_, ?_⟩
  · unfold Iso.action
    rw [if_neg (by rw [hp]; simp)]
    by_cases hs : e.stresses.length ≤ e.state
    · rw [if_pos hs]; simp
    rw [if_neg hs, h1]
    simp only
    by_cases h2 : minSize i.size < 2.1 * e1.maxSpan
    · rw [if_pos h2]; simp
    rw [if_neg h2]
    have hlt := not_le.1 hs
    have hgoal : e.stresses.getD e.state 0 < 0 := by
      rw [show e.stresses.getD e.state 0 = e.stresses[e.state] by simp [List.getD, hlt]]
      exact hg _ (List.getElem_mem hlt)
    rw [if_neg (by
      rw [hst'.1, hst'.2.1, hst'.2.2.2.1]
      rintro (q | q | q)
      · exact hu q
      · exact absurd q (not_le.2 hgoal)
      · exact absurd q (not_le.2 hdt))]
    have hgr : ∀ e : Iso, ∀ s goal, e.grow s goal ≠ .ub := by
      intro e s goal
      have hav : e.avgGrow s goal ≠ .ub := by
        unfold Iso.avgGrow
        simp only
        split_ifs <;> simp
      unfold Iso.grow
      by_cases hk : e.keep = true
      · rw [if_pos hk]
        cases h1 : e.avgGrow s goal with
        | ub => exact absurd h1 hav
        | throws => simp
        | ok q => simp
      · rw [if_neg hk]; simp
    cases h4 : (e1.measure i).grow i.size ((e1.measure i).stresses.getD (e1.measure i).state 0) with
    | ub => exact absurd h4 (hgr _ _ _)
    | throws => simp
    | ok q => simp
  · rintro hs ⟨b, hb, a, c, hlt⟩ hsp
    unfold Iso.action
    rw [if_neg (by rw [hp]; simp), if_neg (not_le.2 hs), h1]
    simp only
    rw [if_pos]
    have h2 := minSize_le i.size c
    have h3 := le_spanMax e.maxSpan i.spans b hb a
    rw [hst'.2.2.2.2.2.2.2.2.1, if_pos hsp]
    linarith

/-- The hypotheses are met by the example with a characteristic length. -/
example : ∃ e i, e = { Iso.new [-1] true with charLen := 1 } ∧ i = exI 1 0 0 1 ∧ e.action i ≠ .ub :=
  ⟨_, _, rfl, rfl, (C220_usable_partial _ (exI 1 0 0 1) rfl one_pos (by simp [Iso.new]) (by
    intro g hg
    have : g = -1 := by simpa [Iso.new] using hg
    rw [this]; norm_num) one_pos).1⟩

/-- C220, violated: on a scene without a periodic cell, on a scene without a body 0 (or whose body 0 has no bound) if no
characteristic length was given, and with `globalUpdateInt = 0`, no exception is raised: `throw;` without an exception ends the process, a
missing body is used, or there is a division by zero. -/
theorem C220_violated :
    (∀ (e : Iso) (i : IsoIn), i.periodic = false → e.action i = .ub) ∧
      (∀ (l : List ℝ) (keep : Bool) (i : IsoIn), l ≠ [] → i.periodic = true → (∀ sz, i.body0 ≠ some (some sz)) →
        (Iso.new l keep).action i = .ub) ∧
      (∃ e i, e = { Iso.new [-1] true with updateInt := 0 } ∧ i = exI 1 0 0 1 ∧ e.action i = .ub) := by
  refine ⟨?_, ?_, _, _, rfl, rfl, ?_⟩
  · intro e i hp
    unfold Iso.action
    rw [if_pos hp]
  · intro l keep i hl hp hb
    unfold Iso.action
    rw [if_neg (by rw [hp]; simp), if_neg (by
      simp only [Iso.new, not_le]
      exact List.length_pos_iff.2 hl)]
    have : (Iso.new l keep).start i = .ub := by
      unfold Iso.start
      rw [if_pos (by norm_num [Iso.new])]
      cases hbd : i.body0 with
      | none => rfl
      | some q =>
        cases q with
        | none => rfl
        | some sz => exact absurd hbd (hb sz)
    rw [this]
  · unfold Iso.action
    rw [if_neg (by simp [exI]), if_neg (by simp [Iso.new])]
    have : ({ Iso.new [-1] true with updateInt := 0 } : Iso).start (exI 1 0 0 1) =
        .ok { Iso.new [-1] true with updateInt := 0, charLen := 0.1, maxSpan := 0.1, maxDispl := 1e-3 } := by
      have h2 : (![1 / 10, 1 / 10, 1 / 10] : V3) 2 = 1 / 10 := rfl
      unfold Iso.start Iso.new exI spanMax
      norm_num [h2]
    rw [this]
    simp only
    rw [if_neg (by rw [show (exI 1 0 0 1).size = 1 from rfl, ex_minSize]; norm_num), if_pos (by simp)]

end Verif.Ctl
