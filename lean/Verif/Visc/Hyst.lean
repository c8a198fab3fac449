import Verif.Visc.Params

/-! # C266-C268: Luding's law -/
namespace Verif.Visc

open Verif.Mech

/-! ## Specification -/

/-- The forces of a history of overlaps. -/
noncomputable def history (p : LPhys) : List ℝ → Res (LPhys × List ℝ)
  | [] => .ok (p, [])
  | d :: ds => (hys p d).bind fun x => (history x.1 ds).bind fun y => .ok (y.1, x.2 :: y.2)

/-- The stiffness of unloading from the overlap `M`: it grows from `k1` to `kp`, which is reached at `pmax`. -/
noncomputable def stiffness (k1 kp pmax M : ℝ) : ℝ := min kp (k1 + (kp - k1) * M / pmax)

/-- The overlap which remains after unloading from `M`. -/
noncomputable def plastic (k1 kp pmax pnull M : ℝ) : ℝ := min ((1 - k1 / stiffness k1 kp pmax M) * M) pnull

/-- A contact with positive stiffnesses and limit. -/
structure Good (p : LPhys) : Prop where
  pmax : 0 < p.pmax
  k1 : 0 < p.k1
  kp : p.k1 < p.kp
  kc : 0 ≤ p.kc
  limit : p.pnull = (1 - p.k1 / p.kp) * p.pmax
  max : 0 ≤ p.max
  null : 0 ≤ p.null ∧ p.null ≤ p.pnull
  virgin : p.max = 0 → p.null = 0

/-! ## Lemmas -/

theorem unload_eq {p : LPhys} (h : Good p) : unload p = stiffness p.k1 p.kp p.pmax p.max := by
  have h1 := h.pmax
  have h2 := h.kp
  unfold unload stiffness
  dsimp only
  by_cases c : p.max / p.pmax ≥ 1
  · rw [if_pos c, if_neg (lt_irrefl _), min_eq_left]
    rw [mul_div_assoc]
    nlinarith
  · rw [if_neg c]
    have : p.k1 + (p.kp - p.k1) * p.max / p.pmax ≤ p.kp := by
      rw [mul_div_assoc]
      have := mul_le_mul_of_nonneg_left (not_le.1 c).le (sub_nonneg.2 h2.le)
      linarith
    rw [if_neg (not_lt.2 this), min_eq_right this]

theorem stiffness_range {k1 kp pmax M : ℝ} (h : k1 < kp) (hp : 0 < pmax) (hM : 0 ≤ M) : k1 ≤ stiffness k1 kp pmax M ∧ stiffness k1 kp pmax M ≤ kp := by
  refine ⟨le_min h.le ?_, min_le_left _ _⟩
  have : 0 ≤ (kp - k1) * M / pmax := div_nonneg (mul_nonneg (sub_nonneg.2 h.le) hM) hp.le
  linarith

theorem stiffness_gt {k1 kp pmax M : ℝ} (h : k1 < kp) (hp : 0 < pmax) (hM : 0 < M) : k1 < stiffness k1 kp pmax M := by
  refine lt_min h ?_
  have : 0 < (kp - k1) * M / pmax := div_pos (mul_pos (sub_pos.2 h) hM) hp
  linarith

theorem stiffness_zero {k1 kp pmax : ℝ} (h : k1 < kp) : stiffness k1 kp pmax 0 = k1 := by
  unfold stiffness; rw [mul_zero, zero_div, add_zero, min_eq_right h.le]

theorem stiffen_eq {p : LPhys} (h : Good p) : stiffen p = { p with k2 := stiffness p.k1 p.kp p.pmax p.max } := by
  unfold stiffen
  rw [unload_eq h, if_neg (not_lt.2 (stiffness_range h.kp h.pmax h.max).1)]

theorem ratio {k1 k2 : ℝ} (h1 : 0 < k1) (h : k1 ≤ k2) : 0 ≤ 1 - k1 / k2 ∧ 1 - k1 / k2 < 1 := by
  have h2 : 0 < k2 := lt_of_lt_of_le h1 h
  refine ⟨sub_nonneg.2 ((div_le_one h2).2 h), ?_⟩
  have := div_pos h1 h2
  linarith

theorem hys_eq {p : LPhys} (h : Good p) (d : ℝ) : hys p d = branch (reach { p with k2 := stiffness p.k1 p.kp p.pmax p.max } d) d := by
  unfold hys
  rw [if_neg, stiffen_eq h]
  rintro (h1 | h1)
  · exact h.pmax.ne' h1
  · rw [unload_eq h] at h1
    have := (stiffness_range h.kp h.pmax h.max).1
    have := h.k1
    linarith

theorem pnull_nonneg {p : LPhys} (h : Good p) : 0 ≤ p.pnull := h.null.1.trans h.null.2

theorem free_range {p : LPhys} (hk : 0 < p.k1) (h : p.k1 ≤ p.k2) (hn : 0 ≤ p.pnull) {m : ℝ} (hm : 0 ≤ m) : 0 ≤ free p m ∧ free p m ≤ p.pnull :=
  ⟨le_min (mul_nonneg (ratio hk h).1 hm) hn, min_le_right _ _⟩

/-- What holds after the overlap is compared with the largest one. -/
theorem reach_good {p : LPhys} (h : Good p) (hk : p.k1 ≤ p.k2) {d : ℝ} (hd : 0 ≤ d) :
    Good (reach p d) ∧ (reach p d).k1 = p.k1 ∧ (reach p d).k2 = p.k2 ∧ (reach p d).kp = p.kp ∧ (reach p d).kc = p.kc ∧ (reach p d).pmax = p.pmax ∧ (reach p d).pnull = p.pnull ∧
      (reach p d).prev = p.prev := by
  unfold reach
  split_ifs with c
  · exact ⟨⟨h.pmax, h.k1, h.kp, h.kc, h.limit, hd, free_range h.k1 hk (pnull_nonneg h) hd, fun e => absurd c (by
      have := h.max; change d = 0 at e; linarith)⟩, rfl, rfl, rfl, rfl, rfl, rfl, rfl⟩
  · exact ⟨h, rfl, rfl, rfl, rfl, rfl, rfl, rfl⟩

theorem branch_good {p : LPhys} (h : Good p) (hk : p.k1 ≤ p.k2) (he : p.k2 = p.k1 → p.null = 0) {d : ℝ} (hd : 0 ≤ d) :
    ∃ x f, branch p d = .ok (x, f) ∧ Good x ∧ x.k1 = p.k1 ∧ x.k2 = p.k2 ∧ x.kp = p.kp ∧ x.kc = p.kc ∧ x.pmax = p.pmax ∧ x.pnull = p.pnull ∧ x.prev = d := by
  unfold branch
  dsimp only
  by_cases c1 : p.k2 * (d - p.null) ≥ p.k1 * d
  · rw [if_pos c1]
    exact ⟨_, _, rfl, ⟨h.pmax, h.k1, h.kp, h.kc, h.limit, h.max, h.null, h.virgin⟩, rfl, rfl, rfl, rfl, rfl, rfl, rfl⟩
  · rw [if_neg c1]
    by_cases c2 : p.k2 * (d - p.null) > -p.kc * d
    · rw [if_pos c2]
      exact ⟨_, _, rfl, ⟨h.pmax, h.k1, h.kp, h.kc, h.limit, h.max, h.null, h.virgin⟩, rfl, rfl, rfl, rfl, rfl, rfl, rfl⟩
    · rw [if_neg c2]
      by_cases c3 : d - p.prev < 0
      · have hne : p.k2 ≠ p.k1 := fun e => c1 (by rw [he e, e, sub_zero])
        have hlt : p.k1 < p.k2 := lt_of_le_of_ne hk hne.symm
        have hM : 0 ≤ d * (p.k2 + p.kc) / (p.k2 - p.k1) :=
          div_nonneg (mul_nonneg hd (by have := h.kc; have := h.k1; linarith)) (sub_nonneg.2 hk)
        rw [if_pos c3, if_neg (sub_ne_zero.2 hne)]
        refine ⟨_, _, rfl, ⟨h.pmax, h.k1, h.kp, h.kc, h.limit, hM, free_range h.k1 hk (pnull_nonneg h) hM, fun e => ?_⟩, rfl, rfl, rfl, rfl, rfl, rfl, rfl⟩
        change d * (p.k2 + p.kc) / (p.k2 - p.k1) = 0 at e
        show free p _ = 0
        rw [e]; unfold free; rw [mul_zero, min_eq_left (pnull_nonneg h)]
      · rw [if_neg c3]
        exact ⟨_, _, rfl, ⟨h.pmax, h.k1, h.kp, h.kc, h.limit, h.max, h.null, h.virgin⟩, rfl, rfl, rfl, rfl, rfl, rfl, rfl⟩

theorem good_k2 {p : LPhys} (h : Good p) (k : ℝ) : Good { p with k2 := k } := ⟨h.pmax, h.k1, h.kp, h.kc, h.limit, h.max, h.null, h.virgin⟩

/-- Without a stiffness beyond `k1`, no overlap remains. -/
theorem reach_null {p : LPhys} (h : Good p) {d : ℝ} (hd : 0 ≤ d) :
    stiffness p.k1 p.kp p.pmax p.max = p.k1 → (reach { p with k2 := stiffness p.k1 p.kp p.pmax p.max } d).null = 0 := by
  intro e
  have hm : p.max = 0 := by
    by_contra hne
    have := stiffness_gt h.kp h.pmax (lt_of_le_of_ne h.max (Ne.symm hne))
    linarith
  unfold reach
  split_ifs
  · show free { p with k2 := stiffness p.k1 p.kp p.pmax p.max } d = 0
    unfold free
    dsimp only
    rw [e, div_self h.k1.ne', sub_self, zero_mul, min_eq_left (pnull_nonneg h)]
  · exact h.virgin hm

theorem hys_good {p : LPhys} (h : Good p) {d : ℝ} (hd : 0 ≤ d) :
    ∃ x f, hys p d = .ok (x, f) ∧ Good x ∧ x.k1 = p.k1 ∧ x.k2 = stiffness p.k1 p.kp p.pmax p.max ∧ x.kp = p.kp ∧ x.kc = p.kc ∧ x.pmax = p.pmax ∧ x.pnull = p.pnull ∧ x.prev = d := by
  rw [hys_eq h]
  have hk := (stiffness_range h.kp h.pmax h.max).1
  obtain ⟨g, e1, e2, e3, e4, e5, e6, e7⟩ := reach_good (good_k2 h (stiffness p.k1 p.kp p.pmax p.max)) hk hd
  obtain ⟨x, f, hb, gx, f1, f2, f3, f4, f5, f6, f7⟩ := branch_good g (by rw [e1, e2]; exact hk) (by rw [e1, e2]; exact reach_null h hd) hd
  exact ⟨x, f, hb, gx, f1.trans e1, f2.trans e2, f3.trans e3, f4.trans e4, f5.trans e5, f6.trans e6, f7⟩

/-! ## Theorems -/

/-- **C266 (partial).** Between two spheres with positive parameters: no history of overlaps divides by zero, it keeps all parameters of the contact, the stiffness of unloading stays
between that of loading and the limit, and the overlap without force stays between zero and its limit. -/
theorem C266_history_partial (a b : LMat) {r1 r2 : ℝ} (h1 : 0 < r1) (h2 : 0 < r2) (ha : 0 < a.k1 ∧ 0 < a.kp ∧ 0 < a.kc ∧ 0 < a.phi) (hb : 0 < b.k1 ∧ 0 < b.kp ∧ 0 < b.kc ∧ 0 < b.phi) {p : LPhys}
    (hp : lmake a b (some r1) (some r2) = .ok p) (ds : List ℝ) (hds : ∀ d ∈ ds, 0 ≤ d) :
    ∃ q fs, history p ds = .ok (q, fs) ∧ fs.length = ds.length ∧ q.k1 = p.k1 ∧ q.kp = p.kp ∧ q.kc = p.kc ∧ q.pmax = p.pmax ∧ q.pnull = p.pnull ∧ (ds ≠ [] → p.k1 ≤ q.k2 ∧ q.k2 ≤ p.kp) ∧
      0 ≤ q.null ∧ q.null ≤ p.pnull ∧ 0 ≤ q.max := by
  have red : ∀ {x y : ℝ}, 0 < x → 0 < y → 0 < reduced x y := by
    intro x y hx hy
    unfold reduced; rw [serial_pos hx hy]; positivity
  have hg : Good p := by
    unfold lmake at hp
    rw [if_neg (by simp)] at hp
    split_ifs at hp with c1 c2
    have k1 := red ha.1 hb.1
    have kp := red ha.2.1 hb.2.1
    have kc := red ha.2.2.1 hb.2.2.1
    have ph := red ha.2.2.2 hb.2.2.2
    have lt := not_le.1 c1
    have d0 : 0 < reduced a.kp b.kp - reduced a.k1 b.k1 := sub_pos.2 lt
    cases hp
    refine ⟨?_, k1, lt, kc.le, ?_, le_rfl, ⟨le_rfl, ?_⟩, fun _ => rfl⟩
    · simp only [Option.getD_some]; positivity
    · simp only [Option.getD_some]; field_simp
    · simp only [Option.getD_some]; positivity
  clear hp ha hb red
  have main : ∀ (ds : List ℝ) (p : LPhys), Good p → (∀ d ∈ ds, 0 ≤ d) → ∃ q fs, history p ds = .ok (q, fs) ∧ fs.length = ds.length ∧ Good q ∧ q.k1 = p.k1 ∧ q.kp = p.kp ∧ q.kc = p.kc ∧ q.pmax = p.pmax ∧
      q.pnull = p.pnull ∧ (ds ≠ [] → p.k1 ≤ q.k2 ∧ q.k2 ≤ p.kp) := by
    intro ds
    induction ds with
    | nil => exact fun p g _ => ⟨p, [], rfl, rfl, g, rfl, rfl, rfl, rfl, rfl, fun h => absurd rfl h⟩
    | cons d ds ih =>
      intro p g hds
      obtain ⟨x, f, hx, gx, e1, e2, e3, e4, e5, e6, -⟩ := hys_good g (hds d (by simp))
      obtain ⟨q, fs, hq, hl, gq, f1, f3, f4, f5, f6, f7⟩ := ih x gx (fun y hy => hds y (by simp [hy]))
      refine ⟨q, f :: fs, ?_, by simp [hl], gq, f1.trans e1, f3.trans e3, f4.trans e4, f5.trans e5, f6.trans e6, fun _ => ?_⟩
      · unfold history; rw [hx, Res.bind_ok, hq, Res.bind_ok]
      · by_cases hn : ds = []
        · subst hn
          have : q = x := by
            unfold history at hq
            cases hq; rfl
          rw [this, e2]
          exact stiffness_range g.kp g.pmax g.max
        · have := f7 hn
          rwa [e1, e3] at this
  obtain ⟨q, fs, h, hl, gq, f1, f3, f4, f5, f6, f7⟩ := main ds p hg hds
  exact ⟨q, fs, h, hl, f1, f3, f4, f5, f6, f7, gq.null.1, by rw [← f6]; exact gq.null.2, gq.max⟩

/-- Between a sphere and another shape, the limit is zero, and the very first force is not a number. -/
theorem C266_violated_wall (a b : LMat) {r : ℝ} {p : LPhys} (hp : lmake a b (some r) none = .ok p) (d : ℝ) : p.pmax = 0 ∧ hys p d = .ub := by
  have h0 : p.pmax = 0 := by
    unfold lmake at hp
    rw [if_neg (by simp)] at hp
    split_ifs at hp
    cases hp
    simp
  exact ⟨h0, by unfold hys; rw [if_pos (Or.inl h0)]⟩

/-- The contact after `hys` has compared the overlap. -/
theorem hys_cases {p x : LPhys} {d f : ℝ} (h : Good p) (hf : hys p d = .ok (x, f)) :
    ∃ n, x.k1 = p.k1 ∧ (p.max < d → n = min ((1 - p.k1 / stiffness p.k1 p.kp p.pmax p.max) * d) p.pnull) ∧ (d ≤ p.max → n = p.null) ∧
      ((p.k1 * d ≤ stiffness p.k1 p.kp p.pmax p.max * (d - n) ∧ f = if d < p.pmax then p.k1 * d else stiffness p.k1 p.kp p.pmax p.max * (d - n)) ∨
       (stiffness p.k1 p.kp p.pmax p.max * (d - n) < p.k1 * d ∧ -p.kc * d < stiffness p.k1 p.kp p.pmax p.max * (d - n) ∧ f = stiffness p.k1 p.kp p.pmax p.max * (d - n)) ∨
       (stiffness p.k1 p.kp p.pmax p.max * (d - n) < p.k1 * d ∧ stiffness p.k1 p.kp p.pmax p.max * (d - n) ≤ -p.kc * d ∧ d < p.prev ∧ f = -p.kc * d) ∨
       (stiffness p.k1 p.kp p.pmax p.max * (d - n) < p.k1 * d ∧ stiffness p.k1 p.kp p.pmax p.max * (d - n) ≤ -p.kc * d ∧ p.prev ≤ d ∧ f = stiffness p.k1 p.kp p.pmax p.max * (d - n))) ∧
      (stiffness p.k1 p.kp p.pmax p.max * (d - n) ≥ p.k1 * d → x.null = n ∧ x.max = max p.max d) := by
  rw [hys_eq h] at hf
  generalize hk : stiffness p.k1 p.kp p.pmax p.max = k at hf ⊢
  have hr : ∃ n, (p.max < d → n = min ((1 - p.k1 / k) * d) p.pnull) ∧ (d ≤ p.max → n = p.null) ∧ reach { p with k2 := k } d = { p with k2 := k, max := max p.max d, null := n } := by
    unfold reach free
    split_ifs with c
    · exact ⟨_, fun _ => rfl, fun h => absurd c (not_lt.2 h), by rw [max_eq_right (le_of_lt c)]⟩
    · exact ⟨p.null, fun h => absurd h c, fun _ => rfl, by rw [max_eq_left (not_lt.1 c)]⟩
  obtain ⟨n, hn1, hn2, hr⟩ := hr
  rw [hr] at hf
  unfold branch at hf
  dsimp only at hf
  by_cases c1 : k * (d - n) ≥ p.k1 * d
  · rw [if_pos c1] at hf
    cases hf
    exact ⟨n, rfl, hn1, hn2, Or.inl ⟨c1, rfl⟩, fun _ => ⟨rfl, rfl⟩⟩
  · rw [if_neg c1] at hf
    have c1' := not_le.1 c1
    by_cases c2 : k * (d - n) > -p.kc * d
    · rw [if_pos c2] at hf
      cases hf
      exact ⟨n, rfl, hn1, hn2, Or.inr (Or.inl ⟨c1', c2, rfl⟩), fun h => absurd h c1⟩
    · rw [if_neg c2] at hf
      have c2' := not_lt.1 c2
      by_cases c3 : d - p.prev < 0
      · rw [if_pos c3] at hf
        split_ifs at hf
        cases hf
        exact ⟨n, rfl, hn1, hn2, Or.inr (Or.inr (Or.inl ⟨c1', c2', by linarith, rfl⟩)), fun h => absurd h c1⟩
      · rw [if_neg c3] at hf
        cases hf
        exact ⟨n, rfl, hn1, hn2, Or.inr (Or.inr (Or.inr ⟨c1', c2', by linarith, rfl⟩)), fun h => absurd h c1⟩

/-- The force of loading beyond the largest overlap is at least that of the spring `k1`. -/
theorem load_ge {p : LPhys} (h : Good p) {d n : ℝ} (hn : n = min ((1 - p.k1 / stiffness p.k1 p.kp p.pmax p.max) * d) p.pnull) : p.k1 * d ≤ stiffness p.k1 p.kp p.pmax p.max * (d - n) := by
  have hk := (stiffness_range h.kp h.pmax h.max).1
  have h1 := h.k1
  generalize stiffness p.k1 p.kp p.pmax p.max = k at *
  have hk0 : 0 < k := lt_of_lt_of_le h1 hk
  have : n ≤ (1 - p.k1 / k) * d := hn ▸ min_le_left _ _
  have e : k * (d - (1 - p.k1 / k) * d) = p.k1 * d := by field_simp; ring
  have := mul_le_mul_of_nonneg_left this hk0.le
  nlinarith

/-- **C267 (partial).** The force of a contact: below the limit it does not exceed `k1*d`, which it is whenever the overlap is larger than ever before; while bodies part it is at least
`-kc*d`; beyond the limit, once the limit was passed, loading follows `kp*(d - pnull)`. -/
theorem C267_force_partial {p x : LPhys} {d f : ℝ} (h : Good p) (hd : 0 ≤ d) (hf : hys p d = .ok (x, f)) :
    (d < p.pmax → f ≤ p.k1 * d) ∧ (p.max < d → d < p.pmax → f = p.k1 * d) ∧ (d < p.prev → -p.kc * d ≤ f) ∧ (p.pmax ≤ p.max → p.max < d → f = p.kp * (d - p.pnull)) := by
  obtain ⟨n, -, n1, n2, hc, -⟩ := hys_cases h hf
  have hkd := mul_nonneg h.k1.le hd
  have hcd := mul_nonneg h.kc hd
  refine ⟨fun l => ?_, fun l1 l2 => ?_, fun l => ?_, fun l1 l2 => ?_⟩
  · rcases hc with ⟨-, rfl⟩ | ⟨c, -, rfl⟩ | ⟨-, -, -, rfl⟩ | ⟨c, -, -, rfl⟩
    · rw [if_pos l]
    · exact c.le
    · linarith
    · exact c.le
  · have hge := load_ge h (n1 l1)
    rcases hc with ⟨-, rfl⟩ | ⟨c, -⟩ | ⟨c, -⟩ | ⟨c, -⟩
    · rw [if_pos l2]
    · linarith
    · linarith
    · linarith
  · rcases hc with ⟨c, rfl⟩ | ⟨-, c, rfl⟩ | ⟨-, -, -, rfl⟩ | ⟨-, -, c, rfl⟩
    · split_ifs <;> linarith
    · exact c.le
    · exact le_rfl
    · linarith
  · have hge := load_ge h (n1 l2)
    have hk : stiffness p.k1 p.kp p.pmax p.max = p.kp := by
      unfold stiffness
      rw [min_eq_left]
      have : 1 ≤ p.max / p.pmax := (one_le_div h.pmax).2 l1
      have := mul_le_mul_of_nonneg_left this (sub_nonneg.2 h.kp.le)
      rw [mul_div_assoc]; linarith
    have hn : n = p.pnull := by
      rw [n1 l2, hk, min_eq_right]
      rw [h.limit]
      exact mul_le_mul_of_nonneg_left (by linarith) (ratio h.k1 h.kp.le).1
    rcases hc with ⟨-, rfl⟩ | ⟨c, -⟩ | ⟨c, -⟩ | ⟨c, -⟩
    · rw [if_neg (by linarith), hk, hn]
    · linarith
    · linarith
    · linarith

/-- **C268 (partial).** The overlap which remains lags behind: for a new largest overlap, it is between the one of the law and that less a part which is proportional to the step. -/
theorem C268_lag_partial {p x : LPhys} {d f : ℝ} (h : Good p) (hd : p.max < d) (hf : hys p d = .ok (x, f)) :
    x.max = d ∧ x.null ≤ plastic p.k1 p.kp p.pmax p.pnull d ∧ plastic p.k1 p.kp p.pmax p.pnull d - (p.kp - p.k1) / (p.pmax * p.k1) * d * (d - p.max) ≤ x.null := by
  obtain ⟨n, -, n1, -, -, hx⟩ := hys_cases h hf
  obtain ⟨e1, e2⟩ := hx (load_ge h (n1 hd))
  rw [e1, e2, max_eq_right hd.le, n1 hd]
  have hd0 : 0 < d := lt_of_le_of_lt h.max hd
  have h1 := h.k1
  have hp := h.pmax
  have hK := h.kp
  obtain ⟨m1, -⟩ := stiffness_range h.kp h.pmax h.max
  obtain ⟨d1, -⟩ := stiffness_range h.kp h.pmax hd0.le
  have hmono : stiffness p.k1 p.kp p.pmax p.max ≤ stiffness p.k1 p.kp p.pmax d := by
    unfold stiffness
    refine min_le_min le_rfl ?_
    have := mul_le_mul_of_nonneg_left hd.le (sub_nonneg.2 hK.le)
    have := div_le_div_of_nonneg_right this hp.le
    linarith
  have hlip : stiffness p.k1 p.kp p.pmax d - stiffness p.k1 p.kp p.pmax p.max ≤ (p.kp - p.k1) / p.pmax * (d - p.max) := by
    have h0 : 0 ≤ (p.kp - p.k1) / p.pmax * (d - p.max) := mul_nonneg (div_nonneg (sub_nonneg.2 hK.le) hp.le) (by linarith)
    have e : p.k1 + (p.kp - p.k1) * d / p.pmax = p.k1 + (p.kp - p.k1) * p.max / p.pmax + (p.kp - p.k1) / p.pmax * (d - p.max) := by field_simp; ring
    unfold stiffness
    rw [sub_le_iff_le_add, e]
    rcases min_cases p.kp (p.k1 + (p.kp - p.k1) * p.max / p.pmax) with ⟨c, -⟩ | ⟨c, -⟩
    · rw [c]; exact (min_le_left _ _).trans (by linarith)
    · rw [c]; exact (min_le_right _ _).trans (by linarith)
  unfold plastic
  generalize stiffness p.k1 p.kp p.pmax p.max = k at *
  generalize stiffness p.k1 p.kp p.pmax d = k' at *
  have hk0 : 0 < k := lt_of_lt_of_le h1 m1
  have hk0' : 0 < k' := lt_of_lt_of_le h1 d1
  have hle : p.k1 / k' ≤ p.k1 / k := div_le_div_of_nonneg_left h1.le hk0 hmono
  refine ⟨rfl, min_le_min (mul_le_mul_of_nonneg_right (by linarith) hd0.le) le_rfl, ?_⟩
  have hq : p.k1 / k - p.k1 / k' ≤ (k' - k) / p.k1 := by
    rw [div_sub_div _ _ hk0.ne' hk0'.ne', div_le_div_iff₀ (mul_pos hk0 hk0') h1]
    have a1 : p.k1 * p.k1 ≤ k * k' := mul_le_mul m1 d1 h1.le hk0.le
    have := mul_le_mul_of_nonneg_right a1 (sub_nonneg.2 hmono)
    nlinarith
  have hE : (p.k1 / k - p.k1 / k') * d ≤ (p.kp - p.k1) / (p.pmax * p.k1) * d * (d - p.max) := by
    have h2 : (k' - k) / p.k1 ≤ (p.kp - p.k1) / p.pmax * (d - p.max) / p.k1 := div_le_div_of_nonneg_right hlip h1.le
    have h3 := mul_le_mul_of_nonneg_right (hq.trans h2) hd0.le
    have e : (p.kp - p.k1) / p.pmax * (d - p.max) / p.k1 * d = (p.kp - p.k1) / (p.pmax * p.k1) * d * (d - p.max) := by field_simp
    rwa [e] at h3
  have hE0 : 0 ≤ (p.k1 / k - p.k1 / k') * d := mul_nonneg (by linarith) hd0.le
  refine le_min ?_ ?_
  · have := min_le_left ((1 - p.k1 / k') * d) p.pnull
    have e : (1 - p.k1 / k') * d - (p.k1 / k - p.k1 / k') * d = (1 - p.k1 / k) * d := by ring
    linarith
  · have := min_le_right ((1 - p.k1 / k') * d) p.pnull
    linarith

/-- A contact which is loaded in one step unloads along the same line, to no overlap at all, as far as it was loaded. -/
theorem C268_violated {p : LPhys} (h : Good p) (h0 : p.max = 0) {d e : ℝ} (he : 0 ≤ e) (hed : e ≤ d) (hd : 0 < d) (hl : d < p.pmax) :
    ∃ x y, hys p d = .ok (x, p.k1 * d) ∧ hys x e = .ok (y, p.k1 * e) ∧ y.null = 0 ∧ 0 < plastic p.k1 p.kp p.pmax p.pnull d := by
  obtain ⟨x, f, hx, gx, e1, e2, e3, e4, e5, e6, -⟩ := hys_good h hd.le
  have hf := (C267_force_partial h hd.le hx).2.1 (by rw [h0]; exact hd) hl
  obtain ⟨n, -, n1, -, -, hn⟩ := hys_cases h hx
  obtain ⟨z1, z2⟩ := hn (load_ge h (n1 (by rw [h0]; exact hd)))
  have hn0 : n = 0 := by
    rw [n1 (by rw [h0]; exact hd), h0, stiffness_zero h.kp, div_self h.k1.ne', sub_self, zero_mul, min_eq_left (pnull_nonneg h)]
  rw [h0, max_eq_right hd.le] at z2
  rw [hn0] at z1
  obtain ⟨y, g, hy, gy, -⟩ := hys_good gx he
  obtain ⟨n', -, -, n2, hc, hn'⟩ := hys_cases gx hy
  have hn0' : n' = 0 := by rw [n2 (by rw [z2]; exact hed), z1]
  have hge : x.k1 * e ≤ stiffness x.k1 x.kp x.pmax x.max * (e - n') := by
    rw [hn0', sub_zero]
    exact mul_le_mul_of_nonneg_right (stiffness_range gx.kp gx.pmax gx.max).1 he
  have hg : g = p.k1 * e := by
    rcases hc with ⟨-, rfl⟩ | ⟨c, -⟩ | ⟨c, -⟩ | ⟨c, -⟩
    · rw [if_pos (by rw [e5]; linarith), e1]
    · linarith
    · linarith
    · linarith
  refine ⟨x, y, by rw [hx, hf], by rw [hy, hg], by rw [(hn' hge).1, hn0'], ?_⟩
  unfold plastic
  have hs := stiffness_gt h.kp h.pmax hd
  refine lt_min (mul_pos ?_ hd) ?_
  · rw [sub_pos, div_lt_one (h.k1.trans hs)]; exact hs
  · rw [h.limit]
    refine mul_pos ?_ h.pmax
    rw [sub_pos, div_lt_one (h.k1.trans h.kp)]; exact h.kp

/-! ## Cases -/

/-- A contact with a large limit. -/
noncomputable def exL (k1 kp kc pmax pnull : ℝ) : LPhys :=
  { k1 := k1, k2 := 0, kp := kp, kc := kc, ks := 1, G0 := 1, tan := 1 / 2, max := 0, null := 0, pmax := pmax, pnull := pnull, prev := 0, Fn := 0, Fs := 0 }

theorem exL_good : Good (exL 1 5 4 4 (16 / 5)) := by
  constructor <;> norm_num [exL]

/-- The history of the contact beyond its limit: the same overlap twice. -/
theorem C267_violated_jump : ∃ q, Good (exL 1 4 9 (4 / 3) 1) ∧ history (exL 1 4 9 (4 / 3) 1) [7 / 2, 7 / 2] = .ok (q, [7 / 2, 14]) := by
  refine ⟨{ exL 1 4 9 (4 / 3) 1 with k2 := 4, max := 7 / 2, null := 0, prev := 7 / 2 }, by constructor <;> norm_num [exL], ?_⟩
  have s1 : hys (exL 1 4 9 (4 / 3) 1) (7 / 2) = .ok ({ exL 1 4 9 (4 / 3) 1 with k2 := 1, max := 7 / 2, null := 0, prev := 7 / 2 }, 7 / 2) := by
    norm_num [hys, unload, exL, stiffen, reach, free, branch]
  have s2 : hys { exL 1 4 9 (4 / 3) 1 with k2 := 1, max := 7 / 2, null := 0, prev := 7 / 2 } (7 / 2) =
      .ok ({ exL 1 4 9 (4 / 3) 1 with k2 := 4, max := 7 / 2, null := 0, prev := 7 / 2 }, 14) := by
    norm_num [hys, unload, exL, stiffen, reach, free, branch]
  simp only [history, s1, s2, Res.bind_ok]

/-- A history whose last force is stronger than the greatest adhesion, `-4/3` for the overlap `1/3`. -/
theorem C267_violated_below : ∃ q, history (exL 1 5 4 4 (16 / 5)) [1, 3, 1 / 2, 1 / 3, 1 / 3] = .ok (q, [1, 3, -2, -4 / 3, -31 / 21]) := by
  refine ⟨{ exL 1 5 4 4 (16 / 5) with k2 := 31 / 12, max := 19 / 12, null := 19 / 21, prev := 1 / 3 }, ?_⟩
  have s1 : hys (exL 1 5 4 4 (16 / 5)) 1 = .ok ({ exL 1 5 4 4 (16 / 5) with k2 := 1, max := 1, null := 0, prev := 1 }, 1) := by
    norm_num [hys, unload, exL, stiffen, reach, free, branch]
  have s2 : hys { exL 1 5 4 4 (16 / 5) with k2 := 1, max := 1, null := 0, prev := 1 } 3 = .ok ({ exL 1 5 4 4 (16 / 5) with k2 := 2, max := 3, null := 3 / 2, prev := 3 }, 3) := by
    norm_num [hys, unload, exL, stiffen, reach, free, branch]
  have s3 : hys { exL 1 5 4 4 (16 / 5) with k2 := 2, max := 3, null := 3 / 2, prev := 3 } (1 / 2) =
      .ok ({ exL 1 5 4 4 (16 / 5) with k2 := 4, max := 4 / 3, null := 1, prev := 1 / 2 }, -2) := by
    norm_num [hys, unload, exL, stiffen, reach, free, branch]
  have s4 : hys { exL 1 5 4 4 (16 / 5) with k2 := 4, max := 4 / 3, null := 1, prev := 1 / 2 } (1 / 3) =
      .ok ({ exL 1 5 4 4 (16 / 5) with k2 := 7 / 3, max := 19 / 12, null := 19 / 21, prev := 1 / 3 }, -4 / 3) := by
    norm_num [hys, unload, exL, stiffen, reach, free, branch]
  have s5 : hys { exL 1 5 4 4 (16 / 5) with k2 := 7 / 3, max := 19 / 12, null := 19 / 21, prev := 1 / 3 } (1 / 3) =
      .ok ({ exL 1 5 4 4 (16 / 5) with k2 := 31 / 12, max := 19 / 12, null := 19 / 21, prev := 1 / 3 }, -31 / 21) := by
    norm_num [hys, unload, exL, stiffen, reach, free, branch]
  simp only [history, s1, s2, s3, s4, s5, Res.bind_ok]

/-- A material of Luding's law. -/
noncomputable def exLM : LMat := { k1 := 1, kp := 5, kc := 4, ks := 1, phi := 1, G0 := 1, angle := 1 / 2 }

example : ∃ p, lmake exLM exLM (some 1) (some 1) = .ok p := by
  have h : ∀ x : ℝ, reduced x x = x := fun x => by unfold reduced; rw [serial_self]; ring
  unfold lmake
  rw [if_neg (by simp), h, h, if_neg (by norm_num [exLM]), if_neg (by norm_num)]
  exact ⟨_, rfl⟩

example : ∃ p, lmake exLM exLM (some 1) none = .ok p := by
  have h : ∀ x : ℝ, reduced x x = x := fun x => by unfold reduced; rw [serial_self]; ring
  unfold lmake
  rw [if_neg (by simp), h, h, if_neg (by norm_num [exLM]), if_neg (by norm_num)]
  exact ⟨_, rfl⟩

example : ∃ x y, hys (exL 1 5 4 4 (16 / 5)) 1 = .ok (x, 1 * 1) ∧ hys x (1 / 2) = .ok (y, 1 * (1 / 2)) ∧ y.null = 0 := by
  obtain ⟨x, y, h1, h2, h3, -⟩ := C268_violated exL_good rfl (d := 1) (e := 1 / 2) (by norm_num) (by norm_num) one_pos (by norm_num [exL])
  exact ⟨x, y, h1, h2, h3⟩

end Verif.Visc
