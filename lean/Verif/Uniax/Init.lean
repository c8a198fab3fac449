import Verif.Uniax.Lemmas

/-!
# Initialisation of straining
-/
namespace Verif.Uniax

/-- A specimen before the first call of the engine: two disjoint ends, the end that is not to be moved at rest. -/
structure Fresh (e : Eng) (w : W) : Prop where
  fresh : e.needsInit = true
  disj : ∀ i ∈ e.posIds, i ∉ e.negIds
  asym : e.asym = -1 ∨ e.asym = 0 ∨ e.asym = 1
  restPos : e.asym = -1 → ∀ i ∈ e.posIds, w.vel i = 0
  restNeg : e.asym = 1 → ∀ i ∈ e.negIds, w.vel i = 0

theorem block_pos (e : Eng) (w : W) (i : ℕ) : (e.block w).pos i = w.pos i := by
  unfold Eng.block W.pos
  by_cases h : i ∈ e.posIds ∨ i ∈ e.negIds
  · simp only [if_pos h]; cases w i <;> rfl
  · simp only [if_neg h]

theorem block_vel (e : Eng) (w : W) (i : ℕ) : (e.block w).vel i = w.vel i := by
  unfold Eng.block W.vel
  by_cases h : i ∈ e.posIds ∨ i ∈ e.negIds
  · simp only [if_pos h]; cases w i <;> rfl
  · simp only [if_neg h]

theorem block_in {e : Eng} {w : W} {i : ℕ} {b : Bd} (h : i ∈ e.posIds ∨ i ∈ e.negIds) (hb : w i = some b) :
    e.block w i = some { b with dofs := e.dofs } := by simp [Eng.block, h, hb]

theorem spread_in {e : Eng} {w : W} {i : ℕ} {p0 p1 v0 v1 : ℝ} (h : i ∈ e.posIds ∨ i ∈ e.negIds) :
    e.spread w p0 p1 v0 v1 i = w i := by simp [Eng.spread, h]

theorem spread_out {e : Eng} {w : W} {i : ℕ} {p0 p1 v0 v1 : ℝ} {b : Bd} (h : ¬ (i ∈ e.posIds ∨ i ∈ e.negIds))
    (hb : w i = some b) :
    e.spread w p0 p1 v0 v1 i = some { b with vel := (b.pos - p0) / (p1 - p0) * (v1 - v0) + v0 } := by
  simp only [Eng.spread, if_neg h, hb, Option.map_some]

theorem block_len (e : Eng) (w : W) : e.len (e.block w) = e.len w := by
  unfold Eng.len; rw [block_pos, block_pos]

/-- What the first call does before it goes on. -/
theorem init_ok {e f : Eng} {c : Clock} {w w1 : W} (h : e.init c w = .ok (false, f, w1)) :
    e.posIds ≠ [] ∧ e.negIds ≠ [] ∧ w.all e.posIds = true ∧ w.all e.negIds = true ∧ 0 < e.len w ∧ e.area.isSome = true ∧
    ∃ rate v, f = { e with needsInit := false, L := e.len w, strainRate := some rate, absSpeed := some v, accel := if e.setSpeeds then 0 else e.accelTime c.dt } ∧
      v = rate * e.len w ∧
      (e.strainRate = some rate ∨ (e.strainRate = none ∧ e.absSpeed = some v)) ∧
      (e.setSpeeds = false → w1 = e.block w) ∧
      (e.setSpeeds = true → ∃ x, endSpeeds e.asym v = some x ∧
        w1 = e.spread (e.block w) (w.pos (e.negIds.headD 0)) (w.pos (e.posIds.headD 0)) x.1 x.2) := by
  unfold Eng.init at h
  by_cases hc : (w.all e.posIds && w.all e.negIds) = false ∨ e.posIds = [] ∨ e.negIds = []
  · rw [if_pos hc] at h; simp at h
  rw [if_neg hc] at h
  push Not at hc
  simp only [ne_eq, Bool.not_eq_false, Bool.and_eq_true] at hc
  unfold Eng.start at h
  simp only [block_len] at h
  by_cases hl : e.len w ≤ 0
  · rw [if_pos hl] at h; simp at h
  rw [if_neg hl] at h
  push Not at hl
  refine ⟨hc.2.1, hc.2.2, hc.1.1, hc.1.2, hl, ?_⟩
  have key : ∀ rate v, Eng.speeds { e with needsInit := false, L := e.len w, strainRate := some rate, absSpeed := some v } c (e.block w) v = (false, f, w1) →
      e.area.isSome = true ∧
      f = { e with needsInit := false, L := e.len w, strainRate := some rate, absSpeed := some v, accel := if e.setSpeeds then 0 else e.accelTime c.dt } ∧
      (e.setSpeeds = false → w1 = e.block w) ∧
      (e.setSpeeds = true → ∃ x, endSpeeds e.asym v = some x ∧
        w1 = e.spread (e.block w) (w.pos (e.negIds.headD 0)) (w.pos (e.posIds.headD 0)) x.1 x.2) := by
    intro rate v hk
    unfold Eng.speeds at hk
    simp only at hk
    cases hs : e.setSpeeds with
    | false =>
      simp only [hs, if_true, Prod.mk.injEq] at hk
      refine ⟨by have := hk.1; cases h : e.area <;> simp_all, ?_, fun _ => hk.2.2.symm, by simp⟩
      rw [← hk.2.1]
      simp [Eng.accelTime, hs]
    | true =>
      simp only [hs, Bool.true_eq_false, if_false] at hk
      cases hx : endSpeeds e.asym v with
      | none => rw [hx] at hk; simp at hk
      | some x =>
        simp only [hx, Prod.mk.injEq] at hk
        refine ⟨by have := hk.1; cases h : e.area <;> simp_all, ?_, by simp, fun _ => ⟨x, rfl, ?_⟩⟩
        · rw [← hk.2.1]; simp [hs]
        · rw [← hk.2.2, block_pos, block_pos]; rfl
  unfold Eng.rates at h
  simp only at h
  cases hr : e.strainRate with
  | some r =>
    simp only [hr, Res.ok.injEq] at h
    obtain ⟨k1, k2, k3, k4⟩ := key _ _ h
    exact ⟨k1, r, _, k2, rfl, .inl rfl, k3, k4⟩
  | none =>
    simp only [hr] at h
    cases ha : e.absSpeed with
    | none => rw [ha] at h; simp at h
    | some v =>
      simp only [ha, Option.map_some, Res.ok.injEq] at h
      obtain ⟨k1, k2, k3, k4⟩ := key _ _ h
      exact ⟨k1, v / e.len w, v, k2, by field_simp, .inr ⟨rfl, rfl⟩, k3, k4⟩

/-- A fresh specimen that the engine accepts is held from then on. -/
theorem init_held {e f : Eng} {c : Clock} {w w1 : W} (h : e.init c w = .ok (false, f, w1)) (hf : Fresh e w) :
    Held f w1 ∧ f.len w1 = e.len w ∧ f.L = e.len w ∧ ∀ i, i ∈ e.posIds ∨ i ∈ e.negIds → w1 i = e.block w i := by
  obtain ⟨h1, h2, h3, h4, h5, h6, rate, v, rfl, h7, h8, h9, h10⟩ := init_ok h
  have hw : ∀ i, i ∈ e.posIds ∨ i ∈ e.negIds → w1 i = e.block w i := by
    intro i hi
    cases hs : e.setSpeeds with
    | false => rw [h9 hs]
    | true =>
      obtain ⟨x, -, hx⟩ := h10 hs
      rw [hx, spread_in hi]
  have hvel : ∀ i, i ∈ e.posIds ∨ i ∈ e.negIds → w1.vel i = w.vel i := by
    intro i hi
    rw [← block_vel e w i]
    unfold W.vel; rw [hw i hi]
  have hpos : ∀ i, i ∈ e.posIds ∨ i ∈ e.negIds → w1.pos i = w.pos i := by
    intro i hi
    rw [← block_pos e w i]
    unfold W.pos; rw [hw i hi]
  refine ⟨⟨rfl, h1, h2, hf.disj, ?_, h5, hf.asym, ?_, ?_⟩, ?_, rfl, hw⟩
  · intro i hi
    have : ∃ b, w i = some b := by
      rcases hi with hi | hi
      · exact W.all_iff.mp h3 i hi
      · exact W.all_iff.mp h4 i hi
    obtain ⟨b, hb⟩ := this
    exact ⟨_, (hw i hi).trans (block_in hi hb), rfl⟩
  · intro ha i hi
    rw [hvel i (.inl hi)]; exact hf.restPos ha i hi
  · intro ha i hi
    rw [hvel i (.inr hi)]; exact hf.restNeg ha i hi
  · show w1.pos (e.posIds.headD 0) - w1.pos (e.negIds.headD 0) = e.len w
    rw [hpos _ (.inl (headD_mem h1)), hpos _ (.inr (headD_mem h2))]
    rfl

/-- The first step of a fresh specimen is a step after initialisation. -/
theorem first_step {dt : ℝ} {s t : Sys} (hf : Fresh s.e s.w) (ha : s.e.active = true) (hs : Step dt s t) :
    ∃ f w1, s.e.init ⟨s.time, dt, s.iter⟩ s.w = .ok (false, f, w1) ∧ Held f w1 ∧ f.active = true ∧
      Step dt ⟨f, w1, s.time, s.iter, s.stopAt⟩ t := by
  cases hs with
  | off h0 _ => rw [ha] at h0; exact absurd h0 (by simp)
  | @on o w' force _ hact ht hm =>
    unfold Eng.action at hact
    rw [if_pos hf.fresh] at hact
    cases hi : s.e.init ⟨s.time, dt, s.iter⟩ s.w with
    | ub => rw [hi] at hact; simp at hact
    | throws => rw [hi] at hact; simp at hact
    | ok x =>
      obtain ⟨b, f, w1⟩ := x
      cases b with
      | true => rw [hi] at hact; simp only [Res.ok.injEq] at hact; rw [← hact] at ht; simp at ht
      | false =>
        rw [hi] at hact
        have hh := (init_held hi hf).1
        have hfa : f.active = true := by
          obtain ⟨-, -, -, -, -, -, rate, v, rfl, -⟩ := init_ok hi
          exact ha
        refine ⟨f, w1, rfl, hh, hfa, Step.on (s := ⟨f, w1, s.time, s.iter, s.stopAt⟩) force hfa ?_ ht hm⟩
        unfold Eng.action
        rw [if_neg (by simp [hh.ready])]
        exact hact

end Verif.Uniax
