import Verif.Uniax.Model
import Mathlib.Tactic.Linarith
import Mathlib.Tactic.Ring
import Mathlib.Tactic.FieldSimp
import Mathlib.Tactic.Push
import Mathlib.Tactic.SplitIfs

/-!
# Lemmas about straining
-/
namespace Verif.Uniax

theorem W.pos_some {w : W} {i : ℕ} {b : Bd} (h : w i = some b) : w.pos i = b.pos := by simp [W.pos, h]

theorem W.vel_some {w : W} {i : ℕ} {b : Bd} (h : w i = some b) : w.vel i = b.vel := by simp [W.vel, h]

theorem W.all_iff {w : W} {ids : List ℕ} : w.all ids = true ↔ ∀ i ∈ ids, ∃ b, w i = some b := by
  simp [W.all, Option.isSome_iff_exists]

theorem setVel_pos (w : W) (ids : List ℕ) (v : ℝ) (i : ℕ) : (w.setVel ids v).pos i = w.pos i := by
  by_cases h : i ∈ ids
  · cases hw : w i <;> simp [W.setVel, W.pos, h, hw]
  · simp [W.setVel, W.pos, h]

theorem setVel_in {w : W} {ids : List ℕ} {v : ℝ} {i : ℕ} {b : Bd} (h : i ∈ ids) (hb : w i = some b) :
    w.setVel ids v i = some { b with vel := v } := by simp [W.setVel, h, hb]

theorem setVel_out {w : W} {ids : List ℕ} {v : ℝ} {i : ℕ} (h : i ∉ ids) : w.setVel ids v i = w i := by simp [W.setVel, h]

/-- The half of the elongation that an end takes. -/
noncomputable def Eng.share (e : Eng) (d : ℝ) : ℝ := if e.asym = 0 then d * 0.5 else d

/-- What `drive` does with a body of one end. -/
theorem drive_pos_end {e : Eng} {dt d : ℝ} {w : W} {i : ℕ} {b : Bd} (hi : i ∈ e.posIds) (hn : i ∉ e.negIds)
    (hb : w i = some b) :
    e.drive dt d w i = some (if e.asym ≠ -1 then { b with vel := e.share d / dt } else b) := by
  simp only [Eng.drive]
  have h1 : (if e.asym ≠ 1 then w.setVel e.negIds (-(if e.asym = 0 then d * 0.5 else d) / dt) else w) i = some b := by
    split_ifs <;> first | exact hb | exact (setVel_out hn).trans hb
  by_cases h : e.asym ≠ -1
  · rw [if_pos h, if_pos h, setVel_in hi h1]; rfl
  · rw [if_neg h, if_neg h, h1]

/-- What `drive` does with a body of the other end. -/
theorem drive_neg_end {e : Eng} {dt d : ℝ} {w : W} {i : ℕ} {b : Bd} (hi : i ∈ e.negIds) (hn : i ∉ e.posIds)
    (hb : w i = some b) :
    e.drive dt d w i = some (if e.asym ≠ 1 then { b with vel := -e.share d / dt } else b) := by
  simp only [Eng.drive]
  have h2 : ∀ v : W, (if e.asym ≠ -1 then v.setVel e.posIds ((if e.asym = 0 then d * 0.5 else d) / dt) else v) i = v i := by
    intro v
    split_ifs <;> first | exact setVel_out hn | rfl
  rw [h2]
  by_cases h : e.asym ≠ 1
  · rw [if_pos h, if_pos h, setVel_in hi hb]; rfl
  · rw [if_neg h, if_neg h, hb]

/-- Bodies elsewhere are not touched. -/
theorem drive_else {e : Eng} {dt d : ℝ} {w : W} {i : ℕ} (hi : i ∉ e.negIds) (hn : i ∉ e.posIds) :
    e.drive dt d w i = w i := by
  simp only [Eng.drive]
  split_ifs <;> simp [W.setVel, hi, hn]

theorem report_same (e : Eng) (r len : ℝ) (iter : ℤ) (force : ℕ → ℝ) :
    let f := e.report r len iter force
    f.strainRate = e.strainRate ∧ f.absSpeed = e.absSpeed ∧ f.stopStrain = e.stopStrain ∧ f.idle = e.idle ∧ f.asym = e.asym ∧
    f.posIds = e.posIds ∧ f.negIds = e.negIds ∧ f.L = e.L ∧ f.limit = e.limit ∧ f.area = e.area ∧ f.setSpeeds = e.setSpeeds ∧
    f.interval = e.interval ∧ f.accel = e.accel ∧ f.needsInit = e.needsInit ∧ f.strain = len / e.L - 1 := by
  simp only [Eng.report]
  split_ifs <;> simp

theorem report_cur (e : Eng) (r len : ℝ) (iter : ℤ) (force : ℕ → ℝ) :
    (e.report r len iter force).cur = some r ∨ (e.report r len iter force).cur = some (-r) := by
  simp only [Eng.report]
  split_ifs <;> simp

theorem report_cur0 (e : Eng) (r len : ℝ) (iter : ℤ) (force : ℕ → ℝ) (h : e.limit = 0) :
    (e.report r len iter force).cur = some r := by
  have hr : ∀ x : Eng, x.limit = 0 → x.reverses r = false := by
    intro x hx
    simp [Eng.reverses, hx]
  simp only [Eng.report]
  rw [hr { e with cur := some r, strain := len / e.L - 1 } h]
  simp only [Bool.false_eq_true, if_false]
  split_ifs <;> rfl

/-- What a call after initialisation does. -/
theorem go_ok {e : Eng} {c : Clock} {w : W} {force : ℕ → ℝ} {o : Out} (h : e.go c w force = .ok o) (hp : e.posIds ≠ [])
    (hn : e.negIds ≠ []) :
    ∃ rate, e.strainRate = some rate ∧ w.all e.posIds = true ∧ w.all e.negIds = true ∧ e.interval ≠ 0 ∧
      let r := rateNow e.cur rate e.accel c.time
      let d := elongation e.stopStrain e.L (e.len w) (r * e.L * c.dt)
      o = ⟨false, { e.report r (e.len w) c.iter force with active := e.active && !d.2 }, e.drive c.dt d.1 w,
        if d.2 then some (c.iter + 1 + e.idle) else none⟩ := by
  unfold Eng.go at h
  rw [if_neg (by simp [hp, hn])] at h
  cases hr : e.strainRate with
  | none => rw [hr] at h; simp at h
  | some rate =>
    simp only [hr] at h
    by_cases hc : (w.all e.posIds && w.all e.negIds) = false ∨ e.interval = 0
    · rw [if_pos hc] at h; simp at h
    · rw [if_neg hc] at h
      push Not at hc
      simp only [ne_eq, Bool.not_eq_false, Bool.and_eq_true] at hc
      refine ⟨rate, rfl, hc.1.1, hc.1.2, hc.2, ?_⟩
      simp only [Res.ok.injEq] at h
      rw [← h]

/-- A specimen that the engine holds: two disjoint ends of existing bodies, blocked along the axis, the end that is not to be moved at
rest, and an engine that is initialised. -/
structure Held (e : Eng) (w : W) : Prop where
  ready : e.needsInit = false
  pos : e.posIds ≠ []
  neg : e.negIds ≠ []
  disj : ∀ i ∈ e.posIds, i ∉ e.negIds
  there : ∀ i, i ∈ e.posIds ∨ i ∈ e.negIds → ∃ b, w i = some b ∧ b.dofs.axis = true
  len : 0 < e.L
  asym : e.asym = -1 ∨ e.asym = 0 ∨ e.asym = 1
  restPos : e.asym = -1 → ∀ i ∈ e.posIds, w.vel i = 0
  restNeg : e.asym = 1 → ∀ i ∈ e.negIds, w.vel i = 0

theorem headD_mem {l : List ℕ} (h : l ≠ []) : l.headD 0 ∈ l := by
  obtain ⟨a, t, rfl⟩ := List.exists_cons_of_ne_nil h
  simp

/-- Bodies held by the engine move with their velocities. -/
theorem held_moves {e : Eng} {w w' : W} {dt : ℝ} (h : Held e w) (hm : Moves dt w w') : Held e w' ∧
    e.len w' = e.len w + (w.vel (e.posIds.headD 0) - w.vel (e.negIds.headD 0)) * dt ∧
    ∀ i, i ∈ e.posIds ∨ i ∈ e.negIds → w'.vel i = w.vel i := by
  have hv : ∀ i, i ∈ e.posIds ∨ i ∈ e.negIds → w'.vel i = w.vel i ∧ w'.pos i = w.pos i + w.vel i * dt := by
    intro i hi
    obtain ⟨b, hb, hx⟩ := h.there i hi
    have := hm.2 i b hb hx
    rw [W.vel_some this, W.vel_some hb, W.pos_some this, W.pos_some hb]
    exact ⟨rfl, rfl⟩
  refine ⟨{ h with there := ?_, restPos := ?_, restNeg := ?_ }, ?_, fun i hi => (hv i hi).1⟩
  · intro i hi
    obtain ⟨b, hb, hx⟩ := h.there i hi
    exact ⟨_, hm.2 i b hb hx, hx⟩
  · intro ha i hi
    rw [(hv i (.inl hi)).1, h.restPos ha i hi]
  · intro ha i hi
    rw [(hv i (.inr hi)).1, h.restNeg ha i hi]
  · unfold Eng.len
    rw [(hv _ (.inl (headD_mem h.pos))).2, (hv _ (.inr (headD_mem h.neg))).2]
    ring

/-- Driving the ends apart by `d`: they stay held, the difference of the velocities is that of the elongation. -/
theorem held_drive {e : Eng} {w : W} {dt d : ℝ} (h : Held e w) (hdt : dt ≠ 0) : Held e (e.drive dt d w) ∧
    e.len (e.drive dt d w) = e.len w ∧
    ((e.drive dt d w).vel (e.posIds.headD 0) - (e.drive dt d w).vel (e.negIds.headD 0)) * dt = d := by
  have hp : ∀ i ∈ e.posIds, ∃ b, w i = some b ∧ b.dofs.axis = true ∧
      e.drive dt d w i = some (if e.asym ≠ -1 then { b with vel := e.share d / dt } else b) := by
    intro i hi
    obtain ⟨b, hb, hx⟩ := h.there i (.inl hi)
    exact ⟨b, hb, hx, drive_pos_end hi (h.disj i hi) hb⟩
  have hn : ∀ i ∈ e.negIds, ∃ b, w i = some b ∧ b.dofs.axis = true ∧
      e.drive dt d w i = some (if e.asym ≠ 1 then { b with vel := -e.share d / dt } else b) := by
    intro i hi
    obtain ⟨b, hb, hx⟩ := h.there i (.inr hi)
    exact ⟨b, hb, hx, drive_neg_end hi (fun hi' => h.disj i hi' hi) hb⟩
  refine ⟨{ h with there := ?_, restPos := ?_, restNeg := ?_ }, ?_, ?_⟩
  · intro i hi
    rcases hi with hi | hi
    · obtain ⟨b, hb, hx, hd⟩ := hp i hi
      refine ⟨_, hd, ?_⟩
      split_ifs <;> exact hx
    · obtain ⟨b, hb, hx, hd⟩ := hn i hi
      refine ⟨_, hd, ?_⟩
      split_ifs <;> exact hx
  · intro ha i hi
    obtain ⟨b, hb, hx, hd⟩ := hp i hi
    rw [W.vel_some hd, if_neg (by simp [ha]), ← W.vel_some hb, h.restPos ha i hi]
  · intro ha i hi
    obtain ⟨b, hb, hx, hd⟩ := hn i hi
    rw [W.vel_some hd, if_neg (by simp [ha]), ← W.vel_some hb, h.restNeg ha i hi]
  · obtain ⟨b, hb, hx, hd⟩ := hp _ (headD_mem h.pos)
    obtain ⟨b', hb', hx', hd'⟩ := hn _ (headD_mem h.neg)
    unfold Eng.len
    rw [W.pos_some hd, W.pos_some hd', W.pos_some hb, W.pos_some hb']
    split_ifs <;> rfl
  · obtain ⟨b, hb, hx, hd⟩ := hp _ (headD_mem h.pos)
    obtain ⟨b', hb', hx', hd'⟩ := hn _ (headD_mem h.neg)
    rw [W.vel_some hd, W.vel_some hd']
    rcases h.asym with ha | ha | ha
    · have := h.restPos ha _ (headD_mem h.pos)
      rw [W.vel_some hb] at this
      simp only [ha, Eng.share]
      norm_num
      rw [this]
      field_simp
      ring
    · simp only [ha, Eng.share]
      norm_num
      field_simp
      ring
    · have := h.restNeg ha _ (headD_mem h.neg)
      rw [W.vel_some hb'] at this
      simp only [ha, Eng.share]
      norm_num
      rw [this]
      field_simp
      ring

theorem held_eng {e f : Eng} {w : W} (h : Held e w) (h1 : f.needsInit = e.needsInit) (h2 : f.posIds = e.posIds)
    (h3 : f.negIds = e.negIds) (h4 : f.L = e.L) (h5 : f.asym = e.asym) : Held f w :=
  ⟨h1 ▸ h.ready, h2 ▸ h.pos, h3 ▸ h.neg, by rw [h2, h3]; exact h.disj, by rw [h2, h3]; exact h.there, h4 ▸ h.len,
    by rw [h5]; exact h.asym, by rw [h5, h2]; exact h.restPos, by rw [h5, h3]; exact h.restNeg⟩

theorem len_eng {e f : Eng} (w : W) (h2 : f.posIds = e.posIds) (h3 : f.negIds = e.negIds) : f.len w = e.len w := by
  unfold Eng.len; rw [h2, h3]

/-- A step of a held specimen by an active engine. -/
theorem held_step {dt : ℝ} {s t : Sys} (h : Held s.e s.w) (ha : s.e.active = true) (hdt : dt ≠ 0) (hs : Step dt s t) :
    ∃ rate, s.e.strainRate = some rate ∧
      let r := rateNow s.e.cur rate s.e.accel s.time
      let d := elongation s.e.stopStrain s.e.L (s.e.len s.w) (r * s.e.L * dt)
      Held t.e t.w ∧ t.e.len t.w = s.e.len s.w + d.1 ∧ t.e.active = !d.2 ∧ t.time = s.time + dt ∧ t.iter = s.iter + 1 ∧
      t.stopAt = (if d.2 then s.iter + 1 + s.e.idle else s.stopAt) ∧
      (t.w.vel (t.e.posIds.headD 0) - t.w.vel (t.e.negIds.headD 0)) * dt = d.1 ∧
      ∃ force, t.e = { s.e.report r (s.e.len s.w) s.iter force with active := !d.2 } := by
  cases hs with
  | off h0 _ => rw [ha] at h0; exact absurd h0 (by simp)
  | @on o w' force _ hact ht hm =>
    unfold Eng.action at hact
    rw [if_neg (by simp [h.ready])] at hact
    obtain ⟨rate, hr, -, -, -, ho⟩ := go_ok hact h.pos h.neg
    refine ⟨rate, hr, ?_⟩
    simp only at ho ⊢
    generalize hd : elongation s.e.stopStrain s.e.L (s.e.len s.w) (rateNow s.e.cur rate s.e.accel s.time * s.e.L * dt) = d at *
    obtain ⟨hh, hl, hv⟩ := held_drive (d := d.1) h hdt
    obtain ⟨-, -, -, -, r1, r2, r3, r4, -, -, -, -, -, r5, -⟩ :=
      report_same s.e (rateNow s.e.cur rate s.e.accel s.time) (s.e.len s.w) s.iter force
    subst ho
    obtain ⟨m1, m2, m3⟩ := held_moves hh hm
    refine ⟨held_eng m1 r5 r2 r3 r4 r1, ?_, by simp [ha], trivial, trivial, ?_, ?_, force, by simp [ha]⟩
    · exact (len_eng (e := s.e) w' r2 r3).trans (by rw [m2, hv, hl])
    · cases d.2 <;> rfl
    · show (w'.vel ((Eng.posIds (s.e.report _ _ _ _)).headD 0) - w'.vel ((Eng.negIds (s.e.report _ _ _ _)).headD 0)) * dt = d.1
      rw [r2, r3, m3 _ (.inl (headD_mem h.pos)), m3 _ (.inr (headD_mem h.neg)), hv]

/-- A step of a held specimen without the engine. -/
theorem held_idle {dt : ℝ} {s t : Sys} (h : Held s.e s.w) (ha : s.e.active = false) (hs : Step dt s t) :
    t.e = s.e ∧ Held t.e t.w ∧
    t.e.len t.w = s.e.len s.w + (s.w.vel (s.e.posIds.headD 0) - s.w.vel (s.e.negIds.headD 0)) * dt ∧
    t.w.vel (s.e.posIds.headD 0) = s.w.vel (s.e.posIds.headD 0) ∧
    t.w.vel (s.e.negIds.headD 0) = s.w.vel (s.e.negIds.headD 0) ∧ t.iter = s.iter + 1 ∧ t.stopAt = s.stopAt := by
  cases hs with
  | on _ h0 _ _ _ => rw [ha] at h0; exact absurd h0 (by simp)
  | off _ hm =>
    obtain ⟨m1, m2, m3⟩ := held_moves h hm
    exact ⟨rfl, m1, m2, m3 _ (.inl (headD_mem h.pos)), m3 _ (.inr (headD_mem h.neg)), rfl, rfl⟩

end Verif.Uniax
