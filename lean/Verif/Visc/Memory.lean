import Verif.Visc.Props

/-! # C259, C260: what a viscoelastic contact keeps from step to step -/
namespace Verif.Visc

open Verif.Mech

theorem limit_stick {tan cs : ℝ} {Fn t v : V3} (h : norm3 t ≤ |tan| * norm3 Fn) : limit tan cs Fn t v = (t, cs • v) := by
  unfold limit
  rw [if_neg]
  rw [← sqrt_limit] at h
  have := (Real.sqrt_le_sqrt_iff (mul_nonneg (sqNorm_nonneg _) (sq_nonneg _))).1 h
  exact not_lt.2 this

/-- Specification: the shear force of an elastic contact after a step, from the one before turned with the contact, and the shear velocity; a new contact has none before. -/
def Elastic (ks dt : ℝ) (g : ScGeom) (fresh : Bool) (before vs after : V3) : Prop :=
  (fresh = true → after = (ks * dt) • vs) ∧ (fresh = false → after = g.rotate before + (ks * dt) • vs)

theorem rotate_zero (g : ScGeom) : g.rotate 0 = 0 := by
  apply v3_ext <;> simp [ScGeom.rotate, cross]

theorem trial_elastic (ks : ℝ) (Fs : V3) (g : ScGeom) (s1 s2 : State) (c : Ctx) : Elastic ks c.dt g c.fresh Fs (shearVel g s1 s2 c) (trial ks Fs g s1 s2 c) := by
  unfold trial
  refine ⟨fun h => ?_, fun h => ?_⟩
  · rw [h, if_pos rfl, rotate_zero, zero_add]
  · rw [h]; simp

/-- **C260**: while friction allows it, the shear force is elastic with memory, and the dashpot adds to the loads; the force of an elastic contact which friction allows is the one kept. -/
theorem C260_memory (p : Phys) (g : ScGeom) (s1 s2 : State) (c : Ctx) (hd : 0 ≤ g.pd) {t : V3} (ht : Elastic p.ks c.dt g c.fresh p.Fs (shearVel g s1 s2 c) t) (hs : norm3 t ≤ |p.tan| * norm3 (go p g s1 s2 c).phys.Fn) :
    (go p g s1 s2 c).phys.Fs = t ∧ (c.active = true → (go p g s1 s2 c).loads.f2 = (go p g s1 s2 c).phys.Fn + t + p.cs • shearVel g s1 s2 c) := by
  have e : t = trial p.ks p.Fs g s1 s2 c := by
    have h := trial_elastic p.ks p.Fs g s1 s2 c
    cases hf : c.fresh
    · rw [ht.2 hf, h.2 hf]
    · rw [ht.1 hf, h.1 hf]
  unfold go at hs ⊢
  rw [if_neg (not_lt.2 hd)] at hs ⊢
  dsimp only at hs ⊢
  rw [e] at hs
  rw [limit_stick hs, e]
  refine ⟨rfl, fun h => ?_⟩
  rw [if_pos h]
  rfl

/-- **C260**: the same for Luding's law. -/
theorem C260_memory_luding (p : LPhys) (g : ScGeom) (s1 s2 : State) (c : Ctx) (hd : 0 ≤ g.pd) {o : LOut} (h : lgo p g s1 s2 c = .ok o) {t : V3} (ht : Elastic p.ks c.dt g c.fresh p.Fs (shearVel g s1 s2 c) t)
    (hs : norm3 t ≤ |p.tan| * norm3 o.phys.Fn) : o.phys.Fs = t ∧ (c.active = true → o.loads.f2 = o.phys.Fn + t + p.G0 • shearVel g s1 s2 c) := by
  have e : t = trial p.ks p.Fs g s1 s2 c := by
    have h := trial_elastic p.ks p.Fs g s1 s2 c
    cases hf : c.fresh
    · rw [ht.2 hf, h.2 hf]
    · rw [ht.1 hf, h.1 hf]
  unfold lgo at h
  rw [if_neg (not_lt.2 hd)] at h
  rcases hx : hys p g.pd with x | _ | _
  · rw [hx, Res.bind_ok] at h
    cases h
    dsimp only at hs ⊢
    rw [e] at hs
    rw [limit_stick hs, e]
    refine ⟨rfl, fun h => ?_⟩
    rw [if_pos h]
    rfl
  · rw [hx] at h; simp at h
  · rw [hx] at h; simp at h

/-- **C259**: the normal force of Luding's law is along the normal, and its damping never adds energy. -/
theorem C259_luding_damping (p : LPhys) (g : ScGeom) (s1 s2 : State) (c : Ctx) (hG : 0 ≤ p.G0) (hd : 0 ≤ g.pd) {o : LOut} (h : lgo p g s1 s2 c = .ok o) :
    ∃ x f a, hys p g.pd = .ok (x, f) ∧ o.phys.Fn = a • g.normal ∧ 0 ≤ (a - f) * normalVel g s1 s2 c ∧ (normalVel g s1 s2 c = 0 → a = f) := by
  unfold lgo at h
  rw [if_neg (not_lt.2 hd)] at h
  rcases hx : hys p g.pd with x | _ | _
  · rw [hx, Res.bind_ok] at h
    cases h
    refine ⟨x.1, x.2, _, rfl, rfl, ?_, fun h0 => by rw [h0]; ring⟩
    have : (x.2 + p.G0 * normalVel g s1 s2 c - x.2) * normalVel g s1 s2 c = p.G0 * (normalVel g s1 s2 c * normalVel g s1 s2 c) := by ring
    rw [this]
    exact mul_nonneg hG (mul_self_nonneg _)
  · rw [hx] at h; simp at h
  · rw [hx] at h; simp at h

end Verif.Visc
