import Verif.Visc.Luding
import Verif.Mech.ContactProps

/-! # C259-C265: viscoelastic contacts -/
namespace Verif.Visc

open Verif.Mech

/-- **C259**: the normal force never attracts, damping never adds energy, and while bodies approach each other the force is that of a spring and a dashpot. -/
theorem C259_normal (p : Phys) (g : ScGeom) (s1 s2 : State) (c : Ctx) (hk : 0 ≤ p.kn) (hc : 0 ≤ p.cn) (hd : 0 ≤ g.pd) :
    ∃ a : ℝ, (go p g s1 s2 c).phys.Fn = a • g.normal ∧ 0 ≤ a ∧ 0 ≤ (a - p.kn * g.pd) * normalVel g s1 s2 c ∧
      (0 ≤ normalVel g s1 s2 c → a = p.kn * g.pd + p.cn * normalVel g s1 s2 c) := by
  have h1 := mul_nonneg hk hd
  refine ⟨push p g.pd (normalVel g s1 s2 c), by rw [go, if_neg (not_lt.2 hd)], ?_, ?_, fun hv => ?_⟩
  · unfold push; split_ifs with h <;> linarith
  · unfold push
    split_ifs with h
    · have hv : normalVel g s1 s2 c ≤ 0 := by
        by_contra hv
        have := mul_nonneg hc (not_le.1 hv).le
        linarith
      nlinarith
    · have : (p.kn * g.pd + p.cn * normalVel g s1 s2 c - p.kn * g.pd) * normalVel g s1 s2 c = p.cn * (normalVel g s1 s2 c * normalVel g s1 s2 c) := by ring
      rw [this]; exact mul_nonneg hc (mul_self_nonneg _)
  · unfold push
    rw [if_neg]
    have := mul_nonneg hc hv
    linarith

theorem loads_balanced (g : ScGeom) (s1 s2 : State) (c : Ctx) (f m : V3) : Balanced s1.pos (s2.pos + c.shift2) (loads g s1 s2 c f m) := by
  refine ⟨by simp [loads], fun o => ?_⟩
  apply v3_ext <;> simp [loads, loadMoment, cross] <;> ring

/-- **C259**: forces and moments of a contact are in balance, rolling resistance included. -/
theorem C259_balanced (p : Phys) (g : ScGeom) (s1 s2 : State) (c : Ctx) : Balanced s1.pos (s2.pos + c.shift2) (go p g s1 s2 c).loads := by
  unfold go
  split_ifs with h h2
  · exact balanced_zero _ _
  · exact loads_balanced _ _ _ _ _ _
  · exact balanced_zero _ _

/-- **C259**: the same for Luding's law. -/
theorem C259_luding (p : LPhys) (g : ScGeom) (s1 s2 : State) (c : Ctx) {o : LOut} (h : lgo p g s1 s2 c = .ok o) : Balanced s1.pos (s2.pos + c.shift2) o.loads := by
  unfold lgo at h
  by_cases h0 : g.pd < 0
  · rw [if_pos h0] at h; cases h; exact balanced_zero _ _
  · rw [if_neg h0] at h
    rcases hx : hys p g.pd with x | _ | _
    · rw [hx, Res.bind_ok] at h
      cases h
      dsimp only; split_ifs
      · exact loads_balanced _ _ _ _ _ _
      · exact balanced_zero _ _
    · rw [hx] at h; simp at h
    · rw [hx] at h; simp at h

theorem norm3_smul (a : ℝ) (v : V3) : norm3 (a • v) = |a| * norm3 v := by
  unfold norm3
  rw [sqNorm_smul, Real.sqrt_mul (sq_nonneg a), Real.sqrt_sq_eq_abs]

theorem sqrt_limit (tan : ℝ) (F : V3) : Real.sqrt (sqNorm F * tan ^ 2) = |tan| * norm3 F := by
  unfold norm3
  rw [mul_comm, Real.sqrt_mul (sq_nonneg tan), Real.sqrt_sq_eq_abs]

theorem limit_le (tan cs : ℝ) (Fn t v : V3) : norm3 (limit tan cs Fn t v).1 ≤ |tan| * norm3 Fn := by
  unfold limit
  split_ifs with h
  · have ht : 0 < norm3 t := by
      rw [norm3, Real.sqrt_pos]
      exact lt_of_le_of_lt (mul_nonneg (sqNorm_nonneg _) (sq_nonneg _)) h
    rw [norm3_smul, sqrt_limit, abs_of_nonneg (div_nonneg (mul_nonneg (abs_nonneg _) (norm3_nonneg _)) ht.le)]
    field_simp
    exact le_rfl
  · rw [← sqrt_limit]; exact Real.sqrt_le_sqrt (not_lt.1 h)

/-- **C260 (partial).** The shear force kept by a contact does not exceed the friction limit; when it slides, it is the whole shear force, is at the
limit, and has the direction of the force before. -/
theorem C260_stored_partial (p : Phys) (g : ScGeom) (s1 s2 : State) (c : Ctx) (hd : 0 ≤ g.pd) :
    norm3 (go p g s1 s2 c).phys.Fs ≤ |p.tan| * norm3 (go p g s1 s2 c).phys.Fn ∧
      (|p.tan| * norm3 (go p g s1 s2 c).phys.Fn < norm3 (trial p.ks p.Fs g s1 s2 c) →
        norm3 (go p g s1 s2 c).phys.Fs = |p.tan| * norm3 (go p g s1 s2 c).phys.Fn ∧
        (c.active = true → (go p g s1 s2 c).loads.f2 = (go p g s1 s2 c).phys.Fn + (go p g s1 s2 c).phys.Fs) ∧
        ∃ a : ℝ, 0 ≤ a ∧ (go p g s1 s2 c).phys.Fs = a • trial p.ks p.Fs g s1 s2 c) := by
  rw [go, if_neg (not_lt.2 hd)]
  dsimp only
  refine ⟨limit_le _ _ _ _ _, fun h => ?_⟩
  generalize push p g.pd (normalVel g s1 s2 c) • g.normal = F at h ⊢
  generalize trial p.ks p.Fs g s1 s2 c = t at h ⊢
  have ht : 0 < norm3 t := lt_of_le_of_lt (mul_nonneg (abs_nonneg _) (norm3_nonneg _)) h
  have hgt : sqNorm t > sqNorm F * p.tan ^ 2 := by
    rw [← sqrt_limit] at h
    by_contra hle
    exact absurd (Real.sqrt_le_sqrt (not_lt.1 hle)) (not_le.2 h)
  have hl : limit p.tan p.cs F t (shearVel g s1 s2 c) = ((|p.tan| * norm3 F / norm3 t) • t, 0) := by
    unfold limit; rw [if_pos hgt, sqrt_limit]
  rw [hl]
  have h0 : 0 ≤ |p.tan| * norm3 F / norm3 t := div_nonneg (mul_nonneg (abs_nonneg _) (norm3_nonneg _)) ht.le
  refine ⟨?_, fun ha => ?_, |p.tan| * norm3 F / norm3 t, h0, rfl⟩
  · rw [norm3_smul, abs_of_nonneg h0]; field_simp
  · rw [if_pos ha]; simp [loads]

/-- The state of a body which moves without rotation. -/
def moving (x v : V3) : State :=
  { pos := x, ori := Quat.one, vel := v, angVel := 0, angMom := 0, mass := 1, inertia := 1, blocked := 0, isDamped := true, densityScaling := 1 }

/-- A contact in the direction of x, with an overlap of one. -/
def exG : ScGeom := { normal := ![1, 0, 0], contactPoint := 0, pd := 1, r1 := 1, r2 := 1, twist := 0, ortho := 0, shearInc := 0 }

/-- A contact with unit stiffness, much damping, and friction of one half. -/
noncomputable def exP : Phys := { kn := 1, cn := 1, ks := 1, cs := 10, mR := 1, mRtype := 1, tan := 1 / 2, Fn := 0, Fs := 0 }

noncomputable def exC : Ctx := { dt := 1 / 10, shift2 := 0, shiftVel := 0, fresh := true, active := true }

theorem ex_rel (v w : V3) : relVel exG (moving ![-1 / 2, 0, 0] v) (moving ![1 / 2, 0, 0] w) exC = v - w := by
  have h0 : ∀ u : V3, cross 0 u = 0 := fun u => by apply v3_ext <;> simp [cross]
  simp [relVel, moving, exC, h0]

theorem ex_normal (v w : V3) : normalVel exG (moving ![-1 / 2, 0, 0] v) (moving ![1 / 2, 0, 0] w) exC = v 0 - w 0 := by
  rw [normalVel, ex_rel]; simp [dot, exG]

theorem ex_shear (v w : V3) : shearVel exG (moving ![-1 / 2, 0, 0] v) (moving ![1 / 2, 0, 0] w) exC = ![0, v 1 - w 1, v 2 - w 2] := by
  rw [shearVel, ex_rel, ex_normal]
  apply v3_ext <;> simp [exG]

theorem ex_trial (v w : V3) : trial 1 0 exG (moving ![-1 / 2, 0, 0] v) (moving ![1 / 2, 0, 0] w) exC = ![0, (v 1 - w 1) / 10, (v 2 - w 2) / 10] := by
  unfold trial
  rw [ex_shear]
  apply v3_ext <;> simp [exC, ScGeom.rotate, cross] <;> ring

/-- **C260 (partial).** The same limit for Luding's law. -/
theorem C260_luding_partial (p : LPhys) (g : ScGeom) (s1 s2 : State) (c : Ctx) (hd : 0 ≤ g.pd) {o : LOut} (h : lgo p g s1 s2 c = .ok o) :
    norm3 o.phys.Fs ≤ |p.tan| * norm3 o.phys.Fn := by
  unfold lgo at h
  rw [if_neg (not_lt.2 hd)] at h
  rcases hx : hys p g.pd with x | _ | _
  · rw [hx, Res.bind_ok] at h
    cases h
    exact limit_le _ _ _ _ _
  · rw [hx] at h; simp at h
  · rw [hx] at h; simp at h

/-- Two bodies which approach each other with the speed of two: the spring gives one, the dashpot two. -/
example : ∃ a : ℝ, (go exP exG (moving ![-1 / 2, 0, 0] ![2, 0, 0]) (moving ![1 / 2, 0, 0] 0) exC).phys.Fn = a • exG.normal ∧ a = 3 := by
  obtain ⟨a, h1, -, -, h2⟩ := C259_normal exP exG (moving ![-1 / 2, 0, 0] ![2, 0, 0]) (moving ![1 / 2, 0, 0] 0) exC (by norm_num [exP]) (by norm_num [exP]) (by norm_num [exG])
  refine ⟨a, h1, ?_⟩
  rw [h2 (by rw [ex_normal]; norm_num), ex_normal]
  norm_num [exP, exG]

/-- Two bodies which slide: the shear force is the half of the normal one. -/
example : norm3 (go exP exG (moving ![-1 / 2, 0, 0] ![0, 20, 0]) (moving ![1 / 2, 0, 0] 0) exC).phys.Fs = 1 / 2 := by
  have hF : (go exP exG (moving ![-1 / 2, 0, 0] ![0, 20, 0]) (moving ![1 / 2, 0, 0] 0) exC).phys.Fn = ![1, 0, 0] := by
    rw [go, if_neg (by norm_num [exG])]
    dsimp only
    rw [ex_normal]
    norm_num [push, exP, exG]
  have hn : norm3 (![1, 0, 0] : V3) = 1 := by simp [norm3, sqNorm, dot]
  have ht : trial exP.ks exP.Fs exG (moving ![-1 / 2, 0, 0] ![0, 20, 0]) (moving ![1 / 2, 0, 0] 0) exC = ![0, 2, 0] := by
    rw [show exP.ks = 1 from rfl, show exP.Fs = 0 from rfl, ex_trial]
    apply v3_ext <;> simp
    norm_num
  have h := (C260_stored_partial exP exG (moving ![-1 / 2, 0, 0] ![0, 20, 0]) (moving ![1 / 2, 0, 0] 0) exC (by norm_num [exG])).2
  rw [hF, ht, hn] at h
  have h2 : norm3 (![0, 2, 0] : V3) = 2 := by
    rw [norm3, show sqNorm (![0, 2, 0] : V3) = 2 ^ 2 from by simp [sqNorm, dot]; norm_num, Real.sqrt_sq (by norm_num)]
  rw [h2] at h
  have e : |exP.tan| = 1 / 2 := by rw [show exP.tan = 1 / 2 from rfl]; norm_num
  rw [e] at h
  rw [(h (by norm_num)).1]; norm_num

/-- Viscous shear forces are added beyond the limit: with a normal force of one and friction of one half, the shear force is more than ten. -/
theorem C260_violated : ∃ (p : Phys) (g : ScGeom) (s1 s2 : State) (c : Ctx), 0 ≤ g.pd ∧ (go p g s1 s2 c).phys.Fn = ![1, 0, 0] ∧ p.tan = 1 / 2 ∧
    (go p g s1 s2 c).loads.f2 = ![1, 101 / 10, 0] := by
  have hF : push exP exG.pd (normalVel exG (moving ![-1 / 2, 0, 0] ![0, 1, 0]) (moving ![1 / 2, 0, 0] 0) exC) • exG.normal = ![1, 0, 0] := by
    rw [ex_normal]
    have : push exP exG.pd ((![0, 1, 0] : V3) 0 - (0 : V3) 0) = 1 := by simp [push, exP, exG]
    rw [this]; simp [exG]
  have ht : trial exP.ks exP.Fs exG (moving ![-1 / 2, 0, 0] ![0, 1, 0]) (moving ![1 / 2, 0, 0] 0) exC = ![0, 1 / 10, 0] := by
    rw [show exP.ks = 1 from rfl, show exP.Fs = 0 from rfl, ex_trial]
    apply v3_ext <;> simp
  have hs : shearVel exG (moving ![-1 / 2, 0, 0] ![0, 1, 0]) (moving ![1 / 2, 0, 0] 0) exC = ![0, 1, 0] := by
    rw [ex_shear]; apply v3_ext <;> simp
  have hl : limit exP.tan exP.cs ![1, 0, 0] ![0, 1 / 10, 0] ![0, 1, 0] = (![0, 1 / 10, 0], ![0, 10, 0]) := by
    unfold limit
    rw [if_neg (by simp [sqNorm, dot, exP]; norm_num)]
    simp [exP]
  refine ⟨exP, exG, moving ![-1 / 2, 0, 0] ![0, 1, 0], moving ![1 / 2, 0, 0] 0, exC, by simp [exG], ?_, rfl, ?_⟩
  · rw [go, if_neg (by simp [exG])]; exact hF
  · rw [go, if_neg (by simp [exG])]
    dsimp only
    rw [hF, ht, hs, hl, if_pos (show exC.active = true from rfl)]
    simp only [loads]
    apply v3_ext <;> simp
    norm_num

/-- **C263 (partial).** Rolling resistance never adds energy, and does nothing without relative rotation. -/
theorem C263_opposes_partial (p : Phys) (g : ScGeom) (s1 s2 : State) (c : Ctx) (Fn : V3) :
    dot (roll p g s1 s2 c Fn) (s1.angVel - s2.angVel) ≤ 0 ∧ (s1.angVel = s2.angVel → roll p g s1 s2 c Fn = 0) := by
  constructor
  · unfold roll
    split_ifs with h1 h2 h3
    · rw [dot_smul_left]
      have := mul_nonneg (mul_nonneg h1.le (norm3_nonneg Fn)) (sqNorm_nonneg (s1.angVel - s2.angVel))
      unfold sqNorm at this; linarith
    · rw [dot_smul_left]
      have := mul_nonneg (mul_nonneg (mul_nonneg h1.le (norm3_nonneg (cross (g.contactPoint - s1.pos) s1.angVel - cross (g.contactPoint - s2.pos - c.shift2) s2.angVel)))
        (norm3_nonneg Fn)) (sqNorm_nonneg (s1.angVel - s2.angVel))
      unfold sqNorm at this; linarith
    · simp [dot]
    · simp [dot]
  · intro h
    unfold roll
    rw [h]; simp

/-- The moment of the first type should have the size `mR*|Fn|`; it is proportional to the rate of relative rotation. -/
theorem C263_violated (p : Phys) (g : ScGeom) (s1 s2 : State) (c : Ctx) (Fn : V3) (h : 0 < p.mR) (ht : p.mRtype = 1) (hF : Fn ≠ 0) (h1 : norm3 (s1.angVel - s2.angVel) ≠ 1) :
    norm3 (roll p g s1 s2 c Fn) = p.mR * norm3 Fn * norm3 (s1.angVel - s2.angVel) ∧ norm3 (roll p g s1 s2 c Fn) ≠ p.mR * norm3 Fn := by
  have hp : 0 < p.mR * norm3 Fn := mul_pos h (norm3_pos hF)
  have e : norm3 (roll p g s1 s2 c Fn) = p.mR * norm3 Fn * norm3 (s1.angVel - s2.angVel) := by
    unfold roll
    rw [if_pos h, if_pos ht, norm3_smul, abs_neg, abs_of_pos hp]
  refine ⟨e, fun h2 => h1 ?_⟩
  rw [e] at h2
  have := mul_left_cancel₀ hp.ne' (h2.trans (mul_one _).symm)
  exact this

example : ∃ s1 s2 : State, norm3 (roll exP exG s1 s2 exC ![1, 0, 0]) ≠ exP.mR * norm3 ![1, 0, 0] :=
  ⟨moving 0 0, moving 0 0, (C263_violated exP exG _ _ exC _ one_pos rfl (fun h => by have := congrFun h 0; simp at this) (by simp [moving, norm3, sqNorm, dot])).2⟩

/-- A rigid motion added to a body: translation `V` and rotation `W` about the origin; `x` is where the body is. -/
def stir (V W x : V3) (s : State) : State := { s with vel := s.vel + V + cross W x, angVel := s.angVel + W }

/-- **C264 (partial).** Moving both bodies together does not change a contact, if the cell does not deform. -/
theorem C264_common_partial (p : Phys) (g : ScGeom) (s1 s2 : State) (c : Ctx) (V W : V3) (hd : p.mR = 0) :
    (go p g (stir V W s1.pos s1) (stir V W (s2.pos + c.shift2) s2) c).phys = (go p g s1 s2 c).phys ∧
      (go p g (stir V W s1.pos s1) (stir V W (s2.pos + c.shift2) s2) c).loads = (go p g s1 s2 c).loads := by
  have hr : relVel g (stir V W s1.pos s1) (stir V W (s2.pos + c.shift2) s2) c = relVel g s1 s2 c := by
    apply v3_ext <;> simp [relVel, stir, cross] <;> ring
  have hn : normalVel g (stir V W s1.pos s1) (stir V W (s2.pos + c.shift2) s2) c = normalVel g s1 s2 c := by unfold normalVel; rw [hr]
  have hs : shearVel g (stir V W s1.pos s1) (stir V W (s2.pos + c.shift2) s2) c = shearVel g s1 s2 c := by unfold shearVel; rw [hr, hn]
  have ht : trial p.ks p.Fs g (stir V W s1.pos s1) (stir V W (s2.pos + c.shift2) s2) c = trial p.ks p.Fs g s1 s2 c := by unfold trial; rw [hs]
  have hro : ∀ a b F, roll p g a b c F = 0 := fun a b F => by unfold roll; rw [if_neg (by rw [hd]; exact lt_irrefl _)]
  unfold go
  by_cases h : g.pd < 0
  · rw [if_pos h, if_pos h]; exact ⟨rfl, rfl⟩
  · rw [if_neg h, if_neg h]
    dsimp only
    rw [hn, hs, ht, hro, hro]
    exact ⟨rfl, rfl⟩

/-- A body and the image of another one which move together, as parts of a deforming cell: the image moves by the velocity of the body plus that of the
period, but the law takes twice the velocity of the period as their relative one. -/
theorem C264_violated (g : ScGeom) (s1 s2 : State) (c : Ctx) (h1 : s1.angVel = 0) (h2 : s2.angVel = 0) (h : s1.vel = s2.vel + c.shiftVel) :
    relVel g s1 s2 c = (2 : ℝ) • c.shiftVel := by
  unfold relVel
  have h0 : ∀ u : V3, cross 0 u = 0 := fun u => by apply v3_ext <;> simp [cross]
  rw [h1, h2, h, h0, h0]
  module

/-- So a shear force appears between bodies which do not move relative to each other. -/
example : (go exP exG (moving ![-1 / 2, 0, 0] ![0, 1, 0]) (moving ![1 / 2, 0, 0] 0) { exC with shiftVel := ![0, 1, 0] }).phys.Fs ≠ 0 := by
  have hr : relVel exG (moving ![-1 / 2, 0, 0] ![0, 1, 0]) (moving ![1 / 2, 0, 0] 0) { exC with shiftVel := ![0, 1, 0] } = ![0, 2, 0] := by
    rw [C264_violated _ _ _ _ rfl rfl (by apply v3_ext <;> simp [moving])]
    apply v3_ext <;> simp
  have hn : normalVel exG (moving ![-1 / 2, 0, 0] ![0, 1, 0]) (moving ![1 / 2, 0, 0] 0) { exC with shiftVel := ![0, 1, 0] } = 0 := by
    unfold normalVel; rw [hr]; simp [dot, exG]
  have hs : shearVel exG (moving ![-1 / 2, 0, 0] ![0, 1, 0]) (moving ![1 / 2, 0, 0] 0) { exC with shiftVel := ![0, 1, 0] } = ![0, 2, 0] := by
    unfold shearVel; rw [hr, hn]; simp
  have ht : trial exP.ks exP.Fs exG (moving ![-1 / 2, 0, 0] ![0, 1, 0]) (moving ![1 / 2, 0, 0] 0) { exC with shiftVel := ![0, 1, 0] } = ![0, 1 / 5, 0] := by
    unfold trial; rw [hs]
    apply v3_ext <;> simp [exP, exC, ScGeom.rotate, cross, exG] <;> norm_num
  rw [go, if_neg (by simp [exG])]
  dsimp only
  rw [ht, hn]
  unfold limit
  rw [if_neg (by simp [sqNorm, dot, exP, push, exG]; norm_num)]
  intro h0
  have := congrFun h0 1
  norm_num at this

/-- Contacts which are not active should be kept without forces; the viscoelastic law gives them up, so that they come back as active ones. -/
theorem C265_violated (p : Phys) (g : ScGeom) (s1 s2 : State) (c : Ctx) (ha : c.active = false) : (go p g s1 s2 c).keep = false := by
  unfold go
  by_cases h : g.pd < 0
  · rw [if_pos h]
  · rw [if_neg h]; exact ha

/-- **C265 (partial).** Active contacts are kept exactly as long as bodies overlap, and contacts which are not active have no loads. -/
theorem C265_kept_partial (p : Phys) (g : ScGeom) (s1 s2 : State) (c : Ctx) :
    (c.active = true → ((go p g s1 s2 c).keep = true ↔ 0 ≤ g.pd)) ∧ (c.active = false → (go p g s1 s2 c).loads = Loads.zero) := by
  unfold go
  by_cases h1 : g.pd < 0
  · rw [if_pos h1]
    refine ⟨fun _ => ⟨fun h => by simp at h, fun h => absurd h1 (not_lt.2 h)⟩, fun _ => rfl⟩
  · rw [if_neg h1]
    refine ⟨fun h => ⟨fun _ => not_lt.1 h1, fun _ => h⟩, fun h => ?_⟩
    dsimp only; rw [if_neg (by rw [h]; simp)]

/-- **C265 (partial).** Luding's law keeps them. -/
theorem C265_luding_partial (p : LPhys) (g : ScGeom) (s1 s2 : State) (c : Ctx) {o : LOut} (h : lgo p g s1 s2 c = .ok o) :
    (o.keep = true ↔ 0 ≤ g.pd) ∧ (c.active = false → o.loads = Loads.zero) := by
  unfold lgo at h
  by_cases h0 : g.pd < 0
  · rw [if_pos h0] at h; cases h; exact ⟨⟨fun h => by simp at h, fun h => absurd h0 (not_lt.2 h)⟩, fun _ => rfl⟩
  · rw [if_neg h0] at h
    rcases hx : hys p g.pd with x | _ | _
    · rw [hx, Res.bind_ok] at h
      cases h
      exact ⟨⟨fun _ => not_lt.1 h0, fun _ => rfl⟩, fun h => by dsimp only; rw [if_neg (by rw [h]; simp)]⟩
    · rw [hx] at h; simp at h
    · rw [hx] at h; simp at h

end Verif.Visc
