import Verif.Mech.Contact
import Verif.Mech.NewtonProps
import Mathlib.Tactic.LinearCombination

/-!
# Properties of contacts: C37, C85-C88
-/
namespace Verif.Mech

/-! ## Vector algebra -/

theorem cross_smul_left (a : ℝ) (u v : V3) : cross (a • u) v = a • cross u v := by
  apply v3_ext <;> simp <;> ring

theorem cross_smul_right (a : ℝ) (u v : V3) : cross u (a • v) = a • cross u v := by
  apply v3_ext <;> simp <;> ring

theorem cross_neg_left (u v : V3) : cross (-u) v = -cross u v := by
  apply v3_ext <;> simp <;> ring

theorem cross_neg_right (u v : V3) : cross u (-v) = -cross u v := by
  apply v3_ext <;> simp <;> ring

theorem cross_self (u : V3) : cross u u = 0 := by
  apply v3_ext <;> simp <;> ring

theorem dot_neg_left (u v : V3) : dot (-u) v = -dot u v := by simp only [dot, Pi.neg_apply]; ring

theorem dot_neg_right (u v : V3) : dot u (-v) = -dot u v := by simp only [dot, Pi.neg_apply]; ring

theorem dot_smul_left (a : ℝ) (u v : V3) : dot (a • u) v = a * dot u v := by
  simp only [dot, Pi.smul_apply, smul_eq_mul]; ring

theorem dot_smul_right (a : ℝ) (u v : V3) : dot u (a • v) = a * dot u v := by
  simp only [dot, Pi.smul_apply, smul_eq_mul]; ring

theorem sqNorm_neg (u : V3) : sqNorm (-u) = sqNorm u := by
  simp only [sqNorm, dot_neg_left, dot_neg_right, neg_neg]

theorem norm3_neg (u : V3) : norm3 (-u) = norm3 u := by simp only [norm3, sqNorm_neg]

/-! ## C37: action and reaction -/

/-- Moment of the loads about `o`, the second body being at `x2` (its image next to the first one). -/
def loadMoment (o x1 x2 : V3) (L : Loads) : V3 :=
  (cross (x1 - o) L.f1 + L.t1) + (cross (x2 - o) L.f2 + L.t2)

/-- Forces balance, and so do moments about every point. -/
def Balanced (x1 x2 : V3) (L : Loads) : Prop := L.f1 + L.f2 = 0 ∧ ∀ o, loadMoment o x1 x2 L = 0

theorem balanced_zero (x1 x2 : V3) : Balanced x1 x2 Loads.zero := by
  refine ⟨by simp [Loads.zero], fun o => ?_⟩
  apply v3_ext <;> simp [loadMoment, Loads.zero]

theorem lawGo_lost {cfg : LawCfg} {g : ScGeom} {p : FrictPhys} {x1 x2 : V3}
    (h : g.pd < 0 ∧ ¬ cfg.neverErase) :
    lawGo cfg g p x1 x2 = { keep := false, phys := p, loads := Loads.zero, dissip := 0 } := by
  rw [lawGo, if_pos h]

theorem lawGo_kept {cfg : LawCfg} {g : ScGeom} {p : FrictPhys} {x1 x2 : V3}
    (h : ¬ (g.pd < 0 ∧ ¬ cfg.neverErase)) :
    ∃ q : FrictPhys, q = (if g.pd < 0 then { p with Fs := 0, Fn := 0 } else p) ∧
    lawGo cfg g p x1 x2 =
      { keep := true,
        phys := { q with
          Fn := normalForce g q, Fs := slip (sqNorm (normalForce g q) * q.tan ^ 2) (trialShear g q) },
        loads := applyLoads cfg g
          (-normalForce g q - slip (sqNorm (normalForce g q) * q.tan ^ 2) (trialShear g q)) x1 x2,
        dissip := plastic q.ks (sqNorm (normalForce g q) * q.tan ^ 2) (trialShear g q) } := by
  refine ⟨_, rfl, ?_⟩
  rw [lawGo, if_neg h]

theorem law_loads (cfg : LawCfg) (g : ScGeom) (p : FrictPhys) (x1 x2 : V3) :
    (lawGo cfg g p x1 x2).loads = Loads.zero ∨
      ∃ F, (lawGo cfg g p x1 x2).loads = applyLoads cfg g F x1 x2 := by
  unfold lawGo
  by_cases h : g.pd < 0 ∧ ¬ cfg.neverErase
  · rw [if_pos h]; exact Or.inl rfl
  · rw [if_neg h]; exact Or.inr ⟨_, rfl⟩

theorem law_balanced_point (cfg : LawCfg) (g : ScGeom) (p : FrictPhys) (x1 x2 : V3)
    (hp : cfg.periodic = false) (hs : cfg.sphericalBodies = false) :
    Balanced x1 x2 (lawGo cfg g p x1 x2).loads := by
  rcases law_loads cfg g p x1 x2 with h | ⟨F, h⟩ <;> rw [h]
  · exact balanced_zero _ _
  · rw [applyLoads, if_pos (by simp [hp, hs])]
    refine ⟨by simp, fun o => ?_⟩
    apply v3_ext <;> simp [loadMoment] <;> ring

/-- **C37 (contact point).** With branches taken from the contact point, the loads balance whatever the geometry: any
shapes, any contact point, normal and depth. -/
theorem C37_contact_point (cfg : LawCfg) (g : ScGeom) (p : FrictPhys) (x1 x2 : V3)
    (hp : cfg.periodic = false) (hs : cfg.sphericalBodies = false) :
    Balanced x1 x2 (lawGo cfg g p x1 x2).loads :=
  law_balanced_point cfg g p x1 x2 hp hs

theorem law_balanced_branch (cfg : LawCfg) (g : ScGeom) (p : FrictPhys) (x1 x2 y : V3)
    (hs : cfg.periodic = true ∨ cfg.sphericalBodies = true)
    (hg : (g.r1 + g.r2 - g.pd) • g.normal = y - x1) :
    Balanced x1 y (lawGo cfg g p x1 x2).loads := by
  rcases law_loads cfg g p x1 x2 with h | ⟨F, h⟩ <;> rw [h]
  · exact balanced_zero _ _
  · rw [applyLoads, if_neg (by rintro ⟨a, b⟩; rcases hs with hs | hs <;> simp [hs] at a b)]
    have e0 := congrFun hg 0
    have e1 := congrFun hg 1
    have e2 := congrFun hg 2
    simp only [Pi.smul_apply, smul_eq_mul, Pi.sub_apply] at e0 e1 e2
    refine ⟨by simp, fun o => ?_⟩
    apply v3_ext
    · simp [loadMoment]; linear_combination F 2 * e1 - F 1 * e2
    · simp [loadMoment]; linear_combination F 0 * e2 - F 2 * e0
    · simp [loadMoment]; linear_combination F 1 * e0 - F 0 * e1

theorem precompute_fields (g : ScGeom) (s1 s2 : State) (c : GeomCtx) (n : V3) (b : Bool) :
    (precompute g s1 s2 c n b).normal = n ∧ (precompute g s1 s2 c n b).pd = g.pd ∧
    (precompute g s1 s2 c n b).r1 = g.r1 ∧ (precompute g s1 s2 c n b).r2 = g.r2 ∧
    (precompute g s1 s2 c n b).contactPoint = g.contactPoint := by
  cases b <;> exact ⟨rfl, rfl, rfl, rfl, rfl⟩

/-- What the sphere-sphere functor guarantees. -/
theorem sphereSphere_geom {factor : ℝ} {old : Option ScGeom} {real force : Bool} {r1 r2 : ℝ} {s1 s2 : State}
    {c : GeomCtx} {g : ScGeom} (h : sphereSphere factor old real force r1 r2 s1 s2 c = .ok (some g)) :
    norm3 (s2.pos + c.shift2 - s1.pos) ≠ 0 ∧
    g.normal = (1 / norm3 (s2.pos + c.shift2 - s1.pos)) • (s2.pos + c.shift2 - s1.pos) ∧
    g.pd = r1 + r2 - norm3 (s2.pos + c.shift2 - s1.pos) ∧ g.r1 = r1 ∧ g.r2 = r2 ∧
    g.contactPoint = s1.pos + (r1 - 0.5 * g.pd) • g.normal := by
  unfold sphereSphere at h
  simp only at h
  split_ifs at h with h1 h2
  · injection h with h
    exact absurd h (by simp)
  injection h with h
  injection h with h
  subst h
  obtain ⟨a1, a2, a3, a4, a5⟩ := precompute_fields
    { (old.getD ScGeom.new) with
      contactPoint := s1.pos + (r1 - 0.5 * (r1 + r2 - norm3 (s2.pos + c.shift2 - s1.pos))) •
        (1 / norm3 (s2.pos + c.shift2 - s1.pos)) • (s2.pos + c.shift2 - s1.pos),
      pd := r1 + r2 - norm3 (s2.pos + c.shift2 - s1.pos), r1 := r1, r2 := r2 }
    s1 s2 c ((1 / norm3 (s2.pos + c.shift2 - s1.pos)) • (s2.pos + c.shift2 - s1.pos)) old.isNone
  refine ⟨h2, a1, a2, a3, a4, ?_⟩
  rw [a5, a2, a1]

theorem sphereSphere_branch {factor : ℝ} {old : Option ScGeom} {real force : Bool} {r1 r2 : ℝ} {s1 s2 : State}
    {c : GeomCtx} {g : ScGeom} (h : sphereSphere factor old real force r1 r2 s1 s2 c = .ok (some g)) :
    (g.r1 + g.r2 - g.pd) • g.normal = s2.pos + c.shift2 - s1.pos := by
  obtain ⟨h0, h1, h2, h3, h4, _⟩ := sphereSphere_geom h
  have e : g.r1 + g.r2 - g.pd = norm3 (s2.pos + c.shift2 - s1.pos) := by rw [h2, h3, h4]; ring
  rw [e, h1, smul_smul, mul_one_div, div_self h0, one_smul]

/-- **C37 (spheres).** The loads of a step on two spheres balance with the second sphere at its periodic image: in every
configuration of the law, old or new contact, kept or lost. -/
theorem C37_spheres_partial (P : Pair) (k k' : Contact) (s1 s2 : State) (c : GeomCtx) (L : Loads)
    (hc : P.cfg.periodic = false → c.shift2 = 0)
    (h : contactStep P k s1 s2 c = .ok (k', L)) : Balanced s1.pos (s2.pos + c.shift2) L := by
  unfold contactStep at h
  split at h
  · simp at h
  · simp at h
  · injection h with h
    injection h with _ h
    rw [← h]
    exact balanced_zero _ _
  · rename_i g hg
    injection h with h
    injection h with _ h
    rw [← h]
    by_cases hs : P.cfg.periodic = true ∨ P.cfg.sphericalBodies = true
    · exact law_balanced_branch _ _ _ _ _ _ hs (sphereSphere_branch hg)
    · rw [not_or, Bool.not_eq_true, Bool.not_eq_true] at hs
      have := law_balanced_point P.cfg g (frictPhys k.phys P.m1 P.m2 g) s1.pos s2.pos hs.1 hs.2
      rw [hc hs.1, add_zero]
      exact this

/-- Two touching unit spheres, one unit apart, with given velocities. -/
noncomputable def exS1 : State := exState 0 0

/-- See `exS1`. -/
noncomputable def exS2 : State := { exState 0 0 with pos := ![1, 0, 0], vel := ![0, 1, 0] }

/-- A material. -/
noncomputable def exMat : FrictMat := ⟨1, 1, Real.pi / 4⟩

/-- A pair of unit spheres. -/
noncomputable def exSpheres (cfg : LawCfg) : Pair := ⟨1, 1, exMat, exMat, 1, cfg⟩

/-- A step without periodic shift. -/
noncomputable def exCtx : GeomCtx := ⟨1, 0, 0, true⟩

theorem norm3_ex : norm3 (![1, 0, 0] : V3) = 1 := by
  have : sqNorm (![1, 0, 0] : V3) = 1 := by simp [sqNorm, dot]
  rw [norm3, this, Real.sqrt_one]

theorem exS_dist : exS2.pos + exCtx.shift2 - exS1.pos = ![1, 0, 0] := by
  apply v3_ext <;> simp [exS1, exS2, exCtx, exState]

theorem shearInc_tangent (g : ScGeom) (s1 s2 : State) (c : GeomCtx) (n : V3) (b : Bool) (hn : sqNorm n = 1) :
    dot n (precompute g s1 s2 c n b).shearInc = 0 := by
  have : ∀ w : V3, dot n (c.dt • (w - dot n w • n)) = 0 := by
    intro w
    simp only [sqNorm, dot] at hn
    simp only [dot, Pi.smul_apply, Pi.sub_apply, smul_eq_mul]
    linear_combination (-c.dt * (n 0 * w 0 + n 1 * w 1 + n 2 * w 2)) * hn
  cases b <;> exact this _

theorem unit_normal {d : V3} (h : norm3 d ≠ 0) : sqNorm ((1 / norm3 d) • d) = 1 := by
  rw [sqNorm_smul, ← norm3_sq]
  field_simp

theorem sphereSphere_tangent {factor : ℝ} {old : Option ScGeom} {real force : Bool} {r1 r2 : ℝ} {s1 s2 : State}
    {c : GeomCtx} {g : ScGeom} (h : sphereSphere factor old real force r1 r2 s1 s2 c = .ok (some g)) :
    sqNorm g.normal = 1 ∧ dot g.normal g.shearInc = 0 := by
  have hg := sphereSphere_geom h
  have hn : sqNorm g.normal = 1 := by rw [hg.2.1]; exact unit_normal hg.1
  refine ⟨hn, ?_⟩
  rw [hg.2.1] at hn ⊢
  unfold sphereSphere at h
  simp only at h
  split_ifs at h with h1 h2
  · injection h with h
    exact absurd h (by simp)
  injection h with h
  injection h with h
  subst h
  exact shearInc_tangent _ _ _ _ _ _ hn

theorem slip_dot (m : ℝ) (t n : V3) (h : dot n t = 0) : dot n (slip m t) = 0 := by
  unfold slip
  split_ifs
  · rw [dot_smul_right, h, mul_zero]
  · exact h

/-- The hypotheses of `C37_spheres_partial` are met by a contact that transmits a force. -/
example (cfg : LawCfg) : ∃ k' L, contactStep (exSpheres cfg) ⟨none, none⟩ exS1 exS2 exCtx = .ok (k', L) ∧ L.f1 ≠ 0 := by
  have hs : ∃ g, sphereSphere 1 none false false 1 1 exS1 exS2 exCtx = .ok (some g) := by
    unfold sphereSphere
    simp only [exS_dist]
    rw [if_neg (by simp [sqNorm, dot]; norm_num), if_neg (by rw [norm3_ex]; norm_num)]
    exact ⟨_, rfl⟩
  obtain ⟨g, hg⟩ := hs
  obtain ⟨hn, ht⟩ := sphereSphere_tangent hg
  obtain ⟨_, _, hpd, hr1, hr2, _⟩ := sphereSphere_geom hg
  rw [exS_dist, norm3_ex] at hpd
  unfold contactStep
  simp only [exSpheres, Option.isSome_none, Bool.and_self]
  rw [hg]
  refine ⟨_, _, rfl, ?_⟩
  have hpd' : g.pd = 1 := by rw [hpd]; norm_num
  have hF : ∀ F, (applyLoads cfg g F exS1.pos exS2.pos).f1 = F := by
    intro F; unfold applyLoads; split_ifs <;> rfl
  unfold lawGo
  rw [if_neg (by rw [hpd']; norm_num)]
  simp only [hF]
  rw [if_neg (by rw [hpd']; norm_num)]
  intro h
  have h1 : dot g.normal (trialShear g (frictPhys none exMat exMat g)) = 0 := by
    have : g.rotate 0 = 0 := by apply v3_ext <;> simp [ScGeom.rotate]
    simp only [trialShear, frictPhys, this, zero_sub, dot_neg_right, dot_smul_right, ht, mul_zero, neg_zero]
  have h2 := congrArg (dot g.normal) h
  have h3 : dot g.normal 0 = 0 := by simp [dot]
  have h4 : ∀ a b : V3, dot g.normal (-a - b) = -dot g.normal a - dot g.normal b := by
    intro a b; simp only [dot, Pi.sub_apply, Pi.neg_apply]; ring
  rw [h3, h4, slip_dot _ _ _ h1, normalForce, dot_smul_right, hpd'] at h2
  rw [show dot g.normal g.normal = 1 from hn] at h2
  simp [frictPhys, exMat, hr1, hr2] at h2

theorem applyLoads_f (cfg : LawCfg) (g : ScGeom) (F x1 x2 : V3) :
    (applyLoads cfg g F x1 x2).f1 = F ∧ (applyLoads cfg g F x1 x2).f2 = -F := by
  unfold applyLoads; split_ifs <;> exact ⟨rfl, rfl⟩

theorem wallSphere_geom {axis : Fin 3} {sense : Int} {old : Option ScGeom} {real force : Bool} {radius : ℝ}
    {s1 s2 : State} {c : GeomCtx} {g : ScGeom} (h : wallSphere axis sense old real force radius s1 s2 c = some g) :
    g.pd = -(|s2.pos axis + c.shift2 axis - s1.pos axis| - radius) ∧ g.r1 = radius ∧ g.r2 = radius ∧
    g.normal = Function.update (0 : V3) axis (if sense = 0 then
      (if s2.pos axis + c.shift2 axis - s1.pos axis > 0 then 1 else -1) else (if sense = 1 then 1 else -1)) := by
  unfold wallSphere at h
  simp only at h
  split at h
  · exact absurd h (by simp)
  injection h with h
  subst h
  obtain ⟨a1, a2, a3, a4, a5⟩ := precompute_fields
    { (old.getD ScGeom.new) with
      r1 := radius, r2 := radius, pd := -(|s2.pos axis + c.shift2 axis - s1.pos axis| - radius),
      contactPoint := Function.update (s2.pos + c.shift2) axis (s1.pos axis) }
    s1 s2 c (Function.update (0 : V3) axis (if sense = 0 then
      (if s2.pos axis + c.shift2 axis - s1.pos axis > 0 then 1 else -1) else (if sense = 1 then 1 else -1))) old.isNone
  exact ⟨a2, a3, a4, a1⟩

theorem slip_zero (t : V3) : slip 0 t = 0 := by
  unfold slip
  split_ifs with h
  · rw [Real.sqrt_zero, zero_div, zero_smul]
  · exact sqNorm_eq_zero.mp (le_antisymm (not_lt.mp h) (sqNorm_nonneg t))

/-- **C37 fails for a sphere on a wall** with the default options (branches computed from radii), and in periodic scenes
with any options: the normal force alone has a moment about the wall. -/
theorem C37_violated_wall (cfg : LawCfg) (hs : cfg.periodic = true ∨ cfg.sphericalBodies = true) :
    ∃ (s1 s2 : State) (g : ScGeom) (p : FrictPhys), wallSphere 0 0 none false false 1 s1 s2 exCtx = some g ∧
      0 < g.pd ∧ 0 < p.kn ∧ ¬ Balanced s1.pos (s2.pos + exCtx.shift2) (lawGo cfg g p s1.pos s2.pos).loads := by
  have hd : (![1 / 2, 1, 0] : V3) 0 + exCtx.shift2 0 - (exState 0 0).pos 0 = 1 / 2 := by
    simp [exCtx, exState]
  have ha : |(1 / 2 : ℝ)| = 1 / 2 := abs_of_pos (by norm_num)
  have hg : ∃ g, wallSphere 0 0 none false false 1 (exState 0 0) { exState 0 0 with pos := ![1 / 2, 1, 0] } exCtx =
      some g := by
    unfold wallSphere
    simp only
    rw [if_neg (by rw [hd, ha]; norm_num)]
    exact ⟨_, rfl⟩
  obtain ⟨g, hg⟩ := hg
  obtain ⟨h1, h2, h3, h4⟩ := wallSphere_geom hg
  simp only [hd, ha] at h1 h4
  have hpd : g.pd = 1 / 2 := by rw [h1]; norm_num
  have hn : g.normal = ![1, 0, 0] := by
    rw [h4]; apply v3_ext <;> simp
  refine ⟨_, _, g, ⟨1, 1, 0, 0, 0⟩, hg, by rw [hpd]; norm_num, by norm_num, ?_⟩
  unfold lawGo
  rw [if_neg (by rw [hpd]; norm_num)]
  have hz : sqNorm (normalForce g ⟨1, 1, 0, 0, 0⟩) * (0 : ℝ) ^ 2 = 0 := by ring
  simp only [if_neg (show ¬ g.pd < 0 by rw [hpd]; norm_num), hz, slip_zero]
  rintro ⟨-, h⟩
  have h := congrFun (h 0) 2
  rw [applyLoads, if_neg (by rintro ⟨a, b⟩; rcases hs with hs | hs <;> simp [hs] at a b)] at h
  simp [loadMoment, normalForce, hn, hpd, exState, exCtx] at h

/-! ## C85: friction limit -/

/-- **C85 (limit).** When the contact is kept, the normal force is the stiffness times the overlap along the normal, and the shear
force is at most the normal force times the friction coefficient; the loads are these two forces. -/
theorem C85_limit (cfg : LawCfg) (g : ScGeom) (p : FrictPhys) (x1 x2 : V3)
    (hk : (lawGo cfg g p x1 x2).keep = true) :
    (lawGo cfg g p x1 x2).phys.Fn = (p.kn * max g.pd 0) • g.normal ∧
    norm3 (lawGo cfg g p x1 x2).phys.Fs ≤ |p.tan| * norm3 (lawGo cfg g p x1 x2).phys.Fn ∧
    (lawGo cfg g p x1 x2).loads.f2 = (lawGo cfg g p x1 x2).phys.Fn + (lawGo cfg g p x1 x2).phys.Fs := by
  have hl : ∀ (m : ℝ) (t : V3), 0 ≤ m → sqNorm (slip m t) ≤ m := by
    intro m t hm
    unfold slip
    split_ifs with h
    · have ht : sqNorm t ≠ 0 := (lt_of_le_of_lt hm h).ne'
      rw [sqNorm_smul, div_pow, Real.sq_sqrt hm, show norm3 t ^ 2 = sqNorm t by rw [pow_two, norm3_sq],
        div_mul_cancel₀ _ ht]
    · exact not_lt.mp h
  have hn : ∀ (F : V3) (T : ℝ) (S : V3), sqNorm S ≤ sqNorm F * T ^ 2 → norm3 S ≤ |T| * norm3 F := by
    intro F T S h
    unfold norm3
    rw [show |T| = Real.sqrt (T ^ 2) from (Real.sqrt_sq_eq_abs T).symm, ← Real.sqrt_mul (sq_nonneg T)]
    exact Real.sqrt_le_sqrt (by rw [mul_comm]; exact h)
  unfold lawGo at hk ⊢
  by_cases h : g.pd < 0 ∧ ¬ cfg.neverErase
  · rw [if_pos h] at hk; exact absurd hk (by simp)
  · simp only [if_neg h]
    have hp : ∀ q : FrictPhys, q = (if g.pd < 0 then { p with Fs := 0, Fn := 0 } else p) →
        q.kn = p.kn ∧ q.tan = p.tan := by
      rintro q rfl; split_ifs <;> exact ⟨rfl, rfl⟩
    obtain ⟨e1, e2⟩ := hp _ rfl
    refine ⟨by rw [normalForce, e1], ?_, ?_⟩
    · have := hn _ _ _ (hl _ (trialShear g (if g.pd < 0 then { p with Fs := 0, Fn := 0 } else p))
        (mul_nonneg (sqNorm_nonneg (normalForce g (if g.pd < 0 then { p with Fs := 0, Fn := 0 } else p)))
          (sq_nonneg (if g.pd < 0 then { p with Fs := 0, Fn := 0 } else p).tan)))
      exact this.trans (by rw [e2])
    · rw [(applyLoads_f _ _ _ _ _).2]
      abel

/-- **C85 (no contact, no force).** Spheres that do not touch exert no load on each other, whatever forces were stored. -/
theorem C85_separated (cfg : LawCfg) (g : ScGeom) (p : FrictPhys) (x1 x2 : V3) (h : g.pd < 0) :
    (lawGo cfg g p x1 x2).loads = Loads.zero := by
  unfold lawGo
  by_cases hn : g.pd < 0 ∧ ¬ cfg.neverErase
  · rw [if_pos hn]
  · rw [if_neg hn]
    simp only [if_pos h, normalForce, max_eq_right h.le, mul_zero, zero_smul]
    have h0 : sqNorm (0 : V3) = 0 := sqNorm_eq_zero.mpr rfl
    rw [h0, zero_mul]
    rw [slip_zero]
    unfold applyLoads
    split_ifs <;> (simp only [Loads.zero, Loads.mk.injEq]; refine ⟨?_, ?_, ?_, ?_⟩ <;> apply v3_ext <;> simp)

/-- A contact of depth one along x, with a shear increment along y. -/
noncomputable def exGeom : ScGeom :=
  { normal := ![1, 0, 0], contactPoint := ![1 / 2, 0, 0], pd := 1, r1 := 1, r2 := 1, twist := 0, ortho := 0,
    shearInc := ![0, 2, 0] }

/-- The hypotheses of `C85_limit` are met by a sliding contact. -/
example : (lawGo ⟨false, true, false⟩ exGeom ⟨1, 1, 1, 0, 0⟩ 0 0).keep = true := by
  rw [lawGo, if_neg (by simp [exGeom])]

/-- The hypotheses of `C85_separated` are met by a contact with stored forces that is kept. -/
example : ({ exGeom with pd := -1 } : ScGeom).pd < 0 ∧
    (lawGo ⟨true, true, false⟩ { exGeom with pd := -1 } ⟨1, 1, 1, ![1, 0, 0], ![0, 1, 0]⟩ 0 0).keep = true := by
  refine ⟨by norm_num, ?_⟩
  rw [lawGo, if_neg (by simp)]

/-! ## C86: friction dissipates -/

/-- Elastic energy in the shear spring. -/
noncomputable def shearEnergy (p : FrictPhys) : ℝ := sqNorm p.Fs / (2 * p.ks)

/-- **C86.** Compared with a friction coefficient `T` large enough to hold the contact, sliding never stores more elastic energy:
the plastic work reported is not negative, and the elastic energy left plus the plastic work is at most the
elastic energy of the holding contact. -/
theorem C86_dissipation (cfg : LawCfg) (g : ScGeom) (p : FrictPhys) (x1 x2 : V3) (hks : 0 < p.ks) (T : ℝ)
    (hT : norm3 (lawGo cfg g { p with tan := T } x1 x2).phys.Fs <
      |T| * norm3 (lawGo cfg g { p with tan := T } x1 x2).phys.Fn)
    (hkeep : (lawGo cfg g p x1 x2).keep = true) :
    0 ≤ (lawGo cfg g p x1 x2).dissip ∧
    shearEnergy (lawGo cfg g p x1 x2).phys + (lawGo cfg g p x1 x2).dissip ≤
      shearEnergy (lawGo cfg g { p with tan := T } x1 x2).phys := by
  have hsplit : ∀ (k m : ℝ) (t : V3), 0 < k → 0 ≤ m → 0 ≤ plastic k m t ∧
      sqNorm (slip m t) / (2 * k) + plastic k m t ≤ sqNorm t / (2 * k) := by
    intro k m t hk hm
    unfold plastic
    by_cases h : sqNorm t > m
    · rw [if_pos h]
      have ht : 0 < sqNorm t := lt_of_le_of_lt hm h
      have hnt : 0 < norm3 t := Real.sqrt_pos.mpr ht
      have es : slip m t = (Real.sqrt m / norm3 t) • t := by rw [slip, if_pos h]
      have hr0 : 0 ≤ Real.sqrt m / norm3 t := div_nonneg (Real.sqrt_nonneg _) hnt.le
      have hr1 : Real.sqrt m / norm3 t ≤ 1 := by
        rw [div_le_one hnt]; exact Real.sqrt_le_sqrt h.le
      generalize Real.sqrt m / norm3 t = r at es hr0 hr1
      have e : dot ((1 / k) • (t - slip m t)) (slip m t) = (1 / k) * ((1 - r) * r * sqNorm t) := by
        rw [es, dot_smul_left]
        congr 1
        simp only [dot, sqNorm, Pi.sub_apply, Pi.smul_apply, smul_eq_mul]
        ring
      rw [e, es, sqNorm_smul]
      have h1 : 0 ≤ (1 - r) * r * sqNorm t := mul_nonneg (mul_nonneg (by linarith) hr0) ht.le
      refine ⟨mul_nonneg (by positivity) h1, ?_⟩
      have h2 : r ^ 2 * sqNorm t / (2 * k) + 1 / k * ((1 - r) * r * sqNorm t) =
          (sqNorm t - (1 - r) ^ 2 * sqNorm t) / (2 * k) := by
        field_simp; ring
      rw [h2]
      apply div_le_div_of_nonneg_right _ (by positivity)
      have : 0 ≤ (1 - r) ^ 2 * sqNorm t := mul_nonneg (sq_nonneg _) ht.le
      linarith
    · rw [if_neg h, slip, if_neg h]
      exact ⟨le_refl _, by rw [add_zero]⟩
  have hstick : ∀ (F t : V3), norm3 (slip (sqNorm F * T ^ 2) t) < |T| * norm3 F →
      slip (sqNorm F * T ^ 2) t = t := by
    intro F t h
    unfold slip at h ⊢
    by_cases hs : sqNorm t > sqNorm F * T ^ 2
    · exfalso
      rw [if_pos hs] at h
      have ht : 0 < norm3 t := Real.sqrt_pos.mpr
        (lt_of_le_of_lt (mul_nonneg (sqNorm_nonneg _) (sq_nonneg _)) hs)
      have hq : 0 ≤ Real.sqrt (sqNorm F * T ^ 2) / norm3 t := div_nonneg (Real.sqrt_nonneg _) ht.le
      have e : norm3 ((Real.sqrt (sqNorm F * T ^ 2) / norm3 t) • t) = Real.sqrt (sqNorm F * T ^ 2) := by
        rw [norm3, sqNorm_smul, Real.sqrt_mul (sq_nonneg _), Real.sqrt_sq hq]
        exact div_mul_cancel₀ _ ht.ne'
      rw [e, Real.sqrt_mul (sqNorm_nonneg F), Real.sqrt_sq_eq_abs] at h
      unfold norm3 at h
      linarith
    · rw [if_neg hs]
  unfold lawGo at hT hkeep ⊢
  by_cases h : g.pd < 0 ∧ ¬ cfg.neverErase
  · rw [if_pos h] at hkeep; exact absurd hkeep (by simp)
  simp only [if_neg h, shearEnergy] at hT ⊢
  by_cases h0 : g.pd < 0
  · simp only [if_pos h0] at hT ⊢
    rw [hstick _ _ hT]
    exact hsplit _ _ _ hks (mul_nonneg (sqNorm_nonneg _) (sq_nonneg _))
  · simp only [if_neg h0] at hT ⊢
    rw [hstick _ _ hT]
    exact hsplit _ _ _ hks (mul_nonneg (sqNorm_nonneg _) (sq_nonneg _))

/-- The hypotheses of `C86_dissipation` are met by a contact that slides and does dissipate. -/
example : norm3 (lawGo ⟨false, true, false⟩ exGeom { (⟨1, 1, 1, 0, 0⟩ : FrictPhys) with tan := 3 } 0 0).phys.Fs <
      |3| * norm3 (lawGo ⟨false, true, false⟩ exGeom { (⟨1, 1, 1, 0, 0⟩ : FrictPhys) with tan := 3 } 0 0).phys.Fn ∧
    0 < (lawGo ⟨false, true, false⟩ exGeom ⟨1, 1, 1, 0, 0⟩ 0 0).dissip := by
  have hpd : ¬ (exGeom.pd < 0) := by norm_num [exGeom]
  have hF : ∀ T : ℝ, normalForce exGeom ⟨1, 1, T, 0, 0⟩ = ![1, 0, 0] := by
    intro T; apply v3_ext <;> simp [normalForce, exGeom]
  have ht : ∀ T : ℝ, trialShear exGeom ⟨1, 1, T, 0, 0⟩ = ![0, -2, 0] := by
    intro T; apply v3_ext <;> simp [trialShear, ScGeom.rotate, exGeom]
  have h1 : sqNorm (![1, 0, 0] : V3) = 1 := by simp [sqNorm, dot]
  have h2 : sqNorm (![0, -2, 0] : V3) = 4 := by simp [sqNorm, dot]; norm_num
  have h4 : Real.sqrt 4 = 2 := by
    rw [show (4 : ℝ) = 2 ^ 2 by norm_num]; exact Real.sqrt_sq (by norm_num)
  have n2 : norm3 (![0, -2, 0] : V3) = 2 := by rw [norm3, h2, h4]
  have hne : ¬ (exGeom.pd < 0 ∧ ¬ (⟨false, true, false⟩ : LawCfg).neverErase = true) := fun h => hpd h.1
  unfold lawGo
  simp only [if_neg hne, if_neg hpd, hF, ht, h1]
  constructor
  · rw [slip, if_neg (by rw [h2]; norm_num), n2, norm3_ex]
    norm_num
  · rw [plastic, if_pos (by rw [h2]; norm_num), slip, if_pos (by rw [h2]; norm_num), n2]
    simp [dot]

/-! ## C87: rigid motion -/

/-- The two bodies (the second one at its image) move like one rigid body. -/
def RigidMotion (s1 s2 : State) (c : GeomCtx) (v ω o : V3) : Prop :=
  s1.vel = v + cross ω (s1.pos - o) ∧ s2.vel + c.shiftVel = v + cross ω (s2.pos + c.shift2 - o) ∧
    s1.angVel = ω ∧ s2.angVel = ω

theorem rigid_incident (g : ScGeom) (s1 s2 : State) (c : GeomCtx) (v ω o : V3) (h : RigidMotion s1 s2 c v ω o)
    (hb : (g.r1 + g.r2 - g.pd) • g.normal = s2.pos + c.shift2 - s1.pos) (hd : g.r1 + g.r2 - g.pd ≠ 0) :
    incidentVel g s1 s2 c = 0 := by
  obtain ⟨h1, h2, h3, h4⟩ := h
  have e2 : s2.vel = v + cross ω (s2.pos + c.shift2 - o) - c.shiftVel := by rw [← h2]; abel
  unfold incidentVel
  split_ifs
  · rw [h3, h4, h1, e2]
    have b := fun i => congrFun hb i
    simp only [Pi.smul_apply, smul_eq_mul, Pi.sub_apply, Pi.add_apply] at b
    have b0 := b 0
    have b1 := b 1
    have b2 := b 2
    apply v3_ext
    · simp; field_simp; linear_combination (g.r1 + g.r2) * (ω 2 * b1 - ω 1 * b2)
    · simp; field_simp; linear_combination (g.r1 + g.r2) * (ω 0 * b2 - ω 2 * b0)
    · simp; field_simp; linear_combination (g.r1 + g.r2) * (ω 1 * b0 - ω 0 * b1)
  · rw [h3, h4, h1, e2]
    apply v3_ext <;> simp <;> ring

/-- What precompute leaves, besides `precompute_fields`. -/
theorem precompute_axes (g : ScGeom) (s1 s2 : State) (c : GeomCtx) (n : V3) :
    (precompute g s1 s2 c n false).ortho = cross g.normal n ∧
    (precompute g s1 s2 c n false).twist =
      (c.dt * 0.5 * dot g.normal (s1.angVel + s2.angVel)) • g.normal := ⟨rfl, rfl⟩

theorem sphereSphere_old {factor : ℝ} {g0 : ScGeom} {real force : Bool} {r1 r2 : ℝ} {s1 s2 : State}
    {c : GeomCtx} {g : ScGeom} (h : sphereSphere factor (some g0) real force r1 r2 s1 s2 c = .ok (some g)) :
    g.ortho = cross g0.normal g.normal ∧
    g.twist = (c.dt * 0.5 * dot g0.normal (s1.angVel + s2.angVel)) • g0.normal := by
  rw [(sphereSphere_geom h).2.1]
  unfold sphereSphere at h
  simp only at h
  split_ifs at h with h1 h2
  · injection h with h
    exact absurd h (by simp)
  injection h with h
  injection h with h
  subst h
  exact ⟨rfl, rfl⟩

theorem rigid_shearInc {factor : ℝ} {old : Option ScGeom} {real force : Bool} {r1 r2 : ℝ} {s1 s2 : State}
    {c : GeomCtx} {g : ScGeom} {v ω o : V3} (h : sphereSphere factor old real force r1 r2 s1 s2 c = .ok (some g))
    (hr : RigidMotion s1 s2 c v ω o) : g.shearInc = 0 := by
  have hb := sphereSphere_branch h
  obtain ⟨h0, hn, hpd, hr1, hr2, hcp⟩ := sphereSphere_geom h
  have key : ∀ g' : ScGeom, (g'.r1 + g'.r2 - g'.pd) • g'.normal = s2.pos + c.shift2 - s1.pos →
      g'.r1 + g'.r2 - g'.pd ≠ 0 →
      c.dt • (incidentVel g' s1 s2 c - dot g'.normal (incidentVel g' s1 s2 c) • g'.normal) = 0 := by
    intro g' h1 h2
    rw [rigid_incident g' s1 s2 c v ω o hr h1 h2]
    apply v3_ext <;> simp [dot]
  have hne : r1 + r2 - (r1 + r2 - norm3 (s2.pos + c.shift2 - s1.pos)) ≠ 0 := by
    intro e; apply h0; linarith
  have hbr : (r1 + r2 - (r1 + r2 - norm3 (s2.pos + c.shift2 - s1.pos))) •
      ((1 / norm3 (s2.pos + c.shift2 - s1.pos)) • (s2.pos + c.shift2 - s1.pos)) = s2.pos + c.shift2 - s1.pos := by
    rw [hr1, hr2, hpd, hn] at hb
    exact hb
  unfold sphereSphere at h
  simp only at h
  split_ifs at h with h1 h2
  · injection h with h
    exact absurd h (by simp)
  injection h with h
  injection h with h
  subst h
  cases hi : old.isNone with
  | true => exact key _ hbr hne
  | false => exact key _ hbr hne

/-- Lagrange's identity. -/
theorem sqNorm_cross (a b : V3) : sqNorm (cross a b) = sqNorm a * sqNorm b - dot a b ^ 2 := by
  simp only [sqNorm, dot, cross_zero', cross_one', cross_two']; ring

theorem sqNorm_sub_cross (f a : V3) : sqNorm f ≤ sqNorm (f - cross f a) ∧
    sqNorm (f - cross f a) ≤ (1 + sqNorm a) * sqNorm f := by
  have e : sqNorm (f - cross f a) = sqNorm f + sqNorm (cross f a) := by
    simp only [sqNorm, dot, Pi.sub_apply, cross_zero', cross_one', cross_two']; ring
  constructor
  · rw [e]; linarith [sqNorm_nonneg (cross f a)]
  · rw [e, sqNorm_cross]; nlinarith [sq_nonneg (dot f a)]

/-- **C87 (part).** Two spheres in contact that move like one rigid body (translation, rotation, periodic image included, with
either definition of the relative velocity) get no shear displacement: as long as friction holds, the only change of
the shear force is its turning with the contact, by which its squared length grows at most by the factors
`1 + sin² θ` (turn of the normal) and `1 + φ²` (twist).  The full statement, that its length does not change,
fails: `C87_violated`. -/
theorem C87_rigid_partial (P : Pair) (g0 : ScGeom) (p0 : FrictPhys) (k' : Contact) (s1 s2 : State) (c : GeomCtx)
    (L : Loads) (v ω o : V3) (hr : RigidMotion s1 s2 c v ω o)
    (h : contactStep P ⟨some g0, some p0⟩ s1 s2 c = .ok (k', L)) (p : FrictPhys) (g : ScGeom)
    (hk : k' = ⟨some g, some p⟩) (hpd : 0 ≤ g.pd) (hhold : norm3 p.Fs < |p0.tan| * norm3 p.Fn) :
    sqNorm p0.Fs ≤ sqNorm p.Fs ∧
    sqNorm p.Fs ≤ (1 + sqNorm (cross g0.normal g.normal)) *
      (1 + (c.dt * dot g0.normal ω) ^ 2 * sqNorm g0.normal) * sqNorm p0.Fs ∧
    (g.normal = g0.normal → dot g0.normal ω = 0 → p.Fs = p0.Fs) := by
  unfold contactStep at h
  simp only [Option.isSome_some, Bool.and_self] at h
  split at h
  · simp at h
  · simp at h
  · injection h with h
    injection h with h _
    rw [hk] at h
    simp at h
  rename_i g' hg
  injection h with h
  injection h with h _
  have hfp : frictPhys (some p0) P.m1 P.m2 g' = p0 := rfl
  simp only [hfp] at h
  by_cases hne : g'.pd < 0 ∧ ¬ P.cfg.neverErase
  · rw [lawGo_lost hne, hk] at h
    simp at h
  obtain ⟨q, hq, hl⟩ := lawGo_kept (p := p0) (x1 := s1.pos) (x2 := s2.pos) hne
  rw [hl, hk] at h
  simp only [if_true] at h
  injection h with hg' hp'
  injection hg' with hg'
  injection hp' with hp'
  subst hg'
  rw [if_neg (not_lt.mpr hpd)] at hq
  rw [hq] at hp'
  have hFs : p.Fs = slip (sqNorm (normalForce g' p0) * p0.tan ^ 2) (trialShear g' p0) := by rw [← hp']
  have hFn : p.Fn = normalForce g' p0 := by rw [← hp']
  rw [hFn] at hhold
  have ht : p.Fs = trialShear g' p0 := by
    rw [hFs]
    rw [hFs] at hhold
    unfold slip at hhold ⊢
    by_cases hs : sqNorm (trialShear g' p0) > sqNorm (normalForce g' p0) * p0.tan ^ 2
    · exfalso
      rw [if_pos hs] at hhold
      have h0 : 0 < norm3 (trialShear g' p0) := Real.sqrt_pos.mpr
        (lt_of_le_of_lt (mul_nonneg (sqNorm_nonneg _) (sq_nonneg _)) hs)
      have hq : 0 ≤ Real.sqrt (sqNorm (normalForce g' p0) * p0.tan ^ 2) / norm3 (trialShear g' p0) :=
        div_nonneg (Real.sqrt_nonneg _) h0.le
      have e : norm3 ((Real.sqrt (sqNorm (normalForce g' p0) * p0.tan ^ 2) / norm3 (trialShear g' p0)) •
          trialShear g' p0) = Real.sqrt (sqNorm (normalForce g' p0) * p0.tan ^ 2) := by
        rw [norm3, sqNorm_smul, Real.sqrt_mul (sq_nonneg _), Real.sqrt_sq hq]
        exact div_mul_cancel₀ _ h0.ne'
      rw [e, Real.sqrt_mul (sqNorm_nonneg _), Real.sqrt_sq_eq_abs] at hhold
      unfold norm3 at hhold
      linarith
    · rw [if_neg hs]
  have hinc := rigid_shearInc hg hr
  obtain ⟨ho, htw⟩ := sphereSphere_old hg
  have htw' : g'.twist = (c.dt * dot g0.normal ω) • g0.normal := by
    rw [htw, hr.2.2.1, hr.2.2.2]
    congr 1
    simp only [dot, Pi.add_apply]
    norm_num
    ring
  have hrot : p.Fs = (p0.Fs - cross p0.Fs g'.ortho) - cross (p0.Fs - cross p0.Fs g'.ortho) g'.twist := by
    rw [ht, trialShear, hinc, smul_zero, sub_zero, ScGeom.rotate]
  obtain ⟨a1, a2⟩ := sqNorm_sub_cross p0.Fs g'.ortho
  obtain ⟨b1, b2⟩ := sqNorm_sub_cross (p0.Fs - cross p0.Fs g'.ortho) g'.twist
  rw [← hrot] at b1 b2
  refine ⟨a1.trans b1, ?_, ?_⟩
  · refine b2.trans ?_
    rw [htw', sqNorm_smul, ← ho]
    have hpos : 0 ≤ 1 + (c.dt * dot g0.normal ω) ^ 2 * sqNorm g0.normal := by
      have := mul_nonneg (sq_nonneg (c.dt * dot g0.normal ω)) (sqNorm_nonneg g0.normal)
      linarith
    calc (1 + (c.dt * dot g0.normal ω) ^ 2 * sqNorm g0.normal) * sqNorm (p0.Fs - cross p0.Fs g'.ortho)
        ≤ (1 + (c.dt * dot g0.normal ω) ^ 2 * sqNorm g0.normal) * ((1 + sqNorm g'.ortho) * sqNorm p0.Fs) :=
          mul_le_mul_of_nonneg_left a2 hpos
      _ = _ := by ring
  · intro hn hw
    rw [hrot, ho, htw', hn, hw, cross_self, mul_zero, zero_smul]
    apply v3_ext <;> simp

/-- A contact with normal x and a shear force along y. -/
noncomputable def exOld : Contact :=
  ⟨some { exGeom with shearInc := 0 }, some ⟨1, 1, 10, ![1, 0, 0], ![0, 1, 0]⟩⟩

/-- The second sphere after turning about the first one, without any velocity (a rigid motion). -/
noncomputable def exTurned : State := { exState 0 0 with pos := ![3 / 5, 4 / 5, 0] }

theorem exTurned_dist : exTurned.pos + exCtx.shift2 - exS1.pos = ![3 / 5, 4 / 5, 0] := by
  apply v3_ext <;> simp [exS1, exTurned, exCtx, exState]

theorem norm3_turned : norm3 (![3 / 5, 4 / 5, 0] : V3) = 1 := by
  have : sqNorm (![3 / 5, 4 / 5, 0] : V3) = 1 := by simp [sqNorm, dot]; norm_num
  rw [norm3, this, Real.sqrt_one]

theorem exTurned_rigid : RigidMotion exS1 exTurned exCtx 0 0 0 := by
  refine ⟨?_, ?_, rfl, rfl⟩ <;> apply v3_ext <;> simp [exS1, exTurned, exCtx, exState]

theorem exTurned_step (cfg : LawCfg) : ∃ (g : ScGeom) (p : FrictPhys) (L : Loads),
    contactStep (exSpheres cfg) exOld exS1 exTurned exCtx = .ok (⟨some g, some p⟩, L) ∧ 0 ≤ g.pd ∧
    p.Fn = ![3 / 5, 4 / 5, 0] ∧ g.normal = ![3 / 5, 4 / 5, 0] ∧ p.Fs = ![-4 / 5, 1, 0] := by
  have hs : ∃ g, sphereSphere 1 (some { exGeom with shearInc := 0 }) true false 1 1 exS1 exTurned exCtx =
      .ok (some g) := by
    unfold sphereSphere
    simp only [exTurned_dist]
    rw [if_neg (by simp), if_neg (by rw [norm3_turned]; norm_num)]
    exact ⟨_, rfl⟩
  obtain ⟨g, hg⟩ := hs
  obtain ⟨_, hn, hpd, hr1, hr2, _⟩ := sphereSphere_geom hg
  obtain ⟨ho, htw⟩ := sphereSphere_old hg
  have hinc := rigid_shearInc hg exTurned_rigid
  rw [exTurned_dist, norm3_turned] at hpd hn
  have hpd' : g.pd = 1 := by rw [hpd]; norm_num
  have hn' : g.normal = ![3 / 5, 4 / 5, 0] := by rw [hn]; simp
  have hne : ¬ (g.pd < 0 ∧ ¬ cfg.neverErase) := by rw [hpd']; norm_num
  obtain ⟨q, hq, hl⟩ := lawGo_kept (cfg := cfg) (p := ⟨1, 1, 10, ![1, 0, 0], ![0, 1, 0]⟩) (x1 := exS1.pos)
    (x2 := exTurned.pos) hne
  rw [if_neg (by rw [hpd']; norm_num)] at hq
  have hFn : normalForce g q = ![3 / 5, 4 / 5, 0] := by
    rw [normalForce, hn', hpd', hq]
    apply v3_ext <;> simp
  have htr : trialShear g q = ![-4 / 5, 1, 0] := by
    have ho' : g.ortho = ![0, 0, 4 / 5] := by
      rw [ho, hn']
      apply v3_ext <;> simp only [cross_zero', cross_one', cross_two'] <;> simp [exGeom]
    have ht' : g.twist = 0 := by
      rw [htw]
      apply v3_ext <;> simp [exS1, exTurned, exState, dot]
    rw [trialShear, hinc, ScGeom.rotate, ho', ht', hq]
    apply v3_ext <;>
    · simp only [Pi.sub_apply, cross_zero', cross_one', cross_two', Pi.smul_apply]
      simp
      try norm_num
  have hsl : slip (sqNorm (normalForce g q) * q.tan ^ 2) (trialShear g q) = ![-4 / 5, 1, 0] := by
    rw [htr, hFn, hq, slip, if_neg]
    simp [sqNorm, dot]; norm_num
  refine ⟨g, { q with Fn := normalForce g q, Fs := slip (sqNorm (normalForce g q) * q.tan ^ 2) (trialShear g q) },
    applyLoads cfg g (-normalForce g q - slip (sqNorm (normalForce g q) * q.tan ^ 2) (trialShear g q)) exS1.pos
      exTurned.pos, ?_, by rw [hpd']; norm_num, hFn, hn', hsl⟩
  · unfold contactStep
    simp only [exSpheres, exOld, Option.isSome_some, Bool.and_self]
    rw [hg]
    simp only [frictPhys, hl, if_true]

/-- The hypotheses of `C87_rigid_partial` are met by a contact turning with a shear force. -/
example (cfg : LawCfg) : ∃ (g : ScGeom) (p : FrictPhys) (L : Loads),
    contactStep (exSpheres cfg) exOld exS1 exTurned exCtx = .ok (⟨some g, some p⟩, L) ∧ 0 ≤ g.pd ∧
    RigidMotion exS1 exTurned exCtx 0 0 0 ∧ norm3 p.Fs < |10| * norm3 p.Fn := by
  obtain ⟨g, p, L, h1, h2, h3, h4, h5⟩ := exTurned_step cfg
  refine ⟨g, p, L, h1, h2, exTurned_rigid, ?_⟩
  rw [h5, h3, norm3_turned]
  have : sqNorm (![-4 / 5, 1, 0] : V3) = 41 / 25 := by simp [sqNorm, dot]; norm_num
  rw [norm3, this]
  have h2 : Real.sqrt (41 / 25) ≤ 2 := by
    rw [Real.sqrt_le_left (by norm_num)]; norm_num
  rw [abs_of_pos (by norm_num)]
  linarith

/-- **C87 fails**: turning a contact rigidly lengthens its shear force and tilts it out of the contact plane, so that it acts
along the normal as well (the turning is linearised). -/
theorem C87_violated (cfg : LawCfg) : ∃ (P : Pair) (g0 g : ScGeom) (p0 p : FrictPhys) (s1 s2 : State) (c : GeomCtx)
    (L : Loads), RigidMotion s1 s2 c 0 0 0 ∧ P.cfg = cfg ∧
    contactStep P ⟨some g0, some p0⟩ s1 s2 c = .ok (⟨some g, some p⟩, L) ∧
    dot p0.Fs g0.normal = 0 ∧ sqNorm p0.Fs < sqNorm p.Fs ∧ dot p.Fs g.normal ≠ 0 := by
  obtain ⟨g, p, L, h1, h2, h3, h4, h5⟩ := exTurned_step cfg
  refine ⟨exSpheres cfg, { exGeom with shearInc := 0 }, g, ⟨1, 1, 10, ![1, 0, 0], ![0, 1, 0]⟩, p, exS1, exTurned,
    exCtx, L, exTurned_rigid, rfl, h1, ?_, ?_, ?_⟩
  · simp [exGeom, dot]
  · rw [h5]; simp [sqNorm, dot]
  · rw [h5, h4]; simp [dot]; norm_num

/-! ## C88: the result does not depend on which body is called first -/

/-- The same step seen with the bodies exchanged. -/
def GeomCtx.swap (c : GeomCtx) : GeomCtx := { c with shift2 := -c.shift2, shiftVel := -c.shiftVel }

/-- The same pair with the bodies exchanged. -/
def Pair.swap (P : Pair) : Pair := { P with r1 := P.r2, r2 := P.r1, m1 := P.m2, m2 := P.m1 }

/-- The same loads with the bodies exchanged. -/
def Loads.swap (L : Loads) : Loads := ⟨L.f2, L.t2, L.f1, L.t1⟩

/-- Two descriptions of one contact, with the bodies exchanged: opposite normals and forces. -/
def Swapped (k k' : Contact) : Prop :=
  (match k.geom, k'.geom with
    | none, none => True
    | some g, some g' => g'.normal = -g.normal
    | _, _ => False) ∧
  (match k.phys, k'.phys with
    | none, none => True
    | some p, some p' => p'.kn = p.kn ∧ p'.ks = p.ks ∧ p'.tan = p.tan ∧ p'.Fn = -p.Fn ∧ p'.Fs = -p.Fs
    | _, _ => False)

theorem slip_neg (m : ℝ) (t : V3) : slip m (-t) = -slip m t := by
  unfold slip
  rw [sqNorm_neg, norm3_neg]
  split_ifs
  · rw [smul_neg]
  · rfl

/-- Geometry of the exchanged pair. -/
structure MirrorGeom (c : GeomCtx) (g g' : ScGeom) : Prop where
  normal : g'.normal = -g.normal
  point : g'.contactPoint = g.contactPoint - c.shift2
  pd : g'.pd = g.pd
  r1 : g'.r1 = g.r2
  r2 : g'.r2 = g.r1
  twist : g'.twist = g.twist
  ortho : g'.ortho = g.ortho
  inc : g'.shearInc = -g.shearInc

theorem incident_mirror (g g' : ScGeom) (s1 s2 : State) (c : GeomCtx) (hn : g'.normal = -g.normal)
    (hp : g'.contactPoint = g.contactPoint - c.shift2) (hpd : g'.pd = g.pd) (h1 : g'.r1 = g.r2) (h2 : g'.r2 = g.r1) :
    incidentVel g' s2 s1 c.swap = -incidentVel g s1 s2 c := by
  by_cases ha : c.avoidRatcheting = true
  · rw [incidentVel, incidentVel, if_pos ha, if_pos (show c.swap.avoidRatcheting = true from ha)]
    simp only [GeomCtx.swap]
    rw [hn, hpd, h1, h2, add_comm g.r2 g.r1]
    apply v3_ext <;> simp <;> ring
  · rw [incidentVel, incidentVel, if_neg ha, if_neg (show ¬ c.swap.avoidRatcheting = true from ha)]
    simp only [GeomCtx.swap]
    rw [hp]
    apply v3_ext <;> simp <;> ring

theorem tangential_mirror (n v : V3) (dt : ℝ) :
    dt • (-v - dot (-n) (-v) • -n) = -(dt • (v - dot n v • n)) := by
  rw [dot_neg_left, dot_neg_right, neg_neg]
  apply v3_ext <;> simp <;> ring

theorem precompute_mirror (g g' : ScGeom) (s1 s2 : State) (c : GeomCtx) (n : V3) (b : Bool)
    (hn : b = false → g'.normal = -g.normal)
    (hp : g'.contactPoint = g.contactPoint - c.shift2) (hpd : g'.pd = g.pd) (h1 : g'.r1 = g.r2) (h2 : g'.r2 = g.r1) :
    MirrorGeom c (precompute g s1 s2 c n b) (precompute g' s2 s1 c.swap (-n) b) := by
  cases b with
  | true =>
    refine ⟨rfl, hp, hpd, h1, h2, rfl, rfl, ?_⟩
    have key := incident_mirror
      (precompute g s1 s2 c n true) (precompute g' s2 s1 c.swap (-n) true) s1 s2 c rfl hp hpd h1 h2
    refine Eq.trans ?_ (tangential_mirror n (incidentVel (precompute g s1 s2 c n true) s1 s2 c) c.dt)
    rw [← key]
    rfl
  | false =>
    have hn := hn rfl
    refine ⟨rfl, hp, hpd, h1, h2, ?_, ?_, ?_⟩
    · show (c.dt * 0.5 * dot g'.normal (s2.angVel + s1.angVel)) • g'.normal = _
      rw [hn, dot_neg_left, add_comm s2.angVel, smul_neg, mul_neg, neg_smul, neg_neg]
      rfl
    · show cross g'.normal (-n) = cross g.normal n
      rw [hn, cross_neg_left, cross_neg_right, neg_neg]
    · have key := incident_mirror
        (precompute g s1 s2 c n false) (precompute g' s2 s1 c.swap (-n) false) s1 s2 c rfl hp hpd h1 h2
      refine Eq.trans ?_ (tangential_mirror n (incidentVel (precompute g s1 s2 c n false) s1 s2 c) c.dt)
      rw [← key]
      rfl

theorem sphereSphere_mirror (factor : ℝ) (old old' : Option ScGeom) (real : Bool) (r1 r2 : ℝ) (s1 s2 : State)
    (c : GeomCtx) (hold : match old, old' with
      | none, none => True
      | some g, some g' => g'.normal = -g.normal
      | _, _ => False) :
    match sphereSphere factor old real false r1 r2 s1 s2 c with
    | .ok none => sphereSphere factor old' real false r2 r1 s2 s1 c.swap = .ok none
    | .ok (some g) => ∃ g', sphereSphere factor old' real false r2 r1 s2 s1 c.swap = .ok (some g') ∧ MirrorGeom c g g'
    | .throws => False
    | .ub => sphereSphere factor old' real false r2 r1 s2 s1 c.swap = .ub := by
  have hd : s1.pos + c.swap.shift2 - s2.pos = -(s2.pos + c.shift2 - s1.pos) := by
    simp only [GeomCtx.swap]; abel
  have hiso : old'.isNone = old.isNone := by
    match old, old', hold with
    | none, none, _ => rfl
    | some _, some _, _ => rfl
  unfold sphereSphere
  simp only [hd, sqNorm_neg, norm3_neg, add_comm r2 r1]
  by_cases h1 : ¬ real = true ∧ ¬ false = true ∧ (factor * (r1 + r2)) ^ 2 - sqNorm (s2.pos + c.shift2 - s1.pos) < 0
  · rw [if_pos h1]
    simp only [if_pos h1]
  · rw [if_neg h1]
    simp only [if_neg h1]
    by_cases h2 : norm3 (s2.pos + c.shift2 - s1.pos) = 0
    · simp only [if_pos h2]
    · simp only [if_neg h2]
      refine ⟨_, rfl, ?_⟩
      rw [hiso, smul_neg]
      apply precompute_mirror
      · intro hb
        match old, old', hold with
        | none, none, _ => simp at hb
        | some g, some g', h => exact h
      · simp only [smul_neg]
        have h3 : norm3 (s2.pos + c.shift2 - s1.pos) •
            ((1 / norm3 (s2.pos + c.shift2 - s1.pos)) • (s2.pos + c.shift2 - s1.pos)) =
            s2.pos + c.shift2 - s1.pos := by
          rw [smul_smul, mul_one_div, div_self h2, one_smul]
        generalize (1 / norm3 (s2.pos + c.shift2 - s1.pos)) • (s2.pos + c.shift2 - s1.pos) = n at h3
        generalize norm3 (s2.pos + c.shift2 - s1.pos) = l at h3
        have e := fun i => congrFun h3 i
        simp only [Pi.smul_apply, smul_eq_mul, Pi.sub_apply, Pi.add_apply] at e
        have e0 := e 0
        have e1 := e 1
        have e2 := e 2
        apply v3_ext
        · simp; linear_combination -e0
        · simp; linear_combination -e1
        · simp; linear_combination -e2
      · rfl
      · rfl
      · rfl

theorem rotate_neg (g g' : ScGeom) (f : V3) (ho : g'.ortho = g.ortho) (ht : g'.twist = g.twist) :
    g'.rotate (-f) = -g.rotate f := by
  simp only [ScGeom.rotate, ho, ht]
  apply v3_ext <;> simp <;> ring

theorem applyLoads_mirror (cfg : LawCfg) (c : GeomCtx) (g g' : ScGeom) (h : MirrorGeom c g g') (F x1 x2 : V3)
    (hc : cfg.periodic = false → c.shift2 = 0) :
    applyLoads cfg g' (-F) x2 x1 = (applyLoads cfg g F x1 x2).swap := by
  unfold applyLoads
  by_cases hp : ¬ cfg.periodic = true ∧ ¬ cfg.sphericalBodies = true
  · rw [if_pos hp, if_pos hp]
    have hs := hc (by simpa using hp.1)
    simp only [Loads.swap, h.point, hs, sub_zero, neg_neg, cross_neg_right]
  · rw [if_neg hp, if_neg hp]
    simp only [Loads.swap, h.normal, h.pd, h.r1, h.r2, neg_neg, cross_neg_right, cross_neg_left]

/-- **C88.** Exchanging the two bodies of a contact exchanges the loads and nothing else: the step succeeds in the same
way, and afterwards the two descriptions again differ only by the exchange. -/
theorem C88_step (P : Pair) (k k' k1 : Contact) (s1 s2 : State) (c : GeomCtx) (L : Loads)
    (hc : P.cfg.periodic = false → c.shift2 = 0) (hk : Swapped k k')
    (h : contactStep P k s1 s2 c = .ok (k1, L)) :
    ∃ k1', contactStep P.swap k' s2 s1 c.swap = .ok (k1', L.swap) ∧ Swapped k1 k1' := by
  obtain ⟨hkg, hkp⟩ := hk
  have hg := sphereSphere_mirror P.factor k.geom k'.geom (k.geom.isSome && k.phys.isSome) P.r1 P.r2 s1 s2 c hkg
  have hsg : k'.geom.isSome = k.geom.isSome := by
    revert hkg; cases k.geom <;> cases k'.geom <;> simp
  have hsp : k'.phys.isSome = k.phys.isSome := by
    revert hkp; cases k.phys <;> cases k'.phys <;> simp
  unfold contactStep at h ⊢
  simp only [Pair.swap, hsg, hsp] at h ⊢
  split at h
  · simp at h
  · simp at h
  · rename_i he
    rw [he] at hg
    simp only at hg
    rw [hg]
    injection h with h
    injection h with h1 h2
    subst h1
    subst h2
    refine ⟨_, rfl, ?_⟩
    split_ifs
    · exact ⟨trivial, trivial⟩
    · exact ⟨hkg, hkp⟩
  · rename_i g he
    rw [he] at hg
    simp only at hg
    obtain ⟨g', hg', hm⟩ := hg
    rw [hg']
    injection h with h
    injection h with h1 h2
    subst h1
    subst h2
    show ∃ k1', Res.ok (if (lawGo P.cfg g' (frictPhys k'.phys P.m2 P.m1 g') s2.pos s1.pos).keep then
        (⟨some g', some (lawGo P.cfg g' (frictPhys k'.phys P.m2 P.m1 g') s2.pos s1.pos).phys⟩ : Contact)
        else ⟨none, none⟩, (lawGo P.cfg g' (frictPhys k'.phys P.m2 P.m1 g') s2.pos s1.pos).loads) = _ ∧ _
    -- physics of both descriptions
    have hph : (frictPhys k'.phys P.m2 P.m1 g').kn = (frictPhys k.phys P.m1 P.m2 g).kn ∧
        (frictPhys k'.phys P.m2 P.m1 g').ks = (frictPhys k.phys P.m1 P.m2 g).ks ∧
        (frictPhys k'.phys P.m2 P.m1 g').tan = (frictPhys k.phys P.m1 P.m2 g).tan ∧
        (frictPhys k'.phys P.m2 P.m1 g').Fn = -(frictPhys k.phys P.m1 P.m2 g).Fn ∧
        (frictPhys k'.phys P.m2 P.m1 g').Fs = -(frictPhys k.phys P.m1 P.m2 g).Fs := by
      revert hkp
      cases k.phys <;> cases k'.phys <;> simp only [frictPhys, false_imp_iff, imp_self, forall_true_left]
      simp only [hm.r1, hm.r2, min_comm P.m2.frictionAngle, neg_zero, and_self, and_true]
      constructor
      · congr 1 <;> ring
      · congr 1 <;> ring
    generalize frictPhys k'.phys P.m2 P.m1 g' = p' at hph
    generalize frictPhys k.phys P.m1 P.m2 g = p at hph
    by_cases hl : g.pd < 0 ∧ ¬ P.cfg.neverErase
    · rw [lawGo_lost hl, lawGo_lost (by rw [hm.pd]; exact hl)]
      exact ⟨_, rfl, trivial, trivial⟩
    · obtain ⟨q, hq, e⟩ := lawGo_kept (p := p) (x1 := s1.pos) (x2 := s2.pos) hl
      obtain ⟨q', hq', e'⟩ := lawGo_kept (cfg := P.cfg) (g := g') (p := p') (x1 := s2.pos) (x2 := s1.pos)
        (by rw [hm.pd]; exact hl)
      rw [e, e']
      simp only [if_true]
      have hqq : q'.kn = q.kn ∧ q'.ks = q.ks ∧ q'.tan = q.tan ∧ q'.Fs = -q.Fs := by
        rw [hq, hq', hm.pd]
        obtain ⟨a, b, c, d, e⟩ := hph
        split_ifs
        · exact ⟨a, b, c, by simp⟩
        · exact ⟨a, b, c, e⟩
      obtain ⟨a1, a2, a3, a4⟩ := hqq
      have hn : normalForce g' q' = -normalForce g q := by
        rw [normalForce, normalForce, hm.normal, hm.pd, a1, smul_neg]
      have ht : trialShear g' q' = -trialShear g q := by
        rw [trialShear, trialShear, a4, rotate_neg g g' _ hm.ortho hm.twist, hm.inc, a2, smul_neg]
        abel
      have hF : -normalForce g' q' - slip (sqNorm (normalForce g' q') * q'.tan ^ 2) (trialShear g' q') =
          -(-normalForce g q - slip (sqNorm (normalForce g q) * q.tan ^ 2) (trialShear g q)) := by
        rw [hn, ht, sqNorm_neg, a3, slip_neg]
        abel
      rw [hF, applyLoads_mirror P.cfg c g g' hm _ _ _ hc]
      refine ⟨_, rfl, hm.normal, a1, a2, a3, hn, ?_⟩
      show slip _ _ = -slip _ _
      rw [hn, ht, sqNorm_neg, a3, slip_neg]

/-- The loads of a contact over a sequence of steps. -/
inductive ContactRun (P : Pair) : Contact → List (State × State × GeomCtx) → List Loads → Prop
  | nil (k) : ContactRun P k [] []
  | cons {k k1 s1 s2 c L rest Ls} (h : contactStep P k s1 s2 c = .ok (k1, L)) (hr : ContactRun P k1 rest Ls) :
      ContactRun P k ((s1, s2, c) :: rest) (L :: Ls)

/-- **C88 (whole history).** From the first contact on, over any sequence of states, time steps and periodic shifts, the loads of
the pair with exchanged bodies are the exchanged loads. -/
theorem C88_history (P : Pair) (steps : List (State × State × GeomCtx)) (Ls : List Loads)
    (hc : ∀ s ∈ steps, P.cfg.periodic = false → s.2.2.shift2 = 0) (h : ContactRun P ⟨none, none⟩ steps Ls) :
    ContactRun P.swap ⟨none, none⟩ (steps.map fun s => (s.2.1, s.1, s.2.2.swap)) (Ls.map Loads.swap) := by
  have key : ∀ k k', Swapped k k' → ContactRun P k steps Ls →
      ContactRun P.swap k' (steps.map fun s => (s.2.1, s.1, s.2.2.swap)) (Ls.map Loads.swap) := by
    clear h
    induction steps generalizing Ls with
    | nil =>
      intro k k' _ h
      cases h
      exact .nil _
    | cons s steps ih =>
      intro k k' hk h
      cases h with
      | cons h hr =>
        obtain ⟨k1', e, hs⟩ := C88_step P k k' _ _ _ _ _ (hc _ List.mem_cons_self) hk h
        exact .cons e (ih _ (fun s hs => hc s (List.mem_cons_of_mem _ hs)) _ _ hs hr)
  exact key _ _ ⟨trivial, trivial⟩ h

/-- The hypotheses of `C88_step` are met by a contact with a shear force that turns. -/
example (cfg : LawCfg) : ∃ k1 L k', contactStep (exSpheres cfg) exOld exS1 exTurned exCtx = .ok (k1, L) ∧
    Swapped exOld k' ∧ ((exSpheres cfg).cfg.periodic = false → exCtx.shift2 = 0) := by
  obtain ⟨g, p, L, h1, -⟩ := exTurned_step cfg
  refine ⟨_, _, ⟨some { exGeom with normal := -exGeom.normal },
    some ⟨1, 1, 10, -![1, 0, 0], -![0, 1, 0]⟩⟩, h1, ⟨rfl, rfl, rfl, rfl, rfl, rfl⟩, fun _ => rfl⟩

end Verif.Mech
