import Verif.FVisc.Model
import Verif.Mech.ContactProps

/-!
# Frictional contacts with viscous damping: parameters, forces, friction, balance and energy
-/
namespace Verif.FVisc
open Verif Verif.Mech

theorem ok_bind {α β : Type} (a : α) (f : α → Res β) : (Res.ok a >>= f) = f a := rfl

/-! ## C311: parameters -/

/-- The mass that oscillates against the contact: of the one body that moves, or the reduced mass. -/
def OscMass (a b : Bd) (m : ℝ) : Prop :=
  (a.dynamic = false ∧ b.dynamic = true ∧ m = b.mass) ∨ (a.dynamic = true ∧ b.dynamic = false ∧ m = a.mass) ∨
  (a.dynamic = b.dynamic ∧ a.mass + b.mass ≠ 0 ∧ m * (a.mass + b.mass) = a.mass * b.mass)

theorem eqMass_spec {a b : Bd} {m : ℝ} (h : eqMass a b = .ok m) : OscMass a b m := by
  unfold eqMass at h
  by_cases h1 : a.dynamic = false ∧ b.dynamic = true
  · rw [if_pos h1] at h
    cases h; exact Or.inl ⟨h1.1, h1.2, rfl⟩
  rw [if_neg h1] at h
  by_cases h2 : b.dynamic = false ∧ a.dynamic = true
  · rw [if_pos h2] at h
    cases h; exact Or.inr (Or.inl ⟨h2.2, h2.1, rfl⟩)
  rw [if_neg h2] at h
  by_cases h3 : a.mass + b.mass = 0
  · rw [if_pos h3] at h; cases h
  rw [if_neg h3] at h
  cases h
  refine Or.inr (Or.inr ⟨?_, h3, div_mul_cancel₀ _ h3⟩)
  rcases ha : a.dynamic <;> rcases hb : b.dynamic <;> simp_all

theorem withDamping_spec {a b : Bd} {Kn Ks t : ℝ} {be : Option ℝ} {p : Phys}
    (h : withDamping a b Kn Ks t be = .ok p) :
    p.kn = Kn ∧ p.ks = Ks ∧ p.tan = t ∧ p.Fn = 0 ∧ p.Fs = 0 ∧ p.visc = 0 ∧
    ((be = none ∧ p.cn = 0) ∨
      ∃ (x m c : ℝ), be = some x ∧ OscMass a b m ∧ 0 ≤ c ∧ c ^ 2 = 4 * m * Kn ∧ p.cnCrit = some c ∧
        p.cn = x * c) := by
  unfold withDamping at h
  cases be with
  | none => cases h; exact ⟨rfl, rfl, rfl, rfl, rfl, rfl, Or.inl ⟨rfl, rfl⟩⟩
  | some x =>
    simp only at h
    cases hm : eqMass a b with
    | throws => rw [hm] at h; cases h
    | ub => rw [hm] at h; cases h
    | ok m =>
      rw [hm, ok_bind] at h
      by_cases hn : m * Kn < 0
      · rw [critical, if_pos hn] at h; cases h
      · rw [critical, if_neg hn, ok_bind] at h
        cases h
        refine ⟨rfl, rfl, rfl, rfl, rfl, rfl, Or.inr ⟨x, m, _, rfl, eqMass_spec hm, by positivity, ?_, rfl,
          mul_comm _ _⟩⟩
        rw [mul_pow, Real.sq_sqrt (not_lt.mp hn)]; ring

/-- **C311 (damping).** The damping constant of a new contact of two viscous materials is the fraction of the critical one of the oscillator
made of the contact's stiffness and the moving mass: the mean of the two fractions, or the only one that is not zero. -/
theorem C311_damping_partial (mk : Match) (m1 m2 : FrictMat) (b1 b2 r1 r2 : ℝ) (a b : Bd) (p : Phys)
    (h : ip2 mk none (.visco m1 b1) (.visco m2 b2) r1 r2 a b = .ok p) :
    (b1 = 0 → b2 = 0 → p.cn = 0) ∧
    (b1 ≠ 0 ∨ b2 ≠ 0 → ∃ m c : ℝ, OscMass a b m ∧ 0 ≤ c ∧ c ^ 2 = 4 * m * p.kn ∧ p.cnCrit = some c ∧
      (b1 ≠ 0 → b2 ≠ 0 → p.cn = (b1 + b2) / 2 * c) ∧ (b2 = 0 → p.cn = b1 * c) ∧ (b1 = 0 → p.cn = b2 * c)) := by
  simp only [ip2, ip2Both] at h
  cases hk : normalStiff mk m1 m2 r1 r2 with
  | throws => rw [hk] at h; cases h
  | ub => rw [hk] at h; cases h
  | ok Kn =>
    rw [hk, ok_bind] at h
    cases hs : shearStiff mk m1 m2 r1 r2 Kn with
    | throws => rw [hs] at h; cases h
    | ub => rw [hs] at h; cases h
    | ok Ks =>
      rw [hs, ok_bind] at h
      obtain ⟨e1, -, -, -, -, -, hd⟩ := withDamping_spec h
      rcases hd with ⟨hb, hc⟩ | ⟨x, m, c, hb, hm, c0, cc, ce, hc⟩
      · refine ⟨fun _ _ => hc, fun hne => ?_⟩
        rw [fracBoth, if_pos hne] at hb
        cases hb
      · by_cases hne : b1 ≠ 0 ∨ b2 ≠ 0
        · rw [fracBoth, if_pos hne] at hb
          have hx := (Option.some.inj hb).symm
          refine ⟨fun h1 h2 => absurd hne (by simp [h1, h2]), fun _ => ⟨m, c, hm, c0, by rw [e1]; exact cc, ce, ?_, ?_, ?_⟩⟩
          · intro h1 h2
            rw [hc, hx, if_pos ⟨h1, h2⟩]
          · intro h2
            rw [hc, hx, if_neg (by simp [h2]), if_pos h2]
          · intro h1
            have h2 : b2 ≠ 0 := hne.resolve_left (by simp [h1])
            rw [hc, hx, if_neg (by simp [h1]), if_neg h2]
        · rw [fracBoth, if_neg hne] at hb
          cases hb

theorem harm_comm (a b : ℝ) : harm a b = harm b a := by
  unfold harm
  rw [add_comm a b, show 2 * a * b = 2 * b * a by ring]

theorem eqMass_comm (a b : Bd) : eqMass a b = eqMass b a := by
  unfold eqMass
  rw [add_comm a.mass, mul_comm a.mass]
  rcases ha : a.dynamic <;> rcases hb : b.dynamic <;> simp

theorem normalStiff_comm (mk : Match) (m1 m2 : FrictMat) (r1 r2 : ℝ) :
    normalStiff mk m1 m2 r1 r2 = normalStiff mk m2 m1 r2 r1 := by
  unfold normalStiff
  rw [harm_comm]

theorem shearStiff_comm (mk : Match) (m1 m2 : FrictMat) (r1 r2 K : ℝ) :
    shearStiff mk m1 m2 r1 r2 K = shearStiff mk m2 m1 r2 r1 K := by
  unfold shearStiff
  rw [harm_comm]

theorem tangent_comm (mk : Match) (m1 m2 : FrictMat) : tangent mk m1 m2 = tangent mk m2 m1 := by
  unfold tangent
  rw [min_comm]

theorem fracBoth_comm (x y : ℝ) : fracBoth x y = fracBoth y x := by
  unfold fracBoth
  by_cases hx : x = 0 <;> by_cases hy : y = 0 <;> simp [hx, hy, add_comm]

theorem withDamping_comm (a b : Bd) (Kn Ks t : ℝ) (be : Option ℝ) :
    withDamping a b Kn Ks t be = withDamping b a Kn Ks t be := by
  unfold withDamping
  rw [eqMass_comm]

/-- **C311 (order).** Exchanging the two bodies (materials, radii, masses) does not change the parameters when both
materials are viscous. -/
theorem C311_order_partial (mk : Match) (m1 m2 : FrictMat) (b1 b2 r1 r2 : ℝ) (a b : Bd) :
    ip2 mk none (.visco m1 b1) (.visco m2 b2) r1 r2 a b = ip2 mk none (.visco m2 b2) (.visco m1 b1) r2 r1 b a := by
  simp only [ip2, ip2Both]
  rw [normalStiff_comm, tangent_comm, fracBoth_comm]
  simp only [shearStiff_comm mk m1 m2 r1 r2, withDamping_comm a b]

/-- **C311 (plain material).** A plain first material acts as a viscous one without damping of its own. -/
theorem C311_plain_partial (mk : Match) (old : Option Phys) (m1 m2 : FrictMat) (b2 r1 r2 : ℝ) (a b : Bd) :
    ip2 mk old (.frict m1) (.visco m2 b2) r1 r2 a b = ip2 mk old (.visco m1 0) (.visco m2 b2) r1 r2 a b := by
  have h : (open Classical in if b2 ≠ 0 then some b2 else none) = fracBoth 0 b2 := by
    unfold fracBoth
    by_cases h2 : b2 = 0 <;> simp [h2]
  simp only [ip2, ip2One, ip2Both, h]

/-- A material with unit modulus. -/
noncomputable def exMat : FrictMat := ⟨1, 1 / 2, 1 / 2⟩

/-- No `MatchMaker`. -/
def exMatch : Match := ⟨none, none, none⟩

theorem exStiff : normalStiff exMatch exMat exMat 1 1 = .ok 1 := by
  unfold normalStiff harm exMatch exMat
  simp only
  norm_num

theorem exShear : shearStiff exMatch exMat exMat 1 1 1 = .ok (1 / 2) := by
  unfold shearStiff harm exMatch exMat
  simp only
  norm_num

theorem exPlain_ok : ∃ p, ip2 exMatch none (.frict exMat) (.visco exMat (1 / 2)) 1 1 ⟨true, 2⟩ ⟨true, 2⟩ = .ok p ∧
    p.cn = 1 := by
  have hm : eqMass ⟨true, 2⟩ ⟨true, 2⟩ = .ok 1 := by
    unfold eqMass; norm_num
  have hc : critical 1 1 = .ok 2 := by
    unfold critical; norm_num
  refine ⟨⟨1, 1 / 2, tangent exMatch exMat exMat, some 2, 2 * (1 / 2), 0, 0, 0⟩, ?_, by norm_num⟩
  simp only [ip2, ip2One]
  rw [exStiff, ok_bind, exShear, ok_bind, if_pos (by norm_num)]
  simp only [withDamping]
  rw [hm, ok_bind, hc, ok_bind]
  rfl

/-- The hypothesis of `C311_damping_partial` is met by two equal bodies of which one is damped. -/
example : ∃ p, ip2 exMatch none (.visco exMat 0) (.visco exMat (1 / 2)) 1 1 ⟨true, 2⟩ ⟨true, 2⟩ = .ok p ∧ p.cn = 1 := by
  rw [← C311_plain_partial]; exact exPlain_ok

/-- The two sides of `C311_order_partial` have a value for different fractions. -/
example : ∃ p, ip2 exMatch none (.visco exMat (1 / 2)) (.visco exMat 0) 1 1 ⟨true, 2⟩ ⟨true, 2⟩ = .ok p ∧ p.cn = 1 := by
  rw [C311_order_partial, ← C311_plain_partial]; exact exPlain_ok

/-- The two sides of `C311_plain_partial` have a value. -/
example : ∃ p, ip2 exMatch none (.frict exMat) (.visco exMat (1 / 2)) 1 1 ⟨true, 2⟩ ⟨true, 2⟩ = .ok p ∧ p.cn = 1 :=
  exPlain_ok

/-- **C311 fails for a viscous body that comes before a plain one**: in one order the pair has parameters, in the other the
behaviour is undefined. -/
theorem C311_violated_order : ∃ (mk : Match) (x y : Mat) (a b : Bd) (p : Phys),
    ip2 mk none x y 1 1 a b = .ok p ∧ ip2 mk none y x 1 1 b a = .ub := by
  obtain ⟨p, hp, -⟩ := exPlain_ok
  exact ⟨_, _, _, _, _, p, hp, rfl⟩

/-- **C311 fails for two fixed bodies without mass** (facets, walls): damping makes the constant undefined, without it
there is one. -/
theorem C311_violated_fixed : ∃ (mk : Match) (m : FrictMat) (a b : Bd) (p : Phys),
    ip2 mk none (.visco m 0) (.visco m 0) 1 1 a b = .ok p ∧
    ∀ x : ℝ, x ≠ 0 → ip2 mk none (.visco m x) (.visco m x) 1 1 a b = .ub := by
  refine ⟨exMatch, exMat, ⟨false, 0⟩, ⟨false, 0⟩, ⟨1, 1 / 2, tangent exMatch exMat exMat, none, 0, 0, 0, 0⟩, ?_, ?_⟩
  · simp only [ip2, ip2Both]
    rw [exStiff, ok_bind, exShear, ok_bind, fracBoth, if_neg (by simp)]
    rfl
  · intro x hx
    simp only [ip2, ip2Both]
    rw [exStiff, ok_bind, exShear, ok_bind, fracBoth, if_pos (Or.inl hx)]
    simp only [withDamping]
    have hm : eqMass ⟨false, 0⟩ ⟨false, 0⟩ = .ub := by unfold eqMass; simp
    rw [hm]; rfl

/-! ## C312: normal force -/

/-- Speed at which the centres part along the normal, enlarged by the ratio of the radii to the distance. -/
noncomputable def partingSpeed (g : ScGeom) (s1 s2 : State) (c : GeomCtx) : ℝ :=
  (g.r1 + g.r2) / (g.r1 + g.r2 - g.pd) * dot g.normal (s2.vel - s1.vel + c.shiftVel)

theorem viscous_eq (g : ScGeom) (p : Phys) (s1 s2 : State) (c : GeomCtx) :
    viscous g p s1 s2 c = (p.cn * partingSpeed g s1 s2 c) • g.normal := by
  have h : dot g.normal (incidentVel g s1 s2 { c with avoidRatcheting := true }) = partingSpeed g s1 s2 c := by
    simp only [incidentVel, if_true, partingSpeed]
    simp only [dot, Pi.add_apply, Pi.sub_apply, Pi.smul_apply, smul_eq_mul]
    simp
    ring
  rw [viscous, h, smul_smul]

theorem lawGo_lost {cfg : Cfg} {g : ScGeom} {p : Phys} {s1 s2 : State} {c : GeomCtx} {e : Energy}
    (h : g.pd < 0 ∧ ¬ cfg.law.neverErase) :
    lawGo cfg g p s1 s2 c e = { keep := false, phys := p, loads := Loads.zero, energy := e } := by
  rw [lawGo, if_pos h]

theorem lawGo_kept {cfg : Cfg} {g : ScGeom} {p : Phys} {s1 s2 : State} {c : GeomCtx} {e : Energy}
    (h : ¬ (g.pd < 0 ∧ ¬ cfg.law.neverErase)) :
    ∃ (N S trial : V3), N = (p.kn * max g.pd 0 - p.cn * partingSpeed g s1 s2 c) • g.normal ∧
      trial = (if g.pd < 0 then 0 else g.rotate p.Fs) - p.ks • g.shearInc ∧
      S = slip (sqNorm N * p.tan ^ 2) trial ∧
      (lawGo cfg g p s1 s2 c e).keep = true ∧
      (lawGo cfg g p s1 s2 c e).phys =
        { p with Fn := N, Fs := S, visc := (p.cn * partingSpeed g s1 s2 c) • g.normal } ∧
      (lawGo cfg g p s1 s2 c e).loads = applyLoads cfg.law g (-N - S) s1.pos s2.pos ∧
      (lawGo cfg g p s1 s2 c e).energy = energyStep cfg p.ks (sqNorm N * p.tan ^ 2) trial
        { p with Fn := N, Fs := S, visc := (p.cn * partingSpeed g s1 s2 c) • g.normal } e := by
  refine ⟨_, _, _, rfl, rfl, rfl, ?_⟩
  rw [lawGo, if_neg h]
  have hr : g.rotate 0 = 0 := by
    apply v3_ext <;> simp [ScGeom.rotate]
  by_cases h0 : g.pd < 0
  · simp only [if_pos h0, viscous_eq, hr, sub_smul]
    exact ⟨trivial, trivial, trivial, trivial⟩
  · simp only [if_neg h0, viscous_eq, sub_smul]
    exact ⟨trivial, trivial, trivial, trivial⟩

theorem kept_of_keep {cfg : Cfg} {g : ScGeom} {p : Phys} {s1 s2 : State} {c : GeomCtx} {e : Energy}
    (h : (lawGo cfg g p s1 s2 c e).keep = true) : ¬ (g.pd < 0 ∧ ¬ cfg.law.neverErase) := by
  intro hl
  rw [lawGo_lost hl] at h
  cases h

/-- **C312 (force).** The normal force of a kept contact is the spring's minus the damping constant times the speed at which the
bodies part; the load on the second body is this and the shear force, and the damping part takes power from the motion. -/
theorem C312_force (cfg : Cfg) (g : ScGeom) (p : Phys) (s1 s2 : State) (c : GeomCtx) (e : Energy)
    (hk : (lawGo cfg g p s1 s2 c e).keep = true) :
    (lawGo cfg g p s1 s2 c e).phys.Fn = (p.kn * max g.pd 0 - p.cn * partingSpeed g s1 s2 c) • g.normal ∧
    (lawGo cfg g p s1 s2 c e).loads.f2 = (lawGo cfg g p s1 s2 c e).phys.Fn + (lawGo cfg g p s1 s2 c e).phys.Fs ∧
    (lawGo cfg g p s1 s2 c e).loads.f1 = -(lawGo cfg g p s1 s2 c e).loads.f2 ∧
    (lawGo cfg g p s1 s2 c e).phys.visc = (p.kn * max g.pd 0) • g.normal - (lawGo cfg g p s1 s2 c e).phys.Fn ∧
    (0 ≤ p.cn → g.pd < g.r1 + g.r2 → 0 ≤ g.r1 + g.r2 →
      dot (-(lawGo cfg g p s1 s2 c e).phys.visc) (s2.vel - s1.vel + c.shiftVel) ≤ 0) := by
  obtain ⟨N, S, t, hN, -, -, -, h2, h3, -⟩ := lawGo_kept (p := p) (s1 := s1) (s2 := s2) (c := c) (e := e)
    (kept_of_keep hk)
  rw [h2, h3, (applyLoads_f _ _ _ _ _).1, (applyLoads_f _ _ _ _ _).2]
  refine ⟨hN, by simp only; abel, by abel, ?_, ?_⟩
  · simp only [hN, sub_smul]; abel
  · intro hc hp hr
    simp only
    rw [dot_neg_left, dot_smul_left, partingSpeed]
    have h0 : 0 ≤ (g.r1 + g.r2) / (g.r1 + g.r2 - g.pd) := div_nonneg hr (by linarith)
    have : 0 ≤ p.cn * ((g.r1 + g.r2) / (g.r1 + g.r2 - g.pd)) *
        (dot g.normal (s2.vel - s1.vel + c.shiftVel)) ^ 2 := by positivity
    nlinarith [this]

/-- **C312 (no pull when approaching).** While the bodies do not part the normal force pushes them apart, and with the default
options bodies that do not touch exert nothing and lose the contact. -/
theorem C312_push_partial (cfg : Cfg) (g : ScGeom) (p : Phys) (s1 s2 : State) (c : GeomCtx) (e : Energy) :
    (0 ≤ p.kn → 0 ≤ p.cn → partingSpeed g s1 s2 c ≤ 0 → (lawGo cfg g p s1 s2 c e).keep = true →
      0 ≤ dot g.normal (lawGo cfg g p s1 s2 c e).phys.Fn) ∧
    (g.pd < 0 → cfg.law.neverErase = false →
      (lawGo cfg g p s1 s2 c e).keep = false ∧ (lawGo cfg g p s1 s2 c e).loads = Loads.zero) := by
  constructor
  · intro hkn hcn hv hk
    rw [(C312_force cfg g p s1 s2 c e hk).1, dot_smul_right]
    refine mul_nonneg ?_ (sqNorm_nonneg g.normal)
    have h1 : 0 ≤ p.kn * max g.pd 0 := mul_nonneg hkn (le_max_right _ _)
    have h2 : p.cn * partingSpeed g s1 s2 c ≤ 0 := mul_nonpos_of_nonneg_of_nonpos hcn hv
    linarith
  · intro h hn
    rw [lawGo_lost ⟨h, by simp [hn]⟩]
    exact ⟨rfl, rfl⟩

/-- The part of the physics that the law without damping knows. -/
def Phys.plain (p : Phys) : FrictPhys := ⟨p.kn, p.ks, p.tan, p.Fn, p.Fs⟩

/-- **C312 (no damping).** With a zero damping constant the law is the elastic-frictional one: same forces, loads and fate of
the contact. -/
theorem C312_undamped (cfg : Cfg) (g : ScGeom) (p : Phys) (s1 s2 : State) (c : GeomCtx) (e : Energy) (hc : p.cn = 0) :
    (lawGo cfg g p s1 s2 c e).keep = (Mech.lawGo cfg.law g p.plain s1.pos s2.pos).keep ∧
    (lawGo cfg g p s1 s2 c e).phys.plain = (Mech.lawGo cfg.law g p.plain s1.pos s2.pos).phys ∧
    (lawGo cfg g p s1 s2 c e).loads = (Mech.lawGo cfg.law g p.plain s1.pos s2.pos).loads := by
  by_cases h : g.pd < 0 ∧ ¬ cfg.law.neverErase
  · rw [lawGo_lost h, Mech.lawGo_lost h]
    exact ⟨rfl, rfl, rfl⟩
  · obtain ⟨N, S, t, hN, ht, hS, h1, h2, h3, -⟩ := lawGo_kept (p := p) (s1 := s1) (s2 := s2) (c := c) (e := e) h
    obtain ⟨q, hq, h4⟩ := Mech.lawGo_kept (p := p.plain) (x1 := s1.pos) (x2 := s2.pos) h
    have hr : g.rotate 0 = 0 := by
      apply v3_ext <;> simp [ScGeom.rotate]
    have e1 : q.kn = p.kn ∧ q.ks = p.ks ∧ q.tan = p.tan := by
      rw [hq]; split_ifs <;> exact ⟨rfl, rfl, rfl⟩
    have eN : normalForce g q = N := by
      rw [hN, hc, zero_mul, sub_zero, normalForce, e1.1]
    have eT : trialShear g q = t := by
      rw [ht, trialShear, e1.2.1, hq]
      by_cases h0 : g.pd < 0
      · simp only [if_pos h0, hr]
      · simp only [if_neg h0]; rfl
    rw [h1, h2, h3, h4, eN, eT, e1.2.2, ← hS]
    refine ⟨rfl, ?_, rfl⟩
    simp only [Phys.plain, FrictPhys.mk.injEq]
    simp [e1.1, e1.2.1]

/-- A damped contact of unit stiffness, not yet loaded. -/
noncomputable def exPhys : Phys := ⟨1, 1, 1, some 2, 1, 0, 0, 0⟩

/-- A body at rest. -/
noncomputable def rest : State := exState 0 0

/-- A body moving along x. -/
noncomputable def moving (v : ℝ) : State := { rest with vel := ![v, 0, 0] }

/-- Two unit spheres that overlap by `d`, without shear. -/
noncomputable def exG (d : ℝ) : ScGeom :=
  { normal := ![1, 0, 0], contactPoint := 0, pd := d, r1 := 1, r2 := 1, twist := 0, ortho := 0, shearInc := 0 }

theorem exParting (d v : ℝ) : partingSpeed (exG d) rest (moving v) exCtx = 2 / (2 - d) * v := by
  simp [partingSpeed, exG, moving, rest, exState, exCtx, dot]
  norm_num

/-- The hypotheses of `C312_force` are met by a damped contact being compressed. -/
example : (lawGo ⟨⟨false, true, false⟩, false, false⟩ (exG 1) exPhys rest (moving (-1)) exCtx ⟨0, 0, 0⟩).keep = true ∧
    0 ≤ exPhys.cn ∧ (exG 1).pd < (exG 1).r1 + (exG 1).r2 ∧ 0 ≤ (exG 1).r1 + (exG 1).r2 ∧
    partingSpeed (exG 1) rest (moving (-1)) exCtx ≤ 0 := by
  obtain ⟨_, _, _, _, _, _, h, _⟩ := lawGo_kept (cfg := ⟨⟨false, true, false⟩, false, false⟩) (g := exG 1) (p := exPhys)
    (s1 := rest) (s2 := moving (-1)) (c := exCtx) (e := ⟨0, 0, 0⟩) (by norm_num [exG])
  refine ⟨h, by norm_num [exPhys], by norm_num [exG], by norm_num [exG], ?_⟩
  rw [exParting]; norm_num

/-- The hypotheses of the second half of `C312_push_partial` are met by bodies that came apart. -/
example : (exG (-1)).pd < 0 ∧ (⟨⟨false, true, false⟩, false, false⟩ : Cfg).law.neverErase = false :=
  ⟨by norm_num [exG], rfl⟩

/-- The hypothesis of `C312_undamped` is met by a contact with stored forces. -/
example : ({ exPhys with cn := 0, Fs := ![0, 1, 0] } : Phys).cn = 0 := rfl

/-- **C312 fails when bodies that touch part fast**: the contact pulls them together. -/
theorem C312_violated_pull (cfg : Cfg) : ∃ (g : ScGeom) (p : Phys) (s1 s2 : State) (c : GeomCtx),
    0 < g.pd ∧ 0 < p.kn ∧ 0 < p.cn ∧ ∀ e, (lawGo cfg g p s1 s2 c e).keep = true ∧
      dot g.normal (lawGo cfg g p s1 s2 c e).phys.Fn < 0 := by
  refine ⟨exG 1, exPhys, rest, moving 1, exCtx, by norm_num [exG], by norm_num [exPhys], by norm_num [exPhys],
    fun e => ?_⟩
  obtain ⟨_, _, _, _, _, _, h, _⟩ := lawGo_kept (cfg := cfg) (g := exG 1) (p := exPhys)
    (s1 := rest) (s2 := moving 1) (c := exCtx) (e := e) (by norm_num [exG])
  refine ⟨h, ?_⟩
  rw [(C312_force _ _ _ _ _ _ _ h).1, exParting]
  simp [dot, exG, exPhys]
  norm_num

/-- **C312 fails for kept contacts of bodies that do not touch**: with `neverErase` they go on exerting a damping force on each
other. -/
theorem C312_violated_apart (cfg : Cfg) (hn : cfg.law.neverErase = true) :
    ∃ (g : ScGeom) (p : Phys) (s1 s2 : State) (c : GeomCtx), g.pd < 0 ∧ p.Fn = 0 ∧ p.Fs = 0 ∧
      ∀ e, (lawGo cfg g p s1 s2 c e).loads.f2 0 ≠ 0 := by
  refine ⟨exG (-2), { exPhys with tan := 0 }, rest, moving 1, exCtx, by norm_num [exG], rfl, rfl, fun e => ?_⟩
  obtain ⟨N, S, t, hN, ht, hS, h, h2, -⟩ := lawGo_kept (cfg := cfg) (g := exG (-2)) (p := { exPhys with tan := 0 })
    (s1 := rest) (s2 := moving 1) (c := exCtx) (e := e) (by simp [hn])
  rw [(C312_force _ _ _ _ _ _ _ h).2.1, h2]
  have hs : S = 0 := by
    rw [hS]; simp only; rw [show sqNorm N * (0 : ℝ) ^ 2 = 0 by ring, slip_zero]
  simp only [hs, hN, exParting]
  simp [exG, exPhys]

/-! ## C313: friction -/

/-- **C313 (limit).** The shear force of a kept contact is at most the friction coefficient times the normal force, damping
included. -/
theorem C313_limit (cfg : Cfg) (g : ScGeom) (p : Phys) (s1 s2 : State) (c : GeomCtx) (e : Energy)
    (hk : (lawGo cfg g p s1 s2 c e).keep = true) :
    norm3 (lawGo cfg g p s1 s2 c e).phys.Fs ≤ |p.tan| * norm3 (lawGo cfg g p s1 s2 c e).phys.Fn ∧
    (lawGo cfg g p s1 s2 c e).phys.tan = p.tan ∧
    (sqNorm ((if g.pd < 0 then 0 else g.rotate p.Fs) - p.ks • g.shearInc) ≤
        sqNorm (lawGo cfg g p s1 s2 c e).phys.Fn * p.tan ^ 2 →
      (lawGo cfg g p s1 s2 c e).phys.Fs = (if g.pd < 0 then 0 else g.rotate p.Fs) - p.ks • g.shearInc) ∧
    ∃ r : ℝ, 0 ≤ r ∧ r ≤ 1 ∧ (lawGo cfg g p s1 s2 c e).phys.Fs =
      r • ((if g.pd < 0 then 0 else g.rotate p.Fs) - p.ks • g.shearInc) := by
  obtain ⟨N, S, t, hN, ht, hS, -, h2, -⟩ := lawGo_kept (p := p) (s1 := s1) (s2 := s2) (c := c) (e := e)
    (kept_of_keep hk)
  rw [h2, ← ht]
  simp only
  have hm : 0 ≤ sqNorm N * p.tan ^ 2 := mul_nonneg (sqNorm_nonneg _) (sq_nonneg _)
  have hl : sqNorm S ≤ sqNorm N * p.tan ^ 2 := by
    rw [hS]
    unfold slip
    by_cases h : sqNorm t > sqNorm N * p.tan ^ 2
    · have ht' : sqNorm t ≠ 0 := (lt_of_le_of_lt hm h).ne'
      rw [if_pos h, sqNorm_smul, div_pow, Real.sq_sqrt hm, show norm3 t ^ 2 = sqNorm t by rw [pow_two, norm3_sq],
        div_mul_cancel₀ _ ht']
    · rw [if_neg h]; exact not_lt.mp h
  refine ⟨?_, trivial, ?_, ?_⟩
  · unfold norm3
    rw [show |p.tan| = Real.sqrt (p.tan ^ 2) from (Real.sqrt_sq_eq_abs p.tan).symm, ← Real.sqrt_mul (sq_nonneg _)]
    exact Real.sqrt_le_sqrt (by rw [mul_comm]; exact hl)
  · intro h
    rw [hS, slip, if_neg (not_lt.mpr h)]
  · by_cases h : sqNorm t > sqNorm N * p.tan ^ 2
    · have hnt : 0 < norm3 t := Real.sqrt_pos.mpr (lt_of_le_of_lt hm h)
      refine ⟨Real.sqrt (sqNorm N * p.tan ^ 2) / norm3 t, div_nonneg (Real.sqrt_nonneg _) hnt.le, ?_, ?_⟩
      · rw [div_le_one hnt]; exact Real.sqrt_le_sqrt h.le
      · rw [hS, slip, if_pos h]
    · exact ⟨1, zero_le_one, le_refl _, by rw [hS, slip, if_neg h, one_smul]⟩

theorem slip_work (k m : ℝ) (t : V3) (hk : 0 < k) (hm : 0 ≤ m) (h : sqNorm t > m) :
    0 ≤ dot ((1 / k) • (t - slip m t)) (slip m t) := by
  have hnt : 0 < norm3 t := Real.sqrt_pos.mpr (lt_of_le_of_lt hm h)
  have es : slip m t = (Real.sqrt m / norm3 t) • t := by rw [slip, if_pos h]
  have hr0 : 0 ≤ Real.sqrt m / norm3 t := div_nonneg (Real.sqrt_nonneg _) hnt.le
  have hr1 : Real.sqrt m / norm3 t ≤ 1 := by
    rw [div_le_one hnt]; exact Real.sqrt_le_sqrt h.le
  generalize Real.sqrt m / norm3 t = r at es hr0 hr1
  have e : dot ((1 / k) • (t - slip m t)) (slip m t) = (1 / k) * ((1 - r) * r * sqNorm t) := by
    rw [es, dot_smul_left]
    congr 1
    simp only [dot, sqNorm, Pi.sub_apply, Pi.smul_apply, smul_eq_mul]
    ring
  rw [e]
  exact mul_nonneg (by positivity) (mul_nonneg (mul_nonneg (by linarith) hr0) (sqNorm_nonneg t))

/-- One call of the law in a run: options, geometry, stored physics, states. -/
structure Call where
  cfg : Cfg
  g : ScGeom
  p : Phys
  s1 : State
  s2 : State
  c : GeomCtx

/-- The energies after a sequence of calls. -/
noncomputable def energies (e : Energy) : List Call → Energy
  | [] => e
  | k :: ks => energies (lawGo k.cfg k.g k.p k.s1 k.s2 k.c e).energy ks

theorem energy_step (k : Call) (e : Energy) (hks : 0 < k.p.ks) :
    e.traced ≤ (lawGo k.cfg k.g k.p k.s1 k.s2 k.c e).energy.traced ∧
    e.plast ≤ (lawGo k.cfg k.g k.p k.s1 k.s2 k.c e).energy.plast ∧
    (k.cfg.trace = false → (lawGo k.cfg k.g k.p k.s1 k.s2 k.c e).energy.traced = e.traced) ∧
    (k.cfg.track = false → k.cfg.trace = false → (lawGo k.cfg k.g k.p k.s1 k.s2 k.c e).energy = e) := by
  by_cases h : k.g.pd < 0 ∧ ¬ k.cfg.law.neverErase
  · rw [lawGo_lost h]
    exact ⟨le_refl _, le_refl _, fun _ => rfl, fun _ _ => rfl⟩
  · obtain ⟨N, S, t, hN, ht, hS, -, -, -, he⟩ :=
      lawGo_kept (p := k.p) (s1 := k.s1) (s2 := k.s2) (c := k.c) (e := e) h
    rw [he]
    unfold energyStep
    by_cases ho : k.cfg.track = false ∧ k.cfg.trace = false
    · rw [if_pos ho]
      exact ⟨le_refl _, le_refl _, fun _ => rfl, fun _ _ => rfl⟩
    rw [if_neg ho]
    simp only
    by_cases hs : sqNorm t > sqNorm N * k.p.tan ^ 2
    · rw [if_pos hs]
      have hw := slip_work k.p.ks _ t hks (mul_nonneg (sqNorm_nonneg _) (sq_nonneg _)) hs
      rw [← hS] at hw
      cases htr : k.cfg.trace with
      | true =>
        simp only [if_true]
        exact ⟨by linarith, le_refl _, fun h => (Bool.noConfusion h), fun _ h => (Bool.noConfusion h)⟩
      | false =>
        simp only [Bool.false_eq_true, if_false]
        refine ⟨?_, ?_, fun _ => ?_, fun h _ => absurd ⟨h, htr⟩ ho⟩ <;> split_ifs <;> (try simp only) <;> linarith
    · rw [if_neg hs]
      exact ⟨le_refl _, le_refl _, fun _ => rfl, fun a b => absurd ⟨a, b⟩ ho⟩

/-- **C313 (dissipation).** Over any run the energy reported as dissipated by friction never decreases, whatever the contacts;
nothing is reported as traced where tracing is off. -/
theorem C313_dissipation (ks : List Call) (e : Energy) (h : ∀ k ∈ ks, 0 < k.p.ks) :
    e.traced ≤ (energies e ks).traced ∧ e.plast ≤ (energies e ks).plast ∧
    ((∀ k ∈ ks, k.cfg.trace = false) → (energies e ks).traced = e.traced) ∧
    ((∀ k ∈ ks, k.cfg.trace = false ∧ k.cfg.track = false) → energies e ks = e) := by
  induction ks generalizing e with
  | nil => exact ⟨le_refl _, le_refl _, fun _ => rfl, fun _ => rfl⟩
  | cons k ks ih =>
    obtain ⟨a1, a2, a3, a4⟩ := energy_step k e (h k (by simp))
    obtain ⟨i1, i2, i3, i4⟩ := ih (lawGo k.cfg k.g k.p k.s1 k.s2 k.c e).energy (fun x hx => h x (by simp [hx]))
    refine ⟨a1.trans i1, a2.trans i2, fun ht => ?_, fun ht => ?_⟩
    · rw [energies, i3 (fun x hx => ht x (by simp [hx])), a3 (ht k (by simp))]
    · rw [energies, i4 (fun x hx => ht x (by simp [hx])), a4 (ht k (by simp)).2 (ht k (by simp)).1]

/-- A sliding contact: the shear increment exceeds what the normal force allows. -/
noncomputable def exSlide : ScGeom := { exG 1 with shearInc := ![0, 4, 0] }

/-- **C313 (reported work).** A traced slide reports the work of the shear force over the slip: the elastic shear displacement
lost, times the force that is left. -/
theorem C313_traced (cfg : Cfg) (g : ScGeom) (p : Phys) (s1 s2 : State) (c : GeomCtx) (e : Energy) (ht : cfg.trace = true)
    (hks : 0 < p.ks) (hk : (lawGo cfg g p s1 s2 c e).keep = true) :
    p.ks * ((lawGo cfg g p s1 s2 c e).energy.traced - e.traced) =
      dot (((if g.pd < 0 then 0 else g.rotate p.Fs) - p.ks • g.shearInc) - (lawGo cfg g p s1 s2 c e).phys.Fs)
        (lawGo cfg g p s1 s2 c e).phys.Fs := by
  obtain ⟨N, S, t, hN, htr, hS, -, h2, -, he⟩ := lawGo_kept (p := p) (s1 := s1) (s2 := s2) (c := c) (e := e)
    (kept_of_keep hk)
  rw [he, h2, ← htr, energyStep, if_neg (by simp [ht])]
  simp only [ht, if_true]
  by_cases hs : sqNorm t > sqNorm N * p.tan ^ 2
  · rw [if_pos hs]
    simp only
    rw [add_sub_cancel_left, dot_smul_left, ← mul_assoc, mul_one_div_cancel hks.ne', one_mul]
  · rw [if_neg hs]
    have : S = t := by rw [hS, slip, if_neg hs]
    rw [this]
    simp [dot]

/-- The hypotheses of `C313_limit`, `C313_dissipation` and `C313_traced` are met by a contact that slides. -/
example : (lawGo ⟨⟨false, true, false⟩, true, false⟩ exSlide exPhys rest (moving 0) exCtx ⟨0, 0, 0⟩).keep = true ∧
    0 < exPhys.ks ∧ sqNorm (exSlide.rotate exPhys.Fs - exPhys.ks • exSlide.shearInc) >
      sqNorm (lawGo ⟨⟨false, true, false⟩, true, false⟩ exSlide exPhys rest (moving 0) exCtx ⟨0, 0, 0⟩).phys.Fn *
        exPhys.tan ^ 2 := by
  obtain ⟨_, _, _, _, _, _, h, _⟩ := lawGo_kept (cfg := ⟨⟨false, true, false⟩, true, false⟩) (g := exSlide) (p := exPhys)
    (s1 := rest) (s2 := moving 0) (c := exCtx) (e := ⟨0, 0, 0⟩) (by norm_num [exSlide, exG])
  refine ⟨h, by norm_num [exPhys], ?_⟩
  rw [(C312_force _ _ _ _ _ _ _ h).1]
  have hp : partingSpeed exSlide rest (moving 0) exCtx = 0 := by
    have := exParting 1 0
    simpa [partingSpeed, exSlide] using this
  rw [hp]
  simp [sqNorm, dot, exSlide, exG, exPhys, ScGeom.rotate, cross]
  try norm_num

/-! ## C314: balance and energy -/

/-- **C314 (balance).** The loads of the two bodies balance, in force and in moment about every point: with branches from the contact
point for any shapes, with branches from the radii if the centres are apart by the radii less the overlap along the normal. -/
theorem C314_balanced (cfg : Cfg) (g : ScGeom) (p : Phys) (s1 s2 : State) (c : GeomCtx) (e : Energy) :
    (cfg.law.periodic = false → cfg.law.sphericalBodies = false →
      Balanced s1.pos s2.pos (lawGo cfg g p s1 s2 c e).loads) ∧
    (∀ y : V3, cfg.law.periodic = true ∨ cfg.law.sphericalBodies = true →
      (g.r1 + g.r2 - g.pd) • g.normal = y - s1.pos → Balanced s1.pos y (lawGo cfg g p s1 s2 c e).loads) := by
  by_cases h : g.pd < 0 ∧ ¬ cfg.law.neverErase
  · rw [lawGo_lost h]
    exact ⟨fun _ _ => balanced_zero _ _, fun _ _ _ => balanced_zero _ _⟩
  · obtain ⟨N, S, t, -, -, -, -, -, h3, -⟩ := lawGo_kept (p := p) (s1 := s1) (s2 := s2) (c := c) (e := e) h
    rw [h3]
    generalize -N - S = F
    constructor
    · intro hp hs
      rw [applyLoads, if_pos (by simp [hp, hs])]
      refine ⟨by simp, fun o => ?_⟩
      apply v3_ext <;> simp [loadMoment] <;> ring
    · intro y hs hg
      rw [applyLoads, if_neg (by rintro ⟨a, b⟩; rcases hs with hs | hs <;> simp [hs] at a b)]
      have e0 := congrFun hg 0
      have e1 := congrFun hg 1
      have e2 := congrFun hg 2
      simp only [Pi.smul_apply, smul_eq_mul, Pi.sub_apply] at e0 e1 e2
      refine ⟨by simp, fun o => ?_⟩
      apply v3_ext
      · simp [loadMoment]; linear_combination F 2 * e1 - F 1 * e2
      · simp [loadMoment]; linear_combination F 0 * e2 - F 2 * e0
      · simp [loadMoment]; linear_combination F 1 * e0 - F 0 * e1

/-- The hypotheses of the second half of `C314_balanced` are met by overlapping spheres. -/
example : (⟨⟨false, true, false⟩, false, false⟩ : Cfg).law.sphericalBodies = true ∧
    ((exG 1).r1 + (exG 1).r2 - (exG 1).pd) • (exG 1).normal = ![1, 0, 0] - rest.pos := by
  refine ⟨rfl, ?_⟩
  apply v3_ext <;> simp [exG, rest, exState] <;> norm_num

/-- Energy stored in the springs: of the overlap, and of the shear force. -/
noncomputable def springEnergy (kn ks pd : ℝ) (Fs : V3) : ℝ := kn * pd ^ 2 / 2 + sqNorm Fs / (2 * ks)

/-- **C314 (energy, no damping).** Without damping the energy reported for a touching contact is the one stored in its springs, and the
scene's total grows by it when energy is tracked. -/
theorem C314_energy_partial (cfg : Cfg) (g : ScGeom) (p : Phys) (s1 s2 : State) (c : GeomCtx) (e : Energy)
    (hc : p.cn = 0) (hkn : 0 < p.kn) (hpd : 0 ≤ g.pd) (hn : sqNorm g.normal = 1) :
    stored (lawGo cfg g p s1 s2 c e).phys = springEnergy p.kn p.ks g.pd (lawGo cfg g p s1 s2 c e).phys.Fs ∧
    (cfg.track = true → (lawGo cfg g p s1 s2 c e).energy.elast =
      e.elast + springEnergy p.kn p.ks g.pd (lawGo cfg g p s1 s2 c e).phys.Fs) := by
  obtain ⟨N, S, t, hN, -, -, -, h2, -, he⟩ := lawGo_kept (cfg := cfg) (g := g) (p := p) (s1 := s1) (s2 := s2) (c := c)
    (e := e) (by rintro ⟨a, -⟩; linarith)
  have hst : ∀ v : V3, stored { p with Fn := N, Fs := S, visc := v } = springEnergy p.kn p.ks g.pd S := by
    intro v
    simp only [stored, springEnergy]
    rw [hN, hc, zero_mul, sub_zero, max_eq_left hpd, sqNorm_smul, hn]
    rw [show (p.kn * g.pd) ^ 2 * 1 / p.kn = p.kn * g.pd ^ 2 by field_simp]
    rw [show sqNorm S / (2 * p.ks) = sqNorm S / p.ks / 2 by rw [mul_comm, div_div]]
    ring
  rw [h2, he]
  refine ⟨hst _, fun ht => ?_⟩
  rw [energyStep, if_neg (by simp [ht])]
  simp only [hst]
  congr 1
  split_ifs <;> rfl

theorem foldl_stored (ps : List Phys) (x : ℝ) : ps.foldl (fun e p => e + stored p) x = x + (ps.map stored).sum := by
  induction ps generalizing x with
  | nil => simp
  | cons p ps ih => rw [List.foldl_cons, ih, List.map_cons, List.sum_cons]; ring

/-- **C314 (total).** The total elastic energy is the sum over all contacts, whatever their order, and is not negative. -/
theorem C314_total (ps qs : List Phys) (h : ps.Perm qs) (hk : ∀ p ∈ ps, 0 < p.kn ∧ 0 < p.ks) :
    elasticEnergy ps = (ps.map fun p => sqNorm p.Fn / (2 * p.kn) + sqNorm p.Fs / (2 * p.ks)).sum ∧
    elasticEnergy ps = elasticEnergy qs ∧ 0 ≤ elasticEnergy ps := by
  have e1 : ∀ l : List Phys, elasticEnergy l = (l.map stored).sum := by
    intro l; rw [elasticEnergy, foldl_stored, zero_add]
  have e2 : ∀ p : Phys, stored p = sqNorm p.Fn / (2 * p.kn) + sqNorm p.Fs / (2 * p.ks) := by
    intro p
    rw [stored, show sqNorm p.Fn / (2 * p.kn) = sqNorm p.Fn / p.kn / 2 by rw [mul_comm, div_div],
      show sqNorm p.Fs / (2 * p.ks) = sqNorm p.Fs / p.ks / 2 by rw [mul_comm, div_div]]
    ring
  refine ⟨?_, ?_, ?_⟩
  · rw [e1]; congr 1; exact List.map_congr_left fun p _ => e2 p
  · rw [e1, e1]; exact (h.map stored).sum_eq
  · rw [e1]
    apply List.sum_nonneg
    intro x hx
    obtain ⟨p, hp, rfl⟩ := List.mem_map.mp hx
    obtain ⟨a, b⟩ := hk p hp
    rw [e2]
    exact add_nonneg (div_nonneg (sqNorm_nonneg _) (by linarith)) (div_nonneg (sqNorm_nonneg _) (by linarith))

/-- The hypotheses of `C314_energy_partial` and `C314_total` are met by a sliding contact. -/
example : ({ exPhys with cn := 0 } : Phys).cn = 0 ∧ 0 < ({ exPhys with cn := 0 } : Phys).kn ∧ 0 ≤ exSlide.pd ∧
    sqNorm exSlide.normal = 1 ∧ ∀ p ∈ [exPhys, { exPhys with Fn := ![1, 0, 0] }], 0 < p.kn ∧ 0 < p.ks := by
  refine ⟨rfl, by norm_num [exPhys], by norm_num [exSlide, exG], by simp [sqNorm, dot, exSlide, exG], ?_⟩
  intro p hp
  simp only [List.mem_cons, List.not_mem_nil, or_false] at hp
  rcases hp with rfl | rfl <;> norm_num [exPhys]

/-- **C314 fails with damping**: contacts that only touch, whose springs store nothing, are reported to store energy when the bodies
move. -/
theorem C314_violated : ∃ (g : ScGeom) (p : Phys) (s1 s2 : State) (c : GeomCtx), g.pd = 0 ∧ sqNorm g.normal = 1 ∧
    0 < p.kn ∧ 0 < p.ks ∧ 0 < p.cn ∧ p.Fs = 0 ∧ ∀ cfg e,
      springEnergy p.kn p.ks g.pd (lawGo cfg g p s1 s2 c e).phys.Fs = 0 ∧
      0 < stored (lawGo cfg g p s1 s2 c e).phys := by
  refine ⟨exG 0, { exPhys with tan := 0 }, rest, moving 1, exCtx, rfl, by simp [sqNorm, dot, exG], by norm_num [exPhys],
    by norm_num [exPhys], by norm_num [exPhys], rfl, fun cfg e => ?_⟩
  obtain ⟨N, S, t, hN, -, hS, -, h2, -⟩ := lawGo_kept (cfg := cfg) (g := exG 0) (p := { exPhys with tan := 0 })
    (s1 := rest) (s2 := moving 1) (c := exCtx) (e := e) (by norm_num [exG])
  have hs : S = 0 := by
    rw [hS]; simp only; rw [show sqNorm N * (0 : ℝ) ^ 2 = 0 by ring, slip_zero]
  have h0 : sqNorm (0 : V3) = 0 := sqNorm_eq_zero.mpr rfl
  rw [h2]
  have hN' : sqNorm N = 1 := by
    rw [hN, exParting]; simp [exG, exPhys, sqNorm, dot]
  constructor
  · simp only [springEnergy, hs, h0]; simp [exG]
  · simp only [stored, hs, h0, hN']; norm_num [exPhys]

end Verif.FVisc
