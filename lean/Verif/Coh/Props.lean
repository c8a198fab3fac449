import Verif.Coh.Ex

/-!
# Properties of cohesive contacts: C204-C209
-/
namespace Verif.Coh

open Verif.Mech

/-! ## Specification -/

/-- The force that presses the two bodies of a contact together (negative: tension). -/
def pressing (g : ScGeom) (p : Phys) : ℝ := dot g.normal p.Fn

/-- The documented shear strength: adhesion plus friction, or adhesion alone as long as there is any if it replaces
friction. -/
noncomputable def shearLimit (p : Phys) (N : ℝ) : ℝ :=
  open Classical in if p.noFriction = true ∧ p.aS ≠ 0 then p.aS else p.aS + N * p.tan

theorem strength_eq (p : Phys) (F : ℝ) : strength p F = max 0 (shearLimit p F) := by
  unfold strength shearLimit
  congr 1
  by_cases h : p.noFriction = false ∨ p.aS = 0
  · rw [if_pos h, if_neg]
    rintro ⟨a, b⟩
    rcases h with h | h
    · rw [h] at a; simp at a
    · exact b h
  · rw [if_neg h, if_pos]
    exact ⟨by simpa using fun e => h (.inl e), fun e => h (.inr e)⟩

theorem shearLimit_mono {p : Phys} (ht : 0 ≤ p.tan) {a b : ℝ} (h : a ≤ b) : shearLimit p a ≤ shearLimit p b := by
  unfold shearLimit
  split_ifs
  · exact le_refl _
  · have := mul_le_mul_of_nonneg_right h ht
    linarith

/-! ## C204: strength -/

theorem law_strength {cfg : Cfg} {fresh : Bool} {G : Geom6} {p : Phys} {s1 s2 : State} {x2 : V3}
    (hn : sqNorm G.g.normal = 1) (ht : 0 ≤ p.tan) (hk : (lawGo cfg fresh G p s1 s2 x2).keep = true) :
    -pressing G.g (lawGo cfg fresh G p s1 s2 x2).phys ≤ max 0 (lawGo cfg fresh G p s1 s2 x2).phys.aN ∧
    norm3 (lawGo cfg fresh G p s1 s2 x2).phys.Fs ≤
      max 0 (shearLimit (lawGo cfg fresh G p s1 s2 x2).phys (pressing G.g (lawGo cfg fresh G p s1 s2 x2).phys)) ∧
    (lawGo cfg fresh G p s1 s2 x2).phys.tan = p.tan := by
  obtain ⟨F, unp, e⟩ := lawGo_keep hk
  obtain ⟨-, -, Mt, Mb, hp⟩ := lawGo_some (cfg := cfg) (fresh := fresh) (s1 := s1) (s2 := s2) (x2 := x2) e
  have hF := normalPart_le e
  generalize trial cfg G.g p fresh = t at hp
  rw [hp]
  set q : Phys := { p with unp := unp } with hq
  have htan : (shearPart G.g q F t).1.tan = p.tan := (shearPart_same G.g q F t).1
  refine ⟨?_, ?_, htan⟩
  · show -dot G.g.normal (shearPart G.g q F t).1.Fn ≤ max 0 (shearPart G.g q F t).1.aN
    by_cases h : norm3 t > strength q F
    · by_cases hb : (q.fragile && !q.broken) = false
      · rw [shearPart_slide h hb]
        show -dot G.g.normal (if F < 0 then 0 else F • G.g.normal) ≤ max 0 p.aN
        split_ifs with h0
        · simp [dot]
        · rw [unit_dot hn]
          exact le_trans (by linarith [not_lt.mp h0]) (le_max_left _ _)
      · rw [Bool.not_eq_false, Bool.and_eq_true, Bool.not_eq_true'] at hb
        rw [shearPart_break h hb.1 hb.2]
        show -dot G.g.normal (if F < 0 then 0 else F • G.g.normal) ≤ max 0 0
        split_ifs with h0
        · simp [dot]
        · rw [unit_dot hn]
          exact le_trans (by linarith [not_lt.mp h0]) (le_max_left _ _)
    · rw [shearPart_stick h]
      show -dot G.g.normal (F • G.g.normal) ≤ max 0 p.aN
      rw [unit_dot hn]
      exact le_trans hF (le_max_right _ _)
  · show norm3 (shearPart G.g q F t).1.Fs ≤ max 0 (shearLimit (shearPart G.g q F t).1
      (dot G.g.normal (shearPart G.g q F t).1.Fn))
    have hpress : F ≤ dot G.g.normal (if F < 0 then 0 else F • G.g.normal) := by
      split_ifs with h0
      · have : dot G.g.normal 0 = 0 := by simp [dot]
        rw [this]; exact h0.le
      · rw [unit_dot hn]
    by_cases h : norm3 t > strength q F
    · by_cases hb : (q.fragile && !q.broken) = false
      · rw [shearPart_slide h hb]
        show norm3 ((strength q F / norm3 t) • t) ≤ max 0 (shearLimit q _)
        rw [scaled_norm (strength_nonneg _ _) h, strength_eq]
        exact max_le_max_left _ (shearLimit_mono ht hpress)
      · rw [Bool.not_eq_false, Bool.and_eq_true, Bool.not_eq_true'] at hb
        rw [shearPart_break h hb.1 hb.2]
        by_cases hm : norm3 t > max 0 (F * q.tan)
        · show norm3 ((max 0 (F * q.tan) / norm3 t) • t) ≤ _
          rw [scaled_norm (le_max_left _ _) hm]
          apply max_le_max_left
          simp only [shearLimit, ne_eq, not_true_eq_false, and_false, if_false, zero_add]
          exact mul_le_mul_of_nonneg_right hpress ht
        · show norm3 ((max 0 (F * q.tan) / norm3 t) • t) ≤ _
          have h0 : 0 < norm3 t := lt_of_le_of_lt (strength_nonneg _ _) h
          rw [norm3_smul, abs_of_nonneg (div_nonneg (le_max_left _ _) h0.le), div_mul_cancel₀ _ h0.ne']
          apply max_le_max_left
          simp only [shearLimit, ne_eq, not_true_eq_false, and_false, if_false, zero_add]
          exact mul_le_mul_of_nonneg_right hpress ht
    · rw [shearPart_stick h]
      show norm3 t ≤ max 0 (shearLimit _ (dot G.g.normal (F • G.g.normal)))
      rw [unit_dot hn]
      have := not_lt.mp h
      rw [strength_eq] at this
      exact this

theorem ip2_unit {factor : ℝ} {old : Option Geom6} {real : Bool} {r1 r2 : ℝ} {s1 s2 : State} {c : GeomCtx}
    {G : Geom6} (h : sphereSphere6 factor old real r1 r2 s1 s2 c = .ok (some G)) : sqNorm G.g.normal = 1 := by
  obtain ⟨h0, h1, -⟩ := sphereSphere_geom (sphereSphere6_geom h)
  rw [h1]
  exact unit_normal h0

/-- **C204.** After every pass of the interaction loop over a pair of spheres, whatever the contact, the functors and the
motion were: the tension of a contact that exists is at most its tensile strength, and its shear force is at most its
shear strength under the present normal force. -/
theorem C204_strength (P : Pair) (f : Ip2) (k : Contact) (s1 s2 : State) (c : GeomCtx) (L : Loads) (G : Geom6)
    (p : Phys) (hr : (k.geom.isSome && k.phys.isSome) = true ∨ k = ⟨none, none⟩)
    (h : pass P f k s1 s2 c = .ok (⟨some G, some p⟩, L)) (ht : 0 ≤ p.tan) :
    -pressing G.g p ≤ max 0 p.aN ∧ norm3 p.Fs ≤ max 0 (shearLimit p (pressing G.g p)) := by
  rcases pass_real h with ⟨-, h' | ⟨h', h''⟩⟩ | ⟨G', hG, hk', hk, -⟩
  · simp at h'
  · rcases hr with hr | hr
    · rw [h''] at hr; simp at hr
    · rw [hr] at h'; simp at h'
  · injection hk' with e1 e2
    injection e1 with e1
    injection e2 with e2
    have hn : sqNorm G.g.normal = 1 := by
      rw [e1, ip2Go_g]; exact ip2_unit hG
    obtain ⟨F, unp, en⟩ := lawGo_keep hk
    have htan : p.tan = (ip2Go f P.m1 P.m2 k.phys G' s1 s2).1.tan := by
      obtain ⟨-, -, Mt, Mb, hp⟩ := lawGo_some (cfg := { P.cfg with dt := c.dt })
        (fresh := !(k.geom.isSome && k.phys.isSome)) (s1 := s1) (s2 := s2) (x2 := s2.pos + c.shift2) en
      rw [e2, hp]
      exact (shearPart_same _ _ _ _).1
    have := law_strength (by rw [← e1]; exact hn) (by rw [← htan]; exact ht) hk
    rw [← e2, ← e1] at this
    exact ⟨this.1, this.2.1⟩

/-- Material of the examples: stiffness one, no friction, otherwise the defaults. -/
noncomputable def exMat : Mat :=
  { young := 1, poisson := 1, frictionAngle := 0, isCohesive := true, alphaKr := 2, alphaKtw := 2, etaRoll := -1,
    etaTwist := -1, normalCohesion := -1, shearCohesion := -1, fragile := true, momentLaw := false }

/-- No creep, total form of moments. -/
def exCfg : Cfg := ⟨1, false, false, false, 1, false⟩

/-- Two unit spheres. -/
noncomputable def exPair (m : Mat) : Pair := ⟨1, 1, m, m, 1, exCfg⟩

/-- All contacts are to become cohesive. -/
def exIp2 : Ip2 := ⟨true, false, 0, none, none, none⟩

/-- The physics made for the example pair. -/
noncomputable def exPhys (m : Mat) : Phys :=
  { Phys.new with kn := 1, ks := 1, kr := harm0 m.alphaKr m.alphaKr, ktw := harm0 m.alphaKtw m.alphaKtw, maxRoll := m.etaRoll, maxTwist := m.etaTwist, momentLaw := m.momentLaw, broken := false, aN := m.normalCohesion, aS := m.shearCohesion, fragile := m.fragile }

theorem ex_ip2 (m : Mat) (h1 : m.young = 1) (h2 : m.poisson = 1) (h3 : m.frictionAngle = 0) (h4 : m.isCohesive = true)
    (d u : ℝ) (s1 s2 : State) (h5 : s1.ori = Quat.one) (h6 : s2.ori = Quat.one) :
    ip2Go exIp2 m m none (exG d u) s1 s2 = (exPhys m, exG d u) := by
  have e1 : (exG d u).g.r1 = 1 := rfl
  have e2 : (exG d u).g.r2 = 1 := rfl
  unfold ip2Go
  simp only [exIp2, h4, Bool.false_or, Bool.and_self, if_true, bond, initRotations, h5, h6, e1, e2, shearStiffness,
    h1, h2, h3, Option.getD_none, min_self, Real.tan_zero, Bool.or_self, exPhys, Prod.mk.injEq]
  norm_num [Phys.new, exG]

/-- One pass over the example pair, the contact being new. -/
theorem ex_pass (m : Mat) (h1 : m.young = 1) (h2 : m.poisson = 1) (h3 : m.frictionAngle = 0) (h4 : m.isCohesive = true)
    (d u : ℝ) (hd : 0 < d) (hd2 : d ≤ 2) :
    pass (exPair m) exIp2 ⟨none, none⟩ sA (sB d u) cx =
      .ok (if (lawGo exCfg true (exG d u) (exPhys m) sA (sB d u) ((sB d u).pos + cx.shift2)).keep then
          ⟨some (exG d u), some (lawGo exCfg true (exG d u) (exPhys m) sA (sB d u) ((sB d u).pos + cx.shift2)).phys⟩
        else ⟨none, none⟩,
        (lawGo exCfg true (exG d u) (exPhys m) sA (sB d u) ((sB d u).pos + cx.shift2)).loads) := by
  unfold pass
  have e : sphereSphere6 (exPair m).factor none false (exPair m).r1 (exPair m).r2 sA (sB d u) cx =
      .ok (some (exG d u)) := ex_new d u hd hd2
  simp only [Option.isSome_none, Bool.and_self, Bool.not_false]
  rw [e]
  simp only
  rw [show ip2Go exIp2 (exPair m).m1 (exPair m).m2 none (exG d u) sA (sB d u) = (exPhys m, exG d u) from
    ex_ip2 m h1 h2 h3 h4 d u _ _ rfl rfl]
  rfl

/-- One pass over the example pair, the contact being there. -/
theorem ex_pass_old (m : Mat) (f : Ip2) (hf : f.setNow = false) (p : Phys) (hp : p.initCohesion = false)
    (cfg : Cfg) (hcfg : cfg.dt = 1) (d u d' u' : ℝ) (hd : 0 < d) :
    pass ⟨1, 1, m, m, 1, cfg⟩ f ⟨some (exG d' u'), some p⟩ sA (sB d u) cx =
      .ok (if (lawGo cfg false (exG d u) p sA (sB d u) ((sB d u).pos + cx.shift2)).keep then
          ⟨some (exG d u), some (lawGo cfg false (exG d u) p sA (sB d u) ((sB d u).pos + cx.shift2)).phys⟩
        else ⟨none, none⟩,
        (lawGo cfg false (exG d u) p sA (sB d u) ((sB d u).pos + cx.shift2)).loads) := by
  unfold pass
  simp only [Option.isSome_some, Bool.and_self, Bool.not_true]
  rw [ex_old d u d' u' hd]
  have e : ip2Go f m m (some p) (exG d u) sA (sB d u) = (p, exG d u) := by
    unfold ip2Go
    simp [hf, hp]
  simp only [e]
  have : ({ cfg with dt := cx.dt } : Cfg) = cfg := by
    cases cfg; simp only at hcfg; subst hcfg; rfl
  rw [this]

/-- The hypotheses of `C204_strength` are met by a new bond that is pressed and sheared. -/
example : ∃ p L, pass (exPair { exMat with normalCohesion := 1, shearCohesion := 1 }) exIp2 ⟨none, none⟩ sA
    (sB (3 / 2) (1 / 2)) cx = .ok (⟨some (exG (3 / 2) (1 / 2)), some p⟩, L) ∧ 0 ≤ p.tan ∧ p.Fs = ![0, -(1 / 2), 0] := by
  have en : normalPart (exG (3 / 2) (1 / 2)).g.pd (exPhys { exMat with normalCohesion := 1, shearCohesion := 1 }) =
      some (1 / 2, 0) := by
    norm_num [normalPart, exG, exSc, exPhys, Phys.new, exMat]
  obtain ⟨hk, -, Mt, Mb, hp⟩ := lawGo_some (cfg := exCfg) (fresh := true) (s1 := sA) (s2 := sB (3 / 2) (1 / 2))
    (x2 := (sB (3 / 2) (1 / 2)).pos + cx.shift2) en
  rw [ex_pass _ rfl rfl rfl rfl _ _ (by norm_num) (by norm_num), hk]
  refine ⟨_, _, rfl, ?_, ?_⟩
  · rw [hp]
    refine le_of_eq (Eq.symm ((shearPart_same _ _ _ _).1.trans ?_))
    simp [exPhys, Phys.new]
  · rw [hp]
    have et : trial exCfg (exG (3 / 2) (1 / 2)).g (exPhys { exMat with normalCohesion := 1, shearCohesion := 1 }) true =
        ![0, -(1 / 2), 0] := by
      have := ex_trial exCfg (3 / 2) (1 / 2) (exPhys { exMat with normalCohesion := 1, shearCohesion := 1 }) true
        (by simp)
      refine this.trans ?_
      simp [exPhys]
    rw [et, shearPart_stick]
    rw [norm_y, strength_eq]
    norm_num [shearLimit, exPhys, exMat, Phys.new]

/-! ## C205: elastic below the strength -/

/-- The shear force of a spring: the previous force turned with the contact, less stiffness times displacement. -/
def elasticShear (g : ScGeom) (p : Phys) : V3 := g.rotate p.Fs - p.ks • g.shearInc

theorem trial_elastic {cfg : Cfg} {g : ScGeom} {p : Phys} (h : cfg.shearCreep = false) :
    trial cfg g p false = elasticShear g p := by
  unfold trial elasticShear
  simp [h]

/-- **C205 (partial).** A contact whose elastic tension is at most the tensile strength and whose elastic shear force is at
most the shear strength is elastic: it is kept, its forces are those of springs, and its bond is what it was.
Missing: contacts with negative strength, which should always be elastic. -/
theorem C205_elastic_partial (cfg : Cfg) (G : Geom6) (p : Phys) (s1 s2 : State) (x2 : V3)
    (hc : cfg.shearCreep = false) (h1 : -(p.kn * (G.g.pd - p.unp)) ≤ p.aN)
    (h2 : norm3 (elasticShear G.g p) ≤ max 0 (shearLimit p (p.kn * (G.g.pd - p.unp)))) :
    let o := lawGo cfg false G p s1 s2 x2
    o.keep = true ∧ o.phys.Fn = (p.kn * (G.g.pd - p.unp)) • G.g.normal ∧ o.phys.Fs = elasticShear G.g p ∧
      o.phys.broken = p.broken ∧ o.phys.aN = p.aN ∧ o.phys.aS = p.aS ∧ o.phys.unp = p.unp ∧ o.dissip = 0 := by
  have en : normalPart G.g.pd p = some (p.kn * (G.g.pd - p.unp), p.unp) := by
    unfold normalPart
    simp only
    rw [if_neg (fun h => absurd h.2 (not_lt.mpr h1)), if_neg (not_lt.mpr h1)]
  obtain ⟨hk, hd, Mt, Mb, hp⟩ := lawGo_some (cfg := cfg) (fresh := false) (s1 := s1) (s2 := s2) (x2 := x2) en
  simp only
  rw [hp, hd, trial_elastic hc]
  rw [shearPart_stick (by rw [strength_eq]; exact not_lt.mpr h2)]
  exact ⟨hk, rfl, rfl, rfl, rfl, rfl, rfl, rfl⟩

/-- The hypotheses of `C205_elastic_partial` are met by a bond under tension and shear. -/
example : -((1 : ℝ) * ((exG (5 / 2) 1).g.pd - 0)) ≤ 2 ∧
    norm3 (elasticShear (exG (5 / 2) 1).g { exPhys exMat with aN := 2, aS := 3 }) ≤
      max 0 (shearLimit { exPhys exMat with aN := 2, aS := 3 } (1 * ((exG (5 / 2) 1).g.pd - 0))) := by
  constructor
  · norm_num [exG, exSc]
  · have : elasticShear (exG (5 / 2) 1).g { exPhys exMat with aN := 2, aS := 3 } = ![0, -1, 0] := by
      apply v3_ext <;> simp [elasticShear, exG, exSc, exPhys, Phys.new, ScGeom.rotate]
    rw [this, norm_y]
    norm_num [shearLimit, exPhys, Phys.new]

/-- **C205 (violated, normal).** With the default tensile strength, negative and documented as "purely elastic", spheres pressed
against each other lose their contact. -/
theorem C205_violated_normal : ∃ (m : Mat) (d : ℝ), m.normalCohesion = -1 ∧ 0 < d ∧ d < 2 ∧
    pass (exPair m) exIp2 ⟨none, none⟩ sA (sB d 0) cx = .ok (⟨none, none⟩, Loads.zero) := by
  refine ⟨exMat, 3 / 2, rfl, by norm_num, by norm_num, ?_⟩
  have en : normalPart (exG (3 / 2) 0).g.pd (exPhys exMat) = none := by
    norm_num [normalPart, exG, exSc, exPhys, Phys.new, exMat]
  rw [ex_pass _ rfl rfl rfl rfl _ _ (by norm_num) (by norm_num), lawGo_none en]
  rfl

/-- **C205 (violated, shear).** With the default shear strength, negative and documented as "purely elastic", a bond breaks under
the smallest shear and carries no shear force. -/
theorem C205_violated_shear (u : ℝ) (hu : 0 < u) : ∃ (m : Mat) (d : ℝ) (p : Phys) (L : Loads),
    m.shearCohesion = -1 ∧ 0 < d ∧ d < 2 ∧
    pass (exPair m) exIp2 ⟨none, none⟩ sA (sB d u) cx = .ok (⟨some (exG d u), some p⟩, L) ∧
    p.broken = true ∧ p.Fs = 0 ∧ elasticShear (exG d u).g (exPhys m) = ![0, -u, 0] := by
  have en : normalPart (exG (3 / 2) u).g.pd (exPhys { exMat with normalCohesion := 10 }) = some (1 / 2, 0) := by
    norm_num [normalPart, exG, exSc, exPhys, Phys.new, exMat]
  obtain ⟨hk, -, Mt, Mb, hp⟩ := lawGo_some (cfg := exCfg) (fresh := true) (s1 := sA) (s2 := sB (3 / 2) u)
    (x2 := (sB (3 / 2) u).pos + cx.shift2) en
  have et : trial exCfg (exG (3 / 2) u).g (exPhys { exMat with normalCohesion := 10 }) true = ![0, -u, 0] := by
    have := ex_trial exCfg (3 / 2) u (exPhys { exMat with normalCohesion := 10 }) true (by simp)
    refine this.trans ?_
    simp [exPhys]
  rw [et] at hp
  have hb := shearPart_break (g := (exG (3 / 2) u).g) (p := { exPhys { exMat with normalCohesion := 10 } with unp := 0 })
    (F := 1 / 2) (t := ![0, -u, 0]) (by
      rw [norm_y, abs_neg, abs_of_pos hu, strength_eq]
      norm_num [shearLimit, exPhys, exMat, Phys.new]
      exact hu) rfl rfl
  refine ⟨{ exMat with normalCohesion := 10 }, 3 / 2, (lawGo exCfg true (exG (3 / 2) u) (exPhys { exMat with normalCohesion := 10 }) sA (sB (3 / 2) u)
      ((sB (3 / 2) u).pos + cx.shift2)).phys,
    (lawGo exCfg true (exG (3 / 2) u) (exPhys { exMat with normalCohesion := 10 }) sA (sB (3 / 2) u)
      ((sB (3 / 2) u).pos + cx.shift2)).loads,
    rfl, by norm_num, by norm_num, ?_, ?_, ?_, ?_⟩
  · rw [ex_pass _ rfl rfl rfl rfl _ _ (by norm_num) (by norm_num), hk]
    rfl
  · rw [hp, hb]
  · rw [hp, hb]
    simp [exPhys, Phys.new]
  · apply v3_ext <;> simp [elasticShear, exG, exSc, exPhys, Phys.new, ScGeom.rotate]

/-! ## C207: plasticity in tension -/

theorem normalPart_formula {un : ℝ} {p : Phys} {F unp : ℝ} (hk : 0 < p.kn) (h : normalPart un p = some (F, unp)) :
    F = max (p.kn * (un - p.unp)) (-p.aN) ∧ F = p.kn * (un - unp) ∧ unp ≤ p.unp ∧ (p.fragile = true → unp = p.unp) := by
  unfold normalPart at h
  simp only at h
  split_ifs at h with h1 h2 h3
  · injection h with h
    injection h with ha hb
    have e : p.kn * (p.aN / p.kn) = p.aN := mul_div_cancel₀ _ hk.ne'
    have hb' : unp = un + p.aN / p.kn := hb.symm
    refine ⟨?_, ?_, ?_, fun hf => absurd ⟨hf, h2⟩ h1⟩
    · rw [max_eq_right (by linarith)]; exact ha.symm
    · rw [hb', ← ha]; linear_combination e
    · rw [hb']
      have : p.kn * (un + p.aN / p.kn) < p.kn * p.unp := by nlinarith
      exact (lt_of_mul_lt_mul_left this hk.le).le
  · injection h with h
    injection h with ha hb
    refine ⟨?_, ?_, hb.symm.le, fun _ => hb.symm⟩
    · rw [max_eq_left (by linarith)]; exact ha.symm
    · rw [← ha, ← hb]

/-- **C207 (partial).** The normal force follows the documented formula, with plastic displacement that only ever
grows in tension and makes the force elastic again, as long as the contact does not slide or is pressed.
Missing: contacts that slide under tension. -/
theorem C207_formula_partial (cfg : Cfg) (fresh : Bool) (G : Geom6) (p : Phys) (s1 s2 : State) (x2 : V3)
    (hn : sqNorm G.g.normal = 1) (hk : 0 < p.kn) (hkeep : (lawGo cfg fresh G p s1 s2 x2).keep = true) :
    let q := (lawGo cfg fresh G p s1 s2 x2).phys
    let N := max (p.kn * (G.g.pd - p.unp)) (-p.aN)
    (N = p.kn * (G.g.pd - q.unp) ∧ q.unp ≤ p.unp ∧ (p.fragile = true → q.unp = p.unp)) ∧
    (0 ≤ N ∨ norm3 (trial cfg G.g p fresh) ≤ max 0 (shearLimit p N) → pressing G.g q = N) := by
  obtain ⟨F, unp, en⟩ := lawGo_keep hkeep
  obtain ⟨-, -, Mt, Mb, hp⟩ := lawGo_some (cfg := cfg) (fresh := fresh) (s1 := s1) (s2 := s2) (x2 := x2) en
  obtain ⟨f1, f2, f3, f4⟩ := normalPart_formula hk en
  simp only
  rw [hp]
  have hu : (shearPart G.g { p with unp := unp } F (trial cfg G.g p fresh)).1.unp = unp :=
    (shearPart_same _ _ _ _).2.2.2.2.1
  refine ⟨?_, ?_⟩
  · simp only [hu]
    exact ⟨f1.symm.trans f2, f3, f4⟩
  · rw [← f1]
    intro h
    show dot G.g.normal (shearPart G.g { p with unp := unp } F (trial cfg G.g p fresh)).1.Fn = F
    have hsl : ∀ q : Phys, q.noFriction = p.noFriction → q.aS = p.aS → q.tan = p.tan →
        shearLimit q F = shearLimit p F := by
      intro q a b c; unfold shearLimit; rw [a, b, c]
    by_cases hs : norm3 (trial cfg G.g p fresh) > strength { p with unp := unp } F
    · have h0 : 0 ≤ F := by
        rcases h with h | h
        · exact h
        · rw [strength_eq, hsl { p with unp := unp } rfl rfl rfl] at hs
          exact absurd hs (not_lt.mpr h)
      by_cases hb : (p.fragile && !p.broken) = false
      · rw [shearPart_slide hs hb]
        simp only [if_neg (not_lt.mpr h0)]
        exact unit_dot hn F
      · rw [Bool.not_eq_false, Bool.and_eq_true, Bool.not_eq_true'] at hb
        rw [shearPart_break hs hb.1 hb.2]
        simp only [if_neg (not_lt.mpr h0)]
        exact unit_dot hn F
    · rw [shearPart_stick hs]
      exact unit_dot hn F

/-- The hypotheses of `C207_formula_partial` are met by a contact that yields in tension: the plastic displacement moves. -/
example : 0 < (exPhys exMat).kn ∧ ∃ q : Phys, q.kn = 1 ∧ q.aN = 1 ∧ q.fragile = false ∧
    normalPart (exG 4 0).g.pd q = some (-1, -1) ∧ (lawGo exCfg false (exG 4 0) q sA (sB 4 0) 0).keep = true := by
  refine ⟨by norm_num [exPhys], { exPhys exMat with aN := 1, fragile := false, unpMax := -1 }, rfl, rfl, rfl, ?_, ?_⟩
  · norm_num [normalPart, exG, exSc, exPhys, Phys.new, exMat]
  · refine (lawGo_some (F := -1) (unp := -1) ?_).1
    norm_num [normalPart, exG, exSc, exPhys, Phys.new, exMat]

/-- **C207 (violated).** A contact that does not break (`fragile=False`), under a tension well below its strength, drops
all its tension as soon as it slides: the formula asks for a tension of one. -/
theorem C207_violated : ∃ (p : Phys) (G : Geom6), sqNorm G.g.normal = 1 ∧ p.fragile = false ∧ p.broken = false ∧ p.kn = 1 ∧
    p.aN = 10 ∧ max (p.kn * (G.g.pd - p.unp)) (-p.aN) = -1 ∧
    (lawGo exCfg false G p sA (sB 3 1) 0).keep = true ∧
    (lawGo exCfg false G p sA (sB 3 1) 0).phys.broken = false ∧
    pressing G.g (lawGo exCfg false G p sA (sB 3 1) 0).phys = 0 := by
  refine ⟨{ exPhys exMat with aN := 10, aS := 0, fragile := false }, exG 3 1, ex_unit 3 1, rfl, rfl, rfl, rfl, ?_, ?_⟩
  · norm_num [exG, exSc, exPhys, Phys.new]
  have en : normalPart (exG 3 1).g.pd { exPhys exMat with aN := 10, aS := 0, fragile := false } = some (-1, 0) := by
    norm_num [normalPart, exG, exSc, exPhys, Phys.new, exMat]
  obtain ⟨hk, -, Mt, Mb, hp⟩ := lawGo_some (cfg := exCfg) (fresh := false) (s1 := sA) (s2 := sB 3 1) (x2 := 0) en
  have et : trial exCfg (exG 3 1).g { exPhys exMat with aN := 10, aS := 0, fragile := false } false = ![0, -1, 0] := by
    have := ex_trial exCfg 3 1 { exPhys exMat with aN := 10, aS := 0, fragile := false } false (by simp [exPhys, Phys.new])
    refine this.trans ?_
    simp [exPhys]
  refine ⟨hk, ?_⟩
  rw [hp, et, shearPart_slide (by
    rw [norm_y, strength_eq]
    norm_num [shearLimit, exPhys, Phys.new]) rfl]
  refine ⟨rfl, ?_⟩
  simp [pressing, dot]

/-! ## C208: when a contact is lost -/

/-- **C208 (partial).** The law gives up a contact exactly if its elastic tension exceeds the tensile strength and it
either is fragile or has been drawn out by more than the elastic and the allowed plastic displacement.
Missing: with `neverErase` it should never do so. -/
theorem C208_lost_partial (cfg : Cfg) (fresh : Bool) (G : Geom6) (p : Phys) (s1 s2 : State) (x2 : V3) (hk : 0 < p.kn) :
    (lawGo cfg fresh G p s1 s2 x2).keep = false ↔
      p.aN < p.kn * (p.unp - G.g.pd) ∧ (p.fragile = true ∨ (0 ≤ p.unpMax ∧ p.unpMax + p.aN / p.kn < -G.g.pd)) := by
  have hl : (lawGo cfg fresh G p s1 s2 x2).keep = false ↔ normalPart G.g.pd p = none := by
    constructor
    · intro h
      cases e : normalPart G.g.pd p with
      | none => rfl
      | some x => rw [(lawGo_some (F := x.1) (unp := x.2) e).1] at h; simp at h
    · intro h; rw [lawGo_none h]
  rw [hl]
  have e1 : -(p.kn * (G.g.pd - p.unp)) = p.kn * (p.unp - G.g.pd) := by ring
  have e2 : -(G.g.pd + p.aN / p.kn) > p.unpMax ↔ p.unpMax + p.aN / p.kn < -G.g.pd := by
    constructor <;> intro h <;> linarith
  unfold normalPart
  simp only [e1, e2, gt_iff_lt, ge_iff_le]
  by_cases h1 : p.aN < p.kn * (p.unp - G.g.pd)
  · by_cases hf : p.fragile = true
    · simp [h1, hf]
    · rw [if_neg (fun h => hf h.1), if_pos h1]
      by_cases h3 : 0 ≤ p.unpMax ∧ p.unpMax + p.aN / p.kn < -G.g.pd
      · rw [if_pos h3]; simp [h1, h3]
      · rw [if_neg h3]
        simp only [reduceCtorEq, false_iff, not_and, not_or]
        exact fun _ => ⟨hf, fun a b => h3 ⟨a, b⟩⟩
  · rw [if_neg (fun h => h1 h.2), if_neg h1]
    simp [h1]

/-- Both sides of `C208_lost_partial` occur: a bond holds at a small distance and is lost at a larger one. -/
example : (lawGo exCfg false (exG (5 / 2) 0) { exPhys exMat with aN := 1 } sA (sB (5 / 2) 0) 0).keep = true ∧
    (lawGo exCfg false (exG 4 0) { exPhys exMat with aN := 1 } sA (sB 4 0) 0).keep = false := by
  constructor
  · rw [← Bool.not_eq_false, C208_lost_partial _ _ _ _ _ _ _ (by norm_num [exPhys])]
    norm_num [exG, exSc, exPhys, Phys.new, exMat]
  · rw [C208_lost_partial _ _ _ _ _ _ _ (by norm_num [exPhys])]
    norm_num [exG, exSc, exPhys, Phys.new, exMat]

/-- **C208 (violated).** `neverErase` does not keep contacts: spheres that move apart lose theirs. -/
theorem C208_violated : ∃ (cfg : Cfg) (f : Ip2) (p : Phys), cfg.neverErase = true ∧
    pass ⟨1, 1, exMat, exMat, 1, cfg⟩ f ⟨some (exG 2 0), some p⟩ sA (sB 3 0) cx = .ok (⟨none, none⟩, Loads.zero) := by
  refine ⟨{ exCfg with neverErase := true }, { exIp2 with setNow := false }, { exPhys exMat with aN := 0 }, rfl, ?_⟩
  rw [ex_pass_old exMat { exIp2 with setNow := false } rfl { exPhys exMat with aN := 0 } rfl
    { exCfg with neverErase := true } rfl 3 0 2 0 (by norm_num)]
  rw [lawGo_none (by norm_num [normalPart, exG, exSc, exPhys, Phys.new, exMat])]
  rfl

/-! ## C209: dissipation -/

theorem split_energy {k r : ℝ} (t : V3) (hk : 0 < k) (h0 : 0 ≤ r) (h1 : r ≤ 1) :
    0 ≤ dot ((1 / k) • (t - r • t)) (r • t) ∧
    sqNorm (r • t) / (2 * k) + dot ((1 / k) • (t - r • t)) (r • t) ≤ sqNorm t / (2 * k) := by
  have e : dot ((1 / k) • (t - r • t)) (r • t) = (1 / k) * ((1 - r) * r * sqNorm t) := by
    rw [dot_smul_left]
    congr 1
    simp only [dot, sqNorm, Pi.sub_apply, Pi.smul_apply, smul_eq_mul]
    ring
  rw [e, sqNorm_smul]
  have hs := sqNorm_nonneg t
  have h2 : 0 ≤ (1 - r) * r * sqNorm t := mul_nonneg (mul_nonneg (by linarith) h0) hs
  refine ⟨mul_nonneg (by positivity) h2, ?_⟩
  have h3 : r ^ 2 * sqNorm t / (2 * k) + 1 / k * ((1 - r) * r * sqNorm t) =
      (sqNorm t - (1 - r) ^ 2 * sqNorm t) / (2 * k) := by
    field_simp; ring
  rw [h3]
  apply div_le_div_of_nonneg_right _ (by positivity)
  have : 0 ≤ (1 - r) ^ 2 * sqNorm t := mul_nonneg (sq_nonneg _) hs
  linarith

/-- The energy reported when the shear force is reduced by a factor. -/
theorem shearPart_dissip {g : ScGeom} {p : Phys} {F : ℝ} {t : V3} (hk : 0 < p.ks)
    (hp : p.broken = true ∨ p.fragile = false ∨ (p.noFriction = false ∧ 0 ≤ p.aS)) :
    0 ≤ (shearPart g p F t).2 ∧
    sqNorm (shearPart g p F t).1.Fs / (2 * p.ks) + (shearPart g p F t).2 ≤ sqNorm t / (2 * p.ks) := by
  by_cases h : norm3 t > strength p F
  · have ht : 0 < norm3 t := lt_of_le_of_lt (strength_nonneg _ _) h
    have key : ∀ m : ℝ, 0 ≤ m → m ≤ strength p F →
        0 ≤ dot ((1 / p.ks) • (t - (m / norm3 t) • t)) ((m / norm3 t) • t) ∧
        sqNorm ((m / norm3 t) • t) / (2 * p.ks) + dot ((1 / p.ks) • (t - (m / norm3 t) • t)) ((m / norm3 t) • t) ≤
          sqNorm t / (2 * p.ks) := fun m h0 h1 =>
      split_energy t hk (div_nonneg h0 ht.le) ((div_le_one ht).mpr (h1.trans h.le))
    have pos : ∀ d : ℝ, 0 ≤ d → (if d > 0 then d else 0) = d := by
      intro d hd
      split_ifs with h0
      · rfl
      · exact le_antisymm hd (not_lt.mp h0)
    unfold shearPart
    simp only
    rw [if_pos (show norm3 t > strength { p with Fn := F • g.normal, Fs := t } F from h)]
    simp only
    by_cases hb : (p.fragile && !p.broken) = true
    · have hb' := hb
      rw [Bool.and_eq_true, Bool.not_eq_true'] at hb'
      have hc : p.noFriction = false ∧ 0 ≤ p.aS := by
        rcases hp with hp | hp | hp
        · rw [hp] at hb'; simp at hb'
        · rw [hp] at hb'; simp at hb'
        · exact hp
      have hm : max 0 (F * p.tan) ≤ strength p F := by
        unfold strength
        rw [if_pos (.inl hc.1)]
        exact max_le_max_left _ (by linarith [hc.2])
      simp only [hb, if_true, Phys.breakUp]
      rw [pos _ (key _ (le_max_left _ _) hm).1]
      exact key _ (le_max_left _ _) hm
    · simp only [hb]
      have := key _ (strength_nonneg p F) (le_refl _)
      have e := pos _ this.1
      have g : ∀ d : ℝ, d = dot ((1 / p.ks) • (t - (strength p F / norm3 t) • t)) ((strength p F / norm3 t) • t) →
          0 ≤ d ∧ sqNorm ((strength p F / norm3 t) • t) / (2 * p.ks) + d ≤ sqNorm t / (2 * p.ks) := by
        rintro d rfl; exact this
      exact g _ e
  · rw [shearPart_stick h]
    exact ⟨le_refl _, by simp⟩

/-- **C209 (partial).** Sliding only dissipates: the energy reported is not negative, and with the elastic energy left it is at most
the energy of the elastic shear force.  Missing: bonds whose adhesion disables friction, or with negative
adhesion, when they break. -/
theorem C209_dissipation_partial (cfg : Cfg) (G : Geom6) (p : Phys) (s1 s2 : State) (x2 : V3)
    (hc : cfg.shearCreep = false) (hk : 0 < p.ks) (hkeep : (lawGo cfg false G p s1 s2 x2).keep = true)
    (hp : p.broken = true ∨ p.fragile = false ∨ (p.noFriction = false ∧ 0 ≤ p.aS)) :
    let o := lawGo cfg false G p s1 s2 x2
    0 ≤ o.dissip ∧ sqNorm o.phys.Fs / (2 * p.ks) + o.dissip ≤ sqNorm (elasticShear G.g p) / (2 * p.ks) := by
  obtain ⟨F, unp, en⟩ := lawGo_keep hkeep
  obtain ⟨-, hd, Mt, Mb, hph⟩ := lawGo_some (cfg := cfg) (fresh := false) (s1 := s1) (s2 := s2) (x2 := x2) en
  simp only
  rw [hph, hd, trial_elastic hc]
  exact shearPart_dissip (p := { p with unp := unp }) hk hp

/-- The hypotheses of `C209_dissipation_partial` are met by a bond that is about to break under shear. -/
example : (lawGo exCfg false (exG 1 3) { exPhys exMat with aN := 1, aS := 1, tan := 1 } sA (sB 1 3) 0).keep = true ∧
    norm3 (elasticShear (exG 1 3).g { exPhys exMat with aN := 1, aS := 1, tan := 1 }) >
      max 0 (shearLimit { exPhys exMat with aN := 1, aS := 1, tan := 1 } 1) := by
  constructor
  · exact (lawGo_some (F := 1) (unp := 0) (by norm_num [normalPart, exG, exSc, exPhys, Phys.new, exMat])).1
  · have : elasticShear (exG 1 3).g { exPhys exMat with aN := 1, aS := 1, tan := 1 } = ![0, -3, 0] := by
      apply v3_ext <;> simp [elasticShear, exG, exSc, exPhys, Phys.new, ScGeom.rotate]
    rw [this, norm_y]
    norm_num [shearLimit, exPhys, Phys.new]

/-- **C209 (violated).** When a bond whose adhesion disables friction breaks, the shear force is raised to the frictional limit: here
from two to ten, and the elastic energy grows twenty-five times without any work being done. -/
theorem C209_violated : ∃ (p : Phys) (G : Geom6), p.noFriction = true ∧ p.ks = 1 ∧
    elasticShear G.g p = ![0, -2, 0] ∧ (lawGo exCfg false G p sA (sB 1 2) 0).keep = true ∧
    (lawGo exCfg false G p sA (sB 1 2) 0).phys.Fs = ![0, -10, 0] := by
  refine ⟨{ exPhys exMat with aN := 1, aS := 1, tan := 10, noFriction := true }, exG 1 2, rfl, rfl, ?_, ?_⟩
  · apply v3_ext <;> simp [elasticShear, exG, exSc, exPhys, Phys.new, ScGeom.rotate]
  have en : normalPart (exG 1 2).g.pd { exPhys exMat with aN := 1, aS := 1, tan := 10, noFriction := true } = some (1, 0) := by
    norm_num [normalPart, exG, exSc, exPhys, Phys.new, exMat]
  obtain ⟨hk, -, Mt, Mb, hp⟩ := lawGo_some (cfg := exCfg) (fresh := false) (s1 := sA) (s2 := sB 1 2) (x2 := 0) en
  refine ⟨hk, ?_⟩
  have et : trial exCfg (exG 1 2).g { exPhys exMat with aN := 1, aS := 1, tan := 10, noFriction := true } false =
      ![0, -2, 0] := by
    have := ex_trial exCfg 1 2 { exPhys exMat with aN := 1, aS := 1, tan := 10, noFriction := true } false
      (by simp [exPhys, Phys.new])
    refine this.trans ?_
    simp [exPhys]
  rw [hp, et, shearPart_break (by
    rw [norm_y, strength_eq]
    norm_num [shearLimit, exPhys, Phys.new]) rfl rfl]
  show (max 0 ((1 : ℝ) * 10) / norm3 ![0, -2, 0]) • (![0, -2, 0] : V3) = _
  rw [norm_y, show max 0 ((1 : ℝ) * 10) / |-2| = 5 by norm_num]
  apply v3_ext
  · simp
  · simp; norm_num
  · simp

end Verif.Coh
