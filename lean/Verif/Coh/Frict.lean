import Verif.Coh.More

/-!
# Contacts without a bond are frictional contacts: C206
-/
namespace Verif.Coh

open Verif.Mech (V3 State GeomCtx Loads LawCfg ContactRun ScGeom FrictPhys sphereSphere norm3 sqNorm dot cross)

/-- A run of passes of the interaction loop over a pair, with the loads of each. -/
inductive Passes (P : Pair) (f : Ip2) : Contact → List (State × State × GeomCtx) → List Loads → Prop
  | nil (k) : Passes P f k [] []
  | cons {k k1 s1 s2 c L rest Ls} (h : pass P f k s1 s2 c = .ok (k1, L)) (hr : Passes P f k1 rest Ls) :
      Passes P f k ((s1, s2, c) :: rest) (L :: Ls)

/-- The same pair with the materials as `FrictMat` and the law `Law2_ScGeom_FrictPhys_CundallStrack` of configuration `cfg`. -/
def Pair.plain (P : Pair) (cfg : LawCfg) : Mech.Pair :=
  ⟨P.r1, P.r2, ⟨P.m1.young, P.m1.poisson, P.m1.frictionAngle⟩, ⟨P.m2.young, P.m2.poisson, P.m2.frictionAngle⟩, P.factor, cfg⟩

/-- Physics without a bond and the same frictional physics. -/
structure SamePhys (p : Phys) (q : FrictPhys) : Prop where
  kn : p.kn = q.kn
  ks : p.ks = q.ks
  tan : p.tan = q.tan
  Fs : p.Fs = q.Fs
  broken : p.broken = true
  aN : p.aN = 0
  aS : p.aS = 0
  unp : p.unp = 0
  fragile : p.fragile = true
  init : p.initCohesion = false

/-- A contact without a bond and the frictional contact of the same state. -/
def SameContact (P : Pair) (k : Contact) (k' : Mech.Contact) : Prop :=
  k.geom.map (·.g) = k'.geom ∧
  match k.phys, k'.phys with
  | none, none => True
  | some p, some q => k.geom.isSome = true ∧ SamePhys p q ∧ 0 < p.kn ∧ 0 ≤ p.tan ∧
      ((P.m1.momentLaw && P.m2.momentLaw) = true → P.cfg.alwaysMoment = false) ∧
      (p.momentLaw = true → (P.m1.momentLaw && P.m2.momentLaw) = true)
  | _, _ => False

/-- What the pair and the functor have to be like: no cohesion asked for, no creep, no moments at unbonded contacts, sensible
materials and radii. -/
structure Plain (P : Pair) (f : Ip2) (cfg : LawCfg) : Prop where
  now : f.setNow = false
  new : f.onNew = false
  angle : f.angle = none
  creep : P.cfg.shearCreep = false
  moments : (P.m1.momentLaw && P.m2.momentLaw) = true → P.cfg.alwaysMoment = false
  erase : cfg.neverErase = false
  r1 : 0 < P.r1
  r2 : 0 < P.r2
  y1 : 0 < P.m1.young
  y2 : 0 < P.m2.young
  p1 : P.m1.poisson ≠ 0
  p2 : P.m2.poisson ≠ 0
  friction : 0 ≤ Real.tan (min P.m1.frictionAngle P.m2.frictionAngle)

theorem slip_eq {F tan : ℝ} {n t : V3} (hn : sqNorm n = 1) (hF : 0 ≤ F) (ht : 0 ≤ tan) :
    Mech.slip (sqNorm (F • n) * tan ^ 2) t = if norm3 t > F * tan then (F * tan / norm3 t) • t else t := by
  have e : sqNorm (F • n) * tan ^ 2 = (F * tan) ^ 2 := by rw [Mech.sqNorm_smul, hn]; ring
  have h0 : 0 ≤ F * tan := mul_nonneg hF ht
  unfold Mech.slip
  rw [e, Real.sqrt_sq h0]
  have : sqNorm t > (F * tan) ^ 2 ↔ norm3 t > F * tan := by
    unfold norm3
    exact (Real.lt_sqrt h0).symm
  by_cases h : norm3 t > F * tan
  · rw [if_pos h, if_pos (this.mpr h)]
  · rw [if_neg h, if_neg fun h' => h (this.mp h')]

/-- The two laws on an unbonded contact. -/
theorem law_same {cfg : Cfg} {lcfg : LawCfg} {fresh : Bool} {G : Geom6} {p : Phys} {q : FrictPhys} {s1 s2 : State} {c : GeomCtx}
    (hpq : SamePhys p q) (hk : 0 < p.kn) (ht : 0 ≤ p.tan) (hc : cfg.shearCreep = false)
    (hm : p.momentLaw = true → cfg.alwaysMoment = false) (he : lcfg.neverErase = false)
    (hf : fresh = true → q.Fs = 0) (hn : sqNorm G.g.normal = 1)
    (hcp : G.g.contactPoint = s1.pos + (G.g.r1 - 0.5 * G.g.pd) • G.g.normal)
    (hbr : (G.g.r1 + G.g.r2 - G.g.pd) • G.g.normal = s2.pos + c.shift2 - s1.pos)
    (hs : lcfg.periodic = false → c.shift2 = 0) :
    (lawGo cfg fresh G p s1 s2 (s2.pos + c.shift2)).keep = (Mech.lawGo lcfg G.g q s1.pos s2.pos).keep ∧
    (lawGo cfg fresh G p s1 s2 (s2.pos + c.shift2)).loads = (Mech.lawGo lcfg G.g q s1.pos s2.pos).loads ∧
    ((lawGo cfg fresh G p s1 s2 (s2.pos + c.shift2)).keep = true →
      SamePhys (lawGo cfg fresh G p s1 s2 (s2.pos + c.shift2)).phys (Mech.lawGo lcfg G.g q s1.pos s2.pos).phys ∧
      (lawGo cfg fresh G p s1 s2 (s2.pos + c.shift2)).phys.kn = p.kn ∧
      (lawGo cfg fresh G p s1 s2 (s2.pos + c.shift2)).phys.tan = p.tan ∧
      (lawGo cfg fresh G p s1 s2 (s2.pos + c.shift2)).phys.momentLaw = p.momentLaw ∧
      (lawGo cfg fresh G p s1 s2 (s2.pos + c.shift2)).phys.Fn = (Mech.lawGo lcfg G.g q s1.pos s2.pos).phys.Fn) := by
  by_cases hpd : G.g.pd < 0
  · have en : normalPart G.g.pd p = none := by
      have := mul_neg_of_pos_of_neg hk hpd
      unfold normalPart
      simp only [hpq.aN, hpq.unp, sub_zero]
      rw [if_pos ⟨hpq.fragile, by linarith⟩]
    rw [lawGo_none en]
    unfold Mech.lawGo
    rw [if_pos ⟨hpd, by simp [he]⟩]
    exact ⟨rfl, rfl, fun h => absurd h (by simp)⟩
  · have h0 : 0 ≤ G.g.pd := not_lt.mp hpd
    have hF : 0 ≤ p.kn * G.g.pd := mul_nonneg hk.le h0
    have en : normalPart G.g.pd p = some (p.kn * G.g.pd, 0) := by
      unfold normalPart
      simp only [hpq.unp, sub_zero, hpq.aN]
      rw [if_neg (fun h => by linarith [h.2]), if_neg (by linarith)]
    have et : trial cfg G.g p fresh = Mech.trialShear G.g q := by
      unfold trial Mech.trialShear
      simp only [hc, Bool.false_eq_true, if_false, hpq.ks]
      by_cases hfr : fresh = true
      · rw [if_pos hfr, hf hfr]
      · rw [if_neg hfr, hpq.Fs]
    have est : strength { p with unp := 0 } (p.kn * G.g.pd) = p.kn * G.g.pd * p.tan := by
      unfold strength
      rw [if_pos (Or.inr hpq.aS)]
      show max 0 (p.aS + _) = _
      rw [hpq.aS, zero_add]
      exact max_eq_right (mul_nonneg hF ht)
    have eml : Mech.lawGo lcfg G.g q s1.pos s2.pos =
        { keep := true,
          phys := { q with Fn := (p.kn * G.g.pd) • G.g.normal, Fs := Mech.slip (sqNorm ((p.kn * G.g.pd) • G.g.normal) * p.tan ^ 2) (Mech.trialShear G.g q) },
          loads := Mech.applyLoads lcfg G.g (-((p.kn * G.g.pd) • G.g.normal) - Mech.slip (sqNorm ((p.kn * G.g.pd) • G.g.normal) * p.tan ^ 2) (Mech.trialShear G.g q)) s1.pos s2.pos,
          dissip := Mech.plastic q.ks (sqNorm ((p.kn * G.g.pd) • G.g.normal) * p.tan ^ 2) (Mech.trialShear G.g q) } := by
      unfold Mech.lawGo
      rw [if_neg (fun h => hpd h.1)]
      simp only [if_neg hpd, Mech.normalForce, max_eq_left h0, ← hpq.kn, ← hpq.tan]
    have esp : (shearPart G.g { p with unp := 0 } (p.kn * G.g.pd) (trial cfg G.g p fresh)).1 =
        { p with unp := 0, Fn := (p.kn * G.g.pd) • G.g.normal, Fs := Mech.slip (sqNorm ((p.kn * G.g.pd) • G.g.normal) * p.tan ^ 2) (Mech.trialShear G.g q) } := by
      rw [slip_eq hn hF ht, et]
      by_cases h : norm3 (Mech.trialShear G.g q) > p.kn * G.g.pd * p.tan
      · rw [if_pos h, shearPart_slide (by rw [est]; exact h) (by simp [hpq.broken]), est, if_neg (not_lt.mpr hF)]
      · rw [if_neg h, shearPart_stick (by rw [est]; exact h)]
    have hload : ∀ F : V3, atContactPoint G.g.contactPoint F s1.pos (s2.pos + c.shift2) =
        Mech.applyLoads lcfg G.g F s1.pos s2.pos := by
      intro F
      unfold atContactPoint Mech.applyLoads
      split_ifs with hcfg
      · rw [hs (by simpa using hcfg.1), add_zero]
      · have e1 : cross (G.g.contactPoint - s1.pos) F = (G.g.r1 - 0.5 * G.g.pd) • cross G.g.normal F := by
          rw [hcp]
          apply Mech.v3_ext <;> simp <;> ring
        have e2 : -cross (G.g.contactPoint - (s2.pos + c.shift2)) F = (G.g.r2 - 0.5 * G.g.pd) • cross G.g.normal F := by
          have : s2.pos + c.shift2 = s1.pos + (G.g.r1 + G.g.r2 - G.g.pd) • G.g.normal := by rw [hbr]; abel
          rw [hcp, this]
          apply Mech.v3_ext <;> simp <;> ring
        rw [e1, e2]
    have hmom : (p.momentLaw && (!p.broken || cfg.alwaysMoment)) = false := by
      rw [hpq.broken]
      cases h : p.momentLaw with
      | false => rfl
      | true => rw [hm h]; rfl
    have elaw : (lawGo cfg fresh G p s1 s2 (s2.pos + c.shift2)).keep = true ∧
        (lawGo cfg fresh G p s1 s2 (s2.pos + c.shift2)).phys =
          (shearPart G.g { p with unp := 0 } (p.kn * G.g.pd) (trial cfg G.g p fresh)).1 ∧
        (lawGo cfg fresh G p s1 s2 (s2.pos + c.shift2)).loads = atContactPoint G.g.contactPoint
          (-(shearPart G.g { p with unp := 0 } (p.kn * G.g.pd) (trial cfg G.g p fresh)).1.Fn -
          (shearPart G.g { p with unp := 0 } (p.kn * G.g.pd) (trial cfg G.g p fresh)).1.Fs) s1.pos (s2.pos + c.shift2) := by
      unfold lawGo
      rw [en]
      simp only
      rw [if_neg]
      · exact ⟨rfl, rfl, rfl⟩
      · rw [esp]
        show ¬ (p.momentLaw && (!p.broken || cfg.alwaysMoment)) = true
        rw [hmom]
        simp
    obtain ⟨l1, l2, l3⟩ := elaw
    rw [l1, l2, l3, esp, eml]
    refine ⟨rfl, hload _, fun _ => ⟨⟨hpq.kn, hpq.ks, hpq.tan, rfl, hpq.broken, hpq.aN, hpq.aS, rfl, hpq.fragile, hpq.init⟩,
      rfl, rfl, rfl, rfl⟩⟩

theorem stiffness_pos {a b : ℝ} {r s : ℝ} (ha : 0 < a) (hb : 0 < b) (hr : 0 < r) (hs : 0 < s) :
    0 < 2 * a * r * b * s / (a * r + b * s) := by positivity

/-- One pass. -/
theorem pass_same {P : Pair} {f : Ip2} {cfg : LawCfg} (hP : Plain P f cfg) {k k1 : Contact} {k' : Mech.Contact}
    {s1 s2 : State} {c : GeomCtx} {L : Loads} (hs : cfg.periodic = false → c.shift2 = 0) (hk : SameContact P k k')
    (h : pass P f k s1 s2 c = .ok (k1, L)) :
    ∃ k1', Mech.contactStep (P.plain cfg) k' s1 s2 c = .ok (k1', L) ∧ SameContact P k1 k1' := by
  obtain ⟨hg, hp⟩ := hk
  have hreal : (k.geom.isSome && k.phys.isSome) = (k'.geom.isSome && k'.phys.isSome) := by
    rw [← hg]
    cases e1 : k.phys <;> cases e2 : k'.phys <;> rw [e1, e2] at hp <;> first | exact hp.elim | simp
  unfold pass at h
  unfold Mech.contactStep
  simp only at h
  show ∃ k1', (match sphereSphere P.factor k'.geom (k'.geom.isSome && k'.phys.isSome) false P.r1 P.r2 s1 s2 c with
    | .ub => .ub
    | .throws => .throws
    | .ok none => .ok (if k'.geom.isSome && k'.phys.isSome then ⟨none, none⟩ else k', Loads.zero)
    | .ok (some g) =>
      let p := Mech.frictPhys k'.phys (P.plain cfg).m1 (P.plain cfg).m2 g
      let o := Mech.lawGo (P.plain cfg).cfg g p s1.pos s2.pos
      .ok (if o.keep then ⟨some g, some o.phys⟩ else ⟨none, none⟩, o.loads)) = Res.ok (k1', L) ∧ SameContact P k1 k1'
  rw [← hreal, ← hg]
  split at h
  · simp at h
  · simp at h
  · rename_i e
    rw [sphereSphere6_none e]
    simp only
    injection h with h
    injection h with ha hb
    subst hb
    refine ⟨_, rfl, ?_⟩
    rw [← ha]
    split_ifs
    · exact ⟨rfl, trivial⟩
    · exact ⟨hg, hp⟩
  · rename_i G e
    have e' := sphereSphere6_geom e
    rw [e']
    simp only
    obtain ⟨g0, g1, g2, g3, g4, g5⟩ := Mech.sphereSphere_geom e'
    have hbr := Mech.sphereSphere_branch e'
    have hn : sqNorm G.g.normal = 1 := by rw [g1]; exact Mech.unit_normal g0
    injection h with h
    injection h with ha hb
    have hcp : G.g.contactPoint = s1.pos + (G.g.r1 - 0.5 * G.g.pd) • G.g.normal := by rw [g5, g3]
    -- the physics before the law
    obtain ⟨p, hpe, hsame, hkn, htan, hmo, hfr⟩ : ∃ p, ip2Go f P.m1 P.m2 k.phys G s1 s2 = (p, G) ∧
        SamePhys p (Mech.frictPhys k'.phys (P.plain cfg).m1 (P.plain cfg).m2 G.g) ∧ 0 < p.kn ∧ 0 ≤ p.tan ∧
        (p.momentLaw = true → (P.m1.momentLaw && P.m2.momentLaw) = true) ∧
        ((!(k.geom.isSome && k.phys.isSome)) = true →
          (Mech.frictPhys k'.phys (P.plain cfg).m1 (P.plain cfg).m2 G.g).Fs = 0) := by
      cases e1 : k.phys with
      | none =>
        cases e2 : k'.phys with
        | some q => rw [e1, e2] at hp; exact hp.elim
        | none =>
          refine ⟨(ip2Go f P.m1 P.m2 none G s1 s2).1, ?_⟩
          have hex : ip2Go f P.m1 P.m2 none G s1 s2 = ({ Phys.new with
              kn := 2 * P.m1.young * G.g.r1 * P.m2.young * G.g.r2 / (P.m1.young * G.g.r1 + P.m2.young * G.g.r2),
              ks := shearStiffness P.m1 P.m2 G.g.r1 G.g.r2,
              kr := G.g.r1 * G.g.r2 * shearStiffness P.m1 P.m2 G.g.r1 G.g.r2 * harm0 P.m1.alphaKr P.m2.alphaKr,
              ktw := G.g.r1 * G.g.r2 * shearStiffness P.m1 P.m2 G.g.r1 G.g.r2 * harm0 P.m1.alphaKtw P.m2.alphaKtw,
              tan := Real.tan (f.angle.getD (min P.m1.frictionAngle P.m2.frictionAngle)),
              maxRoll := min (P.m1.etaRoll * G.g.r1) (P.m2.etaRoll * G.g.r2),
              maxTwist := min (P.m1.etaTwist * G.g.r1) (P.m2.etaTwist * G.g.r2),
              momentLaw := P.m1.momentLaw && P.m2.momentLaw }, G) := by
            unfold ip2Go
            simp only [hP.now, hP.new, Bool.or_self, Bool.false_and, Bool.false_eq_true, if_false]
          rw [hex]
          refine ⟨rfl, ?_, ?_, ?_, ?_, ?_⟩
          · simp only [Mech.frictPhys, g3, g4, gt_iff_lt, hP.r1, hP.r2, if_true, shearStiffness]
            rw [if_pos ⟨hP.p1, hP.p2⟩]
            exact ⟨rfl, rfl, by simp [hP.angle, Pair.plain], rfl, rfl, rfl, rfl, rfl, rfl, rfl⟩
          · simp only [g3, g4]
            exact stiffness_pos hP.y1 hP.y2 hP.r1 hP.r2
          · simp only [hP.angle, Option.getD_none]
            exact hP.friction
          · exact fun h => h
          · intro _; rfl
      | some p =>
        cases e2 : k'.phys with
        | none => rw [e1, e2] at hp; exact hp.elim
        | some q =>
          rw [e1, e2] at hp
          obtain ⟨p1, p2, p3, p4, p5, p6⟩ := hp
          refine ⟨p, ?_, p2, p3, p4, p6, ?_⟩
          · unfold ip2Go
            simp only [hP.now, p2.init, Bool.false_and, Bool.or_self, Bool.false_eq_true, if_false]
          · intro hc; rw [p1] at hc; simp at hc
    rw [hpe] at ha hb
    simp only at ha hb
    obtain ⟨l1, l2, l3⟩ := law_same (cfg := { P.cfg with dt := c.dt }) (lcfg := (P.plain cfg).cfg) (s1 := s1) (s2 := s2) (c := c) hsame hkn htan
      hP.creep (fun h => hP.moments (hmo h)) hP.erase hfr hn hcp hbr hs
    have hL : L = (Mech.lawGo (P.plain cfg).cfg G.g (Mech.frictPhys k'.phys (P.plain cfg).m1 (P.plain cfg).m2 G.g)
        s1.pos s2.pos).loads := by rw [← hb, l2]
    rw [hL]
    refine ⟨_, rfl, ?_⟩
    · rw [← ha]
      by_cases hkeep : (lawGo { P.cfg with dt := c.dt } (!(k.geom.isSome && k.phys.isSome)) G p s1 s2
          (s2.pos + c.shift2)).keep = true
      · rw [if_pos hkeep]
        rw [l1] at hkeep
        show SameContact P _ (if _ then _ else _)
        rw [if_pos hkeep]
        rw [← l1] at hkeep
        obtain ⟨m1, m2, m3, m4, -⟩ := l3 hkeep
        exact ⟨rfl, rfl, m1, by rw [m2]; exact hkn, by rw [m3]; exact htan, hP.moments, by rw [m4]; exact hmo⟩
      · rw [if_neg hkeep]
        rw [l1] at hkeep
        show SameContact P _ (if _ then _ else _)
        rw [if_neg hkeep]
        exact ⟨rfl, trivial⟩

theorem run_same {P : Pair} {f : Ip2} {cfg : LawCfg} (hP : Plain P f cfg) (steps : List (State × State × GeomCtx))
    (Ls : List Loads) (hs : ∀ s ∈ steps, cfg.periodic = false → s.2.2.shift2 = 0) {k : Contact} {k' : Mech.Contact}
    (hk : SameContact P k k') (h : Passes P f k steps Ls) : ContactRun (P.plain cfg) k' steps Ls := by
  induction h generalizing k' with
  | nil => exact .nil _
  | cons h _ ih =>
    obtain ⟨k1', e, hk1⟩ := pass_same hP (hs _ List.mem_cons_self) hk h
    exact .cons e (ih (fun s h => hs s (List.mem_cons_of_mem _ h)) hk1)

/-- **C206 (cohesion never asked for).** Two spheres of cohesive material whose contact was not made cohesive are, over any sequence
of motions, time steps and periodic shifts, loaded as two spheres with `FrictMat` under
`Law2_ScGeom_FrictPhys_CundallStrack`, through any number of contacts made and lost. -/
theorem C206_history (P : Pair) (f : Ip2) (cfg : LawCfg) (hP : Plain P f cfg) (steps : List (State × State × GeomCtx))
    (Ls : List Loads) (hs : ∀ s ∈ steps, cfg.periodic = false → s.2.2.shift2 = 0)
    (h : Passes P f ⟨none, none⟩ steps Ls) : ContactRun (P.plain cfg) ⟨none, none⟩ steps Ls :=
  run_same hP steps Ls hs ⟨rfl, trivial⟩ h

/-- **C206 (broken bond).** From the step after a fragile bond breaks in shear, the contact is loaded as the frictional contact with
the forces it was left with: the bond does not heal, and its former strength has no effect. -/
theorem C206_broken (P : Pair) (f : Ip2) (cfg : LawCfg) (hP : Plain P f cfg) (k k1 : Contact) (s1 s2 : State) (c : GeomCtx)
    (L : Loads) (p p1 : Phys) (G : Geom6) (h : pass P f k s1 s2 c = .ok (k1, L)) (hp : k.phys = some p)
    (hb : p.broken = false) (hf : p.fragile = true) (hu : p.unp = 0) (hi : p.initCohesion = false)
    (hkn : 0 < p.kn) (htan : 0 ≤ p.tan) (hml : p.momentLaw = true → (P.m1.momentLaw && P.m2.momentLaw) = true)
    (hk1 : k1 = ⟨some G, some p1⟩) (hb1 : p1.broken = true)
    (steps : List (State × State × GeomCtx)) (Ls : List Loads)
    (hs : ∀ s ∈ steps, cfg.periodic = false → s.2.2.shift2 = 0) (hr : Passes P f k1 steps Ls) :
    ContactRun (P.plain cfg) ⟨some G.g, some ⟨p1.kn, p1.ks, p1.tan, p1.Fn, p1.Fs⟩⟩ steps Ls := by
  refine run_same hP steps Ls hs ?_ hr
  rcases pass_real h with ⟨-, h0 | ⟨h0, -⟩⟩ | ⟨G', -, e, hkeep, -⟩
  · rw [hk1] at h0; simp at h0
  · rw [hk1] at h0
    rw [← h0] at hp
    simp only at hp
    injection hp with hp
    rw [hp, hb] at hb1
    simp at hb1
  · have hi2 : ip2Go f P.m1 P.m2 k.phys G' s1 s2 = (p, G') := by
      rw [hp]
      unfold ip2Go
      simp only [hP.now, hi, Bool.false_and, Bool.or_self, Bool.false_eq_true, if_false]
    rw [hi2] at e hkeep
    obtain ⟨F, unp, en⟩ := lawGo_keep hkeep
    have hunp : unp = 0 := by
      unfold normalPart at en
      simp only at en
      by_cases h1 : p.fragile = true ∧ -(p.kn * (G'.g.pd - p.unp)) > p.aN
      · rw [if_pos h1] at en; simp at en
      · rw [if_neg h1, if_neg fun h2 => h1 ⟨hf, h2⟩] at en
        injection en with en
        injection en with _ en
        rw [← en, hu]
    obtain ⟨-, -, Mt, Mb, hph⟩ := lawGo_some (cfg := { P.cfg with dt := c.dt })
      (fresh := !(k.geom.isSome && k.phys.isSome)) (s1 := s1) (s2 := s2) (x2 := s2.pos + c.shift2) en
    rw [hk1] at e
    injection e with e1 e2
    injection e2 with e2
    rw [hph] at e2
    by_cases hsl : norm3 (trial { P.cfg with dt := c.dt } G'.g p (!(k.geom.isSome && k.phys.isSome))) >
        strength { p with unp := unp } F
    · rw [shearPart_break hsl hf hb] at e2
      subst e2
      rw [hk1]
      exact ⟨rfl, rfl, ⟨rfl, rfl, rfl, rfl, rfl, rfl, rfl, hunp, hf, hi⟩, hkn, htan, hP.moments, hml⟩
    · rw [shearPart_stick hsl] at e2
      subst e2
      rw [show _ = p.broken from rfl, hb] at hb1
      simp at hb1

/-- The hypotheses of `C206_history` are met by two unit spheres that touch. -/
example : ∃ f : Ip2, Plain (exPair exMat) f ⟨false, true, false⟩ ∧
    ∃ Ls, Passes (exPair exMat) f ⟨none, none⟩ [(sA, sB 1 0, cx)] Ls := by
  refine ⟨⟨false, false, -1, none, none, none⟩, ⟨rfl, rfl, rfl, rfl, by simp [exPair, exMat], rfl, ?_, ?_, ?_, ?_, ?_, ?_, ?_⟩, ?_⟩
  · simp [exPair]
  · simp [exPair]
  · simp [exPair, exMat]
  · simp [exPair, exMat]
  · simp [exPair, exMat]
  · simp [exPair, exMat]
  · simp [exPair, exMat]
  · have e : ∃ k L, pass (exPair exMat) ⟨false, false, -1, none, none, none⟩ ⟨none, none⟩ sA (sB 1 0) cx = .ok (k, L) := by
      unfold pass
      have e : sphereSphere6 (exPair exMat).factor none false (exPair exMat).r1 (exPair exMat).r2 sA (sB 1 0) cx =
          .ok (some (exG 1 0)) := ex_new 1 0 one_pos (by norm_num)
      simp only [Option.isSome_none, Bool.and_self]
      rw [e]
      exact ⟨_, _, rfl⟩
    obtain ⟨k, L, e⟩ := e
    exact ⟨[L], .cons e (.nil _)⟩

/-- The hypotheses of `C206_broken` are met by a bond of strength one that is sheared by five. -/
example : ∃ (p p1 : Phys) (L : Loads), p.broken = false ∧ p.fragile = true ∧ p.unp = 0 ∧ p.initCohesion = false ∧ 0 < p.kn ∧
    0 ≤ p.tan ∧ p1.broken = true ∧
    pass (exPair exMat) { exIp2 with setNow := false } ⟨some (exG 1 0), some p⟩ sA (sB 1 5) cx =
      .ok (⟨some (exG 1 5), some p1⟩, L) := by
  refine ⟨{ exPhys exMat with aN := 1, aS := 1 }, (lawGo exCfg false (exG 1 5) { exPhys exMat with aN := 1, aS := 1 } sA (sB 1 5)
    ((sB 1 5).pos + cx.shift2)).phys, (lawGo exCfg false (exG 1 5) { exPhys exMat with aN := 1, aS := 1 } sA (sB 1 5)
    ((sB 1 5).pos + cx.shift2)).loads, rfl, rfl, rfl, rfl, one_pos, le_refl _, ?_, ?_⟩
  · have en : normalPart (exG 1 5).g.pd { exPhys exMat with aN := 1, aS := 1 } = some (1, 0) := by
      norm_num [normalPart, exG, exSc, exPhys, Phys.new, exMat]
    obtain ⟨-, -, Mt, Mb, hp⟩ := lawGo_some (cfg := exCfg) (fresh := false) (s1 := sA) (s2 := sB 1 5)
      (x2 := (sB 1 5).pos + cx.shift2) en
    have et : trial exCfg (exG 1 5).g { exPhys exMat with aN := 1, aS := 1 } false = ![0, -(1 * 5), 0] :=
      ex_trial exCfg 1 5 { exPhys exMat with aN := 1, aS := 1 } false (by simp [exPhys, Phys.new])
    rw [hp, et]
    rw [shearPart_break ?_ rfl rfl]
    rw [norm_y, strength_eq]
    norm_num [shearLimit, exPhys, Phys.new]
  · have e := ex_pass_old exMat { exIp2 with setNow := false } rfl { exPhys exMat with aN := 1, aS := 1 } rfl exCfg rfl 1 5 1 0
      one_pos
    have en : normalPart (exG 1 5).g.pd { exPhys exMat with aN := 1, aS := 1 } = some (1, 0) := by
      norm_num [normalPart, exG, exSc, exPhys, Phys.new, exMat]
    rw [if_pos (lawGo_some (cfg := exCfg) (fresh := false) (s1 := sA) (s2 := sB 1 5) (x2 := (sB 1 5).pos + cx.shift2) en).1] at e
    exact e

end Verif.Coh
