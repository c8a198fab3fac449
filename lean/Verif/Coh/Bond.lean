import Verif.Coh.Frict

/-!
# Properties of cohesive contacts: making the bond (C211) and its moments (C213)
-/
namespace Verif.Coh

open Verif.Mech

/-! ## C211: what being given cohesion means -/

/-- The bond has just been made: it holds, no request is left, and the present orientations are those of reference. -/
structure JustBonded (p : Phys) (G : Geom6) (s1 s2 : State) : Prop where
  holds : p.broken = false
  served : p.initCohesion = false
  ori1 : G.ori1 = s1.ori
  ori2 : G.ori2 = s2.ori
  twist : G.twist = 0
  bending : G.bending = 0

/-- What the call for one contact does with what it finds, `given` telling whether the contact was given cohesion. -/
def Served (given : Bool) (old : Option Phys) (G : Geom6) (s1 s2 : State) (new : Phys × Geom6) : Prop :=
  if given then JustBonded new.1 new.2 s1 s2
  else new.2 = G ∧ match old with
    | none => new.1.broken = true
    | some p => new.1 = p

theorem callIter_snd (pre : List (Mat × Mat × Option Phys)) (f : Ip2) (iter : ℤ) (x : Mat × Mat × Option Phys)
    (post : List (Mat × Mat × Option Phys)) :
    (callIter f iter (pre ++ x :: post)).2 =
      (callIter f iter pre).2 ++ (callIter (callIter f iter pre).1 iter (x :: post)).2 := by
  induction pre generalizing f with
  | nil => simp [callIter]
  | cons y pre ih =>
    simp only [List.cons_append, callIter]
    rw [ih]
    rfl

theorem callIter_len (l : List (Mat × Mat × Option Phys)) (f : Ip2) (iter : ℤ) :
    (callIter f iter l).2.length = l.length := by
  induction l generalizing f with
  | nil => rfl
  | cons y l ih => simp only [callIter, List.length_cons, ih]

/-- **C211 (bond).** Each contact of an iteration that is given cohesion gets a bond that holds, whose request is served and whose
relative rotation starts at zero from the present orientations; each other contact stays as it is, or begins without a bond. -/
theorem C211_bond (f : Ip2) (iter : ℤ) (pre post : List (Mat × Mat × Option Phys)) (m1 m2 : Mat) (old : Option Phys)
    (G : Geom6) (s1 s2 : State) :
    ∃ given, (callIter f iter (pre ++ (m1, m2, old) :: post)).2[pre.length]? = some given ∧
      Served given old G s1 s2 (ip2Go ((callIter f iter pre).1.tick iter) m1 m2 old G s1 s2) := by
  rw [callIter_snd, List.getElem?_append_right (by rw [callIter_len]), callIter_len, Nat.sub_self]
  refine ⟨_, rfl, ?_⟩
  generalize (callIter f iter pre).1.tick iter = g
  cases old with
  | none =>
    simp only [Served, ip2Go]
    by_cases h : ((g.onNew || g.setNow) && m1.isCohesive && m2.isCohesive) = true
    · simp only [h, if_true]
      exact ⟨rfl, rfl, rfl, rfl, rfl, rfl⟩
    · simp only [if_neg h]
      exact ⟨trivial, rfl⟩
  | some p =>
    simp only [Served, ip2Go]
    by_cases h : ((g.setNow && m1.isCohesive && m2.isCohesive) || p.initCohesion) = true
    · simp only [h, if_true]
      exact ⟨rfl, rfl, rfl, rfl, rfl, rfl⟩
    · simp only [if_neg h]
      exact ⟨trivial, trivial⟩

/-- **C211 (own request).** A contact that asks for cohesion itself (`initCohesion`) is given it once, whatever the materials: the
next call, without a request for all, leaves the contact as the law left it. -/
theorem C211_once (f g : Ip2) (m1 m2 : Mat) (p : Phys) (G G' : Geom6) (s1 s2 s1' s2' : State) (hp : p.initCohesion = true)
    (hg : g.setNow = false) (cfg : Cfg) (fresh : Bool) (x2 : V3) :
    let b := ip2Go f m1 m2 (some p) G s1 s2
    let q := (lawGo cfg fresh b.2 b.1 s1 s2 x2).phys
    JustBonded b.1 b.2 s1 s2 ∧ ip2Go g m1 m2 (some q) G' s1' s2' = (q, G') := by
  simp only
  have hb : ip2Go f m1 m2 (some p) G s1 s2 = (bond f m1 m2 G p, initRotations G s1 s2) := by
    simp [ip2Go, hp]
  rw [hb]
  refine ⟨⟨rfl, rfl, rfl, rfl, rfl, rfl⟩, ?_⟩
  have hq : (lawGo cfg fresh (initRotations G s1 s2) (bond f m1 m2 G p) s1 s2 x2).phys.initCohesion = false := by
    have h0 : (bond f m1 m2 G p).initCohesion = false := rfl
    generalize bond f m1 m2 G p = r at *
    generalize initRotations G s1 s2 = H
    unfold lawGo
    cases normalPart H.g.pd r with
    | none => exact h0
    | some x =>
      have hs : ∀ t, (shearPart H.g { r with unp := x.2 } x.1 t).1.initCohesion = false := by
        intro t
        unfold shearPart
        simp only
        split_ifs <;> exact h0
      simp only
      split_ifs <;> exact hs _
  simp [ip2Go, hg, hq]

/-- The hypotheses of `C211_once` are met by a contact that asks, the functor being told nothing. -/
example : ∃ (p : Phys) (g : Ip2), p.initCohesion = true ∧ g.setNow = false :=
  ⟨{ Phys.new with initCohesion := true }, { exIp2 with setNow := false }, rfl, rfl⟩

/-! ## C213: the moments of a bond, from the orientations -/

theorem limit_none {eta k N : ℝ} {M : V3} (h : eta < 0) : (limitMoment eta k N M).1 = M := by
  unfold limitMoment
  rw [if_neg (not_le.mpr h)]

/-- **C213 (elastic, partial).** The moments of an unlimited bond are springs in the relative rotation: if since the bond was made the
first body has turned by an angle below half a turn about some axis relative to the second, the twisting moment is the twisting
stiffness times the part of the rotation along the normal, the bending moment the rolling stiffness times the part across it, and the
bodies feel them in opposite senses.  Missing: larger rotations. -/
theorem C213_elastic_partial (cfg : Cfg) (G : Geom6) (p : Phys) (s1 s2 : State) (x2 : V3) (th : ℝ) (a : V3)
    (ha : sqNorm a = 1) (hth : |th| < Real.pi) (h1 : s1.ori = (turn th a).mul G.ori1) (h2 : s2.ori = G.ori2)
    (u1 : G.ori1.sqNorm = 1) (u2 : G.ori2.sqNorm = 1) (hi : cfg.incremental = false) (hr : p.maxRoll < 0)
    (hw : p.maxTwist < 0) (hm : p.momentLaw = true) :
    let o := lawGo cfg false (updateRotations G s1 s2) p s1 s2 x2
    let F := -o.phys.Fn - o.phys.Fs
    let M := (p.ktw * (th * dot a G.g.normal)) • G.g.normal + p.kr • (th • (a - dot a G.g.normal • G.g.normal))
    o.keep = true → o.phys.broken = false →
      o.loads.t1 = cross (G.g.contactPoint - s1.pos) F - M ∧ o.loads.t2 = -cross (G.g.contactPoint - x2) F + M := by
  simp only
  intro hk hb
  obtain ⟨et, eb⟩ := C213_angle_partial G s1 s2 th a ha hth h1 h2 u1 u2
  have hg : (updateRotations G s1 s2).g = G.g := rfl
  have := law_moments hk
  simp only at this
  rw [if_pos (by simp [hm, hb])] at this
  obtain ⟨m1, m2, -, -, hl⟩ := this
  rw [hl, m1, m2, limit_none hr, limit_none hw]
  simp only [elasticMoments, hi, Bool.false_eq_true, if_false, et, eb, hg, atContactPoint]
  rw [mul_comm (th * dot a G.g.normal) p.ktw]
  exact ⟨(sub_eq_add_neg _ _).symm, rfl⟩

/-- A bond with rolling and twisting stiffness and no limits to the moments. -/
noncomputable def exBond : Phys := { exPhys exMat with aN := 1, aS := 1, momentLaw := true }

/-- The first sphere after a quarter turn about the y axis. -/
noncomputable def sTurned : State := { sA with ori := turn (Real.pi / 2) ![0, 1, 0] }

theorem sTurned_ori : sTurned.ori = (turn (Real.pi / 2) ![0, 1, 0]).mul (exG 1 0).ori1 := (Quat.mul_one' _).symm

/-- The hypotheses of `C213_elastic_partial` are met by a quarter turn across the normal. -/
example : sqNorm (![0, 1, 0] : V3) = 1 ∧ |Real.pi / 2| < Real.pi ∧
    sTurned.ori = (turn (Real.pi / 2) ![0, 1, 0]).mul (exG 1 0).ori1 ∧ (sB 1 0).ori = (exG 1 0).ori2 ∧
    exCfg.incremental = false ∧ exBond.maxRoll < 0 ∧ exBond.maxTwist < 0 ∧ exBond.momentLaw = true ∧
    (lawGo exCfg false (updateRotations (exG 1 0) sTurned (sB 1 0)) exBond sTurned (sB 1 0) 0).keep = true ∧
    (lawGo exCfg false (updateRotations (exG 1 0) sTurned (sB 1 0)) exBond sTurned (sB 1 0) 0).phys.broken = false := by
  refine ⟨by simp [sqNorm, dot], ?_, sTurned_ori, rfl, rfl, by simp [exBond, exPhys, exMat], by simp [exBond, exPhys, exMat],
    rfl, ?_⟩
  · rw [abs_of_pos (by linarith [Real.pi_pos])]
    linarith [Real.pi_pos]
  have en : normalPart (updateRotations (exG 1 0) sTurned (sB 1 0)).g.pd exBond = some (1, 0) := by
    norm_num [normalPart, updateRotations, exG, exSc, exBond, exPhys, Phys.new, exMat]
  obtain ⟨hk, -, Mt, Mb, hp⟩ := lawGo_some (cfg := exCfg) (fresh := false) (s1 := sTurned) (s2 := sB 1 0) (x2 := 0)
    (G := updateRotations (exG 1 0) sTurned (sB 1 0)) en
  refine ⟨hk, ?_⟩
  rw [hp]
  have et : trial exCfg (exG 1 0).g exBond false = ![0, 0, 0] := by
    have := ex_trial exCfg 1 0 exBond false (by simp [exBond, exPhys, Phys.new])
    refine this.trans ?_
    simp
  show (shearPart (exG 1 0).g _ _ (trial exCfg (exG 1 0).g _ false)).1.broken = false
  rw [et, shearPart_stick (by rw [norm_y, strength_eq]; norm_num [shearLimit, exBond, exPhys, Phys.new])]
  rfl

/-- The same rotation written by the other quaternion. -/
def opposite (q : Quat) : Quat := ⟨-q.w, -q.x, -q.y, -q.z⟩

/-- **C213 (either quaternion).** Twist and bending depend on the orientations as rotations: writing one orientation by the other of
its two quaternions changes nothing, unless the relative rotation is exactly half a turn. -/
theorem C213_sign (G : Geom6) (s1 s2 s1' : State) (h1 : s1'.ori = opposite s1.ori) (hw : (delta G s1 s2).w ≠ 0) :
    (updateRotations G s1' s2).twist = (updateRotations G s1 s2).twist ∧
    (updateRotations G s1' s2).bending = (updateRotations G s1 s2).bending := by
  have hd : delta G s1' s2 = opposite (delta G s1 s2) := by
    have hm : ((opposite s1.ori).mul G.ori1.conj).mul (G.ori2.mul s2.ori.conj) =
        opposite ((s1.ori.mul G.ori1.conj).mul (G.ori2.mul s2.ori.conj)) := by
      ext <;> simp only [opposite, Quat.mul, Quat.conj] <;> ring
    unfold delta
    rw [h1, hm]
    generalize (s1.ori.mul G.ori1.conj).mul (G.ori2.mul s2.ori.conj) = q
    have hs : (opposite q).sqNorm = q.sqNorm := by simp [opposite, Quat.sqNorm]
    unfold Quat.normalize
    simp only [hs]
    ext <;> simp [opposite, neg_div]
  have hv : rotVec (opposite (delta G s1 s2)) = rotVec (delta G s1 s2) := by
    generalize delta G s1 s2 = q at *
    have ev : (opposite q).vec = -q.vec := by apply v3_ext <;> simp [opposite, Quat.vec]
    have en : norm3 (-q.vec) = norm3 q.vec := by
      simp [norm3, sqNorm, dot]
    unfold rotVec
    rw [ev, en, show (opposite q).w = -q.w from rfl, abs_neg, smul_neg, ← neg_smul]
    congr 1
    rcases lt_or_gt_of_ne hw with h | h
    · rw [if_pos h, if_neg (by linarith : ¬ -q.w < 0)]; ring
    · rw [if_pos (by linarith : -q.w < 0), if_neg (by linarith : ¬ q.w < 0)]; ring
  unfold updateRotations
  rw [hd, hv]
  exact ⟨rfl, rfl⟩

/-- The hypotheses of `C213_sign` are met by a quarter turn. -/
example : (delta (exG 1 0) sTurned (sB 1 0)).w ≠ 0 := by
  have hu : (exG 1 0).ori1.sqNorm = 1 := by simp [exG, Quat.sqNorm, Quat.one]
  rw [delta_turn sTurned_ori rfl hu hu (turn_unit _ (by simp [sqNorm, dot]))]
  refine (Real.cos_pos_of_mem_Ioo ⟨?_, ?_⟩).ne' <;> linarith [Real.pi_pos]

end Verif.Coh
