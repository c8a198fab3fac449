import Verif.Stride.Boxes
/-!
# C32, C106, C107, C109–C111: when the collider may be skipped
-/
namespace Verif.Stride
open Verif Verif.Mech Matrix
open Verif.Peri (Cell CellOk)

/-! ## Specification -/

/-- the exact box of a sphere is inside the stored box -/
def Inside (s : Scn) (j : Nat) (pos : V3) (r : ℝ) : Prop := ∀ i, (s.box j).1 i ≤ pos i - r ∧ pos i + r ≤ (s.box j).2 i

/-- two boxes overlap on all axes -/
def Overlap (a b : V3 × V3) : Prop := ∀ i, a.1 i ≤ b.2 i ∧ b.1 i ≤ a.2 i

/-- a script puts a body somewhere else -/
def movedTo (id : Nat) (p : V3) (s : Scn) : Scn :=
  { s with w := { s.w with bodies := fun j => if j = id then (s.w.bodies j).map fun b => { b with st := { b.st with pos := p } } else s.w.bodies j } }

/-! ## C32 -/

theorem maxDisp_ge (b : Bod) (bd : BoundInfo) (i : Fin 3) : |b.st.pos i - bd.refPos i| ≤ maxDisp b bd := by
  unfold maxDisp
  fin_cases i
  · exact le_max_left _ _
  · exact (le_max_left _ _).trans (le_max_right _ _)
  · exact (le_max_right _ _).trans (le_max_right _ _)

theorem near_disp {b : Bod} {bd : BoundInfo} (h : Near b bd) (i : Fin 3) : |b.st.pos i - bd.refPos i| ≤ max bd.sweepLength 0 := by
  refine (maxDisp_ge b bd i).trans ?_
  rcases h with h | h
  · rw [h]; exact le_max_right _ _
  · exact h.le.trans (le_max_left _ _)

theorem fits_inside {s : Scn} {j : Nat} {r : ℝ} {b : Bod} {bd : BoundInfo} (hf : BoxFits s j r bd) (hn : Near b bd) : Inside s j b.st.pos r := by
  intro i
  have h1 := hf i
  have h2 := abs_le.mp (near_disp hn i)
  constructor <;> linarith [h1.1, h1.2, h2.1, h2.2]

/-- **C32, partial.** In every simulation (runs of the integrator with any parameters, forces and order of the loop, turns of the
collider with any Verlet distance and any of its parameters, bodies added and erased, clumps made, forces, velocities, orientations
and parameters changed by anything else), whenever the collider decides that it need not run, every sphere has a box and its exact box
is inside that stored box.  Missing: sheared cells (`C32_violated_sheared`), positions changed by scripts (C107), radii changed (C110),
enlargement factors between 0 and 1 (C108). -/
theorem C32_safe_partial (s : Scn) (h : Reach s) (ha : isActivated s = false) (j : Nat) (r : ℝ) (hr : 0 ≤ r) (hs : IsSphere s j r)
    (b : Bod) (hb : s.w.bodies j = some b) : (∃ bd, b.bound = some bd) ∧ Inside s j b.st.pos r := by
  have hi := reach_inv h
  obtain ⟨h1, -, h3, h4, -, -, h7⟩ := isActivated_false ha
  obtain ⟨bd, hbd⟩ := hi.known h1 h7 j r b hr hs hb
  have hfit := hi.fits j r b bd hr hs hb hbd
  refine ⟨⟨bd, hbd⟩, fits_inside hfit ?_⟩
  by_cases ht : Touched s.w j
  · exact hi.near h4 h3 j r b bd hr hs hb hbd ht
  · exact hi.still j r b bd hr hs hb hbd ht

/-- **C32, partial (consequence).** Two spheres whose exact boxes overlap, in particular two that touch, then have overlapping stored
boxes, so the pair was reported by the last run of the collider (C23, C24). -/
theorem C32_overlap_partial (s : Scn) (h : Reach s) (ha : isActivated s = false) (j k : Nat) (r t : ℝ) (hr : 0 ≤ r) (ht : 0 ≤ t)
    (hj : IsSphere s j r) (hk : IsSphere s k t) (bj bk : Bod) (hbj : s.w.bodies j = some bj) (hbk : s.w.bodies k = some bk)
    (hov : ∀ i, |bj.st.pos i - bk.st.pos i| ≤ r + t) : Overlap (s.box j) (s.box k) := by
  intro i
  have h1 := (C32_safe_partial s h ha j r hr hj bj hbj).2 i
  have h2 := (C32_safe_partial s h ha k t ht hk bk hbk).2 i
  have h3 := abs_le.mp (hov i)
  constructor <;> linarith [h1.1, h1.2, h2.1, h2.2, h3.1, h3.2]

/-! ## C106 -/

/-- **C106.** After every run of the integrator, if some body it moves (a body of this process or a member of such a clump) has left
its place by at least the enlargement of its box on some axis, the collider decides to run — for every scene, periodic or not, every
parameter, force, order of the loop and state of the collider. -/
theorem C106_noticed (P : Params) (order : List Nat) (s : Scn) (w' : World) (hw : ClumpsOk s.w) (hnd : order.Nodup)
    (hall : ∀ j b, s.w.bodies j = some b → j ∈ order) (h : Mech.action P order s.w = .ok w') (j : Nat) (ht : Touched s.w j) (b' : Bod)
    (hb' : w'.bodies j = some b') (bd : BoundInfo) (hbd : b'.bound = some bd) (i : Fin 3) (hne : b'.st.pos i ≠ bd.refPos i)
    (hfar : bd.sweepLength ≤ |b'.st.pos i - bd.refPos i|) : isActivated { s with w := w' } = true := by
  obtain ⟨-, -, hrec, -⟩ := newton_run hw hnd hall h
  obtain ⟨b1, hb1, h1⟩ := hrec j ht
  rw [hb'] at hb1; injection hb1 with hb1; subst hb1
  have hn : ¬ Near b' bd := by
    have hm := maxDisp_ge b' bd i
    have hp : 0 < |b'.st.pos i - bd.refPos i| := abs_pos.mpr (sub_ne_zero.mpr hne)
    rintro (e | e)
    · linarith
    · linarith
  have h2 := h1 bd hbd hn
  by_contra hc
  have := (isActivated_false (by simpa using hc)).2.2.1
  dsimp only at this
  linarith

/-! ## Concrete runs -/

theorem foldl_single {P : Params} {w : World} {b : Bod} (hb : w.bodies 0 = some b) (hk : b.kind = .standalone) (hs : w.subdomain = b.subdomain)
    (hi : b.isSubdomain = false) : ∃ w', Mech.action P [0] w = .ok w' ∧
      w'.bodies = (fun j => if j = 0 then some { b with st := stepState P (beforeLoop P w).deform (w.extern 0 b) (w.force 0) (w.torque 0) b.st } else w.bodies j) ∧
      w'.maxVelocitySq = bump (beforeLoop P w).maxVelocitySq { b with st := stepState P (beforeLoop P w).deform (w.extern 0 b) (w.force 0) (w.torque 0) b.st } ∧
      w'.periodic = w.periodic ∧ w'.subdomain = w.subdomain ∧ w'.moveRotUsed = w.moveRotUsed ∧
      (w.periodic = true → w'.prevCellSize = some w.cell.size) ∧ w'.cell.size = w.cell.size ∧ w'.cell.homoDeform = w.cell.homoDeform ∧
      (w.cell.velGradChanged = false → w.cell.nextVelGrad = 0 → w'.cell.velGrad = w.cell.velGrad ∧ w'.cell.velGradChanged = false ∧ w'.cell.nextVelGrad = 0) := by
  obtain ⟨st, kind, sd, isd, asph, mc, bnd⟩ := b
  dsimp only at hk hs hi
  subst hk hi
  obtain ⟨f1, f2, f3, f4, f5, f6, f7, f8⟩ := beforeLoop_frame P w
  have f9 : (beforeLoop P w).cell.size = w.cell.size ∧ (beforeLoop P w).cell.homoDeform = w.cell.homoDeform := by
    unfold beforeLoop; dsimp only; cases hp : w.prevCellSize <;> split_ifs <;> simp [hp] <;> split_ifs <;> exact ⟨rfl, rfl⟩
  have f10 : w.cell.velGradChanged = false → w.cell.nextVelGrad = 0 → (beforeLoop P w).cell.velGrad = w.cell.velGrad ∧
      (beforeLoop P w).cell.velGradChanged = false ∧ (beforeLoop P w).cell.nextVelGrad = 0 := by
    intro g1 g2
    unfold beforeLoop; dsimp only; rw [g1, g2]; simp only [ne_eq, not_true_eq_false, decide_false, Bool.or_false, Bool.false_eq_true, if_false]
    cases w.prevCellSize with
    | none => exact ⟨rfl, g1, g2⟩
    | some p => dsimp only; split_ifs <;> exact ⟨rfl, g1, g2⟩
  have hor : ¬ ((beforeLoop P w).subdomain ≠ sd ∨ false = true) := by rw [f8, hs]; simp
  have he : ∀ b, (beforeLoop P w).extern 0 b = w.extern 0 b := fun b => by unfold World.extern; rw [f5, f6, f7]
  unfold Mech.action
  simp only [actLoop, actBody, f1, hb, if_neg hor, f3, f4, he]
  refine ⟨_, rfl, ?_⟩
  rw [saveMax_eq]
  generalize stepState P (beforeLoop P w).deform (w.extern 0 _) (w.force 0) (w.torque 0) st = st'
  obtain ⟨a1, a2, a3⟩ := afterLoop_frame { (beforeLoop P w).setBody 0 ⟨st', .standalone, sd, false, asph, mc, bnd⟩ with
    maxVelocitySq := bump ((beforeLoop P w).setBody 0 ⟨st', .standalone, sd, false, asph, mc, bnd⟩).maxVelocitySq ⟨st', .standalone, sd, false, asph, mc, bnd⟩ }
  refine ⟨?_, ?_, ?_, ?_, ?_, ?_, ?_, ?_, ?_⟩
  · rw [a1]; unfold World.setBody; dsimp only; rw [f1]
  · rw [a3]; rfl
  · rw [a2]; exact f2
  · unfold afterLoop; split <;> exact f8
  · unfold afterLoop; split <;> exact f5
  · intro hp
    have ha : ∀ v : World, v.periodic = true → (afterLoop v).prevCellSize = some v.cell.size := by
      intro v h; unfold afterLoop; rw [if_pos h]
    refine (ha _ ?_).trans (congrArg some f9.1)
    exact f2.trans hp
  · unfold afterLoop; split <;> exact f9.1
  · unfold afterLoop; split <;> exact f9.2
  · unfold afterLoop; split <;> exact f10

/-- a body with all degrees of freedom blocked goes on with its velocity and turns with its angular velocity -/
theorem blocked_step {P : Params} {D : Deform} {I : Extern} {f m : V3} {s : State} (hb : s.blocked = dofAll) (hD : D.periodic = false ∨ D.homoDeform = 0)
    (hI : I.moveRotUsed = false) (ha : I.aspherical = false) (hm : I.maskCompatible = true) :
    let s' := stepState P D I f m s
    s'.pos = s.pos + P.dt • s.vel ∧ s'.vel = s.vel ∧ s'.angVel = s.angVel ∧ s'.blocked = s.blocked ∧
    s'.ori = (if s.angVel = 0 then s.ori else (ofAngleAxis (norm3 s.angVel * P.dt) ((1 / norm3 s.angVel) • s.angVel)).mul s.ori).normalize := by
  have hmv : moves P I = true := by unfold moves; rw [hm]; simp
  have h0 : (D.periodic && D.homoDeform != 0) = false := by
    rcases hD with h | h <;> rw [h] <;> simp
  have h1 : (D.periodic && decide (D.homoDeform > 1)) = false := by
    rcases hD with h | h <;> rw [h] <;> simp
  have hang : sqNorm s.angVel = 0 ↔ s.angVel = 0 := by
    constructor
    · intro h; by_contra hc; exact (Peri.sqNorm_pos hc).ne' h
    · intro h; rw [h]; simp [sqNorm, dot]
  simp only [stepState, hb, ne_eq, not_true_eq_false, if_false, h1, Bool.false_eq_true, useAspherical, ha, Bool.and_false, Bool.false_and,
    Bool.not_false, if_true, leapfrogSphericalRotate, leapfrogTranslate, hI, h0, hmv, imposedRot, Bool.and_true]
  by_cases hz : s.angVel = 0
  · have : sqNorm (0 : V3) = 0 := by simp [sqNorm, dot]
    simp [this, hz, hb]
  · have : ¬ sqNorm s.angVel = 0 := fun h => hz (hang.mp h)
    simp [this, hz, hb, norm3]

/-- one body in the scene of `Verif.Mech.exWorld`, all degrees of freedom blocked -/
noncomputable def soloScn (cell : Option Cell) (sh : Shp) (vel angVel : V3) (verlet : ℝ) (G : M3 := 0) : Scn :=
  { w := { exWorld (fun j => if j = 0 then some (exBod { exState dofAll vel with angVel := angVel } .standalone) else none) with
      periodic := cell.isSome
      cell := { velGrad := G, nextVelGrad := 0, velGradChanged := false, homoDeform := 0, size := fun _ => 1, prevVelGrad := 0 } }
    cell := cell, size := 1, iter := 0, shape := fun _ => some sh, bounded := fun _ => true, box := fun _ => (0, 0), last := fun _ => 0
    doSort := true, dirty := false, verletDist := verlet, targetInterv := -1, minSweepDistFactor := 0.1, enlarge := -1, nBB := 0
    hasNewton := false, newtonInEngines := true, strideActive := false }

/-- the body of `soloScn` after the first run of the collider -/
def soloBod (vel angVel : V3) (verlet : ℝ) : Bod :=
  { exBod { exState dofAll vel with angVel := angVel } .standalone with bound := some ⟨0, verlet⟩ }

/-- `soloScn` after the first run of the collider -/
noncomputable def soloRun (cell : Option Cell) (sh : Shp) (vel angVel : V3) (verlet : ℝ) (bx : V3 × V3) (G : M3 := 0) : Scn :=
  { soloScn cell sh vel angVel verlet G with
    w := (soloScn cell sh vel angVel verlet G).w.setBody 0 (soloBod vel angVel verlet)
    last := fun j => if j = 0 then 0 else 0
    box := fun j => if j = 0 then swept bx verlet else (0, 0)
    doSort := false, nBB := 1, hasNewton := true, strideActive := true }

theorem solo_collide {cell : Option Cell} {sh : Shp} {vel angVel : V3} {verlet : ℝ} {G : M3} (hv : 0 < verlet) {bx : V3 × V3}
    (hbx : shapeBox (-1) cell sh { exState dofAll vel with angVel := angVel } = .ok (some bx)) :
    colliderTurn (soloScn cell sh vel angVel verlet G) = .ok (soloRun cell sh vel angVel verlet bx G) := by
  have h1 : isActivated (soloScn cell sh vel angVel verlet G) = true := by simp [isActivated, soloScn]
  have h2 : autoVerlet (soloScn cell sh vel angVel verlet G) = verlet := by
    unfold autoVerlet; rw [if_neg (show ¬ (soloScn cell sh vel angVel verlet G).verletDist < 0 from not_lt.mpr hv.le)]; rfl
  unfold colliderTurn
  rw [h1, if_pos rfl]
  unfold colliderAction
  dsimp only
  rw [h2]
  have h3 : List.range (soloScn cell sh vel angVel verlet G).size = [0] := rfl
  rw [h3]
  simp only [boundLoop, processBody, soloScn, exWorld, if_true]
  have e : (exBod { exState dofAll vel with angVel := angVel } .standalone).st = { exState dofAll vel with angVel := angVel } := rfl
  rw [e, hbx]
  simp only [Res.bind_ok, newSweep, exBod]
  rw [if_neg (show ¬ ((0 : Int) ≤ -1 ∧ (0 : Int) < 0) by decide)]
  simp only [if_pos hv]
  rfl

theorem solo_init {cell : Option Cell} {sh : Shp} {vel angVel : V3} {verlet : ℝ} {G : M3} (hf : Flat cell) : Reach (soloScn cell sh vel angVel verlet G) := by
  refine .init (fun j b hb => ?_) rfl hf
  simp only [soloScn, exWorld] at hb
  by_cases e : j = 0
  · rw [if_pos e] at hb; injection hb with hb; subst hb; exact ⟨rfl, by simp [e, soloScn]⟩
  · rw [if_neg e] at hb; cases hb

theorem solo_clumps {cell : Option Cell} {sh : Shp} {vel angVel : V3} {verlet : ℝ} {G : M3} {bx : V3 × V3} : ClumpsOk (soloRun cell sh vel angVel verlet bx G).w := by
  intro id b ms hb hk
  simp only [soloRun, World.setBody, soloScn, exWorld] at hb
  by_cases e : id = 0
  · simp only [if_pos e] at hb; injection hb with hb; subst hb; simp [soloBod, exBod] at hk
  · simp only [if_neg e] at hb; cases hb

theorem solo_touched {cell : Option Cell} {sh : Shp} {vel angVel : V3} {verlet : ℝ} {G : M3} {bx : V3 × V3} :
    Touched (soloRun cell sh vel angVel verlet bx G).w 0 := by
  refine ⟨0, soloBod vel angVel verlet, by simp [soloRun, World.setBody], ⟨?_, rfl, rfl⟩, Or.inl rfl⟩
  simp [soloBod, exBod, Kind.isMember]

/-- the state after the first run of the collider and one run of the integrator: the collider is not activated while the body stays
within the Verlet distance -/
theorem solo_newton {cell : Option Cell} {sh : Shp} {vel angVel : V3} {verlet : ℝ} {G : M3} (hv : 0 < verlet) {bx : V3 × V3}
    (hvel : ∀ i, |vel i| < verlet) : ∃ (w' : World) (b' : Bod),
      Mech.action exParams [0] (soloRun cell sh vel angVel verlet bx G).w = .ok w' ∧ w'.bodies 0 = some b' ∧ (∀ j, j ≠ 0 → w'.bodies j = none) ∧
      b'.bound = some ⟨0, verlet⟩ ∧ b'.st.pos = vel ∧ b'.kind = .standalone ∧
      b'.st.ori = (if angVel = 0 then Quat.one else (ofAngleAxis (norm3 angVel) ((1 / norm3 angVel) • angVel)).mul Quat.one).normalize ∧
      isActivated { soloRun cell sh vel angVel verlet bx G with w := w' } = false := by
  have hb : (soloRun cell sh vel angVel verlet bx G).w.bodies 0 = some (soloBod vel angVel verlet) := by simp [soloRun, World.setBody]
  have hS : (soloRun cell sh vel angVel verlet bx G).strideActive = true ∧ (soloRun cell sh vel angVel verlet bx G).hasNewton = true ∧
      (soloRun cell sh vel angVel verlet bx G).nBB = (soloRun cell sh vel angVel verlet bx G).size ∧ (soloRun cell sh vel angVel verlet bx G).dirty = false ∧
      (soloRun cell sh vel angVel verlet bx G).doSort = false := ⟨rfl, rfl, rfl, rfl, rfl⟩
  have hper : (beforeLoop exParams (soloRun cell sh vel angVel verlet bx G).w).deform.homoDeform = 0 := by
    unfold World.deform beforeLoop; dsimp only; split_ifs <;> rfl
  have hmv : (beforeLoop exParams (soloRun cell sh vel angVel verlet bx G).w).maxVelocitySq = 0 := by
    unfold beforeLoop; dsimp only; split_ifs <;> rfl
  have hoth : ∀ j, j ≠ 0 → (soloRun cell sh vel angVel verlet bx G).w.bodies j = none := by
    intro j hj; simp [soloRun, World.setBody, hj, soloScn, exWorld]
  have hext : ((soloRun cell sh vel angVel verlet bx G).w.extern 0 (soloBod vel angVel verlet)).moveRotUsed = false := rfl
  obtain ⟨w', h1, h2, h3, -⟩ := foldl_single (P := exParams) hb rfl rfl rfl
  obtain ⟨s1, -, -, -, s5⟩ := blocked_step (P := exParams) (D := (beforeLoop exParams (soloRun cell sh vel angVel verlet bx G).w).deform)
    (I := (soloRun cell sh vel angVel verlet bx G).w.extern 0 (soloBod vel angVel verlet)) (f := (soloRun cell sh vel angVel verlet bx G).w.force 0)
    (m := (soloRun cell sh vel angVel verlet bx G).w.torque 0) (s := (soloBod vel angVel verlet).st) rfl (Or.inr hper) hext rfl rfl
  generalize stepState exParams _ _ _ _ (soloBod vel angVel verlet).st = st' at h2 h3 s1 s5
  have hp : st'.pos = vel := by
    rw [s1]; simp [soloBod, exBod, exState, exParams]
  refine ⟨w', { soloBod vel angVel verlet with st := st' }, h1, by rw [h2]; simp, fun j hj => by rw [h2]; simp [hj, hoth], rfl, hp, rfl, ?_, ?_⟩
  · rw [s5]; simp [soloBod, exBod, exState, exParams]
  · have hn : Near { soloBod vel angVel verlet with st := st' } ⟨0, verlet⟩ := by
      right
      unfold maxDisp
      dsimp only
      rw [hp, sub_zero]
      exact max_lt (hvel 0) (max_lt (hvel 1) (hvel 2))
    have hm : w'.maxVelocitySq = 0.5 := by
      rw [h3, hmv]
      have hn' : max |(st'.pos - (0 : V3)) 0| (max |(st'.pos - (0 : V3)) 1| |(st'.pos - (0 : V3)) 2|) = 0 ∨
        max |(st'.pos - (0 : V3)) 0| (max |(st'.pos - (0 : V3)) 1| |(st'.pos - (0 : V3)) 2|) < verlet := hn
      simp only [bump, soloBod]
      rw [if_pos hn']
      norm_num
    obtain ⟨g1, g2, g3, g4, g5⟩ := hS
    unfold isActivated
    dsimp only
    rw [g1, g2, g3, g4, g5, hm]
    norm_num

/-- hypotheses of `C32_safe_partial`: a sphere of radius 1 and Verlet distance 1 that moved by 1/2 since the collider ran -/
example : ∃ s, Reach s ∧ isActivated s = false ∧ IsSphere s 0 1 ∧ ∃ b, s.w.bodies 0 = some b ∧ b.st.pos = ![1 / 2, 0, 0] := by
  have hbx : shapeBox (-1) none (.sphere 1) { exState dofAll ![1 / 2, 0, 0] with angVel := 0 } =
      .ok (some (sphereBox (-1) none 1 (exState dofAll ![1 / 2, 0, 0]).pos)) := rfl
  obtain ⟨w', b', h1, h2, -, -, h5, -, -, h6⟩ := solo_newton (cell := none) (sh := .sphere 1) (vel := ![1 / 2, 0, 0]) (angVel := 0) (verlet := 1) (G := 0)
    (bx := sphereBox (-1) none 1 (exState dofAll ![1 / 2, 0, 0]).pos) one_pos (fun i => by fin_cases i <;> simp <;> norm_num [abs_of_pos])
  refine ⟨_, .step (.step (solo_init (cell := none) (fun c h => by cases h)) (.collider (by norm_num [soloScn]) (solo_collide one_pos hbx)))
    (.newton exParams [0] solo_clumps (by simp) (fun j b hb => ?_) h1), h6, ⟨rfl, rfl⟩, b', h2, h5⟩
  by_cases e : j = 0
  · simp [e]
  · simp [soloRun, World.setBody, e, soloScn, exWorld] at hb

/-- hypotheses of `C106_noticed`: a sphere that moved by twice its margin in one step -/
example : ∃ (s : Scn) (w' : World) (b' : Bod) (bd : BoundInfo), ClumpsOk s.w ∧ (∀ j b, s.w.bodies j = some b → j ∈ [0]) ∧
    Mech.action exParams [0] s.w = .ok w' ∧ Touched s.w 0 ∧ w'.bodies 0 = some b' ∧ b'.bound = some bd ∧ b'.st.pos 0 ≠ bd.refPos 0 ∧
    bd.sweepLength ≤ |b'.st.pos 0 - bd.refPos 0| := by
  have hb : (soloRun none (.sphere 1) ![2, 0, 0] 0 1 (0, 0)).w.bodies 0 = some (soloBod ![2, 0, 0] 0 1) := by simp [soloRun, World.setBody]
  obtain ⟨w', h1, h2, -⟩ := foldl_single (P := exParams) hb rfl rfl rfl
  obtain ⟨s1, -⟩ := blocked_step (P := exParams) (D := (beforeLoop exParams (soloRun none (.sphere 1) ![2, 0, 0] 0 1 (0, 0)).w).deform)
    (I := (soloRun none (.sphere 1) ![2, 0, 0] 0 1 (0, 0)).w.extern 0 (soloBod ![2, 0, 0] 0 1)) (f := (soloRun none (.sphere 1) ![2, 0, 0] 0 1 (0, 0)).w.force 0)
    (m := (soloRun none (.sphere 1) ![2, 0, 0] 0 1 (0, 0)).w.torque 0) (s := (soloBod ![2, 0, 0] 0 1).st) rfl
    (Or.inl (by unfold World.deform; exact (beforeLoop_frame _ _).2.1)) rfl rfl rfl
  generalize stepState exParams _ _ _ _ (soloBod ![2, 0, 0] 0 1).st = st' at h2 s1
  have hp : st'.pos = ![2, 0, 0] := by rw [s1]; simp [soloBod, exBod, exState, exParams]
  refine ⟨_, w', { soloBod ![2, 0, 0] 0 1 with st := st' }, ⟨0, 1⟩, solo_clumps, fun j b hb => ?_, h1, solo_touched, by rw [h2]; simp, rfl, ?_, ?_⟩
  · by_cases e : j = 0
    · simp [e]
    · simp [soloRun, World.setBody, e, soloScn, exWorld] at hb
  · simp [hp]
  · simp [hp]

/-! ## C32 in a sheared cell -/

/-- base vectors of unit length, sheared in the plane of x and y -/
noncomputable def shearXY : M3 := !![1, 3 / 5, 0; 0, 4 / 5, 0; 0, 0, 1]

theorem shearXY_unit (i : Fin 3) : sqNorm (Peri.col shearXY i) = 1 := by
  unfold sqNorm dot Peri.col shearXY; fin_cases i <;> simp <;> norm_num

theorem shearXY_det : shearXY.det ≠ 0 := by rw [Matrix.det_fin_three]; unfold shearXY; simp

/-- **C32 is false in a sheared cell.** Displacements are measured along the axes of the space while boxes are in coordinates along the
base vectors: after one step of the integrator that moved a sphere by less than its margin on every axis, the collider is not run,
although even the centre of the sphere is outside its stored box. -/
theorem C32_violated_sheared : ∃ (c : Cell) (s s1 : Scn) (w' : World) (b : Bod), CellOk c ∧ s.cell = some c ∧ s.enlarge = -1 ∧
    colliderTurn s = .ok s1 ∧ Mech.action exParams [0] s1.w = .ok w' ∧ isActivated { s1 with w := w' } = false ∧
    IsSphere s1 0 (1 / 100) ∧ w'.bodies 0 = some b ∧ ¬ InBox (s1.box 0) (unshearPt (some c) b.st.pos) := by
  have hok := unitCell_ok shearXY_det
  have hsh : (unitCell shearXY).shear = shearXY := unitCols_of_unit shearXY_unit
  have hp : (unitCell shearXY).shear *ᵥ ![63 / 400, -9 / 80, 0] = ![9 / 100, -9 / 100, 0] := by
    rw [hsh]; unfold shearXY
    ext a; fin_cases a <;> simp [Matrix.mulVec, dotProduct, Fin.sum_univ_three] <;> norm_num
  have hun : (unitCell shearXY).unshear *ᵥ ![9 / 100, -9 / 100, 0] = ![63 / 400, -9 / 80, 0] := by
    rw [← hp, hok.unshear, Matrix.mulVec_mulVec, Matrix.nonsing_inv_mul _ (by rw [isUnit_iff_ne_zero, hsh]; exact shearXY_det), Matrix.one_mulVec]
  have hv : (0 : ℝ) < 1 / 10 := by norm_num
  have hbx : shapeBox (-1) (some (unitCell shearXY)) (.sphere (1 / 100)) { exState dofAll ![9 / 100, -9 / 100, 0] with angVel := 0 } =
      .ok (some (sphereBox (-1) (some (unitCell shearXY)) (1 / 100) 0)) := rfl
  obtain ⟨w', b', h1, h2, -, -, h5, -, -, h6⟩ := solo_newton (cell := some (unitCell shearXY)) (sh := .sphere (1 / 100)) (vel := ![9 / 100, -9 / 100, 0])
    (angVel := 0) (G := 0) (bx := sphereBox (-1) (some (unitCell shearXY)) (1 / 100) 0) hv (fun i => by fin_cases i <;> simp <;> norm_num [abs_of_pos])
  refine ⟨_, _, _, w', b', hok, rfl, rfl, solo_collide (G := 0) hv hbx, h1, h6, ⟨rfl, rfl⟩, h2, fun h => ?_⟩
  have h0 := (h 0).2
  rw [h5] at h0
  have s1 : skew (unitCell shearXY) (0 + 1) = 1 := by rw [skew_eq hok, hsh]; unfold dot Peri.col shearXY; simp
  have s2 : skew (unitCell shearXY) (0 + 2) = 1 - (3 / 5) ^ 2 := by rw [skew_eq hok, hsh]; unfold dot Peri.col shearXY; simp
  unfold soloRun at h0
  dsimp only at h0
  rw [if_pos rfl, (swept_le _ _ 0).2] at h0
  unfold sphereBox unshearPt sphereHalf at h0
  dsimp only at h0
  rw [hun, if_pos (show (unitCell shearXY).hasShear = true from rfl)] at h0
  simp only [Pi.add_apply, s1, s2, Matrix.mulVec_zero, Pi.zero_apply, Matrix.cons_val_zero] at h0
  norm_num at h0

/-! ## C107 -/

/-- **C107, partial.** A script moves a body.  After the next run of the integrator, if the body is then at least the enlargement of
its box away from where the box was made, the collider decides to run.  Missing: the collider's turn before that run
(`C107_violated`). -/
theorem C107_next_partial (P : Params) (order : List Nat) (s : Scn) (id : Nat) (p : V3) (w' : World) (hw : ClumpsOk s.w) (hnd : order.Nodup)
    (hall : ∀ j b, s.w.bodies j = some b → j ∈ order) (h : Mech.action P order (movedTo id p s).w = .ok w') (ht : Touched s.w id) (b' : Bod)
    (hb' : w'.bodies id = some b') (bd : BoundInfo) (hbd : b'.bound = some bd) (i : Fin 3) (hne : b'.st.pos i ≠ bd.refPos i)
    (hfar : bd.sweepLength ≤ |b'.st.pos i - bd.refPos i|) : isActivated { movedTo id p s with w := w' } = true := by
  have hsig : SameSig s.w (movedTo id p s).w := by
    intro j
    simp only [movedTo]
    by_cases e : j = id
    · rw [if_pos e]; cases s.w.bodies j <;> rfl
    · rw [if_neg e]
  refine C106_noticed P order (movedTo id p s) w' (hw.of_sig hsig) hnd (fun j b hb => ?_) h id (ht.congr hsig rfl) b' hb' bd hbd i hne hfar
  obtain ⟨b0, hb0, -⟩ := hsig.symm.some hb
  exact hall j b0 hb0

/-- **C107 is false**: a script moves a sphere of radius 1 by 10 after the integrator ran; the collider is not run in the next step, its
stored box is where the sphere was. -/
theorem C107_violated : ∃ s, Reach s ∧ isActivated s = false ∧ IsSphere s 0 1 ∧ (∃ b, s.w.bodies 0 = some b) ∧
    isActivated (movedTo 0 ![10, 0, 0] s) = false ∧ colliderTurn (movedTo 0 ![10, 0, 0] s) = .ok (movedTo 0 ![10, 0, 0] s) ∧
    ∃ b, (movedTo 0 ![10, 0, 0] s).w.bodies 0 = some b ∧ (movedTo 0 ![10, 0, 0] s).box 0 = (fun _ => -2, fun _ => 2) ∧ b.st.pos = ![10, 0, 0] := by
  have hbx : shapeBox (-1) none (.sphere 1) { exState dofAll 0 with angVel := 0 } = .ok (some (sphereBox (-1) none 1 0)) := rfl
  obtain ⟨w', b', h1, h2, -, -, -, -, -, h6⟩ := solo_newton (cell := none) (sh := .sphere 1) (vel := 0) (angVel := 0) (verlet := 1) (G := 0)
    (bx := sphereBox (-1) none 1 0) one_pos (fun i => by simp)
  have h6' : isActivated (movedTo 0 ![10, 0, 0] { soloRun none (.sphere 1) 0 0 1 (sphereBox (-1) none 1 0) with w := w' }) = false := h6
  refine ⟨{ soloRun none (.sphere 1) 0 0 1 (sphereBox (-1) none 1 0) with w := w' },
    .step (.step (solo_init (cell := none) (fun c h => by cases h)) (.collider (by norm_num [soloScn]) (solo_collide one_pos hbx)))
    (.newton exParams [0] solo_clumps (by simp) (fun j b hb => ?_) h1), h6, ⟨rfl, rfl⟩, ⟨b', h2⟩, h6', ?_, { b' with st := { b'.st with pos := ![10, 0, 0] } }, ?_, ?_, rfl⟩
  · by_cases e : j = 0
    · simp [e]
    · simp [soloRun, World.setBody, e, soloScn, exWorld] at hb
  · unfold colliderTurn; rw [h6']; rfl
  · simp only [movedTo, if_true, h2]; rfl
  · simp only [movedTo, soloRun, if_true]
    apply Prod.ext <;> funext i
    · rw [(swept_le _ _ i).1]; simp [sphereBox, unshearPt, sphereHalf]; norm_num
    · rw [(swept_le _ _ i).2]; simp [sphereBox, unshearPt, sphereHalf]; norm_num

/-! ## C109 -/

/-- what the dispatcher left for a body: the box of its shape where it is, enlarged -/
def Boxed (s : Scn) (j : Nat) (st : State) (bx : V3 × V3) : Prop :=
  ∃ b l, s.w.bodies j = some b ∧ b.st = st ∧ b.bound = some ⟨st.pos, l⟩ ∧ s.box j = swept bx l

theorem processBody_boxed {id : Nat} {s s' : Scn} (h : processBody id s = .ok s') {j : Nat} {b : Bod} (hb : s.w.bodies j = some b)
    (hbo : s.bounded j = true) {sh : Shp} (hsh : s.shape j = some sh) {bx : V3 × V3} (hbx : shapeBox s.enlarge s.cell sh b.st = .ok (some bx))
    (hq : Boxed s j b.st bx ∨ j = id) : Boxed s' j b.st bx := by
  by_cases e : j = id
  · subst e
    unfold processBody at h
    rw [hb, hbo, hsh] at h
    dsimp only at h
    rw [hbx] at h
    dsimp only at h
    injection h with h; subst h
    exact ⟨_, _, if_pos rfl, rfl, rfl, if_pos rfl⟩
  · rcases hq with ⟨b1, l, h1, h2, h3, h4⟩ | hq
    · obtain ⟨-, ho⟩ := processBody_frame h
      obtain ⟨o1, o2⟩ := ho j e
      exact ⟨b1, l, by rw [o1]; exact h1, h2, h3, by rw [o2]; exact h4⟩
    · exact absurd hq e

theorem boundLoop_boxed (ids : List Nat) {s s' : Scn} (h : boundLoop ids s = .ok s') {j : Nat} {b : Bod} (hb : s.w.bodies j = some b)
    (hbo : s.bounded j = true) {sh : Shp} (hsh : s.shape j = some sh) {bx : V3 × V3} (hbx : shapeBox s.enlarge s.cell sh b.st = .ok (some bx))
    (hq : Boxed s j b.st bx ∨ j ∈ ids) : Boxed s' j b.st bx := by
  induction ids generalizing s b with
  | nil =>
    injection h with h; subst h
    rcases hq with hq | hq
    · exact hq
    · cases hq
  | cons id ids ih =>
    unfold boundLoop at h
    cases h1 : processBody id s with
    | throws => rw [h1] at h; cases h
    | ub => rw [h1] at h; cases h
    | ok s1 =>
      rw [h1] at h
      simp only [Res.bind_ok] at h
      obtain ⟨hfr, -⟩ := processBody_frame h1
      obtain ⟨b1, hb1, hc⟩ := hfr.some hb
      have hst : b1.st = b.st := congrArg (·.1) hc
      have e1 : s1.bounded = s.bounded := by rw [hfr.rest]
      have e2 : s1.shape = s.shape := by rw [hfr.rest]
      have e3 : s1.enlarge = s.enlarge := by rw [hfr.rest]
      have e4 : s1.cell = s.cell := by rw [hfr.rest]
      have hq1 : Boxed s1 j b.st bx ∨ j ∈ ids := by
        rcases hq with hq | hq
        · exact Or.inl (processBody_boxed h1 hb hbo hsh hbx (Or.inl hq))
        · rcases List.mem_cons.mp hq with e | hq
          · exact Or.inl (processBody_boxed h1 hb hbo hsh hbx (Or.inr e))
          · exact Or.inr hq
      rw [← hst] at hq1 ⊢
      exact ih h hb1 (by rw [e1]; exact hbo) (by rw [e2]; exact hsh) (by rw [e3, e4, hst]; exact hbx) hq1

theorem colliderAction_boxed {s s' : Scn} (h : colliderAction s = .ok s') {j : Nat} (hj : j < s.size) {b : Bod} (hb : s.w.bodies j = some b)
    (hbo : s.bounded j = true) {sh : Shp} (hsh : s.shape j = some sh) {bx : V3 × V3} (hbx : shapeBox s.enlarge s.cell sh b.st = .ok (some bx)) :
    Boxed s' j b.st bx := by
  unfold colliderAction at h
  dsimp only at h
  cases h1 : boundLoop (List.range s.size) { s with doSort := false, nBB := s.size, verletDist := autoVerlet s, dirty := false } with
  | throws => rw [h1] at h; cases h
  | ub => rw [h1] at h; cases h
  | ok s1 =>
    rw [h1] at h
    simp only [Res.bind_ok] at h
    have hq := boundLoop_boxed (List.range s.size) h1 hb hbo hsh hbx (Or.inr (List.mem_range.mpr hj))
    split at h
    · split at h
      · injection h with h; subst h; exact hq
      · cases h
    · injection h with h; subst h; exact hq

theorem occupies_shift (sh : Shp) (pos pos' : V3) (ori : Quat) (q : V3) (h : Occupies sh pos' ori q) : Occupies sh pos ori (q - (pos' - pos)) := by
  cases sh with
  | sphere r =>
    unfold Occupies at *
    have : q - (pos' - pos) - pos = q - pos' := by abel
    rw [this]; exact h
  | facet v =>
    obtain ⟨t, h0, h1, rfl⟩ := h
    exact ⟨t, h0, h1, by abel⟩
  | box e =>
    obtain ⟨x, h0, rfl⟩ := h
    exact ⟨x, h0, by abel⟩
  | other => exact h

theorem shape_in_box {enl : ℝ} (he : 0 < enl → 1 ≤ enl) {sh : Shp} (hr : ∀ r, sh = .sphere r → 0 ≤ r) (st : State) :
    sh = .other ∨ ∃ bx, shapeBox enl none sh st = .ok (some bx) ∧ ∀ p, Occupies sh st.pos st.ori p → InBox bx p := by
  cases sh with
  | sphere r =>
    exact Or.inr ⟨_, rfl, fun p hp => C108_sphere_partial enl he none (fun c h => by cases h) r (hr r rfl) st.pos st.ori p hp⟩
  | facet v => exact Or.inr ⟨_, rfl, fun p hp => (C108_facet none v st.pos st.ori).1 p hp⟩
  | box e =>
    rcases C108_box none e st.pos st.ori with ⟨-, c, hc, -⟩ | ⟨bx, h1, h2, -⟩
    · cases hc
    · exact Or.inr ⟨bx, by simp [shapeBox, h1], h2⟩
  | other => exact Or.inl rfl

/-- **C109, partial.** In a non-periodic scene: after any run of the collider, as long as a body of any of the shapes keeps its shape,
orientation and box and is less than its margin away from where the box was made (which is what the collider checks before it decides
not to run), all its points are inside the stored box.  Missing: bodies that turn (`C109_violated`). -/
theorem C109_translate_partial (s s1 : Scn) (h : colliderAction s = .ok s1) (hc : s.cell = none) (he : 0 < s.enlarge → 1 ≤ s.enlarge)
    (j : Nat) (hj : j < s.size) (b : Bod) (hb : s.w.bodies j = some b) (hbo : s.bounded j = true) (sh : Shp) (hsh : s.shape j = some sh)
    (hr : ∀ r, sh = .sphere r → 0 ≤ r) (s2 : Scn) (hbox : s2.box j = s1.box j) (b1 b2 : Bod) (hb1 : s1.w.bodies j = some b1)
    (hori : b2.st.ori = b1.st.ori) (bd : BoundInfo) (hbd : b1.bound = some bd) (hn : Near b2 bd) (p : V3) (hp : Occupies sh b2.st.pos b2.st.ori p) :
    InBox (s2.box j) p := by
  rcases shape_in_box he hr b.st with rfl | ⟨bx, h1, h2⟩
  · exact absurd hp (fun h => h)
  · rw [← hc] at h1
    obtain ⟨b1', l, k1, k2, k3, k4⟩ := colliderAction_boxed h hj hb hbo hsh h1
    rw [hb1] at k1; injection k1 with k1; subst k1
    rw [hbd] at k3; injection k3 with k3; subst k3
    rw [hori, k2] at hp
    have h3 := h2 _ (occupies_shift sh b.st.pos b2.st.pos b.st.ori p hp)
    intro i
    have h4 := h3 i
    have h5 := abs_le.mp (near_disp hn i)
    rw [hbox, k4, (swept_le bx l i).1, (swept_le bx l i).2]
    simp only [Pi.sub_apply] at h4
    dsimp only at h5
    constructor <;> linarith [h4.1, h4.2, h5.1, h5.2]

theorem quarter : ((ofAngleAxis (norm3 ![0, 0, Real.pi / 2]) ((1 / norm3 ![0, 0, Real.pi / 2]) • ![0, 0, Real.pi / 2])).mul Quat.one).normalize =
    ⟨Real.cos (Real.pi / 4), 0, 0, Real.sin (Real.pi / 4)⟩ := by
  have hpi := Real.pi_pos
  have hn : norm3 ![0, 0, Real.pi / 2] = Real.pi / 2 := by
    unfold norm3 sqNorm dot
    simp
    exact Real.sqrt_mul_self (by positivity)
  have hv : (1 / (Real.pi / 2)) • (![0, 0, Real.pi / 2] : V3) = ![0, 0, 1] := by
    ext i; fin_cases i <;> simp
  have ha : 0.5 * (Real.pi / 2) = Real.pi / 4 := by ring
  rw [hn, hv]
  unfold ofAngleAxis
  rw [ha]
  have hs : Real.cos (Real.pi / 4) * Real.cos (Real.pi / 4) + Real.sin (Real.pi / 4) * Real.sin (Real.pi / 4) = 1 := by
    have := Real.cos_sq_add_sin_sq (Real.pi / 4); linarith [sq (Real.cos (Real.pi / 4)), sq (Real.sin (Real.pi / 4))]
  unfold Quat.mul Quat.one Quat.normalize Quat.sqNorm
  simp only [Matrix.cons_val_zero, Matrix.cons_val_one, Matrix.cons_val]
  generalize Real.cos (Real.pi / 4) = x at *
  generalize Real.sin (Real.pi / 4) = y at *
  simp [hs]

/-- **C109 is false** for bodies that turn: a box with half sizes 2, 1, 1 turns by a right angle in one step of the integrator without
moving; the collider is not run and a corner is far outside the stored box. -/
theorem C109_violated : ∃ (s s1 : Scn) (w' : World) (b : Bod) (e p : V3), s.cell = none ∧ colliderTurn s = .ok s1 ∧
    Mech.action exParams [0] s1.w = .ok w' ∧ isActivated { s1 with w := w' } = false ∧ s1.shape 0 = some (.box e) ∧ w'.bodies 0 = some b ∧
    Occupies (.box e) b.st.pos b.st.ori p ∧ ¬ InBox (s1.box 0) p := by
  have hv : (0 : ℝ) < 1 / 10 := by norm_num
  have hbx : shapeBox (-1) none (.box ![2, 1, 1]) { exState dofAll 0 with angVel := ![0, 0, Real.pi / 2] } =
      .ok (some ((0 : V3) - boxHalf ![2, 1, 1] Quat.one, 0 + boxHalf ![2, 1, 1] Quat.one)) := rfl
  obtain ⟨w', b', h1, h2, -, -, h5, -, h7, h6⟩ := solo_newton (cell := none) (sh := .box ![2, 1, 1]) (vel := 0) (angVel := ![0, 0, Real.pi / 2]) (G := 0)
    (bx := ((0 : V3) - boxHalf ![2, 1, 1] Quat.one, 0 + boxHalf ![2, 1, 1] Quat.one)) hv (fun i => by simp)
  have hne : (![0, 0, Real.pi / 2] : V3) ≠ 0 := by
    intro h; have := congrFun h 2; simp at this
  rw [if_neg hne, quarter] at h7
  have hsc : 2 * Real.sin (Real.pi / 4) * Real.cos (Real.pi / 4) = 1 := by
    rw [← Real.sin_two_mul]; rw [show 2 * (Real.pi / 4) = Real.pi / 2 by ring]; exact Real.sin_pi_div_two
  refine ⟨_, _, w', b', ![2, 1, 1], b'.st.ori.toMat *ᵥ ![2, 0, 0], rfl, solo_collide (G := 0) hv hbx, h1, h6, rfl, h2, ⟨![2, 0, 0], ?_, ?_⟩, fun h => ?_⟩
  · intro k; fin_cases k <;> simp
  · rw [h5, zero_add]
  · have := (h 1).2
    unfold soloRun at this
    dsimp only at this
    rw [if_pos rfl, (swept_le _ _ 1).2, h7] at this
    generalize Real.cos (Real.pi / 4) = x at *
    generalize Real.sin (Real.pi / 4) = y at *
    simp [Matrix.mulVec, dotProduct, Fin.sum_univ_three, Quat.toMat, boxHalf, Quat.one] at this
    rw [hsc] at this
    norm_num at this

/-! ## C110 -/

/-- **C110 is false**: growing particles never makes a difference to the collider's decision … -/
theorem C110_violated_unnoticed (m : ℝ) (s : Scn) (id : Nat) : isActivated (growParticles m s) = isActivated s ∧ isActivated (growParticle id m s) = isActivated s :=
  ⟨rfl, rfl⟩

/-- … so a sphere doubled in size is outside its stored box and the collider is not run. -/
theorem C110_violated : ∃ s, Reach s ∧ isActivated s = false ∧ IsSphere s 0 1 ∧ ∃ b, s.w.bodies 0 = some b ∧ b.kind = .standalone ∧
    colliderTurn (growParticles 2 s) = .ok (growParticles 2 s) ∧ IsSphere (growParticles 2 s) 0 2 ∧ (growParticles 2 s).w.bodies 0 = some b ∧
    ¬ Inside (growParticles 2 s) 0 b.st.pos 2 := by
  have hv : (0 : ℝ) < 1 / 10 := by norm_num
  have hbx : shapeBox (-1) none (.sphere 1) { exState dofAll 0 with angVel := 0 } = .ok (some (sphereBox (-1) none 1 0)) := rfl
  obtain ⟨w', b', h1, h2, -, -, h5, hk, -, h6⟩ := solo_newton (cell := none) (sh := .sphere 1) (vel := 0) (angVel := 0) (G := 0)
    (bx := sphereBox (-1) none 1 0) hv (fun i => by simp)
  refine ⟨{ soloRun none (.sphere 1) 0 0 (1 / 10) (sphereBox (-1) none 1 0) with w := w' },
    .step (.step (solo_init (cell := none) (fun c h => by cases h)) (.collider (by norm_num [soloScn]) (solo_collide hv hbx)))
    (.newton exParams [0] solo_clumps (by simp) (fun j b hb => ?_) h1), h6, ⟨rfl, rfl⟩, b', h2, hk, ?_, ⟨rfl, ?_⟩, ?_, fun h => ?_⟩
  · by_cases e : j = 0
    · simp [e]
    · simp [soloRun, World.setBody, e, soloScn, exWorld] at hb
  · unfold colliderTurn; rw [(C110_violated_unnoticed 2 _ 0).1, h6]; rfl
  · simp [growParticles, h2, soloRun, soloScn]
  · simp [growParticles, h2, hk]
  · have := (h 0).2
    rw [h5] at this
    simp only [growParticles, soloRun, if_true] at this
    rw [(swept_le _ _ 0).2] at this
    simp [sphereBox, unshearPt, sphereHalf] at this
    norm_num at this

/-- **C110, partial.** A sphere that grows by no more than what is left of its margin stays inside its stored box, in every simulation. -/
theorem C110_margin_partial (s : Scn) (h : Reach s) (j : Nat) (r m : ℝ) (hr : 0 ≤ r) (hs : IsSphere s j r) (b : Bod) (hb : s.w.bodies j = some b)
    (hk : b.kind = .standalone) (bd : BoundInfo) (hbd : b.bound = some bd) (hm : r * m - r + maxDisp b bd ≤ bd.sweepLength) :
    ∃ b', (growParticles m s).w.bodies j = some b' ∧ IsSphere (growParticles m s) j (r * m) ∧ Inside (growParticles m s) j b'.st.pos (r * m) := by
  have hfit := (reach_inv h).fits j r b bd hr hs hb hbd
  refine ⟨b, by simp [growParticles, hb, hk], ⟨hs.1, by simp [growParticles, hb, hs.2]⟩, fun i => ?_⟩
  have h1 := hfit i
  have h2 := abs_le.mp (maxDisp_ge b bd i)
  have h3 := le_max_left bd.sweepLength 0
  simp only [growParticles]
  constructor <;> linarith [h1.1, h1.2, h2.1, h2.2]

/-! ## C111 -/

theorem sq_comp_le (v : V3) (i : Fin 3) : v i ^ 2 ≤ sqNorm v := by
  unfold sqNorm dot
  fin_cases i <;> simp <;> nlinarith [sq_nonneg (v 0), sq_nonneg (v 1), sq_nonneg (v 2)]

/-- **C111, partial.** In a periodic scene, if a length of the cell changed since the previous run of the integrator by at least one
length unit per time unit, the collider decides to run after the integrator has run.  Missing: slower changes (`C111_violated`). -/
theorem C111_fast_partial (P : Params) (order : List Nat) (s : Scn) (w' : World) (hw : ClumpsOk s.w) (h : Mech.action P order s.w = .ok w')
    (hp : s.w.periodic = true) (p : V3) (hprev : s.w.prevCellSize = some p) (hdt : P.dt ≠ 0) (i : Fin 3) (hfast : |P.dt| ≤ |p i - s.w.cell.size i|) :
    isActivated { s with w := w' } = true := by
  rw [action_eq P order hw] at h
  injection h with h
  have hmv : 1 ≤ (beforeLoop P s.w).maxVelocitySq := by
    have hdp : 0 < P.dt ^ 2 := by positivity
    have hsq : P.dt ^ 2 ≤ sqNorm (p - s.w.cell.size) := by
      have h1 : P.dt ^ 2 ≤ (p i - s.w.cell.size i) ^ 2 := sq_le_sq.mpr hfast
      have h2 : (p i - s.w.cell.size i) ^ 2 ≤ sqNorm (p - s.w.cell.size) := sq_comp_le (p - s.w.cell.size) i
      exact h1.trans h2
    have hne : p ≠ s.w.cell.size := by
      intro e; rw [e, sub_self, sqNorm] at hsq; simp [dot] at hsq; exact hdt hsq
    have : (beforeLoop P s.w).maxVelocitySq = sqNorm (p - s.w.cell.size) / P.dt ^ 2 := by
      unfold beforeLoop
      dsimp only
      split_ifs <;> simp [hprev, hp, hne]
    rw [this, le_div_iff₀ hdp, one_mul]; exact hsq
  have h2 : 1 ≤ w'.maxVelocitySq := by
    rw [← h, (afterLoop_frame _).2.2]
    exact hmv.trans (foldl_mv P _ order _)
  by_contra hc
  have := (isActivated_false (by simpa using hc)).2.2.1
  dsimp only at this
  linarith

/-- one step of a simulation whose collider stays idle: the cell advances, the collider has its turn and does not run, the integrator
runs -/
def IdleStep (s s' : Scn) : Prop := ∃ t w', cellTurn exParams.dt s = .ok t ∧ isActivated t = false ∧ colliderTurn t = .ok t ∧
  Mech.action exParams [0] t.w = .ok w' ∧ s' = { t with w := w' }

/-- a cell shrinking along x by a tenth in each step -/
noncomputable def shrinkGrad : M3 := !![-(1 / 10), 0, 0; 0, 0, 0; 0, 0, 0]

/-- `n` steps later -/
structure Shrunk (n : Nat) (s : Scn) : Prop where
  per : s.w.periodic = true
  sub : s.w.subdomain = 0
  mru : s.w.moveRotUsed = false
  homo : s.w.cell.homoDeform = 0
  vg : s.w.cell.velGrad = shrinkGrad
  vgc : s.w.cell.velGradChanged = false
  nvg : s.w.cell.nextVelGrad = 0
  prev : s.w.prevCellSize = some ![(9 / 10) ^ n, 1, 1]
  cell : ∃ c, s.cell = some c ∧ c.hSize = !![(9 / 10) ^ n, 0, 0; 0, 1, 0; 0, 0, 1]
  body : ∃ b l, s.w.bodies 0 = some b ∧ b.kind = .standalone ∧ b.subdomain = 0 ∧ b.isSubdomain = false ∧ b.aspherical = false ∧
    b.maskCompatible = true ∧ b.st.blocked = dofAll ∧ b.st.vel = 0 ∧ b.bound = some ⟨b.st.pos, l⟩
  pos : 0 < s.w.maxVelocitySq
  lt : s.w.maxVelocitySq < 1
  stride : s.strideActive = true ∧ s.hasNewton = true ∧ s.nBB = s.size ∧ s.dirty = false ∧ s.doSort = false

theorem shrunk_active {s : Scn} (h0 : 0 < s.w.maxVelocitySq) (h1 : s.w.maxVelocitySq < 1)
    (hs : s.strideActive = true ∧ s.hasNewton = true ∧ s.nBB = s.size ∧ s.dirty = false ∧ s.doSort = false) : isActivated s = false := by
  obtain ⟨g1, g2, g3, g4, g5⟩ := hs
  unfold isActivated
  rw [g1, g2, g3, g4, g5]
  simp [h0.ne', h1]

theorem norm_diag {x : ℝ} (hx : 0 ≤ x) : (fun i => norm3 (Peri.col (!![x, 0, 0; 0, 1, 0; 0, 0, 1] : M3) i)) = ![x, 1, 1] := by
  funext i
  unfold norm3 sqNorm dot Peri.col
  fin_cases i <;> simp [Real.sqrt_mul_self hx]

theorem shrunk_step {n : Nat} {s : Scn} (h : Shrunk n s) : ∃ s', IdleStep s s' ∧ Shrunk (n + 1) s' := by
  obtain ⟨c, hc, hh⟩ := h.cell
  obtain ⟨b, l, hb, hk, hsd, his, has, hma, hbl, hv, hbd⟩ := h.body
  have hx : (0 : ℝ) ≤ (9 / 10) ^ (n + 1) := by positivity
  have hnew : c.hSize + (exParams.dt • shrinkGrad) * c.hSize = !![(9 / 10) ^ (n + 1), 0, 0; 0, 1, 0; 0, 0, 1] := by
    rw [hh]; unfold shrinkGrad exParams
    ext i j
    fin_cases i <;> fin_cases j <;> simp [Matrix.mul_apply, Fin.sum_univ_three]
    rw [pow_succ]; ring
  have hdet : (!![(9 / 10) ^ (n + 1), 0, 0; 0, 1, 0; 0, 0, 1] : M3).det ≠ 0 := by
    rw [Matrix.det_fin_three]; simp
  obtain ⟨c', hc', hsz, hh'⟩ : ∃ c', Peri.integrate exParams.dt { c with velGrad := s.w.cell.velGrad } = .ok c' ∧ c'.size = ![(9 / 10) ^ (n + 1), 1, 1] ∧
      c'.hSize = !![(9 / 10) ^ (n + 1), 0, 0; 0, 1, 0; 0, 0, 1] := by
    unfold Peri.integrate
    dsimp only
    rw [h.vg, hnew, if_neg hdet]
    exact ⟨_, rfl, norm_diag hx, rfl⟩
  have ht : cellTurn exParams.dt s = .ok { s with cell := some c', w := { s.w with cell := { s.w.cell with size := c'.size } } } := by
    unfold cellTurn; rw [hc]; simp only [hc', Res.bind_ok]
  obtain ⟨t, htd⟩ : ∃ t : Scn, t = { s with cell := some c', w := { s.w with cell := { s.w.cell with size := c'.size } } } := ⟨_, rfl⟩
  rw [← htd] at ht
  have tb : t.w.bodies 0 = some b := by rw [htd]; exact hb
  have tsub : t.w.subdomain = b.subdomain := by rw [htd, hsd]; exact h.sub
  have tact : isActivated t = false := by
    apply shrunk_active
    · rw [htd]; exact h.pos
    · rw [htd]; exact h.lt
    · rw [htd]; exact h.stride
  obtain ⟨w', a1, a2, a3, a4, a5, a6, a7, a8, a9, a10⟩ := foldl_single (P := exParams) tb hk tsub his
  have thomo : (beforeLoop exParams t.w).deform.homoDeform = 0 := by
    have f9 : (beforeLoop exParams t.w).cell.homoDeform = t.w.cell.homoDeform := by
      unfold beforeLoop; dsimp only; cases hp : t.w.prevCellSize <;> split_ifs <;> simp [hp] <;> split_ifs <;> rfl
    unfold World.deform; dsimp only; rw [f9, htd]; exact h.homo
  obtain ⟨s1, s2, -, s4, -⟩ := blocked_step (P := exParams) (D := (beforeLoop exParams t.w).deform) (I := t.w.extern 0 b) (f := t.w.force 0)
    (m := t.w.torque 0) (s := b.st) hbl (Or.inr thomo) (by unfold World.extern; rw [htd]; exact h.mru) (by unfold World.extern; exact has)
    (by unfold World.extern; exact hma)
  generalize stepState exParams _ _ _ _ b.st = st' at a2 a3 s1 s2 s4
  rw [hv, smul_zero, add_zero] at s1
  have tper : t.w.periodic = true := by rw [htd]; exact h.per
  have tprev : t.w.prevCellSize = some ![(9 / 10) ^ n, 1, 1] := by rw [htd]; exact h.prev
  have tsize : t.w.cell.size = ![(9 / 10) ^ (n + 1), 1, 1] := by rw [htd]; exact hsz
  have tvc : t.w.cell.velGradChanged = false := by rw [htd]; exact h.vgc
  have tnv : t.w.cell.nextVelGrad = 0 := by rw [htd]; exact h.nvg
  have tvg : t.w.cell.velGrad = shrinkGrad := by rw [htd]; exact h.vg
  have hmv0 : (beforeLoop exParams t.w).maxVelocitySq = ((9 / 10) ^ n / 10) ^ 2 := by
    have hne : (![(9 / 10) ^ n, 1, 1] : V3) ≠ ![(9 / 10) ^ (n + 1), 1, 1] := by
      intro e
      have e0 := congrFun e 0
      simp only [Matrix.cons_val_zero, pow_succ] at e0
      have : (0 : ℝ) < (9 / 10) ^ n := by positivity
      linarith
    unfold beforeLoop
    dsimp only
    rw [tvc, tnv]
    simp only [ne_eq, not_true_eq_false, decide_false, Bool.or_false, Bool.false_eq_true, if_false, tprev, tper, tsize, Bool.true_and, hne,
      not_false_eq_true, decide_true, if_true]
    unfold sqNorm dot exParams
    simp [pow_succ]
    ring
  have hle : (0 : ℝ) ≤ ((9 / 10) ^ n / 10) ^ 2 ∧ ((9 / 10 : ℝ) ^ n / 10) ^ 2 ≤ 1 / 100 := by
    constructor
    · positivity
    · have h1 : (9 / 10 : ℝ) ^ n ≤ 1 := pow_le_one₀ (by norm_num) (by norm_num)
      have h0 : (0 : ℝ) ≤ (9 / 10) ^ n := by positivity
      nlinarith
  have hmv : w'.maxVelocitySq = 0.5 := by
    rw [a3, hmv0]
    unfold bump
    rw [hbd]
    dsimp only
    rw [if_pos (Or.inl (by rw [s1]; simp))]
    exact max_eq_right (by linarith [hle.2])
  refine ⟨{ t with w := w' }, ⟨t, w', ht, tact, by unfold colliderTurn; rw [tact]; rfl, a1, rfl⟩, ?_⟩
  obtain ⟨v1, v2, v3⟩ := a10 tvc tnv
  refine ⟨a4.trans tper, a5.trans (by rw [htd]; exact h.sub), a6.trans (by rw [htd]; exact h.mru), a9.trans (by rw [htd]; exact h.homo), v1.trans tvg, v2, v3,
    ?_, ⟨c', by rw [htd], hh'⟩, ⟨{ b with st := st' }, l, by rw [a2]; simp, hk, hsd, his, has, hma, s4.trans hbl, s2.trans hv, ?_⟩, ?_, ?_, ?_⟩
  · have := a7 tper; rw [tsize] at this; exact this
  · dsimp only; rw [hbd, s1]
  · show 0 < w'.maxVelocitySq; rw [hmv]; norm_num
  · show w'.maxVelocitySq < 1; rw [hmv]; norm_num
  · rw [htd]; exact h.stride

/-- the cubic unit cell -/
noncomputable def cubeCell : Cell := { unitCell 1 with hasShear := false, unshear := 1 }

/-- **C111 is false** for slow changes with `homoDeform` 0: there are runs of any length in which the length of the cell along x is
`(9/10)^n` of what it was at the last run of the collider (it falls below any positive number), the Verlet distance being 1/20, and the
collider is never run. -/
theorem C111_violated : ∃ (s0 : Scn) (s : Nat → Scn), Reach s0 ∧ s0.verletDist = 1 / 20 ∧ colliderTurn s0 = colliderAction s0 ∧
    (∃ s1 w', colliderTurn s0 = .ok s1 ∧ Mech.action exParams [0] s1.w = .ok w' ∧ s 0 = { s1 with w := w' }) ∧
    (∀ n, IdleStep (s n) (s (n + 1))) ∧ ∀ n, ∃ c, (s n).cell = some c ∧ norm3 (Peri.col c.hSize 0) = (9 / 10) ^ n := by
  have hv : (0 : ℝ) < 1 / 20 := by norm_num
  have hbx : shapeBox (-1) (some cubeCell) (.sphere (1 / 10)) { exState dofAll 0 with angVel := 0 } = .ok (some (sphereBox (-1) (some cubeCell) (1 / 10) 0)) := rfl
  have hb : (soloRun (some cubeCell) (.sphere (1 / 10)) 0 0 (1 / 20) (sphereBox (-1) (some cubeCell) (1 / 10) 0) shrinkGrad).w.bodies 0 =
    some (soloBod 0 0 (1 / 20)) := by simp [soloRun, World.setBody]
  obtain ⟨w', a1, a2, a3, a4, a5, a6, a7, a8, a9, a10⟩ := foldl_single (P := exParams) hb rfl rfl rfl
  have h0 : Shrunk 0 { soloRun (some cubeCell) (.sphere (1 / 10)) 0 0 (1 / 20) (sphereBox (-1) (some cubeCell) (1 / 10) 0) shrinkGrad with w := w' } := by
    have hper : (beforeLoop exParams (soloRun (some cubeCell) (.sphere (1 / 10)) 0 0 (1 / 20) (sphereBox (-1) (some cubeCell) (1 / 10) 0) shrinkGrad).w).deform.homoDeform = 0 := by
      unfold World.deform beforeLoop; dsimp only; split_ifs <;> rfl
    have hmv0 : (beforeLoop exParams (soloRun (some cubeCell) (.sphere (1 / 10)) 0 0 (1 / 20) (sphereBox (-1) (some cubeCell) (1 / 10) 0) shrinkGrad).w).maxVelocitySq = 0 := by
      unfold beforeLoop; dsimp only; split_ifs <;> rfl
    obtain ⟨s1, s2, -, s4, -⟩ := blocked_step (P := exParams)
      (D := (beforeLoop exParams (soloRun (some cubeCell) (.sphere (1 / 10)) 0 0 (1 / 20) (sphereBox (-1) (some cubeCell) (1 / 10) 0) shrinkGrad).w).deform)
      (I := (soloRun (some cubeCell) (.sphere (1 / 10)) 0 0 (1 / 20) (sphereBox (-1) (some cubeCell) (1 / 10) 0) shrinkGrad).w.extern 0 (soloBod 0 0 (1 / 20)))
      (f := (soloRun (some cubeCell) (.sphere (1 / 10)) 0 0 (1 / 20) (sphereBox (-1) (some cubeCell) (1 / 10) 0) shrinkGrad).w.force 0)
      (m := (soloRun (some cubeCell) (.sphere (1 / 10)) 0 0 (1 / 20) (sphereBox (-1) (some cubeCell) (1 / 10) 0) shrinkGrad).w.torque 0)
      (s := (soloBod 0 0 (1 / 20)).st) rfl (Or.inr hper) rfl rfl rfl
    generalize stepState exParams _ _ _ _ (soloBod 0 0 (1 / 20)).st = st' at a2 a3 s1 s2 s4
    have s1' : st'.pos = 0 := by rw [s1]; simp [soloBod, exBod, exState]
    have hmv : w'.maxVelocitySq = 0.5 := by
      rw [a3, hmv0]
      simp only [bump, soloBod]
      rw [if_pos (Or.inl (by rw [s1']; simp))]
      norm_num
    obtain ⟨v1, v2, v3⟩ := a10 rfl rfl
    refine ⟨a4, a5, a6, a9, v1, v2, v3, (a7 rfl).trans ?_, ⟨cubeCell, rfl, ?_⟩, ⟨{ soloBod 0 0 (1 / 20) with st := st' }, 1 / 20, by simp [a2], rfl, rfl, rfl, rfl, rfl, s4, s2, ?_⟩, ?_, ?_, ⟨rfl, rfl, rfl, rfl, rfl⟩⟩
    · congr 1; funext i; fin_cases i <;> simp [soloRun, World.setBody, soloScn]
    · show (1 : M3) = _
      ext i j; fin_cases i <;> fin_cases j <;> simp
    · dsimp only; rw [s1']; rfl
    · show 0 < w'.maxVelocitySq; rw [hmv]; norm_num
    · show w'.maxVelocitySq < 1; rw [hmv]; norm_num
  choose! nx hn1 hn2 using fun (n : Nat) (s : Scn) (h : Shrunk n s) => shrunk_step h
  let s : Nat → Scn := fun n => Nat.rec
    { soloRun (some cubeCell) (.sphere (1 / 10)) 0 0 (1 / 20) (sphereBox (-1) (some cubeCell) (1 / 10) 0) shrinkGrad with w := w' } (fun n v => nx n v) n
  have hs : ∀ n, Shrunk n (s n) := by
    intro n
    induction n with
    | zero => exact h0
    | succ n ih => exact hn2 n _ ih
  refine ⟨soloScn (some cubeCell) (.sphere (1 / 10)) 0 0 (1 / 20) shrinkGrad, s, solo_init ?_, rfl, ?_, ⟨_, w', solo_collide hv hbx, a1, rfl⟩, fun n => hn1 n _ (hs n), fun n => ?_⟩
  · intro c hc; injection hc with hc; subst hc; exact ⟨rfl, rfl⟩
  · unfold colliderTurn; rw [if_pos (by simp [isActivated, soloScn])]
  · obtain ⟨c, hc, hh⟩ := (hs n).cell
    refine ⟨c, hc, ?_⟩
    rw [hh]
    exact congrFun (norm_diag (by positivity)) 0

end Verif.Stride
