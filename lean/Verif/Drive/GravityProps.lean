import Verif.Drive.FieldProps
import Verif.Mech.ClumpProps

/-!
# C125: the two ways of applying gravity
-/
namespace Verif.Drive
open Verif.Mech

/-- Specification: total mass of the members of a clump. -/
def memberMass (w : World) (ms : List (Nat × Se3)) : ℝ := (ms.map fun m => (w.bodies m.1).elim 0 (·.st.mass)).sum

/-- Specification: sum of mass times position of the members relative to `x`. -/
def memberMoment (w : World) (x : V3) (ms : List (Nat × Se3)) : V3 :=
  (ms.map fun m => (w.bodies m.1).elim 0 fun b => b.st.mass • (b.st.pos - x)).sum

/-- Specification: the members of a body carry its mass and have their centre of mass at its position
(nothing is asked of a body that is no clump). -/
def Balanced (w : World) (b : Bod) : Prop :=
  ∀ ms, b.kind = .clump ms → memberMass w ms = b.st.mass ∧ memberMoment w b.st.pos ms = 0

/-! ## Auxiliary facts -/

/-- What the gravity engine adds. -/
theorem gravityEngine_eq (c : Ctx) (g : V3) (w : World) :
    gravityEngine c g (fun _ => true) w = .ok (addF (fun j => match w.bodies j with
      | none => 0
      | some b => if j < c.size then (if Kind.isClump b.kind then 0 else b.st.mass • g) else 0) w) := by
  refine overBodies_each _ (fun j b => if Kind.isClump b.kind then 0 else b.st.mass • g) ?_ c.size w
  intro id b w
  cases h : Kind.isClump b.kind with
  | true => simp [single_zero, addF_zero]
  | false => simp [addForceTo_eq]

theorem computeAccel_gravity (g f : V3) {m : ℝ} (hm : m ≠ 0) (bl : Nat) :
    computeAccel 0 (f + m • g) m bl = computeAccel g f m bl := by
  have e : ∀ i, (f + m • g) i / m + (0 : V3) i = f i / m + g i := by
    intro i
    simp only [Pi.add_apply, Pi.smul_apply, smul_eq_mul, Pi.zero_apply, add_zero]
    field_simp
  simp only [computeAccel, e]

theorem linAccel_gravity (P : Params) (D : Deform) (f : V3) (s : State) (hm : s.mass ≠ 0) :
    linAccel { P with gravity := 0 } D (f + s.mass • P.gravity) s = linAccel P D f s := by
  simp only [linAccel, computeAccel_gravity P.gravity f hm]

theorem stepState_gravity (P : Params) (D : Deform) (I : Extern) (f m : V3) (s : State) (hm : s.mass ≠ 0) :
    stepState { P with gravity := 0 } D I (f + s.mass • P.gravity) m s = stepState P D I f m s := by
  simp only [stepState, linAccel_gravity P D f s hm]
  rfl

theorem before_cell (P : Params) (w : World) :
    (beforeLoop P w).cell = (if w.cell.velGradChanged || decide (w.cell.nextVelGrad ≠ 0) then
      { w.cell with velGrad := w.cell.nextVelGrad, velGradChanged := false, nextVelGrad := 0 } else w.cell) ∧
    (beforeLoop P w).prevVelGrad = w.prevVelGrad := by
  unfold beforeLoop
  simp only
  cases hp : w.prevCellSize with
  | none => split_ifs <;> simp [hp]
  | some p =>
    split_ifs <;> (simp only [hp]; split_ifs <;> simp)

theorem before_deform (P : Params) (w : World) (F : Nat → V3) :
    (beforeLoop { P with gravity := 0 } (addF F w)).deform = (beforeLoop P w).deform := by
  have h1 := before_cell { P with gravity := 0 } (addF F w)
  have h2 := before_cell P w
  have e1 : (beforeLoop { P with gravity := 0 } (addF F w)).cell = (beforeLoop P w).cell := h1.1.trans h2.1.symm
  have e2 : (beforeLoop { P with gravity := 0 } (addF F w)).prevVelGrad = (beforeLoop P w).prevVelGrad :=
    h1.2.trans h2.2.symm
  have e3 : (beforeLoop { P with gravity := 0 } (addF F w)).periodic = (beforeLoop P w).periodic :=
    (beforeLoop_frame _ _).2.1.trans (beforeLoop_frame P w).2.1.symm
  simp only [World.deform, e1, e2, e3]

theorem cross_zl (b : V3) : cross 0 b = 0 := by
  apply v3_ext <;> simp

theorem resF_addF (F : Nat → V3) (w : World) (ms : List (Nat × Se3)) :
    resF (addF F w) ms = resF w ms + (ms.map fun m => F m.1).sum := by
  simp only [resF, addF]
  induction ms with
  | nil => simp
  | cons a ms ih => simp only [List.map_cons, List.sum_cons, ih]; abel

/-- The forces on members, and their moment, under gravity. -/
theorem members_gravity {c : Ctx} {g : V3} {w : World} {id : Nat} (ms : List (Nat × Se3))
    (hms : ∀ k ∈ ms.map Prod.fst, k < c.size ∧ ∃ bk, w.bodies k = some bk ∧ bk.kind = .member id) (x : V3)
    (F : Nat → V3) (hF : F = fun j => match w.bodies j with
      | none => 0
      | some b => if j < c.size then (if Kind.isClump b.kind then 0 else b.st.mass • g) else 0) :
    (ms.map fun m => F m.1).sum = memberMass w ms • g ∧
      resT (addF F w) x ms = resT w x ms + cross (memberMoment w x ms) g := by
  have hk : ∀ k ∈ ms.map Prod.fst, ∃ bk, w.bodies k = some bk ∧ F k = bk.st.mass • g := by
    intro k hk
    obtain ⟨h1, bk, h2, h3⟩ := hms k hk
    refine ⟨bk, h2, ?_⟩
    rw [hF]
    simp only [h2, if_pos h1, h3, Kind.isClump, Bool.false_eq_true, if_false]
  clear hms hF
  induction ms with
  | nil => simp [memberMass, memberMoment, resT, cross_zl]
  | cons a ms ih =>
    obtain ⟨i1, i2⟩ := ih fun k h => hk k (by rw [List.map_cons]; exact List.mem_cons_of_mem _ h)
    obtain ⟨bk, h2, h3⟩ := hk a.1 (by simp)
    constructor
    · simp only [memberMass, List.map_cons, List.sum_cons, h2, h3, Option.elim, add_smul] at i1 ⊢
      rw [i1]
    · have e1 : resT (addF F w) x (a :: ms) = (w.torque a.1 + cross (bk.st.pos - x) (w.force a.1 + F a.1)) + resT (addF F w) x ms := by
        simp only [resT, List.map_cons, List.sum_cons, addF, h2]
      have e2 : resT w x (a :: ms) = (w.torque a.1 + cross (bk.st.pos - x) (w.force a.1)) + resT w x ms := by
        simp only [resT, List.map_cons, List.sum_cons, h2]
      have e3 : memberMoment w x (a :: ms) = bk.st.mass • (bk.st.pos - x) + memberMoment w x ms := by
        simp only [memberMoment, List.map_cons, List.sum_cons, h2, Option.elim]
      rw [e1, e2, e3, i2, h3]
      apply v3_ext <;>
      · simp only [Pi.add_apply, cross_zero', cross_one', cross_two', Pi.smul_apply, Pi.sub_apply, smul_eq_mul]
        ring

/-! ## The property -/

/-- C125.  For a body the integrator moves, of non-zero mass and, if it is a clump, balanced, running the gravity
engine and then the integrator without gravity ends in exactly the state that the integrator gives
with the same gravity of its own: with any other forces, damping, blocked degrees of freedom, density
scaling and periodic cell.  Missing: clumps whose mass is not that of their members, see
`C125_violated`. -/
theorem C125_same_partial (c : Ctx) (P : Params) (order : List Nat) (hnd : order.Nodup) (w : World) (hw : ClumpsOk w)
    (hsz : ∀ j b, w.bodies j = some b → j < c.size) {id : Nat} (ho : id ∈ order) {b : Bod} (hb : w.bodies id = some b)
    (hact : w.active b) (hm : b.st.mass ≠ 0) (hbal : Balanced w b) :
    ∃ w1 w2 w3, gravityEngine c P.gravity (fun _ => true) w = .ok w1 ∧
      Mech.action { P with gravity := 0 } order w1 = .ok w2 ∧ Mech.action P order w = .ok w3 ∧
      w2.bodies id = w3.bodies id ∧ (w3.bodies id).isSome := by
  obtain ⟨F, hF⟩ : ∃ F : Nat → V3, F = fun j => match w.bodies j with
      | none => 0
      | some b => if j < c.size then (if Kind.isClump b.kind then 0 else b.st.mass • P.gravity) else 0 := ⟨_, rfl⟩
  have hgr := gravityEngine_eq c P.gravity w
  rw [← hF] at hgr
  have hw1 : ClumpsOk (addF F w) := hw.of_bodies rfl
  have hd := before_deform P w F
  have fr1 := beforeLoop_frame { P with gravity := 0 } (addF F w)
  have fr3 := beforeLoop_frame P w
  have act1 : (beforeLoop { P with gravity := 0 } (addF F w)).active b := ⟨hact.1, by rw [fr1.2.2.2.2.2.2.2]; exact hact.2.1, hact.2.2⟩
  have act3 : (beforeLoop P w).active b := ⟨hact.1, by rw [fr3.2.2.2.2.2.2.2]; exact hact.2.1, hact.2.2⟩
  have h2 := foldl_once { P with gravity := 0 } (beforeLoop { P with gravity := 0 } (addF F w)).deform hnd (hw1.of_bodies fr1.1) ho
    (by rw [fr1.1]; exact hb) act1
  have h3 := foldl_once P (beforeLoop P w).deform hnd (hw.of_bodies fr3.1) ho (by rw [fr3.1]; exact hb) act3
  refine ⟨_, _, _, hgr, action_eq _ order hw1, action_eq P order hw, ?_, ?_⟩
  swap
  · rw [(afterLoop_frame _).1, h3]; rfl
  rw [(afterLoop_frame _).1, (afterLoop_frame _).1, h2, h3, hd]
  congr 1
  have c1 := (stepped_congr { P with gravity := 0 } (beforeLoop P w).deform (w := addF F w)
    (w' := beforeLoop { P with gravity := 0 } (addF F w)) (id := id) (b := b)
    (fun j _ => ⟨by rw [fr1.1], by rw [fr1.2.2.1], by rw [fr1.2.2.2.1]⟩) fr1.2.2.2.2.1 fr1.2.2.2.2.2.1 fr1.2.2.2.2.2.2.1).1
  have c3 := (stepped_congr P (beforeLoop P w).deform (w := w) (w' := beforeLoop P w) (id := id) (b := b)
    (fun j _ => ⟨by rw [fr3.1], by rw [fr3.2.2.1], by rw [fr3.2.2.2.1]⟩) fr3.2.2.2.2.1 fr3.2.2.2.2.2.1 fr3.2.2.2.2.2.2.1).1
  rw [c1, c3]
  have key : totalF (addF F w) id b = totalF w id b + b.st.mass • P.gravity ∧ totalT (addF F w) id b = totalT w id b := by
    have hFid : F id = if Kind.isClump b.kind then 0 else b.st.mass • P.gravity := by
      rw [hF]; simp only [hb, if_pos (hsz id b hb)]
    cases hk : b.kind with
    | member k => exact absurd hact.1 (by simp [hk, Kind.isMember])
    | standalone =>
      constructor
      · simp only [totalF, hk, Kind.members, resF, List.map_nil, List.sum_nil, add_zero]
        show w.force id + F id = _
        rw [hFid, hk]
        rfl
      · simp only [totalT, hk, Kind.members, resT, List.map_nil, List.sum_nil, add_zero]
        rfl
    | clump ms =>
      obtain ⟨hb1, hb2⟩ := hbal ms hk
      have hmem := (hw id b ms hb hk).2
      obtain ⟨m1, m2⟩ := members_gravity (c := c) (g := P.gravity) ms
        (fun k hk' => by obtain ⟨bk, e1, e2⟩ := hmem k hk'; exact ⟨hsz k bk e1, bk, e1, e2⟩) b.st.pos F hF
      constructor
      · simp only [totalF, hk, Kind.members, resF_addF, m1, hb1]
        show w.force id + F id + _ = _
        rw [hFid, hk]
        simp only [Kind.isClump, if_true, add_zero]
        abel
      · simp only [totalT, hk, Kind.members, m2, hb2, cross_zl, add_zero]
        rfl
  unfold stepped
  rw [key.1, key.2]
  have e := stepState_gravity P (beforeLoop P w).deform (w.extern id b) (totalF w id b) (totalT w id b) b.st hm
  have he : (addF F w).extern id b = w.extern id b := rfl
  rw [he, e]

/-- Velocity after a step of a free undamped body in a scene without periodic cell. -/
theorem free_vel (P : Params) (order : List Nat) (hnd : order.Nodup) (w : World) (hw : ClumpsOk w) (hper : w.periodic = false)
    {id : Nat} (ho : id ∈ order) {b : Bod} (hb : w.bodies id = some b) (hact : w.active b) (h0 : b.st.blocked = 0)
    (hd : b.st.isDamped = false) (hds : P.densityScaling = false) (ha : b.aspherical = false) :
    ∃ w' b', Mech.action P order w = .ok w' ∧ w'.bodies id = some b' ∧
      ∀ i, b'.st.vel i = b.st.vel i + P.dt * (totalF w id b i / b.st.mass + P.gravity i) := by
  have fr := beforeLoop_frame P w
  have act : (beforeLoop P w).active b := ⟨hact.1, by rw [fr.2.2.2.2.2.2.2]; exact hact.2.1, hact.2.2⟩
  have h3 := foldl_once P (beforeLoop P w).deform hnd (hw.of_bodies fr.1) ho (by rw [fr.1]; exact hb) act
  refine ⟨_, _, action_eq P order hw, by rw [(afterLoop_frame _).1, h3], ?_⟩
  intro i
  have c3 := (stepped_congr P (beforeLoop P w).deform (w := w) (w' := beforeLoop P w) (id := id) (b := b)
    (fun j _ => ⟨by rw [fr.1], by rw [fr.2.2.1], by rw [fr.2.2.2.1]⟩) fr.2.2.2.2.1 fr.2.2.2.2.2.1 fr.2.2.2.2.2.2.1).1
  rw [c3]
  have hD : (beforeLoop P w).deform.periodic = false := by rw [World.deform, fr.2.1, hper]
  have has : useAspherical P (w.extern id b) b.st = false := by simp [useAspherical, World.extern, ha]
  have hne : b.st.blocked ≠ dofAll := by rw [h0]; decide
  simp only [stepped, stepState, has, if_pos hne, Bool.not_false, if_true]
  rw [(spherical_vel P _ _ _ hD).1, (translate_vel P _ _ _ hD).1]
  simp [linAccel, hD, hd, hds, computeAccel, h0]

/-- A clump of mass 2 (computed from the densities, see `C41_violated_mass`) of two spheres of masses 1
and 5 set by the user. -/
noncomputable def exHeavy : World := { exWorld (fun j =>
  if j = 0 then some (exBod { exState 0 0 with pos := ![1, 0, 0] } (.member 2))
  else if j = 1 then some (exBod { exState 0 0 with pos := ![-1, 0, 0], mass := 5 } (.member 2))
  else if j = 2 then some (exBod { exState 0 0 with mass := 2, isDamped := false }
    (.clump [(0, ⟨![1, 0, 0], Quat.one⟩), (1, ⟨![-1, 0, 0], Quat.one⟩)]))
  else none) with force := fun _ => 0 }

theorem exHeavy_ok : ClumpsOk exHeavy := by
  intro id b ms hb hk
  simp only [exHeavy, exWorld] at hb
  split_ifs at hb with h1 h2 h3
  · injection hb with hb; rw [← hb] at hk; cases hk
  · injection hb with hb; rw [← hb] at hk; cases hk
  · injection hb with hb
    rw [← hb] at hk
    injection hk with hk
    subst hk
    refine ⟨by simp, ?_⟩
    intro k hk
    simp only [List.map_cons, List.map_nil, List.mem_cons, List.not_mem_nil, or_false] at hk
    rcases hk with rfl | rfl
    · exact ⟨_, by simp [exHeavy, exWorld]; rfl, by rw [h3]; rfl⟩
    · exact ⟨_, by simp [exHeavy, exWorld]; rfl, by rw [h3]; rfl⟩

/-- C125 fails for a clump whose mass is not that of its members, as `O.bodies.appendClumped` makes them when the mass
of a sphere was set by hand: the clump at rest falls with velocity -1 after a step of the integrator with
gravity -1, but with -3 after the engine with the same gravity and the integrator without. -/
theorem C125_violated : ∃ (w1 w2 w3 : World) (b2 b3 : Bod), ClumpsOk exHeavy ∧
    gravityEngine ⟨1, 0, 0, 3, true⟩ ![0, 0, -1] (fun _ => true) exHeavy = .ok w1 ∧
    Mech.action exParams [0, 1, 2] w1 = .ok w2 ∧
    Mech.action { exParams with gravity := ![0, 0, -1] } [0, 1, 2] exHeavy = .ok w3 ∧
    w2.bodies 2 = some b2 ∧ w3.bodies 2 = some b3 ∧ b2.st.vel 2 = -3 ∧ b3.st.vel 2 = -1 := by
  obtain ⟨bc, hbc⟩ : ∃ bc, bc = exBod { exState 0 0 with mass := 2, isDamped := false }
    (.clump [(0, ⟨![1, 0, 0], Quat.one⟩), (1, ⟨![-1, 0, 0], Quat.one⟩)]) := ⟨_, rfl⟩
  have hb : exHeavy.bodies 2 = some bc := by rw [hbc]; simp [exHeavy, exWorld]
  have hgr := gravityEngine_eq ⟨1, 0, 0, 3, true⟩ ![0, 0, -1] exHeavy
  obtain ⟨F, hF⟩ : ∃ F : Nat → V3, F = (fun j => match exHeavy.bodies j with
      | none => 0
      | some b => if j < (⟨1, 0, 0, 3, true⟩ : Ctx).size then (if Kind.isClump b.kind then 0 else b.st.mass • ![0, 0, -1]) else 0) :=
    ⟨_, rfl⟩
  rw [← hF] at hgr
  have act : exHeavy.active bc := by rw [hbc]; exact ⟨fun h => h, rfl, rfl⟩
  obtain ⟨w2, b2, h1, h2, h3⟩ := free_vel exParams [0, 1, 2] (by decide) (addF F exHeavy) (exHeavy_ok.of_bodies rfl) rfl
    (id := 2) (by decide) (b := bc) hb act (by rw [hbc]; rfl) (by rw [hbc]; rfl) rfl (by rw [hbc]; rfl)
  obtain ⟨w3, b3, i1, i2, i3⟩ := free_vel { exParams with gravity := ![0, 0, -1] } [0, 1, 2] (by decide) exHeavy exHeavy_ok rfl
    (id := 2) (by decide) (b := bc) hb act (by rw [hbc]; rfl) (by rw [hbc]; rfl) rfl (by rw [hbc]; rfl)
  refine ⟨_, w2, w3, b2, b3, exHeavy_ok, hgr, h1, i1, h2, i2, ?_, ?_⟩
  · rw [h3 2]
    have f0 : F 0 = ![0, 0, -1] := by
      rw [hF]; simp [exHeavy, exWorld, exBod, Kind.isClump, exState]
    have f1 : F 1 = ![0, 0, -5] := by
      rw [hF]; simp [exHeavy, exWorld, exBod, Kind.isClump, exState]
    have f2 : F 2 = 0 := by
      rw [hF]; simp [exHeavy, exWorld, exBod, Kind.isClump, exState]
    have : totalF (addF F exHeavy) 2 bc = ![0, 0, -6] := by
      rw [hbc]
      apply v3_ext <;> simp [totalF, exBod, Kind.members, resF, addF, f0, f1, f2, exHeavy] <;> norm_num
    rw [this, hbc]
    simp [exBod, exState, exParams]; norm_num
  · rw [i3 2]
    have : totalF exHeavy 2 bc = 0 := by
      rw [hbc]; simp [totalF, exBod, Kind.members, resF, exHeavy]
    rw [this, hbc]
    simp [exBod, exState, exParams]

/-- The hypotheses of `C125_same_partial` are met by a balanced clump of two spheres of mass 1, drawn by
other forces as well. -/
noncomputable def exEven : World := exWorld (fun j =>
  if j = 0 then some (exBod { exState 0 0 with pos := ![1, 0, 0] } (.member 2))
  else if j = 1 then some (exBod { exState 0 0 with pos := ![-1, 0, 0] } (.member 2))
  else if j = 2 then some (exBod { exState 0 0 with mass := 2 }
    (.clump [(0, ⟨![1, 0, 0], Quat.one⟩), (1, ⟨![-1, 0, 0], Quat.one⟩)]))
  else none)

example : ∃ w1 w2 w3, gravityEngine ⟨1, 0, 0, 3, true⟩ ![0, 0, -1] (fun _ => true) exEven = .ok w1 ∧
      Mech.action { exParams with gravity := 0 } [0, 1, 2] w1 = .ok w2 ∧
      Mech.action { exParams with gravity := ![0, 0, -1] } [0, 1, 2] exEven = .ok w3 ∧
      w2.bodies 2 = w3.bodies 2 ∧ (w3.bodies 2).isSome := by
  have hok : ClumpsOk exEven := by
    intro id b ms hb hk
    simp only [exEven, exWorld] at hb
    split_ifs at hb with h1 h2 h3
    · injection hb with hb; rw [← hb] at hk; cases hk
    · injection hb with hb; rw [← hb] at hk; cases hk
    · injection hb with hb
      rw [← hb] at hk
      injection hk with hk
      subst hk
      refine ⟨by simp, ?_⟩
      intro k hk
      simp only [List.map_cons, List.map_nil, List.mem_cons, List.not_mem_nil, or_false] at hk
      rcases hk with rfl | rfl
      · exact ⟨_, by simp [exEven, exWorld]; rfl, by rw [h3]; rfl⟩
      · exact ⟨_, by simp [exEven, exWorld]; rfl, by rw [h3]; rfl⟩
  refine C125_same_partial ⟨1, 0, 0, 3, true⟩ { exParams with gravity := ![0, 0, -1] } [0, 1, 2] (by decide) exEven hok ?_ (id := 2) (by decide)
    (b := exBod { exState 0 0 with mass := 2 } (.clump [(0, ⟨![1, 0, 0], Quat.one⟩), (1, ⟨![-1, 0, 0], Quat.one⟩)]))
    (by simp [exEven, exWorld]) ⟨fun h => h, rfl, rfl⟩ (by simp [exBod]) ?_
  · intro j b hb
    simp only [exEven, exWorld] at hb
    split_ifs at hb with h1 h2 h3 <;> simp [*]
  · intro ms hms
    simp only [exBod, Kind.clump.injEq] at hms
    subst hms
    constructor
    · simp [memberMass, exEven, exWorld, exBod, exState]; norm_num
    · apply v3_ext <;> simp [memberMoment, exEven, exWorld, exBod, exState]

end Verif.Drive
