import Verif.Drive.Kin
import Verif.Mech.NewtonProps
import Verif.Mech.GeomLemmas
import Mathlib.Algebra.BigOperators.Group.List.Basic
import Mathlib.Tactic.Module
import Mathlib.Tactic.Abel

/-!
# What the kinematic engines add to the velocities
-/
namespace Verif.Drive
open Verif.Mech

/-- Ids within the body container. -/
def InRange (c : Ctx) (ids : List Int) : Prop := ∀ id ∈ ids, 0 ≤ id ∧ id < c.size

instance (c : Ctx) (ids : List Int) : Decidable (InRange c ids) := by unfold InRange; infer_instance

/-- The velocities `g` of the position added once per listing. -/
def adds (ids : List Int) (g : V3 → V3 × V3) (w : World) : World :=
  { w with bodies := fun j => (w.bodies j).map fun b =>
      addVel (ids.count (j : Int) • (g b.st.pos).1) (ids.count (j : Int) • (g b.st.pos).2) b }

/-- The listed bodies stopped. -/
def stops (ids : List Int) (w : World) : World :=
  { w with bodies := fun j => (w.bodies j).map fun b => if (j : Int) ∈ ids then stop b else b }

theorem onEach_ub {c : Ctx} {f : Bod → Bod} {ids : List Int} (h : ¬ InRange c ids) (w : World) :
    onEach c f ids w = .ub := by
  induction ids generalizing w with
  | nil => exact absurd (fun _ h => by simp at h) h
  | cons id ids ih =>
    by_cases hid : 0 ≤ id ∧ id < c.size
    · have h' : ¬ InRange c ids := fun hr => h fun i hi => by
        rcases List.mem_cons.mp hi with rfl | hi
        · exact hid
        · exact hr i hi
      simp only [onEach, byId, if_pos hid, Res.bind_ok]
      cases w.bodies id.toNat <;> exact ih h' _
    · simp only [onEach, byId, if_neg hid, Res.bind_ub]

theorem world_bodies_ext {w w' : World} (h : ∀ j, w.bodies j = w'.bodies j)
    (e : { w with bodies := w'.bodies } = w') : w = w' := by
  rw [← e]
  cases w
  simp only [World.mk.injEq, and_true]
  funext j; exact h j

theorem inRange_cons {c : Ctx} {id : Int} {ids : List Int} (h : InRange c (id :: ids)) :
    (0 ≤ id ∧ id < c.size) ∧ InRange c ids :=
  ⟨h id (List.mem_cons_self ..), fun i hi => h i (List.mem_cons_of_mem _ hi)⟩

theorem onEach_adds {c : Ctx} {ids : List Int} (h : InRange c ids) (g : V3 → V3 × V3) (w : World) :
    onEach c (fun b => addVel (g b.st.pos).1 (g b.st.pos).2 b) ids w = .ok (adds ids g w) := by
  induction ids generalizing w with
  | nil =>
    simp only [onEach, adds, List.count_nil, zero_smul]
    congr 1
    refine world_bodies_ext (fun j => ?_) rfl
    cases hj : w.bodies j <;> simp [hj, addVel]
  | cons id ids ih =>
    obtain ⟨h1, h2⟩ := inRange_cons h
    obtain ⟨k, rfl⟩ := Int.eq_ofNat_of_zero_le h1.1
    simp only [onEach, byId, if_pos h1, Res.bind_ok, Int.toNat_natCast]
    cases hb : w.bodies k with
    | none =>
      simp only
      rw [ih h2]
      congr 1
      refine world_bodies_ext (fun j => ?_) rfl
      simp only [adds]
      by_cases e : k = j
      · subst e; simp [hb]
      · have e' : (k : Int) ≠ (j : Int) := fun h => e (by exact_mod_cast h)
        simp [List.count_cons_of_ne e']
    | some b =>
      simp only
      rw [ih h2]
      congr 1
      refine world_bodies_ext (fun j => ?_) rfl
      simp only [adds, World.setBody]
      by_cases e : k = j
      · subst e
        rw [hb, List.count_cons_self]
        simp only [if_true, Option.map_some, addVel, Option.some.injEq, add_smul, one_smul]
        congr 2
        · abel
        · abel
      · have e' : (k : Int) ≠ (j : Int) := fun h => e (by exact_mod_cast h)
        simp [Ne.symm e, List.count_cons_of_ne e']

theorem onEach_stops {c : Ctx} {ids : List Int} (h : InRange c ids) (w : World) :
    onEach c stop ids w = .ok (stops ids w) := by
  induction ids generalizing w with
  | nil =>
    simp only [onEach, stops]
    congr 1
    refine world_bodies_ext (fun j => ?_) rfl
    cases hj : w.bodies j <;> simp [hj]
  | cons id ids ih =>
    obtain ⟨h1, h2⟩ := inRange_cons h
    obtain ⟨k, rfl⟩ := Int.eq_ofNat_of_zero_le h1.1
    simp only [onEach, byId, if_pos h1, Res.bind_ok, Int.toNat_natCast]
    cases hb : w.bodies k with
    | none =>
      simp only
      rw [ih h2]
      congr 1
      refine world_bodies_ext (fun j => ?_) rfl
      simp only [stops]
      by_cases e : k = j
      · subst e; simp [hb]
      · have e' : ¬ (j : Int) = (k : Int) := fun h => e (by exact_mod_cast h.symm)
        simp [Ne.symm e]
    | some b =>
      simp only
      rw [ih h2]
      congr 1
      refine world_bodies_ext (fun j => ?_) rfl
      simp only [stops, World.setBody]
      by_cases e : k = j
      · subst e
        simp [hb, stop]
      · simp [Ne.symm e]

theorem adds_adds (ids : List Int) (g h : V3 → V3 × V3) (w : World) :
    adds ids h (adds ids g w) = adds ids (fun x => g x + h x) w := by
  refine world_bodies_ext (fun j => ?_) rfl
  simp only [adds, Option.map_map]
  congr 1
  funext b
  simp only [Function.comp, addVel, Prod.fst_add, Prod.snd_add, smul_add, add_assoc]

theorem adds_zero (ids : List Int) (w : World) : adds ids 0 w = w := by
  refine world_bodies_ext (fun j => ?_) rfl
  simp only [adds]
  cases w.bodies j <;> simp [addVel]

theorem onEach_uniform {c : Ctx} {ids : List Int} (h : InRange c ids) (f : V3 → V3) (f' : V3 → V3) (w : World) :
    onEach c (fun b => addVel (f b.st.pos) (f' b.st.pos) b) ids w = .ok (adds ids (fun x => (f x, f' x)) w) :=
  onEach_adds h (fun x => (f x, f' x)) w

/-- On ids out of range every engine fails alike, on ids in range every engine adds velocities that
depend on the position of the body and on the forces only. -/
theorem apply_adds (T : V3 → V3 → Quat) (c : Ctx) (ids : List Int) (e : Kin) (F : Nat → V3) :
    ∃ r : Res (Kin × (V3 → V3 × V3)), ∀ w : World, w.force = F →
      e.apply T c ids w = r.bind fun x => .ok (x.1, adds ids x.2 w) := by
  by_cases hr : InRange c ids
  swap
  · have hne : ids.isEmpty = false := by
      cases ids with
      | nil => exact absurd (fun _ h => by simp at h) hr
      | cons a l => rfl
    cases e with
    | translation v a => exact ⟨.ub, fun w _ => by simp [Kin.apply, applyTranslation, onEach_ub hr]⟩
    | harmonic A f fi => exact ⟨.ub, fun w _ => by simp [Kin.apply, onEach_ub hr]⟩
    | rotation r => exact ⟨.ub, fun w _ => by simp [Kin.apply, applyRotation, onEach_ub hr]⟩
    | harmonicRot r A f fi => exact ⟨.ub, fun w _ => by simp [Kin.apply, applyRotation, onEach_ub hr]⟩
    | helix r l t => exact ⟨.ub, fun w _ => by simp [Kin.apply, applyHelix, onEach_ub hr, hne]⟩
    | interpHelix r l t times vals wrap slope pos =>
      cases hrd : reading wrap c.time times vals pos with
      | throws => exact ⟨.throws, fun w _ => by simp [Kin.apply, hrd]⟩
      | ub => exact ⟨.ub, fun w _ => by simp [Kin.apply, hrd]⟩
      | ok x =>
        obtain ⟨y, p⟩ := x
        cases y <;> exact ⟨.ub, fun w _ => by simp [Kin.apply, hrd, applyHelix, onEach_ub hr, hne]⟩
    | servo s =>
      by_cases hu : s.iterPrevStart < 0 ∨ c.iter - s.iterPrevStart ≥ s.iterPeriod
      · have hs : ∀ l w, w.force = F → ∃ rs, sumForces c w l = rs ∧ (∀ w', w'.force = F → sumForces c w' l = rs) := by
          intro l
          induction l with
          | nil => exact fun w _ => ⟨_, rfl, fun _ _ => rfl⟩
          | cons i l ih =>
            intro w hw
            obtain ⟨rs, h1, h2⟩ := ih w hw
            refine ⟨_, rfl, fun w' hw' => ?_⟩
            simp only [sumForces, h1, h2 w' hw', hw, hw']
        by_cases hex : ∃ w : World, w.force = F
        · obtain ⟨w0, hw0⟩ := hex
          obtain ⟨rs, _, h2⟩ := hs ids w0 hw0
          cases rs with
          | throws => exact ⟨.throws, fun w hw => by simp [Kin.apply, applyServo, hu, h2 w hw]⟩
          | ub => exact ⟨.ub, fun w hw => by simp [Kin.apply, applyServo, hu, h2 w hw]⟩
          | ok f => exact ⟨.ub, fun w hw => by
              simp [Kin.apply, applyServo, hu, h2 w hw, applyTranslation, onEach_ub hr]⟩
        · exact ⟨.ub, fun w hw => absurd ⟨w, hw⟩ hex⟩
      · exact ⟨.ub, fun w _ => by simp [Kin.apply, applyServo, hu, applyTranslation, onEach_ub hr]⟩
    | bicycle ω a radius fi => exact ⟨.ub, fun w _ => by simp [Kin.apply, applyBicycle, onEach_ub hr, hne]⟩
  · have hrot : ∀ (r : Rot) (w : World), applyRotation c r ids w = .ok (adds ids (fun x =>
        (if r.rotateAroundZero then aroundZero c r x else 0, r.angularVelocity • r.rotationAxis)) w) := fun r w =>
      onEach_uniform hr (fun x => if r.rotateAroundZero then aroundZero c r x else 0)
        (fun _ => r.angularVelocity • r.rotationAxis) w
    have hconst : ∀ (v ω : V3) (w : World), onEach c (addVel v ω) ids w = .ok (adds ids (fun _ => (v, ω)) w) :=
      fun v ω w => onEach_uniform hr (fun _ => v) (fun _ => ω) w
    have hhelix : ∀ (r : Rot) (lin t : ℝ), ∃ (r' : Rot) (t' : ℝ) (g : V3 → V3 × V3), ∀ w,
        applyHelix c r lin t ids w = .ok (r', t', adds ids g w) := by
      intro r lin t
      by_cases he : ids.isEmpty = true
      · exact ⟨r, t, 0, fun w => by rw [adds_zero]; simp [applyHelix, he]⟩
      · refine ⟨{ r with rotateAroundZero := true }, t + r.angularVelocity * c.dt,
          fun x => (lin • r.rotationAxis, 0) + (aroundZero c { r with rotateAroundZero := true } x,
            r.angularVelocity • r.rotationAxis), fun w => ?_⟩
        simp only [applyHelix, he, Bool.false_eq_true, if_false, hconst, Res.bind_ok, hrot, adds_adds, if_true]
    cases e with
    | translation v a => exact ⟨.ok (.translation v a, fun _ => (v • a, 0)), fun w _ => by
        simp [Kin.apply, applyTranslation, hconst]⟩
    | harmonic A f fi => exact ⟨.ok (.harmonic A f fi, fun _ => (harmonicVel c A f fi, 0)), fun w _ => by
        simp [Kin.apply, hconst]⟩
    | rotation r => exact ⟨.ok (.rotation r, _), fun w _ => by
        simp only [Kin.apply, hrot, Res.bind_ok]; rfl⟩
    | harmonicRot r A f fi => exact ⟨.ok (.harmonicRot _ A f fi, _), fun w _ => by
        simp only [Kin.apply, hrot, Res.bind_ok]; rfl⟩
    | helix r l t =>
      obtain ⟨r', t', g, h⟩ := hhelix r l t
      exact ⟨.ok (.helix r' l t', g), fun w _ => by simp [Kin.apply, h]⟩
    | interpHelix r l t times vals wrap slope pos =>
      cases hrd : reading wrap c.time times vals pos with
      | throws => exact ⟨.throws, fun w _ => by simp [Kin.apply, hrd]⟩
      | ub => exact ⟨.ub, fun w _ => by simp [Kin.apply, hrd]⟩
      | ok x =>
        obtain ⟨y, p⟩ := x
        cases y with
        | none => exact ⟨.ub, fun w _ => by simp [Kin.apply, hrd]⟩
        | some ω =>
          obtain ⟨r', t', g, h⟩ := hhelix { r with angularVelocity := ω } (ω * slope) t
          exact ⟨.ok (.interpHelix r' (ω * slope) t' times vals wrap slope p, g), fun w _ => by
            simp [Kin.apply, hrd, h]⟩
    | servo s =>
      have hs : ∃ rs, ∀ w : World, w.force = F → sumForces c w ids = rs := by
        clear hr hrot hconst hhelix
        induction ids with
        | nil => exact ⟨_, fun _ _ => rfl⟩
        | cons i l ih =>
          obtain ⟨rs, h1⟩ := ih
          exact ⟨_, fun w hw => by simp only [sumForces, h1 w hw, hw]; rfl⟩
      obtain ⟨rs, h2⟩ := hs
      by_cases hu : s.iterPrevStart < 0 ∨ c.iter - s.iterPrevStart ≥ s.iterPeriod
      · cases rs with
        | throws => exact ⟨.throws, fun w hw => by simp [Kin.apply, applyServo, hu, h2 w hw]⟩
        | ub => exact ⟨.ub, fun w hw => by simp [Kin.apply, applyServo, hu, h2 w hw]⟩
        | ok f => exact ⟨.ok (.servo _, _), fun w hw => by
            simp only [Kin.apply, applyServo, if_pos hu, h2 w hw, Res.bind_ok, applyTranslation, hconst]; rfl⟩
      · exact ⟨.ok (.servo _, _), fun w _ => by
            simp only [Kin.apply, applyServo, if_neg hu, Res.bind_ok, applyTranslation, hconst]; rfl⟩
    | bicycle ω a radius fi =>
      by_cases he : ids.isEmpty = true
      · exact ⟨.ok (.bicycle ω a radius fi, 0), fun w _ => by simp [Kin.apply, applyBicycle, he, adds_zero]⟩
      · exact ⟨.ok (.bicycle ω a radius _, _), fun w _ => by
          simp only [Kin.apply, applyBicycle, he, Bool.false_eq_true, if_false, hconst, Res.bind_ok]; rfl⟩

end Verif.Drive
