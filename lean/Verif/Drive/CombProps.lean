import Verif.Drive.KinProps
import Mathlib.Data.List.Perm.Basic
import Mathlib.Data.List.Forall2

/-!
# C119: combined kinematic engines superpose their parts
-/
namespace Verif.Drive
open Verif.Mech

/-- Specification: the velocities of a body. -/
def velocities (w : World) (id : Nat) : V3 × V3 :=
  match w.bodies id with
  | some b => (b.st.vel, b.st.angVel)
  | none => 0

/-- Specification: the body with other velocities. -/
def withVel (b : Bod) (v : V3 × V3) : Bod := { b with st := { b.st with vel := v.1, angVel := v.2 } }

/-! ## Auxiliary facts -/

/-- The parts run without error, given their single results `R`. -/
theorem applyAll_iff (T : V3 → V3 → Quat) (c : Ctx) (ids : List Int) (F : Nat → V3) (R : Kin → Res (Kin × (V3 → V3 × V3)))
    (hR : ∀ e w, w.force = F → e.apply T c ids w = (R e).bind fun x => .ok (x.1, adds ids x.2 w)) (es es' : List KObj)
    (w w' : World) (hw : w.force = F) :
    applyAll T c ids es w = .ok (es', w') ↔
      ∃ l : List (KObj × (V3 → V3 × V3)), List.Forall₂ (fun e x => if e.dead then x = (e, 0) else
          ∃ k, R e.eng = .ok (k, x.2) ∧ x.1 = { e with eng := k }) es l ∧
        es' = l.map Prod.fst ∧ w' = adds ids (l.map Prod.snd).sum w := by
  induction es generalizing es' w with
  | nil =>
    simp only [applyAll]
    constructor
    · intro h
      injection h with h
      injection h with h1 h2
      exact ⟨[], .nil, h1.symm, by simp [adds_zero, h2]⟩
    · rintro ⟨l, hl, rfl, rfl⟩
      cases hl
      simp [adds_zero]
  | cons e es ih =>
    simp only [applyAll]
    by_cases hd : e.dead = true
    · rw [if_pos hd]
      constructor
      · intro h
        cases h' : applyAll T c ids es w with
        | throws => rw [h'] at h; cases h
        | ub => rw [h'] at h; cases h
        | ok x =>
          rw [h'] at h
          injection h with h
          injection h with h1 h2
          obtain ⟨l, a1, a2, a3⟩ := (ih x.1 w hw).mp (by rw [h', ← h2])
          exact ⟨(e, 0) :: l, .cons (by simp [hd]) a1, by rw [← h1, a2]; rfl, by rw [a3]; simp⟩
      · rintro ⟨l, hl, rfl, rfl⟩
        cases hl with
        | @cons a b l1 l2 h1 h2 =>
          rw [if_pos hd] at h1
          subst h1
          rw [(ih (l2.map Prod.fst) w hw).mpr ⟨l2, h2, rfl, by simp⟩]
          rfl
    · rw [if_neg hd, hR e.eng w hw]
      constructor
      · intro h
        cases hr : R e.eng with
        | throws => rw [hr] at h; cases h
        | ub => rw [hr] at h; cases h
        | ok y =>
          rw [hr] at h
          simp only [Res.bind_ok] at h
          cases h' : applyAll T c ids es (adds ids y.2 w) with
          | throws => rw [h'] at h; cases h
          | ub => rw [h'] at h; cases h
          | ok x =>
            rw [h'] at h
            injection h with h
            injection h with h1 h2
            obtain ⟨l, a1, a2, a3⟩ := (ih x.1 (adds ids y.2 w) hw).mp (by rw [h', ← h2])
            refine ⟨({ e with eng := y.1 }, y.2) :: l, .cons ?_ a1, by rw [← h1, a2]; rfl, ?_⟩
            · rw [if_neg hd]; exact ⟨y.1, hr, rfl⟩
            · rw [a3, adds_adds]
              rfl
      · rintro ⟨l, hl, rfl, rfl⟩
        cases hl with
        | @cons a b l1 l2 h1 h2 =>
          rw [if_neg hd] at h1
          obtain ⟨k, hk, hb⟩ := h1
          rw [hk]
          simp only [Res.bind_ok]
          rw [(ih (l2.map Prod.fst) (adds ids b.2 w) hw).mpr ⟨l2, h2, rfl, by rw [adds_adds]; rfl⟩]
          simp [hb]

theorem action_alone {T : V3 → V3 → Quat} {c : Ctx} {ids : List Int} (hne : ids.isEmpty = false) {F : Nat → V3}
    {R : Kin → Res (Kin × (V3 → V3 × V3))}
    (hR : ∀ e w, w.force = F → e.apply T c ids w = (R e).bind fun x => .ok (x.1, adds ids x.2 w)) (hr : InRange c ids) (w : World)
    (hw : w.force = F) {e k : Kin} {g : V3 → V3 × V3} (hk : R e = .ok (k, g)) :
    e.action T c ids w = .ok (k, adds ids g (stops ids w)) := by
  rw [Kin.action, hne, if_neg (by simp), onEach_stops hr, Res.bind_ok, hR e (stops ids w) hw, hk]
  rfl

theorem sum_velocities (ids : List Int) (w : World) {id : Nat} (hid : (id : Int) ∈ ids) {b : Bod}
    (hb : w.bodies id = some b) (gs : List (V3 → V3 × V3)) :
    (adds ids gs.sum (stops ids w)).bodies id =
      some (withVel b (gs.map fun g => velocities (adds ids g (stops ids w)) id).sum) := by
  have h1 : ∀ g : V3 → V3 × V3, (adds ids g (stops ids w)).bodies id =
      some (withVel b (ids.count (id : Int) • g b.st.pos)) := by
    intro g
    simp only [adds, stops, hb, Option.map_some, hid, if_true]
    simp [addVel, stop, withVel]
  have h2 : ∀ g : V3 → V3 × V3, velocities (adds ids g (stops ids w)) id = ids.count (id : Int) • g b.st.pos := by
    intro g
    simp only [velocities, h1, withVel]
  rw [h1]
  simp only [h2]
  congr 2
  induction gs with
  | nil => simp
  | cons g gs ih =>
    simp only [List.sum_cons, List.map_cons, Pi.add_apply, smul_add, ih]

/-! ## The property -/

/-- C119.  When the combined engine runs, each of its parts that is not dead can run alone, and the
velocities of every listed body are the sums of those it gets under the parts alone, whatever the
ids; nothing else of the body changes. -/
theorem C119_sum (T : V3 → V3 → Quat) (c : Ctx) (ids : List Int) (es es' : List KObj) (w w' : World)
    (h : combAction T c ids es w = .ok (es', w')) :
    ∃ ws : List World, List.Forall₂ (fun e w1 => ∃ k, (e : KObj).eng.action T c ids w = .ok (k, w1))
        (es.filter fun e => !e.dead) ws ∧
      (∀ id : Nat, (id : Int) ∈ ids → ∀ b, w.bodies id = some b →
        w'.bodies id = some (withVel b (ws.map fun w1 => velocities w1 id).sum)) ∧
      ∀ id : Nat, (id : Int) ∉ ids ∨ w.bodies id = none → w'.bodies id = w.bodies id := by
  cases he : ids.isEmpty with
  | true =>
    rw [combAction, if_pos he] at h
    injection h with h
    injection h with _ h
    subst h
    have hn : ids = [] := by simpa using he
    subst hn
    refine ⟨(es.filter fun e => !e.dead).map fun _ => w, ?_, by simp, fun _ _ => rfl⟩
    rw [List.forall₂_map_right_iff, List.forall₂_same]
    intro e _
    exact ⟨e.eng, rfl⟩
  | false =>
    rw [combAction, he, if_neg (by simp)] at h
    by_cases hr : InRange c ids
    swap
    · rw [onEach_ub hr] at h; cases h
    rw [onEach_stops hr, Res.bind_ok] at h
    obtain ⟨R, hR⟩ := Classical.skolem.mp (fun e => apply_adds T c ids e w.force)
    obtain ⟨l, h1, -, rfl⟩ := (applyAll_iff T c ids w.force R hR es es' (stops ids w) w' rfl).mp h
    have key : ∃ gs : List (V3 → V3 × V3), gs.sum = (l.map Prod.snd).sum ∧
        List.Forall₂ (fun (e : KObj) g => ∃ k, R e.eng = .ok (k, g)) (es.filter fun e => !e.dead) gs := by
      clear h
      induction h1 with
      | nil => exact ⟨[], rfl, .nil⟩
      | @cons e x es l hx _ ih =>
        obtain ⟨gs, i1, i2⟩ := ih
        by_cases hd : e.dead = true
        · rw [if_pos hd] at hx
          subst hx
          exact ⟨gs, by simp [i1], by simpa [hd] using i2⟩
        · rw [if_neg hd] at hx
          obtain ⟨k, hk, -⟩ := hx
          refine ⟨x.2 :: gs, by simp [i1], ?_⟩
          rw [List.filter_cons, if_pos (by simp [hd])]
          exact .cons ⟨k, hk⟩ i2
    obtain ⟨gs, hs, hf⟩ := key
    refine ⟨gs.map fun g => adds ids g (stops ids w), ?_, ?_, ?_⟩
    · rw [List.forall₂_map_right_iff]
      exact hf.imp fun e g ⟨k, hk⟩ => ⟨k, action_alone he hR hr w rfl hk⟩
    · intro id hid b hb
      rw [← hs, sum_velocities ids w hid hb, List.map_map]
      rfl
    · intro id hid
      simp only [adds, stops]
      cases hb : w.bodies id with
      | none => rfl
      | some b =>
        rcases hid with hid | hid
        · simp [List.count_eq_zero_of_not_mem hid, hid, addVel]
        · rw [hb] at hid; cases hid

/-- C119.  The order of the parts does not matter. -/
theorem C119_order (T : V3 → V3 → Quat) (c : Ctx) (ids : List Int) {es fs : List KObj} (hp : es.Perm fs)
    {es' : List KObj} {w w' : World} (h : combAction T c ids es w = .ok (es', w')) :
    ∃ fs', combAction T c ids fs w = .ok (fs', w') ∧ es'.Perm fs' := by
  cases he : ids.isEmpty with
  | true =>
    rw [combAction, if_pos he] at h
    injection h with h
    injection h with h1 h2
    subst h1 h2
    exact ⟨fs, by rw [combAction, if_pos he], hp⟩
  | false =>
    rw [combAction, he, if_neg (by simp)] at h
    by_cases hr : InRange c ids
    swap
    · rw [onEach_ub hr] at h; cases h
    rw [onEach_stops hr, Res.bind_ok] at h
    obtain ⟨R, hR⟩ := Classical.skolem.mp (fun e => apply_adds T c ids e w.force)
    obtain ⟨l, h1, h2, h3⟩ := (applyAll_iff T c ids w.force R hR es es' (stops ids w) w' rfl).mp h
    obtain ⟨l', h1', hp'⟩ := List.perm_comp_forall₂ hp.symm h1
    refine ⟨l'.map Prod.fst, ?_, ?_⟩
    · rw [combAction, he, if_neg (by simp), onEach_stops hr, Res.bind_ok]
      refine (applyAll_iff T c ids w.force R hR fs _ (stops ids w) w' rfl).mpr ⟨l', h1', rfl, ?_⟩
      rw [h3, (hp'.map Prod.snd).sum_eq]
    · rw [h2]
      exact (hp'.map Prod.fst).symm

/-- Two translations and a dead one. -/
noncomputable def exParts : List KObj :=
  [⟨.translation 2 ![0, 0, 1], [], false⟩, ⟨.translation 1 ![0, 0, 1], [], false⟩, ⟨.translation 5 ![0, 0, 1], [], true⟩]

/-- The hypothesis of `C119_sum` and `C119_order` is met. -/
example (T : V3 → V3 → Quat) : ∃ es' w' b', combAction T exCtx [0] exParts exHeldWorld = .ok (es', w') ∧
    w'.bodies 0 = some b' ∧ b'.st.vel = ![0, 0, 3] := by
  refine ⟨exParts, _, _, rfl, rfl, ?_⟩
  apply v3_ext <;> simp [addVel, stop] <;> norm_num

/-! ## The operator `+` -/

/-- C119, the operator `+`: adding two simple engines gives a new combined engine with the ids of the left one and both as
parts, and changes nothing that was there. -/
theorem C119_plus_partial (h : List Obj) (a b : Nat) (x y : KObj) (ha : h[a]? = some (.kin x)) (hb : h[b]? = some (.kin y)) :
    ∃ h' p, plus h a b = .ok (h', p) ∧ h'[p]? = some (.comb x.ids [a, b]) ∧ h[p]? = none ∧
      ∀ i, i < h.length → h'[i]? = h[i]? := by
  refine ⟨h ++ [.comb x.ids [a, b]], h.length, by simp only [plus, ha, hb], by simp, by simp, fun i hi => ?_⟩
  exact List.getElem?_append_left hi

/-- C119 fails for the operator `+` beyond two engines: `p+c` changes `p` itself, so that `p+d` made
later contains `c` too and is the same object. -/
theorem C119_violated_plus (x : KObj) : ∃ h1 p h2 q h3 r,
    plus [.kin x, .kin x, .kin x, .kin x] 0 1 = .ok (h1, p) ∧ plus h1 p 2 = .ok (h2, q) ∧ plus h2 p 3 = .ok (h3, r) ∧
      q = p ∧ r = p ∧ h3[p]? = some (.comb x.ids [0, 1, 2, 3]) := ⟨_, _, _, _, _, _, rfl, rfl, rfl, rfl, rfl, rfl⟩

/-- C119 fails for the operator `+` with a combined engine on the right: python raises. -/
theorem C119_violated_right (h : List Obj) (a b : Nat) (ids : List Int) (ps : List Nat) (hb : h[b]? = some (.comb ids ps)) :
    plus h a b = .throws := by
  unfold plus
  rw [hb]
  split <;> simp_all

end Verif.Drive
