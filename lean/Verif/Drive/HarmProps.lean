import Verif.Drive.FieldProps
import Verif.Drive.PedalProps
import Verif.Drive.TableProps
import Mathlib.Analysis.SpecialFunctions.Trigonometric.Deriv
import Mathlib.Analysis.SpecialFunctions.Trigonometric.Bounds
import Mathlib.Analysis.Calculus.Deriv.MeanValue

/-!
# C130 and C131: harmonic motion, and forces from a table
-/
namespace Verif.Drive
open Verif.Mech

/-! ## A bound on the cosine -/

theorem abs_sin_sub (y h : ℝ) (h0 : 0 ≤ h) : |Real.sin (y + h) - Real.sin y| ≤ h := by
  have e : Real.sin (y + h) - Real.sin y = 2 * Real.sin (h / 2) * Real.cos (y + h / 2) := by
    rw [Real.sin_sub_sin]; congr 2 <;> ring_nf
  rw [e, abs_mul, abs_mul, abs_two]
  have h1 := Real.abs_cos_le_one (y + h / 2)
  have h2 : |Real.sin (h / 2)| ≤ h / 2 := by
    have := Real.abs_sin_le_abs (x := h / 2)
    rwa [abs_of_nonneg (by linarith : 0 ≤ h / 2)] at this
  have := abs_nonneg (Real.sin (h / 2))
  nlinarith [abs_nonneg (Real.cos (y + h / 2))]

theorem cos_upper (y : ℝ) {h : ℝ} (h0 : 0 ≤ h) : Real.cos (y + h) - Real.cos y + h * Real.sin y ≤ h ^ 2 / 2 := by
  have hd : ∀ x, HasDerivAt (fun x => x ^ 2 / 2 - (Real.cos (y + x) - Real.cos y + x * Real.sin y))
      (x + (Real.sin (y + x) - Real.sin y)) x := by
    intro x
    have h1 : HasDerivAt (fun x => Real.cos (y + x)) (-Real.sin (y + x) * 1) x :=
      (Real.hasDerivAt_cos (y + x)).comp x ((hasDerivAt_id x).const_add y)
    have h2 : HasDerivAt (fun x : ℝ => x ^ 2 / 2) x x := by
      have := (hasDerivAt_pow 2 x).div_const 2
      simpa using this
    have h3 : HasDerivAt (fun x : ℝ => x * Real.sin y) (1 * Real.sin y) x := (hasDerivAt_id x).mul_const _
    have := h2.sub ((h1.sub_const (Real.cos y)).add h3)
    refine this.congr_deriv ?_
    ring
  have hm : MonotoneOn (fun x => x ^ 2 / 2 - (Real.cos (y + x) - Real.cos y + x * Real.sin y)) (Set.Ici 0) := by
    apply monotoneOn_of_deriv_nonneg (convex_Ici 0)
    · exact fun x _ => (hd x).continuousAt.continuousWithinAt
    · exact fun x _ => (hd x).differentiableAt.differentiableWithinAt
    · intro x hx
      rw [interior_Ici] at hx
      rw [(hd x).deriv]
      have := (abs_le.mp (abs_sin_sub y x (le_of_lt hx))).1
      linarith
  have := hm (Set.mem_Ici.mpr le_rfl) (Set.mem_Ici.mpr h0) h0
  simp at this
  linarith

theorem cos_bound (y h : ℝ) : |Real.cos (y + h) - Real.cos y + h * Real.sin y| ≤ h ^ 2 / 2 := by
  have key : ∀ y {h : ℝ}, 0 ≤ h → |Real.cos (y + h) - Real.cos y + h * Real.sin y| ≤ h ^ 2 / 2 := by
    intro y h h0
    rw [abs_le]
    constructor
    · have := cos_upper (y + Real.pi) h0
      rw [show y + Real.pi + h = (y + h) + Real.pi by ring, Real.cos_add_pi, Real.cos_add_pi, Real.sin_add_pi] at this
      linarith
    · exact cos_upper y h0
  rcases le_total 0 h with h0 | h0
  · exact key y h0
  · have := key (-y) (h := -h) (by linarith)
    rw [show -y + -h = -(y + h) by ring, Real.cos_neg, Real.cos_neg, Real.sin_neg] at this
    rw [show h * Real.sin y = -h * -Real.sin y by ring]
    rw [show h ^ 2 = (-h) ^ 2 by ring]
    exact this

/-! ## C130: harmonic motion -/

/-- Specification: the oscillation along a coordinate axis, amplitude times the cosine of the phase. -/
noncomputable def oscillation (A f fi : V3) (t : ℝ) : V3 := fun i => A i * Real.cos (2 * Real.pi * f i * t + fi i)

theorem harmonic_step (T : V3 → V3 → Quat) {c : Ctx} {P : Params} {ids : List Int} (hr : InRange c ids) {id : Nat}
    (hid : ids.count (id : Int) = 1) (hP : P.dt = c.dt) {w : World} {b : Bod} (hb : Held P w id b)
    (hw : ClumpsOk w) {order : List Nat} (hnd : order.Nodup) (ho : id ∈ order) (A f fi : V3) :
    ∃ w1 w2 b2, (Kin.harmonic A f fi).action T c ids w = .ok (.harmonic A f fi, w1) ∧
      Mech.action P order w1 = .ok w2 ∧ w2.bodies id = some b2 ∧
      b2.st.pos = b.st.pos + c.dt • harmonicVel c A f fi ∧ b2.st.ori = b.st.ori := by
  have hmem : (id : Int) ∈ ids := List.count_pos_iff.mp (by omega)
  obtain ⟨g, hg⟩ : ∃ g : V3 → V3 × V3, g = (fun _ => (harmonicVel c A f fi, 0)) := ⟨_, rfl⟩
  have h1 : (Kin.harmonic A f fi).action T c ids w = .ok (.harmonic A f fi, adds ids g (stops ids w)) := by
    have he : ids.isEmpty = false := by cases ids <;> simp_all
    rw [Kin.action, he, if_neg (by simp), onEach_stops hr, Res.bind_ok, Kin.apply]
    rw [show onEach c (addVel _ 0) ids (stops ids w) = _ from onEach_uniform hr (fun _ => harmonicVel c A f fi) (fun _ => 0) _, hg]
    rfl
  have hb1 : (adds ids g (stops ids w)).bodies id = some (addVel (g b.st.pos).1 (g b.st.pos).2 (stop b)) := by
    simp only [adds, stops, hb.here, Option.map_some, hmem, if_true, hid, one_smul]
    rfl
  have hheld : Held P (adds ids g (stops ids w)) id (addVel (g b.st.pos).1 (g b.st.pos).2 (stop b)) :=
    ⟨hb1, hb.notMember, hb.mine, hb.blocked, hb.moves, hb.unit, hb.aperiodic, hb.noMove⟩
  have hck : ClumpsOk (adds ids g (stops ids w)) := hw.of_sig (adds_stops_sig ids g w)
  have hang : (addVel (g b.st.pos).1 (g b.st.pos).2 (stop b)).st.angVel = (0 : ℝ) • ![0, 0, 1] := by
    simp [addVel, stop, hg]
  obtain ⟨w2, b2, h2, -, h3, h4, h5⟩ := held_step hheld hck order hnd ho exAxis_unit hang
  refine ⟨_, w2, b2, h1, h2, h3, ?_, ?_⟩
  · rw [h4, hP]
    have : (addVel (g b.st.pos).1 (g b.st.pos).2 (stop b)).st.vel = harmonicVel c A f fi := by
      simp [addVel, stop, hg]
    rw [this]
    rfl
  · rw [h5, zero_mul]
    have : ofAngleAxis 0 ![0, 0, 1] = Quat.one := by ext <;> simp [ofAngleAxis, Quat.one]
    rw [this, Quat.one_mul']
    rfl

/-- C130.  The velocity given by the harmonic engine at any time is the derivative of the oscillation. -/
theorem C130_derivative (c : Ctx) (A f fi : V3) (i : Fin 3) :
    HasDerivAt (fun t => oscillation A f fi t i) (harmonicVel c A f fi i) c.time := by
  have h1 : HasDerivAt (fun t : ℝ => 2 * Real.pi * f i * t + fi i) (2 * Real.pi * f i * 1) c.time :=
    ((hasDerivAt_id c.time).const_mul _).add_const _
  have h2 := ((Real.hasDerivAt_cos (2 * Real.pi * f i * c.time + fi i)).comp c.time h1).const_mul (A i)
  refine h2.congr_deriv ?_
  simp only [harmonicVel]
  rw [show f i * 2 * Real.pi * c.time + fi i = 2 * Real.pi * f i * c.time + fi i by ring]
  ring

/-- C130.  Over any number of steps, with time steps that may change, a body with all degrees of freedom blocked and listed once follows the
oscillation: along each axis it is off by at most `|A| (2πf)² / 2` times the sum of the squares of the
time steps, and it does not rotate. -/
theorem C130_motion (T : V3 → V3 → Quat) {ids : List Int} {id : Nat} (hid : ids.count (id : Int) = 1) (A f fi : V3)
    (c : Nat → Ctx) (P : Nat → Params) (order : Nat → List Nat) (W : Nat → World) (B : Nat → Bod) (n : Nat)
    (hr : ∀ k < n, InRange (c k) ids) (hP : ∀ k < n, (P k).dt = (c k).dt)
    (ht : ∀ k < n, (c (k + 1)).time = (c k).time + (c k).dt) (ho : ∀ k < n, (order k).Nodup ∧ id ∈ order k)
    (hw : ∀ k < n, ClumpsOk (W k)) (hb : ∀ k < n, Held (P k) (W k) id (B k)) (hn : (W n).bodies id = some (B n))
    (hp : ∀ k < n, Pass T (c k) (P k) ids (order k) (.harmonic A f fi) id (W k) (W (k + 1))) :
    (B n).st.ori = (B 0).st.ori ∧ ∀ i,
      |(B n).st.pos i - ((B 0).st.pos i + (oscillation A f fi (c n).time i - oscillation A f fi (c 0).time i))| ≤
        |A i| * (2 * Real.pi * f i) ^ 2 / 2 * ∑ k ∈ Finset.range n, (c k).dt ^ 2 := by
  have hB : ∀ k, k ≤ n → (W k).bodies id = some (B k) := by
    intro k hk
    rcases Nat.lt_or_eq_of_le hk with h | rfl
    · exact (hb k h).here
    · exact hn
  suffices h : ∀ m, m ≤ n → (B m).st.ori = (B 0).st.ori ∧ ∀ i,
      |(B m).st.pos i - ((B 0).st.pos i + (oscillation A f fi (c m).time i - oscillation A f fi (c 0).time i))| ≤
        |A i| * (2 * Real.pi * f i) ^ 2 / 2 * ∑ k ∈ Finset.range m, (c k).dt ^ 2 from h n le_rfl
  intro m
  induction m with
  | zero => intro _; simp
  | succ m ih =>
    intro hm
    obtain ⟨ih1, ih2⟩ := ih (by omega)
    have hlt : m < n := by omega
    obtain ⟨w1, w2, b2, h1, h2, h3, h4, h5⟩ := harmonic_step T (hr m hlt) hid (hP m hlt)
      (hb m hlt) (hw m hlt) (ho m hlt).1 (ho m hlt).2 A f fi
    obtain ⟨e1', w1', w2', b2', b', g1, g2, g3, g4, g5, g6⟩ := hp m hlt
    rw [h1] at g1
    injection g1 with g1
    injection g1 with _ g1
    subst g1
    rw [h2] at g2
    injection g2 with g2
    subst g2
    rw [h3] at g3
    injection g3 with g3
    subst g3
    rw [hB (m + 1) hm] at g4
    injection g4 with g4
    subst g4
    refine ⟨by rw [g6, h5, ih1], ?_⟩
    intro i
    have hi := ih2 i
    rw [Finset.sum_range_succ, g5, h4, ht m hlt]
    have hk := cos_bound (2 * Real.pi * f i * (c m).time + fi i) (2 * Real.pi * f i * (c m).dt)
    have hk2 : |A i * (Real.cos (2 * Real.pi * f i * (c m).time + fi i + 2 * Real.pi * f i * (c m).dt) -
        Real.cos (2 * Real.pi * f i * (c m).time + fi i) + 2 * Real.pi * f i * (c m).dt * Real.sin (2 * Real.pi * f i * (c m).time + fi i))| ≤
        |A i| * ((2 * Real.pi * f i * (c m).dt) ^ 2 / 2) := by
      rw [abs_mul]
      exact mul_le_mul_of_nonneg_left hk (abs_nonneg _)
    have e : ((B m).st.pos + (c m).dt • harmonicVel (c m) A f fi) i - ((B 0).st.pos i +
        (oscillation A f fi ((c m).time + (c m).dt) i - oscillation A f fi (c 0).time i)) =
        ((B m).st.pos i - ((B 0).st.pos i + (oscillation A f fi (c m).time i - oscillation A f fi (c 0).time i))) -
        A i * (Real.cos (2 * Real.pi * f i * (c m).time + fi i + 2 * Real.pi * f i * (c m).dt) -
        Real.cos (2 * Real.pi * f i * (c m).time + fi i) + 2 * Real.pi * f i * (c m).dt * Real.sin (2 * Real.pi * f i * (c m).time + fi i)) := by
      simp only [Pi.add_apply, Pi.smul_apply, smul_eq_mul, harmonicVel, oscillation]
      rw [show f i * 2 * Real.pi * (c m).time + fi i = 2 * Real.pi * f i * (c m).time + fi i by ring,
        show 2 * Real.pi * f i * ((c m).time + (c m).dt) + fi i = 2 * Real.pi * f i * (c m).time + fi i + 2 * Real.pi * f i * (c m).dt by ring]
      ring
    rw [e]
    refine le_trans (abs_sub _ _) ?_
    calc _ ≤ _ := add_le_add hi hk2
      _ = _ := by ring

/-- The hypotheses of `C130_motion` are met by a run of the held body. -/
example (T : V3 → V3 → Quat) : ∃ (W : Nat → World) (B : Nat → Bod), Held exParams (W 0) 0 (B 0) ∧ ClumpsOk (W 0) ∧
    (W 1).bodies 0 = some (B 1) ∧ InRange exCtx [0] ∧
    Pass T exCtx exParams [0] [0] (.harmonic ![1, 0, 2] ![3, 0, 1] 0) 0 (W 0) (W 1) := by
  obtain ⟨w1, w2, b2, h1, h2, h3, -, -⟩ := harmonic_step T (c := exCtx) (P := exParams) (ids := [0]) (by decide) (id := 0) (by decide)
    (by simp [exParams, exCtx]) exHeld_held exHeld_clumps (order := [0]) (by decide) (by decide) ![1, 0, 2] ![3, 0, 1] 0
  exact ⟨fun k => if k = 0 then exHeldWorld else w2, fun k => if k = 0 then exHeld else b2, exHeld_held, exHeld_clumps,
    h3, by decide, _, w1, w2, b2, b2, h1, h2, h3, h3, rfl, rfl⟩

/-! ## C131: forces from a table -/

/-- C131.  With a table of strictly increasing times and any direction, the interpolated force engine applies at each time, whatever it
did before (the direction is not zero: the result of normalising a zero vector depends on the version of Eigen), to each listed body that exists, once per listing, a force along the direction of size given by the polyline of
the table, and nothing else. -/
theorem C131_table (times mags : List ℝ) (hs : times.Pairwise (· < ·)) (hlen : mags.length = times.length) (hne : times ≠ [])
    (direction : V3) (_hd : direction ≠ 0) : ∃ f : ℝ → ℝ, (∀ t y, OnCurve times mags t y ↔ y = f t) ∧
      ∀ (c : Ctx) (pos : Nat) (ids : List Int) (w : World), ∃ p w',
        interpForceEngine c times mags false direction pos ids w = .ok (p, w') ∧
        Pushed c w w' (fun j _ => ids.count (j : Int) • (f c.time / norm3 direction) • direction) := by
  obtain ⟨f, h1, h2⟩ := C117_function times mags hs hlen hne
  refine ⟨f, h1, ?_⟩
  intro c pos ids w
  obtain ⟨p, hp⟩ := h2 [c.time] pos
  have hread : ∃ q, reading false c.time times mags pos = .ok (some (f c.time), q) := by
    rw [readings] at hp
    cases hr : reading false c.time times mags pos with
    | throws => rw [hr] at hp; cases hp
    | ub => rw [hr] at hp; cases hp
    | ok x =>
      rw [hr] at hp
      simp [readings] at hp
      exact ⟨x.2, by rw [← hp.1]⟩
  obtain ⟨q, hq⟩ := hread
  obtain ⟨w', e, hpush⟩ := C123_force c (f c.time • normalized direction) ids w
  refine ⟨q, w', ?_, ?_⟩
  · rw [interpForceEngine, hq, Res.bind_ok]
    simp only [e, Res.bind_ok]
  · have : f c.time • normalized direction = (f c.time / norm3 direction) • direction := by
      rw [normalized, smul_smul, mul_one_div]
    rw [this] at hpush
    exact hpush

/-- The hypotheses of `C131_table` are met. -/
example : ([0, 1, 3] : List ℝ).Pairwise (· < ·) ∧ ([5, 7, 5] : List ℝ).length = ([0, 1, 3] : List ℝ).length ∧ (![0, 3, 4] : V3) ≠ 0 := by
  refine ⟨by simp, rfl, fun h => ?_⟩
  have := congrFun h 1
  simp at this

end Verif.Drive
