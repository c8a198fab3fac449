import Verif.Mortar.Model
import Verif.Mech.ContactProps
import Mathlib.Tactic.Positivity
import Mathlib.Tactic.FieldSimp
import Mathlib.Tactic.NormNum

/-! # Mortar (C289, C290, C291, C292) -/
namespace Verif.Mortar

open Verif.Mech

/-! ## Strength -/

/-- Specification: strengths of mortar. -/
structure Strength where
  ft : ℝ
  fc : ℝ
  coh : ℝ
  tan : ℝ
  ell : ℝ

/-- Specification: stresses mortar bears: tension, friction with cohesion, and the cap of compression. -/
def Bears (s : Strength) (sn st : ℝ) : Prop := sn ≤ s.ft ∧ st ≤ s.coh - sn * s.tan ∧ sn ^ 2 + s.ell ^ 2 * st ^ 2 ≤ s.fc ^ 2

/-- Strengths of an interaction. -/
def Phys.strength (p : Phys) : Strength := ⟨p.ft, p.fc, p.coh, p.tan, p.ell⟩

theorem fails_iff (p : Phys) (sn st : ℝ) : fails p sn st = false ↔ Bears p.strength sn st := by
  unfold fails Bears Phys.strength
  simp only [Bool.or_eq_false_iff, decide_eq_false_iff_not, gt_iff_lt, not_lt]
  rw [mul_pow]
  constructor
  · rintro ⟨⟨h1, h2⟩, h3⟩; exact ⟨by linarith, by linarith, by linarith⟩
  · rintro ⟨h1, h2, h3⟩; exact ⟨⟨by linarith, by linarith⟩, by linarith⟩

/-- Specification: forces of an elastic spring: the normal force of the depth, and the shear force of the increments, each turned with the contact in later steps. -/
def elasticShear (ks : ℝ) : V3 → List ScGeom → V3
  | F, [] => F
  | F, g :: gs => elasticShear ks (g.rotate F - ks • g.shearInc) gs

/-- Specification: normal and shear stress of an elastic spring. -/
noncomputable def stressN (kn area : ℝ) (g : ScGeom) : ℝ := -(kn * g.pd) / area

/-- Specification: a history the mortar bears: in each of its steps the elastic stresses are borne. -/
def Borne (s : Strength) (kn ks area : ℝ) : V3 → List ScGeom → Prop
  | _, [] => True
  | F, g :: gs => Bears s (stressN kn area g) (norm3 (elasticShear ks F [g]) / area) ∧ Borne s kn ks area (elasticShear ks F [g]) gs

theorem sig_norm {a : ℝ} (ha : 0 < a) (F : V3) : norm3 ((-(1 / a)) • F) = norm3 F / a := by
  have e : sqNorm ((-(1 / a)) • F) = (1 / a) ^ 2 * sqNorm F := by
    simp only [sqNorm, dot, Pi.smul_apply, smul_eq_mul]; ring
  unfold norm3
  rw [e, Real.sqrt_mul (sq_nonneg _), Real.sqrt_sq (by positivity)]
  ring

/-- What stays the same in steps. -/
theorem stress_same (p : Phys) (g : ScGeom) : (stress p g).strength = p.strength ∧ (stress p g).kn = p.kn ∧ (stress p g).ks = p.ks ∧ (stress p g).area = p.area ∧ (stress p g).never = p.never ∧ (stress p g).Fs = elasticShear p.ks p.Fs [g] :=
  ⟨rfl, rfl, rfl, rfl, rfl, rfl⟩

theorem stress_sig {p : Phys} (ha : 0 < p.area) {g : ScGeom} (hn : sqNorm g.normal = 1) :
    (stress p g).sigN = stressN p.kn p.area g ∧ norm3 (stress p g).sigT = norm3 (elasticShear p.ks p.Fs [g]) / p.area := by
  constructor
  · unfold stress stressN
    dsimp only
    have : dot ((p.kn * g.pd) • g.normal) g.normal = p.kn * g.pd * sqNorm g.normal := by
      simp only [sqNorm, dot, Pi.smul_apply, smul_eq_mul]; ring
    rw [this, hn, mul_one]
  · exact sig_norm ha _

theorem go_kept {periodic : Bool} {p : Phys} (ha : 0 < p.area) {g : ScGeom} (hn : sqNorm g.normal = 1) (x1 x2 : V3) :
    (go periodic p g x1 x2).1 = true ↔ p.never = true ∨ Bears p.strength (stressN p.kn p.area g) (norm3 (elasticShear p.ks p.Fs [g]) / p.area) := by
  obtain ⟨e1, e2⟩ := stress_sig ha hn
  have key := fails_iff (stress p g) (stress p g).sigN (norm3 (stress p g).sigT)
  rw [(stress_same p g).1, e1, e2] at key
  unfold go
  dsimp only
  rw [(stress_same p g).2.2.2.2.1, e1, e2]
  cases hv : p.never
  · cases hf : fails (stress p g) (stressN p.kn p.area g) (norm3 (elasticShear p.ks p.Fs [g]) / p.area)
    · simp [key.1 hf]
    · have : ¬ Bears p.strength (stressN p.kn p.area g) (norm3 (elasticShear p.ks p.Fs [g]) / p.area) := fun hb => by rw [key.2 hb] at hf; simp at hf
      simp [this]
  · simp

theorem go_phys (periodic : Bool) (p : Phys) (g : ScGeom) (x1 x2 : V3) : (go periodic p g x1 x2).2.1 = stress p g := by
  unfold go
  dsimp only
  split_ifs <;> rfl

theorem go_loads (periodic : Bool) (p : Phys) (g : ScGeom) (x1 x2 : V3) :
    (go periodic p g x1 x2).2.2 = if (go periodic p g x1 x2).1 then applyLoads ⟨false, false, periodic⟩ g (-(stress p g).Fn - (stress p g).Fs) x1 x2 else Loads.zero := by
  unfold go
  dsimp only
  split_ifs with h h2 h2 <;> simp_all

theorem run_cons (periodic : Bool) (p : Phys) (x : ScGeom × V3 × V3) (xs : List (ScGeom × V3 × V3)) :
    run periodic p (x :: xs) = if (go periodic p x.1 x.2.1 x.2.2).1 then (run periodic (stress p x.1) xs).map fun r => (r.1, (go periodic p x.1 x.2.1 x.2.2).2.2 :: r.2) else none := by
  rw [run, go_phys]

/-- **C289**: an interaction lasts through a history exactly when it never breaks by choice, or the elastic stresses of all steps are borne. -/
theorem C289_lasts (periodic : Bool) : ∀ (xs : List (ScGeom × V3 × V3)) (p : Phys), 0 < p.area → (∀ x ∈ xs, sqNorm x.1.normal = 1) →
    ((run periodic p xs).isSome ↔ p.never = true ∨ Borne p.strength p.kn p.ks p.area p.Fs (xs.map fun x => x.1))
  | [], p, _, _ => by simp [run, Borne]
  | x :: xs, p, ha, hn => by
    rw [run_cons]
    have hk := go_kept (periodic := periodic) ha (hn x (by simp)) x.2.1 x.2.2
    have ih := C289_lasts periodic xs (stress p x.1) ha (fun y hy => hn y (by simp [hy]))
    rw [(stress_same p x.1).1] at ih
    change _ ↔ p.never = true ∨ Borne p.strength p.kn p.ks p.area (elasticShear p.ks p.Fs [x.1]) _ at ih
    rw [List.map_cons]
    unfold Borne
    by_cases h : (go periodic p x.1 x.2.1 x.2.2).1 = true
    · rw [if_pos h, Option.isSome_map, ih]
      have := hk.1 h
      tauto
    · rw [if_neg h]
      have : ¬ _ := fun hh => h (hk.2 hh)
      push Not at this
      simp only [Option.isSome_none, Bool.false_eq_true, false_iff]
      tauto

/-- Specification: forces of an elastic history on the first body, step by step. -/
noncomputable def elasticForces (kn ks : ℝ) : V3 → List ScGeom → List V3
  | _, [] => []
  | F, g :: gs => (-((kn * g.pd) • g.normal) - elasticShear ks F [g]) :: elasticForces kn ks (elasticShear ks F [g]) gs

/-- **C289**: while an interaction lasts, all its forces are those of elastic springs, opposite on both bodies. -/
theorem C289_elastic (periodic : Bool) : ∀ (xs : List (ScGeom × V3 × V3)) (p q : Phys) (ls : List Loads), run periodic p xs = some (q, ls) →
    ls.map (fun l => l.f1) = elasticForces p.kn p.ks p.Fs (xs.map fun x => x.1) ∧ ls.map (fun l => l.f2) = (elasticForces p.kn p.ks p.Fs (xs.map fun x => x.1)).map fun f => -f
  | [], p, q, ls, h => by
    simp only [run, Option.some.injEq, Prod.mk.injEq] at h
    rw [← h.2]
    simp [elasticForces]
  | x :: xs, p, q, ls, h => by
    rw [run_cons] at h
    by_cases hk : (go periodic p x.1 x.2.1 x.2.2).1 = true
    · rw [if_pos hk, Option.map_eq_some_iff] at h
      obtain ⟨r, hr, he⟩ := h
      obtain ⟨-, rfl⟩ := Prod.mk.inj he
      have ih := C289_elastic periodic xs (stress p x.1) r.1 r.2 hr
      have hl := go_loads periodic p x.1 x.2.1 x.2.2
      rw [if_pos hk] at hl
      have hf : (applyLoads ⟨false, false, periodic⟩ x.1 (-(stress p x.1).Fn - (stress p x.1).Fs) x.2.1 x.2.2).f1 = -(stress p x.1).Fn - (stress p x.1).Fs ∧
          (applyLoads ⟨false, false, periodic⟩ x.1 (-(stress p x.1).Fn - (stress p x.1).Fs) x.2.1 x.2.2).f2 = -(-(stress p x.1).Fn - (stress p x.1).Fs) := by
        unfold applyLoads; split_ifs <;> exact ⟨rfl, rfl⟩
      rw [List.map_cons, List.map_cons, List.map_cons, hl, hf.1, hf.2]
      unfold elasticForces
      rw [List.map_cons]
      exact ⟨congrArg _ ih.1, congrArg _ ih.2⟩
    · rw [if_neg hk] at h; simp at h

/-- **C289**: an interaction that breaks exerts no force in that step. -/
theorem C289_broken (periodic : Bool) (p : Phys) (g : ScGeom) (x1 x2 : V3) (h : (go periodic p g x1 x2).1 = false) : (go periodic p g x1 x2).2.2 = Loads.zero := by
  rw [go_loads, h]; simp

/-- A history borne: tension, then compression with shear; and one which is not: more tension. -/
example : Borne ⟨1, 10, 1, 1 / 4, 3⟩ 1 1 1 0 [⟨![1, 0, 0], 0, -1 / 2, 1, 1, 0, 0, 0⟩, ⟨![1, 0, 0], 0, 2, 1, 1, 0, 0, ![0, 1, 0]⟩] ∧ ¬ Borne ⟨1, 10, 1, 1 / 4, 3⟩ 1 1 1 0 [⟨![1, 0, 0], 0, -2, 1, 1, 0, 0, 0⟩] := by
  simp only [Borne, Bears, stressN, elasticShear, ScGeom.rotate, norm3, sqNorm, dot, cross]
  norm_num
  have e : (![0, 1, 0] : V3) 2 = 0 := rfl
  rw [e]
  norm_num

/-! ## The set of stresses borne -/

/-- **C290**: stresses between two that are borne are borne. -/
theorem C290_convex {s : Strength} {n1 t1 n2 t2 : ℝ} (h1 : Bears s n1 t1) (h2 : Bears s n2 t2) {a : ℝ} (ha : 0 ≤ a) (ha1 : a ≤ 1) : Bears s (a * n1 + (1 - a) * n2) (a * t1 + (1 - a) * t2) := by
  obtain ⟨x1, x2, x3⟩ := h1
  obtain ⟨y1, y2, y3⟩ := h2
  have hb : 0 ≤ 1 - a := by linarith
  refine ⟨?_, ?_, ?_⟩
  · have := mul_le_mul_of_nonneg_left x1 ha; have := mul_le_mul_of_nonneg_left y1 hb; linarith
  · have := mul_le_mul_of_nonneg_left x2 ha; have := mul_le_mul_of_nonneg_left y2 hb; linarith
  · have e : (a * n1 + (1 - a) * n2) ^ 2 + s.ell ^ 2 * (a * t1 + (1 - a) * t2) ^ 2 = a * (n1 ^ 2 + s.ell ^ 2 * t1 ^ 2) + (1 - a) * (n2 ^ 2 + s.ell ^ 2 * t2 ^ 2) - a * (1 - a) * ((n1 - n2) ^ 2 + (s.ell * (t1 - t2)) ^ 2) := by ring
    have hp : 0 ≤ a * (1 - a) * ((n1 - n2) ^ 2 + (s.ell * (t1 - t2)) ^ 2) := by positivity
    have := mul_le_mul_of_nonneg_left x3 ha; have := mul_le_mul_of_nonneg_left y3 hb
    rw [e]; linarith

/-- **C290**: without stress nothing breaks, if strengths are not negative; so unloading in proportion never breaks what was borne. -/
theorem C290_unload {s : Strength} (hf : 0 ≤ s.ft) (hc : 0 ≤ s.coh) : Bears s 0 0 ∧ ∀ {n t a : ℝ}, Bears s n t → 0 ≤ a → a ≤ 1 → Bears s (a * n) (a * t) := by
  have h0 : Bears s 0 0 := ⟨hf, by linarith, by have := sq_nonneg s.fc; linarith⟩
  refine ⟨h0, fun h ha ha1 => ?_⟩
  have := C290_convex h h0 ha ha1
  simpa using this

/-- **C290**: the strengths are limits: no normal stress beyond the strengths in tension and compression, and no shear stress beyond the cap, is borne; at pure tension of the strength it is, if cohesion and cap allow it. -/
theorem C290_limits {s : Strength} (hfc : 0 ≤ s.fc) (hell : 0 < s.ell) {n t : ℝ} (h : Bears s n t) : n ≤ s.ft ∧ -s.fc ≤ n ∧ n ≤ s.fc ∧ t ≤ s.fc / s.ell := by
  obtain ⟨h1, -, h3⟩ := h
  have hn : n ^ 2 ≤ s.fc ^ 2 := by nlinarith [sq_nonneg (s.ell * t)]
  have ht : (s.ell * t) ^ 2 ≤ s.fc ^ 2 := by nlinarith [sq_nonneg n]
  have a1 := abs_le_of_sq_le_sq' hn hfc
  have a2 := abs_le_of_sq_le_sq' ht hfc
  refine ⟨h1, a1.1, a1.2, ?_⟩
  rw [le_div_iff₀ hell]; linarith [a2.2]

/-- **C290**: each strength is reached: pure tension, pure shear and pure compression. -/
theorem C290_reached {s : Strength} (hft : 0 ≤ s.ft) (hc : 0 ≤ s.coh) (htan : 0 ≤ s.tan) (hfc : 0 ≤ s.fc) (h1 : s.ft * s.tan ≤ s.coh) (h2 : s.ft ≤ s.fc) (h3 : s.ell ^ 2 * s.coh ^ 2 ≤ s.fc ^ 2) : Bears s s.ft 0 ∧ Bears s 0 s.coh ∧ Bears s (-s.fc) 0 := by
  refine ⟨⟨le_rfl, by linarith, by nlinarith⟩, ⟨hft, by linarith, by linarith⟩, ⟨by linarith, ?_, by linarith⟩⟩
  have := mul_nonneg hfc htan
  linarith

/-- Strengths of the defaults, with the tangent about 0.255 of the angle 0.25, in MPa. -/
example : Bears ⟨1, 10, 1, 255 / 1000, 3⟩ 1 0 ∧ Bears ⟨1, 10, 1, 255 / 1000, 3⟩ (-5) 2 ∧ ¬ Bears ⟨1, 10, 1, 255 / 1000, 3⟩ (-9) 2 := by
  unfold Bears
  norm_num

/-! ## Parameters -/

theorem minRad_comm (a b : ℝ) (h : 0 < a ∨ 0 < b) : minRad a b = minRad b a := by
  unfold minRad
  split_ifs with h1 h2 h2
  · rcases h with h | h <;> linarith
  · rfl
  · rfl
  · exact min_comm _ _

/-- **C291**: parameters do not depend on the order of the bodies. -/
theorem C291_swap (i t : ℤ) (a b : Mat) {r1 r2 : ℝ} (hr : 0 < r1 ∨ 0 < r2) (hid : a.id ≥ 0 → a.id = b.id → a = b) : ip2 none i t a b r1 r2 = ip2 none i t b a r2 r1 := by
  unfold ip2
  dsimp only
  have c1 : b.young * r2 + a.young * r1 = a.young * r1 + b.young * r2 := add_comm _ _
  have c2 : b.young * r2 * b.poisson + a.young * r1 * a.poisson = a.young * r1 * a.poisson + b.young * r2 * b.poisson := add_comm _ _
  rw [c1, c2, minRad_comm r2 r1 hr.symm]
  by_cases hs : a.id ≥ 0 ∧ a.id = b.id
  · obtain rfl := hid hs.1 hs.2
    have e1 : 2 * a.young * r2 * a.young * r1 = 2 * a.young * r1 * a.young * r2 := by ring
    have e2 : 2 * a.young * r2 * a.poisson * a.young * r1 * a.poisson = 2 * a.young * r1 * a.poisson * a.young * r2 * a.poisson := by ring
    rw [e1, e2]
  · have hs' : ¬ (b.id ≥ 0 ∧ b.id = a.id) := fun h => hs ⟨by rw [← h.2]; exact h.1, h.2.symm⟩
    simp only [if_neg hs, if_neg hs']
    have e1 : 2 * b.young * r2 * a.young * r1 = 2 * a.young * r1 * b.young * r2 := by ring
    have e2 : 2 * b.young * r2 * b.poisson * a.young * r1 * a.poisson = 2 * a.young * r1 * a.poisson * b.young * r2 * b.poisson := by ring
    rw [e1, e2, min_comm b.ft, min_comm b.fc, min_comm b.coh, add_comm b.ell, add_comm b.angle, Bool.or_comm b.never]

/-- **C291**: strengths of a contact are those of the weaker material; equal materials give the same whether they are shared or copied. -/
theorem C291_strength {i t : ℤ} {a b : Mat} {r1 r2 : ℝ} (hid : a.id ≥ 0 → a.id = b.id → a = b) {p : Phys} (h : ip2 none i t a b r1 r2 = .ok p) :
    p.ft = min a.ft b.ft ∧ p.fc = min a.fc b.fc ∧ p.coh = min a.coh b.coh ∧ p.ell = (a.ell + b.ell) / 2 ∧ p.tan = Real.tan ((a.angle + b.angle) / 2) ∧ p.never = (a.never || b.never) ∧ p.area = minRad r1 r2 ^ 2 ∧ p.Fs = 0 := by
  unfold ip2 at h
  dsimp only at h
  split_ifs at h with hz hs
  · obtain rfl := (Res.ok.inj h)
    obtain rfl := hid hs.1 hs.2
    simp only [min_self, Bool.or_self]
    refine ⟨trivial, trivial, trivial, by ring, ?_, trivial, trivial, trivial⟩
    congr 1; ring
  · obtain rfl := (Res.ok.inj h)
    dsimp only
    refine ⟨rfl, rfl, rfl, by ring, ?_, rfl, rfl, rfl⟩
    congr 1; ring

/-- **C291, part**: stiffnesses of springs in series, for two bodies with radii.  Missing: bodies without. -/
theorem C291_stiffness_partial {i t : ℤ} {a b : Mat} {r1 r2 : ℝ} (h1 : 0 < r1) (h2 : 0 < r2) (ha : 0 < a.young) (hb : 0 < b.young) (pa : 0 < a.poisson) (pb : 0 < b.poisson) :
    ∃ p, ip2 none i t a b r1 r2 = .ok p ∧ 1 / p.kn = (1 / (a.young * r1) + 1 / (b.young * r2)) / 2 ∧ 1 / p.ks = (1 / (a.young * r1 * a.poisson) + 1 / (b.young * r2 * b.poisson)) / 2 := by
  unfold ip2
  dsimp only
  rw [if_neg (by push Not; exact ⟨by positivity, by positivity⟩)]
  refine ⟨_, rfl, ?_, ?_⟩
  · dsimp only; field_simp; ring
  · dsimp only; field_simp; ring

/-- **C291 fails for bodies without radius**: the area is that of the other body, but there is no stiffness. -/
theorem C291_violated {i t : ℤ} {a b : Mat} {r2 : ℝ} (h2 : 0 < r2) (hb : 0 < b.young) (pb : 0 < b.poisson) : ∃ p, ip2 none i t a b 0 r2 = .ok p ∧ p.area = r2 ^ 2 ∧ p.kn = 0 ∧ p.ks = 0 := by
  unfold ip2
  dsimp only
  rw [if_neg (by push Not; rw [mul_zero, zero_add, zero_mul, zero_add]; exact ⟨by positivity, by positivity⟩)]
  refine ⟨_, rfl, ?_, ?_, ?_⟩
  · simp [minRad]
  · simp
  · simp

/-! ## New contacts -/

/-- **C292, part**: physics which exist are kept, and contacts made before the threshold are those of `C291`.  Missing: contacts made later. -/
theorem C292_kept_partial (p : Phys) (i t : ℤ) (a b : Mat) (r1 r2 : ℝ) : ip2 (some p) i t a b r1 r2 = .ok p := rfl

/-- **C292 fails**: contacts made after the threshold are as cohesive as those made before. -/
theorem C292_violated (i j t : ℤ) (a b : Mat) (r1 r2 : ℝ) (_ : i < t) (_ : t ≤ j) : ip2 none j t a b r1 r2 = ip2 none i t a b r1 r2 := rfl

/-- **C292 fails, a case**: what was broken in tension and made again after the threshold bears tension again. -/
theorem C292_violated_heals {a b : Mat} {r1 r2 : ℝ} (h1 : 0 < r1) (h2 : 0 < r2) (ha : 0 < a.young) (hb : 0 < b.young) (pa : 0 < a.poisson) (pb : 0 < b.poisson) (hft : 0 < a.ft ∧ 0 < b.ft) (hcoh : 0 < a.coh ∧ 0 < b.coh) (hfc : 0 < a.fc ∧ 0 < b.fc)
    (hn : a.never = false ∧ b.never = false) (hid : a.id ≥ 0 → a.id = b.id → a = b) (t : ℤ) (x1 x2 : V3) : ∃ (p : Phys) (g g' : ScGeom), sqNorm g.normal = 1 ∧ sqNorm g'.normal = 1 ∧ ip2 none (t - 1) t a b r1 r2 = .ok p ∧ (go false p g x1 x2).1 = false ∧
      g'.pd < 0 ∧ ip2 none t t a b r1 r2 = .ok p ∧ (go false p g' x1 x2).1 = true ∧ (go false p g' x1 x2).2.2.f1 ≠ 0 := by
  obtain ⟨p, hp, hkn, -⟩ := C291_stiffness_partial (i := t - 1) (t := t) h1 h2 ha hb pa pb
  obtain ⟨e1, e2, e3, -, -, e6, e7, e8⟩ := C291_strength hid hp
  have hkn0 : 0 < p.kn := by
    have : 0 < 1 / p.kn := by rw [hkn]; positivity
    exact one_div_pos.1 this
  have hm : 0 < minRad r1 r2 := by unfold minRad; rw [if_neg (not_le.2 h1), if_neg (not_le.2 h2)]; exact lt_min h1 h2
  have har : 0 < p.area := by rw [e7]; positivity
  have hft0 : 0 < p.ft := by rw [e1]; exact lt_min hft.1 hft.2
  have hfc0 : 0 < p.fc := by rw [e2]; exact lt_min hfc.1 hfc.2
  have hc0 : 0 < p.coh := by rw [e3]; exact lt_min hcoh.1 hcoh.2
  have hnv : p.never = false := by rw [e6, hn.1, hn.2]; rfl
  -- geometry with a given normal stress
  let G : ℝ → ScGeom := fun s => ⟨![1, 0, 0], 0, -(s * p.area / p.kn), r1, r2, 0, 0, 0⟩
  have hG : ∀ s, sqNorm (G s).normal = 1 := fun s => by simp [G, sqNorm, dot]
  have hS : ∀ s, stressN p.kn p.area (G s) = s := fun s => by
    show -(p.kn * -(s * p.area / p.kn)) / p.area = s
    field_simp
  have hT : ∀ s, norm3 (elasticShear p.ks p.Fs [G s]) / p.area = 0 := fun s => by
    have : elasticShear p.ks p.Fs [G s] = 0 := by
      rw [e8]
      apply v3_ext <;> simp [elasticShear, ScGeom.rotate, G, cross]
    rw [this]; simp [norm3, sqNorm, dot]
  -- a small stress
  obtain ⟨s, hs0, hs1, hs2, hs3⟩ : ∃ s : ℝ, 0 < s ∧ s ≤ p.ft ∧ s ≤ p.fc ∧ s * p.tan ≤ p.coh := by
    have hd : 0 < 1 + |p.tan| := by have := abs_nonneg p.tan; linarith
    refine ⟨min (min p.ft p.fc) (p.coh / (1 + |p.tan|)), lt_min (lt_min hft0 hfc0) (div_pos hc0 hd), le_trans (min_le_left _ _) (min_le_left _ _), le_trans (min_le_left _ _) (min_le_right _ _), ?_⟩
    have hle := min_le_right (min p.ft p.fc) (p.coh / (1 + |p.tan|))
    have hpos : 0 < min (min p.ft p.fc) (p.coh / (1 + |p.tan|)) := lt_min (lt_min hft0 hfc0) (div_pos hc0 hd)
    rw [le_div_iff₀ hd] at hle
    have := le_abs_self p.tan
    nlinarith
  have hk := go_kept (periodic := false) har (hG s) x1 x2
  have hkeep : (go false p (G s) x1 x2).1 = true := by
    rw [hk, hS, hT]
    right
    refine ⟨hs1, ?_, ?_⟩
    · show (0 : ℝ) ≤ p.coh - s * p.tan; linarith
    · show s ^ 2 + p.ell ^ 2 * 0 ^ 2 ≤ p.fc ^ 2; nlinarith
  refine ⟨p, G (p.ft + 1), G s, hG _, hG _, hp, ?_, ?_, by rw [← hp]; rfl, hkeep, ?_⟩
  · have hk := go_kept (periodic := false) har (hG (p.ft + 1)) x1 x2
    rw [← Bool.not_eq_true, hk, hS, hT, hnv]
    rintro (h | ⟨h, -⟩)
    · simp at h
    · have : p.ft + 1 ≤ p.ft := h
      linarith
  · show -(s * p.area / p.kn) < 0
    have : 0 < s * p.area / p.kn := by positivity
    linarith
  · rw [go_loads, if_pos hkeep]
    intro h0
    have h00 := congrFun h0 0
    have hFs : (stress p (G s)).Fs = 0 := by
      have : (stress p (G s)).Fs = elasticShear p.ks p.Fs [G s] := rfl
      rw [this, e8]
      apply v3_ext <;> simp [elasticShear, ScGeom.rotate, G, cross]
    have hFn : (stress p (G s)).Fn 0 = -(s * p.area) := by
      show (p.kn * -(s * p.area / p.kn)) * 1 = _
      field_simp
    rw [applyLoads, if_pos (by simp)] at h00
    rw [hFs] at h00
    have : -(stress p (G s)).Fn 0 - 0 = 0 := h00
    rw [hFn] at this
    have : 0 < s * p.area := by positivity
    linarith

/-- **C289**: loads are in balance, periodic or not, for contacts of spheres (with the image of the second body in periodic cells). -/
theorem C289_balanced (periodic : Bool) (p : Phys) (g : ScGeom) (x1 x2 y : V3) (hx : periodic = false → y = x2) (hg : periodic = true → (g.r1 + g.r2 - g.pd) • g.normal = y - x1) : Balanced x1 y (go periodic p g x1 x2).2.2 := by
  rw [go_loads]
  split_ifs with h
  · generalize -(stress p g).Fn - (stress p g).Fs = F
    cases periodic
    · rw [hx rfl, applyLoads, if_pos (by simp)]
      refine ⟨by simp, fun o => ?_⟩
      apply v3_ext <;> simp [loadMoment] <;> ring
    · rw [applyLoads, if_neg (by simp)]
      have hg := hg rfl
      have hy : y = x1 + (g.r1 + g.r2 - g.pd) • g.normal := by rw [hg]; abel
      rw [hy]
      refine ⟨by simp, fun o => ?_⟩
      apply v3_ext <;> simp [loadMoment, cross] <;> ring
  · exact balanced_zero _ _

end Verif.Mortar
