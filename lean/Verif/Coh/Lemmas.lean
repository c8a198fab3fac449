import Verif.Coh.Model
import Verif.Mech.ContactProps

/-!
# Lemmas about cohesive contacts
-/
namespace Verif.Coh

open Verif.Mech

theorem sphereSphere6_geom {factor : ℝ} {old : Option Geom6} {real : Bool} {r1 r2 : ℝ} {s1 s2 : State} {c : GeomCtx}
    {G : Geom6} (h : sphereSphere6 factor old real r1 r2 s1 s2 c = .ok (some G)) :
    sphereSphere factor (old.map (·.g)) real false r1 r2 s1 s2 c = .ok (some G.g) := by
  unfold sphereSphere6 at h
  split at h
  · simp at h
  · simp at h
  · simp at h
  · rename_i g hg
    split at h
    · injection h with h; injection h with h; subst h; exact hg
    · injection h with h; injection h with h; subst h; exact hg

theorem sphereSphere6_none {factor : ℝ} {old : Option Geom6} {real : Bool} {r1 r2 : ℝ} {s1 s2 : State} {c : GeomCtx}
    (h : sphereSphere6 factor old real r1 r2 s1 s2 c = .ok none) :
    sphereSphere factor (old.map (·.g)) real false r1 r2 s1 s2 c = .ok none := by
  unfold sphereSphere6 at h
  split at h
  · simp at h
  · simp at h
  · rename_i hg; exact hg
  · split at h <;> simp at h

theorem ip2Go_g (f : Ip2) (m1 m2 : Mat) (old : Option Phys) (G : Geom6) (s1 s2 : State) :
    (ip2Go f m1 m2 old G s1 s2).2.g = G.g := by
  unfold ip2Go
  cases old with
  | none => simp only; split_ifs <;> rfl
  | some p => simp only; split_ifs <;> rfl

theorem norm3_smul (a : ℝ) (v : V3) : norm3 (a • v) = |a| * norm3 v := by
  rw [norm3, sqNorm_smul, Real.sqrt_mul (sq_nonneg a), Real.sqrt_sq_eq_abs]; rfl

theorem unit_dot {n : V3} (h : sqNorm n = 1) (a : ℝ) : dot n (a • n) = a := by
  rw [dot_smul_right]; unfold sqNorm at h; rw [h, mul_one]

theorem unit_norm {n : V3} (h : sqNorm n = 1) : norm3 n = 1 := by rw [norm3, h, Real.sqrt_one]

theorem scaled_norm {t : V3} {m : ℝ} (hm : 0 ≤ m) (h : norm3 t > m) : norm3 ((m / norm3 t) • t) = m := by
  have ht : 0 < norm3 t := lt_of_le_of_lt hm h
  rw [norm3_smul, abs_of_nonneg (div_nonneg hm ht.le), div_mul_cancel₀ _ ht.ne']

/-- A pass that leaves a real contact behind is a geometry, the functor of physics and the law keeping the contact. -/
theorem pass_real {P : Pair} {f : Ip2} {k k' : Contact} {s1 s2 : State} {c : GeomCtx} {L : Loads}
    (h : pass P f k s1 s2 c = .ok (k', L)) :
    (L = Loads.zero ∧ (k' = ⟨none, none⟩ ∨ (k' = k ∧ (k.geom.isSome && k.phys.isSome) = false))) ∨
    ∃ G : Geom6, sphereSphere6 P.factor k.geom (k.geom.isSome && k.phys.isSome) P.r1 P.r2 s1 s2 c = .ok (some G) ∧
      k' = ⟨some (ip2Go f P.m1 P.m2 k.phys G s1 s2).2, some (lawGo { P.cfg with dt := c.dt }
        (!(k.geom.isSome && k.phys.isSome)) (ip2Go f P.m1 P.m2 k.phys G s1 s2).2
        (ip2Go f P.m1 P.m2 k.phys G s1 s2).1 s1 s2 (s2.pos + c.shift2)).phys⟩ ∧
      (lawGo { P.cfg with dt := c.dt }
        (!(k.geom.isSome && k.phys.isSome)) (ip2Go f P.m1 P.m2 k.phys G s1 s2).2
        (ip2Go f P.m1 P.m2 k.phys G s1 s2).1 s1 s2 (s2.pos + c.shift2)).keep = true ∧
      L = (lawGo { P.cfg with dt := c.dt }
        (!(k.geom.isSome && k.phys.isSome)) (ip2Go f P.m1 P.m2 k.phys G s1 s2).2
        (ip2Go f P.m1 P.m2 k.phys G s1 s2).1 s1 s2 (s2.pos + c.shift2)).loads := by
  unfold pass at h
  simp only at h
  split at h
  · simp at h
  · simp at h
  · injection h with h
    injection h with h1 h2
    left
    refine ⟨h2.symm, ?_⟩
    rw [← h1]
    by_cases hr : (k.geom.isSome && k.phys.isSome) = true
    · rw [if_pos hr]; exact .inl rfl
    · rw [if_neg hr]; exact .inr ⟨rfl, by simpa using hr⟩
  · rename_i G hG
    injection h with h
    injection h with h1 h2
    by_cases hk : (lawGo { P.cfg with dt := c.dt }
        (!(k.geom.isSome && k.phys.isSome)) (ip2Go f P.m1 P.m2 k.phys G s1 s2).2
        (ip2Go f P.m1 P.m2 k.phys G s1 s2).1 s1 s2 (s2.pos + c.shift2)).keep = true
    · rw [if_pos hk] at h1
      exact .inr ⟨G, hG, h1.symm, hk, h2.symm⟩
    · rw [if_neg hk] at h1
      left
      refine ⟨?_, .inl h1.symm⟩
      rw [← h2]
      unfold lawGo at hk ⊢
      split
      · rfl
      · rename_i F unp e
        rw [e] at hk
        simp only at hk
        split_ifs at hk <;> simp at hk

/-- The law, when the normal force holds. -/
theorem lawGo_some {cfg : Cfg} {fresh : Bool} {G : Geom6} {p : Phys} {s1 s2 : State} {x2 : V3} {F unp : ℝ}
    (h : normalPart G.g.pd p = some (F, unp)) :
    (lawGo cfg fresh G p s1 s2 x2).keep = true ∧
    (lawGo cfg fresh G p s1 s2 x2).dissip = (shearPart G.g { p with unp := unp } F (trial cfg G.g p fresh)).2 ∧
    ∃ Mt Mb, (lawGo cfg fresh G p s1 s2 x2).phys =
      { (shearPart G.g { p with unp := unp } F (trial cfg G.g p fresh)).1 with Mt := Mt, Mb := Mb } := by
  unfold lawGo
  rw [h]
  simp only
  split_ifs
  · exact ⟨rfl, rfl, _, _, rfl⟩
  · exact ⟨rfl, rfl, _, _, rfl⟩

theorem lawGo_none {cfg : Cfg} {fresh : Bool} {G : Geom6} {p : Phys} {s1 s2 : State} {x2 : V3}
    (h : normalPart G.g.pd p = none) :
    lawGo cfg fresh G p s1 s2 x2 = ⟨false, p, Loads.zero, 0, 0, 0⟩ := by
  unfold lawGo; rw [h]

theorem lawGo_keep {cfg : Cfg} {fresh : Bool} {G : Geom6} {p : Phys} {s1 s2 : State} {x2 : V3}
    (h : (lawGo cfg fresh G p s1 s2 x2).keep = true) : ∃ F unp, normalPart G.g.pd p = some (F, unp) := by
  cases e : normalPart G.g.pd p with
  | none => rw [lawGo_none e] at h; simp at h
  | some x => exact ⟨x.1, x.2, rfl⟩

theorem normalPart_le {un : ℝ} {p : Phys} {F unp : ℝ} (h : normalPart un p = some (F, unp)) : -F ≤ p.aN := by
  unfold normalPart at h
  simp only at h
  split_ifs at h with h1 h2 h3
  · injection h with h; injection h with h _; linarith
  · injection h with h; injection h with h _; rw [← h]; exact not_lt.mp h2

/-- What shear plasticity does to the stored forces. -/
theorem shearPart_stick {g : ScGeom} {p : Phys} {F : ℝ} {t : V3} (h : ¬ norm3 t > strength p F) :
    shearPart g p F t = ({ p with Fn := F • g.normal, Fs := t }, 0) := by
  unfold shearPart
  simp only
  rw [if_neg (show ¬ norm3 t > strength { p with Fn := F • g.normal, Fs := t } F from h)]

/-- The part of the physics that the shear force never changes. -/
theorem shearPart_same (g : ScGeom) (p : Phys) (F : ℝ) (t : V3) :
    (shearPart g p F t).1.tan = p.tan ∧ (shearPart g p F t).1.kn = p.kn ∧ (shearPart g p F t).1.ks = p.ks ∧
    (shearPart g p F t).1.noFriction = p.noFriction ∧ (shearPart g p F t).1.unp = p.unp ∧
    (shearPart g p F t).1.fragile = p.fragile ∧ (shearPart g p F t).1.initCohesion = p.initCohesion ∧
    (shearPart g p F t).1.momentLaw = p.momentLaw ∧ (shearPart g p F t).1.kr = p.kr ∧
    (shearPart g p F t).1.ktw = p.ktw ∧ (shearPart g p F t).1.maxRoll = p.maxRoll ∧
    (shearPart g p F t).1.maxTwist = p.maxTwist ∧ (shearPart g p F t).1.unpMax = p.unpMax ∧
    (shearPart g p F t).1.Mt = p.Mt ∧ (shearPart g p F t).1.Mb = p.Mb := by
  unfold shearPart
  simp only
  by_cases h : norm3 t > strength { p with Fn := F • g.normal, Fs := t } F
  · rw [if_pos h]
    simp only
    by_cases hb : (p.fragile && !p.broken) = true
    · simp only [hb, if_true]; exact ⟨rfl, rfl, rfl, rfl, rfl, rfl, rfl, rfl, rfl, rfl, rfl, rfl, rfl, rfl, rfl⟩
    · simp only [hb]; exact ⟨rfl, rfl, rfl, rfl, rfl, rfl, rfl, rfl, rfl, rfl, rfl, rfl, rfl, rfl, rfl⟩
  · rw [if_neg h]; exact ⟨rfl, rfl, rfl, rfl, rfl, rfl, rfl, rfl, rfl, rfl, rfl, rfl, rfl, rfl, rfl⟩

theorem strength_nonneg (p : Phys) (F : ℝ) : 0 ≤ strength p F := le_max_left _ _

/-- Sliding, the bond breaking. -/
theorem shearPart_break {g : ScGeom} {p : Phys} {F : ℝ} {t : V3} (h : norm3 t > strength p F)
    (hb : p.fragile = true) (hu : p.broken = false) :
    (shearPart g p F t).1 = { p with broken := true, aN := 0, aS := 0, Fs := (max 0 (F * p.tan) / norm3 t) • t, Fn := if F < 0 then 0 else F • g.normal } := by
  unfold shearPart
  simp only
  rw [if_pos (show norm3 t > strength { p with Fn := F • g.normal, Fs := t } F from h)]
  simp only [hb, hu, Bool.not_false, Bool.and_self, if_true, Phys.breakUp]

/-- Sliding, the bond not breaking. -/
theorem shearPart_slide {g : ScGeom} {p : Phys} {F : ℝ} {t : V3} (h : norm3 t > strength p F)
    (hb : (p.fragile && !p.broken) = false) :
    (shearPart g p F t).1 = { p with Fs := (strength p F / norm3 t) • t, Fn := if F < 0 then 0 else F • g.normal } := by
  unfold shearPart
  simp only
  rw [if_pos (show norm3 t > strength { p with Fn := F • g.normal, Fs := t } F from h)]
  simp only [hb]
  rfl

end Verif.Coh
