import Verif.Cpm.Model
import Mathlib.Tactic.FieldSimp
import Mathlib.Tactic.Positivity
import Mathlib.Tactic.NormNum

/-!
# Lemmas about the concrete model
-/
namespace Verif.Cpm

open Verif.Mech

theorem material_ok {L : Law} {P : Par} {s t : St} {x : ℝ} {eT : V3} (h : material L P s x eT = .ok t) :
    P.E ≠ 0 ∧ ∃ om, (if P.cohesive then funcG (max (epsNorm P (x + P.iso / P.E) s.epsNPl eT) s.kappa) P.e0 P.ef P.never P.law else .ok 1) = .ok om ∧
      t = { s with
          omega := om, kappa := max (epsNorm P (x + P.iso / P.E) s.epsNPl eT) s.kappa, epsN := x + P.iso / P.E
          epsNPl := (normalLaw L P.E om (x + P.iso / P.E) s.epsNPl).2, epsT := eT
          epsTPl := (shearLaw P.G (yieldT P om (normalLaw L P.E om (x + P.iso / P.E) s.epsNPl).1) eT s.epsTPl).2
          sigN := (normalLaw L P.E om (x + P.iso / P.E) s.epsNPl).1 - P.iso
          sigT := (shearLaw P.G (yieldT P om (normalLaw L P.E om (x + P.iso / P.E) s.epsNPl).1) eT s.epsTPl).1
          resid := residOf P om (max (epsNorm P (x + P.iso / P.E) s.epsNPl eT) s.kappa) } := by
  unfold material at h
  by_cases hE : P.E = 0
  · rw [if_pos hE] at h; cases h
  rw [if_neg hE] at h
  dsimp only at h
  refine ⟨hE, ?_⟩
  rcases ho : (if P.cohesive then funcG (max (epsNorm P (x + P.iso / P.E) s.epsNPl eT) s.kappa) P.e0 P.ef P.never P.law else .ok 1) with om | _ | _
  · rw [ho, Res.bind_ok] at h
    refine ⟨om, rfl, ?_⟩
    by_cases hz : P.cohesive ∧ ¬ max (epsNorm P (x + P.iso / P.E) s.epsNPl eT) s.kappa < P.e0 ∧ P.e0 = 0
    · rw [if_pos hz] at h; cases h
    · rw [if_neg hz] at h; cases h; rfl
  · rw [ho, Res.bind_throws] at h; cases h
  · rw [ho, Res.bind_ub] at h; cases h

theorem go_ok {L : Law} {per : Bool} {P : Par} {s : St} {g : ScGeom} {a b : V3} {o : Out} (h : go L per P s g a b = .ok o) :
    P.refLen ≠ 0 ∧ ∃ t, material L P s (-(-P.refPD + g.pd) / P.refLen) (g.rotate s.epsT + (1 / P.refLen) • g.shearInc) = .ok t ∧
      ((broken L P t ∧ o = ⟨false, t, Loads.zero, 1⟩) ∨
       (¬ broken L P t ∧ o = ⟨true, { t with Fn := t.sigN * P.area, Fs := P.area • t.sigT },
          loadsOf per P g ((t.sigN * P.area) • g.normal + P.area • t.sigT) a b, 0⟩)) := by
  unfold go at h
  by_cases hl : P.refLen = 0
  · rw [if_pos hl] at h; cases h
  rw [if_neg hl] at h
  refine ⟨hl, ?_⟩
  rcases hm : material L P s (-(-P.refPD + g.pd) / P.refLen) (g.rotate s.epsT + (1 / P.refLen) • g.shearInc) with t | _ | _
  · rw [hm, Res.bind_ok] at h
    refine ⟨t, rfl, ?_⟩
    by_cases hb : broken L P t
    · rw [if_pos hb] at h; cases h; exact .inl ⟨hb, rfl⟩
    · rw [if_neg hb] at h; cases h; exact .inr ⟨hb, rfl⟩
  · rw [hm, Res.bind_throws] at h; cases h
  · rw [hm, Res.bind_ub] at h; cases h

/-- A property of the variables which the constitutive law keeps holds through histories. -/
theorem run_ind {L : Law} {per : Bool} {P : Par} (I : St → Prop)
    (hm : ∀ s t x eT, I s → material L P s x eT = .ok t → I t)
    (hF : ∀ s F Fs, I s → I { s with Fn := F, Fs := Fs }) {s t : St} {xs : List (ScGeom × V3 × V3)} (hs : I s)
    (h : run L per P s xs = .ok (some t)) : I t := by
  induction xs generalizing s with
  | nil => unfold run at h; cases h; exact hs
  | cons x xs ih =>
    unfold run at h
    rcases ho : go L per P s x.1 x.2.1 x.2.2 with o | _ | _
    · rw [ho, Res.bind_ok] at h
      by_cases hk : o.keep = true
      · rw [if_pos hk] at h
        obtain ⟨_, t', ht, hb | hb⟩ := go_ok ho
        · rw [hb.2] at hk; cases hk
        · rw [hb.2] at h
          exact ih (hF _ _ _ (hm _ _ _ _ hs ht)) h
      · rw [if_neg hk] at h; cases h
    · rw [ho, Res.bind_throws] at h; cases h
    · rw [ho, Res.bind_ub] at h; cases h

/-- The strength which is left at a strain, as a function of the largest strain. -/
noncomputable def left (P : Par) (k : ℝ) : ℝ := if P.law = 0 then (P.ef - k) / (P.ef - P.e0) else Real.exp (-(k - P.e0) / P.ef)

/-- Parameters for which the damage laws make sense. -/
structure Good (P : Par) : Prop where
  e0 : 0 < P.e0
  law : (P.law = 0 ∧ P.e0 < P.ef) ∨ (P.law = 1 ∧ 0 < P.ef)

/-- Damage as a function of the largest strain. -/
noncomputable def dmg (P : Par) (k : ℝ) : ℝ := if k < P.e0 ∨ P.never then 0 else 1 - left P k * (P.e0 / k)

theorem funcG_eq {P : Par} (hP : Good P) (k : ℝ) : funcG k P.e0 P.ef P.never P.law = .ok (dmg P k) := by
  unfold funcG dmg left
  by_cases h : k < P.e0 ∨ P.never
  · rw [if_pos h, if_pos h]
  rw [if_neg h, if_neg h]
  have hk : P.e0 ≤ k := not_lt.1 fun hh => h (.inl hh)
  have h0 := hP.e0
  have hk0 : k ≠ 0 := ne_of_gt (show 0 < k by linarith)
  rcases hP.law with ⟨hl, he⟩ | ⟨hl, he⟩
  · have hf : P.ef ≠ 0 := ne_of_gt (show 0 < P.ef by linarith)
    have hd : P.ef - P.e0 ≠ 0 := ne_of_gt (show 0 < P.ef - P.e0 by linarith)
    have hd' : 1 - P.e0 / P.ef ≠ 0 := by
      rw [show 1 - P.e0 / P.ef = (P.ef - P.e0) / P.ef by field_simp]
      exact div_ne_zero hd hf
    rw [if_pos hl, if_pos hl, if_neg (by tauto)]
    congr 1
    field_simp
    ring
  · have hl' : ¬ P.law = 0 := by rw [hl]; norm_num
    rw [if_neg hl', if_neg hl', if_pos hl, if_neg (by rintro (h | h); exacts [hk0 h, he.ne' h])]
    congr 1
    ring

theorem left_anti {P : Par} (hP : Good P) {a b : ℝ} (h : a ≤ b) : left P b ≤ left P a := by
  unfold left
  rcases hP.law with ⟨hl, he⟩ | ⟨hl, he⟩
  · rw [if_pos hl, if_pos hl]
    exact div_le_div_of_nonneg_right (by linarith) (by linarith)
  · have hl' : ¬ P.law = 0 := by rw [hl]; norm_num
    rw [if_neg hl', if_neg hl']
    exact Real.exp_le_exp.2 (div_le_div_of_nonneg_right (by linarith) he.le)

/-- Damage does not decrease with the largest strain. -/
theorem dmg_mono {P : Par} (hP : Good P) {a b : ℝ} (h : a ≤ b) : dmg P a ≤ dmg P b := by
  have h0 := hP.e0
  unfold dmg
  by_cases hn : P.never = true
  · simp [hn]
  by_cases ha : a < P.e0
  · rw [if_pos (.inl ha)]
    by_cases hb : b < P.e0
    · rw [if_pos (.inl hb)]
    · rw [if_neg (by tauto)]
      have hb' := not_lt.1 hb
      have hb0 : 0 < b := lt_of_lt_of_le h0 hb'
      have h1 := left_anti hP hb'
      have h2 : left P P.e0 = 1 := by
        unfold left
        rcases hP.law with ⟨hl, he⟩ | ⟨hl, he⟩
        · rw [if_pos hl, div_self (by linarith)]
        · rw [if_neg (by rw [hl]; norm_num)]; simp
      rw [h2] at h1
      have h3 : P.e0 / b ≤ 1 := (div_le_one hb0).2 hb'
      have h4 : 0 < P.e0 / b := div_pos h0 hb0
      nlinarith
  · have hb : ¬ b < P.e0 := by push Not at ha ⊢; linarith
    rw [if_neg (by tauto), if_neg (by tauto)]
    have ha' := not_lt.1 ha
    have ha0 : 0 < a := lt_of_lt_of_le h0 ha'
    have hb0 : 0 < b := by linarith
    have key : left P b * (P.e0 / b) ≤ left P a * (P.e0 / a) := by
      rcases hP.law with ⟨hl, he⟩ | ⟨hl, he⟩
      · have e : ∀ k, 0 < k → left P k * (P.e0 / k) = P.e0 / (P.ef - P.e0) * (P.ef / k - 1) := by
          intro k hk
          have : P.ef - P.e0 ≠ 0 := ne_of_gt (show 0 < P.ef - P.e0 by linarith)
          unfold left; rw [if_pos hl]; field_simp
        rw [e a ha0, e b hb0]
        refine mul_le_mul_of_nonneg_left ?_ (div_nonneg h0.le (by linarith))
        have := div_le_div_of_nonneg_left (show 0 ≤ P.ef by linarith) ha0 h
        linarith
      · refine mul_le_mul (left_anti hP h) (div_le_div_of_nonneg_left h0.le ha0 h) (div_pos h0 hb0).le ?_
        unfold left; rw [if_neg (by rw [hl]; norm_num)]; exact (Real.exp_pos _).le
    linarith

/-- What holds of the variables between steps: the damage is the one of the largest strain, or total for contacts which are not cohesive. -/
structure Sync (P : Par) (s : St) : Prop where
  kappa : 0 ≤ s.kappa
  omega : P.cohesive → s.omega = dmg P s.kappa
  resid : P.cohesive → s.resid = if s.kappa < P.e0 then 1 else (1 - s.omega) * s.kappa / P.e0

theorem sync_init {P : Par} (hP : Good P) : Sync P St.init := by
  refine ⟨le_refl _, fun _ => ?_, fun _ => ?_⟩
  · unfold dmg; rw [if_pos (.inl hP.e0)]; rfl
  · rw [if_pos (by exact hP.e0)]; rfl

theorem sync_material {L : Law} {P : Par} (hP : Good P) {s t : St} {x : ℝ} {eT : V3} (hs : 0 ≤ s.kappa)
    (h : material L P s x eT = .ok t) : Sync P t := by
  obtain ⟨_, om, ho, ht⟩ := material_ok h
  refine ⟨by rw [ht]; exact le_max_of_le_right hs, fun hc => ?_, fun hc => ?_⟩
  · rw [if_pos hc, funcG_eq hP] at ho
    cases ho
    rw [ht]
  · rw [ht]
    dsimp only
    unfold residOf
    rw [if_pos hc]

theorem sync_run {L : Law} {per : Bool} {P : Par} (hP : Good P) {s t : St} {xs : List (ScGeom × V3 × V3)} (hs : Sync P s)
    (h : run L per P s xs = .ok (some t)) : Sync P t :=
  run_ind (Sync P) (fun _ _ _ _ hs h => sync_material hP hs.kappa h) (fun _ _ _ h => ⟨h.kappa, h.omega, h.resid⟩) hs h

theorem norm3_smul (a : ℝ) (v : V3) : norm3 (a • v) = |a| * norm3 v := by
  unfold norm3
  rw [sqNorm_smul, Real.sqrt_mul (sq_nonneg a), Real.sqrt_sq_eq_abs]

end Verif.Cpm
