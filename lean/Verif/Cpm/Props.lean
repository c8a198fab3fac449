import Verif.Cpm.Lemmas
import Verif.Mech.ContactProps

/-!
# Damage and stresses of concrete

C293-C295 and C299.
-/
namespace Verif.Cpm

open Verif.Mech

/-- A geometry at rest with a penetration depth and a shear increment. -/
def geomOf (pd : ℝ) (inc : V3) : ScGeom :=
  { normal := ![1, 0, 0], contactPoint := 0, pd := pd, r1 := 1, r2 := 1, twist := 0, ortho := 0, shearInc := inc }

/-- Parameters of the examples: moduli and limit strain one, strain at fracture two. -/
def par (law : ℤ) : Par :=
  { E := 1, G := 1, tan := 0, coh := 1, e0 := 1, duct := 2, ef := 2, shear := 1, never := false, law := law, iso := 0, cohesive := true,
    area := 1, refLen := 1, refPD := 0, kn := 1, ks := 1 }

theorem par_good0 : Good (par 0) := ⟨by norm_num [par], .inl ⟨rfl, by norm_num [par]⟩⟩
theorem par_good1 : Good (par 1) := ⟨by norm_num [par], .inr ⟨rfl, by norm_num [par]⟩⟩

/-- The default law: nothing is deleted, no plasticity in compression. -/
noncomputable def law0 : Law := ⟨1, 1, 3 / 10⟩

/-! ## C293 -/

/-- Through any history the largest strain and the damage of a cohesive contact do not decrease. -/
theorem C293_grows {L : Law} {per : Bool} {P : Par} (hP : Good P) (hc : P.cohesive = true) {s t : St} {xs ys : List (ScGeom × V3 × V3)}
    (h1 : run L per P St.init xs = .ok (some s)) (h2 : run L per P s ys = .ok (some t)) :
    s.kappa ≤ t.kappa ∧ s.omega ≤ t.omega := by
  have hs := sync_run hP (sync_init hP) h1
  have ht := sync_run hP hs h2
  have hk : s.kappa ≤ t.kappa := by
    refine run_ind (fun u => s.kappa ≤ u.kappa) ?_ (fun _ _ _ h => h) (le_refl _) h2
    intro u v x eT hu hm
    obtain ⟨_, om, _, hv⟩ := material_ok hm
    rw [hv]
    exact le_trans hu (le_max_right _ _)
  exact ⟨hk, by rw [hs.omega hc, ht.omega hc]; exact dmg_mono hP hk⟩

/-- A history: stretched by three, then by one half. -/
example : ∃ s t, run law0 false (par 1) St.init [(geomOf (-3) 0, 0, 0)] = .ok (some s) ∧
    run law0 false (par 1) s [(geomOf (-1 / 2) 0, 0, 0)] = .ok (some t) ∧ s.kappa = 3 ∧ t.kappa = 3 := by
  have e1 : epsNorm (par 1) 3 0 0 = 3 := by simp [epsNorm, par, sqNorm, dot]
  have e2 : epsNorm (par 1) (1 / 2) 0 0 = 1 / 2 := by
    simp [epsNorm, par, sqNorm, dot]
  have key : ∀ s : St, s.epsNPl = 0 → s.epsT = 0 → s.kappa ≤ 3 → ∀ x : ℝ, epsNorm (par 1) x 0 0 = x → (3 : ℝ) ≤ max x s.kappa → max x s.kappa ≤ 3 →
      ∃ t, run law0 false (par 1) s [(geomOf (-x) 0, 0, 0)] = .ok (some t) ∧ t.kappa = 3 ∧ (0 < x → t.epsNPl = 0) ∧ t.epsT = 0 := by
    intro s hp hT hs x hx h3 h3'
    have hk : max x s.kappa = 3 := le_antisymm h3' h3
    have hx0 : 0 ≤ x := by rw [← hx]; exact Real.sqrt_nonneg _
    obtain ⟨t, ht⟩ : ∃ t, material law0 (par 1) s x 0 = .ok t := by
      unfold material
      rw [if_neg (by norm_num [par])]
      dsimp only
      rw [if_pos (by rfl), funcG_eq par_good1, Res.bind_ok, if_neg (by norm_num [par])]
      exact ⟨_, rfl⟩
    obtain ⟨_, om, ho, ht'⟩ := material_ok ht
    rw [if_pos (by rfl), funcG_eq par_good1] at ho
    have hi : x + (par 1).iso / (par 1).E = x := by simp [par]
    rw [hi, hp, hx, hk] at ho ht'
    cases ho
    have hr : (geomOf (-x) 0).rotate s.epsT + (1 / (par 1).refLen) • (geomOf (-x) 0).shearInc = 0 := by
      rw [hT]; apply v3_ext <;> simp [ScGeom.rotate, geomOf]
    have hn : -(-(par 1).refPD + (geomOf (-x) 0).pd) / (par 1).refLen = x := by simp [par, geomOf]
    have hb : ¬ broken law0 (par 1) t := by
      rintro ⟨_, ⟨_, h⟩ | h⟩
      · rw [ht'] at h
        dsimp only at h
        unfold dmg left at h
        norm_num [par, law0] at h
        linarith [Real.exp_pos (-1 : ℝ)]
      · exact h rfl
    refine ⟨{ t with Fn := t.sigN * (par 1).area, Fs := (par 1).area • t.sigT }, ?_, ?_, ?_, ?_⟩
    · unfold run
      have : go law0 false (par 1) s (geomOf (-x) 0) 0 0 = .ok ⟨true, { t with Fn := t.sigN * (par 1).area, Fs := (par 1).area • t.sigT }, loadsOf false (par 1) (geomOf (-x) 0) ((t.sigN * (par 1).area) • (geomOf (-x) 0).normal + (par 1).area • t.sigT) 0 0, 0⟩ := by
        unfold go
        rw [if_neg (by norm_num [par]), hr, hn, ht, Res.bind_ok, if_neg hb]
      rw [this, Res.bind_ok, if_pos rfl]
      unfold run
      rfl
    · rw [ht']
    · intro _
      rw [ht']
      dsimp only
      unfold normalLaw
      rw [if_neg (by norm_num [law0])]
    · rw [ht']
  obtain ⟨s, h1, h2, h3, h4⟩ := key St.init rfl rfl (by norm_num [St.init]) 3 e1 (le_max_left _ _) (by norm_num [St.init])
  obtain ⟨t, g1, g2, _⟩ := key s (h3 (by norm_num)) h4 (by rw [h2]) (1 / 2) e2 (by rw [h2]; exact le_max_right _ _) (by rw [h2]; norm_num)
  refine ⟨s, t, h1, ?_, h2, g2⟩
  rw [show (-1 / 2 : ℝ) = -(1 / 2) by norm_num]
  exact g1

/-- Each step makes the largest strain the maximum of itself and of the equivalent strain, and nothing else contributes. -/
theorem C293_largest {L : Law} {P : Par} {s t : St} {x : ℝ} {eT : V3} (h : material L P s x eT = .ok t) :
    t.kappa = max s.kappa (Real.sqrt (max (t.epsN - s.epsNPl) 0 ^ 2 + P.shear ^ 2 * (eT 0 ^ 2 + eT 1 ^ 2 + eT 2 ^ 2))) ∧
      t.epsN = x + P.iso / P.E ∧ t.epsT = eT := by
  obtain ⟨_, om, _, ht⟩ := material_ok h
  refine ⟨?_, by rw [ht], by rw [ht]⟩
  rw [ht, max_comm]
  simp only [epsNorm, sqNorm, dot, sq]

/-- With exponential softening damage lies between nothing and total, which is not reached, and so does the strength left; there is no damage
below the limit strain. -/
theorem C293_range_partial {L : Law} {per : Bool} {P : Par} (hP : Good P) (hl : P.law = 1) (hn : P.never = false) (hc : P.cohesive = true)
    {t : St} {xs : List (ScGeom × V3 × V3)} (h : run L per P St.init xs = .ok (some t)) :
    0 ≤ t.omega ∧ t.omega < 1 ∧ 0 < t.resid ∧ t.resid ≤ 1 ∧ (t.kappa < P.e0 → t.omega = 0 ∧ t.resid = 1) ∧
      (P.e0 ≤ t.kappa → t.resid = Real.exp (-(t.kappa - P.e0) / P.ef)) := by
  have ht := sync_run hP (sync_init hP) h
  have ho := ht.omega hc
  have hr := ht.resid hc
  have h0 := hP.e0
  have he : 0 < P.ef := by
    rcases hP.law with ⟨hh, _⟩ | ⟨_, he⟩
    · rw [hl] at hh; norm_num at hh
    · exact he
  by_cases hk : t.kappa < P.e0
  · rw [if_pos hk] at hr
    rw [dmg, if_pos (.inl hk)] at ho
    refine ⟨ho.ge, by rw [ho]; norm_num, by rw [hr]; norm_num, hr.le, fun _ => ⟨ho, hr⟩, fun hh => absurd hh (not_le.2 hk)⟩
  · rw [if_neg hk] at hr
    have hk' := not_lt.1 hk
    have hk0 : 0 < t.kappa := by linarith
    rw [dmg, if_neg (by simp [hk, hn])] at ho
    have hL : left P t.kappa = Real.exp (-(t.kappa - P.e0) / P.ef) := by unfold left; rw [if_neg (by rw [hl]; norm_num)]
    rw [hL] at ho
    have e1 : Real.exp (-(t.kappa - P.e0) / P.ef) ≤ 1 := Real.exp_le_one_iff.2 (div_nonpos_of_nonpos_of_nonneg (by linarith) he.le)
    have e0 := Real.exp_pos (-(t.kappa - P.e0) / P.ef)
    have q0 : 0 < P.e0 / t.kappa := div_pos h0 hk0
    have q1 : P.e0 / t.kappa ≤ 1 := (div_le_one hk0).2 hk'
    have hres : t.resid = Real.exp (-(t.kappa - P.e0) / P.ef) := by
      rw [hr, ho]; field_simp; ring
    refine ⟨by rw [ho]; nlinarith, by rw [ho]; nlinarith [mul_pos e0 q0], by rw [hres]; exact e0, by rw [hres]; exact e1,
      fun hh => absurd hh hk, fun _ => hres⟩

/-- With exponential softening and the threshold one or more, cohesive contacts are not deleted. -/
theorem C293_kept_partial {L : Law} {per : Bool} {P : Par} (hP : Good P) (hl : P.law = 1) (hc : P.cohesive = true) (hL : 1 ≤ L.threshold)
    {s : St} (hs : 0 ≤ s.kappa) {g : ScGeom} {a b : V3} {o : Out} (h : go L per P s g a b = .ok o) : o.keep = true ∧ o.nBroken = 0 := by
  obtain ⟨_, t, ht, ⟨hb, _⟩ | ⟨_, ho⟩⟩ := go_ok h
  · exfalso
    have h1 := (sync_material hP hs ht).omega hc
    obtain ⟨_, ⟨_, h2⟩ | h2⟩ := hb
    · rw [h1] at h2
      have he : 0 < P.ef := by
        rcases hP.law with ⟨hh, _⟩ | ⟨_, he⟩
        · rw [hl] at hh; norm_num at hh
        · exact he
      unfold dmg at h2
      split_ifs at h2 with hk
      · linarith
      · have hk' : P.e0 ≤ t.kappa := not_lt.1 fun hh => hk (.inl hh)
        have h3 : 0 < left P t.kappa := by unfold left; rw [if_neg (by rw [hl]; norm_num)]; exact Real.exp_pos _
        have h4 := mul_pos h3 (div_pos hP.e0 (lt_of_lt_of_le hP.e0 hk'))
        linarith
    · exact h2 hc
  · rw [ho]; exact ⟨rfl, rfl⟩

/-- Not with linear softening: a contact sheared beyond the strain at fracture is kept with damage larger than one, and negative strength. -/
theorem C293_violated : ∃ t, run law0 false (par 0) St.init [(geomOf 0 ![0, 4, 0], 0, 0)] = .ok (some t) ∧ t.omega = 3 / 2 ∧ t.resid = -2 := by
  have hr : (geomOf 0 ![0, 4, 0]).rotate St.init.epsT + (1 / (par 0).refLen) • (geomOf 0 ![0, 4, 0]).shearInc = ![0, 4, 0] := by
    apply v3_ext <;> simp [ScGeom.rotate, geomOf, St.init, par]
  have hn : -(-(par 0).refPD + (geomOf 0 ![0, 4, 0]).pd) / (par 0).refLen = 0 := by simp [par, geomOf]
  have hi : (0 : ℝ) + (par 0).iso / (par 0).E = 0 := by simp [par]
  have hk : max (epsNorm (par 0) 0 St.init.epsNPl ![0, 4, 0]) St.init.kappa = 4 := by
    have : epsNorm (par 0) 0 St.init.epsNPl ![0, 4, 0] = 4 := by
      simp [epsNorm, par, sqNorm, dot, St.init]
    rw [this]; norm_num [St.init]
  obtain ⟨t, ht⟩ : ∃ t, material law0 (par 0) St.init 0 ![0, 4, 0] = .ok t := by
    unfold material
    rw [if_neg (by norm_num [par])]
    dsimp only
    rw [if_pos (by rfl), funcG_eq par_good0, Res.bind_ok, if_neg (by norm_num [par])]
    exact ⟨_, rfl⟩
  obtain ⟨_, om, ho, ht'⟩ := material_ok ht
  rw [if_pos (by rfl), funcG_eq par_good0, hi, hk] at ho
  have hom : om = 3 / 2 := by
    cases ho
    unfold dmg left; norm_num [par]
  rw [hi, hk, hom] at ht'
  have hb : ¬ broken law0 (par 0) t := by
    rintro ⟨h, _⟩
    rw [ht'] at h
    exact lt_irrefl _ h
  refine ⟨{ t with Fn := t.sigN * (par 0).area, Fs := (par 0).area • t.sigT }, ?_, by rw [ht'], ?_⟩
  · unfold run go
    dsimp only
    rw [if_neg (by norm_num [par]), hr, hn, ht, Res.bind_ok, if_neg hb, Res.bind_ok, if_pos rfl]
    unfold run
    rfl
  · rw [ht']
    dsimp only
    unfold residOf
    norm_num [par]

/-- A contact is deleted where it is stretched and either is not cohesive or its damage is beyond the threshold, and nowhere else; then it exerts nothing
and each body counts one more broken contact. -/
theorem C293_deleted {L : Law} {per : Bool} {P : Par} {s : St} {g : ScGeom} {a b : V3} {o : Out} (h : go L per P s g a b = .ok o) :
    (o.keep = false ↔ 0 < o.st.epsN ∧ (P.cohesive = true → L.threshold < o.st.omega)) ∧
      (o.keep = false → o.loads = Loads.zero ∧ o.nBroken = 1) ∧ (o.keep = true → o.nBroken = 0) := by
  have e : ∀ t : St, broken L P t ↔ 0 < t.epsN ∧ (P.cohesive = true → L.threshold < t.omega) := by
    intro t
    unfold broken
    cases P.cohesive <;> simp
  obtain ⟨_, t, _, ⟨hb, ho⟩ | ⟨hb, ho⟩⟩ := go_ok h
  · rw [ho]
    exact ⟨⟨fun _ => (e t).1 hb, fun _ => rfl⟩, fun _ => ⟨rfl, rfl⟩, fun hh => (by cases hh)⟩
  · rw [ho]
    exact ⟨⟨fun hh => (by cases hh), fun hh => absurd ((e t).2 hh) hb⟩, fun hh => (by cases hh), fun _ => rfl⟩

/-- A contact sheared beyond the strain at fracture. -/
example : ∃ o, go law0 false (par 0) St.init (geomOf 0 ![0, 4, 0]) 0 0 = .ok o := by
  obtain ⟨t, h, _⟩ := C293_violated
  unfold run at h
  cases hg : go law0 false (par 0) St.init (geomOf 0 ![0, 4, 0]) 0 0 with
  | ok o => exact ⟨o, rfl⟩
  | throws => dsimp only at h; rw [hg] at h; cases h
  | ub => dsimp only at h; rw [hg] at h; cases h

/-- With linear softening a stretched contact beyond the strain at fracture is deleted, although the threshold one is to deactivate that. -/
theorem C293_violated_deleted {L : Law} {per : Bool} {P : Par} (hP : Good P) (hl : P.law = 0) (hn : P.never = false) (hc : P.cohesive = true)
    (hL : L.threshold = 1) {s : St} {g : ScGeom} {a b : V3} {o : Out} (h : go L per P s g a b = .ok o) (hk : P.ef < o.st.kappa)
    (hN : 0 < o.st.epsN) : o.keep = false := by
  obtain ⟨_, t, ht, ⟨hb, ho⟩ | ⟨hb, ho⟩⟩ := go_ok h
  · rw [ho]
  · exfalso
    rw [ho] at hk hN
    dsimp only at hk hN
    have he : P.e0 < P.ef := by
      rcases hP.law with ⟨_, he⟩ | ⟨hh, _⟩
      · exact he
      · rw [hl] at hh; norm_num at hh
    have h0 := hP.e0
    obtain ⟨_, om, hom, ht'⟩ := material_ok ht
    rw [if_pos hc, funcG_eq hP] at hom
    cases hom
    refine hb ⟨hN, .inl ⟨hc, ?_⟩⟩
    rw [hL, show t.omega = dmg P t.kappa by rw [ht']]
    unfold dmg left
    rw [if_neg (by rintro (hh | hh); exacts [by linarith, by rw [hn] at hh; cases hh]), if_pos hl]
    have h3 : (P.ef - t.kappa) / (P.ef - P.e0) < 0 := div_neg_of_neg_of_pos (by linarith) (by linarith)
    have h4 : 0 < P.e0 / t.kappa := div_pos h0 (by linarith)
    nlinarith

/-- A contact which is never damaged reports more strength than it had from the limit strain on. -/
theorem C293_violated_never {L : Law} {P : Par} (h0 : 0 < P.e0) (hn : P.never = true) (hc : P.cohesive = true) {s t : St} {x : ℝ} {eT : V3}
    (h : material L P s x eT = .ok t) (hk : P.e0 ≤ t.kappa) : t.omega = 0 ∧ t.resid = t.kappa / P.e0 := by
  obtain ⟨_, om, hom, ht⟩ := material_ok h
  rw [if_pos hc, funcG, if_pos (.inr hn)] at hom
  cases hom
  refine ⟨by rw [ht], ?_⟩
  have hk' := hk
  rw [ht] at hk' ⊢
  dsimp only at hk' ⊢
  rw [residOf, if_pos hc, if_neg (not_lt.2 hk')]
  ring

/-! ## C294 -/

/-- In tension the stress is the one of the damaged spring; with its largest strain in pure tension, the contact bears what is left of its strength. -/
theorem C294_tension {L : Law} {P : Par} (hP : Good P) (hn : P.never = false) (hc : P.cohesive = true) (hE : 0 < P.E) {s t : St} {x : ℝ} {eT : V3}
    (hs : 0 ≤ s.kappa) (h : material L P s x eT = .ok t) (hx : 0 < t.epsN - s.epsNPl) :
    t.sigN + P.iso = (1 - t.omega) * P.E * (t.epsN - s.epsNPl) ∧ t.epsNPl = s.epsNPl ∧
      (t.kappa = t.epsN - s.epsNPl → P.e0 ≤ t.kappa →
        t.sigN + P.iso = P.E * P.e0 * (if P.law = 0 then (P.ef - t.kappa) / (P.ef - P.e0) else Real.exp (-(t.kappa - P.e0) / P.ef))) := by
  have hsy := sync_material hP hs h
  obtain ⟨_, om, hom, ht⟩ := material_ok h
  have e1 : t.epsN = x + P.iso / P.E := by rw [ht]
  rw [e1] at hx
  have hN : normalLaw L P.E om (x + P.iso / P.E) s.epsNPl = ((1 - om) * P.E * (x + P.iso / P.E - s.epsNPl), s.epsNPl) := by
    unfold normalLaw
    dsimp only
    rw [if_pos hx, if_neg (by rintro ⟨h1, h2⟩; linarith)]
  have e2 : t.sigN + P.iso = (1 - t.omega) * P.E * (t.epsN - s.epsNPl) := by
    rw [ht, hN]; ring
  refine ⟨e2, by rw [ht, hN], fun hk h0 => ?_⟩
  rw [e2, ← hk, hsy.omega hc, dmg, if_neg (by rintro (hh | hh); exacts [by linarith, by rw [hn] at hh; cases hh])]
  have : t.kappa ≠ 0 := ne_of_gt (lt_of_lt_of_le hP.e0 h0)
  unfold left
  split_ifs <;> field_simp <;> ring

/-- While damage is at most total, tension does not exceed what is left of the strength of the contact, whatever the shear. -/
theorem C294_strength {L : Law} {P : Par} (hP : Good P) (hc : P.cohesive = true) (hn : P.never = false) (hE : 0 < P.E) {s t : St} {x : ℝ} {eT : V3} (hs : 0 ≤ s.kappa)
    (h : material L P s x eT = .ok t) (hx : 0 < t.epsN - s.epsNPl) (ho : t.omega ≤ 1) :
    t.sigN + P.iso ≤ P.E * P.e0 * t.resid := by
  have h1 := (C294_tension hP hn hc hE hs h hx).1
  have hsy := sync_material hP hs h
  have hk : t.epsN - s.epsNPl ≤ t.kappa := by
    rw [(C293_largest h).1]
    refine le_max_of_le_right (Real.le_sqrt_of_sq_le ?_)
    rw [max_eq_left hx.le]
    have : 0 ≤ P.shear ^ 2 * (eT 0 ^ 2 + eT 1 ^ 2 + eT 2 ^ 2) := by positivity
    linarith
  rw [h1, hsy.resid hc]
  have h0 := hP.e0
  split_ifs with hlt
  · rw [hsy.omega hc, dmg, if_pos (.inl hlt)]
    have := mul_le_mul_of_nonneg_left (le_trans hk hlt.le) hE.le
    linarith
  · have := mul_le_mul_of_nonneg_left hk (mul_nonneg (sub_nonneg.2 ho) hE.le)
    calc (1 - t.omega) * P.E * (t.epsN - s.epsNPl) ≤ (1 - t.omega) * P.E * t.kappa := this
      _ = P.E * P.e0 * ((1 - t.omega) * t.kappa / P.e0) := by field_simp

/-- Cases met: a stretched contact without damage, and one with. -/
example (L : Law) : (∃ t, material L (par 1) St.init (1 / 2) 0 = .ok t ∧ 0 < t.epsN - St.init.epsNPl ∧ t.omega ≤ 1 ∧ t.sigN = 1 / 2) ∧
    ∃ t, material L (par 1) St.init 3 0 = .ok t ∧ 0 < t.epsN - St.init.epsNPl ∧ t.kappa = t.epsN - St.init.epsNPl ∧ (par 1).e0 ≤ t.kappa := by
  have key : ∀ x : ℝ, ∃ t, material L (par 1) St.init x 0 = .ok t := by
    intro x
    unfold material
    rw [if_neg (by norm_num [par])]
    dsimp only
    rw [if_pos (by rfl), funcG_eq par_good1, Res.bind_ok, if_neg (by norm_num [par])]
    exact ⟨_, rfl⟩
  constructor
  · obtain ⟨t, ht⟩ := key (1 / 2)
    have e1 : t.epsN = 1 / 2 := by rw [(C293_largest ht).2.1]; norm_num [par]
    have hx : 0 < t.epsN - St.init.epsNPl := by rw [e1]; norm_num [St.init]
    have hk : t.kappa = 1 / 2 := by
      rw [(C293_largest ht).1, e1]; simp [St.init, par]
    have ho : t.omega = 0 := by
      rw [(sync_material par_good1 (by norm_num [St.init]) ht).omega rfl, dmg, if_pos (.inl (by rw [hk]; norm_num [par]))]
    refine ⟨t, ht, hx, by rw [ho]; norm_num, ?_⟩
    have := (C294_tension par_good1 rfl rfl (by norm_num [par]) (by norm_num [St.init]) ht hx).1
    rw [e1, ho] at this
    norm_num [par, St.init] at this
    linarith
  · obtain ⟨t, ht⟩ := key 3
    have e1 : t.epsN = 3 := by rw [(C293_largest ht).2.1]; norm_num [par]
    have hk : t.kappa = 3 := by
      rw [(C293_largest ht).1, e1]; simp [St.init, par]
    exact ⟨t, ht, by rw [e1]; norm_num [St.init], by rw [hk, e1]; norm_num [St.init], by rw [hk]; norm_num [par]⟩

/-- In compression the stiffness is the full one whatever the damage: the stress is the elastic one for the plastic strain at the end of the step, and
without softening in compression there is no plastic strain. -/
theorem C294_compression {L : Law} {P : Par} {s t : St} {x : ℝ} {eT : V3} (h : material L P s x eT = .ok t) (hx : t.epsN - s.epsNPl ≤ 0) :
    t.sigN + P.iso = P.E * (t.epsN - t.epsNPl) ∧ (0 ≤ L.epsSoft → t.epsNPl = s.epsNPl) := by
  obtain ⟨hE, om, hom, ht⟩ := material_ok h
  have e1 : t.epsN = x + P.iso / P.E := by rw [ht]
  rw [e1] at hx
  rw [ht]
  dsimp only
  unfold normalLaw
  dsimp only
  rw [if_neg (not_lt.2 hx)]
  constructor
  · split_ifs
    · dsimp only; field_simp; ring
    · dsimp only; ring
    · dsimp only; ring
  · intro h0
    rw [if_neg (by rintro ⟨h1, _⟩; linarith)]

/-- A step in which a compressed contact flows. -/
theorem normalLaw_flow {L : Law} {E : ℝ} (hE : 0 < E) (h0 : L.epsSoft < 0) (hr1 : L.relKnSoft < 1) {x p : ℝ} (hx : x - p < L.epsSoft) (om : ℝ) :
    normalLaw L E om x p = (E * (L.epsSoft + L.relKnSoft * (x - p - L.epsSoft)), x - (L.epsSoft + L.relKnSoft * (x - p - L.epsSoft))) := by
  unfold normalLaw
  dsimp only
  have h1 : ¬ (x - p > 0) := by intro h; linarith
  have h2 : 0 < E * ((1 - L.relKnSoft) * (L.epsSoft - (x - p))) := mul_pos hE (mul_pos (by linarith) (by linarith))
  rw [if_neg h1, if_pos ⟨h0, hx⟩, if_pos (by nlinarith)]
  refine Prod.ext rfl ?_
  dsimp only; field_simp; ring

/-- A step in which it does not. -/
theorem normalLaw_still {L : Law} {E : ℝ} {x p : ℝ} (hx : x - p ≤ 0) (hs : 0 ≤ L.epsSoft ∨ L.epsSoft ≤ x - p) (om : ℝ) :
    normalLaw L E om x p = (E * (x - p), p) := by
  unfold normalLaw
  dsimp only
  have h1 : ¬ (x - p > 0) := not_lt.2 hx
  rw [if_neg h1, if_neg (by rintro ⟨h2, h3⟩; rcases hs with h | h <;> linarith)]
  refine Prod.ext (by ring) rfl

/-- Without plasticity in compression, or if it is perfect, the normal stress of a contact held still does not change. -/
theorem C294_hold_partial {L : Law} {E : ℝ} (hE : 0 < E) {om om' x p : ℝ} (hx : x - p ≤ 0) (hL : 0 ≤ L.epsSoft ∨ L.relKnSoft = 0) :
    normalLaw L E om' x (normalLaw L E om x p).2 = normalLaw L E om x p := by
  by_cases hs : 0 ≤ L.epsSoft ∨ L.epsSoft ≤ x - p
  · rw [normalLaw_still hx hs, normalLaw_still hx hs]
  · push Not at hs
    have hr : L.relKnSoft = 0 := hL.resolve_left (not_le.2 hs.1)
    rw [normalLaw_flow hE hs.1 (by rw [hr]; norm_num) hs.2, hr, normalLaw_still (by linarith [hs.1]) (.inr (by linarith))]
    refine Prod.ext ?_ rfl
    dsimp only; ring

example : ∃ L : Law, L.relKnSoft = 0 ∧ (-2 : ℝ) - 0 ≤ 0 ∧ normalLaw L 1 0 (-2) 0 = (-1, -1) :=
  ⟨⟨1, -1, 0⟩, rfl, by norm_num, by norm_num [normalLaw]⟩

/-- A contact held at the strain `x`, whatever its damage: stress and plastic strain after each step. -/
noncomputable def hold (L : Law) (E x p : ℝ) (om : ℕ → ℝ) : ℕ → ℝ × ℝ
  | 0 => normalLaw L E (om 0) x p
  | n + 1 => normalLaw L E (om (n + 1)) x (hold L E x p om n).2

/-- With hardening, on the contrary, the compression of a contact held still fades with the number of steps: the part of the strain beyond the onset of
plasticity is multiplied by `relKnSoft` in each. -/
theorem C294_violated_hold {L : Law} {E : ℝ} (hE : 0 < E) (h0 : L.epsSoft < 0) (hr0 : 0 < L.relKnSoft) (hr1 : L.relKnSoft < 1) {x p : ℝ} (hx : x - p < L.epsSoft)
    (om : ℕ → ℝ) (n : ℕ) : (hold L E x p om n).1 = E * (L.epsSoft + L.relKnSoft ^ (n + 1) * (x - p - L.epsSoft)) := by
  have key : ∀ m : ℕ, hold L E x p om m = (E * (L.epsSoft + L.relKnSoft ^ (m + 1) * (x - p - L.epsSoft)), x - (L.epsSoft + L.relKnSoft ^ (m + 1) * (x - p - L.epsSoft))) := by
    intro m
    induction m with
    | zero => rw [hold, normalLaw_flow hE h0 hr1 hx]; simp
    | succ m ih =>
      have hpos : 0 < L.relKnSoft ^ (m + 1) := pow_pos hr0 _
      rw [hold, ih, normalLaw_flow hE h0 hr1 (by dsimp only; nlinarith)]
      dsimp only
      rw [pow_succ _ (m + 1)]
      refine Prod.ext ?_ ?_ <;> dsimp only <;> ring
  rw [key]

/-- With the default hardening the stress is not the same in the next step. -/
example : (hold ⟨1, -1, 3 / 10⟩ 1 (-2) 0 (fun _ => 0) 0).1 ≠ (hold ⟨1, -1, 3 / 10⟩ 1 (-2) 0 (fun _ => 0) 1).1 := by
  rw [C294_violated_hold, C294_violated_hold] <;> norm_num

/-! ## C295 -/

/-- The shear stress is in the direction of the elastic strain and within the limit of Mohr and Coulomb, in which cohesion is reduced by damage; within
that limit, it is elastic and nothing slips. -/
theorem C295_yield {L : Law} {P : Par} {s t : St} {x : ℝ} {eT : V3} (h : material L P s x eT = .ok t) :
    norm3 t.sigT ≤ max 0 (P.coh * (1 - t.omega) - (t.sigN + P.iso) * P.tan) ∧
      (∃ c : ℝ, 0 ≤ c ∧ c ≤ 1 ∧ t.sigT = (c * P.G) • (eT - s.epsTPl)) ∧
      (norm3 (P.G • (eT - s.epsTPl)) ≤ max 0 (P.coh * (1 - t.omega) - (t.sigN + P.iso) * P.tan) →
        t.sigT = P.G • (eT - s.epsTPl) ∧ t.epsTPl = s.epsTPl) := by
  obtain ⟨_, om, _, ht⟩ := material_ok h
  have e : max 0 (P.coh * (1 - t.omega) - (t.sigN + P.iso) * P.tan) = yieldT P om (normalLaw L P.E om (x + P.iso / P.E) s.epsNPl).1 := by
    rw [ht]; unfold yieldT; congr 2; ring
  rw [e]
  have e1 : t.sigT = (shearLaw P.G (yieldT P om (normalLaw L P.E om (x + P.iso / P.E) s.epsNPl).1) eT s.epsTPl).1 := by rw [ht]
  have e2 : t.epsTPl = (shearLaw P.G (yieldT P om (normalLaw L P.E om (x + P.iso / P.E) s.epsNPl).1) eT s.epsTPl).2 := by rw [ht]
  rw [e1, e2]
  have hy : 0 ≤ yieldT P om (normalLaw L P.E om (x + P.iso / P.E) s.epsNPl).1 := le_max_left _ _
  generalize yieldT P om (normalLaw L P.E om (x + P.iso / P.E) s.epsNPl).1 = y at hy ⊢
  have hsq : sqNorm (P.G • (eT - s.epsTPl)) > y * y ↔ y < norm3 (P.G • (eT - s.epsTPl)) := by
    rw [← norm3_sq]
    exact ⟨fun h => lt_of_mul_self_lt_mul_self₀ (norm3_nonneg _) h, fun h => mul_self_lt_mul_self hy h⟩
  unfold shearLaw
  dsimp only
  by_cases hc : sqNorm (P.G • (eT - s.epsTPl)) > y * y
  · rw [if_pos hc]
    have hlt := hsq.1 hc
    have hp : 0 < norm3 (P.G • (eT - s.epsTPl)) := lt_of_le_of_lt hy hlt
    refine ⟨?_, ⟨y / norm3 (P.G • (eT - s.epsTPl)), div_nonneg hy hp.le, (div_le_one hp).2 hlt.le, by dsimp only; rw [smul_smul]⟩,
      fun hh => absurd hh (not_le.2 hlt)⟩
    dsimp only
    rw [norm3_smul, abs_of_nonneg (div_nonneg hy hp.le), div_mul_cancel₀ _ hp.ne']
  · rw [if_neg hc]
    exact ⟨not_lt.1 fun hh => hc (hsq.2 hh), ⟨1, by norm_num, le_refl _, by dsimp only; rw [one_mul]⟩, fun _ => ⟨rfl, rfl⟩⟩

example (L : Law) : ∃ t, material L (par 1) St.init 0 ![0, 4, 0] = .ok t ∧ max 0 ((par 1).coh * (1 - t.omega) - (t.sigN + (par 1).iso) * (par 1).tan) < 4 := by
  obtain ⟨t, ht⟩ : ∃ t, material L (par 1) St.init 0 ![0, 4, 0] = .ok t := by
    unfold material
    rw [if_neg (by norm_num [par])]
    dsimp only
    rw [if_pos (by rfl), funcG_eq par_good1, Res.bind_ok, if_neg (by norm_num [par])]
    exact ⟨_, rfl⟩
  refine ⟨t, ht, max_lt (by norm_num) ?_⟩
  have : t.omega = dmg (par 1) t.kappa := (sync_material par_good1 (by norm_num [St.init]) ht).omega rfl
  have h0 : 0 ≤ t.omega := by
    rw [this]
    refine le_trans (le_of_eq ?_) (dmg_mono par_good1 (a := 0) (sync_material par_good1 (by norm_num [St.init]) ht).kappa)
    unfold dmg; rw [if_pos (.inl (by norm_num [par]))]
  norm_num [par]
  linarith

/-- While nothing slips, the shear stress is the elastic one for the strains which are kept. -/
theorem C295_elastic_partial {L : Law} {P : Par} {s t : St} {x : ℝ} {eT : V3} (h : material L P s x eT = .ok t)
    (hs : norm3 (P.G • (eT - s.epsTPl)) ≤ max 0 (P.coh * (1 - t.omega) - (t.sigN + P.iso) * P.tan)) :
    t.sigT = P.G • (t.epsT - t.epsTPl) := by
  obtain ⟨h1, h2⟩ := (C295_yield h).2.2 hs
  rw [h1, h2, (C293_largest h).2.2]

/-- Once it slips, it is never the elastic one for the plastic strain which is kept: that strain grows by the slip times the ratio of stress and trial
stress, so that part of the slip comes back as stress. -/
theorem C295_violated {G y : ℝ} (hG : 0 < G) (hy : 0 ≤ y) {eT p : V3} (h : y < norm3 (G • (eT - p))) :
    (shearLaw G y eT p).1 = (y / norm3 (G • (eT - p))) • (G • (eT - p)) ∧
      G • (eT - (shearLaw G y eT p).2) = (1 - y / norm3 (G • (eT - p)) + (y / norm3 (G • (eT - p))) ^ 2) • (G • (eT - p)) ∧
      (shearLaw G y eT p).1 ≠ G • (eT - (shearLaw G y eT p).2) := by
  have hp : 0 < norm3 (G • (eT - p)) := lt_of_le_of_lt hy h
  have e : shearLaw G y eT p = ((y / norm3 (G • (eT - p))) • (G • (eT - p)),
      p + ((1 - y / norm3 (G • (eT - p))) / G) • ((y / norm3 (G • (eT - p))) • (G • (eT - p)))) := by
    unfold shearLaw
    dsimp only
    rw [if_pos (by rw [← norm3_sq]; exact mul_self_lt_mul_self hy h)]
  have hc : y / norm3 (G • (eT - p)) < 1 := (div_lt_one hp).2 h
  have e2 : G • (eT - (shearLaw G y eT p).2) = (1 - y / norm3 (G • (eT - p)) + (y / norm3 (G • (eT - p))) ^ 2) • (G • (eT - p)) := by
    rw [e]
    generalize y / norm3 (G • (eT - p)) = c
    apply v3_ext <;> simp <;> field_simp <;> ring
  refine ⟨by rw [e], e2, fun hh => ?_⟩
  rw [e2, e] at hh
  dsimp only at hh
  have h3 := congrArg norm3 hh
  rw [norm3_smul _ (G • (eT - p)), norm3_smul _ (G • (eT - p))] at h3
  have h4 := mul_right_cancel₀ hp.ne' h3
  have hc0 : 0 ≤ y / norm3 (G • (eT - p)) := div_nonneg hy hp.le
  rw [abs_of_nonneg hc0, abs_of_nonneg (by nlinarith)] at h4
  nlinarith

example : (1 : ℝ) < norm3 ((1 : ℝ) • ((![0, 2, 0] : V3) - 0)) := by
  have : norm3 ((1 : ℝ) • ((![0, 2, 0] : V3) - 0)) = 2 := by
    unfold norm3 sqNorm dot
    simp
  rw [this]; norm_num

/-- Slipping without any resistance leaves no trace at all: when the contact resists again, the whole slip is stress. -/
theorem C295_violated_springs {G y : ℝ} (hG : 0 < G) (eT : V3) (h : norm3 (G • eT) ≤ y) :
    (shearLaw G 0 eT 0).1 = 0 ∧ (shearLaw G y eT (shearLaw G 0 eT 0).2).1 = G • eT := by
  have e : shearLaw G 0 eT 0 = (0, 0) := by
    unfold shearLaw
    dsimp only
    split_ifs with h1
    · simp
    · rw [sub_zero] at h1
      have : sqNorm (G • eT) = 0 := le_antisymm (by simpa using h1) (sqNorm_nonneg _)
      rw [sub_zero, sqNorm_eq_zero.1 this]
  refine ⟨by rw [e], ?_⟩
  rw [e]
  unfold shearLaw
  dsimp only
  rw [sub_zero, if_neg]
  rw [← norm3_sq]
  have := norm3_nonneg (G • eT)
  nlinarith

/-! ## C299 -/

/-- Without periodicity the loads on both bodies balance, in forces and in moments, in every step. -/
theorem C299_balanced {L : Law} {P : Par} {s : St} {g : ScGeom} {a b : V3} {o : Out} (h : go L false P s g a b = .ok o) :
    Balanced a b o.loads ∧ (o.keep = false → o.loads = Loads.zero) ∧
      (o.keep = true → o.loads.f1 = (P.area * o.st.sigN) • g.normal + P.area • o.st.sigT) := by
  obtain ⟨_, t, ht, ⟨_, ho⟩ | ⟨_, ho⟩⟩ := go_ok h
  · rw [ho]; exact ⟨balanced_zero _ _, fun _ => rfl, fun hh => by cases hh⟩
  · rw [ho]
    refine ⟨⟨by simp [loadsOf], fun o => ?_⟩, (fun hh => by cases hh), fun _ => ?_⟩
    · apply v3_ext <;> simp [loadMoment, loadsOf] <;> ring
    · simp [loadsOf]; rw [mul_comm]

/-- In a periodic scene they balance for spheres which touched without overlap or gap when they were bonded. -/
theorem C299_periodic_partial {P : Par} {g : ScGeom} {f a b : V3} (hb : b - a = (g.r1 + g.r2 - g.pd) • g.normal) (h0 : P.refPD = 0) :
    Balanced a b (loadsOf true P g f a b) := by
  have hb' : b = a + (g.r1 + g.r2 - g.pd) • g.normal := by rw [← hb]; abel
  refine ⟨by simp [loadsOf], fun o => ?_⟩
  rw [hb']
  apply v3_ext <;> simp [loadMoment, loadsOf, h0] <;> ring

/-- Otherwise they do not: the moment of the loads about any point is the initial overlap times the moment of the force. -/
theorem C299_violated {P : Par} {g : ScGeom} {f a b : V3} (hb : b - a = (g.r1 + g.r2 - g.pd) • g.normal) (o : V3) :
    loadMoment o a b (loadsOf true P g f a b) = P.refPD • cross g.normal f := by
  have hb' : b = a + (g.r1 + g.r2 - g.pd) • g.normal := by rw [← hb]; abel
  rw [hb']
  apply v3_ext <;> simp [loadMoment, loadsOf] <;> ring

/-- Spheres of radius one bonded at the distance 3/2, sheared: an overlap of one half. -/
example : ((![3 / 2, 0, 0] : V3) - 0 = ((geomOf (1 / 2) 0).r1 + (geomOf (1 / 2) 0).r2 - (geomOf (1 / 2) 0).pd) • (geomOf (1 / 2) 0).normal) ∧
    loadMoment 0 0 ![3 / 2, 0, 0] (loadsOf true { par 1 with refPD := 1 / 2 } (geomOf (1 / 2) 0) ![0, 1, 0] 0 ![3 / 2, 0, 0]) ≠ 0 := by
  have hb : ((![3 / 2, 0, 0] : V3) - 0 = ((geomOf (1 / 2) 0).r1 + (geomOf (1 / 2) 0).r2 - (geomOf (1 / 2) 0).pd) • (geomOf (1 / 2) 0).normal) := by
    apply v3_ext
    · norm_num [geomOf]
    · norm_num [geomOf]
    · simp [geomOf, Matrix.vecHead, Matrix.vecTail]
  refine ⟨hb, ?_⟩
  rw [C299_violated hb]
  intro h
  have := congrFun h 2
  norm_num [geomOf] at this

end Verif.Cpm
