import Verif.Dt.StepProps
import Verif.Mech.NewtonProps

/-!
# P-wave step, memory safety and density scaling: C171, C172, C173
-/
namespace Verif.Dt
open Verif.Mech
open scoped Classical

/-! ## C171 -/

/-- A body is an elastic sphere of this radius and Young's modulus. -/
def Elastic (bodies : List (Option Bd)) (b : Bd) (r E : ℝ) : Prop := some b ∈ bodies ∧ b.matShape = true ∧ b.radius = some r ∧ b.young = some E

/-- The density of the sphere. -/
noncomputable def density (b : Bd) (r : ℝ) : ℝ := b.mass / (4 / 3 * Real.pi * r ^ 3)

theorem pwave_eq {b : Bd} {r E : ℝ} (hr : 0 < r) (hE : 0 < E) (hm : 0 < b.mass) : pwave r E b.mass = some (r * Real.sqrt (density b r / E)) := by
  have hd : 0 < density b r := by have := Real.pi_pos; unfold density; positivity
  rw [pwave]
  rw [if_neg hE.ne']
  change some (r / Real.sqrt (E / density b r)) = _
  rw [Real.sqrt_div hE.le, Real.sqrt_div hd.le]
  have := Real.sqrt_pos.mpr hE
  have := Real.sqrt_pos.mpr hd
  congr 1
  field_simp

/-- The loop of `pwaveTimeStep`. -/
theorem pwave_fold (bodies : List (Option Bd)) (hpos : ∀ b r E, Elastic bodies b r E → 0 < r ∧ 0 < E ∧ 0 < b.mass) (o : Option ℝ) :
    let res := bodies.foldl pwaveOf o
    (res = none ↔ o = none ∧ ∀ b r E, ¬ Elastic bodies b r E) ∧
    ∀ d, res = some d → (o = some d ∨ ∃ b r E, Elastic bodies b r E ∧ d = r * Real.sqrt (density b r / E)) ∧ (∀ x, o = some x → d ≤ x) ∧
      ∀ b r E, Elastic bodies b r E → d ≤ r * Real.sqrt (density b r / E) := by
  induction bodies generalizing o with
  | nil =>
    refine ⟨by simp [Elastic], ?_⟩
    intro d hd
    refine ⟨Or.inl hd, fun x hx => ?_, fun b r E h => by simp [Elastic] at h⟩
    have : o = some d := hd
    rw [this] at hx
    exact (Option.some.inj hx).le
  | cons ob t ih =>
    have hpt : ∀ b r E, Elastic t b r E → 0 < r ∧ 0 < E ∧ 0 < b.mass := fun b r E h => hpos b r E ⟨by simp [h.1], h.2⟩
    have skip : (∀ b r E, ob = some b → ¬ (b.matShape = true ∧ b.radius = some r ∧ b.young = some E)) → ∀ b r E, Elastic (ob :: t) b r E ↔ Elastic t b r E := by
      intro hno b r E
      constructor
      · rintro ⟨h1, h2⟩
        rcases List.mem_cons.mp h1 with h | h
        · exact absurd h2 (hno b r E h.symm)
        · exact ⟨h, h2⟩
      · rintro ⟨h1, h2⟩
        exact ⟨by simp [h1], h2⟩
    by_cases hex : ∃ b r E, ob = some b ∧ b.matShape = true ∧ b.radius = some r ∧ b.young = some E
    · obtain ⟨b, r, E, rfl, h1, h2, h3⟩ := hex
      have hel : Elastic (some b :: t) b r E := ⟨by simp, h1, h2, h3⟩
      obtain ⟨p1, p2, p3⟩ := hpos b r E hel
      have hpw := pwave_eq p1 p2 p3
      set w := r * Real.sqrt (density b r / E) with hw
      obtain ⟨ihn, ihs⟩ := ih hpt (minOpt o (some w))
      have hstep : pwaveOf o (some b) = minOpt o (some w) := by
        simp only [pwaveOf, h1, h2, h3, if_true, hpw]
      have hmem : ∀ b' r' E', Elastic (some b :: t) b' r' E' ↔ (b' = b ∧ r' = r ∧ E' = E) ∨ Elastic t b' r' E' := by
        intro b' r' E'
        constructor
        · rintro ⟨g1, g2, g3, g4⟩
          rcases List.mem_cons.mp g1 with g | g
          · obtain rfl := Option.some.inj g
            rw [h2] at g3; rw [h3] at g4
            exact Or.inl ⟨rfl, (Option.some.inj g3).symm, (Option.some.inj g4).symm⟩
          · exact Or.inr ⟨g, g2, g3, g4⟩
        · rintro (⟨rfl, rfl, rfl⟩ | ⟨g1, g2⟩)
          · exact hel
          · exact ⟨by simp [g1], g2⟩
      dsimp only at ihn ihs ⊢
      rw [List.foldl_cons]
      rw [hstep]
      have hmo : minOpt o (some w) ≠ none := by cases o <;> simp [minOpt]
      constructor
      · constructor
        · intro h; exact absurd (ihn.mp h).1 hmo
        · rintro ⟨-, h⟩; exact absurd hel (h b r E)
      · intro d hd
        obtain ⟨k1, k2, k3⟩ := ihs d hd
        have hdw : d ≤ w := by
          cases o with
          | none => exact k2 w rfl
          | some x => exact le_trans (k2 (min x w) rfl) (min_le_right _ _)
        refine ⟨?_, ?_, ?_⟩
        · rcases k1 with k1 | ⟨b', r', E', k1, k1'⟩
          · cases o with
            | none => right; exact ⟨b, r, E, hel, (Option.some.inj k1).symm⟩
            | some x =>
              have : min x w = d := Option.some.inj k1
              rcases min_choice x w with h | h
              · left; rw [← this, h]
              · right; exact ⟨b, r, E, hel, by rw [← this, h]⟩
          · right; exact ⟨b', r', E', (hmem _ _ _).mpr (Or.inr k1), k1'⟩
        · rintro x rfl
          exact le_trans (k2 (min x w) rfl) (min_le_left _ _)
        · intro b' r' E' h'
          rcases (hmem _ _ _).mp h' with ⟨rfl, rfl, rfl⟩ | h'
          · exact hdw
          · exact k3 b' r' E' h'
    · have hno := skip (fun b r E hb h => hex ⟨b, r, E, hb, h⟩)
      have hstep : pwaveOf o ob = o := by
        cases ob with
        | none => rfl
        | some b =>
          rw [pwaveOf]
          split_ifs with h
          · cases hy : b.young with
            | none => rfl
            | some E =>
              cases hr : b.radius with
              | none => rfl
              | some r => exact absurd ⟨b, r, E, rfl, h, hr, hy⟩ hex
          · rfl
      dsimp only
      rw [List.foldl_cons]
      rw [hstep]
      simp only [hno]
      exact ih hpt o

/-- C171.  The P-wave time step is the smallest of radius times square root of density over Young's modulus over all elastic spheres, and 1
if there are none. -/
theorem C171_pwave {bodies : List (Option Bd)} (hpos : ∀ b r E, Elastic bodies b r E → 0 < r ∧ 0 < E ∧ 0 < b.mass) :
    ((∀ b r E, ¬ Elastic bodies b r E) → pwaveTimeStep bodies = 1) ∧
    ((∃ b r E, Elastic bodies b r E) → IsLeast { d | ∃ b r E, Elastic bodies b r E ∧ d = r * Real.sqrt (density b r / E) } (pwaveTimeStep bodies)) := by
  obtain ⟨h1, h2⟩ := pwave_fold bodies hpos none
  rw [pwaveTimeStep]
  constructor
  · intro h
    rw [h1.mpr ⟨rfl, h⟩]; rfl
  · rintro ⟨b, r, E, hel⟩
    generalize hres : bodies.foldl pwaveOf none = res at h1 h2 ⊢
    cases res with
    | none => exact absurd hel ((h1.mp rfl).2 b r E)
    | some d =>
      obtain ⟨k1, -, k3⟩ := h2 d rfl
      constructor
      · rcases k1 with k | k
        · exact absurd k (by simp)
        · exact k
      · rintro x ⟨b', r', E', h', rfl⟩
        exact k3 b' r' E' h'

/-- A scene with a sphere, a body of another shape and an empty slot. -/
example : pwaveTimeStep [some (ball true), none, some { ball true with radius := none }] = 1 * Real.sqrt (density (ball true) 1 / 1) := by
  have hel : ∀ b r E, Elastic [some (ball true), none, some { ball true with radius := none }] b r E → b = ball true ∧ r = 1 ∧ E = 1 := by
    rintro b r E ⟨h1, h2, h3, h4⟩
    simp only [List.mem_cons, Option.some.injEq, List.not_mem_nil, or_false] at h1
    rcases h1 with rfl | h | rfl
    · simp [ball] at h3 h4
      exact ⟨rfl, h3.symm, h4.symm⟩
    · cases h
    · simp at h3
  obtain ⟨⟨b, r, E, h, hd⟩, -⟩ := (C171_pwave (bodies := [some (ball true), none, some { ball true with radius := none }]) (by
    intro b r E h
    obtain ⟨rfl, rfl, rfl⟩ := hel b r E h
    norm_num [ball])).2 ⟨ball true, 1, 1, by simp, rfl, rfl, rfl⟩
  obtain ⟨rfl, rfl, rfl⟩ := hel b r E h
  exact hd

/-! ## C172 -/

/-- Updates of one engine in the scenes it meets. -/
noncomputable def updates : List (List (Option Bd) × List Contact × ℝ) → Eng → Res Eng
  | [], e => .ok e
  | (bodies, cs, dt) :: t, e => (computeTimeStep bodies cs dt e).bind fun r => updates t r.2.1

/-- C172.  However bodies and contacts change between updates, no update of an engine without the viscous option and without density
scaling has undefined behaviour.  Missing: these options, see the violations. -/
theorem C172_safe_partial (scenes : List (List (Option Bd) × List Contact × ℝ)) : ∀ (e : Eng), (∀ s ∈ scenes, Clumps s.1 ∧ Sane s.1.length s.2.1) →
    e.viscEl = false → e.densityScaling = false → e.Rstiff.length = e.stiff.length → ∃ e', updates scenes e = .ok e' := by
  induction scenes with
  | nil => intro e _ _ _ _; exact ⟨e, rfl⟩
  | cons s t ih =>
    intro e h hv hd hl
    obtain ⟨bodies, cs, dt⟩ := s
    obtain ⟨h1, h2⟩ := h (bodies, cs, dt) (by simp)
    obtain ⟨s, r, d0, p, co, dt', he, hlen, -⟩ := computeTimeStep_ok dt h1 h2 hv hd hl
    rw [updates, he, Res.bind_ok]
    exact ih _ (fun s hs => h s (by simp [hs])) hv hd hlen

example : ∃ e', updates [([], [], 0), ([some (ball true), some (ball false)], [touch], 0), ([some (ball true)], [], 1)] eng0 = .ok e' := by
  apply C172_safe_partial _ _ _ rfl rfl rfl
  intro s hs
  simp only [List.mem_cons, List.not_mem_nil, or_false] at hs
  rcases hs with rfl | rfl | rfl
  · exact ⟨fun i b h => by simp at h, fun c hc => by simp at hc⟩
  · exact ⟨scene_clumps, scene_sane⟩
  · refine ⟨fun i b h m hm => ?_, fun c hc => by simp at hc⟩
    match i with
    | 0 => simp at h; subst h; simp [ball] at hm
    | n + 1 => simp at h

theorem computeStiffnesses_ub {n : Nat} (cs : List Contact) {e : Eng} (hv : e.viscEl = true) (h1 : n ≤ e.stiff.length) (h2 : e.visc.length < e.stiff.length)
    (h3 : e.Rstiff.length = e.stiff.length) : computeStiffnesses n cs e = .ub := by
  rw [computeStiffnesses]
  rw [if_neg (by omega), max_eq_left h1, zeroFirst_all, Res.bind_ok, ← h3, zeroFirst_all, Res.bind_ok, if_pos hv, zeroFirst, if_neg (by omega)]
  rfl

/-- C172 is violated if the viscous option is set after an update: the next update in the same scene writes behind the end of vectors. -/
theorem C172_violated_switch {bodies : List (Option Bd)} {cs : List Contact} (dt : ℝ) (hcl : Clumps bodies) (hc : Sane bodies.length cs) (hb : bodies ≠ []) :
    ∃ e' dt', computeTimeStep bodies cs dt eng0 = .ok (bodies, e', dt') ∧ computeTimeStep bodies cs dt' { e' with viscEl := true } = .ub := by
  have hd0 : (if eng0.defaultDt < 0 then { eng0 with defaultDt := eng0.safety * pwaveTimeStep bodies } else eng0) = { eng0 with defaultDt := eng0.safety * pwaveTimeStep bodies } :=
    if_pos (by norm_num [eng0])
  obtain ⟨s, r, he, hs, hr, gs, gr⟩ := computeStiffnesses_ok (n := bodies.length) (cs := cs) (e := { eng0 with defaultDt := eng0.safety * pwaveTimeStep bodies }) rfl rfl
    (fun c h => ⟨(hc c h).1, (hc c h).2.1⟩)
  obtain ⟨a', h1, ⟨s', r', h2, h2s, h2r⟩, -⟩ := bodyLoop_ok hcl cs bodies 0 ⟨{ eng0 with defaultDt := eng0.safety * pwaveTimeStep bodies, stiff := s, Rstiff := r }, maxReal, False⟩ rfl rfl rfl
    (by dsimp only; rw [hr, hs]) (by dsimp only; rw [hs]; exact le_max_right _ _) (fun j _ => ⟨gs j, gr j⟩)
  have hlen : bodies.length ≤ s'.length := by rw [h2s]; dsimp only; rw [hs]; exact le_max_right _ _
  have hpos : 0 < bodies.length := List.length_pos_iff.mpr hb
  have hub : ∀ e'' : Eng, e''.stiff = s' → e''.Rstiff = r' → e''.visc = [] → ∀ dt', computeTimeStep bodies cs dt' { e'' with viscEl := true } = .ub := by
    intro e'' g1 g2 g3 dt'
    rw [computeTimeStep]
    dsimp only
    have : ∀ x : Eng, (x = { e'' with viscEl := true } ∨ ∃ d, x = { e'' with viscEl := true, defaultDt := d }) → computeStiffnesses bodies.length cs x = .ub := by
      rintro x (rfl | ⟨d, rfl⟩)
      · exact computeStiffnesses_ub cs rfl (by rw [g1]; exact hlen) (by dsimp only; rw [g1, g3]; simp; omega) (by dsimp only; rw [g1, g2, h2r, h2s])
      · exact computeStiffnesses_ub cs rfl (by dsimp only; rw [g1]; exact hlen) (by dsimp only; rw [g1, g3]; simp; omega) (by dsimp only; rw [g1, g2, h2r, h2s])
    rw [this]
    · rfl
    · split_ifs
      · exact Or.inr ⟨_, rfl⟩
      · exact Or.inl rfl
  have hde : a'.eng.densityScaling = false := by rw [h2]; rfl
  by_cases hcp : a'.computed
  · refine ⟨{ a'.eng with previousDt := min (min a'.newDt a'.eng.maxDt) (1.05 * a'.eng.previousDt), computedOnce := true }, min (min a'.newDt a'.eng.maxDt) (1.05 * a'.eng.previousDt), ?_, ?_⟩
    · rw [computeTimeStep, hd0]
      dsimp only
      rw [he, Res.bind_ok]
      erw [h1]
      rw [Res.bind_ok]
      simp only [hde, hcp, Bool.false_eq_true, if_false, or_false, if_true]
    · exact hub _ (by dsimp only; rw [h2]) (by dsimp only; rw [h2]) (by dsimp only; rw [h2]; rfl) _
  · refine ⟨a'.eng, if a'.eng.computedOnce then dt else a'.eng.defaultDt, ?_, ?_⟩
    · rw [computeTimeStep, hd0]
      dsimp only
      rw [he, Res.bind_ok]
      erw [h1]
      rw [Res.bind_ok]
      simp only [hde, hcp, Bool.false_eq_true, if_false, or_false]
    · exact hub _ (by rw [h2]) (by rw [h2]) (by rw [h2]; rfl) _

example : ∃ e' dt', computeTimeStep [some (ball true), some (ball false)] [touch] 0 eng0 = .ok ([some (ball true), some (ball false)], e', dt') ∧
    computeTimeStep [some (ball true), some (ball false)] [touch] dt' { e' with viscEl := true } = .ub :=
  C172_violated_switch 0 scene_clumps scene_sane (by simp)

/-- C172 is violated with the viscous option by a free body: a variable is read that was not given a value. -/
theorem C172_violated_free : computeTimeStep [some (ball true)] [] 0 { eng0 with viscEl := true } = .ub := by
  have h0 : (0 : V3) 0 = 0 := rfl
  have : ({ eng0 with viscEl := true } : Eng).defaultDt < 0 := by norm_num [eng0]
  rw [computeTimeStep]
  dsimp only
  rw [if_pos this]
  simp [computeStiffnesses, eng0, resize, zeroFirst, addContacts, bodyLoop, findFromBody, ball, readAt, addOwn]

/-- C172 is violated with density scaling by a free body that is no elastic sphere: a null pointer is dereferenced. -/
theorem C172_violated_scaling : computeTimeStep [some { ball true with radius := none }] [] 0 { eng0 with densityScaling := true } = .ub := by
  have : ({ eng0 with densityScaling := true } : Eng).defaultDt < 0 := by norm_num [eng0]
  rw [computeTimeStep]
  dsimp only
  rw [if_pos this]
  simp [computeStiffnesses, eng0, resize, zeroFirst, addContacts, bodyLoop, findFromBody, ball, readAt, addOwn, scaleFree, Res.bind]

/-- C172 is violated by an update interval of zero: once a step was computed, asking whether to update divides by zero. -/
theorem C172_violated_interval (iter : Int) : isActivated true true iter 0 = .ub := by
  simp [isActivated]

/-! ## C173 -/

/-- The scaling a loaded body is given. -/
noncomputable def newScaling (e : Eng) (b : Bd) (K R : V3) : ℝ :=
  if b.scaling > 0 then min (b.scaling * 1.05) ((elasticDt e.safety b.mass b.inertia K R / e.targetDt) ^ 2) else (elasticDt e.safety b.mass b.inertia K R / e.targetDt) ^ 2

theorem findFromBody_scale {bodies : List (Option Bd)} {id : Nat} {b : Bd} {a : Acc} (hv : a.eng.viscEl = false) (hd : a.eng.densityScaling = true)
    (hl : a.eng.Rstiff.length = a.eng.stiff.length) (hid : id < a.eng.stiff.length) (hb : bodies.length ≤ a.eng.stiff.length)
    (hm : ∀ m ∈ b.members.getD [], m ≠ id ∧ ∃ b, bodies[m]? = some (some b)) (hsph : b.matShape = true → ∃ E r, b.young = some E ∧ b.radius = some r) :
    ∃ s r K R sc nd cp, findFromBody bodies id b a = .ok ({ b with scaling := sc }, ⟨{ a.eng with stiff := s, Rstiff := r }, nd, cp⟩) ∧
      K = a.eng.stiff.getD id 0 + ((b.members.getD []).map fun m => a.eng.stiff.getD m 0).sum ∧
      R = a.eng.Rstiff.getD id 0 + ((b.members.getD []).map fun m => a.eng.Rstiff.getD m 0).sum ∧
      s.length = a.eng.stiff.length ∧ r.length = a.eng.stiff.length ∧ (∀ j, j ≠ id → s.getD j 0 = a.eng.stiff.getD j 0 ∧ r.getD j 0 = a.eng.Rstiff.getD j 0) ∧
      (K ≠ 0 → sc = newScaling a.eng b K R) := by
  have hmem : ∃ s r, addOwn bodies id b a.eng = .ok { a.eng with stiff := s, Rstiff := r } ∧ s.length = a.eng.stiff.length ∧ r.length = a.eng.stiff.length ∧
      (∀ j, s.getD j 0 = a.eng.stiff.getD j 0 + if id = j then ((b.members.getD []).map fun m => a.eng.stiff.getD m 0).sum else 0) ∧
      ∀ j, r.getD j 0 = a.eng.Rstiff.getD j 0 + if id = j then ((b.members.getD []).map fun m => a.eng.Rstiff.getD m 0).sum else 0 := by
    rw [addOwn]
    cases hbm : b.members with
    | none => exact ⟨a.eng.stiff, a.eng.Rstiff, rfl, rfl, hl, by simp, by simp⟩
    | some ms =>
      rw [hbm] at hm
      exact addMembers_ok bodies id ms hv hl hid hb hm
  obtain ⟨s, r, he, hs, hr, gs, gr⟩ := hmem
  have h1 : readAt s id = .ok (s.getD id 0) := readAt_ok (by rw [hs]; exact hid)
  have h2 : readAt r id = .ok (r.getD id 0) := readAt_ok (by rw [hr]; exact hid)
  have hfree : ∃ dt sc, scaleFree { a.eng with stiff := s, Rstiff := r } b = .ok (dt, sc) := by
    rw [scaleFree]
    by_cases hms : b.matShape = true
    · obtain ⟨E, q, hy, hq⟩ := hsph hms
      simp only [hms, hy, hq, if_true, Res.bind_ok]
      exact ⟨_, _, rfl⟩
    · simp only [hms, Bool.false_eq_true, if_false, Res.bind_ok]
      exact ⟨_, _, rfl⟩
  obtain ⟨dt, sc, hfr⟩ := hfree
  have hunf : findFromBody bodies id b a = if s.getD id 0 = 0 then .ok ({ b with scaling := sc }, ⟨{ a.eng with stiff := s, Rstiff := r }, a.newDt, a.computed⟩)
      else .ok ({ b with scaling := newScaling a.eng b (s.getD id 0) (r.getD id 0) },
        ⟨{ a.eng with stiff := s, Rstiff := r }, a.eng.targetDt, a.computed ∨ computes (s.getD id 0) (r.getD id 0)⟩) := by
    rw [findFromBody, readAt_ok hid, Res.bind_ok, readAt_ok (by rw [hl]; exact hid), Res.bind_ok, he, Res.bind_ok]
    dsimp only
    rw [h1, Res.bind_ok, h2, Res.bind_ok, hfr]
    simp only [hd, hv, newScaling, Bool.false_eq_true, if_false, if_true, Res.bind_ok]
  have hgj : ∀ j, j ≠ id → s.getD j 0 = a.eng.stiff.getD j 0 ∧ r.getD j 0 = a.eng.Rstiff.getD j 0 := by
    intro j hj
    rw [gs, gr, if_neg (fun h => hj h.symm), if_neg (fun h => hj h.symm), add_zero, add_zero]
    exact ⟨rfl, rfl⟩
  by_cases hk : s.getD id 0 = 0
  · rw [if_pos hk] at hunf
    exact ⟨s, r, s.getD id 0, r.getD id 0, _, _, _, hunf, by rw [gs, if_pos rfl], by rw [gr, if_pos rfl], hs, hr, hgj, fun h => absurd hk h⟩
  · rw [if_neg hk] at hunf
    exact ⟨s, r, s.getD id 0, r.getD id 0, _, _, _, hunf, by rw [gs, if_pos rfl], by rw [gr, if_pos rfl], hs, hr, hgj, fun _ => rfl⟩

/-- What the loop does from slot `id` on, with density scaling. -/
theorem bodyLoop_scale {bodies : List (Option Bd)} (hcl : Clumps bodies) (hsph : ∀ i b, Moves bodies i b → b.matShape = true → ∃ E r, b.young = some E ∧ b.radius = some r)
    (cs : List Contact) : ∀ (rest : List (Option Bd)) (id : Nat) (a : Acc), rest = bodies.drop id →
    a.eng.viscEl = false → a.eng.densityScaling = true → a.eng.Rstiff.length = a.eng.stiff.length → bodies.length ≤ a.eng.stiff.length →
    (∀ j, (id ≤ j ∨ ∃ c, bodies[j]? = some (some c) ∧ c.clumpMember = true) → a.eng.stiff.getD j 0 = bodyK cs j ∧ a.eng.Rstiff.getD j 0 = bodyR cs j) →
    ∃ l a', bodyLoop bodies id rest a = .ok (l, a') ∧ (∃ s r, a'.eng = { a.eng with stiff := s, Rstiff := r }) ∧
      ∀ i b, id ≤ i → Moves bodies i b → totalK cs b i ≠ 0 → l[i - id]? = some (some { b with scaling := newScaling a.eng b (totalK cs b i) (totalR cs b i) }) := by
  intro rest
  induction rest with
  | nil =>
    intro id a hrest hv hd hl hb hg
    refine ⟨[], a, rfl, ⟨a.eng.stiff, a.eng.Rstiff, rfl⟩, ?_⟩
    intro i b hi ⟨h, _⟩
    have h1 := (List.getElem?_eq_some_iff.mp h).1
    have h2 : bodies.length ≤ id := List.drop_eq_nil_iff.mp hrest.symm
    omega
  | cons o t ih =>
    intro id a hrest hv hd hl hb hg
    have hlt : id < bodies.length := by
      by_contra h
      rw [List.drop_eq_nil_of_le (by omega)] at hrest
      simp at hrest
    have ho : bodies[id]? = some o := by
      rw [List.drop_eq_getElem_cons hlt] at hrest
      rw [List.getElem?_eq_getElem hlt, (List.cons.inj hrest).1]
    have ht : t = bodies.drop (id + 1) := by
      rw [List.drop_eq_getElem_cons hlt] at hrest
      exact (List.cons.inj hrest).2
    have hsh : ∀ i, id + 1 ≤ i → i - id = (i - (id + 1)) + 1 := fun i hi => by omega
    have skip : (∀ b, ¬ Moves bodies id b) →
        ∃ l a', bodyLoop bodies (id + 1) t a = .ok (l, a') ∧ (∃ s r, a'.eng = { a.eng with stiff := s, Rstiff := r }) ∧
        ∀ i b, id ≤ i → Moves bodies i b → totalK cs b i ≠ 0 → (o :: l)[i - id]? = some (some { b with scaling := newScaling a.eng b (totalK cs b i) (totalR cs b i) }) := by
      intro hno
      obtain ⟨l, a', h1, h2, h3⟩ := ih (id + 1) a ht hv hd hl hb (fun j hj => hg j (hj.imp (fun h => by omega) (fun h => h)))
      refine ⟨l, a', h1, h2, ?_⟩
      intro i b hi hm hk
      rcases Nat.eq_or_lt_of_le hi with h | h
      · exact absurd (h ▸ hm) (hno b)
      · rw [hsh i h, List.getElem?_cons_succ]
        exact h3 i b h hm hk
    cases o with
    | none =>
      obtain ⟨l, a', h1, h2⟩ := skip (fun b h => by rw [Moves, ho] at h; simp at h)
      exact ⟨none :: l, a', by rw [bodyLoop, h1]; rfl, h2⟩
    | some b =>
      by_cases hb2 : b.dynamic ∧ ¬ b.clumpMember
      · have hmv : Moves bodies id b := ⟨ho, hb2.1, by simpa using hb2.2⟩
        have hmm : ∀ m ∈ b.members.getD [], m ≠ id ∧ ∃ b, bodies[m]? = some (some b) := by
          intro m hm
          obtain ⟨c, hc, hcm⟩ := hcl id b ho m hm
          refine ⟨?_, c, hc⟩
          rintro rfl
          rw [ho] at hc
          obtain rfl : b = c := by simpa using hc
          exact hb2.2 hcm
        obtain ⟨s, r, K, R, sc, nd, cp, hf, hK, hR, hs, hr, gj, hsc⟩ := findFromBody_scale hv hd hl (by omega) hb hmm (hsph id b hmv)
        have hKt : K = totalK cs b id := by
          rw [hK, (hg id (Or.inl le_rfl)).1]
          funext x
          rw [totalK, Pi.add_apply]
          congr 1
          rw [List.map_congr_left (fun m hm => (hg m (Or.inr (hcl id b ho m hm))).1)]
          induction b.members.getD [] with
          | nil => rfl
          | cons y z ihz => simp [ihz]
        have hRt : R = totalR cs b id := by
          rw [hR, (hg id (Or.inl le_rfl)).2]
          funext x
          rw [totalR, Pi.add_apply]
          congr 1
          rw [List.map_congr_left (fun m hm => (hg m (Or.inr (hcl id b ho m hm))).2)]
          induction b.members.getD [] with
          | nil => rfl
          | cons y z ihz => simp [ihz]
        subst hKt hRt
        obtain ⟨l, a', h1, ⟨s', r', h2⟩, h3⟩ := ih (id + 1) ⟨{ a.eng with stiff := s, Rstiff := r }, nd, cp⟩ ht hv hd (by dsimp only; rw [hr, hs]) (by dsimp only; rw [hs]; exact hb) (by
              intro j hj
              have hne : j ≠ id := by
                rcases hj with h | ⟨c, hc, hcm⟩
                · omega
                · rintro rfl
                  rw [ho] at hc
                  obtain rfl : b = c := by simpa using hc
                  exact hb2.2 hcm
              dsimp only
              rw [(gj j hne).1, (gj j hne).2]
              exact hg j (hj.imp (fun h => by omega) (fun h => h)))
        refine ⟨some { b with scaling := sc } :: l, a', ?_, ⟨s', r', h2⟩, ?_⟩
        · rw [bodyLoop, if_pos hb2, hf, Res.bind_ok]
          dsimp only
          rw [h1]
          rfl
        · intro i c hi hm hk
          rcases Nat.eq_or_lt_of_le hi with h | h
          · subst h
            obtain rfl : b = c := by have := hm.1; rw [ho] at this; simpa using this
            rw [Nat.sub_self, List.getElem?_cons_zero, hsc hk]
          · rw [hsh i h, List.getElem?_cons_succ]
            exact h3 i c h hm hk
      · obtain ⟨l, a', h1, h2⟩ := skip (by
          rintro c ⟨hc, hc1, hc2⟩
          rw [ho] at hc
          obtain rfl : b = c := by simpa using hc
          exact hb2 ⟨hc1, by simp [hc2]⟩)
        exact ⟨some b :: l, a', by rw [bodyLoop, if_neg hb2, h1]; rfl, h2⟩

theorem elastic_pos {s m : ℝ} {I k r : V3} (hs : 0 < s) (hm : 0 < m) (hI : ∀ a, 0 < I a) (hk : ∀ a, 0 ≤ k a) (hr : ∀ a, 0 ≤ r a) : 0 < elasticDt s m I k r := by
  have hM := maxReal_pos
  have hp : ∀ m x : ℝ, 0 < m → 0 ≤ x → 0 < period m x := by
    intro m x hm hx
    rw [period]; split_ifs with h
    · exact div_pos hm (lt_of_le_of_ne hx (Ne.symm h))
    · exact hM
  rw [elasticDt, minPeriod]
  have := Real.sqrt_pos.mpr (lt_min (hp m (max (max (k 0) (k 1)) (k 2)) hm (le_trans (hk 0) (le_max3 k 0))) (lt_min (lt_min (hp _ _ (hI 0) (hr 0)) (hp _ _ (hI 1) (hr 1))) (hp _ _ (hI 2) (hr 2))))
  positivity

/-- C173.  With density scaling the step is at most the target, and each moving body under load is given a positive scaling, at most 1.05 times
its old one, such that the target is at most the step for each motion and rotation of the body with its mass and inertia divided by the
scaling.  Missing: bodies made since the last update, see `C173_violated`. -/
theorem C173_scaling_partial {bodies : List (Option Bd)} {cs : List Contact} (dt : ℝ) {e : Eng} (hcl : Clumps bodies) (hc : Sane bodies.length cs)
    (hsph : ∀ i b, Moves bodies i b → b.matShape = true → ∃ E r, b.young = some E ∧ b.radius = some r)
    (hv : e.viscEl = false) (hd : e.densityScaling = true) (hl : e.Rstiff.length = e.stiff.length) (hs : 0 < e.safety) (ht : 0 < e.targetDt)
    (hm : ∀ i b, Moves bodies i b → 0 < b.mass ∧ ∀ a, 0 < b.inertia a) :
    ∃ bodies' e' dt', computeTimeStep bodies cs dt e = .ok (bodies', e', dt') ∧ dt' = min (min e.targetDt e.maxDt) (1.05 * e.previousDt) ∧
      ∀ i b, Loaded bodies cs i b → ∃ sc, bodies'[i]? = some (some { b with scaling := sc }) ∧ 0 < sc ∧ (0 < b.scaling → sc ≤ 1.05 * b.scaling) ∧
        ∀ a, (totalK cs b i a ≠ 0 → e.targetDt ≤ 1.41044 * e.safety * Real.sqrt (b.mass / sc / totalK cs b i a)) ∧
          (totalR cs b i a ≠ 0 → e.targetDt ≤ 1.41044 * e.safety * Real.sqrt (b.inertia a / sc / totalR cs b i a)) := by
  set d0 := if e.defaultDt < 0 then e.safety * pwaveTimeStep bodies else e.defaultDt with hd0
  have hrec : (if e.defaultDt < 0 then { e with defaultDt := e.safety * pwaveTimeStep bodies } else e) = { e with defaultDt := d0 } := by
    rw [hd0]; split_ifs <;> rfl
  obtain ⟨s, r, he, hs', hr, gs, gr⟩ := computeStiffnesses_ok (n := bodies.length) (cs := cs) (e := { e with defaultDt := d0 }) hv hl
    (fun c h => ⟨(hc c h).1, (hc c h).2.1⟩)
  obtain ⟨l, a', h1, ⟨s', r', h2⟩, h3⟩ := bodyLoop_scale hcl hsph cs bodies 0 ⟨{ e with defaultDt := d0, stiff := s, Rstiff := r }, maxReal, False⟩ rfl hv hd
    (by dsimp only; rw [hr, hs']) (by dsimp only; rw [hs']; exact le_max_right _ _) (fun j _ => ⟨gs j, gr j⟩)
  dsimp only at h2 h3
  have hde : a'.eng.densityScaling = true := by rw [h2]; exact hd
  refine ⟨l, { a'.eng with previousDt := min (min a'.eng.targetDt a'.eng.maxDt) (1.05 * a'.eng.previousDt), computedOnce := true }, min (min a'.eng.targetDt a'.eng.maxDt) (1.05 * a'.eng.previousDt), ?_, by rw [h2], ?_⟩
  · rw [computeTimeStep, hrec]
    dsimp only
    rw [he, Res.bind_ok]
    erw [h1]
    rw [Res.bind_ok]
    simp only [hde, or_true, if_true]
  · intro i b ⟨hmv, hk⟩
    have hk' : totalK cs b i ≠ 0 := fun h => by obtain ⟨a, ha⟩ := hk; exact ha (congrFun h a)
    obtain ⟨hmass, hI⟩ := hm i b hmv
    have hK0 := totalK_nonneg hc b i
    have hR0 := totalR_nonneg hc b i
    set el := elasticDt e.safety b.mass b.inertia (totalK cs b i) (totalR cs b i) with hel
    have hpos : 0 < el := elastic_pos hs hmass hI hK0 hR0
    have hq : 0 < (el / e.targetDt) ^ 2 := by positivity
    set sc := if b.scaling > 0 then min (b.scaling * 1.05) ((el / e.targetDt) ^ 2) else (el / e.targetDt) ^ 2 with hsc
    have hscpos : 0 < sc := by
      rw [hsc]; split_ifs with h
      · exact lt_min (by positivity) hq
      · exact hq
    have hscle : sc ≤ (el / e.targetDt) ^ 2 := by
      rw [hsc]; split_ifs with h
      · exact min_le_right _ _
      · exact le_rfl
    have key : ∀ m k : ℝ, 0 < m → 0 < k → el ≤ 1.41044 * e.safety * Real.sqrt (m / k) → e.targetDt ≤ 1.41044 * e.safety * Real.sqrt (m / sc / k) := by
      intro m k hm hk hle
      have e1 : m / sc / k = m / k / sc := by field_simp
      rw [e1, Real.sqrt_div (div_pos hm hk).le, ← mul_div_assoc, le_div_iff₀ (Real.sqrt_pos.mpr hscpos)]
      have : Real.sqrt sc ≤ el / e.targetDt := by
        rw [← Real.sqrt_sq (div_pos hpos ht).le]
        exact Real.sqrt_le_sqrt hscle
      calc e.targetDt * Real.sqrt sc ≤ e.targetDt * (el / e.targetDt) := mul_le_mul_of_nonneg_left this ht.le
        _ = el := by field_simp
        _ ≤ _ := hle
    refine ⟨sc, h3 i b (Nat.zero_le _) hmv hk', hscpos, ?_, ?_⟩
    · intro hb
      rw [hsc, if_pos hb]
      exact le_trans (min_le_left _ _) (by linarith)
    · intro a
      constructor
      · intro ha
        have hka : 0 < totalK cs b i a := lt_of_le_of_ne (hK0 a) (Ne.symm ha)
        exact key _ _ hmass hka (elastic_le_trans hs.le hmass.le hka)
      · intro ha
        exact key _ _ (hI a) (lt_of_le_of_ne (hR0 a) (Ne.symm ha)) (elastic_le_rot hs.le ha)

/-- The hypotheses hold in the scene of two balls: the target of 1 is a step for mass 4 divided by the scaling. -/
example : ∃ bodies' e' dt' sc, computeTimeStep [some (ball true), some (ball false)] [touch] 0 { eng0 with densityScaling := true } = .ok (bodies', e', dt') ∧
    bodies'[0]? = some (some { ball true with scaling := sc }) ∧ 1 ≤ 1.41044 * 0.8 * Real.sqrt (4 / sc / 8) := by
  have hm : ∀ i b, Moves [some (ball true), some (ball false)] i b → b = ball true ∨ b = ball false := by
    rintro i b ⟨hb, -, -⟩
    match i with
    | 0 => simp at hb; exact Or.inl hb.symm
    | 1 => simp at hb; exact Or.inr hb.symm
    | n + 2 => simp at hb
  obtain ⟨bodies', e', dt', h, -, h2⟩ := C173_scaling_partial (e := { eng0 with densityScaling := true }) 0 scene_clumps scene_sane
    (by intro i b hb _; rcases hm i b hb with rfl | rfl <;> exact ⟨1, 1, rfl, rfl⟩) rfl rfl rfl (by norm_num [eng0]) (by norm_num [eng0])
    (by intro i b hb; rcases hm i b hb with rfl | rfl <;> norm_num [ball])
  obtain ⟨sc, h3, -, -, h4⟩ := h2 0 _ scene_loaded
  refine ⟨bodies', e', dt', sc, h, h3, ?_⟩
  have := (h4 0).1 (by rw [scene_K]; norm_num)
  rwa [scene_K] at this

/-- C173 is violated by bodies made since the last update: their scaling is -1, and with density scaling the integrator accelerates them
opposite to the force. -/
theorem C173_violated (P : Params) (D : Deform) (f : V3) (s : State) (hP : P.densityScaling = true) (hD : D.periodic = false) (hdamp : s.isDamped = false) (hs : s.densityScaling = -1)
    (i : Fin 3) (hb : s.blocked &&& axisDOF i false = 0) : linAccel P D f s i = - (f i / s.mass + P.gravity i) := by
  have := linAccel_free P D f s hD hb
  simp only [hdamp, Bool.false_eq_true, if_false] at this
  rw [this, freeAccel, hP, hs]
  simp

end Verif.Dt
