import Verif.Fac.Lemmas

/-!
# Factories of spheres: C175, C176, C177, C179, C181
-/
namespace Verif.Fac
open Verif.Mech
open scoped Classical

/-! ## C175 -/

/-- Two spheres do not overlap. -/
def Clear (p : V3) (r : ℝ) (p' : V3) (r' : ℝ) : Prop := r + r' ≤ norm3 (p - p')

/-- Body `id` of the collider is a sphere of radius `R` or contains one, the box of which is within that of the body. -/
def Holds (C : Coll) (id : Nat) (B : Bod) (R : ℝ) : Prop := C.bodies id = some B ∧ ∀ a, lower C id B a ≤ B.pos a - R ∧ B.pos a + R ≤ upper C id B a

theorem free_clear {C : Coll} (hr : Ready C) (hw : Within C) {made : List Sph} {r : ℝ} {c : V3} (h : FreePos C made r c) {id : Nat} {B : Bod} {R : ℝ} (hB : Holds C id B R) :
    Clear B.pos R c r := by
  obtain ⟨l, h1, h2⟩ := C174_probe_partial hr hw (c - fun _ => r) (c + fun _ => r)
  rw [h.1] at h1
  obtain rfl := Res.ok.inj h1
  have hno : ¬ Meet (lower C id B) (upper C id B) (c - fun _ => r) (c + fun _ => r) := fun hm => by
    have := (h2 id).mpr ⟨B, hB.1, hm⟩
    simp at this
  rw [Meet] at hno
  push Not at hno
  obtain ⟨a, ha⟩ := hno
  have hb := hB.2 a
  have hn := comp_le_norm (B.pos - c) a
  simp only [Pi.sub_apply, Pi.add_apply] at ha hn
  rw [Clear]
  by_cases h3 : lower C id B a ≤ c a + r
  · have := ha h3
    have := neg_abs_le (B.pos a - c a)
    linarith
  · have := le_abs_self (B.pos a - c a)
    linarith

/-- C175.  The spheres a factory makes in a step overlap neither each other nor a sphere the collider knows.  Missing: negative `maxAttempt`, spheres
made in the same step by other factories; see the violations. -/
theorem C175_clear_partial {past : Res ℝ} {C : Coll} {reg : Region} {ds : List ℝ} {u : Nat → ℝ} {dt : ℝ} {n : Nat} {f : Fac} {slots g : Nat} {s' : St}
    (hr : Ready C) (hw : Within C) (hf : 0 ≤ f.maxAttempt) (h : action past C reg ds u dt n f slots g = some (.ok s')) :
    s'.made.Pairwise (fun a b => Clear a.pos a.r b.pos b.r) ∧ ∀ s ∈ s'.made, ∀ id B R, Holds C id B R → Clear B.pos R s.pos s.r := by
  obtain ⟨f', h1, h2⟩ := action_inv h
  obtain ⟨a, b, c, d, e, m, v, rfl, -, -⟩ := start_f h1
  have := loop_inv (P := fun s => 0 ≤ s.f.maxAttempt ∧ s.made.Pairwise (fun a b => Clear a.pos a.r b.pos b.r) ∧ ∀ x ∈ s.made, ∀ id B R, Holds C id B R → Clear B.pos R x.pos x.r) ?_ ?_ ⟨hf, by simp, by simp⟩ h2
  · exact this.2
  · rintro s s₁ bin r d c ⟨h0, hp, hq⟩ - hm
    obtain ⟨g, rfl⟩ := hm.result
    obtain ⟨x, y, hcf⟩ := create_f d (initVel _ (u _)) bin r c { s with g := g }
    obtain ⟨hA, -⟩ | ⟨-, -, hfree⟩ := hm.position
    · omega
    · refine ⟨by rw [hcf]; exact h0, ?_, ?_⟩
      · rw [create]
        dsimp only
        rw [List.pairwise_append]
        refine ⟨hp, by simp, ?_⟩
        intro z hz w hw
        simp only [List.mem_singleton] at hw
        subst hw
        exact not_lt.mp (hfree.2 z hz)
      · intro z hz id B R hB
        rw [create] at hz
        rcases List.mem_append.mp hz with hz | hz
        · exact hq z hz id B R hB
        · simp only [List.mem_singleton] at hz
          subst hz
          exact free_clear hr hw hfree hB
  · rintro s s₁ ⟨h0, hp, hq⟩ hg
    obtain ⟨g, rfl⟩ := hg.result
    refine ⟨?_, hp, hq⟩
    dsimp only
    split_ifs <;> exact h0

/-! ### A factory that makes one sphere at the origin -/

/-- An empty collider. -/
def noBodies : Coll := ⟨false, [], [], [], fun _ => none⟩

theorem noBodies_ready : Ready noBodies := ⟨rfl, List.Pairwise.nil, by simp [noBodies], by simp [noBodies], by simp [noBodies]⟩

theorem noBodies_within : Within noBodies := by intro id B h; simp [noBodies] at h

theorem noBodies_probe (mn mx : V3) : probe noBodies mn mx = .ok [] := rfl

/-- A factory of at most `k` spheres of radius 1, with a rate of `rate`. -/
noncomputable def fac0 (k : Int) (rate : ℝ) : Fac where
  massFlowRate := rate
  rMin := 1
  rMax := 1
  vMin := 0
  vMax := 0
  normal := ![0, 0, 1]
  normalVel := none
  materialId := -1
  ids := []
  totalMass := 0
  totalVolume := 0
  goalMass := 0
  maxParticles := k
  maxMass := -1
  numParticles := 0
  maxAttempt := 5000
  stopIfFailed := true
  exactDiam := true
  calcMass := true
  sizes := []
  cum := []
  curMean := []
  curProc := []
  need := []
  use := false

/-- A disk of radius 1, in which a sphere of radius 1 has just one place. -/
def spot : Region := .circle 1 0 0 Quat.one

theorem spot_pick (n : V3) (u : Nat → ℝ) (g : Nat) : pick spot n u g 1 = 0 := by
  rw [spot, pick]
  apply v3_ext <;> simp

theorem unit_z : unit ![0, 0, 1] = ![0, 0, 1] := by
  have : norm3 ![0, 0, 1] = 1 := by
    rw [norm3, Real.sqrt_eq_one]
    simp [sqNorm, dot]
  rw [unit, this, inv_one, one_smul]

/-- The factory makes one sphere. -/
theorem fac0_gen (reg : Region) (u : Nat → ℝ) (slots g : Nat) : ∃ s', action .ub noBodies reg [1] u 1 1 (fac0 1 1) slots g = some (.ok s') ∧
    s'.made.map (fun s => (s.id, s.pos, s.r)) = [(slots, pick reg ![0, 0, 1] u (g + 2) 1, 1)] ∧ s'.slots = slots + 1 := by
  have hs : start .ub 1 (fac0 1 1) = .ok { fac0 1 1 with goalMass := 1 } := by
    have : prepare .ub { fac0 1 1 with goalMass := 0 + 1 * 1 } = .ok { fac0 1 1 with goalMass := 0 + 1 * 1 } := by
      rw [prepare, if_neg (by simp [fac0])]
    rw [start]
    erw [this]
    rw [Res.bind_ok]
    simp only [fac0, unit_z, Option.map_none]
    norm_num
  rw [action, hs]
  dsimp only
  have hg : goesOn { fac0 1 1 with goalMass := 1 } := by
    refine ⟨?_, Or.inr ?_, Or.inl ?_⟩ <;> norm_num [fac0]
  rw [loop, if_pos hg, turn]
  have hn : nextRadius { fac0 1 1 with goalMass := 1 } u (g + 1) = .ok (0, 1, g + 2) := by
    rw [nextRadius, if_neg (by simp [fac0])]
    simp [fac0]
  have hp : place noBodies reg ![0, 0, 1] u [] 1 5000 (g + 2) = .ok (some (pick reg ![0, 0, 1] u (g + 2) 1), g + 5) := by
    rw [place, noBodies_probe, Res.bind_ok, if_pos ⟨rfl, by simp⟩]
  have hm : material [1] (-1) = .ok 1 := by simp [material, readR]
  dsimp only
  rw [hn, Res.bind_ok]
  dsimp only
  rw [show (fac0 1 1).maxAttempt = 5000 from rfl, show (fac0 1 1).normal = ![0, 0, 1] from rfl, show (5000 : Int).toNat = 5000 from rfl, if_neg (by norm_num), hp, Res.bind_ok]
  dsimp only
  rw [show (fac0 1 1).materialId = -1 from rfl, hm, Res.bind_ok]
  dsimp only
  obtain ⟨a, b, hc⟩ := create_f 1 (initVel { fac0 1 1 with goalMass := 1 } (u g)) 0 1 (pick reg ![0, 0, 1] u (g + 2) 1) ⟨{ fac0 1 1 with goalMass := 1 }, slots, [], g + 5⟩
  rw [loop, if_neg]
  · refine ⟨_, rfl, ?_, rfl⟩
    rw [create]; simp
  · have hng : ∀ z : Fac, z = (create 1 (initVel { fac0 1 1 with goalMass := 1 } (u g)) 0 1 (pick reg ![0, 0, 1] u (g + 2) 1) ⟨{ fac0 1 1 with goalMass := 1 }, slots, [], g + 5⟩).f → ¬ goesOn z := by
      intro z hz
      rw [hz, hc]
      rintro ⟨-, h, -⟩
      norm_num [fac0] at h
    exact hng _ rfl

/-- The factory makes its sphere at the origin, whatever number of bodies there is. -/
theorem fac0_action (u : Nat → ℝ) (slots g : Nat) : ∃ s', action .ub noBodies spot [1] u 1 1 (fac0 1 1) slots g = some (.ok s') ∧
    s'.made.map (fun s => (s.id, s.pos, s.r)) = [(slots, 0, 1)] ∧ s'.slots = slots + 1 := by
  have := fac0_gen spot u slots g
  rwa [spot_pick] at this

example (u : Nat → ℝ) : ∃ s', action .ub noBodies spot [1] u 1 1 (fac0 1 1) 0 0 = some (.ok s') ∧ s'.made.length = 1 ∧ s'.made.Pairwise (fun a b => Clear a.pos a.r b.pos b.r) := by
  obtain ⟨s', h, h1, -⟩ := fac0_action u 0 0
  refine ⟨s', h, ?_, (C175_clear_partial noBodies_ready noBodies_within (by norm_num [fac0]) h).1⟩
  have := congrArg List.length h1
  simpa using this

theorem made_one {s : St} {i : Nat} {p : V3} (h : s.made.map (fun s => (s.id, s.pos, s.r)) = [(i, p, 1)]) : ∃ a, s.made = [a] ∧ a.id = i ∧ a.pos = p ∧ a.r = 1 := by
  obtain ⟨a, ha, he⟩ := List.map_eq_singleton_iff.mp h
  simp only [Prod.mk.injEq] at he
  exact ⟨a, ha, he.1, he.2.1, he.2.2⟩

/-- C175 is violated by two factories in one step: the second does not see the spheres of the first. -/
theorem C175_violated_two (u : Nat → ℝ) : ∃ s₁ s₂ a b, action .ub noBodies spot [1] u 1 1 (fac0 1 1) 0 0 = some (.ok s₁) ∧
    action .ub noBodies spot [1] u 1 1 (fac0 1 1) s₁.slots s₁.g = some (.ok s₂) ∧ a ∈ s₁.made ∧ b ∈ s₂.made ∧ a.id ≠ b.id ∧ ¬ Clear a.pos a.r b.pos b.r := by
  obtain ⟨s₁, h1, m1, k1⟩ := fac0_action u 0 0
  obtain ⟨s₂, h2, m2, -⟩ := fac0_action u s₁.slots s₁.g
  obtain ⟨a, ha, a1, a2, a3⟩ := made_one m1
  obtain ⟨b, hb, b1, b2, b3⟩ := made_one m2
  refine ⟨s₁, s₂, a, b, h1, h2, by simp [ha], by simp [hb], by rw [a1, b1, k1]; simp, ?_⟩
  rw [Clear, a2, a3, b2, b3, sub_self, norm3_eq_zero.mpr rfl]
  norm_num

/-- C175 is violated by a negative number of attempts: spheres are made at zero, on top of each other. -/
theorem C175_violated_unchecked (u : Nat → ℝ) : ∃ s' a b, action .ub noBodies spot [1] u 10 2 { fac0 2 1 with maxAttempt := -1 } 0 0 = some (.ok s') ∧ a ∈ s'.made ∧ b ∈ s'.made ∧ a.id ≠ b.id ∧ ¬ Clear a.pos a.r b.pos b.r := by
  have hs : start .ub 10 { fac0 2 1 with maxAttempt := -1 } = .ok { fac0 2 1 with maxAttempt := -1, goalMass := 10 } := by
    have : prepare .ub { fac0 2 1 with maxAttempt := -1, goalMass := 0 + 1 * 10 } = .ok { fac0 2 1 with maxAttempt := -1, goalMass := 0 + 1 * 10 } := by
      rw [prepare, if_neg (by simp [fac0])]
    rw [start]
    erw [this]
    rw [Res.bind_ok]
    simp only [fac0, unit_z, Option.map_none]
    norm_num
  rw [action, hs]
  dsimp only
  generalize initVel { fac0 2 1 with maxAttempt := -1, goalMass := 10 } (u 0) = vel
  have hpi := Real.pi_le_four
  have hr : ∀ x : ℝ, (1 : ℝ) + x * (1 - 1) = 1 := by intro x; ring
  rw [loop, if_pos (by refine ⟨?_, Or.inr ?_, Or.inl ?_⟩ <;> norm_num [fac0]), turn_unchecked rfl rfl rfl]
  dsimp only
  obtain ⟨x, y, hc⟩ := create_f 1 vel 0 (1 + u 1 * (1 - 1)) 0 ⟨{ fac0 2 1 with maxAttempt := -1, goalMass := 10 }, 0, [], 2⟩
  have hm : (create 1 vel 0 (1 + u 1 * (1 - 1)) 0 ⟨{ fac0 2 1 with maxAttempt := -1, goalMass := 10 }, 0, [], 2⟩).made = [⟨0, 0, vel, 1 + u 1 * (1 - 1), vol (1 + u 1 * (1 - 1)) * 1, fun _ => 2 / 5 * vol (1 + u 1 * (1 - 1)) * (1 + u 1 * (1 - 1)) * (1 + u 1 * (1 - 1)) * 1⟩] := rfl
  have hsl : (create 1 vel 0 (1 + u 1 * (1 - 1)) 0 ⟨{ fac0 2 1 with maxAttempt := -1, goalMass := 10 }, 0, [], 2⟩).slots = 1 := rfl
  show ∃ s' a b, loop noBodies spot [1] vel u 1 (create 1 vel 0 (1 + u 1 * (1 - 1)) 0 ⟨{ fac0 2 1 with maxAttempt := -1, goalMass := 10 }, 0, [], 2⟩) = _ ∧ _
  generalize create 1 vel 0 (1 + u 1 * (1 - 1)) 0 ⟨{ fac0 2 1 with maxAttempt := -1, goalMass := 10 }, 0, [], 2⟩ = s at hc hm hsl
  rw [hr] at hc hm
  have e1 : s.f.maxAttempt = -1 := by rw [hc]
  have e2 : s.f.use = false := by rw [hc]; rfl
  have e3 : s.f.materialId = -1 := by rw [hc]; rfl
  have e4 : s.f.rMin = 1 ∧ s.f.rMax = 1 := by rw [hc]; exact ⟨rfl, rfl⟩
  have e5 : s.f.maxParticles = 2 ∧ s.f.numParticles = 1 := by rw [hc]; exact ⟨rfl, rfl⟩
  have hgo : goesOn s.f := by
    refine ⟨?_, Or.inr (by omega), Or.inl ?_⟩
    · rw [hc]
      simp only [fac0, vol]
      linarith
    · rw [hc]; norm_num [fac0]
  rw [loop, if_pos hgo, turn_unchecked e1 e2 e3]
  dsimp only
  obtain ⟨x', y', hc'⟩ := create_f 1 vel 0 (s.f.rMin + u s.g * (s.f.rMax - s.f.rMin)) 0 { s with g := s.g + 1 }
  rw [loop, if_neg]
  · refine ⟨_, ⟨0, 0, vel, 1, vol 1 * 1, _⟩, _, rfl, List.mem_append_left _ (by rw [hm]; exact List.mem_singleton_self _), List.mem_append_right _ (List.mem_singleton_self _), ?_, ?_⟩
    · dsimp only; rw [hsl]; simp
    · rw [Clear]
      dsimp only
      rw [sub_self, norm3_eq_zero.mpr rfl, e4.1, e4.2]
      norm_num
  · rw [hc']
    rintro ⟨-, h, -⟩
    dsimp only at h
    omega

/-! ## C176 -/

/-- The limits of a factory are attained or its goal is. -/
def Done (f : Fac) (goal : ℝ) : Prop := goal ≤ f.totalMass ∨ (0 ≤ f.maxParticles ∧ f.maxParticles ≤ f.numParticles) ∨ (0 ≤ f.maxMass ∧ f.maxMass ≤ f.totalMass)

theorem not_goesOn {f : Fac} : ¬ goesOn f ↔ Done f f.goalMass := by
  rw [goesOn, Done]
  constructor
  · intro h
    by_contra hn
    push Not at hn
    obtain ⟨h1, h2, h3⟩ := hn
    refine h ⟨h1, ?_, ?_⟩
    · by_cases h4 : 0 ≤ f.maxParticles
      · exact Or.inr (h2 h4)
      · exact Or.inl (not_le.mp h4)
    · by_cases h4 : 0 ≤ f.maxMass
      · exact Or.inr (h3 h4)
      · exact Or.inl (not_le.mp h4)
  · rintro (h | ⟨h1, h2⟩ | ⟨h1, h2⟩) ⟨g1, g2, g3⟩
    · linarith
    · rcases g2 with g | g <;> omega
    · rcases g3 with g | g <;> linarith

/-- All positions tried for a sphere were taken. -/
def NoRoom (C : Coll) (reg : Region) (u : Nat → ℝ) (f : Fac) (made : List Sph) : Prop :=
  ∃ r g, ∀ j : Nat, (j : Int) < f.maxAttempt → ¬ FreePos C made r (pick reg (unit f.normal) u (g + 3 * j) r)

/-- C176.  After a step of a factory its goal (the old goal and the rate times the step) or a limit is attained, or there was no room for another sphere after all the
attempts; and before the last sphere neither goal nor limit were attained. -/
theorem C176_flow {past : Res ℝ} {C : Coll} {reg : Region} {ds : List ℝ} {u : Nat → ℝ} {dt : ℝ} {n : Nat} {f : Fac} {slots g : Nat} {s' : St}
    (h : action past C reg ds u dt n f slots g = some (.ok s')) :
    (s'.f.goalMass = f.goalMass + f.massFlowRate * dt ∧ s'.f.massFlowRate = f.massFlowRate ∧ Done s'.f (f.goalMass + f.massFlowRate * dt) ∨
      NoRoom C reg u f s'.made ∧ s'.f.totalMass < f.goalMass + f.massFlowRate * dt ∧ (if f.stopIfFailed then s'.f.goalMass = s'.f.totalMass ∧ s'.f.massFlowRate = 0
        else s'.f.goalMass = f.goalMass + f.massFlowRate * dt ∧ s'.f.massFlowRate = f.massFlowRate)) ∧
    (∀ l x, s'.made = l ++ [x] → s'.f.totalMass - x.mass < f.goalMass + f.massFlowRate * dt ∧ (s'.f.maxMass < 0 ∨ s'.f.totalMass - x.mass < s'.f.maxMass)) ∧
    s'.f.maxParticles = f.maxParticles ∧ (0 ≤ f.maxParticles → s'.f.numParticles ≤ max f.numParticles f.maxParticles) := by
  obtain ⟨f', h1, h2⟩ := action_inv h
  obtain ⟨a, b, c, d, e, m, v, hf', -, -⟩ := start_f h1
  have key := loop_ind (P := fun s => s.f.goalMass = f.goalMass + f.massFlowRate * dt ∧ s.f.massFlowRate = f.massFlowRate ∧ s.f.stopIfFailed = f.stopIfFailed ∧ s.f.maxAttempt = f.maxAttempt ∧ s.f.normal = unit f.normal ∧
      (∀ l x, s.made = l ++ [x] → s.f.totalMass - x.mass < f.goalMass + f.massFlowRate * dt ∧ (s.f.maxMass < 0 ∨ s.f.totalMass - x.mass < s.f.maxMass)) ∧
      s.f.maxParticles = f.maxParticles ∧ (0 ≤ f.maxParticles → s.f.numParticles ≤ max f.numParticles f.maxParticles)) ?_ n ?_ h2
  · rcases key with ⟨⟨k1, k2, k3, k4, k5, k6, k7, k8⟩, k9⟩ | ⟨s₀, ⟨k1, k2, k3, k4, k5, k6, k7, k8⟩, hgo, hg⟩
    · exact ⟨Or.inl ⟨k1, k2, by rw [← k1]; exact not_goesOn.mp k9⟩, k6, k7, k8⟩
    · obtain ⟨g', rfl⟩ := hg.result
      have hroom : NoRoom C reg u f s₀.made := by
        obtain ⟨r, g'', hx⟩ := hg.failed
        rw [k4, k5] at hx
        exact ⟨r, g'', hx⟩
      have htot : s₀.f.totalMass < f.goalMass + f.massFlowRate * dt := by rw [← k1]; exact hgo.1
      refine ⟨Or.inr ⟨hroom, ?_, ?_⟩, ?_⟩
      · dsimp only
        by_cases hst : s₀.f.stopIfFailed = true
        · rw [if_pos hst]; exact htot
        · rw [if_neg hst]; exact htot
      · dsimp only
        rw [k3]
        by_cases hst : f.stopIfFailed = true
        · rw [if_pos hst, if_pos hst]; exact ⟨rfl, rfl⟩
        · rw [if_neg hst, if_neg hst]; exact ⟨k1, k2⟩
      · dsimp only
        by_cases hst : s₀.f.stopIfFailed = true
        · rw [if_pos hst]; exact ⟨k6, k7, k8⟩
        · rw [if_neg hst]; exact ⟨k6, k7, k8⟩
  · rintro s s₁ bin r d c ⟨k1, k2, k3, k4, k5, k6, k7, k8⟩ ⟨g1, g2, g3⟩ hm
    obtain ⟨g', rfl⟩ := hm.result
    obtain ⟨x, y, hcf⟩ := create_f d (initVel f' (u g)) bin r c { s with g := g' }
    rw [hcf]
    dsimp only
    refine ⟨k1, k2, k3, k4, k5, ?_, k7, ?_⟩
    · intro l z hz
      rw [create] at hz
      dsimp only at hz
      have := (List.append_inj' hz rfl).2
      simp only [List.cons.injEq, and_true] at this
      subst this
      dsimp only
      rw [add_sub_cancel_right, ← k1]
      exact ⟨g1, g3⟩
    · intro h0
      have := k8 h0
      rw [k7] at g2
      rcases g2 with g2 | g2
      · omega
      · exact le_max_of_le_right (by omega)
  · subst hf'
    refine ⟨rfl, rfl, rfl, rfl, rfl, ?_, rfl, fun _ => le_max_left _ _⟩
    intro l x hx
    simp at hx

/-- A factory that runs for many steps, with whatever happens in between. -/
inductive Runs (past : Res ℝ) (reg : Region) (ds : List ℝ) (u : Nat → ℝ) : Fac → Fac → List Sph → ℝ → Prop
  | zero (f) : Runs past reg ds u f f [] 0
  | step {f₀ f made T} {C dt n slots g s'} : Runs past reg ds u f₀ f made T → 0 ≤ dt → action past C reg ds u dt n f slots g = some (.ok s') →
      Runs past reg ds u f₀ s'.f (made ++ s'.made) (T + dt)

/-! ## C177 -/

/-- C177.  The spheres a factory makes are numbered from the number of bodies on, listed in `ids`, and counted in `totalMass`, `totalVolume` and `numParticles`; each
has the mass and inertia of a ball of the material asked for and the velocity picked for the step. -/
theorem C177_made {past : Res ℝ} {C : Coll} {reg : Region} {ds : List ℝ} {u : Nat → ℝ} {dt : ℝ} {n : Nat} {f : Fac} {slots g : Nat} {s' : St}
    (h : action past C reg ds u dt n f slots g = some (.ok s')) :
    s'.slots = slots + s'.made.length ∧ s'.made.map Sph.id = List.range' slots s'.made.length ∧ s'.f.ids = f.ids ++ s'.made.map Sph.id ∧
    s'.f.totalMass = f.totalMass + (s'.made.map Sph.mass).sum ∧ s'.f.totalVolume = f.totalVolume + (s'.made.map fun s => 4 / 3 * Real.pi * s.r ^ 3).sum ∧
    s'.f.numParticles = f.numParticles + s'.made.length ∧
    ∀ s ∈ s'.made, (∃ d, ds[(if f.materialId ≥ 0 then f.materialId else ds.length + f.materialId).toNat]? = some d ∧ s.mass = d * (4 / 3 * Real.pi * s.r ^ 3)) ∧
      s.inertia = (fun _ => 2 / 5 * s.mass * s.r ^ 2) ∧
      s.vel = (f.vMin + u g * (f.vMax - f.vMin)) • unit (if ∃ v, f.normalVel = some v ∧ v ≠ 0 then f.normalVel.getD 0 else f.normal) := by
  obtain ⟨f', h1, h2⟩ := action_inv h
  obtain ⟨a, b, c, d, e, m, v, hf', -, hv⟩ := start_f h1
  have hvel : initVel f' (u g) = (f.vMin + u g * (f.vMax - f.vMin)) • unit (if ∃ v, f.normalVel = some v ∧ v ≠ 0 then f.normalVel.getD 0 else f.normal) := by
    rw [hf', initVel]
    rw [hv]
    cases hnv : f.normalVel with
    | none => simp
    | some w =>
      dsimp only [Option.map_some]
      congr 1
      by_cases hw : w = 0
      · subst hw
        have : ¬ norm3 (0 : V3) > 0 := by rw [norm3_eq_zero.mpr rfl]; simp
        simp [this]
      · have hp := norm3_pos hw
        have hu : norm3 (unit w) > 0 := by
          apply norm3_pos
          intro h0
          rw [unit] at h0
          rcases smul_eq_zero.mp h0 with h | h
          · rw [inv_eq_zero] at h; exact hp.ne' h
          · exact hw h
        have huu : unit (unit w) = unit w := by
          have : norm3 (unit w) = 1 := by
            rw [norm3, Real.sqrt_eq_one, unit, sqNorm_smul, ← norm3_sq]
            field_simp
          rw [unit, this]; simp
        rw [if_pos (show norm3 w > 0 from hp), if_pos hu, if_pos ⟨w, rfl, hw⟩, huu]
        rfl
  have := loop_inv (P := fun s => s.slots = slots + s.made.length ∧ s.made.map Sph.id = List.range' slots s.made.length ∧ s.f.ids = f.ids ++ s.made.map Sph.id ∧
    s.f.totalMass = f.totalMass + (s.made.map Sph.mass).sum ∧ s.f.totalVolume = f.totalVolume + (s.made.map fun s => 4 / 3 * Real.pi * s.r ^ 3).sum ∧
    s.f.numParticles = f.numParticles + s.made.length ∧ s.f.materialId = f.materialId ∧
    ∀ x ∈ s.made, (∃ d, ds[(if f.materialId ≥ 0 then f.materialId else ds.length + f.materialId).toNat]? = some d ∧ x.mass = d * (4 / 3 * Real.pi * x.r ^ 3)) ∧
      x.inertia = (fun _ => 2 / 5 * x.mass * x.r ^ 2) ∧ x.vel = initVel f' (u g)) ?_ ?_ ?_ h2
  · obtain ⟨k1, k2, k3, k4, k5, k6, -, k7⟩ := this
    refine ⟨k1, k2, k3, k4, k5, k6, ?_⟩
    intro s hs
    obtain ⟨q1, q2, q3⟩ := k7 s hs
    exact ⟨q1, q2, by rw [q3, hvel]⟩
  · rintro s s₁ bin r d c ⟨k1, k2, k3, k4, k5, k6, k7, k8⟩ - hm
    obtain ⟨g', rfl⟩ := hm.result
    obtain ⟨x, y, hcf⟩ := create_f d (initVel f' (u g)) bin r c { s with g := g' }
    have hds := material_some hm.density
    rw [k7] at hds
    have hmade : (create d (initVel f' (u g)) bin r c { s with g := g' }).made = s.made ++ [⟨s.slots, c, initVel f' (u g), r, vol r * d, fun _ => 2 / 5 * vol r * r * r * d⟩] := rfl
    have hsl : (create d (initVel f' (u g)) bin r c { s with g := g' }).slots = s.slots + 1 := rfl
    rw [hcf, hmade, hsl]
    dsimp only
    simp only [List.map_append, List.map_cons, List.map_nil, List.sum_append, List.sum_cons, List.sum_nil, List.length_append, List.length_singleton]
    refine ⟨by rw [k1]; omega, ?_, by rw [k3, List.append_assoc], by rw [k4]; ring, by rw [k5, vol]; ring, by rw [k6]; push_cast; ring, k7, ?_⟩
    · rw [k2, k1, List.range'_1_concat]
    · intro z hz
      rcases List.mem_append.mp hz with hz | hz
      · exact k8 z hz
      · simp only [List.mem_singleton] at hz
        subst hz
        refine ⟨⟨d, hds, by dsimp only; rw [vol]; ring⟩, ?_, rfl⟩
        funext _
        dsimp only
        ring
  · rintro s s₁ hs hg
    obtain ⟨g', rfl⟩ := hg.result
    by_cases hst : s.f.stopIfFailed = true
    · rw [if_pos hst]; exact hs
    · rw [if_neg hst]; exact hs
  · subst hf'
    simp

/-- The radii are as asked for, without a size distribution. -/
theorem C177_radius {past : Res ℝ} {C : Coll} {reg : Region} {ds : List ℝ} {u : Nat → ℝ} {dt : ℝ} {n : Nat} {f : Fac} {slots g : Nat} {s' : St} (hu : ∀ k, 0 ≤ u k ∧ u k < 1)
    (hc : f.cum = []) (huse : f.use = false) (hm : f.rMin ≤ f.rMax) (h : action past C reg ds u dt n f slots g = some (.ok s')) : ∀ s ∈ s'.made, f.rMin ≤ s.r ∧ s.r ≤ f.rMax := by
  obtain ⟨f', h1, h2⟩ := action_inv h
  have huse' : f'.use = false ∧ f'.rMin = f.rMin ∧ f'.rMax = f.rMax := by
    rw [start, prepare, if_neg (by simp [hc]), Res.bind_ok] at h1
    rw [← Res.ok.inj h1]
    exact ⟨huse, rfl, rfl⟩
  have := loop_inv (P := fun s => s.f.use = false ∧ s.f.rMin = f.rMin ∧ s.f.rMax = f.rMax ∧ ∀ x ∈ s.made, f.rMin ≤ x.r ∧ x.r ≤ f.rMax) ?_ ?_ ⟨huse'.1, huse'.2.1, huse'.2.2, by simp⟩ h2
  · exact this.2.2.2
  · rintro s s₁ bin r d c ⟨k1, k2, k3, k4⟩ - hmk
    obtain ⟨g', rfl⟩ := hmk.result
    obtain ⟨x, y, hcf⟩ := create_f d (initVel f' (u g)) bin r c { s with g := g' }
    rw [hcf]
    refine ⟨k1, k2, k3, ?_⟩
    intro z hz
    rw [create] at hz
    rcases List.mem_append.mp hz with hz | hz
    · exact k4 z hz
    · simp only [List.mem_singleton] at hz
      subst hz
      dsimp only
      obtain ⟨g2, hr⟩ := hmk.radius
      rw [nextRadius, if_neg (by simp [k1])] at hr
      simp only [Res.ok.injEq, Prod.mk.injEq] at hr
      obtain ⟨-, rfl, -⟩ := hr
      rw [k2, k3]
      obtain ⟨u1, u2⟩ := hu s.g
      constructor <;> nlinarith
  · rintro s s₁ ⟨k1, k2, k3, k4⟩ hg
    obtain ⟨g', rfl⟩ := hg.result
    dsimp only
    split_ifs <;> exact ⟨k1, k2, k3, k4⟩

example (u : Nat → ℝ) : ∃ s', action .ub noBodies spot [1] u 1 1 (fac0 1 1) 7 0 = some (.ok s') ∧ s'.f.ids = [7] ∧ s'.f.totalMass = 4 / 3 * Real.pi := by
  obtain ⟨s', h, h1, -⟩ := fac0_action u 7 0
  obtain ⟨-, -, k3, k4, -, -, k7⟩ := C177_made h
  refine ⟨s', h, ?_, ?_⟩
  · have h2 : s'.made.map Sph.id = [7] := by
      have := congrArg (List.map Prod.fst) h1
      simpa [List.map_map] using this
    rw [k3, h2]; rfl
  · obtain ⟨x, hx, -, -, hr⟩ := made_one h1
    rw [hx] at k4 k7
    obtain ⟨⟨d, hd, hm⟩, -⟩ := k7 x (by simp)
    have : d = 1 := by
      have e : (fac0 1 1).materialId = -1 := rfl
      rw [e] at hd
      simp at hd
      exact hd.symm
    rw [k4]
    simp [hm, this, hr, fac0]

/-- C176, many steps.  A factory never exceeds its rate by more than one sphere. -/
theorem C176_rate {past : Res ℝ} {reg : Region} {ds : List ℝ} {u : Nat → ℝ} {f₀ f : Fac} {made : List Sph} {T M : ℝ} (h : Runs past reg ds u f₀ f made T) (hr : 0 ≤ f₀.massFlowRate)
    (h0 : f₀.totalMass < f₀.goalMass + M) (hM : ∀ s ∈ made, s.mass ≤ M) : f.totalMass < f₀.goalMass + f₀.massFlowRate * T + M := by
  have key : 0 ≤ f.massFlowRate ∧ f.massFlowRate ≤ f₀.massFlowRate ∧ f.goalMass ≤ f₀.goalMass + f₀.massFlowRate * T ∧ f.totalMass < f₀.goalMass + f₀.massFlowRate * T + M := by
    induction h with
    | zero => exact ⟨hr, le_rfl, by simp, by simpa using h0⟩
    | @step f made T C dt n slots g s' hp hdt ha ih =>
      obtain ⟨k1, k2, k3, k4⟩ := ih fun s hs => hM s (List.mem_append_left _ hs)
      obtain ⟨c1, c2, -⟩ := C176_flow ha
      have hle : f.goalMass + f.massFlowRate * dt ≤ f₀.goalMass + f₀.massFlowRate * (T + dt) := by
        have := mul_le_mul_of_nonneg_right k2 hdt
        rw [mul_add]; linarith
      have hlast : s'.f.totalMass < f₀.goalMass + f₀.massFlowRate * (T + dt) + M := by
        rcases List.eq_nil_or_concat s'.made with hn | ⟨l, x, hx⟩
        · have := (C177_made ha).2.2.2.1
          rw [hn] at this
          simp at this
          rw [this]
          have := mul_nonneg hr hdt
          rw [mul_add]; linarith
        · rw [List.concat_eq_append] at hx
          have h1 := (c2 l x hx).1
          have h2 := hM x (List.mem_append_right _ (by rw [hx]; simp))
          linarith
      rcases c1 with ⟨d1, d2, -⟩ | ⟨-, d2, d3⟩
      · exact ⟨by rw [d2]; exact k1, by rw [d2]; exact k2, by rw [d1]; exact hle, hlast⟩
      · split_ifs at d3
        · exact ⟨by rw [d3.2], by rw [d3.2]; exact hr, by rw [d3.1]; linarith, hlast⟩
        · exact ⟨by rw [d3.2]; exact k1, by rw [d3.2]; exact k2, by rw [d3.1]; exact hle, hlast⟩
  exact key.2.2.2

example (u : Nat → ℝ) : ∃ f made, Runs .ub spot [1] u (fac0 1 1) f made 1 ∧ made.length = 1 ∧ f.totalMass < 1 + 4 / 3 * Real.pi := by
  obtain ⟨s', h, h1, -⟩ := fac0_action u 0 0
  obtain ⟨x, hx, -, -, hr⟩ := made_one h1
  have hrun := Runs.step (Runs.zero (fac0 1 1)) zero_le_one h
  rw [List.nil_append, zero_add] at hrun
  refine ⟨_, _, hrun, by simp [hx], ?_⟩
  have := C176_rate (M := 4 / 3 * Real.pi) hrun (by norm_num [fac0]) (by simp only [fac0]; positivity) ?_
  · simpa [fac0] using this
  · intro s hs
    rw [hx] at hs
    simp only [List.mem_singleton] at hs
    obtain ⟨-, -, -, -, -, -, k7⟩ := C177_made h
    obtain ⟨⟨d, hd, hm⟩, -⟩ := k7 s (by rw [hx, hs]; simp)
    have e : (fac0 1 1).materialId = -1 := rfl
    rw [e] at hd
    simp at hd
    rw [hm, ← hd, hs, hr]; simp

/-! ## C179 -/

/-- Positions come from the region. -/
theorem made_pick {past : Res ℝ} {C : Coll} {reg : Region} {ds : List ℝ} {u : Nat → ℝ} {dt : ℝ} {n : Nat} {f : Fac} {slots g : Nat} {s' : St}
    (hf : 0 ≤ f.maxAttempt) (h : action past C reg ds u dt n f slots g = some (.ok s')) : ∀ s ∈ s'.made, ∃ j, s.pos = pick reg (unit f.normal) u j s.r := by
  obtain ⟨f', h1, h2⟩ := action_inv h
  obtain ⟨a, b, c, d, e, m, v, rfl, -, -⟩ := start_f h1
  have := loop_inv (P := fun s => 0 ≤ s.f.maxAttempt ∧ s.f.normal = unit f.normal ∧ ∀ x ∈ s.made, ∃ j, x.pos = pick reg (unit f.normal) u j x.r) ?_ ?_ ⟨hf, rfl, by simp⟩ h2
  · exact this.2.2
  · rintro s s₁ bin r d c ⟨h0, hp, hq⟩ - hm
    obtain ⟨g, rfl⟩ := hm.result
    obtain ⟨x, y, hcf⟩ := create_f d (initVel _ (u _)) bin r c { s with g := g }
    obtain ⟨hA, -⟩ | ⟨-, ⟨j, hj⟩, -⟩ := hm.position
    · omega
    · refine ⟨by rw [hcf]; exact h0, by rw [hcf]; exact hp, ?_⟩
      intro z hz
      rw [create] at hz
      rcases List.mem_append.mp hz with hz | hz
      · exact hq z hz
      · simp only [List.mem_singleton] at hz
        subst hz
        exact ⟨j, by dsimp only; rw [hj, hp]⟩
  · rintro s s₁ hs hg
    obtain ⟨g, rfl⟩ := hg.result
    dsimp only
    split_ifs <;> exact hs

/-- The part of a vector across a unit vector. -/
def across (n v : V3) : V3 := v - dot v n • n

/-- C179, circles.  The spheres of a circular factory stay within its radius, and their centres between its ends. -/
theorem C179_circle {past : Res ℝ} {C : Coll} {radius length : ℝ} {center : V3} {q : Quat} {ds : List ℝ} {u : Nat → ℝ} {dt : ℝ} {n : Nat} {f : Fac} {slots g : Nat} {s' : St}
    (hu : ∀ k, 0 ≤ u k ∧ u k < 1) (hq : q.sqNorm = 1) (hn : f.normal ≠ 0) (hz : q.rot ![0, 0, 1] = unit f.normal) (hl : 0 ≤ length) (hf : 0 ≤ f.maxAttempt)
    (h : action past C (.circle radius length center q) ds u dt n f slots g = some (.ok s')) :
    ∀ s ∈ s'.made, (s.r ≤ radius → norm3 (across (unit f.normal) (s.pos - center)) + s.r ≤ radius) ∧ |dot (s.pos - center) (unit f.normal)| ≤ length / 2 := by
  intro s hs
  obtain ⟨j, hj⟩ := made_pick hf h s hs
  set nn := unit f.normal with hnn
  have hunit : dot nn nn = 1 := by
    show sqNorm nn = 1
    have := norm3_pos hn
    rw [hnn, unit, sqNorm_smul, ← norm3_sq]
    field_simp
  set w : V3 := ![Real.cos (u j * 2 * Real.pi) * (u (j + 1) * (radius - s.r)), Real.sin (u j * 2 * Real.pi) * (u (j + 1) * (radius - s.r)), 0] with hw
  have hpos : s.pos - center = q.rot w + ((u (j + 2) - 0.5) * length) • nn := by
    rw [hj, pick, ← hw]; abel
  have hperp : dot (q.rot w) nn = 0 := by
    rw [← hz, Quat.dot_rot hq]; simp [dot, hw]
  have hdot : dot (s.pos - center) nn = (u (j + 2) - 0.5) * length := by
    rw [hpos]
    have : ∀ a b : V3, ∀ c : ℝ, dot (a + c • b) b = dot a b + c * dot b b := by intro a b c; simp only [dot, Pi.add_apply, Pi.smul_apply, smul_eq_mul]; ring
    rw [this, hperp, hunit]; ring
  have hac : across nn (s.pos - center) = q.rot w := by
    rw [across, hdot, hpos]; abel
  constructor
  · intro hr
    rw [hac]
    have h2 : norm3 (q.rot w) = u (j + 1) * (radius - s.r) := by
      have hnn : 0 ≤ u (j + 1) * (radius - s.r) := mul_nonneg (hu _).1 (by linarith)
      have : sqNorm (q.rot w) = (u (j + 1) * (radius - s.r)) ^ 2 := by
        rw [sqNorm, Quat.dot_rot hq]
        simp only [dot, hw, Matrix.cons_val_zero, Matrix.cons_val_one, Matrix.cons_val]
        have := Real.sin_sq_add_cos_sq (u j * 2 * Real.pi)
        linear_combination (u (j + 1) * (radius - s.r)) ^ 2 * this
      rw [norm3, this, Real.sqrt_sq hnn]
    rw [h2]
    have := (hu (j + 1)).2
    nlinarith
  · rw [hdot, abs_le]
    obtain ⟨u1, u2⟩ := hu (j + 2)
    constructor <;> nlinarith

/-- C179, boxes.  The centres of the spheres of a box factory stay within its box.  Missing: the spheres themselves, see `C179_violated`. -/
theorem C179_box_partial {past : Res ℝ} {C : Coll} {extents center : V3} {q : Quat} {ds : List ℝ} {u : Nat → ℝ} {dt : ℝ} {n : Nat} {f : Fac} {slots g : Nat} {s' : St}
    (hu : ∀ k, 0 ≤ u k ∧ u k < 1) (hq : q.sqNorm = 1) (he : ∀ a, 0 ≤ extents a) (hf : 0 ≤ f.maxAttempt)
    (h : action past C (.box extents center q) ds u dt n f slots g = some (.ok s')) :
    ∀ s ∈ s'.made, ∀ a, |dot (s.pos - center) (q.rot (Pi.single a 1))| ≤ extents a := by
  intro s hs a
  obtain ⟨j, hj⟩ := made_pick hf h s hs
  have hpos : s.pos - center = q.rot ![(u j - 0.5) * 2 * extents 0, (u (j + 1) - 0.5) * 2 * extents 1, (u (j + 2) - 0.5) * 2 * extents 2] := by
    rw [hj, pick]; simp
  rw [hpos, Quat.dot_rot hq]
  have key : ∀ (k : Nat) (a : Fin 3), |(u k - 0.5) * 2 * extents a| ≤ extents a := by
    intro k a
    obtain ⟨u1, u2⟩ := hu k
    have := he a
    rw [abs_le]
    constructor <;> nlinarith
  fin_cases a
  · simpa [dot] using key j 0
  · simpa [dot] using key (j + 1) 1
  · simpa [dot] using key (j + 2) 2

example (u : Nat → ℝ) (hu : ∀ k, 0 ≤ u k ∧ u k < 1) : ∃ s', action .ub noBodies spot [1] u 1 1 (fac0 1 1) 0 0 = some (.ok s') ∧ ∀ s ∈ s'.made, s.r ≤ 1 → norm3 (across ![0, 0, 1] s.pos) + s.r ≤ 1 := by
  obtain ⟨s', h, -, -⟩ := fac0_action u 0 0
  have hz : unit (fac0 1 1).normal = ![0, 0, 1] := unit_z
  refine ⟨s', h, fun s hs => ?_⟩
  have := (C179_circle hu (by simp [Quat.sqNorm, Quat.one]) (by intro h; have := congrFun h 2; simp [fac0] at this) (by rw [hz, Quat.rot_one]) le_rfl (by norm_num [fac0]) h s hs).1
  rw [hz, sub_zero] at this
  exact this

/-- C179 is violated by box factories: half of a sphere may be out of the box. -/
theorem C179_violated : ∃ s' s, action .ub noBodies (.box ![1, 1, 1] 0 Quat.one) [1] (fun _ => 0) 1 1 (fac0 1 1) 0 0 = some (.ok s') ∧ s ∈ s'.made ∧ s.pos 0 - s.r < -1 := by
  obtain ⟨s', h, h1, -⟩ := fac0_gen (.box ![1, 1, 1] 0 Quat.one) (fun _ => 0) 0 0
  obtain ⟨x, hx, -, hp, hr⟩ := made_one h1
  refine ⟨s', x, h, by simp [hx], ?_⟩
  rw [hp, hr, pick]
  simp only [Quat.rot_one, Pi.add_apply, Pi.zero_apply, Matrix.cons_val_zero]
  norm_num

/-! ## C181 -/

/-- The mass of a sphere is at least `m`. -/
def MassAtLeast (f : Fac) (ds : List ℝ) (u : Nat → ℝ) (m : ℝ) : Prop :=
  0 < f.rMin ∧ f.rMin ≤ f.rMax ∧ (∀ k, 0 ≤ u k ∧ u k < 1) ∧ f.cum = [] ∧ f.use = false ∧ ∀ d ∈ ds, m ≤ vol f.rMin * d ∧ 0 ≤ d

theorem loop_ends_count {C : Coll} {reg : Region} {ds : List ℝ} {vel : V3} {u : Nat → ℝ} (k : Nat) : ∀ (s : St), 0 ≤ s.f.maxParticles → s.f.maxParticles - s.f.numParticles ≤ k →
    loop C reg ds vel u k s ≠ none := by
  induction k with
  | zero =>
    intro s h0 h
    rw [loop, if_neg]
    · simp
    · rintro ⟨-, h2, -⟩
      rcases h2 with h2 | h2 <;> omega
  | succ k ih =>
    intro s h0 h
    rw [loop]
    split_ifs with hg
    · cases ht : turn C reg ds vel u s with
      | throws => simp
      | ub => simp
      | ok x =>
        obtain ⟨s₁, b⟩ := x
        cases b with
        | true => simp
        | false =>
          obtain ⟨bin, r, d, c, hm⟩ := turn_false ht
          obtain ⟨g, rfl⟩ := hm.result
          obtain ⟨x, y, hcf⟩ := create_f d vel bin r c { s with g := g }
          apply ih
          · rw [hcf]; exact h0
          · rw [hcf]; dsimp only; push_cast at h; omega
    · simp

theorem loop_ends_mass {C : Coll} {reg : Region} {ds : List ℝ} {vel : V3} {u : Nat → ℝ} {m : ℝ} (hm : 0 < m) (k : Nat) : ∀ (s : St), MassAtLeast s.f ds u m →
    s.f.goalMass - s.f.totalMass ≤ k * m → loop C reg ds vel u k s ≠ none := by
  induction k with
  | zero =>
    intro s h0 h
    rw [loop, if_neg]
    · simp
    · rintro ⟨h2, -⟩
      simp at h; linarith
  | succ k ih =>
    intro s h0 h
    rw [loop]
    split_ifs with hg
    · cases ht : turn C reg ds vel u s with
      | throws => simp
      | ub => simp
      | ok x =>
        obtain ⟨s₁, b⟩ := x
        cases b with
        | true => simp
        | false =>
          obtain ⟨bin, r, d, c, hmk⟩ := turn_false ht
          obtain ⟨g, rfl⟩ := hmk.result
          obtain ⟨x, y, hcf⟩ := create_f d vel bin r c { s with g := g }
          obtain ⟨k1, k2, k3, k4, k5, k6⟩ := h0
          have hr : s.f.rMin ≤ r := by
            obtain ⟨g2, hr⟩ := hmk.radius
            rw [nextRadius, if_neg (by simp [k5])] at hr
            simp only [Res.ok.injEq, Prod.mk.injEq] at hr
            obtain ⟨-, rfl, -⟩ := hr
            have := (k3 s.g).1
            nlinarith
          have hd : d ∈ ds := by
            exact List.mem_of_getElem? (material_some hmk.density)
          have hmass : m ≤ vol r * d := by
            refine le_trans (k6 d hd).1 (mul_le_mul_of_nonneg_right ?_ (k6 d hd).2)
            rw [vol, vol]
            have := Real.pi_pos
            have : s.f.rMin ^ 3 ≤ r ^ 3 := pow_le_pow_left₀ k1.le hr 3
            nlinarith
          apply ih
          · rw [hcf]; exact ⟨k1, k2, k3, k4, k5, k6⟩
          · rw [hcf]; dsimp only; push_cast at h; linarith
    · simp

/-- C181.  A step of a factory ends if the number of spheres is limited or the spheres have some mass.  Missing: other factories, see `C181_violated`. -/
theorem C181_ends_partial (past : Res ℝ) (C : Coll) (reg : Region) {ds : List ℝ} {u : Nat → ℝ} (dt : ℝ) {f : Fac} (slots g : Nat)
    (hf : 0 ≤ f.maxParticles ∨ ∃ m, 0 < m ∧ MassAtLeast f ds u m) : ∃ n, action past C reg ds u dt n f slots g ≠ none := by
  cases hs : start past dt f with
  | throws => exact ⟨0, by rw [action, hs]; simp⟩
  | ub => exact ⟨0, by rw [action, hs]; simp⟩
  | ok f' =>
    rcases hf with hf | ⟨m, hm, hf⟩
    · obtain ⟨a, b, c, d, e, m, v, rfl, -, -⟩ := start_f hs
      refine ⟨(f.maxParticles - f.numParticles).toNat, ?_⟩
      rw [action, hs]
      exact loop_ends_count _ _ hf (Int.self_le_toNat _)
    · have hf' : MassAtLeast f' ds u m := by
        obtain ⟨k1, k2, k3, k4, k5, k6⟩ := hf
        rw [start, prepare, if_neg (by simp [k4]), Res.bind_ok] at hs
        rw [← Res.ok.inj hs]
        exact ⟨k1, k2, k3, k4, k5, k6⟩
      obtain ⟨n, hn⟩ := exists_nat_ge ((f'.goalMass - f'.totalMass) / m)
      refine ⟨n, ?_⟩
      rw [action, hs]
      exact loop_ends_mass hm n _ hf' ((div_le_iff₀ hm).mp hn)

example (u : Nat → ℝ) (hu : ∀ k, 0 ≤ u k ∧ u k < 1) : ∃ n, action .ub noBodies spot [1] u 1 n (fac0 (-1) 1) 0 0 ≠ none := by
  apply C181_ends_partial
  right
  refine ⟨1, one_pos, by norm_num [fac0], le_rfl, hu, rfl, rfl, ?_⟩
  intro d hd
  simp only [List.mem_singleton] at hd
  subst hd
  have := Real.two_le_pi
  simp only [fac0, vol]
  constructor <;> nlinarith

/-- C181 is violated by spheres without mass and a negative number of attempts, which means no attempts: the step never ends. -/
theorem C181_violated (u : Nat → ℝ) (n : Nat) : action .ub noBodies spot [0] u 1 n { fac0 (-1) 1 with maxAttempt := -1 } 0 0 = none := by
  have hs : start .ub 1 { fac0 (-1) 1 with maxAttempt := -1 } = .ok { fac0 (-1) 1 with maxAttempt := -1, goalMass := 1 } := by
    have : prepare .ub { fac0 (-1) 1 with maxAttempt := -1, goalMass := 0 + 1 * 1 } = .ok { fac0 (-1) 1 with maxAttempt := -1, goalMass := 0 + 1 * 1 } := by
      rw [prepare, if_neg (by simp [fac0])]
    rw [start]
    erw [this]
    rw [Res.bind_ok]
    simp only [fac0, unit_z, Option.map_none]
    norm_num
  rw [action, hs]
  dsimp only
  generalize hv : initVel { fac0 (-1) 1 with maxAttempt := -1, goalMass := 1 } (u 0) = vel
  have : ∀ (n : Nat) (s : St), s.f.totalMass = 0 → s.f.goalMass = 1 → s.f.maxParticles = -1 → s.f.maxMass = -1 → s.f.maxAttempt = -1 → s.f.use = false → s.f.materialId = -1 → loop noBodies spot [0] vel u n s = none := by
    intro n
    induction n with
    | zero =>
      intro s h1 h2 h3 h4 h5 h6 h7
      rw [loop, if_pos]
      refine ⟨by rw [h1, h2]; norm_num, Or.inl (by omega), Or.inl (by rw [h4]; norm_num)⟩
    | succ n ih =>
      intro s h1 h2 h3 h4 h5 h6 h7
      rw [loop, if_pos ⟨by rw [h1, h2]; norm_num, Or.inl (by omega), Or.inl (by rw [h4]; norm_num)⟩]
      rw [turn_unchecked h5 h6 h7]
      dsimp only
      obtain ⟨x, y, hcf⟩ := create_f 0 vel 0 (s.f.rMin + u s.g * (s.f.rMax - s.f.rMin)) 0 { s with g := s.g + 1 }
      apply ih <;> rw [hcf] <;> dsimp only
      · rw [h1]; simp
      · exact h2
      · exact h3
      · exact h4
      · exact h5
      · exact h6
      · exact h7
  exact this n _ rfl rfl rfl rfl rfl rfl rfl

end Verif.Fac
