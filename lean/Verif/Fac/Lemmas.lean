import Verif.Fac.ProbeProps

/-!
# Helper lemmas about the loop of a factory
-/
namespace Verif.Fac
open Verif.Mech
open scoped Classical

theorem bind_inv {α β : Type} {r : Res α} {f : α → Res β} {b : β} (h : r.bind f = .ok b) : ∃ a, r = .ok a ∧ f a = .ok b := by
  cases r with
  | ok a => exact ⟨a, rfl, h⟩
  | throws => cases h
  | ub => cases h

theorem material_some {ds : List ℝ} {m : Int} {d : ℝ} (h : material ds m = .ok d) : ds[(if m ≥ 0 then m else ds.length + m).toNat]? = some d := by
  rw [material] at h
  by_cases hc : (if m ≥ 0 then m else ds.length + m) < 0 ∨ (if m ≥ 0 then m else ds.length + m) ≥ ds.length
  · rw [if_pos hc] at h; cases h
  · rw [if_neg hc, readR] at h
    split at h
    · rename_i w hw
      rw [hw, Res.ok.inj h]
    · cases h

theorem turn_unchecked {C : Coll} {reg : Region} {d : ℝ} {vel : V3} {u : Nat → ℝ} {s : St} (h1 : s.f.maxAttempt = -1) (h2 : s.f.use = false) (h3 : s.f.materialId = -1) :
    turn C reg [d] vel u s = .ok (create d vel 0 (s.f.rMin + u s.g * (s.f.rMax - s.f.rMin)) 0 { s with g := s.g + 1 }, false) := by
  rw [turn, nextRadius, if_neg (by simp [h2]), Res.bind_ok]
  dsimp only
  rw [if_pos (by omega), Res.bind_ok]
  dsimp only
  rw [h3, show material [d] (-1) = .ok d by simp [material, readR], Res.bind_ok]

section
variable {C : Coll} {reg : Region} {ds : List ℝ} {vel : V3} {u : Nat → ℝ}

/-- The position of a sphere is free. -/
def FreePos (C : Coll) (made : List Sph) (r : ℝ) (c : V3) : Prop :=
  probe C (c - fun _ => r) (c + fun _ => r) = .ok [] ∧ ∀ s ∈ made, ¬ norm3 (s.pos - c) < s.r + r

theorem place_some {n : V3} {made : List Sph} {r : ℝ} {k g g' : Nat} {c : V3} (h : place C reg n u made r k g = .ok (some c, g')) :
    (∃ j, c = pick reg n u j r) ∧ FreePos C made r c := by
  induction k generalizing g with
  | zero => rw [place] at h; simp at h
  | succ k ih =>
    rw [place] at h
    obtain ⟨ids, h1, h2⟩ := bind_inv h
    split_ifs at h2 with hf
    · simp only [Res.ok.injEq, Prod.mk.injEq, Option.some.injEq] at h2
      obtain ⟨rfl, -⟩ := h2
      exact ⟨⟨g, rfl⟩, by rw [h1, hf.1], hf.2⟩
    · exact ih h2

theorem place_none {n : V3} {made : List Sph} {r : ℝ} {k g g' : Nat} (h : place C reg n u made r k g = .ok (none, g')) :
    ∀ j < k, ¬ FreePos C made r (pick reg n u (g + 3 * j) r) := by
  induction k generalizing g with
  | zero => intro j hj; omega
  | succ k ih =>
    rw [place] at h
    obtain ⟨ids, h1, h2⟩ := bind_inv h
    split_ifs at h2 with hf
    · simp at h2
    · intro j hj
      match j with
      | 0 =>
        rintro ⟨f1, f2⟩
        rw [Nat.mul_zero, Nat.add_zero] at f1 f2
        rw [f1] at h1
        exact hf ⟨(Res.ok.inj h1).symm, f2⟩
      | j + 1 =>
        have := ih h2 j (by omega)
        rwa [show g + 3 + 3 * j = g + 3 * (j + 1) by ring] at this

/-- What a turn that makes a sphere does. -/
structure Makes (C : Coll) (reg : Region) (ds : List ℝ) (vel : V3) (u : Nat → ℝ) (s s' : St) (bin : Nat) (r d : ℝ) (c : V3) : Prop where
  radius : ∃ g, nextRadius s.f u s.g = .ok (bin, r, g)
  position : (s.f.maxAttempt < 0 ∧ c = 0) ∨ (0 ≤ s.f.maxAttempt ∧ (∃ j, c = pick reg s.f.normal u j r) ∧ FreePos C s.made r c)
  density : material ds s.f.materialId = .ok d
  result : ∃ g, s' = create d vel bin r c { s with g := g }

theorem turn_false {s s' : St} (h : turn C reg ds vel u s = .ok (s', false)) : ∃ bin r d c, Makes C reg ds vel u s s' bin r d c := by
  rw [turn] at h
  obtain ⟨⟨bin, r, g⟩, h1, h⟩ := bind_inv h
  obtain ⟨⟨c, g'⟩, h2, h⟩ := bind_inv h
  dsimp only at h2 h
  cases c with
  | none => simp at h
  | some c =>
    obtain ⟨d, h3, h⟩ := bind_inv h
    simp only [Res.ok.injEq, Prod.mk.injEq, and_true] at h
    refine ⟨bin, r, d, c, ⟨g, h1⟩, ?_, h3, ⟨g', h.symm⟩⟩
    split_ifs at h2 with ha
    · simp only [Res.ok.injEq, Prod.mk.injEq, Option.some.injEq] at h2
      exact Or.inl ⟨ha, h2.1.symm⟩
    · exact Or.inr ⟨not_lt.mp ha, place_some h2⟩

/-- What a turn that gives up does: all attempts failed. -/
structure GivesUp (C : Coll) (reg : Region) (u : Nat → ℝ) (s s' : St) : Prop where
  failed : ∃ r g, ∀ j : Nat, (j : Int) < s.f.maxAttempt → ¬ FreePos C s.made r (pick reg s.f.normal u (g + 3 * j) r)
  result : ∃ g, s' = { s with g := g, f := if s.f.stopIfFailed then { s.f with massFlowRate := 0, goalMass := s.f.totalMass } else s.f }

theorem turn_true {s s' : St} (h : turn C reg ds vel u s = .ok (s', true)) : GivesUp C reg u s s' := by
  rw [turn] at h
  obtain ⟨⟨bin, r, g⟩, h1, h⟩ := bind_inv h
  obtain ⟨⟨c, g'⟩, h2, h⟩ := bind_inv h
  dsimp only at h2 h
  cases c with
  | some c =>
    obtain ⟨d, h3, h⟩ := bind_inv h
    simp at h
  | none =>
    simp only [Res.ok.injEq, Prod.mk.injEq, and_true] at h
    split_ifs at h2 with ha
    · simp at h2
    · exact ⟨⟨r, g, fun j hj => place_none h2 j (by omega)⟩, ⟨g', h.symm⟩⟩

/-- Induction over the loop: the end is reached from a state with the invariant where the condition is false, or from one where the engine gives up. -/
theorem loop_ind {P : St → Prop} (hP : ∀ s s' bin r d c, P s → goesOn s.f → Makes C reg ds vel u s s' bin r d c → P s') :
    ∀ (n : Nat) {s s' : St}, P s → loop C reg ds vel u n s = some (.ok s') →
      (P s' ∧ ¬ goesOn s'.f) ∨ ∃ s₀, P s₀ ∧ goesOn s₀.f ∧ GivesUp C reg u s₀ s' := by
  intro n
  induction n with
  | zero =>
    intro s s' hs h
    rw [loop] at h
    split_ifs at h with hg
    simp only [Option.some.injEq, Res.ok.injEq] at h
    subst h
    exact Or.inl ⟨hs, hg⟩
  | succ n ih =>
    intro s s' hs h
    rw [loop] at h
    split_ifs at h with hg
    · cases ht : turn C reg ds vel u s with
      | throws => rw [ht] at h; simp at h
      | ub => rw [ht] at h; simp at h
      | ok x =>
        obtain ⟨s₁, b⟩ := x
        rw [ht] at h
        cases b with
        | true =>
          simp only [Option.some.injEq, Res.ok.injEq] at h
          subst h
          exact Or.inr ⟨s, hs, hg, turn_true ht⟩
        | false =>
          obtain ⟨bin, r, d, c, hm⟩ := turn_false ht
          exact ih (hP s s₁ bin r d c hs hg hm) h
    · simp only [Option.some.injEq, Res.ok.injEq] at h
      subst h
      exact Or.inl ⟨hs, hg⟩

/-- The same for invariants that do not see the end of the engine. -/
theorem loop_inv {P : St → Prop} (hP : ∀ s s' bin r d c, P s → goesOn s.f → Makes C reg ds vel u s s' bin r d c → P s')
    (hQ : ∀ s s', P s → GivesUp C reg u s s' → P s') {n : Nat} {s s' : St} (hs : P s) (h : loop C reg ds vel u n s = some (.ok s')) : P s' := by
  rcases loop_ind hP n hs h with h | ⟨s₀, h0, -, h1⟩
  · exact h.1
  · exact hQ s₀ s' h0 h1

end

theorem account_f (f : Fac) (bin : Nat) (m : ℝ) : ∃ a b, account f bin m = { f with curMean := a, curProc := b } := by
  rw [account]
  by_cases h : f.use = true
  · rw [if_pos h]
    exact ⟨_, _, rfl⟩
  · rw [if_neg h]
    exact ⟨f.curMean, f.curProc, rfl⟩

theorem create_f (d : ℝ) (vel : V3) (bin : Nat) (r : ℝ) (c : V3) (s : St) : ∃ a b, (create d vel bin r c s).f =
    { s.f with ids := s.f.ids ++ [s.slots], totalMass := s.f.totalMass + vol r * d, totalVolume := s.f.totalVolume + vol r, numParticles := s.f.numParticles + 1, curMean := a, curProc := b } := by
  obtain ⟨a, b, h⟩ := account_f { s.f with ids := s.f.ids ++ [s.slots], totalMass := s.f.totalMass + vol r * d, totalVolume := s.f.totalVolume + vol r, numParticles := s.f.numParticles + 1 } bin (vol r * d)
  exact ⟨a, b, by rw [create]; exact h⟩

theorem prepare_f {past : Res ℝ} {f f' : Fac} (h : prepare past f = .ok f') : ∃ a b c d e, f' = { f with cum := a, use := b, need := c, curMean := d, curProc := e } := by
  rw [prepare] at h
  split_ifs at h with h1
  · obtain ⟨x, -, h⟩ := bind_inv h
    exact ⟨_, _, _, _, _, (Res.ok.inj h).symm⟩
  · exact ⟨f.cum, f.use, f.need, f.curMean, f.curProc, (Res.ok.inj h).symm⟩

/-- What the preparation leaves as it is. -/
theorem start_f {past : Res ℝ} {dt : ℝ} {f f' : Fac} (h : start past dt f = .ok f') : ∃ a b c d e m v, f' =
    { f with goalMass := f.goalMass + f.massFlowRate * dt, normal := unit f.normal, normalVel := v, maxMass := m, cum := a, use := b, need := c, curMean := d, curProc := e } ∧
    m = (if f.maxMass > 0 ∧ f.maxParticles > 0 then -1 else f.maxMass) ∧ v = f.normalVel.map fun v => if norm3 v > 0 then unit v else v := by
  rw [start] at h
  obtain ⟨f₁, h1, h⟩ := bind_inv h
  obtain ⟨a, b, c, d, e, rfl⟩ := prepare_f h1
  exact ⟨a, b, c, d, e, _, _, (Res.ok.inj h).symm, rfl, rfl⟩

theorem action_inv {past : Res ℝ} {C : Coll} {reg : Region} {ds : List ℝ} {u : Nat → ℝ} {dt : ℝ} {n : Nat} {f : Fac} {slots g : Nat} {s' : St}
    (h : action past C reg ds u dt n f slots g = some (.ok s')) : ∃ f', start past dt f = .ok f' ∧ loop C reg ds (initVel f' (u g)) u n ⟨f', slots, [], g + 1⟩ = some (.ok s') := by
  rw [action] at h
  cases hs : start past dt f with
  | throws => rw [hs] at h; simp at h
  | ub => rw [hs] at h; simp at h
  | ok f' => rw [hs] at h; exact ⟨f', rfl, h⟩

/-- A sphere and a box apart along one axis. -/
theorem comp_le_norm (v : V3) (a : Fin 3) : |v a| ≤ norm3 v := by
  rw [norm3]
  apply Real.le_sqrt_of_sq_le
  rw [sq_abs, sqNorm, dot]
  fin_cases a
  · show v 0 ^ 2 ≤ _
    nlinarith [sq_nonneg (v 1), sq_nonneg (v 2)]
  · show v 1 ^ 2 ≤ _
    nlinarith [sq_nonneg (v 0), sq_nonneg (v 2)]
  · show v 2 ^ 2 ≤ _
    nlinarith [sq_nonneg (v 0), sq_nonneg (v 1)]

end Verif.Fac
