import Verif.Meas.StressProps

/-!
# Energy, momentum and dynamic stress

**C187** `kineticEnergy` is the kinetic energy of the free bodies and clumps.
**C188** `momentum` and `angularMomentum` are the momenta of all bodies.
**C192** Dynamic stresses.
-/
namespace Verif.Meas
open Verif Verif.Mech Matrix

/-! ### Specification -/

/-- body number `i` moves on its own: it exists, is not fixed and is not a member of a clump -/
def Free (s : MScene) (i : Nat) (b : MBody) : Prop :=
  s.bodies[i]? = some (some b) ∧ b.dynamic = true ∧ (b.clumpId = none ∨ b.clumpId = some i)

/-- principal axis number `k` of a body -/
def axis (b : MBody) (k : Fin 3) : V3 := b.ori.rot (fun a => if a = k then 1 else 0)

/-- kinetic energy of a body with the principal moments of inertia about its axes -/
noncomputable def trueEnergy (b : MBody) (v w : V3) : ℝ :=
  1 / 2 * (b.mass * (v 0 ^ 2 + v 1 ^ 2 + v 2 ^ 2) +
    (b.inertia 0 * dot (axis b 0) w ^ 2 + b.inertia 1 * dot (axis b 1) w ^ 2 + b.inertia 2 * dot (axis b 2) w ^ 2))

/-- the body is marked as aspherical, or its inertia is the same about all axes -/
def Marked (b : MBody) : Prop := b.aspherical = true ∨ (b.inertia 0 = b.inertia 1 ∧ b.inertia 1 = b.inertia 2)

open Classical in
/-- sum over the bodies which move on their own -/
noncomputable def sumFree (s : MScene) (f : MBody → ℝ) : ℝ :=
  ((List.range s.bodies.length).map fun i => match s.bodies[i]? with
    | some (some b) => if Free s i b then f b else 0
    | _ => 0).sum

/-! ### C187 -/

theorem axis_dot (b : MBody) (w : V3) (k : Fin 3) : dot (axis b k) w = (b.ori.toMat.transpose *ᵥ w) k := by
  unfold axis
  rw [← Quat.toMat_mulVec]
  fin_cases k <;> simp [dot, mulVec, dotProduct, Fin.sum_univ_three]

theorem aspherical_energy (q : Quat) (I w : V3) :
    dot w ((q.toMat * Matrix.diagonal I * q.toMat.transpose) *ᵥ w) =
      I 0 * (q.toMat.transpose *ᵥ w) 0 ^ 2 + I 1 * (q.toMat.transpose *ᵥ w) 1 ^ 2 + I 2 * (q.toMat.transpose *ᵥ w) 2 ^ 2 := by
  have e : (q.toMat * Matrix.diagonal I * q.toMat.transpose) *ᵥ w = q.toMat *ᵥ (Matrix.diagonal I *ᵥ (q.toMat.transpose *ᵥ w)) := by
    simp only [mulVec_mulVec, Matrix.mul_assoc]
  have t := dot_transpose q.toMat.transpose w (Matrix.diagonal I *ᵥ (q.toMat.transpose *ᵥ w))
  rw [Matrix.transpose_transpose] at t
  rw [e, t]
  simp only [dot, mulVec_diagonal]
  ring

theorem axes_norm {q : Quat} (h : q.sqNorm = 1) (w : V3) :
    (q.toMat.transpose *ᵥ w) 0 ^ 2 + (q.toMat.transpose *ᵥ w) 1 ^ 2 + (q.toMat.transpose *ᵥ w) 2 ^ 2 = sqNorm w := by
  have e : q.toMat.transpose = q.conj.toMat := by
    ext i j
    fin_cases i <;> fin_cases j <;> simp [Quat.toMat, Quat.conj] <;> ring
  have hc : q.conj.sqNorm = 1 := by rw [Quat.sqNorm_conj, h]
  rw [e, Quat.toMat_mulVec]
  have := Quat.dot_rot hc w w
  unfold sqNorm
  rw [← this]
  simp only [dot]; ring

/-- velocity and angular velocity that count: without the motion of the cell, if there is one -/
noncomputable def ownVel (s : MScene) (b : MBody) : V3 :=
  if s.periodic then b.vel - s.cell.velGrad *ᵥ (b.pos - s.dt • b.vel) else b.vel

/-- half the curl of the velocity field of the cell -/
noncomputable def cellSpin (s : MScene) : V3 :=
  ![(s.cell.velGrad 2 1 - s.cell.velGrad 1 2) / 2, (s.cell.velGrad 0 2 - s.cell.velGrad 2 0) / 2,
    (s.cell.velGrad 1 0 - s.cell.velGrad 0 1) / 2]

/-- the angular velocity that counts -/
noncomputable def ownSpin (s : MScene) (b : MBody) : V3 := if s.periodic then b.angVel - cellSpin s else b.angVel

theorem spin_eq (s : MScene) : spin s.cell = cellSpin s := by
  apply v3_ext <;> simp [spin, cellSpin] <;> ring

theorem bodyEnergy_eq (s : MScene) (b : MBody) (hq : b.ori.sqNorm = 1) (hm : Marked b) :
    bodyEnergy s b = trueEnergy b (ownVel s b) (ownSpin s b) := by
  have hE : (if s.periodic then 2⁻¹ * b.mass * sqNorm (fluctVel (b.pos - s.dt • b.vel) b.vel s.cell.velGrad)
      else 2⁻¹ * (b.mass * sqNorm b.vel)) = 1 / 2 * (b.mass * (ownVel s b 0 ^ 2 + ownVel s b 1 ^ 2 + ownVel s b 2 ^ 2)) := by
    unfold ownVel
    by_cases hp : s.periodic = true
    · rw [if_pos hp, if_pos hp]; simp only [sqNorm, dot, fluctVel]; ring
    · rw [if_neg hp, if_neg hp]; simp only [sqNorm, dot]; ring
  have hW : (if s.periodic then b.angVel - spin s.cell else b.angVel) = ownSpin s b := by rw [spin_eq]; rfl
  unfold bodyEnergy trueEnergy
  simp only [hE, hW, axis_dot]
  by_cases ha : b.aspherical = true
  · rw [if_pos ha, aspherical_energy]; ring
  · rw [if_neg ha]
    rcases hm with h | ⟨h1, h2⟩
    · exact absurd h ha
    · have n := axes_norm hq (ownSpin s b)
      rw [h1, h2]
      have : dot (ownSpin s b) (fun a => b.inertia a * ownSpin s b a) = b.inertia 2 * sqNorm (ownSpin s b) := by
        simp only [dot, sqNorm, h1, h2]; ring
      rw [this, ← n]; ring

theorem isMember_iff (i : Nat) (b : MBody) : isMember i b = false ↔ (b.clumpId = none ∨ b.clumpId = some i) := by
  unfold isMember isClump
  cases h : b.clumpId with
  | none => simp
  | some c => simp

/-- the bodies counted by `kineticEnergy`, with their numbers -/
def Counts (x : Option MBody × Nat) : Prop := ∃ b, x.1 = some b ∧ b.dynamic = true ∧ isMember x.2 b = false

theorem energyStep_skip (s : MScene) (acc : ℝ × ℝ × Option Nat) (x : Option MBody × Nat) (h : ¬ Counts x) : energyStep s acc x = acc := by
  obtain ⟨y, i⟩ := x
  cases y with
  | none => rfl
  | some b =>
    rw [energyStep]
    simp only
    rw [if_pos]
    by_contra hn
    push Not at hn
    exact h ⟨b, rfl, by simpa using hn.1, by simpa using hn.2⟩

theorem energyStep_take (s : MScene) (acc : ℝ × ℝ × Option Nat) (b : MBody) (i : Nat) (hd : b.dynamic = true) (hm : isMember i b = false) :
    energyStep s acc (some b, i) =
      (acc.1 + bodyEnergy s b, if bodyEnergy s b > acc.2.1 then (bodyEnergy s b, some i) else acc.2) := by
  rw [energyStep]
  simp only
  rw [if_neg (by rw [hd, hm]; simp)]

/-- what the loop has found after the bodies of a list -/
structure Found (s : MScene) (l : List (Option MBody × Nat)) (r : ℝ × ℝ × Option Nat) : Prop where
  total : r.1 = (l.map fun x => match x.1 with
    | some b => if b.dynamic = true ∧ isMember x.2 b = false then bodyEnergy s b else 0
    | none => 0).sum
  nonneg : 0 ≤ r.2.1
  most : ∀ b i, (some b, i) ∈ l → b.dynamic = true → isMember i b = false → bodyEnergy s b ≤ r.2.1
  whose : (r.2.2 = none ∧ r.2.1 = 0) ∨
    ∃ b i, (some b, i) ∈ l ∧ b.dynamic = true ∧ isMember i b = false ∧ r.2.2 = some i ∧ bodyEnergy s b = r.2.1 ∧ 0 < r.2.1

theorem found_step (s : MScene) (l : List (Option MBody × Nat)) (r : ℝ × ℝ × Option Nat) (x : Option MBody × Nat)
    (h : Found s l r) : Found s (l ++ [x]) (energyStep s r x) := by
  by_cases hx : Counts x
  · obtain ⟨y, i⟩ := x
    obtain ⟨b, hb, hd, hm⟩ := hx
    simp only at hb hm
    subst hb
    rw [energyStep_take s r b i hd hm]
    have hm' : ∀ b' i', (some b', i') ∈ l ++ [(some b, i)] → (some b', i') ∈ l ∨ (b' = b ∧ i' = i) := by
      intro b' i' h'
      rcases List.mem_append.mp h' with h' | h'
      · exact .inl h'
      · simp only [List.mem_singleton, Prod.mk.injEq, Option.some.injEq] at h'; exact .inr h'
    by_cases hg : bodyEnergy s b > r.2.1
    · rw [if_pos hg]
      refine ⟨?_, (h.nonneg.trans_lt hg).le, ?_, .inr ⟨b, i, by simp, hd, hm, rfl, rfl, h.nonneg.trans_lt hg⟩⟩
      · simp [h.total, hd, hm]
      · intro b' i' h' d' m'
        rcases hm' b' i' h' with h' | ⟨rfl, rfl⟩
        · exact (h.most b' i' h' d' m').trans hg.le
        · exact le_refl _
    · rw [if_neg hg]
      refine ⟨?_, h.nonneg, ?_, ?_⟩
      · simp [h.total, hd, hm]
      · intro b' i' h' d' m'
        rcases hm' b' i' h' with h' | ⟨rfl, rfl⟩
        · exact h.most b' i' h' d' m'
        · exact not_lt.mp hg
      · rcases h.whose with h | ⟨b', i', h', q⟩
        · exact .inl h
        · exact .inr ⟨b', i', List.mem_append_left _ h', q⟩
  · rw [energyStep_skip s r x hx]
    have hin : ∀ b i, (some b, i) ∈ l ++ [x] → b.dynamic = true → isMember i b = false → (some b, i) ∈ l := by
      intro b i h' d m
      rcases List.mem_append.mp h' with h' | h'
      · exact h'
      · exact absurd ⟨b, by rw [← List.mem_singleton.mp h'], d, by rw [← List.mem_singleton.mp h']; exact m⟩ hx
    refine ⟨?_, h.nonneg, fun b i h' d m => h.most b i (hin b i h' d m) d m, ?_⟩
    · rw [List.map_append, List.sum_append, ← h.total]
      obtain ⟨y, i⟩ := x
      cases y with
      | none => simp
      | some b =>
        have : ¬ (b.dynamic = true ∧ isMember i b = false) := fun ⟨d, m⟩ => hx ⟨b, rfl, d, m⟩
        simp [this]
    · rcases h.whose with h | ⟨b', i', h', q⟩
      · exact .inl h
      · exact .inr ⟨b', i', List.mem_append_left _ h', q⟩

theorem found_all (s : MScene) : Found s (numbered s) ((numbered s).foldl (energyStep s) (0, 0, none)) := by
  have key : ∀ (l l' : List (Option MBody × Nat)) r, Found s l' r → Found s (l' ++ l) (l.foldl (energyStep s) r) := by
    intro l
    induction l with
    | nil => intro l' r h; simpa using h
    | cons x l ih =>
      intro l' r h
      have := ih (l' ++ [x]) _ (found_step s l' r x h)
      simpa using this
  have := key (numbered s) [] (0, 0, none) ⟨rfl, le_refl _, fun _ _ h => (by cases h), .inl ⟨rfl, rfl⟩⟩
  simpa using this

theorem mem_numbered (s : MScene) (b : Option MBody) (i : Nat) : (b, i) ∈ numbered s ↔ s.bodies[i]? = some b := by
  unfold numbered
  rw [List.mk_mem_zipIdx_iff_getElem?]

theorem sum_numbered (s : MScene) (f : Option MBody → Nat → ℝ) :
    ((numbered s).map fun x => f x.1 x.2).sum = ((List.range s.bodies.length).map fun i => f (s.bodies[i]?.getD none) i).sum := by
  congr 1
  apply List.ext_getElem?
  intro i
  rw [List.getElem?_map, List.getElem?_map, numbered, List.getElem?_zipIdx]
  by_cases h : i < s.bodies.length
  · rw [List.getElem?_range h, List.getElem?_eq_getElem h]; simp [List.getElem?_eq_getElem h]
  · rw [List.getElem?_eq_none (not_lt.mp h), List.getElem?_eq_none (by simpa using h)]; rfl

/-- **C187.** The kinetic energy is the sum of `½(m v² + ω·I ω)` over the bodies which move on their own, with the inertia about
the true axes of the body; in a periodic cell without the mean motion of the cell.  Bodies with different principal moments must
be marked as aspherical.  The body named is one with the greatest energy, and none is named if all energies are zero. -/
theorem C187_energy (s : MScene)
    (hb : ∀ i b, Free s i b → b.ori.sqNorm = 1 ∧ Marked b ∧ 0 ≤ b.mass ∧ ∀ a, 0 ≤ b.inertia a) :
    (kineticEnergy s).1 = sumFree s (fun b => trueEnergy b (ownVel s b) (ownSpin s b)) ∧
    0 ≤ (kineticEnergy s).1 ∧
    (∀ j, (kineticEnergy s).2 = some j → ∃ b, Free s j b ∧ ∀ i b', Free s i b' →
      trueEnergy b' (ownVel s b') (ownSpin s b') ≤ trueEnergy b (ownVel s b) (ownSpin s b)) ∧
    ((kineticEnergy s).2 = none → ∀ i b, Free s i b → trueEnergy b (ownVel s b) (ownSpin s b) = 0) := by
  have F := found_all s
  have hfree : ∀ i b, Free s i b ↔ ((some b, i) ∈ numbered s ∧ b.dynamic = true ∧ isMember i b = false) := by
    intro i b
    rw [mem_numbered, isMember_iff]; rfl
  have hE : ∀ i b, Free s i b → bodyEnergy s b = trueEnergy b (ownVel s b) (ownSpin s b) := fun i b h =>
    bodyEnergy_eq s b (hb i b h).1 (hb i b h).2.1
  have hpos : ∀ i b, Free s i b → 0 ≤ trueEnergy b (ownVel s b) (ownSpin s b) := by
    intro i b h
    obtain ⟨-, -, hm, hI⟩ := hb i b h
    have := hI 0
    have := hI 1
    have := hI 2
    unfold trueEnergy
    positivity
  have hsum : (kineticEnergy s).1 = sumFree s (fun b => trueEnergy b (ownVel s b) (ownSpin s b)) := by
    show ((numbered s).foldl (energyStep s) (0, 0, none)).1 = _
    rw [F.total]
    rw [sum_numbered s (fun y i => match y with
      | some b => if b.dynamic = true ∧ isMember i b = false then bodyEnergy s b else 0
      | none => 0)]
    unfold sumFree
    congr 1
    refine List.map_congr_left fun i hi => ?_
    have hi := List.mem_range.mp hi
    rw [List.getElem?_eq_getElem hi]
    simp only [Option.getD_some]
    cases hy : s.bodies[i] with
    | none => rfl
    | some b =>
      simp only
      have hl : s.bodies[i]? = some (some b) := by rw [List.getElem?_eq_getElem hi, hy]
      by_cases hf : Free s i b
      · rw [if_pos hf, if_pos ((hfree i b).mp hf).2, hE i b hf]
      · rw [if_neg hf, if_neg]
        intro hc
        exact hf ⟨hl, hc.1, (isMember_iff i b).mp hc.2⟩
  refine ⟨hsum, ?_, ?_, ?_⟩
  · rw [hsum]
    unfold sumFree
    apply List.sum_nonneg
    intro x hx
    obtain ⟨i, hi, rfl⟩ := List.mem_map.mp hx
    have hi := List.mem_range.mp hi
    rw [List.getElem?_eq_getElem hi]
    cases s.bodies[i] with
    | none => exact le_refl _
    | some b =>
      simp only
      by_cases hf : Free s i b
      · rw [if_pos hf]; exact hpos i b hf
      · rw [if_neg hf]
  · intro j hj
    rcases F.whose with h | ⟨b, i, h, d, m, e1, e2, -⟩
    · have : (kineticEnergy s).2 = none := h.1
      rw [this] at hj; cases hj
    · have : (kineticEnergy s).2 = some i := e1
      rw [this] at hj
      cases hj
      have hf := (hfree j b).mpr ⟨h, d, m⟩
      refine ⟨b, hf, fun k b' hf' => ?_⟩
      rw [← hE j b hf, ← hE k b' hf', e2]
      obtain ⟨h', d', m'⟩ := (hfree k b').mp hf'
      exact F.most b' k h' d' m'
  · intro hn i b hf
    obtain ⟨h', d', m'⟩ := (hfree i b).mp hf
    rcases F.whose with h | ⟨b', i', -, -, -, e1, -, -⟩
    · have := F.most b i h' d' m'
      rw [h.2, hE i b hf] at this
      exact le_antisymm this (hpos i b hf)
    · have : (kineticEnergy s).2 = some i' := e1
      rw [this] at hn; cases hn

/-- **C187 (mean field).** Bodies which follow the motion of a deforming cell have no energy. -/
theorem C187_mean_field (s : MScene) (hp : s.periodic = true)
    (hb : ∀ i b, Free s i b → b.ori.sqNorm = 1 ∧ Marked b ∧ 0 ≤ b.mass ∧ ∀ a, 0 ≤ b.inertia a)
    (hv : ∀ i b, Free s i b → b.vel = s.cell.velGrad *ᵥ (b.pos - s.dt • b.vel) ∧ b.angVel = cellSpin s) :
    (kineticEnergy s).1 = 0 := by
  rw [(C187_energy s hb).1]
  unfold sumFree
  apply List.sum_eq_zero
  intro x hx
  obtain ⟨i, hi, rfl⟩ := List.mem_map.mp hx
  rw [List.getElem?_eq_getElem (List.mem_range.mp hi)]
  cases s.bodies[i]'(List.mem_range.mp hi) with
  | none => rfl
  | some b =>
    simp only
    by_cases hf : Free s i b
    · rw [if_pos hf]
      have v0 : ownVel s b = 0 := by unfold ownVel; rw [if_pos hp, ← (hv i b hf).1, sub_self]
      have w0 : ownSpin s b = 0 := by unfold ownSpin; rw [if_pos hp, (hv i b hf).2, sub_self]
      rw [v0, w0]
      simp [trueEnergy, dot]
    · rw [if_neg hf]

/-- **C187 (spin).** The angular velocity taken away is that of the velocity field of the cell: its skew part turns vectors as
this angular velocity does. -/
theorem C187_spin (s : MScene) (x : V3) :
    cross (cellSpin s) x = (1 / 2 : ℝ) • (s.cell.velGrad *ᵥ x - s.cell.velGrad.transpose *ᵥ x) := by
  apply v3_ext <;> simp [cellSpin, mulVec, dotProduct, Fin.sum_univ_three] <;> ring

/-- **C187 (calm).** After `calm()` the bodies of a scene without periodic cell have no kinetic energy. -/
theorem C187_calm (s : MScene) (hp : s.periodic = false) (mask : ℤ) (hm : mask ≤ 0) : (kineticEnergy (calm s mask)).1 = 0 := by
  have F := found_all (calm s mask)
  show ((numbered (calm s mask)).foldl (energyStep (calm s mask)) (0, 0, none)).1 = 0
  rw [F.total]
  apply List.sum_eq_zero
  intro x hx
  obtain ⟨⟨y, i⟩, hy, rfl⟩ := List.mem_map.mp hx
  rw [mem_numbered] at hy
  simp only
  cases y with
  | none => rfl
  | some b =>
    simp only
    by_cases h : b.dynamic = true ∧ isMember i b = false
    · rw [if_pos h]
      have hb : s.bodies[i]?.map (fun o => o.map (calmBody mask)) = some (some b) := by
        rw [← hy]; simp [calm]
      cases ho : s.bodies[i]? with
      | none => rw [ho] at hb; cases hb
      | some o =>
        cases o with
        | none => rw [ho] at hb; simp at hb
        | some b0 =>
          rw [ho] at hb
          simp only [Option.map_some, Option.some.injEq] at hb
          have hcb : calmBody mask b0 = b := hb
          have hd0 : b0.dynamic = true := by
            by_contra hn
            rw [calmBody, if_pos (by simpa using hn)] at hcb
            rw [hcb] at hn; exact hn h.1
          rw [calmBody, if_neg (by rw [hd0]; decide), if_neg (by intro hc; omega)] at hcb
          have e1 : b.vel = 0 := by rw [← hcb]
          have e2 : b.angVel = 0 := by rw [← hcb]
          have hp' : (calm s mask).periodic = false := hp
          unfold bodyEnergy
          simp [hp', e1, e2, sqNorm, dot]
    · rw [if_neg h]

/-! ### C188 -/

/-- a quantity of a body; an empty place has none -/
def onBody {M : Type} [Zero M] (g : MBody → M) : Option MBody → M
  | some b => g b
  | none => 0

/-- the bodies which have a momentum of their own: all that exist but members of clumps, whose mass the clump has -/
noncomputable def trueMomentum (s : MScene) : V3 :=
  ((numbered s).map fun x => match x.1 with
    | some b => if isMember x.2 b = false then b.mass • b.vel else 0
    | none => 0).sum

theorem foldR_bodies {M : Type} [AddCommMonoid M] (f : M → Option MBody → Res M) (g : MBody → M) (s : MScene)
    (h : ∀ b m, f m (some b) = .ok (m + g b)) (hall : ∀ o ∈ s.bodies, o ≠ none) :
    foldR f 0 s.bodies = .ok ((s.bodies.map (onBody g)).sum) := by
  rw [foldR_sum f (onBody g) s.bodies _ 0, zero_add]
  intro o ho m
  cases o with
  | none => exact absurd rfl (hall none ho)
  | some b => exact h b m

theorem numbered_fst {M : Type} [AddCommMonoid M] (s : MScene) (g : Option MBody → M) :
    ((numbered s).map fun x => g x.1).sum = (s.bodies.map g).sum := by
  congr 1
  rw [show (fun x : Option MBody × Nat => g x.1) = g ∘ Prod.fst from rfl, ← List.map_map, numbered, List.zipIdx_map_fst]

/-- **C188 (part).** If no body was ever erased and there are no clumps, `momentum` is the momentum. -/
theorem C188_momentum_partial (s : MScene) (hall : ∀ o ∈ s.bodies, o ≠ none)
    (hc : ∀ i b, s.bodies[i]? = some (some b) → isMember i b = false) : momentum s = .ok (trueMomentum s) := by
  rw [momentum, foldR_bodies _ (fun b => b.mass • b.vel) s (fun b m => rfl) hall]
  congr 1
  rw [← numbered_fst s (onBody fun b => b.mass • b.vel), trueMomentum]
  congr 1
  refine List.map_congr_left fun x hx => ?_
  obtain ⟨y, i⟩ := x
  cases y with
  | none => rfl
  | some b =>
    simp only [onBody]
    rw [if_pos (hc i b ((mem_numbered s _ i).mp hx))]

/-- **C188 (part).** With the same provisos `angularMomentum` is the sum of `(x-o)×mv` and of the angular momenta kept by the
integrator (those of aspherical bodies). -/
theorem C188_angular_partial (s : MScene) (o : V3) (hall : ∀ o ∈ s.bodies, o ≠ none) :
    angularMomentum s o = .ok ((s.bodies.map (onBody fun b => cross (b.pos - o) (b.mass • b.vel) + b.angMom)).sum) := by
  rw [angularMomentum]
  exact foldR_bodies _ (fun b => cross (b.pos - o) (b.mass • b.vel) + b.angMom) s (fun b m => by rw [angMomentumStep, add_assoc]) hall

/-- a scene of some bodies -/
noncomputable def sceneOf (l : List (Option MBody)) : MScene := { pair with bodies := l, intrs := [] }

/-- **C188 fails after a body was erased**: the empty place is dereferenced. -/
theorem C188_violated_erased (s : MScene) (l r : List (Option MBody)) (h : s.bodies = l ++ none :: r) (hl : ∀ o ∈ l, o ≠ none) :
    momentum s = .ub ∧ ∀ o, angularMomentum s o = .ub := by
  constructor
  · rw [momentum, h]
    refine foldR_ub _ l r none ?_ (fun b => rfl) 0
    intro x hx b
    cases x with
    | none => exact absurd rfl (hl none hx)
    | some y => exact ⟨_, rfl⟩
  · intro o
    rw [angularMomentum, h]
    refine foldR_ub _ l r none ?_ (fun b => rfl) 0
    intro x hx b
    cases x with
    | none => exact absurd rfl (hl none hx)
    | some y => exact ⟨_, rfl⟩

example : momentum pair = .ub := (C188_violated_erased pair [some (ball 0 1)] [some (ball ![2, 0, 0] 1)] rfl (by simp)).1

/-- a moving clump of one sphere, with its mass -/
noncomputable def movingClump : MScene :=
  sceneOf [some { ball 0 1 with vel := ![1, 0, 0], clumpId := some 1 },
    some { ball 0 1 with shape := .clump [(0, 0)], vel := ![1, 0, 0], clumpId := some 1 }]

/-- **C188 fails for clumps**: members are added to the clump that has their mass already. -/
theorem C188_violated_clump : trueMomentum movingClump = ![1, 0, 0] ∧ momentum movingClump = .ok ![2, 0, 0] := by
  constructor
  · rw [trueMomentum]
    have : numbered movingClump = [(some { ball 0 1 with vel := ![1, 0, 0], clumpId := some 1 }, 0),
      (some { ball 0 1 with shape := .clump [(0, 0)], vel := ![1, 0, 0], clumpId := some 1 }, 1)] := rfl
    rw [this]
    apply v3_ext <;> simp [isMember, isClump, ball]
  · show Res.ok _ = _
    congr 1
    apply v3_ext <;> simp [ball] <;> norm_num

/-- **C188 fails for spinning spheres**: the integrator keeps no angular momentum for bodies that are not aspherical, and a sphere
spinning in its place has none according to `angularMomentum`. -/
theorem C188_violated_spin : ∃ b : MBody, b.angVel ≠ 0 ∧ (∀ a, 0 < b.inertia a) ∧ b.aspherical = false ∧
    angularMomentum (sceneOf [some b]) 0 = .ok 0 := by
  refine ⟨{ ball 0 1 with angVel := ![0, 0, 1] }, ?_, ?_, rfl, ?_⟩
  · intro h
    have := congrFun h 2
    simp at this
  · intro a; fin_cases a <;> norm_num [ball]
  · show Res.ok _ = _
    congr 1
    apply v3_ext <;> simp [ball]

/-! ### C192 -/

/-- velocity without the mean motion of the cell -/
def relVel (s : MScene) (b : MBody) : V3 := if s.periodic then b.vel - s.cell.velGrad *ᵥ b.pos else b.vel

/-- the documented total without its sign: `1/V Σ m u⊗u` -/
noncomputable def dynSum (s : MScene) : M3 :=
  (s.bodies.map (onBody fun b => b.mass • vecMulVec (relVel s b) (relVel s b))).sum

/-- `-1/V_b m u⊗u` of one body -/
noncomputable def ownDyn (s : MScene) (b : MBody) : M3 :=
  (-perVolume ((radius? b).getD 0) * b.mass) • vecMulVec (relVel s b) (relVel s b)

/-- a stress times the volume of the sphere -/
noncomputable def timesVolume (o : Option MBody) (t : M3) : M3 := onBody (fun b => ballVolume ((radius? b).getD 0) • t) o

theorem vFluct_eq (s : MScene) (b : MBody) : vFluct s b = relVel s b := rfl

theorem totalDyn_eq (s : MScene) (V : ℝ) (hV : V ≠ 0) (hall : ∀ o ∈ s.bodies, o ≠ none) :
    totalDynamicStress s V = .ok (some (V⁻¹ • dynSum s)) := by
  rw [totalDynamicStress, if_neg (fun h => hV h.1), if_neg hV]
  rw [foldR_bodies _ (fun b => b.mass • vecMulVec (relVel s b) (relVel s b)) s (fun b m => rfl) hall, Res.bind_ok, over,
    if_neg hV]
  rfl

theorem dynamicStress_eq (s : MScene) (hs : ∀ o ∈ s.bodies, ∃ b r, o = some b ∧ b.shape = .sphere r) :
    dynamicStress s = .ok (s.bodies.map (onBody (ownDyn s))) := by
  unfold dynamicStress
  have : ∀ (l : List (Option MBody)) (acc : List M3), (∀ o ∈ l, ∃ b r, o = some b ∧ b.shape = .sphere r) →
      foldR (dynStressStep s) acc l = .ok (acc ++ l.map (onBody (ownDyn s))) := by
    intro l
    induction l with
    | nil => intro acc _; simp [foldR]
    | cons o l ih =>
      intro acc h
      obtain ⟨b, r, rfl, hr⟩ := h o (by simp)
      have e : dynStressStep s acc (some b) =
          .ok (acc ++ [ownDyn s b]) := by
        rw [dynStressStep, ownDyn]
        simp only [hr, radius?, Option.getD_some, vFluct_eq]
      rw [foldR, e, Res.bind_ok, ih _ fun x hx => h x (by simp [hx])]
      simp [onBody]
  have := this s.bodies [] hs
  simpa using this

/-- **C192 (part).** For spheres only, none erased, the dynamic stresses of the bodies, weighted by their volumes, add up to the
opposite of the total dynamic stress times the volume. -/
theorem C192_total_partial (s : MScene) (V : ℝ) (hV : V ≠ 0)
    (hs : ∀ o ∈ s.bodies, ∃ b r, o = some b ∧ b.shape = .sphere r ∧ 0 < r) :
    ∃ l σ, dynamicStress s = .ok l ∧ totalDynamicStress s V = .ok (some σ) ∧ l.length = s.bodies.length ∧
      (List.zipWith timesVolume s.bodies l).sum = -(V • σ) := by
  refine ⟨_, _, dynamicStress_eq s fun o ho => by obtain ⟨b, r, h1, h2, -⟩ := hs o ho; exact ⟨b, r, h1, h2⟩,
    totalDyn_eq s V hV fun o ho => by obtain ⟨b, r, h1, -⟩ := hs o ho; rw [h1]; simp, by simp, ?_⟩
  rw [smul_smul, mul_inv_cancel₀ hV, one_smul, dynSum]
  have : ∀ l : List (Option MBody), (∀ o ∈ l, ∃ b r, o = some b ∧ b.shape = .sphere r ∧ 0 < r) →
      (List.zipWith timesVolume l
        (l.map (onBody (ownDyn s)))).sum =
      -(l.map (onBody fun b => b.mass • vecMulVec (relVel s b) (relVel s b))).sum := by
    intro l
    induction l with
    | nil => intro _; simp
    | cons o l ih =>
      intro h
      obtain ⟨b, r, rfl, hr, hpos⟩ := h o (by simp)
      simp only [List.map_cons, List.zipWith_cons_cons, List.sum_cons]
      rw [ih fun x hx => h x (by simp [hx])]
      have e : ballVolume r * (-perVolume r * b.mass) = -b.mass := by
        rw [perVolume_ball hpos]
        have := (ballVolume_pos hpos).ne'
        field_simp
      simp only [timesVolume, onBody, ownDyn, radius?, hr, Option.getD_some]
      rw [smul_smul, e, neg_smul, neg_add]
  exact this s.bodies hs

/-- **C192 fails in its sign**: documented is `-1/V Σ m u⊗u`, returned is `+1/V Σ m u⊗u`. -/
theorem C192_violated_sign (s : MScene) (V : ℝ) (hV : V ≠ 0) (hall : ∀ o ∈ s.bodies, o ≠ none) (hz : dynSum s ≠ 0) :
    totalDynamicStress s V ≠ .ok (some (-V⁻¹ • dynSum s)) := by
  rw [totalDyn_eq s V hV hall]
  intro h
  have h := Option.some.inj (Res.ok.inj h)
  rw [neg_smul] at h
  have h2 : (2 : ℝ) • (V⁻¹ • dynSum s) = 0 := by
    rw [two_smul]
    nth_rewrite 2 [h]
    simp
  rcases smul_eq_zero.mp h2 with h3 | h3
  · norm_num at h3
  · rcases smul_eq_zero.mp h3 with h4 | h4
    · exact hV (inv_eq_zero.mp h4)
    · exact hz h4

example : dynSum movingClump ≠ 0 := by
  intro h
  have := congrFun (congrFun h 0) 0
  simp [dynSum, movingClump, sceneOf, relVel, pair, vecMulVec_entry, ball, onBody] at this

/-- **C192 fails for other shapes and erased bodies**: the radius is read from whatever the shape is. -/
theorem C192_violated_memory : dynamicStress (sceneOf [some { ball 0 1 with shape := .other }]) = .ub ∧
    dynamicStress (sceneOf [none]) = .ub ∧ totalDynamicStress (sceneOf [none]) 1 = .ub := by
  refine ⟨rfl, rfl, ?_⟩
  rw [totalDynamicStress, if_neg (by norm_num)]
  rfl

/-! ### Cases -/

/-- a tilted ellipsoid and a sphere, moving and spinning, an erased body, a fixed one -/
noncomputable def moving : MScene :=
  sceneOf [some { ball 0 1 with vel := ![1, 2, 0], angVel := ![0, 0, 3], aspherical := true, inertia := ![1, 2, 3], ori := ⟨3 / 5, 4 / 5, 0, 0⟩ },
    none, some { ball 0 1 with vel := ![0, 1, 0], angVel := ![1, 0, 0] }, some { ball 0 1 with dynamic := false }]

example : ∀ i b, Free moving i b → b.ori.sqNorm = 1 ∧ Marked b ∧ 0 ≤ b.mass ∧ ∀ a, 0 ≤ b.inertia a := by
  rintro i b ⟨h, hd, -⟩
  have h := List.mem_of_getElem? h
  simp only [moving, sceneOf, List.mem_cons, List.not_mem_nil, or_false, Option.some.injEq, reduceCtorEq, false_or] at h
  rcases h with rfl | rfl | rfl
  · refine ⟨by norm_num [Quat.sqNorm], .inl rfl, by norm_num [ball], fun a => ?_⟩
    fin_cases a <;> norm_num
  · refine ⟨by norm_num [Quat.sqNorm, ball, Quat.one], .inr ⟨rfl, rfl⟩, by norm_num [ball], fun a => ?_⟩
    fin_cases a <;> norm_num [ball]
  · cases hd

end Verif.Meas
