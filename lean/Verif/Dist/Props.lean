import Verif.Dist.Serial
import Mathlib.Tactic.IntervalCases
import Mathlib.Tactic.FinCases
import Mathlib.Tactic.Ring

/-!
C200-C203.  A distributed run against an ordinary run, for every contact law, integrator, number of processes and bodies.

`Spec.lean` has the world against which both are compared: all pairs of bodies are looked at in each iteration.  `GoodPlan` are the
properties of the lists a split makes that C112-C115 are about.  `Complete` says that pairs of bodies without interaction do not act on
each other (C113, C114).
-/

namespace Verif.Dist

section
variable {K M R C F T : Type} [AddCommMonoid F]

/-- The processes show the world: each has the states of its bodies and the contacts of its bodies (the master those among its bodies). -/
structure Distributed (swap : C → C) (u : Setup K F T) (own : ℕ → ℕ) (x : World M R C) (ss : ℕ → Scene K M R C F T) : Prop where
  bodies : ∀ i ∈ u.ids, (ss (own i)).body i = some ⟨own i, u.k i, x.m i, x.r i⟩
  contacts : ∀ i ∈ u.ids, ∀ j ∈ u.ids, j ≠ i → (own i ≠ 0 ∨ own j = 0) → SameContact swap x (ss (own i)).intrs i j

/-- **C203.** The motions, states and contacts of an ordinary run are those of the world, whatever additional interactions the collider has
    listed, in whatever order they are listed, and in whatever order the two bodies of each are stored. -/
theorem C203_serial (p : Phys K M R C F T) (swap : C → C) (u : Setup K F T) (x : World M R C) (s : Scene K M R C F T) (q : ℕ)
    (h : Shows swap u (fun _ => 0) x s) (hx : TwoSided swap x) (heven : EvenHanded p swap) (hdt : ConstantDt p)
    (hq : ∀ q' < q, SerialComplete p u (evolve p u q' x) s) :
    Shows swap u (fun _ => 0) (evolve p u q x) (serialRun p q s) :=
  serial_shows h hx heven hdt q hq

/-- **C203.** So two runs from scenes that differ in their lists give the same states of all bodies. -/
theorem C203_lists (p : Phys K M R C F T) (swap : C → C) (u : Setup K F T) (x : World M R C) (s s' : Scene K M R C F T) (q : ℕ)
    (h : Shows swap u (fun _ => 0) x s) (h' : Shows swap u (fun _ => 0) x s') (hx : TwoSided swap x) (heven : EvenHanded p swap)
    (hdt : ConstantDt p) (hq : ∀ q' < q, SerialComplete p u (evolve p u q' x) s) (hq' : ∀ q' < q, SerialComplete p u (evolve p u q' x) s') :
    (serialRun p q s).body = (serialRun p q s').body := by
  have h1 := serial_shows h hx heven hdt q hq
  have h2 := serial_shows h' hx heven hdt q hq'
  funext i
  by_cases hi : i ∈ u.ids
  · rw [h1.bodies i hi, h2.bodies i hi]
  · rw [h1.motion.others i hi, h2.motion.others i hi]

/-- **C200, partial.** After a split a distributed run neither fails nor deviates: after every number of iterations each process has the states and
    the contacts of its bodies as the world has them.  Assumed: the law depends on the exchanged part of states only, no time stepper,
    permanent forces on bodies of the master only, and no interactions of the master with bodies of workers in the scene that is split. -/
theorem C200_world_partial (p : Phys K M R C F T) (swap : C → C) (u : Setup K F T) (own : ℕ → ℕ) (n : ℕ) (pl : Plan) (x : World M R C)
    (s : Scene K M R C F T) (q : ℕ) (hn : 0 < n) (h : Shows swap u own x s) (hx : TwoSided swap x) (heven : EvenHanded p swap)
    (hreads : ReadsMotion p) (hdt : ConstantDt p) (hpl : GoodPlan u own n pl s) (hclean : Clean own s) (hperm : PermOnMaster u own)
    (hq : ∀ q' < q, Complete p u own n (evolve p u q' x) (split pl s)) :
    ∃ ss, distRun p pl.comm n q (split pl s) = .ok ss ∧ Distributed swap u own (evolve p u q x) ss := by
  obtain ⟨ss, h1, h2, _⟩ := (split_inv h hx hpl hclean hperm).run (compat_eq heven hreads hdt) q hq hn
  refine ⟨ss, h1, ?_, ?_⟩
  · intro i hi
    obtain ⟨b, e1, e2, e3, e4, e5⟩ := h2.own_body (h2.fits.owner i hi) hi rfl
    rw [e1]
    cases b
    simp only at *
    rw [e2, e3, e4, e5]
  · intro i hi j hj hji hcare
    rw [sameContact_iff (h2.fits.proper _ (h2.fits.owner i hi))]
    exact h2.con _ (h2.fits.owner i hi) i hi rfl j hj hji hcare

/-- **C200, partial.** So every body has the state it has in an ordinary run. -/
theorem C200_as_serial_partial (p : Phys K M R C F T) (swap : C → C) (u : Setup K F T) (own : ℕ → ℕ) (n : ℕ) (pl : Plan) (x : World M R C)
    (s s1 : Scene K M R C F T) (q : ℕ) (hn : 0 < n) (h : Shows swap u own x s) (h1 : Shows swap u (fun _ => 0) x s1) (hx : TwoSided swap x)
    (heven : EvenHanded p swap) (hreads : ReadsMotion p) (hdt : ConstantDt p) (hpl : GoodPlan u own n pl s) (hclean : Clean own s)
    (hperm : PermOnMaster u own) (hq : ∀ q' < q, Complete p u own n (evolve p u q' x) (split pl s))
    (hq1 : ∀ q' < q, SerialComplete p u (evolve p u q' x) s1) :
    ∃ ss, distRun p pl.comm n q (split pl s) = .ok ss ∧ ∀ i ∈ u.ids,
      ((ss (own i)).body i).map (fun b => (b.k, b.m, b.r)) = ((serialRun p q s1).body i).map fun b => (b.k, b.m, b.r) := by
  obtain ⟨ss, e1, e2⟩ := C200_world_partial p swap u own n pl x s q hn h hx heven hreads hdt hpl hclean hperm hq
  refine ⟨ss, e1, fun i hi => ?_⟩
  rw [e2.bodies i hi, (serial_shows h1 hx heven hdt q hq1).bodies i hi]
  rfl

/-- **C201, partial.** The force the master has for each of its bodies when they are moved is the force by all other bodies, those of workers
    included, in every iteration. -/
theorem C201_forces_partial (p : Phys K M R C F T) (swap : C → C) (u : Setup K F T) (own : ℕ → ℕ) (n : ℕ) (pl : Plan) (x : World M R C)
    (s : Scene K M R C F T) (q : ℕ) (hn : 0 < n) (h : Shows swap u own x s) (hx : TwoSided swap x) (heven : EvenHanded p swap)
    (hreads : ReadsMotion p) (hdt : ConstantDt p) (hpl : GoodPlan u own n pl s) (hclean : Clean own s) (hperm : PermOnMaster u own)
    (hq : ∀ q' ≤ q, Complete p u own n (evolve p u q' x) (split pl s)) :
    ∃ ss, distRun p pl.comm n q (split pl s) = .ok ss ∧
      ∀ i ∈ u.ids, own i = 0 → forcesAt p pl.comm ss 0 i = totalForce p u (evolve p u q x) i := by
  obtain ⟨ss, h1, h2, _, h4⟩ := (split_inv h hx hpl hclean hperm).run (compat_eq heven hreads hdt) q
    (fun q' hq' => hq q' (Nat.le_of_lt hq')) hn
  refine ⟨ss, h1, fun i hi ho => h2.forcesAt (compat_eq heven hreads hdt) ?_ hn hi ho⟩
  intro w hw i hi ho j hj hji hcare hl
  exact hq q (le_refl _) w hw i hi ho j hj hji hcare fun hl' => hl ((h4 w hw i j).2 hl')

/-- The conditions of C200 for each split of a run of splits, iterations and merges. -/
def GoodPhases (p : Phys K M R C F T) (u : Setup K F T) (own : ℕ → ℕ) (n : ℕ) :
    List (Plan × ℕ) → World M R C → Scene K M R C F T → Prop
  | [], _, _ => True
  | (pl, k) :: l, x, s => GoodPlan u own n pl s ∧ Clean own s ∧ (∀ q' < k, Complete p u own n (evolve p u q' x) (split pl s)) ∧
      ∀ ss, distRun p pl.comm n k (split pl s) = .ok ss → GoodPhases p u own n l (evolve p u k x) (merge ss)

/-- Number of iterations. -/
def iterations : List (Plan × ℕ) → ℕ
  | [] => 0
  | (_, k) :: l => k + iterations l

theorem evolve_add (p : Phys K M R C F T) (u : Setup K F T) (a b : ℕ) (x : World M R C) :
    evolve p u (a + b) x = evolve p u b (evolve p u a x) := by
  induction a generalizing x with
  | zero => rw [Nat.zero_add]; rfl
  | succ a ih => rw [Nat.succ_add, evolve, ih]; rfl

theorem evolve_twoSided {p : Phys K M R C F T} {swap : C → C} (heven : EvenHanded p swap) (u : Setup K F T) (q : ℕ) {x : World M R C}
    (hx : TwoSided swap x) : TwoSided swap (evolve p u q x) := by
  induction q generalizing x with
  | zero => exact hx
  | succ q ih =>
    refine ih ?_
    intro i j
    show (pairLaw p u x j i).1 = (pairLaw p u x i j).1.map swap
    unfold pairLaw
    rw [hx i j, heven.law]

/-- **C202, partial.** A run with any number of merges and splits gives the motions of the world in the merged scene if forces do not depend on
    the history of contacts and motions do not depend on the part of states that is not exchanged. -/
theorem C202_merged_partial (p : Phys K M R C F T) (swap : C → C) (u : Setup K F T) (own : ℕ → ℕ) (n : ℕ) (l : List (Plan × ℕ)) (x : World M R C)
    (s : Scene K M R C F T) (hn : 0 < n) (h : ShowsMotion u own x s) (hx : TwoSided swap x) (heven : EvenHanded p swap)
    (hreads : ReadsMotion p) (hdt : ConstantDt p) (hforget : Forgetful p) (hmoves : MovesByMotion p) (hperm : PermOnMaster u own)
    (hl : GoodPhases p u own n l x s) :
    ∃ s', phases p n l s = .ok s' ∧ ShowsMotion u own (evolve p u (iterations l) x) s' := by
  induction l generalizing x s with
  | nil => exact ⟨s, rfl, h⟩
  | cons a l ih =>
    obtain ⟨pl, k⟩ := a
    obtain ⟨g1, g2, g3, g4⟩ := hl
    obtain ⟨ss, h1, h2, h3, _⟩ := (split_inv_motion h hx g1 g2 hperm).run (compat_motion heven hreads hdt hforget hmoves) k g3 hn
    have hm := merge_shows h2 hn fun i hi => by
      rw [h3 0 hn i]; exact (shows_isSome h i).2 hi
    rw [phases, h1, iterations, evolve_add]
    exact ih _ _ hm (evolve_twoSided heven u k hx) (g4 ss h1)

/-- **C202, partial.** After a single split and merge the motions are those of the world for all laws and integrators of C200. -/
theorem C202_once_partial (p : Phys K M R C F T) (swap : C → C) (u : Setup K F T) (own : ℕ → ℕ) (n : ℕ) (pl : Plan) (x : World M R C)
    (s : Scene K M R C F T) (q : ℕ) (hn : 0 < n) (h : Shows swap u own x s) (hx : TwoSided swap x) (heven : EvenHanded p swap)
    (hreads : ReadsMotion p) (hdt : ConstantDt p) (hpl : GoodPlan u own n pl s) (hclean : Clean own s) (hperm : PermOnMaster u own)
    (hq : ∀ q' < q, Complete p u own n (evolve p u q' x) (split pl s)) :
    ∃ s', phases p n [(pl, q)] s = .ok s' ∧ ShowsMotion u own (evolve p u q x) s' := by
  obtain ⟨ss, h1, h2, h3, _⟩ := (split_inv h hx hpl hclean hperm).run (compat_eq heven hreads hdt) q hq hn
  refine ⟨merge ss, by rw [phases, h1]; rfl, merge_shows h2 hn fun i hi => ?_⟩
  rw [h3 0 hn i]; exact (shows_isSome h.motion i).2 hi

end

/-! ### A scene of three bodies and three processes

Body 0 belongs to the master, 1 to worker 1, 2 to worker 2.  Bodies touch when their constants (layers) differ by one.  A contact has a tangential
spring that is stretched by the relative velocity. -/

/-- Spring with history. -/
def exLaw (t k1 : ℤ) (m1 : ℤ × ℤ) (_ : ℤ) (k2 : ℤ) (m2 : ℤ × ℤ) (_ : ℤ) (c : Option ℤ) : Option ℤ × ℤ × ℤ :=
  if k1 - k2 = 1 ∨ k2 - k1 = 1 then
    (some (c.getD 0 + (m2.2 - m1.2) * t), c.getD 0 + (m2.2 - m1.2) * t, -(c.getD 0 + (m2.2 - m1.2) * t))
  else (none, 0, 0)

/-- Leapfrog for unit masses; the other part of the state counts the iterations. -/
def exNewton (t f _k : ℤ) (m : ℤ × ℤ) (r : ℤ) : (ℤ × ℤ) × ℤ := ((m.1 + (m.2 + f * t) * t, m.2 + f * t), r + 1)

/-- Spring with history, no time stepper. -/
def exP : Phys ℤ (ℤ × ℤ) ℤ ℤ ℤ ℤ := ⟨exLaw, exNewton, Scene.dt⟩

/-- The same without history. -/
def exP' : Phys ℤ (ℤ × ℤ) ℤ ℤ ℤ ℤ :=
  ⟨fun t k1 m1 r1 k2 m2 r2 _ => exLaw t k1 m1 r1 k2 m2 r2 none, exNewton, Scene.dt⟩

/-- The same with a time stepper that takes small steps when there are contacts. -/
def exPstep : Phys ℤ (ℤ × ℤ) ℤ ℤ ℤ ℤ := ⟨exLaw, exNewton, fun s => if s.intrs.any (fun I => I.con.isSome) then 1 else s.dt⟩

/-- A law with a force that depends on the other part of the states. -/
def exPstate : Phys ℤ (ℤ × ℤ) ℤ ℤ ℤ ℤ :=
  ⟨fun _ k1 _ r1 k2 _ r2 _ => if k1 - k2 = 1 ∨ k2 - k1 = 1 then (some 0, r2 - r1, r1 - r2) else (none, 0, 0), exNewton, Scene.dt⟩

/-- The bodies, permanent forces and time step. -/
def exU (perm : ℕ → ℤ) (dt : ℤ) : Setup ℤ ℤ ℤ := ⟨{0, 1, 2}, fun i => i, perm, dt⟩

/-- Start: body 1 moves. -/
def exX : World (ℤ × ℤ) ℤ ℤ := ⟨fun i => (10 * i, if i = 1 then 1 else 0), fun _ => 0, fun _ _ => none⟩

/-- Start: body 0 and body 1 are in contact. -/
def exX' : World (ℤ × ℤ) ℤ ℤ :=
  { exX with con := fun i j => if (i = 0 ∧ j = 1) ∨ (i = 1 ∧ j = 0) then some 0 else none }

/-- The scene, in the subdomains `own`. -/
def exS (own : ℕ → ℕ) (perm : ℕ → ℤ) (dt : ℤ) (l : List (Intr ℤ)) : Scene ℤ (ℤ × ℤ) ℤ ℤ ℤ ℤ :=
  ⟨0, fun i => if i < 3 then some ⟨own i, i, exX.m i, 0⟩ else none, l, perm, dt⟩

/-- What the split decides. -/
def exPlan : Plan where
  comm :=
    { nbr := fun w => if w = 0 then [1] else if w = 1 then [2, 0] else if w = 2 then [1] else []
      inter := fun v w => if v = 0 ∧ w = 1 then [0] else if v = 1 ∧ w = 2 then [1] else if v = 2 ∧ w = 1 then [2] else []
      mir := fun w v => if v = 0 ∧ w = 1 then [0] else if v = 1 ∧ w = 2 then [1] else if v = 2 ∧ w = 1 then [2] else [] }
  keep := fun w => if w = 1 then [0, 2] else if w = 2 then [1] else []
  pairs := fun w => if w = 1 then [(0, 1), (2, 1)] else if w = 2 then [(1, 2)] else []

theorem ex_mem {i : ℕ} {perm : ℕ → ℤ} {dt : ℤ} : i ∈ (exU perm dt).ids ↔ i = 0 ∨ i = 1 ∨ i = 2 := by
  simp [exU]

theorem ex_even : EvenHanded exP (fun c => -c) := by
  refine ⟨fun c => neg_neg c, ?_⟩
  intro t k1 m1 r1 k2 m2 r2 c
  unfold exP exLaw
  simp only
  by_cases h : k1 - k2 = 1 ∨ k2 - k1 = 1
  · rw [if_pos h, if_pos h.symm]
    have e : (c.map fun c => -c).getD 0 + (m1.2 - m2.2) * t = -(c.getD 0 + (m2.2 - m1.2) * t) := by
      cases c
      · simp; ring
      · simp; ring
    rw [e]; simp
  · rw [if_neg h, if_neg fun h' => h h'.symm]; rfl

theorem ex_even' : EvenHanded exP' (fun c => -c) := by
  refine ⟨fun c => neg_neg c, ?_⟩
  intro t k1 m1 r1 k2 m2 r2 c
  have := ex_even.law t k1 m1 r1 k2 m2 r2 none
  unfold exP at this
  simpa [exP'] using this

theorem ex_even_step : EvenHanded exPstep (fun c => -c) := ⟨ex_even.twice, ex_even.law⟩

theorem ex_even_state : EvenHanded exPstate (fun c => -c) := by
  refine ⟨fun c => neg_neg c, ?_⟩
  intro t k1 m1 r1 k2 m2 r2 c
  unfold exPstate
  simp only
  by_cases h : k1 - k2 = 1 ∨ k2 - k1 = 1
  · rw [if_pos h, if_pos h.symm]; rfl
  · rw [if_neg h, if_neg fun h' => h h'.symm]; rfl

theorem ex_twoSided : TwoSided (fun c => -c) exX := fun _ _ => rfl

theorem ex_twoSided' : TwoSided (fun c : ℤ => -c) exX' := by
  intro i j
  unfold exX'
  simp only
  by_cases h : (i = 0 ∧ j = 1) ∨ (i = 1 ∧ j = 0)
  · rw [if_pos h, if_pos (by tauto)]; rfl
  · rw [if_neg h, if_neg (by tauto)]; rfl

theorem ex_motion (own : ℕ → ℕ) (perm : ℕ → ℤ) (dt : ℤ) (l : List (Intr ℤ)) (hl : ProperList l) :
    ShowsMotion (exU perm dt) own exX (exS own perm dt l) := by
  refine ⟨rfl, rfl, ?_, ?_, fun _ _ _ => rfl, hl⟩
  · intro i hi
    rw [ex_mem] at hi
    rcases hi with rfl | rfl | rfl <;> exact ⟨0, rfl⟩
  · intro i hi
    rw [ex_mem] at hi
    have : ¬ i < 3 := by omega
    simp [exS, this]

theorem ex_shows (own : ℕ → ℕ) (perm : ℕ → ℤ) (dt : ℤ) (l : List (Intr ℤ)) (hl : ProperList l) (hn : ∀ I ∈ l, I.con = none) :
    Shows (fun c => -c) (exU perm dt) own exX (exS own perm dt l) := by
  refine ⟨ex_motion own perm dt l hl, ?_, fun _ _ => rfl, ?_⟩
  · intro i hi
    rw [ex_mem] at hi
    rcases hi with rfl | rfl | rfl <;> rfl
  · intro i _ j _ _
    refine ⟨fun I hI _ _ => hn I hI, fun I hI _ _ => ?_, fun _ => rfl⟩
    rw [hn I hI]; rfl

/-- Lists of the processes after the split. -/
theorem ex_split_one (own : ℕ → ℕ) (perm : ℕ → ℤ) (dt : ℤ) : (split exPlan (exS own perm dt []) 1).intrs = [⟨0, 1, none⟩, ⟨2, 1, none⟩] := rfl
theorem ex_split_two (own : ℕ → ℕ) (perm : ℕ → ℤ) (dt : ℤ) : (split exPlan (exS own perm dt []) 2).intrs = [⟨1, 2, none⟩] := rfl

theorem ex_listed_one {l : List (Intr ℤ)} {c d : Option ℤ} (hl : l = [⟨0, 1, c⟩, ⟨2, 1, d⟩]) (i j : ℕ) :
    Listed l i j ↔ (i = 0 ∧ j = 1) ∨ (i = 1 ∧ j = 0) ∨ (i = 2 ∧ j = 1) ∨ (i = 1 ∧ j = 2) := by
  subst hl
  simp only [Listed, List.mem_cons, List.not_mem_nil, or_false, exists_eq_or_imp, exists_eq_left]
  omega

theorem ex_listed_two {l : List (Intr ℤ)} {c : Option ℤ} (hl : l = [⟨1, 2, c⟩]) (i j : ℕ) :
    Listed l i j ↔ (i = 1 ∧ j = 2) ∨ (i = 2 ∧ j = 1) := by
  subst hl
  simp only [Listed, List.mem_cons, List.not_mem_nil, or_false, exists_eq_left]
  omega

theorem ex_good {perm : ℕ → ℤ} {dt : ℤ} {s : Scene ℤ (ℤ × ℤ) ℤ ℤ ℤ ℤ} (hb : ∀ i, (s.body i).isSome ↔ i < 3)
    (h1 : ∃ c d, (split exPlan s 1).intrs = [⟨0, 1, c⟩, ⟨2, 1, d⟩]) (h2 : ∃ c, (split exPlan s 2).intrs = [⟨1, 2, c⟩])
    (hk : ∀ I ∈ s.intrs, I.id1 = 0 ∧ I.id2 = 1) :
    GoodPlan (exU perm dt) id 3 exPlan s := by
  obtain ⟨c1, d1, h1⟩ := h1
  obtain ⟨c2, h2⟩ := h2
  refine ⟨?_, ?_, ?_, ?_, ?_, ?_, ?_, ?_⟩
  · intro i hi
    rw [ex_mem] at hi
    show i < 3
    omega
  · intro w hw ab hab
    interval_cases w
    · cases hab
    · have : ab = (0, 1) ∨ ab = (2, 1) := by simpa [exPlan] using hab
      rcases this with rfl | rfl <;> simp [hb, exPlan]
    · have : ab = (1, 2) := by simpa [exPlan] using hab
      subst this; simp [hb, exPlan]
  · intro ab hab
    cases hab
  · intro I hI _
    obtain ⟨e1, e2⟩ := hk I hI
    rw [e1, e2]
    exact ⟨fun h => (h rfl).elim, fun _ _ => by simp [exPlan]⟩
  · intro w hw hw0 v hv
    interval_cases w
    · exact (hw0 rfl).elim
    · have : v = 2 ∨ v = 0 := by simpa [exPlan] using hv
      rcases this with rfl | rfl
      · refine ⟨by omega, by omega, rfl, ?_⟩
        intro i hi
        have : i = 2 := by simpa [exPlan] using hi
        subst this
        exact ⟨ex_mem.2 (by omega), rfl, by simp [exPlan]⟩
      · refine ⟨by omega, by omega, rfl, ?_⟩
        intro i hi
        have : i = 0 := by simpa [exPlan] using hi
        subst this
        exact ⟨ex_mem.2 (by omega), rfl, by simp [exPlan]⟩
    · have : v = 1 := by simpa [exPlan] using hv
      subst this
      refine ⟨by omega, by omega, rfl, ?_⟩
      intro i hi
      have : i = 1 := by simpa [exPlan] using hi
      subst this
      exact ⟨ex_mem.2 (by omega), rfl, by simp [exPlan]⟩
  · intro w hw hw0 i j hi hj hl
    simp only [id] at hi hj ⊢
    interval_cases w
    · exact (hw0 rfl).elim
    · rw [ex_listed_one h1] at hl
      have : j = 0 ∨ j = 2 := by omega
      rcases this with rfl | rfl <;> simp [exPlan]
    · rw [ex_listed_two h2] at hl
      have : j = 1 := by omega
      subst this; simp [exPlan]
  · intro w hw hw0 i j hi hj hl
    simp only [id] at hi hj
    interval_cases w
    · exact (hw0 rfl).elim
    · simp [exPlan]
    · rw [ex_listed_two h2] at hl
      omega
  · refine ⟨by simp [exPlan], ?_⟩
    intro w hw
    have : w = 1 := by simpa [exPlan] using hw
    subst this
    exact ⟨by omega, by omega, by simp [exPlan]⟩

theorem ex_good_nil (perm : ℕ → ℤ) (dt : ℤ) : GoodPlan (exU perm dt) id 3 exPlan (exS id perm dt []) := by
  refine ex_good ?_ ⟨_, _, ex_split_one id perm dt⟩ ⟨_, ex_split_two id perm dt⟩ (fun I hI => by cases hI)
  intro i
  by_cases h : i < 3 <;> simp [exS, h]

theorem ex_apart {p : Phys ℤ (ℤ × ℤ) ℤ ℤ ℤ ℤ} (hp : ∀ t m1 r1 m2 r2 c, p.law t 0 m1 r1 2 m2 r2 c = (none, 0, 0) ∧ p.law t 2 m1 r1 0 m2 r2 c = (none, 0, 0))
    (perm : ℕ → ℤ) (dt : ℤ) (x : World (ℤ × ℤ) ℤ ℤ) {s : Scene ℤ (ℤ × ℤ) ℤ ℤ ℤ ℤ}
    (h1 : ∃ c d, (split exPlan s 1).intrs = [⟨0, 1, c⟩, ⟨2, 1, d⟩]) (h2 : ∃ c, (split exPlan s 2).intrs = [⟨1, 2, c⟩]) :
    Complete p (exU perm dt) id 3 x (split exPlan s) := by
  obtain ⟨c1, d1, h1⟩ := h1
  obtain ⟨c2, h2⟩ := h2
  intro w hw i hi ho j hj hji hcare hl
  rw [ex_mem] at hi hj
  simp only [id] at ho hcare
  unfold Apart pairLaw
  interval_cases w
  · omega
  · rw [ex_listed_one h1] at hl
    omega
  · rw [ex_listed_two h2] at hl
    have : i = 2 ∧ j = 0 := by omega
    obtain ⟨rfl, rfl⟩ := this
    exact (hp _ _ _ _ _ _).2

theorem ex_far (t : ℤ) (m1 : ℤ × ℤ) (r1 : ℤ) (m2 : ℤ × ℤ) (r2 : ℤ) (c : Option ℤ) :
    exP.law t 0 m1 r1 2 m2 r2 c = (none, 0, 0) ∧ exP.law t 2 m1 r1 0 m2 r2 c = (none, 0, 0) := by
  constructor <;> simp [exP, exLaw]

/-- The list of an ordinary run. -/
def exL : List (Intr ℤ) := [⟨1, 0, none⟩, ⟨0, 2, none⟩, ⟨1, 2, none⟩]

theorem exL_proper : ProperList exL := by
  unfold ProperList exL
  simp

theorem exL_listed {i j : ℕ} (hi : i = 0 ∨ i = 1 ∨ i = 2) (hj : j = 0 ∨ j = 1 ∨ j = 2) (hji : j ≠ i) : Listed exL i j := by
  unfold exL
  simp only [Listed, List.mem_cons, List.not_mem_nil, or_false, exists_eq_or_imp, exists_eq_left]
  omega

theorem ex_serialComplete (p : Phys ℤ (ℤ × ℤ) ℤ ℤ ℤ ℤ) (perm : ℕ → ℤ) (dt : ℤ) (x : World (ℤ × ℤ) ℤ ℤ) (own : ℕ → ℕ) :
    SerialComplete p (exU perm dt) x (exS own perm dt exL) := by
  intro i hi j hj hji hl
  rw [ex_mem] at hi hj
  exact (hl (exL_listed hi hj hji)).elim

/-- All conditions of C200 hold for this scene, and bodies do act on each other across processes. -/
example (q : ℕ) : ∃ ss, distRun exP exPlan.comm 3 q (split exPlan (exS id (fun _ => 0) 1 [])) = .ok ss ∧ ∀ i ∈ (exU (fun _ => 0) 1).ids,
    ((ss (id i)).body i).map (fun b => (b.k, b.m, b.r)) =
      ((serialRun exP q (exS (fun _ => 0) (fun _ => 0) 1 exL)).body i).map fun b => (b.k, b.m, b.r) :=
  C200_as_serial_partial exP (fun c => -c) (exU (fun _ => 0) 1) id 3 exPlan exX _ _ q (by omega)
    (ex_shows id _ _ [] ⟨List.Pairwise.nil, fun I hI => by cases hI⟩ (fun I hI => by cases hI))
    (ex_shows (fun _ => 0) _ _ exL exL_proper (by simp [exL])) ex_twoSided ex_even (fun _ _ _ _ _ _ _ _ _ _ => rfl) (fun _ => rfl)
    (ex_good_nil _ _) (fun I hI => by cases hI) (fun _ _ _ => rfl)
    (fun q' _ => ex_apart ex_far _ _ _ ⟨_, _, ex_split_one id _ _⟩ ⟨_, ex_split_two id _ _⟩)
    (fun q' _ => ex_serialComplete _ _ _ _ _)

/-- After one iteration body 2, which was at rest, moves because of body 1, which belongs to another process. -/
example : (evolve exP (exU (fun _ => 0) 1) 1 exX).m 2 = (21, 1) := by decide

/-- All conditions of C201 hold; the force on the body of the master comes from a worker. -/
example (q : ℕ) : ∃ ss, distRun exP exPlan.comm 3 q (split exPlan (exS id (fun _ => 0) 1 [])) = .ok ss ∧ ∀ i ∈ (exU (fun _ => 0) 1).ids, id i = 0 →
    forcesAt exP exPlan.comm ss 0 i = totalForce exP (exU (fun _ => 0) 1) (evolve exP (exU (fun _ => 0) 1) q exX) i :=
  C201_forces_partial exP (fun c => -c) (exU (fun _ => 0) 1) id 3 exPlan exX _ q (by omega)
    (ex_shows id _ _ [] ⟨List.Pairwise.nil, fun I hI => by cases hI⟩ (fun I hI => by cases hI)) ex_twoSided ex_even
    (fun _ _ _ _ _ _ _ _ _ _ => rfl) (fun _ => rfl) (ex_good_nil _ _) (fun I hI => by cases hI) (fun _ _ _ => rfl)
    (fun q' _ => ex_apart ex_far _ _ _ ⟨_, _, ex_split_one id _ _⟩ ⟨_, ex_split_two id _ _⟩)

example : totalForce exP (exU (fun _ => 0) 1) exX 0 = 1 := by decide

/-- **C200 is violated** by a time stepper: each process has its own.  The master has no contacts and keeps the large time step. -/
theorem C200_violated_stepper : EvenHanded exPstep (fun c => -c) ∧ ReadsMotion exPstep ∧
    Shows (fun c => -c) (exU (fun i => if i = 0 then 1 else 0) 2) id exX (exS id (fun i => if i = 0 then 1 else 0) 2 []) ∧
    GoodPlan (exU (fun i => if i = 0 then 1 else 0) 2) id 3 exPlan (exS id (fun i => if i = 0 then 1 else 0) 2 []) ∧
    ∃ ss, distRun exPstep exPlan.comm 3 1 (split exPlan (exS id (fun i => if i = 0 then 1 else 0) 2 [])) = .ok ss ∧
      (ss 0).dt = 2 ∧ (ss 1).dt = 1 ∧
      ((ss 0).body 0).map Body.m ≠ ((serialRun exPstep 1 (exS (fun _ => 0) (fun i => if i = 0 then 1 else 0) 2 exL)).body 0).map Body.m :=
  ⟨ex_even_step, fun _ _ _ _ _ _ _ _ _ _ => rfl,
    ex_shows id _ _ [] ⟨List.Pairwise.nil, fun I hI => by cases hI⟩ (fun I hI => by cases hI), ex_good_nil _ _,
    _, rfl, by decide, by decide, by decide⟩

/-- **C200 is violated** by permanent forces on bodies of workers: they are not part of the scene that is sent. -/
theorem C200_violated_perm :
    Shows (fun c => -c) (exU (fun i => if i = 1 then 5 else 0) 1) id exX (exS id (fun i => if i = 1 then 5 else 0) 1 []) ∧
    GoodPlan (exU (fun i => if i = 1 then 5 else 0) 1) id 3 exPlan (exS id (fun i => if i = 1 then 5 else 0) 1 []) ∧
    ∃ ss, distRun exP exPlan.comm 3 1 (split exPlan (exS id (fun i => if i = 1 then 5 else 0) 1 [])) = .ok ss ∧
      ((ss 1).body 1).map Body.m ≠ ((serialRun exP 1 (exS (fun _ => 0) (fun i => if i = 1 then 5 else 0) 1 exL)).body 1).map Body.m :=
  ⟨ex_shows id _ _ [] ⟨List.Pairwise.nil, fun I hI => by cases hI⟩ (fun I hI => by cases hI), ex_good_nil _ _,
    _, rfl, by decide⟩

/-- **C200 is violated** by laws that read parts of the state that are not exchanged: they are old in copies of remote bodies. -/
theorem C200_violated_state : EvenHanded exPstate (fun c => -c) ∧ ConstantDt exPstate ∧
    Shows (fun c => -c) (exU (fun _ => 0) 1) id exX (exS id (fun _ => 0) 1 []) ∧
    GoodPlan (exU (fun _ => 0) 1) id 3 exPlan (exS id (fun _ => 0) 1 []) ∧
    ∃ ss, distRun exPstate exPlan.comm 3 2 (split exPlan (exS id (fun _ => 0) 1 [])) = .ok ss ∧
      ((ss 2).body 2).map Body.m ≠ ((serialRun exPstate 2 (exS (fun _ => 0) (fun _ => 0) 1 exL)).body 2).map Body.m :=
  ⟨ex_even_state, fun _ => rfl,
    ex_shows id _ _ [] ⟨List.Pairwise.nil, fun I hI => by cases hI⟩ (fun I hI => by cases hI), ex_good_nil _ _,
    _, rfl, by decide⟩

/-- The scene with a contact of bodies 0 and 1. -/
def exS' (own : ℕ → ℕ) : Scene ℤ (ℤ × ℤ) ℤ ℤ ℤ ℤ := exS own (fun _ => 0) 1 [⟨0, 1, some 0⟩]

theorem ex_shows' (own : ℕ → ℕ) : Shows (fun c => -c) (exU (fun _ => 0) 1) own exX' (exS' own) := by
  have hp : ProperList [(⟨0, 1, some 0⟩ : Intr ℤ)] := by
    unfold ProperList; simp
  have := ex_motion own (fun _ => 0) 1 _ hp
  refine ⟨⟨rfl, rfl, this.bodies, this.others, this.perm, hp⟩, ?_, fun _ _ => rfl, ?_⟩
  · intro i hi
    rw [ex_mem] at hi
    rcases hi with rfl | rfl | rfl <;> rfl
  · intro i hi j hj hji
    refine (sameContact_iff hp i j).2 ?_
    rw [ex_mem] at hi hj
    rcases hi with rfl | rfl | rfl <;> rcases hj with rfl | rfl | rfl <;> first | exact (hji rfl).elim | rfl

theorem ex_good' : GoodPlan (exU (fun _ => 0) 1) id 3 exPlan (exS' id) := by
  refine ex_good ?_ ⟨some 0, none, rfl⟩ ⟨none, rfl⟩ (fun I hI => ?_)
  · intro i
    by_cases h : i < 3 <;> simp [exS', exS, h]
  · have : I = ⟨0, 1, some 0⟩ := by simpa [exS', exS] using hI
    subst this; exact ⟨rfl, rfl⟩

/-- **C201 is violated** when bodies of the master are in contact with bodies of workers before the split (after an ordinary run, say): the master
    keeps these contacts, so that their forces count twice, the second time with the positions that bodies of workers had at the split. -/
theorem C201_violated : Shows (fun c => -c) (exU (fun _ => 0) 1) id exX' (exS' id) ∧
    GoodPlan (exU (fun _ => 0) 1) id 3 exPlan (exS' id) ∧
    (∀ x, Complete exP (exU (fun _ => 0) 1) id 3 x (split exPlan (exS' id))) ∧
    totalForce exP (exU (fun _ => 0) 1) exX' 0 = 1 ∧ forcesAt exP exPlan.comm (split exPlan (exS' id)) 0 0 = 2 ∧
    ∃ ss, distRun exP exPlan.comm 3 1 (split exPlan (exS' id)) = .ok ss ∧
      ((ss 0).body 0).map Body.m = some (2, 2) ∧ (evolve exP (exU (fun _ => 0) 1) 1 exX').m 0 = (1, 1) :=
  ⟨ex_shows' id, ex_good', fun _ => ex_apart ex_far _ _ _ ⟨some 0, none, rfl⟩ ⟨none, rfl⟩, by decide, by decide, _, rfl, by decide, by decide⟩

theorem ex_merge_good {perm : ℕ → ℤ} {dt : ℤ} {x : World (ℤ × ℤ) ℤ ℤ} {s : Scene ℤ (ℤ × ℤ) ℤ ℤ ℤ ℤ}
    (h : ShowsMotion (exU perm dt) id x s) (hs : s.intrs = []) :
    GoodPlan (exU perm dt) id 3 exPlan s ∧ (split exPlan s 1).intrs = [⟨0, 1, none⟩, ⟨2, 1, none⟩] ∧ (split exPlan s 2).intrs = [⟨1, 2, none⟩] := by
  have h1 : (split exPlan s 1).intrs = [⟨0, 1, none⟩, ⟨2, 1, none⟩] := by
    rw [(split_pos (by omega)).2.2.2.2, hs]; rfl
  have h2 : (split exPlan s 2).intrs = [⟨1, 2, none⟩] := by
    rw [(split_pos (by omega)).2.2.2.2, hs]; rfl
  refine ⟨ex_good ?_ ⟨_, _, h1⟩ ⟨_, h2⟩ (fun I hI => by rw [hs] at hI; cases hI), h1, h2⟩
  intro i
  rw [shows_isSome h, ex_mem]; omega

theorem ex_merge_intrs {p : Phys ℤ (ℤ × ℤ) ℤ ℤ ℤ ℤ} {c : Comm} {n q : ℕ} {ss ss' : ℕ → Scene ℤ (ℤ × ℤ) ℤ ℤ ℤ ℤ} (hs : (ss 0).intrs = [])
    (h : distRun p c n q ss = .ok ss') : (ss' 0).intrs = [] := by
  induction q generalizing ss with
  | zero => cases h; exact hs
  | succ q ih =>
    rw [distRun] at h
    unfold distStep at h
    split_ifs at h
    · refine ih ?_ h
      rw [(received_rest 0).2.1]
      unfold loopIntrs
      rw [hs]; rfl

/-- All conditions of C202 hold for every number of merges and splits of this scene, with a law without history. -/
theorem ex_phases (ks : List ℕ) (x : World (ℤ × ℤ) ℤ ℤ) (s : Scene ℤ (ℤ × ℤ) ℤ ℤ ℤ ℤ) (hx : TwoSided (fun c => -c) x)
    (h : ShowsMotion (exU (fun _ => 0) 1) id x s) (hs : s.intrs = []) :
    GoodPhases exP' (exU (fun _ => 0) 1) id 3 (ks.map fun k => (exPlan, k)) x s := by
  induction ks generalizing x s with
  | nil => trivial
  | cons k ks ih =>
    obtain ⟨g1, g2, g3⟩ := ex_merge_good h hs
    have hclean : Clean id s := fun I hI => by rw [hs] at hI; cases hI
    have hcomp : ∀ y, Complete exP' (exU (fun _ => 0) 1) id 3 y (split exPlan s) := fun y =>
      ex_apart (fun t m1 r1 m2 r2 _ => ex_far t m1 r1 m2 r2 none) _ _ _ ⟨_, _, g2⟩ ⟨_, g3⟩
    have hperm : PermOnMaster (exU (fun _ => 0) 1) id := fun _ _ _ => rfl
    refine ⟨g1, hclean, fun q' _ => hcomp _, ?_⟩
    intro ss hss
    obtain ⟨ss', e1, e2, e3, _⟩ := (split_inv_motion h hx g1 hclean hperm).run
      (compat_motion (p := exP') ex_even' (fun _ _ _ _ _ _ _ _ _ _ => rfl) (fun _ => rfl) (fun _ _ _ _ _ _ _ _ _ => rfl)
        (fun _ _ _ _ _ _ => rfl)) k (fun q' _ => hcomp _) (by omega)
    rw [hss] at e1
    cases e1
    refine ih _ _ (evolve_twoSided ex_even' _ k hx) (merge_shows e2 (by omega) fun i hi => ?_) ?_
    · rw [e3 0 (by omega) i]; exact (shows_isSome h i).2 hi
    · exact ex_merge_intrs (ss := split exPlan s) (by rw [split_zero.2.2.2.2, hs]; rfl) hss

example (ks : List ℕ) : ∃ s', phases exP' 3 (ks.map fun k => (exPlan, k)) (exS id (fun _ => 0) 1 []) = .ok s' ∧
    ShowsMotion (exU (fun _ => 0) 1) id (evolve exP' (exU (fun _ => 0) 1) (iterations (ks.map fun k => (exPlan, k))) exX) s' :=
  C202_merged_partial exP' (fun c => -c) _ id 3 _ exX _ (by omega)
    (ex_motion id _ _ [] ⟨List.Pairwise.nil, fun I hI => by cases hI⟩) ex_twoSided ex_even' (fun _ _ _ _ _ _ _ _ _ _ => rfl) (fun _ => rfl)
    (fun _ _ _ _ _ _ _ _ _ => rfl) (fun _ _ _ _ _ _ => rfl) (fun _ _ _ => rfl)
    (ex_phases ks exX _ ex_twoSided (ex_motion id _ _ [] ⟨List.Pairwise.nil, fun I hI => by cases hI⟩) rfl)

/-- **C202 is violated** by laws with history (any law with friction): a merge does not bring the contacts of workers back, so that all springs of
    their contacts are forgotten at the next split.  Here a merge and a split after the first of two iterations change the result. -/
theorem C202_violated_history : Shows (fun c => -c) (exU (fun _ => 0) 1) id exX (exS id (fun _ => 0) 1 []) ∧
    GoodPlan (exU (fun _ => 0) 1) id 3 exPlan (exS id (fun _ => 0) 1 []) ∧
    (∃ s1, phases exP 3 [(exPlan, 1)] (exS id (fun _ => 0) 1 []) = .ok s1 ∧ GoodPlan (exU (fun _ => 0) 1) id 3 exPlan s1 ∧ s1.intrs = []) ∧
    (evolve exP (exU (fun _ => 0) 1) 1 exX).con 1 2 = some (-1) ∧
    (∃ s', phases exP 3 [(exPlan, 1), (exPlan, 1)] (exS id (fun _ => 0) 1 []) = .ok s' ∧
      (s'.body 1).map Body.m ≠ ((serialRun exP 2 (exS (fun _ => 0) (fun _ => 0) 1 exL)).body 1).map Body.m) ∧
    ∃ s', phases exP 3 [(exPlan, 2)] (exS id (fun _ => 0) 1 []) = .ok s' ∧
      (s'.body 1).map Body.m = ((serialRun exP 2 (exS (fun _ => 0) (fun _ => 0) 1 exL)).body 1).map Body.m := by
  have hsh := ex_shows id (fun _ => 0) 1 [] ⟨List.Pairwise.nil, fun I hI => by cases hI⟩ (fun I hI => by cases hI)
  refine ⟨hsh, ex_good_nil _ _, ?_, by decide, ⟨_, rfl, by decide⟩, ⟨_, rfl, by decide⟩⟩
  obtain ⟨s1, e1, e2⟩ := C202_once_partial exP (fun c => -c) (exU (fun _ => 0) 1) id 3 exPlan exX _ 1 (by omega) hsh ex_twoSided ex_even
    (fun _ _ _ _ _ _ _ _ _ _ => rfl) (fun _ => rfl) (ex_good_nil _ _) (fun I hI => by cases hI) (fun _ _ _ => rfl)
    (fun q' _ => ex_apart ex_far _ _ _ ⟨_, _, ex_split_one id _ _⟩ ⟨_, ex_split_two id _ _⟩)
  have hs : s1.intrs = [] := by
    cases e1; rfl
  exact ⟨s1, e1, (ex_merge_good e2 hs).1, hs⟩

/-- Two lists of an ordinary run that differ in the order of ids, of interactions and in the interactions listed; the states are the same. -/
example (q : ℕ) : (serialRun exP q (exS (fun _ => 0) (fun _ => 0) 1 exL)).body =
    (serialRun exP q (exS (fun _ => 0) (fun _ => 0) 1 exL.reverse)).body :=
  C203_lists exP (fun c => -c) (exU (fun _ => 0) 1) exX _ _ q (ex_shows (fun _ => 0) _ _ exL exL_proper (by simp [exL]))
    (ex_shows (fun _ => 0) _ _ exL.reverse (by unfold ProperList exL; simp) (by simp [exL])) ex_twoSided ex_even (fun _ => rfl)
    (fun q' _ => ex_serialComplete _ _ _ _ _)
    (fun q' _ i hi j hj hji hl => by
      rw [ex_mem] at hi hj
      obtain ⟨I, hI, h⟩ := exL_listed hi hj hji
      exact (hl ⟨I, List.mem_reverse.2 hI, h⟩).elim)

end Verif.Dist
