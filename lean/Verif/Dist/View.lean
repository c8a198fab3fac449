import Verif.Dist.Spec
import Mathlib.Algebra.BigOperators.Group.Finset.Piecewise
import Mathlib.Tactic.SplitIfs
import Mathlib.Tactic.Abel

/-! The loop over interactions, as seen from one body. -/

namespace Verif.Dist

section
variable {K M R C F T : Type} [AddCommMonoid F]

/-- The contact of `i` with `j` as seen from `i`. -/
def view (swap : C → C) : List (Intr C) → ℕ → ℕ → Option (Option C)
  | [], _, _ => none
  | I :: l, i, j =>
    if I.id1 = i ∧ I.id2 = j then some I.con
    else if I.id1 = j ∧ I.id2 = i then some (I.con.map swap)
    else view swap l i j

/-- The force on `i` by `j` in the scene. -/
def contrib (p : Phys K M R C F T) (s : Scene K M R C F T) (i j : ℕ) (c : Option C) : F :=
  match s.body i, s.body j with
  | some a, some b => if s.rank ≠ a.sub ∧ s.rank ≠ b.sub then 0 else (p.law s.dt a.k a.m a.r b.k b.m b.r c).2.1
  | _, _ => 0

/-- The contact of `i` with `j` after the loop. -/
def newCon (p : Phys K M R C F T) (s : Scene K M R C F T) (i j : ℕ) (c : Option C) : Option C :=
  match s.body i, s.body j with
  | some a, some b => if s.rank ≠ a.sub ∧ s.rank ≠ b.sub then none else (p.law s.dt a.k a.m a.r b.k b.m b.r c).1
  | _, _ => none

theorem visit_ids (p : Phys K M R C F T) (s : Scene K M R C F T) (I : Intr C) :
    (visit p s I).1.id1 = I.id1 ∧ (visit p s I).1.id2 = I.id2 := by
  unfold visit
  cases s.body I.id1 <;> cases s.body I.id2 <;> simp only [and_self]
  split_ifs <;> exact ⟨rfl, rfl⟩

theorem visit_fst (p : Phys K M R C F T) (s : Scene K M R C F T) (I : Intr C) :
    (visit p s I).2.1 = contrib p s I.id1 I.id2 I.con := by
  unfold visit contrib
  cases s.body I.id1 <;> cases s.body I.id2 <;> simp only
  split_ifs <;> rfl

theorem visit_snd {p : Phys K M R C F T} {swap : C → C} (h : EvenHanded p swap) (s : Scene K M R C F T) (I : Intr C) :
    (visit p s I).2.2 = contrib p s I.id2 I.id1 (I.con.map swap) := by
  unfold visit contrib
  cases s.body I.id1 <;> cases s.body I.id2 <;> simp only
  rename_i a b
  by_cases hc : s.rank ≠ a.sub ∧ s.rank ≠ b.sub
  · rw [if_pos hc, if_pos ⟨hc.2, hc.1⟩]
  · rw [if_neg hc, if_neg fun h => hc ⟨h.2, h.1⟩, h.law]

theorem visit_con (p : Phys K M R C F T) (s : Scene K M R C F T) (I : Intr C) :
    (visit p s I).1.con = newCon p s I.id1 I.id2 I.con := by
  unfold visit newCon
  cases s.body I.id1 <;> cases s.body I.id2 <;> simp only
  split_ifs <;> rfl

theorem visit_con_swap {p : Phys K M R C F T} {swap : C → C} (h : EvenHanded p swap) (s : Scene K M R C F T) (I : Intr C) :
    (visit p s I).1.con.map swap = newCon p s I.id2 I.id1 (I.con.map swap) := by
  rw [visit_con]
  unfold newCon
  cases s.body I.id1 <;> cases s.body I.id2 <;> simp only [Option.map_none]
  rename_i a b
  by_cases hc : s.rank ≠ a.sub ∧ s.rank ≠ b.sub
  · rw [if_pos hc, if_pos ⟨hc.2, hc.1⟩]; rfl
  · rw [if_neg hc, if_neg fun h => hc ⟨h.2, h.1⟩, h.law]

theorem map_map_swap {swap : C → C} (h : ∀ c, swap (swap c) = c) (c : Option C) : (c.map swap).map swap = c := by
  cases c <;> simp [h]

theorem view_isSome (swap : C → C) (l : List (Intr C)) (i j : ℕ) : (view swap l i j).isSome ↔ Listed l i j := by
  induction l with
  | nil => simp [view, Listed]
  | cons I l ih =>
    unfold view
    by_cases h1 : I.id1 = i ∧ I.id2 = j
    · rw [if_pos h1]; simp only [Option.isSome_some, true_iff]
      exact ⟨I, List.mem_cons_self .., .inl h1⟩
    · rw [if_neg h1]
      by_cases h2 : I.id1 = j ∧ I.id2 = i
      · rw [if_pos h2]; simp only [Option.isSome_some, true_iff]
        exact ⟨I, List.mem_cons_self .., .inr h2⟩
      · rw [if_neg h2, ih]
        constructor
        · rintro ⟨J, hJ, h⟩; exact ⟨J, List.mem_cons_of_mem _ hJ, h⟩
        · rintro ⟨J, hJ, h⟩
          rcases List.mem_cons.1 hJ with rfl | hJ
          · rcases h with h | h
            · exact (h1 h).elim
            · exact (h2 h).elim
          · exact ⟨J, hJ, h⟩

theorem view_none (swap : C → C) (l : List (Intr C)) (i j : ℕ) : view swap l i j = none ↔ ¬ Listed l i j := by
  rw [← view_isSome swap]; cases view swap l i j <;> simp

theorem listed_comm (l : List (Intr C)) (i j : ℕ) : Listed l i j ↔ Listed l j i :=
  ⟨fun ⟨I, h, h'⟩ => ⟨I, h, h'.symm⟩, fun ⟨I, h, h'⟩ => ⟨I, h, h'.symm⟩⟩

theorem view_swap {swap : C → C} (hs : ∀ c, swap (swap c) = c) (l : List (Intr C)) (hl : ∀ I ∈ l, I.id1 ≠ I.id2) (i j : ℕ) :
    view swap l j i = (view swap l i j).map fun c => c.map swap := by
  induction l with
  | nil => rfl
  | cons I l ih =>
    have hI := hl I (List.mem_cons_self ..)
    unfold view
    by_cases h1 : I.id1 = i ∧ I.id2 = j
    · have h2 : ¬ (I.id1 = j ∧ I.id2 = i) := fun h => hI (h1.1.trans h.2.symm)
      rw [if_pos h1, if_neg h2, if_pos h1]; rfl
    · by_cases h2 : I.id1 = j ∧ I.id2 = i
      · simp only [if_pos h2, if_neg h1, Option.map_some, map_map_swap hs]
      · rw [if_neg h1, if_neg h2, if_neg h2, if_neg h1]
        exact ih fun J hJ => hl J (List.mem_cons_of_mem _ hJ)

theorem view_map {p : Phys K M R C F T} {swap : C → C} (h : EvenHanded p swap) (s : Scene K M R C F T) (l : List (Intr C)) (i j : ℕ) :
    view swap (l.map fun I => (visit p s I).1) i j = (view swap l i j).map (newCon p s i j) := by
  induction l with
  | nil => rfl
  | cons I l ih =>
    simp only [List.map_cons]
    unfold view
    rw [(visit_ids p s I).1, (visit_ids p s I).2]
    by_cases h1 : I.id1 = i ∧ I.id2 = j
    · rw [if_pos h1, if_pos h1, visit_con, h1.1, h1.2]; rfl
    · rw [if_neg h1, if_neg h1]
      by_cases h2 : I.id1 = j ∧ I.id2 = i
      · rw [if_pos h2, if_pos h2, visit_con_swap h, h2.1, h2.2]; rfl
      · rw [if_neg h2, if_neg h2, ih]

theorem listed_map (p : Phys K M R C F T) (s : Scene K M R C F T) (l : List (Intr C)) (i j : ℕ) :
    Listed (l.map fun I => (visit p s I).1) i j ↔ Listed l i j := by
  unfold Listed
  constructor
  · rintro ⟨J, hJ, h⟩
    obtain ⟨I, hI, rfl⟩ := List.mem_map.1 hJ
    simp only [visit_ids] at h
    exact ⟨I, hI, h⟩
  · rintro ⟨I, hI, h⟩
    refine ⟨_, List.mem_map.2 ⟨I, hI, rfl⟩, ?_⟩
    simp only [visit_ids]; exact h

theorem proper_map (p : Phys K M R C F T) (s : Scene K M R C F T) (l : List (Intr C)) (hl : ProperList l) :
    ProperList (l.map fun I => (visit p s I).1) := by
  refine ⟨?_, ?_⟩
  · rw [List.pairwise_map]
    refine hl.1.imp ?_
    intro I J h
    simp only [visit_ids]; exact h
  · intro J hJ
    obtain ⟨I, hI, rfl⟩ := List.mem_map.1 hJ
    rw [(visit_ids p s I).1, (visit_ids p s I).2]
    exact hl.2 I hI

/-- The forces of the loop, sorted by the other body. -/
theorem loopForces_eq {p : Phys K M R C F T} {swap : C → C} (h : EvenHanded p swap) (s : Scene K M R C F T) (ids : Finset ℕ)
    (hb : ∀ i, (s.body i).isSome → i ∈ ids) (l : List (Intr C)) (hl : ProperList l) (f : ℕ → F) (i : ℕ) :
    loopForces p s l f i = f i + ∑ j ∈ ids.erase i, (view swap l i j).elim 0 (contrib p s i j) := by
  induction l generalizing f with
  | nil => simp [loopForces, view]
  | cons I l ih =>
    obtain ⟨hp, hs⟩ := hl
    have hI := hs I (List.mem_cons_self ..)
    rw [List.pairwise_cons] at hp
    rw [loopForces, ih ⟨hp.2, fun J hJ => hs J (List.mem_cons_of_mem _ hJ)⟩]
    have key : ∀ j, (view swap (I :: l) i j).elim 0 (contrib p s i j) =
        ((if I.id2 = j then (if I.id1 = i then (visit p s I).2.1 else 0) else 0) +
          (if I.id1 = j then (if I.id2 = i then (visit p s I).2.2 else 0) else 0)) +
          (view swap l i j).elim 0 (contrib p s i j) := by
      intro j
      have hn : (I.id1 = i ∧ I.id2 = j) ∨ (I.id1 = j ∧ I.id2 = i) → view swap l i j = none := by
        intro hh
        rw [view_none]
        rintro ⟨J, hJ, hJ'⟩
        refine hp.1 J hJ ?_
        rcases hh with ⟨a, b⟩ | ⟨a, b⟩ <;> rcases hJ' with ⟨c, d⟩ | ⟨c, d⟩
        · exact .inl ⟨a.trans c.symm, b.trans d.symm⟩
        · exact .inr ⟨a.trans d.symm, b.trans c.symm⟩
        · exact .inr ⟨a.trans d.symm, b.trans c.symm⟩
        · exact .inl ⟨a.trans c.symm, b.trans d.symm⟩
      by_cases h1 : I.id1 = i ∧ I.id2 = j
      · have e : view swap (I :: l) i j = some I.con := by unfold view; rw [if_pos h1]
        rw [e, hn (.inl h1), if_pos h1.2, if_pos h1.1, visit_fst]
        have : ¬ I.id1 = j := fun e => hI (e.trans h1.2.symm)
        rw [if_neg this, h1.1, h1.2]; simp
      · by_cases h2 : I.id1 = j ∧ I.id2 = i
        · have e : view swap (I :: l) i j = some (I.con.map swap) := by unfold view; rw [if_neg h1, if_pos h2]
          rw [e, hn (.inr h2), if_pos h2.1, if_pos h2.2, visit_snd h]
          have : ¬ I.id2 = j := fun e => hI (h2.1.trans e.symm)
          rw [if_neg this, h2.1, h2.2]; simp
        · have e : view swap (I :: l) i j = view swap l i j := by
            conv_lhs => unfold view
            rw [if_neg h1, if_neg h2]
          rw [e]
          have e1 : (if I.id2 = j then (if I.id1 = i then (visit p s I).2.1 else 0) else 0) = 0 := by
            by_cases hj : I.id2 = j
            · rw [if_pos hj, if_neg fun hi => h1 ⟨hi, hj⟩]
            · rw [if_neg hj]
          have e2 : (if I.id1 = j then (if I.id2 = i then (visit p s I).2.2 else 0) else 0) = 0 := by
            by_cases hj : I.id1 = j
            · rw [if_pos hj, if_neg fun hi => h2 ⟨hj, hi⟩]
            · rw [if_neg hj]
          rw [e1, e2]; simp
    rw [Finset.sum_congr rfl fun j _ => key j, Finset.sum_add_distrib, Finset.sum_add_distrib,
      Finset.sum_ite_eq, Finset.sum_ite_eq]
    have z1 : (if I.id2 ∈ ids.erase i then (if I.id1 = i then (visit p s I).2.1 else 0) else 0) = if I.id1 = i then (visit p s I).2.1 else 0 := by
      by_cases hm : I.id2 ∈ ids.erase i
      · rw [if_pos hm]
      · rw [if_neg hm]
        by_cases hi : I.id1 = i
        · rw [if_pos hi, visit_fst]
          unfold contrib
          have : s.body I.id2 = none := by
            by_contra hne
            exact hm (Finset.mem_erase.2 ⟨fun e => hI (hi.trans e.symm), hb _ (Option.isSome_iff_ne_none.2 hne)⟩)
          rw [this]; cases s.body I.id1 <;> rfl
        · rw [if_neg hi]
    have z2 : (if I.id1 ∈ ids.erase i then (if I.id2 = i then (visit p s I).2.2 else 0) else 0) = if I.id2 = i then (visit p s I).2.2 else 0 := by
      by_cases hm : I.id1 ∈ ids.erase i
      · rw [if_pos hm]
      · rw [if_neg hm]
        by_cases hi : I.id2 = i
        · rw [if_pos hi, visit_snd h]
          unfold contrib
          have : s.body I.id1 = none := by
            by_contra hne
            exact hm (Finset.mem_erase.2 ⟨fun e => hI (e.trans hi.symm), hb _ (Option.isSome_iff_ne_none.2 hne)⟩)
          rw [this]; cases s.body I.id2 <;> rfl
        · rw [if_neg hi]
    rw [z1, z2]
    unfold addPair
    abel

end

end Verif.Dist
