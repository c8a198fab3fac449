import Verif.Mpi.Exchange
import Mathlib.Data.List.Nodup
/-!
# Lemmas on the messages of a step
-/
namespace Verif.Mpi.Exchange
open Verif.Mpi.Net

variable {M : Type}

/-! ## Lemmas -/

theorem filterMap_eq_if {α β : Type} [DecidableEq α] {l : List α} (hl : l.Nodup) (q : α) (c : β) :
    (l.filterMap fun x => if x = q then some c else none) = if q ∈ l then [c] else [] := by
  induction l with
  | nil => simp
  | cons a l ih =>
    obtain ⟨h1, h2⟩ := List.nodup_cons.mp hl
    rw [List.filterMap_cons]
    by_cases e : a = q
    · subst e
      rw [if_pos rfl]
      simp [ih h2, h1]
    · rw [if_neg e]
      have : q ∈ a :: l ↔ q ∈ l := by simp [Ne.symm e]
      simp only [ih h2, this]

theorem forall₂_flatMap {α β γ : Type} {R : β → γ → Prop} {f : α → List β} {g : α → List γ} {l : List α} (h : ∀ t ∈ l, List.Forall₂ R (f t) (g t)) :
    List.Forall₂ R (l.flatMap f) (l.flatMap g) := by
  induction l with
  | nil => simp
  | cons a l ih =>
    rw [List.flatMap_cons, List.flatMap_cons]
    exact List.rel_append (h a (by simp)) (ih fun t ht => h t (by simp [ht]))

theorem posts_flatMap {α : Type} (q tag : Nat) (l : List α) (f : α → List (Nat × Op M)) : posts q tag (l.flatMap f) = l.flatMap fun t => posts q tag (f t) := by
  induction l with
  | nil => rfl
  | cons a l ih => rw [List.flatMap_cons, List.flatMap_cons, posts_append, ih]

theorem waits_flatMap {α : Type} (q tag : Nat) (l : List α) (f : α → List (Nat × Op M)) : waits q tag (l.flatMap f) = l.flatMap fun t => waits q tag (f t) := by
  induction l with
  | nil => rfl
  | cons a l ih => rw [List.flatMap_cons, List.flatMap_cons, waits_append, ih]

theorem sends_flatMap {α : Type} (q tag : Nat) (l : List α) (f : α → List (Nat × Op M)) : sends q tag (l.flatMap f) = l.flatMap fun t => sends q tag (f t) := by
  induction l with
  | nil => rfl
  | cons a l ih => rw [List.flatMap_cons, List.flatMap_cons, sends_append, ih]

theorem posts_states {base p : Nat} {nb : List Nat} (hn : nb.Nodup) (payload : Nat → M) (q : Nat) :
    posts q 177 (statesOps base p nb payload) = if p ≠ 0 ∧ q ∈ nb then [base] else [] := by
  unfold statesOps
  rw [posts_append, posts_append]
  have h2 : posts q 177 ((nb.filter fun k => k ≠ p ∧ k ≠ 0).map fun k => (base + 1, Op.send k 177 (payload k))) = [] := by simp [posts, List.filterMap_map]
  rw [h2]
  by_cases h : p = 0
  · simp [h, posts]
  · rw [if_neg h, if_neg h]
    have h3 : posts q 177 (nb.map fun q => (base + 2, (Op.wait q 177 : Op M))) = [] := by simp [posts, List.filterMap_map]
    rw [h3]
    simp only [posts, List.filterMap_map, List.append_nil, Function.comp_def, and_true]
    rw [filterMap_eq_if hn]; simp [h]

theorem waits_states {base p : Nat} {nb : List Nat} (hn : nb.Nodup) (payload : Nat → M) (q : Nat) :
    waits q 177 (statesOps base p nb payload) = if p ≠ 0 ∧ q ∈ nb then [base + 2] else [] := by
  unfold statesOps
  rw [waits_append, waits_append]
  have h2 : waits q 177 ((nb.filter fun k => k ≠ p ∧ k ≠ 0).map fun k => (base + 1, Op.send k 177 (payload k))) = [] := by simp [waits, List.filterMap_map]
  rw [h2]
  by_cases h : p = 0
  · simp [h, waits]
  · rw [if_neg h, if_neg h]
    have h3 : waits q 177 (nb.map fun q => (base, (Op.post q 177 : Op M))) = [] := by simp [waits, List.filterMap_map]
    rw [h3]
    simp only [waits, List.filterMap_map, List.nil_append, Function.comp_def, and_true]
    rw [filterMap_eq_if hn]; simp [h]

theorem sends_states {base p : Nat} {nb : List Nat} (hn : nb.Nodup) (payload : Nat → M) (q : Nat) :
    sends q 177 (statesOps base p nb payload) = if q ∈ nb ∧ q ≠ p ∧ q ≠ 0 then [(base + 1, payload q)] else [] := by
  unfold statesOps
  rw [sends_append, sends_append]
  have h1 : sends q 177 (if p = 0 then [] else nb.map fun q => (base, (Op.post q 177 : Op M))) = [] := by
    split_ifs <;> simp [sends, List.filterMap_map]
  have h3 : sends q 177 (if p = 0 then [] else nb.map fun q => (base + 2, (Op.wait q 177 : Op M))) = [] := by
    split_ifs <;> simp [sends, List.filterMap_map]
  rw [h1, h3]
  simp only [sends, List.filterMap_map, List.nil_append, List.append_nil, Function.comp_def, and_true]
  have h4 : ∀ k, (if k = q then some (base + 1, payload k) else none) = (if k = q then some (base + 1, payload q) else none) := by
    intro k; split_ifs with h
    · rw [h]
    · rfl
  simp only [h4]
  rw [filterMap_eq_if (hn.filter _)]
  simp [List.mem_filter]

/-- tags other than that of the states -/
theorem states_other {base p : Nat} {nb : List Nat} {payload : Nat → M} {q tag : Nat} (h : tag ≠ 177) :
    posts q tag (statesOps base p nb payload) = [] ∧ waits q tag (statesOps base p nb payload) = [] ∧ sends q tag (statesOps base p nb payload) = [] := by
  have h' : ¬ 177 = tag := fun e => h e.symm
  unfold statesOps
  refine ⟨?_, ?_, ?_⟩
  · rw [posts_append, posts_append]; split_ifs <;> simp [posts, List.filterMap_map, h']
  · rw [waits_append, waits_append]; split_ifs <;> simp [waits, List.filterMap_map, h']
  · rw [sends_append, sends_append]; split_ifs <;> simp [sends, List.filterMap_map, h']

theorem flatMap_eq_if {α β : Type} [DecidableEq α] {l : List α} (hl : l.Nodup) (q : α) (c : α → β) :
    (l.flatMap fun x => if x = q then [c x] else []) = if q ∈ l then [c q] else [] := by
  induction l with
  | nil => simp
  | cons a l ih =>
    obtain ⟨h1, h2⟩ := List.nodup_cons.mp hl
    rw [List.flatMap_cons]
    by_cases e : a = q
    · subst e; rw [if_pos rfl, ih h2]; simp [h1]
    · have : q ∈ a :: l ↔ q ∈ l := by simp [Ne.symm e]
      rw [if_neg e, ih h2]; simp only [this, List.nil_append]

theorem posts_forces {acc : Bool} {base p : Nat} {nb0 : List Nat} (hn : nb0.Nodup) (f : M) (q : Nat) :
    posts q 15 (forcesOps acc base p nb0 f) = if acc = true ∧ p = 0 ∧ q ∈ nb0 then [base + 3 * nb0.idxOf q] else [] := by
  cases acc
  · simp [forcesOps, posts, waits, sends]
  unfold forcesOps
  rw [if_neg (by simp)]
  by_cases h : p = 0
  · rw [if_pos h, posts_flatMap]
    have : (nb0.flatMap fun sd => posts q 15 [(base + 3 * nb0.idxOf sd, (Op.post sd 15 : Op M)), (base + 3 * nb0.idxOf sd + 2, Op.wait sd 15)]) =
        nb0.flatMap fun sd => if sd = q then [base + 3 * nb0.idxOf sd] else [] := by
      congr 1; funext sd; by_cases e : sd = q <;> simp [posts, e]
    rw [this, flatMap_eq_if hn q (fun sd => base + 3 * nb0.idxOf sd)]
    simp [h]
  · rw [if_neg h]; simp [posts, h]

theorem waits_forces {acc : Bool} {base p : Nat} {nb0 : List Nat} (hn : nb0.Nodup) (f : M) (q : Nat) :
    waits q 15 (forcesOps acc base p nb0 f) = if acc = true ∧ p = 0 ∧ q ∈ nb0 then [base + 3 * nb0.idxOf q + 2] else [] := by
  cases acc
  · simp [forcesOps, posts, waits, sends]
  unfold forcesOps
  rw [if_neg (by simp)]
  by_cases h : p = 0
  · rw [if_pos h, waits_flatMap]
    have : (nb0.flatMap fun sd => waits q 15 [(base + 3 * nb0.idxOf sd, (Op.post sd 15 : Op M)), (base + 3 * nb0.idxOf sd + 2, Op.wait sd 15)]) =
        nb0.flatMap fun sd => if sd = q then [base + 3 * nb0.idxOf sd + 2] else [] := by
      congr 1; funext sd; by_cases e : sd = q <;> simp [waits, e]
    rw [this, flatMap_eq_if hn q (fun sd => base + 3 * nb0.idxOf sd + 2)]
    simp [h]
  · rw [if_neg h]; simp [waits, h]

theorem sends_forces {acc : Bool} {base p : Nat} {nb0 : List Nat} (f : M) (q : Nat) :
    sends q 15 (forcesOps acc base p nb0 f) = if acc = true ∧ p ≠ 0 ∧ q = 0 then [(base + 3 * nb0.idxOf p + 1, f)] else [] := by
  cases acc
  · simp [forcesOps, posts, waits, sends]
  unfold forcesOps
  rw [if_neg (by simp)]
  by_cases h : p = 0
  · rw [if_pos h, sends_flatMap, if_neg (by simp [h])]
    simp [sends]
  · rw [if_neg h]
    by_cases e : q = 0
    · simp [sends, h, e]
    · rw [if_neg (by simp [e])]; simp [sends, Ne.symm e]

/-- tags other than that of the forces -/
theorem forces_other {acc : Bool} {base p : Nat} {nb0 : List Nat} {f : M} {q tag : Nat} (h : tag ≠ 15) :
    posts q tag (forcesOps acc base p nb0 f) = [] ∧ waits q tag (forcesOps acc base p nb0 f) = [] ∧ sends q tag (forcesOps acc base p nb0 f) = [] := by
  have h' : ¬ 15 = tag := fun e => h e.symm
  cases acc
  · simp [forcesOps, posts, waits, sends]
  unfold forcesOps
  rw [if_neg (by simp)]
  split_ifs
  · refine ⟨?_, ?_, ?_⟩
    · rw [posts_flatMap]; simp [posts, h']
    · rw [waits_flatMap]; simp [waits, h']
    · rw [sends_flatMap]; simp [sends]
  · refine ⟨?_, ?_, ?_⟩ <;> simp [posts, waits, sends, h']

/-! ## Levels -/

theorem statesOps_levels {base p : Nat} {nb : List Nat} {payload : Nat → M} :
    (statesOps base p nb payload).Pairwise (fun a b => a.1 ≤ b.1) ∧ ∀ x ∈ statesOps base p nb payload, base ≤ x.1 ∧ x.1 ≤ base + 2 := by
  have hc : ∀ {α : Type} (l : List α) (f : α → Op M) (b : Nat), (l.map fun q => (b, f q)).Pairwise (fun a b => a.1 ≤ b.1) ∧ ∀ x ∈ l.map fun q => (b, f q), x.1 = b := by
    intro α l f b
    refine ⟨?_, ?_⟩
    · rw [List.pairwise_map]; exact List.pairwise_of_forall fun _ _ => Nat.le_refl _
    · intro x hx; obtain ⟨y, -, rfl⟩ := List.mem_map.mp hx; rfl
  have h1 : (if p = 0 then [] else nb.map fun q => (base, (Op.post q 177 : Op M))).Pairwise (fun a b => a.1 ≤ b.1) ∧
      ∀ x ∈ (if p = 0 then [] else nb.map fun q => (base, (Op.post q 177 : Op M))), x.1 = base := by
    split_ifs
    · exact ⟨List.Pairwise.nil, fun x hx => by cases hx⟩
    · exact hc nb (fun q => Op.post q 177) base
  have h3 : (if p = 0 then [] else nb.map fun q => (base + 2, (Op.wait q 177 : Op M))).Pairwise (fun a b => a.1 ≤ b.1) ∧
      ∀ x ∈ (if p = 0 then [] else nb.map fun q => (base + 2, (Op.wait q 177 : Op M))), x.1 = base + 2 := by
    split_ifs
    · exact ⟨List.Pairwise.nil, fun x hx => by cases hx⟩
    · exact hc nb (fun q => Op.wait q 177) (base + 2)
  have h2 := hc (nb.filter fun k => k ≠ p ∧ k ≠ 0) (fun k => Op.send k 177 (payload k)) (base + 1)
  unfold statesOps
  refine ⟨?_, ?_⟩
  · rw [List.pairwise_append, List.pairwise_append]
    refine ⟨⟨h1.1, h2.1, fun a ha b hb => ?_⟩, h3.1, fun a ha b hb => ?_⟩
    · rw [h1.2 a ha, h2.2 b hb]; omega
    · rw [h3.2 b hb]
      rcases List.mem_append.mp ha with ha | ha
      · rw [h1.2 a ha]; omega
      · rw [h2.2 a ha]; omega
  · intro x hx
    rcases List.mem_append.mp hx with hx | hx
    · rcases List.mem_append.mp hx with hx | hx
      · rw [h1.2 x hx]; omega
      · rw [h2.2 x hx]; omega
    · rw [h3.2 x hx]; omega

theorem forcesOps_levels {acc : Bool} {base p : Nat} {nb0 : List Nat} (hn : nb0.Nodup) {f : M} :
    (forcesOps acc base p nb0 f).Pairwise (fun a b => a.1 ≤ b.1) ∧ ∀ x ∈ forcesOps acc base p nb0 f, base ≤ x.1 ∧ x.1 ≤ base + 3 * nb0.length + 2 := by
  cases acc
  · simp [forcesOps, posts, waits, sends]
  unfold forcesOps
  rw [if_neg (by simp)]
  split_ifs
  · have hlt : ∀ sd ∈ nb0, nb0.idxOf sd < nb0.length := fun sd h => List.idxOf_lt_length_of_mem h
    refine ⟨?_, ?_⟩
    · rw [List.pairwise_flatMap]
      refine ⟨fun a _ => by simp, ?_⟩
      have hidx : nb0.Pairwise fun a b => nb0.idxOf a < nb0.idxOf b := by
        rw [List.pairwise_iff_getElem]
        intro i j hi hj hij
        rw [hn.idxOf_getElem, hn.idxOf_getElem]; exact hij
      refine hidx.imp ?_
      intro a b hab x hx y hy
      simp only [List.mem_cons, List.not_mem_nil, or_false] at hx hy
      rcases hx with rfl | rfl <;> rcases hy with rfl | rfl <;> dsimp only <;> omega
    · intro x hx
      obtain ⟨sd, h1, h2⟩ := List.mem_flatMap.mp hx
      have := hlt sd h1
      simp only [List.mem_cons, List.not_mem_nil, or_false] at h2
      rcases h2 with rfl | rfl <;> dsimp only <;> omega
  · refine ⟨List.pairwise_singleton _ _, fun x hx => ?_⟩
    simp only [List.mem_cons, List.not_mem_nil, or_false] at hx
    subst hx
    have : nb0.idxOf p ≤ nb0.length := List.idxOf_le_length
    dsimp only; omega

theorem pairwise_range_flatMap {α : Type} {R : α → α → Prop} {f : Nat → List α} {T : Nat} (h1 : ∀ t, (f t).Pairwise R)
    (h2 : ∀ t u, t < u → ∀ x ∈ f t, ∀ y ∈ f u, R x y) : ((List.range T).flatMap f).Pairwise R := by
  rw [List.pairwise_flatMap]
  exact ⟨fun a _ => h1 a, List.Pairwise.imp (fun hab x hx y hy => h2 _ _ hab x hx y hy) List.pairwise_lt_range⟩

theorem baseAt_mono (I : Nat → Nat → Nat → List Nat) {t u : Nat} (h : t < u) : baseAt I t + 3 * (I t 0 0).length + 6 ≤ baseAt I u := by
  induction u with
  | zero => omega
  | succ u ih =>
    rcases Nat.lt_or_ge t u with h' | h'
    · have := ih h'; rw [baseAt]; omega
    · have : t = u := by omega
      subst this; exact Nat.le_refl _

/-! ## Chosen steps -/

theorem flatMap_choice {α : Type} (P : Nat → Prop) [DecidablePred P] (f : Nat → α) (l : List Nat) :
    (l.flatMap fun t => if P t then [f t] else []) = (l.filter P).map f := by
  induction l with
  | nil => rfl
  | cons a l ih =>
    rw [List.flatMap_cons, ih, List.filter_cons]
    by_cases h : P a <;> simp [h]

/-- the j-th of the chosen steps has `j` chosen steps before it -/
theorem nth_choice {P : Nat → Prop} [DecidablePred P] {T j t : Nat} (h : ((List.range T).filter P)[j]? = some t) :
    t < T ∧ P t ∧ j = ((List.range t).filter P).length := by
  induction T with
  | zero => simp at h
  | succ T ih =>
    rw [List.range_succ, List.filter_append] at h
    rcases Nat.lt_or_ge j ((List.range T).filter P).length with hj | hj
    · rw [List.getElem?_append_left hj] at h
      obtain ⟨h1, h2, h3⟩ := ih h
      exact ⟨by omega, h2, h3⟩
    · rw [List.getElem?_append_right hj] at h
      by_cases hp : P T
      · simp only [List.filter_cons, hp, decide_true, if_true, List.filter_nil] at h
        have h0 : j - ((List.range T).filter P).length = 0 := by
          by_contra hc
          rw [List.getElem?_eq_none (by simp; omega)] at h; cases h
        rw [h0] at h
        simp at h; subst h
        exact ⟨by omega, hp, by omega⟩
      · simp [hp] at h

theorem chosen_le {P : Nat → Prop} [DecidablePred P] (t : Nat) : ((List.range t).filter P).length ≤ t := by
  have := List.length_filter_le (fun x => decide (P x)) (List.range t)
  rwa [List.length_range] at this

theorem chosen_all {P : Nat → Prop} [DecidablePred P] {t : Nat} (h : ∀ u, u < t → P u) : ((List.range t).filter P).length = t := by
  rw [List.filter_eq_self.mpr (fun u hu => by simpa using h u (List.mem_range.mp hu)), List.length_range]

theorem chosen_lt {P : Nat → Prop} [DecidablePred P] {t u : Nat} (hu : u < t) (hn : ¬ P u) : ((List.range t).filter P).length < t := by
  have := List.length_filter_lt_length_iff_exists (p := fun x => decide (P x)) (l := List.range t)
  rw [List.length_range] at this
  exact this.mpr ⟨u, List.mem_range.mpr hu, by simpa using hn⟩

/-! ## The programs of the steps -/

/-- levels of step `t` -/
def InStep (I : Nat → Nat → Nat → List Nat) (t l : Nat) : Prop := baseAt I t ≤ l ∧ l < baseAt I (t + 1)

theorem InStep.unique {I : Nat → Nat → Nat → List Nat} {t u l : Nat} (h : InStep I t l) (h' : InStep I u l) : t = u := by
  rcases Nat.lt_trichotomy t u with e | e | e
  · have := baseAt_mono I e; obtain ⟨h1, h2⟩ := h; rw [baseAt] at h2; obtain ⟨h3, h4⟩ := h'; omega
  · exact e
  · have := baseAt_mono I e; obtain ⟨h1, h2⟩ := h'; rw [baseAt] at h2; obtain ⟨h3, h4⟩ := h; omega

theorem stepOps_levels {acc : Bool} {I : Nat → Nat → Nat → List Nat} {states : Nat → Nat → Nat → M} {forces : Nat → Nat → M} {p t : Nat} (hn : (I t 0 0).Nodup) :
    (stepOps acc I states forces p t).Pairwise (fun a b => a.1 ≤ b.1) ∧ ∀ x ∈ stepOps acc I states forces p t, InStep I t x.1 := by
  obtain ⟨f1, f2⟩ := forcesOps_levels (acc := acc) (base := baseAt I t) (p := p) hn (f := forces t p)
  obtain ⟨s1, s2⟩ := statesOps_levels (base := baseAt I t + 3 * (I t 0 0).length + 3) (p := p) (nb := I t p p) (payload := states t p)
  unfold stepOps InStep
  rw [baseAt]
  refine ⟨?_, ?_⟩
  · rw [List.pairwise_append]
    refine ⟨f1, s1, fun a ha b hb => ?_⟩
    have := f2 a ha; have := s2 b hb; omega
  · intro x hx
    rcases List.mem_append.mp hx with hx | hx
    · have := f2 x hx; omega
    · have := s2 x hx; omega

theorem steps_mono {acc : Bool} {n : Nat} {I : Nat → Nat → Nat → List Nat} {states : Nat → Nat → Nat → M} {forces : Nat → Nat → M} {T : Nat}
    (hn : ∀ t, (I t 0 0).Nodup) (p : Nat) : (steps acc n I states forces T p).Pairwise fun a b => a.1 ≤ b.1 := by
  unfold steps
  split_ifs
  · refine pairwise_range_flatMap (fun t => (stepOps_levels (hn t)).1) ?_
    intro t u h x hx y hy
    obtain ⟨h1, h2⟩ := (stepOps_levels (hn t)).2 x hx
    obtain ⟨h3, h4⟩ := (stepOps_levels (hn u)).2 y hy
    have := baseAt_mono I h
    rw [baseAt] at h2; omega
  · exact List.Pairwise.nil

section
variable {acc : Bool} {n : Nat} {I : Nat → Nat → Nat → List Nat} {states : Nat → Nat → Nat → M} {forces : Nat → Nat → M} {T : Nat}

theorem waits_steps_states {p : Nat} (hn : ∀ t, (I t p p).Nodup) (q : Nat) :
    waits q 177 (steps acc n I states forces T p) =
      if p < n then ((List.range T).filter fun t => p ≠ 0 ∧ q ∈ I t p p).map (fun t => baseAt I t + 3 * (I t 0 0).length + 3 + 2) else [] := by
  unfold steps
  split_ifs
  · rw [waits_flatMap, ← flatMap_choice (fun t => p ≠ 0 ∧ q ∈ I t p p)]
    congr 1; funext t
    unfold stepOps
    rw [waits_append, (forces_other (by decide)).2.1, waits_states (hn t)]; rfl
  · rfl

theorem posts_steps_states {p : Nat} (hn : ∀ t, (I t p p).Nodup) (q : Nat) :
    posts q 177 (steps acc n I states forces T p) =
      if p < n then ((List.range T).filter fun t => p ≠ 0 ∧ q ∈ I t p p).map (fun t => baseAt I t + 3 * (I t 0 0).length + 3) else [] := by
  unfold steps
  split_ifs
  · rw [posts_flatMap, ← flatMap_choice (fun t => p ≠ 0 ∧ q ∈ I t p p)]
    congr 1; funext t
    unfold stepOps
    rw [posts_append, (forces_other (by decide)).1, posts_states (hn t)]; rfl
  · rfl

theorem sends_steps_states {p : Nat} (hn : ∀ t, (I t p p).Nodup) (q : Nat) :
    sends q 177 (steps acc n I states forces T p) =
      if p < n then ((List.range T).filter fun t => q ∈ I t p p ∧ q ≠ p ∧ q ≠ 0).map
        (fun t => (baseAt I t + 3 * (I t 0 0).length + 3 + 1, states t p q)) else [] := by
  unfold steps
  split_ifs
  · rw [sends_flatMap, ← flatMap_choice (fun t => q ∈ I t p p ∧ q ≠ p ∧ q ≠ 0)]
    congr 1; funext t
    unfold stepOps
    rw [sends_append, (forces_other (by decide)).2.2, sends_states (hn t)]; rfl
  · rfl

theorem waits_steps_forces {p : Nat} (hn : ∀ t, (I t 0 0).Nodup) (q : Nat) :
    waits q 15 (steps acc n I states forces T p) =
      if p < n then ((List.range T).filter fun t => acc = true ∧ p = 0 ∧ q ∈ I t 0 0).map (fun t => baseAt I t + 3 * (I t 0 0).idxOf q + 2) else [] := by
  unfold steps
  split_ifs
  · rw [waits_flatMap, ← flatMap_choice (fun t => acc = true ∧ p = 0 ∧ q ∈ I t 0 0)]
    congr 1; funext t
    unfold stepOps
    rw [waits_append, (states_other (by decide)).2.1, waits_forces (hn t), List.append_nil]
  · rfl

theorem posts_steps_forces {p : Nat} (hn : ∀ t, (I t 0 0).Nodup) (q : Nat) :
    posts q 15 (steps acc n I states forces T p) =
      if p < n then ((List.range T).filter fun t => acc = true ∧ p = 0 ∧ q ∈ I t 0 0).map (fun t => baseAt I t + 3 * (I t 0 0).idxOf q) else [] := by
  unfold steps
  split_ifs
  · rw [posts_flatMap, ← flatMap_choice (fun t => acc = true ∧ p = 0 ∧ q ∈ I t 0 0)]
    congr 1; funext t
    unfold stepOps
    rw [posts_append, (states_other (by decide)).1, posts_forces (hn t), List.append_nil]
  · rfl

theorem sends_steps_forces {p : Nat} (q : Nat) :
    sends q 15 (steps acc n I states forces T p) =
      if p < n then ((List.range T).filter fun _ => acc = true ∧ p ≠ 0 ∧ q = 0).map (fun t => (baseAt I t + 3 * (I t 0 0).idxOf p + 1, forces t p)) else [] := by
  unfold steps
  split_ifs
  · rw [sends_flatMap, ← flatMap_choice (fun _ => acc = true ∧ p ≠ 0 ∧ q = 0)]
    congr 1; funext t
    unfold stepOps
    rw [sends_append, (states_other (by decide)).2.2, sends_forces, List.append_nil]
  · rfl

theorem steps_other {p q tag : Nat} (h : tag ≠ 177) (h' : tag ≠ 15) : posts q tag (steps acc n I states forces T p) = [] ∧
    waits q tag (steps acc n I states forces T p) = [] ∧ sends q tag (steps acc n I states forces T p) = [] := by
  unfold steps
  split_ifs
  · refine ⟨?_, ?_, ?_⟩
    · rw [posts_flatMap]; simp [stepOps, (forces_other h').1, (states_other h).1]
    · rw [waits_flatMap]; simp [stepOps, (forces_other h').2.1, (states_other h).2.1]
    · rw [sends_flatMap]; simp [stepOps, (forces_other h').2.2, (states_other h).2.2]
  · exact ⟨rfl, rfl, rfl⟩

end

end Verif.Mpi.Exchange
