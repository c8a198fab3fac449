import Verif.Dist.View
import Mathlib.Algebra.BigOperators.Group.List.Basic

/-! The exchange of forces and states. -/

namespace Verif.Dist

section
variable {K M R C F T : Type} [AddCommMonoid F]

theorem addForces_eq (g : ℕ → F) (l : List ℕ) (hl : l.Nodup) (f : ℕ → F) (i : ℕ) :
    addForces (l.map fun j => (j, g j)) f i = f i + if i ∈ l then g i else 0 := by
  induction l generalizing f with
  | nil => simp [addForces]
  | cons a l ih =>
    rw [List.nodup_cons] at hl
    rw [List.map_cons, addForces, ih hl.2]
    by_cases ha : a = i
    · subst ha
      simp [hl.1]
    · have : ¬ i = a := fun h => ha h.symm
      simp [ha, this]

theorem masterForces_eq (p : Phys K M R C F T) (c : Comm) (ss : ℕ → Scene K M R C F T) (l : List ℕ)
    (hl : ∀ w ∈ l, (c.mir w 0).Nodup) (f : ℕ → F) (i : ℕ) :
    masterForces p c ss l f i = f i + (l.map fun w => if i ∈ c.mir w 0 then forces p (ss w) i + (ss w).perm i else 0).sum := by
  induction l generalizing f with
  | nil => simp [masterForces]
  | cons w l ih =>
    rw [masterForces, ih fun v hv => hl v (List.mem_cons_of_mem _ hv), forceMsg,
      addForces_eq (fun i => forces p (ss w) i + (ss w).perm i) _ (hl w (List.mem_cons_self ..)), List.map_cons, List.sum_cons, add_assoc]

theorem setStates_eq (V : ℕ → M) (l : List ℕ) (b : ℕ → Option (Body K M R)) (j : ℕ) :
    setStates l (l.map fun i => some (V i)) b j = if j ∈ l then (b j).map fun x => { x with m := V j } else b j := by
  induction l generalizing b with
  | nil => simp [setStates]
  | cons a l ih =>
    rw [List.map_cons, setStates, ih]
    by_cases ha : j = a
    · subst ha
      by_cases hj : j ∈ l
      · simp only [hj, if_true, List.mem_cons, or_true, Option.map_map]
        rfl
      · simp [hj]
    · simp [ha]

theorem recvFrom_eq (c : Comm) (ss : ℕ → Scene K M R C F T) (w : ℕ) (V : ℕ → M) (l : List ℕ)
    (hl : ∀ v ∈ l, c.mir w v = c.inter v w ∧ ∀ i ∈ c.inter v w, ((ss v).body i).map Body.m = some (V i))
    (b : ℕ → Option (Body K M R)) (j : ℕ) :
    ((∃ v ∈ l, j ∈ c.inter v w) → recvFrom c ss w l b j = (b j).map fun x => { x with m := V j }) ∧
      ((¬ ∃ v ∈ l, j ∈ c.inter v w) → recvFrom c ss w l b j = b j) := by
  induction l generalizing b with
  | nil => simp [recvFrom]
  | cons v l ih =>
    have hv := hl v (List.mem_cons_self ..)
    have hm : stateMsg (c.inter v w) (ss v).body = (c.inter v w).map fun i => some (V i) := by
      unfold stateMsg
      exact List.map_congr_left fun i hi => hv.2 i hi
    have ih' := ih (fun v hv => hl v (List.mem_cons_of_mem _ hv))
      (setStates (c.mir w v) (stateMsg (c.inter v w) (ss v).body) b)
    rw [hm, hv.1] at ih'
    have e : recvFrom c ss w (v :: l) b j = recvFrom c ss w l (setStates (c.inter v w) ((c.inter v w).map fun i => some (V i)) b) j := by
      rw [recvFrom, hm, hv.1]
    rw [e]
    by_cases hin : ∃ v ∈ l, j ∈ c.inter v w
    · constructor
      · intro _
        rw [ih'.1 hin, setStates_eq]
        by_cases hj : j ∈ c.inter v w
        · rw [if_pos hj, Option.map_map]; rfl
        · rw [if_neg hj]
      · intro hn
        obtain ⟨v', h1, h2⟩ := hin
        exact (hn ⟨v', List.mem_cons_of_mem _ h1, h2⟩).elim
    · rw [ih'.2 hin, setStates_eq]
      constructor
      · rintro ⟨v', h1, h2⟩
        rcases List.mem_cons.1 h1 with rfl | h1
        · rw [if_pos h2]
        · exact (hin ⟨v', h1, h2⟩).elim
      · intro hn
        rw [if_neg fun h => hn ⟨v, List.mem_cons_self .., h⟩]

end

end Verif.Dist
