import Verif.Mpi.ExchangeProps
/-!
# Cases meeting the hypotheses of C46 and C47
-/
namespace Verif.Mpi.Exchange
open Verif Verif.Mpi Verif.Mpi.Net

/-- three processes: the workers 1 and 2 are neighbours; worker 1 touches the master from step 1 on, worker 2 always -/
def exI (t p k : Nat) : List Nat :=
  if p ≠ k then [] else
  if p = 0 then (if t = 0 then [2] else [1, 2])
  else if p = 1 then (if t = 0 then [2] else [2, 0])
  else if p = 2 then [1, 0] else []

theorem exI_consistent (t : Nat) : Consistent 3 (exI t) := by
  refine ⟨fun p => ?_, fun p q hp hq => ?_⟩
  · unfold exI; split_ifs <;> simp_all
  · have h : p = 0 ∨ p = 1 ∨ p = 2 := by omega
    rcases h with rfl | rfl | rfl <;> by_cases h0 : t = 0 <;> simp [exI, h0] at hq ⊢
    · subst hq; simp
    · rcases hq with rfl | rfl <;> simp
    · subst hq; simp
    · rcases hq with rfl | rfl <;> simp
    · rcases hq with rfl | rfl <;> simp
    · rcases hq with rfl | rfl <;> simp

/-- `C46_no_deadlock`, `C46_matched`: two steps of the three processes; at the beginning nobody has finished -/
example : ∃ s', Step (steps true 3 exI (fun t p k => (t, p, k)) (fun t p => (t, p, 0)) 2) true idle s' :=
  C46_no_deadlock exI_consistent Reach.start (p := 1) (by unfold Done; decide)

/-- two processes always touching each other -/
def exJ (_t p k : Nat) : List Nat := if p ≠ k then [] else if p = 0 then [1] else if p = 1 then [0] else []

theorem exJ_consistent (t : Nat) : Consistent 2 (exJ t) := by
  refine ⟨fun p => ?_, fun p q hp hq => ?_⟩
  · unfold exJ; split_ifs <;> simp_all
  · have h : p = 0 ∨ p = 1 := by omega
    rcases h with rfl | rfl <;> simp [exJ] at hq ⊢ <;> subst hq <;> simp

/-- `C46_no_deadlock_unbuffered` -/
example : ∃ s', Step (steps true 2 exJ (fun t p k => (t, p, k)) (fun t p => (t, p, 0)) 2) false idle s' :=
  C46_no_deadlock_unbuffered exJ_consistent (fun _ t p h0 h1 => by
    have : p = 1 := by omega
    subst this; simp [exJ]) (buf := false) Reach.start (p := 1) (by unfold Done; decide)

/-- `C46_current`: the worker completes the wait of step 0 for the states of the master -/
example : ∃ s s' : Net (Nat × Nat × Nat), ∃ l, Reach (steps true 2 exJ (fun t p k => (t, p, k)) (fun t p => (t, p, 7)) 2) false s ∧
    (steps true 2 exJ (fun t p k => (t, p, k)) (fun t p => (t, p, 7)) 2 1)[s.pc 1]? = some (l, .wait 0 177) ∧ InStep exJ 0 l ∧
    Step (steps true 2 exJ (fun t p k => (t, p, k)) (fun t p => (t, p, 7)) 2) false s s' ∧ s'.pc 1 = s.pc 1 + 1 ∧ s'.got 1 = [(0, 177, (0, 0, 1))] := by
  have r0 := Reach.start (prog := steps true 2 exJ (fun t p k => (t, p, k)) (fun t p => (t, p, 7)) 2) (buffered := false)
  have r1 := r0.step (Step.post (p := 0) (q := 1) (tag := 15) (l := 0) rfl)
  have r2 := r1.step (Step.send (p := 1) (q := 0) (tag := 15) (l := 1) (m := (0, 1, 7)) rfl (Or.inr (by decide)))
  have r3 := r2.step (Step.wait (p := 0) (q := 1) (tag := 15) (l := 2) (m := (0, 1, 7)) (r := []) rfl rfl)
  have r4 := r3.step (Step.post (p := 1) (q := 0) (tag := 177) (l := 6) rfl)
  have r5 := r4.step (Step.send (p := 0) (q := 1) (tag := 177) (l := 7) (m := (0, 0, 1)) rfl (Or.inr (by decide)))
  exact ⟨_, _, 8, r5, rfl, by unfold InStep; decide, Step.wait (p := 1) (q := 0) (tag := 177) (l := 8) (m := (0, 0, 1)) (r := []) rfl rfl, rfl, rfl⟩

/-- two processes that touch each other from step 1 on only -/
def exK (t p k : Nat) : List Nat := if t = 0 then [] else exJ t p k

theorem exK_consistent (t : Nat) : Consistent 2 (exK t) := by
  by_cases h : t = 0
  · subst h
    exact ⟨fun p => by simp [exK], fun p q _ hq => by simp [exK] at hq⟩
  · have : exK t = exJ t := by funext p k; simp [exK, h]
    rw [this]; exact exJ_consistent t

/-- `C47_received`, `C47_violated`: the master, which begins to listen in step 1, gets the forces of step 0 -/
example : ∃ s s' : Net Nat, ∃ l, Reach (steps true 2 exK (fun _ _ _ => 0) (fun t _ => 100 + t) 2) true s ∧
    (steps true 2 exK (fun _ _ _ => 0) (fun t _ => 100 + t) 2 0)[s.pc 0]? = some (l, .wait 1 15) ∧ InStep exK 1 l ∧
    Step (steps true 2 exK (fun _ _ _ => 0) (fun t _ => 100 + t) 2) true s s' ∧ s'.pc 0 = s.pc 0 + 1 ∧ 1 ∉ exK 0 0 0 ∧ s'.got 0 = [(1, 15, 100)] := by
  have r0 := Reach.start (prog := steps true 2 exK (fun _ _ _ => 0) (fun t _ => 100 + t) 2) (buffered := true)
  have r1 := r0.step (Step.send (p := 1) (q := 0) (tag := 15) (l := 1) (m := 100) rfl (Or.inl rfl))
  have r2 := r1.step (Step.send (p := 1) (q := 0) (tag := 15) (l := 7) (m := 101) rfl (Or.inl rfl))
  have r3 := r2.step (Step.post (p := 0) (q := 1) (tag := 15) (l := 6) rfl)
  exact ⟨_, _, 8, r3, rfl, by unfold InStep; decide, Step.wait (p := 0) (q := 1) (tag := 15) (l := 8) (m := 100) (r := [101]) rfl rfl, rfl, by decide, rfl⟩

/-- `C47_current_partial`: the master has listened from the beginning -/
example : ∃ s s' : Net Nat, ∃ l, Reach (steps true 2 exJ (fun _ _ _ => 0) (fun t _ => 100 + t) 1) true s ∧
    (steps true 2 exJ (fun _ _ _ => 0) (fun t _ => 100 + t) 1 0)[s.pc 0]? = some (l, .wait 1 15) ∧ InStep exJ 0 l ∧
    Step (steps true 2 exJ (fun _ _ _ => 0) (fun t _ => 100 + t) 1) true s s' ∧ s'.pc 0 = s.pc 0 + 1 ∧ (∀ u, u < 0 → 1 ∈ exJ u 0 0) := by
  have r0 := Reach.start (prog := steps true 2 exJ (fun _ _ _ => 0) (fun t _ => 100 + t) 1) (buffered := true)
  have r1 := r0.step (Step.send (p := 1) (q := 0) (tag := 15) (l := 1) (m := 100) rfl (Or.inl rfl))
  have r2 := r1.step (Step.post (p := 0) (q := 1) (tag := 15) (l := 0) rfl)
  exact ⟨_, _, 2, r2, rfl, by unfold InStep; decide, Step.wait (p := 0) (q := 1) (tag := 15) (l := 2) (m := 100) (r := []) rfl rfl, rfl, fun u hu => by omega⟩

/-- `C47_violated_unbuffered`: two processes that never touch, the worker has something to send -/
example : (∀ t : Nat, Consistent 2 ((fun _ _ _ => [] : Nat → Nat → Nat → List Nat) t)) ∧
    steps true 2 (fun _ _ _ => []) (fun _ _ _ => 0) (fun t _ => 100 + t) 1 1 = [(1, Op.send 0 15 100)] :=
  ⟨fun t => ⟨fun p => by simp, fun p q _ hq => by simp at hq⟩, rfl⟩

/-- `C46_applied`: a worker with bodies 0, 1 of the neighbours 0 and 2 and its own body 2 -/
example : ∃ W : Nat → Bodies Nat Unit, ∃ B : Bodies Nat Unit, ∃ ids : Nat → List Int, (∀ q ∈ [0, 2], ∀ i ∈ ids q, ∃ b, look (W q) i = some b) ∧
    (∀ q ∈ [0, 2], ∀ i ∈ ids q, ∃ b, look B i = some b) ∧ (∀ q ∈ [0, 2], ∀ q' ∈ [0, 2], ∀ i ∈ ids q, i ∈ ids q' → q = q') ∧
    (∃ b1 b, look (W 2) 1 = some b1 ∧ look B 1 = some b ∧ b1.st.pos 0 ≠ b.st.pos 0) := by
  refine ⟨fun q => if q = 0 then [some (exBody 100), none, none] else [none, some (exBody 110), some (exBody 0)], [some (exBody 0), some (exBody 10), some (exBody 20)],
    fun q => if q = 0 then [0] else [1], ?_, ?_, ?_, ⟨exBody 110, exBody 10, rfl, rfl, by decide⟩⟩
  · simp [look]
  · simp [look]
  · simp

end Verif.Mpi.Exchange
