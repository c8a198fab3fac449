import Verif.Mpi.ExchangeLemmas
import Verif.Mpi.StatesProps
/-!
# C46, C47: messages of states and forces

Specification: `Consistent` (what the split must have established), `InStep` (levels of a step; every operation of step `t` has a level of
step `t` and no other step has: `stepOps_levels`, `InStep.unique`).
-/
namespace Verif.Mpi.Exchange
open Verif Verif.Mpi Verif.Mpi.Net

variable {M : Type}

/-! ## Specification -/

/-- the lists of neighbours fit together: no repetitions, only other existing processes, and each is a neighbour of its neighbours -/
structure Consistent (n : Nat) (I : Nat → Nat → List Nat) : Prop where
  nodup : ∀ p, (I p p).Nodup
  sym : ∀ p q, p < n → q ∈ I p p → q < n ∧ q ≠ p ∧ p ∈ I q q

/-! ## Lemmas -/

section
variable {acc : Bool} {n : Nat} {I : Nat → Nat → Nat → List Nat} {states : Nat → Nat → Nat → M} {forces : Nat → Nat → M} {T : Nat}

/-- the steps in which `q` waits for states of `p` are those in which `p` sends to `q` -/
theorem Consistent.filter (hI : ∀ t, Consistent n (I t)) {p q : Nat} (hq : q < n) (hp : p < n) :
    ((List.range T).filter fun t => q ≠ 0 ∧ p ∈ I t q q) = (List.range T).filter fun t => q ∈ I t p p ∧ q ≠ p ∧ q ≠ 0 := by
  refine List.filter_congr fun t _ => ?_
  have : (q ≠ 0 ∧ p ∈ I t q q) ↔ (q ∈ I t p p ∧ q ≠ p ∧ q ≠ 0) := by
    constructor
    · rintro ⟨h1, h2⟩
      obtain ⟨-, h3, h4⟩ := (hI t).sym q p hq h2
      exact ⟨h4, fun e => h3 e.symm, h1⟩
    · rintro ⟨h1, h2, h3⟩
      exact ⟨h3, ((hI t).sym p q hp h1).2.2⟩
  simp only [this]

theorem Consistent.none (hI : ∀ t, Consistent n (I t)) {p q : Nat} (hq : q < n) (hp : ¬ p < n) (P : Prop) [Decidable P] :
    ((List.range T).filter fun t => P ∧ p ∈ I t q q) = [] := by
  rw [List.filter_eq_nil_iff]
  intro t _ h
  exact hp ((hI t).sym q p hq (of_decide_eq_true h).2).1

theorem fed_steps (hI : ∀ t, Consistent n (I t)) : Fed (steps acc n I states forces T) := by
  refine ⟨fun p => steps_mono (fun t => (hI t).nodup 0) p, ?_⟩
  intro p q tag k l hk
  by_cases hq : q < n
  · by_cases h1 : tag = 177
    · subst h1
      rw [waits_steps_states (fun t => (hI t).nodup q), if_pos hq] at hk
      by_cases hp : p < n
      · rw [sends_steps_states (fun t => (hI t).nodup p), if_pos hp, ← Consistent.filter hI hq hp, List.getElem?_map]
        rw [List.getElem?_map] at hk
        obtain ⟨t, h2, rfl⟩ := Option.map_eq_some_iff.mp hk
        rw [h2]
        exact ⟨_, rfl, by dsimp only; omega⟩
      · rw [Consistent.none hI hq hp (q ≠ 0)] at hk; simp at hk
    · by_cases h2 : tag = 15
      · subst h2
        rw [waits_steps_forces (fun t => (hI t).nodup 0), if_pos hq, List.getElem?_map] at hk
        obtain ⟨t, h3, rfl⟩ := Option.map_eq_some_iff.mp hk
        obtain ⟨h4, ⟨ha, rfl, h5⟩, h6⟩ := nth_choice h3
        obtain ⟨h7, h8, -⟩ := (hI t).sym 0 p hq h5
        rw [sends_steps_forces, if_pos h7]
        have hk' : k ≤ t := by rw [h6]; exact chosen_le t
        rw [List.filter_eq_self.mpr (fun _ _ => by simp [h8, ha]), List.getElem?_map, List.getElem?_range (by omega)]
        refine ⟨_, rfl, ?_⟩
        dsimp only
        rcases Nat.lt_or_ge k t with h9 | h9
        · have := baseAt_mono I h9
          have : (I k 0 0).idxOf p ≤ (I k 0 0).length := List.idxOf_le_length
          omega
        · have : k = t := by omega
          rw [this]; omega
      · rw [(steps_other h1 h2).2.1] at hk; simp at hk
  · rw [steps, if_neg hq] at hk; simp [waits] at hk

theorem forall₂_map_filter {α β : Type} {R : α → β → Prop} {f : Nat → α} {g : Nat → β} (l : List Nat) (h : ∀ t, R (f t) (g t)) :
    List.Forall₂ R (l.map f) (l.map g) := by
  induction l with
  | nil => simp
  | cons a l ih => exact List.Forall₂.cons (h a) ih

theorem matched_steps (hI : ∀ t, Consistent n (I t)) (hall : acc = true → ∀ t p, 0 < p → p < n → p ∈ I t 0 0) : Matched (steps acc n I states forces T) := by
  have hforce : ∀ p q, q < n → p < n → ((List.range T).filter fun t => acc = true ∧ q = 0 ∧ p ∈ I t 0 0) = (List.range T).filter fun _ => acc = true ∧ p ≠ 0 ∧ q = 0 := by
    intro p q hq hp
    refine List.filter_congr fun t _ => ?_
    have : (acc = true ∧ q = 0 ∧ p ∈ I t 0 0) ↔ (acc = true ∧ p ≠ 0 ∧ q = 0) := by
      constructor
      · rintro ⟨ha, rfl, h⟩; exact ⟨ha, ((hI t).sym 0 p hq h).2.1, rfl⟩
      · rintro ⟨ha, h, rfl⟩; exact ⟨ha, rfl, hall ha t p (by omega) hp⟩
    simp only [this]
  have hempty : ∀ p q, ¬ q < n → p < n → ((List.range T).filter fun t => q ∈ I t p p ∧ q ≠ p ∧ q ≠ 0) = [] := by
    intro p q hq hp
    rw [List.filter_eq_nil_iff]
    intro t _ h
    exact hq ((hI t).sym p q hp (of_decide_eq_true h).1).1
  refine ⟨fun p => steps_mono (fun t => (hI t).nodup 0) p, ?_, ?_⟩
  · intro p q tag
    by_cases h1 : tag = 177
    · subst h1
      rw [posts_steps_states (fun t => (hI t).nodup q), sends_steps_states (fun t => (hI t).nodup p)]
      by_cases hq : q < n <;> by_cases hp : p < n
      · rw [if_pos hq, if_pos hp, Consistent.filter hI hq hp, List.map_map]
        exact forall₂_map_filter _ fun t => by dsimp only [Function.comp]; omega
      · rw [if_pos hq, if_neg hp, Consistent.none hI hq hp (q ≠ 0)]; simp
      · rw [if_neg hq, if_pos hp, hempty p q hq hp]; simp
      · rw [if_neg hq, if_neg hp]; simp
    · by_cases h2 : tag = 15
      · subst h2
        rw [posts_steps_forces (fun t => (hI t).nodup 0), sends_steps_forces]
        by_cases hq : q < n <;> by_cases hp : p < n
        · rw [if_pos hq, if_pos hp, hforce p q hq hp, List.map_map]
          exact forall₂_map_filter _ fun t => by dsimp only [Function.comp]; omega
        · rw [if_pos hq, if_neg hp]
          have : ((List.range T).filter fun t => acc = true ∧ q = 0 ∧ p ∈ I t 0 0) = [] := by
            rw [List.filter_eq_nil_iff]
            intro t _ h
            obtain ⟨-, h3, h4⟩ := of_decide_eq_true h
            exact hp ((hI t).sym 0 p (by omega) h4).1
          rw [this]; simp
        · rw [if_neg hq, if_pos hp]
          have : ((List.range T).filter fun _ => acc = true ∧ p ≠ 0 ∧ q = 0) = [] := by
            rw [List.filter_eq_nil_iff]
            intro t _ h
            obtain ⟨-, h3, h4⟩ := of_decide_eq_true h
            omega
          rw [this]; simp
        · rw [if_neg hq, if_neg hp]; simp
      · rw [(steps_other h1 h2).1, (steps_other h1 h2).2.2]; simp
  · intro p q tag
    by_cases h1 : tag = 177
    · subst h1
      rw [waits_steps_states (fun t => (hI t).nodup q), sends_steps_states (fun t => (hI t).nodup p)]
      by_cases hq : q < n <;> by_cases hp : p < n
      · rw [if_pos hq, if_pos hp, Consistent.filter hI hq hp, List.map_map]
        exact forall₂_map_filter _ fun t => by dsimp only [Function.comp]; omega
      · rw [if_pos hq, if_neg hp, Consistent.none hI hq hp (q ≠ 0)]; simp
      · rw [if_neg hq, if_pos hp, hempty p q hq hp]; simp
      · rw [if_neg hq, if_neg hp]; simp
    · by_cases h2 : tag = 15
      · subst h2
        rw [waits_steps_forces (fun t => (hI t).nodup 0), sends_steps_forces]
        by_cases hq : q < n <;> by_cases hp : p < n
        · rw [if_pos hq, if_pos hp, hforce p q hq hp, List.map_map]
          exact forall₂_map_filter _ fun t => by dsimp only [Function.comp]; omega
        · rw [if_pos hq, if_neg hp]
          have : ((List.range T).filter fun t => acc = true ∧ q = 0 ∧ p ∈ I t 0 0) = [] := by
            rw [List.filter_eq_nil_iff]
            intro t _ h
            obtain ⟨-, h3, h4⟩ := of_decide_eq_true h
            exact hp ((hI t).sym 0 p (by omega) h4).1
          rw [this]; simp
        · rw [if_neg hq, if_pos hp]
          have : ((List.range T).filter fun _ => acc = true ∧ p ≠ 0 ∧ q = 0) = [] := by
            rw [List.filter_eq_nil_iff]
            intro t _ h
            obtain ⟨-, h3, h4⟩ := of_decide_eq_true h
            omega
          rw [this]; simp
        · rw [if_neg hq, if_neg hp]; simp
      · rw [(steps_other h1 h2).2.1, (steps_other h1 h2).2.2]; simp

/-! ## C46 -/

/-- **C46, no deadlock.** For every number of processes and steps, every history of consistent neighbour lists and every content of the
messages: in every state the processes can get into in which one has not carried out all its communications of states and forces, some
process can go on (each going on is one operation of a finite program: `Step.advance`) — provided the library buffers messages nobody
waits for yet. -/
theorem C46_no_deadlock (hI : ∀ t, Consistent n (I t)) {s : Net M} (h : Reach (steps acc n I states forces T) true s) {p : Nat}
    (hp : ¬ Done (steps acc n I states forces T) s p) : ∃ s', Step (steps acc n I states forces T) true s s' :=
  progress_buffered (fed_steps hI) h hp

/-- **C46, no deadlock without buffering.** If forces are not sent to the master, or if every worker always touches the master, the same
holds even when a message is only taken over by the library once its receive has been posted: it is never the exchange of states that hangs.
Otherwise the messages of forces can: `C47_violated_unbuffered`. -/
theorem C46_no_deadlock_unbuffered (hI : ∀ t, Consistent n (I t)) (hall : acc = true → ∀ t p, 0 < p → p < n → p ∈ I t 0 0) {buf : Bool} {s : Net M}
    (h : Reach (steps acc n I states forces T) buf s) {p : Nat} (hp : ¬ Done (steps acc n I states forces T) s p) :
    ∃ s', Step (steps acc n I states forces T) false s s' :=
  progress (matched_steps hI hall) h hp

/-- **C46, every posted receive has its send.** Over any number of steps and for all pairs of processes: as many messages of states are
sent by `p` to `q` as receives are posted by `q` for `p` and as are waited for. -/
theorem C46_matched (hI : ∀ t, Consistent n (I t)) (p q : Nat) :
    (posts p 177 (steps acc n I states forces T q)).length = (sends q 177 (steps acc n I states forces T p)).length ∧
    (waits p 177 (steps acc n I states forces T q)).length = (sends q 177 (steps acc n I states forces T p)).length := by
  rw [posts_steps_states (fun t => (hI t).nodup q), waits_steps_states (fun t => (hI t).nodup q), sends_steps_states (fun t => (hI t).nodup p)]
  by_cases hq : q < n <;> by_cases hp : p < n
  · simp only [if_pos hq, if_pos hp, List.length_map, Consistent.filter hI hq hp, and_self]
  · simp only [if_pos hq, if_neg hp, Consistent.none hI hq hp (q ≠ 0)]; simp
  · simp only [if_neg hq, if_pos hp, List.length_map]
    have : ((List.range T).filter fun t => q ∈ I t p p ∧ q ≠ p ∧ q ≠ 0) = [] := by
      rw [List.filter_eq_nil_iff]
      intro t _ h
      exact hq ((hI t).sym p q hp (of_decide_eq_true h).1).1
    rw [this]; simp
  · simp only [if_neg hq, if_neg hp]; simp

/-- **C46, the states received are those of the same step.** Whenever, in any interleaving of the processes, buffered or not, process `p`
completes the wait of step `t` for the states of `q`, it receives the message that `q` has sent to it in step `t`. -/
theorem C46_current (hI : ∀ t, Consistent n (I t)) {buf : Bool} {s s' : Net M} (h : Reach (steps acc n I states forces T) buf s) {p q l t : Nat}
    (hpo : (steps acc n I states forces T p)[s.pc p]? = some (l, .wait q 177)) (ht : InStep I t l) (e : Step (steps acc n I states forces T) buf s s')
    (hpc : s'.pc p = s.pc p + 1) : q ∈ I t p p ∧ s'.got p = s.got p ++ [(q, 177, states t q p)] := by
  obtain ⟨k, x, h1, h2, h3⟩ := wait_delivers h hpo e hpc
  by_cases hp : p < n
  · rw [waits_steps_states (fun t => (hI t).nodup p), if_pos hp, List.getElem?_map] at h1
    obtain ⟨u, h4, rfl⟩ := Option.map_eq_some_iff.mp h1
    obtain ⟨h5, ⟨h6, h7⟩, -⟩ := nth_choice h4
    have hu : u = t := InStep.unique (I := I) ⟨by omega, by rw [baseAt]; omega⟩ ht
    subst hu
    obtain ⟨h8, -, -⟩ := (hI u).sym p q hp h7
    rw [sends_steps_states (fun t => (hI t).nodup q), if_pos h8, ← Consistent.filter hI hp h8, List.getElem?_map, h4] at h2
    injection h2 with h2
    subst h2
    exact ⟨h7, h3⟩
  · rw [steps, if_neg hp] at h1; simp [waits] at h1

end

section
variable {R E : Type}

/-- **C46, states.** Once the messages of a step have arrived (`C46_current`), applying them is defined and gives every body listed by
a neighbour the state it has on that neighbour, every other body keeping its own — provided the mirror lists are the neighbours' lists,
the bodies exist on both sides and no body is listed by two neighbours.  The posted receives have exactly the lengths of the messages. -/
theorem C46_applied (W : Nat → Bodies R E) (B : Bodies R E) (nb : List Nat) (hnb : nb.Nodup) (ids : Nat → List Int) (mirror : Nat → List Int)
    (hmir : ∀ q ∈ nb, mirror q = ids q) (h1 : ∀ q ∈ nb, ∀ i ∈ ids q, ∃ b, look (W q) i = some b) (h2 : ∀ q ∈ nb, ∀ i ∈ ids q, ∃ b, look B i = some b)
    (hdis : ∀ q ∈ nb, ∀ q' ∈ nb, ∀ i ∈ ids q, i ∈ ids q' → q = q') :
    ∃ msg : Nat → List R, (∀ q ∈ nb, getStates (W q) (ids q) = .ok (msg q) ∧ (msg q).length = recvCount (mirror q)) ∧
      ∃ B', applyAll mirror msg nb B = .ok B' ∧ B'.length = B.length ∧ (∀ i, (∀ q ∈ nb, i ∉ ids q) → look B' i = look B i) ∧
        ∀ q ∈ nb, ∀ i ∈ ids q, ∃ b1 b b', look (W q) i = some b1 ∧ look B i = some b ∧ look B' i = some b' ∧ SameMotion b'.st b1.st ∧
          b' = { b with st := { b.st with pos := b'.st.pos, vel := b'.st.vel, angVel := b'.st.angVel, ori := b'.st.ori } } := by
  have hm : ∀ q, ∃ m : List R, q ∈ nb → getStates (W q) (ids q) = .ok m ∧ m.length = recvCount (mirror q) := by
    intro q
    by_cases hq : q ∈ nb
    · obtain ⟨m, h3, h4⟩ := getStates_ok (h1 q hq)
      exact ⟨m, fun _ => ⟨h3, by rw [h4, hmir q hq, recvCount, Nat.mul_comm]⟩⟩
    · exact ⟨[], fun h => absurd h hq⟩
  choose msg hmsg using hm
  refine ⟨msg, fun q hq => hmsg q hq, ?_⟩
  induction nb generalizing B with
  | nil => exact ⟨B, rfl, rfl, fun _ _ => rfl, fun q hq => by cases hq⟩
  | cons q nb ih =>
    obtain ⟨hn1, hn2⟩ := List.nodup_cons.mp hnb
    obtain ⟨vals, B1, k1, k2, k3, k4, k5, k6⟩ := C42_roundtrip_partial (W q) B (ids q) (h1 q (by simp)) (h2 q (by simp)) []
    have hv : vals = msg q := by
      have := (hmsg q (by simp)).1; rw [k1] at this; injection this
    rw [List.append_nil, hv] at k3
    have hB1 : ∀ i, i ∉ ids q → look B1 i = look B i := k5
    obtain ⟨B', g1, g2, g3, g4⟩ := ih B1 hn2 (fun q hq => hmir q (by simp [hq])) (fun q hq => h1 q (by simp [hq]))
      (fun q' hq' i hi => by
        by_cases hiq : i ∈ ids q
        · obtain ⟨_, _, b', _, _, h, _⟩ := k6 i hiq; exact ⟨b', h⟩
        · rw [hB1 i hiq]; exact h2 q' (by simp [hq']) i hi)
      (fun q hq q' hq' => hdis q (by simp [hq]) q' (by simp [hq'])) (fun q hq => hmsg q (by simp [hq]))
    refine ⟨B', ?_, by rw [g2, k4], ?_, ?_⟩
    · rw [applyAll, hmir q (by simp), k3]; exact g1
    · intro i hi
      rw [g3 i (fun q' hq' => hi q' (by simp [hq'])), hB1 i (hi q (by simp))]
    · intro q' hq' i hi
      rcases List.mem_cons.mp hq' with e | hq'
      · subst e
        obtain ⟨b1, b, b', l1, l2, l3, l4, l5⟩ := k6 i hi
        refine ⟨b1, b, b', l1, l2, ?_, l4, l5⟩
        rw [g3 i (fun q'' hq'' hi' => hn1 (hdis q' (by simp) q'' (by simp [hq'']) i hi hi' ▸ hq'')), l3]
      · obtain ⟨b1, b, b', l1, l2, l3, l4, l5⟩ := g4 q' hq' i hi
        refine ⟨b1, b, b', l1, ?_, l3, l4, l5⟩
        rw [← l2, hB1 i]
        intro hi'
        have := hdis q' (by simp [hq']) q (by simp) i hi hi'
        exact hn1 (this ▸ hq')

end

/-! ## C47 -/

section
variable {acc : Bool} {n : Nat} {I : Nat → Nat → Nat → List Nat} {states : Nat → Nat → Nat → M} {forces : Nat → Nat → M} {T : Nat}

/-- **C47, what is received.** Whenever the master completes the receive of step `t` for the forces of worker `k`, it gets the forces that
`k` computed in the step whose number is the number of earlier steps in which the master listened to `k`. -/
theorem C47_received (hI : ∀ t, Consistent n (I t)) {buf : Bool} {s s' : Net M} (h : Reach (steps acc n I states forces T) buf s) {k l t : Nat}
    (hpo : (steps acc n I states forces T 0)[s.pc 0]? = some (l, .wait k 15)) (ht : InStep I t l) (e : Step (steps acc n I states forces T) buf s s')
    (hpc : s'.pc 0 = s.pc 0 + 1) :
    k ∈ I t 0 0 ∧ s'.got 0 = s.got 0 ++ [(k, 15, forces (((List.range t).filter fun u => k ∈ I u 0 0).length) k)] := by
  obtain ⟨j, x, h1, h2, h3⟩ := wait_delivers h hpo e hpc
  by_cases hp : 0 < n
  · rw [waits_steps_forces (fun t => (hI t).nodup 0), if_pos hp, List.getElem?_map] at h1
    obtain ⟨u, h4, rfl⟩ := Option.map_eq_some_iff.mp h1
    obtain ⟨h5, ⟨ha, -, h7⟩, h6⟩ := nth_choice h4
    have : (I u 0 0).idxOf k ≤ (I u 0 0).length := List.idxOf_le_length
    have hu : u = t := InStep.unique (I := I) ⟨by omega, by rw [baseAt]; omega⟩ ht
    subst hu
    obtain ⟨h8, h9, -⟩ := (hI u).sym 0 k hp h7
    simp only [ha, true_and] at h6
    have hj : j ≤ u := by rw [h6]; exact chosen_le u
    rw [sends_steps_forces, if_pos h8, List.filter_eq_self.mpr (fun _ _ => by simp [h9, ha]), List.getElem?_map, List.getElem?_range (by omega)] at h2
    injection h2 with h2
    subst h2
    exact ⟨h7, by rw [h3, h6]⟩
  · rw [steps, if_neg hp] at h1; simp [waits] at h1

/-- **C47, partial.** If the master has listened to worker `k` in every step up to `t`, the forces it gets in step `t` are those of step
`t`.  Missing: `C47_violated`. -/
theorem C47_current_partial (hI : ∀ t, Consistent n (I t)) {buf : Bool} {s s' : Net M} (h : Reach (steps acc n I states forces T) buf s) {k l t : Nat}
    (hpo : (steps acc n I states forces T 0)[s.pc 0]? = some (l, .wait k 15)) (ht : InStep I t l) (e : Step (steps acc n I states forces T) buf s s')
    (hpc : s'.pc 0 = s.pc 0 + 1) (hall : ∀ u, u < t → k ∈ I u 0 0) : s'.got 0 = s.got 0 ++ [(k, 15, forces t k)] := by
  rw [(C47_received hI h hpo ht e hpc).2, chosen_all hall]

/-- **C47 is false once the lists change**: if there was an earlier step in which worker `k` did not touch the master, the forces the
master gets in step `t` (and adds to its bodies) are those of an earlier step. -/
theorem C47_violated (hI : ∀ t, Consistent n (I t)) {buf : Bool} {s s' : Net M} (h : Reach (steps acc n I states forces T) buf s) {k l t u : Nat}
    (hpo : (steps acc n I states forces T 0)[s.pc 0]? = some (l, .wait k 15)) (ht : InStep I t l) (e : Step (steps acc n I states forces T) buf s s')
    (hpc : s'.pc 0 = s.pc 0 + 1) (hu : u < t) (hk : k ∉ I u 0 0) : ∃ v < t, s'.got 0 = s.got 0 ++ [(k, 15, forces v k)] :=
  ⟨_, chosen_lt hu hk, (C47_received hI h hpo ht e hpc).2⟩

/-- **a worker the master does not listen to waits forever without buffering**: it never gets beyond its first message. -/
theorem C47_violated_unbuffered (hI : ∀ t, Consistent n (I t)) {k : Nat} (hk0 : k ≠ 0) (hk : ∀ t, k ∉ I t 0 0) {s : Net M}
    (h : Reach (steps true n I states forces T) false s) : s.pc k = 0 := by
  have hfirst : ∀ o, (steps true n I states forces T k)[0]? = some o → ∃ l m, o = (l, Op.send 0 15 m) := by
    intro o ho
    unfold steps at ho
    split_ifs at ho
    · cases T with
      | zero => simp at ho
      | succ T =>
        rw [List.range_succ_eq_map, List.flatMap_cons] at ho
        unfold stepOps forcesOps at ho
        rw [if_neg (by simp), if_neg hk0] at ho
        simp at ho
        exact ⟨_, _, ho.symm⟩
    · simp at ho
  have hposts : posts k 15 (steps true n I states forces T 0) = [] := by
    rw [posts_steps_forces (fun t => (hI t).nodup 0)]
    simp [hk]
  induction h with
  | start => rfl
  | @step s s' h e ih =>
    obtain ⟨p, h1, h2, h3⟩ := e.advance
    by_cases hp : p = k
    · subst hp
      exfalso
      have ho := h.opened_le p 0 15
      have hpast : posts p 15 (past (steps true n I states forces T) s 0) = [] := by
        have := hposts
        rw [split_prog (steps true n I states forces T) s 0, posts_append] at this
        exact (List.append_eq_nil_iff.mp this).1
      have key : ∀ p', upd s.pc p' (s.pc p' + 1) p = s.pc p + 1 → p' = p := by
        intro p' h'
        unfold upd at h'
        by_contra hne
        rw [if_neg (fun e => hne e.symm)] at h'; omega
      cases e with
      | post h' =>
        rw [key _ h2, ih] at h'
        obtain ⟨l, m, h4⟩ := hfirst _ h'; cases h4
      | send h' hb =>
        rw [key _ h2, ih] at h'
        obtain ⟨l, m, h4⟩ := hfirst _ h'
        cases h4
        have := key _ h2; subst this
        rcases hb with hb | hb
        · cases hb
        · rw [hpast] at ho; simp at ho; omega
      | wait h' _ =>
        rw [key _ h2, ih] at h'
        obtain ⟨l, m, h4⟩ := hfirst _ h'; cases h4
    · rw [h3 k (fun e => hp e.symm), ih]

end

end Verif.Mpi.Exchange
