import Verif.Bodies.Iter
import Mathlib.Tactic.SplitIfs
import Mathlib.Tactic.ByContra
import Mathlib.Data.List.Basic

/-! # C77: looping over `O.bodies` visits every body once, also if bodies are erased in the loop -/

namespace Verif.Bodies.Iter
open Verif

variable {β : Type}

/-! ### Specification -/

/-- The later version has the same size, and every body it has stands at the same place in the earlier
one: only erasing happened. -/
def Erased (a b : List (Option β)) : Prop :=
  b.length = a.length ∧ ∀ (j : Nat) (x : β), b[j]? = some (some x) → a[j]? = some (some x)

/-- Successive versions of the container. -/
def History (v : List (Option β)) : List (List (Option β)) → Prop
  | [] => True
  | w :: ws => Erased v w ∧ History w ws

/-! ### Helper lemmas -/

theorem skipNull_ok (slots : List (Option β)) (g : Bool) : ∀ d j, slots.length - j = d → j ≤ slots.length →
    ∃ i, skipNull slots (.ok g) j = .ok i ∧ j ≤ i ∧ i ≤ slots.length ∧
      ∀ q, j ≤ q → q < i → slots[q]? = some none := by
  intro d
  induction d with
  | zero =>
    intro j h1 h2
    refine ⟨j, ?_, Nat.le_refl _, h2, fun q _ _ => by omega⟩
    rw [skipNull, dif_neg (by omega)]
  | succ d ih =>
    intro j h1 h2
    have hj : j < slots.length := by omega
    rw [skipNull, dif_pos hj]
    cases he : slots[j] with
    | none =>
      obtain ⟨i, a, b, c, e⟩ := ih (j + 1) (by omega) (by omega)
      refine ⟨i, a, by omega, c, ?_⟩
      intro q hq1 hq2
      by_cases hq : q = j
      · subst hq; rw [List.getElem?_eq_getElem hj, he]
      · exact e q (by omega) hq2
    | some x =>
      exact ⟨j, rfl, Nat.le_refl _, h2, fun q _ _ => by omega⟩

theorem begin_ok (slots : List (Option β)) (g : Bool) :
    ∃ i, begin slots (.ok g) = .ok i ∧ i ≤ slots.length ∧ ∀ q, q < i → slots[q]? = some none := by
  cases slots with
  | nil => exact ⟨0, rfl, Nat.le_refl _, fun q h => by omega⟩
  | cons o l =>
    cases o with
    | some x => exact ⟨0, rfl, Nat.zero_le _, fun q h => by omega⟩
    | none =>
      obtain ⟨i, a, b, c, e⟩ := skipNull_ok (none :: l) g _ 1 rfl (by simp)
      refine ⟨i, a, c, ?_⟩
      intro q hq
      by_cases h : q = 0
      · subst h; rfl
      · exact e q (by omega) hq

/-- One call of `next`. -/
theorem pyNext_ok (slots : List (Option β)) (g : Bool) : ∀ fuel i, i ≤ slots.length →
    slots.length - i < fuel →
    (pyNext slots (.ok g) slots.length fuel i = .ok .stop ∧
      ∀ q, i ≤ q → q < slots.length → slots[q]? = some none) ∨
    (∃ j b i', pyNext slots (.ok g) slots.length fuel i = .ok (.item j b i') ∧
      slots[j]? = some (some b) ∧ i ≤ j ∧ j < i' ∧ i' ≤ slots.length ∧
      ∀ q, i ≤ q → q < i' → q ≠ j → slots[q]? = some none) := by
  intro fuel
  induction fuel with
  | zero => intro i _ h; omega
  | succ fuel ih =>
    intro i hi hf
    by_cases he : i = slots.length
    · left
      refine ⟨by rw [pyNext, if_pos he], fun q h1 h2 => by omega⟩
    · obtain ⟨i', a, b, c, e⟩ := skipNull_ok slots g _ (i + 1) rfl (by omega)
      have hinc : incr slots (.ok g) i = .ok i' := a
      have hilt : i < slots.length := by omega
      have hget := List.getElem?_eq_getElem hilt
      cases hs : slots[i] with
      | some x =>
        right
        rw [hs] at hget
        refine ⟨i, x, i', ?_, hget, Nat.le_refl _, by omega, c, ?_⟩
        · rw [pyNext, if_neg he, hinc]
          simp only
          rw [hget]
        · intro q h1 h2 h3
          exact e q (by omega) h2
      | none =>
        rw [hs] at hget
        have hstep : pyNext slots (.ok g) slots.length (fuel + 1) i =
            pyNext slots (.ok g) slots.length fuel i' := by
          rw [pyNext, if_neg he, hinc]
          simp only
          rw [hget]
        rw [hstep]
        have hskip : ∀ q, i ≤ q → q < i' → slots[q]? = some none := by
          intro q h1 h2
          by_cases hq : q = i
          · subst hq; exact hget
          · exact e q (by omega) h2
        rcases ih i' c (by omega) with ⟨h1, h2⟩ | ⟨j, x, k, h1, h2, h3, h4, h5, h6⟩
        · left
          refine ⟨h1, fun q q1 q2 => ?_⟩
          by_cases hq : q < i'
          · exact hskip q q1 hq
          · exact h2 q (by omega) q2
        · right
          refine ⟨j, x, k, h1, h2, by omega, h4, h5, fun q q1 q2 q3 => ?_⟩
          by_cases hq : q < i'
          · exact hskip q q1 hq
          · exact h6 q (by omega) q2 q3

theorem loop_ok (g : Bool) : ∀ (vs : List (List (Option β))) (v : List (Option β)) (n i : Nat),
    v.length = n → i ≤ n → History v vs →
    ∃ o, loop (.ok g) n (v :: vs) i = .ok o ∧
      o.items.length ≤ (v :: vs).length ∧
      (∀ (k : Nat) (h : k < o.items.length),
        ∃ w, (v :: vs)[k]? = some w ∧ w[(o.items[k]).1]? = some (some (o.items[k]).2)) ∧
      (o.items.map Prod.fst).Pairwise (· < ·) ∧ (∀ p ∈ o.items, i ≤ p.1) ∧
      (o.stopped = true → ∀ (j : Nat) (b : β), i ≤ j →
        (∀ w ∈ v :: vs, w[j]? = some (some b)) → (j, b) ∈ o.items) := by
  intro vs
  induction vs with
  | nil =>
    intro v n i hn hi _
    subst hn
    rw [loop]
    rcases pyNext_ok v g (v.length + 1) i hi (by omega) with ⟨h1, h2⟩ | ⟨j, b, i', h1, h2, h3, h4, h5, h6⟩
    · rw [h1]
      refine ⟨_, rfl, by simp, by simp, by simp, by simp, ?_⟩
      intro _ j b hj hw
      have hb := hw v List.mem_cons_self
      have hlt : j < v.length := by
        by_contra hc
        rw [List.getElem?_eq_none (by omega)] at hb; cases hb
      rw [h2 j hj hlt] at hb; cases hb
    · rw [h1]
      simp only [loop]
      refine ⟨_, rfl, by simp, ?_, by simp, ?_, by simp⟩
      · intro k hk
        have : k = 0 := by simpa using hk
        subst this
        exact ⟨v, rfl, h2⟩
      · intro p hp
        have : p = (j, b) := by simpa using hp
        subst this; exact h3
  | cons w ws ih =>
    intro v n i hn hi hh
    subst hn
    rw [loop]
    rcases pyNext_ok v g (v.length + 1) i hi (by omega) with ⟨h1, h2⟩ | ⟨j, b, i', h1, h2, h3, h4, h5, h6⟩
    · rw [h1]
      refine ⟨_, rfl, by simp, by simp, by simp, by simp, ?_⟩
      intro _ j b hj hw
      have hb := hw v List.mem_cons_self
      have hlt : j < v.length := by
        by_contra hc
        rw [List.getElem?_eq_none (by omega)] at hb; cases hb
      rw [h2 j hj hlt] at hb; cases hb
    · rw [h1]
      simp only
      obtain ⟨o, a1, a2, a3, a4, a5, a6⟩ := ih w v.length i' hh.1.1 h5 hh.2
      rw [a1]
      refine ⟨_, rfl, ?_, ?_, ?_, ?_, ?_⟩
      · simp only [List.length_cons] at *; omega
      · intro k hk
        cases k with
        | zero => exact ⟨v, rfl, h2⟩
        | succ k =>
          have hk' : k < o.items.length := by simpa using hk
          obtain ⟨u, u1, u2⟩ := a3 k hk'
          exact ⟨u, u1, u2⟩
      · rw [List.map_cons, List.pairwise_cons]
        refine ⟨?_, a4⟩
        intro q hq
        obtain ⟨p, hp, rfl⟩ := List.mem_map.mp hq
        have := a5 p hp
        show j < p.1
        omega
      · intro p hp
        rcases List.mem_cons.mp hp with e | e
        · subst e; exact h3
        · have := a5 p e; omega
      · intro hst q x hq hw
        by_cases hqi : q < i'
        · by_cases hqj : q = j
          · subst hqj
            have := hw v List.mem_cons_self
            rw [h2] at this
            have : b = x := by simpa using this
            subst this
            exact List.mem_cons_self
          · have := hw v List.mem_cons_self
            rw [h6 q hq hqi hqj] at this
            cases this
        · exact List.mem_cons_of_mem _ (a6 hst q x (by omega)
            (fun u hu => hw u (List.mem_cons_of_mem _ hu)))

/-! ### Property

Full statement: looping over `O.bodies` is defined, gives bodies in increasing order of ids, none twice,
each existing at the moment it is given, and when it ends every body which existed throughout was given.
Missing: "is defined" — advancing past the last body reads the place past the end of the vector.  The
theorem says that whatever that read gives, the result is right. -/

theorem C77_loop_partial (g : Bool) (v : List (Option β)) (vs : List (List (Option β)))
    (hh : History v vs) :
    ∃ o, forBodies (.ok g) v vs = .ok o ∧
      (o.items.map Prod.fst).Pairwise (· < ·) ∧
      (∀ (k : Nat) (h : k < o.items.length),
        ∃ w, (v :: vs)[k]? = some w ∧ w[(o.items[k]).1]? = some (some (o.items[k]).2)) ∧
      (o.stopped = true → ∀ (j : Nat) (b : β),
        (∀ w ∈ v :: vs, w[j]? = some (some b)) → (j, b) ∈ o.items) := by
  obtain ⟨i, h1, h2, h3⟩ := begin_ok v g
  obtain ⟨o, a1, a2, a3, a4, a5, a6⟩ := loop_ok g vs v v.length i rfl h2 hh
  refine ⟨o, by unfold forBodies; rw [h1]; exact a1, a4, a3, ?_⟩
  intro hst j b hw
  refine a6 hst j b ?_ hw
  by_contra hlt
  have := hw v List.mem_cons_self
  rw [h3 j (by omega)] at this
  cases this

/-- Enough calls of `next` reach StopIteration: one more than there are bodies. -/
theorem C77_ends (g : Bool) (v : List (Option β)) (vs : List (List (Option β)))
    (hh : History v vs) (hlen : v.length ≤ vs.length) (o : Out β)
    (ho : forBodies (.ok g) v vs = .ok o) : o.stopped = true := by
  have key : ∀ (vs : List (List (Option β))) (v : List (Option β)) (i : Nat), i ≤ v.length →
      History v vs → v.length - i ≤ vs.length → ∀ o, loop (.ok g) v.length (v :: vs) i = .ok o →
      o.stopped = true := by
    intro vs
    induction vs with
    | nil =>
      intro v i hi _ hl o ho
      rw [List.length_nil] at hl
      have : i = v.length := by omega
      rw [loop, pyNext, if_pos this] at ho
      cases ho; rfl
    | cons w ws ih =>
      intro v i hi hh hl o ho
      rw [loop] at ho
      rcases pyNext_ok v g (v.length + 1) i hi (by omega) with ⟨h1, h2⟩ | ⟨j, b, i', h1, h2, h3, h4, h5, h6⟩
      · rw [h1] at ho; cases ho; rfl
      · rw [h1] at ho
        simp only at ho
        split at ho
        · rename_i o' ho'
          cases ho
          rw [← hh.1.1] at ho'
          rw [List.length_cons] at hl
          exact ih w i' (by rw [hh.1.1]; exact h5) hh.2 (by rw [hh.1.1]; omega) o' ho'
        · cases ho
        · cases ho
  obtain ⟨i, h1, h2, h3⟩ := begin_ok v g
  unfold forBodies at ho
  rw [h1] at ho
  exact key vs v i h2 hh (by omega) o ho

/-- Without changes of the container the loop gives exactly the existing bodies, in order. -/
example : forBodies (.ok true) [none, some 7, none, some 8] [[none, some 7, none, some 8],
    [none, some 7, none, some 8]] = .ok ⟨[(1, 7), (3, 8)], true⟩ := by decide +kernel

/-- Erasing the next body inside the loop: it is not given. -/
example : History [some 6, some 7, some 8] [[some 6, none, some 8], [some 6, none, some 8]] ∧
    forBodies (.ok false) [some 6, some 7, some 8] [[some 6, none, some 8], [some 6, none, some 8]] =
      .ok ⟨[(0, 6), (2, 8)], true⟩ := by
  refine ⟨⟨⟨rfl, ?_⟩, ⟨rfl, fun _ _ h => h⟩, trivial⟩, by decide +kernel⟩
  intro j x h
  match j, h with
  | 0, h => exact h
  | 1, h => cases h
  | 2, h => exact h
  | k + 3, h => cases h

/-- In the C++ sense every loop over a container with a body reads past the end, if it is not stopped
before. -/
theorem C77_violated_past_end (v : List (Option β)) (vs : List (List (Option β)))
    (hh : History v vs) (hne : v ≠ []) (hlen : v.length ≤ vs.length) :
    forBodies .ub v vs = .ub := by
  -- skipping either stays below the end and does the same, or is undefined
  have hskip : ∀ (slots : List (Option β)) d j, slots.length - j = d → j ≤ slots.length →
      skipNull slots .ub j = .ub ∨
      ∃ i, skipNull slots .ub j = .ok i ∧ skipNull slots (.ok true) j = .ok i ∧ i < slots.length := by
    intro slots d
    induction d with
    | zero =>
      intro j h1 h2
      left
      rw [skipNull, dif_neg (by omega)]
    | succ d ih =>
      intro j h1 h2
      have hj : j < slots.length := by omega
      have hu : ∀ past, skipNull slots past j = match slots[j] with
          | none => skipNull slots past (j + 1)
          | some _ => .ok j := by
        intro past; conv => lhs; rw [skipNull.eq_def, dif_pos hj]
        rfl
      rw [hu, hu]
      cases he : slots[j] with
      | none => exact ih (j + 1) (by omega) (by omega)
      | some x => exact Or.inr ⟨j, rfl, rfl, hj⟩
  have hnext : ∀ (slots : List (Option β)) fuel i, i < slots.length → slots.length - i < fuel →
      pyNext slots .ub slots.length fuel i = .ub ∨
      ∃ j b i', pyNext slots .ub slots.length fuel i = .ok (.item j b i') ∧ i < i' ∧ i' < slots.length := by
    intro slots fuel
    induction fuel with
    | zero => intro i _ h; omega
    | succ fuel ih =>
      intro i hi hf
      rw [pyNext, if_neg (by omega)]
      obtain ⟨k, b1, b2, b3, b4⟩ := skipNull_ok slots true _ (i + 1) rfl (by omega)
      rcases hskip slots _ (i + 1) rfl (by omega) with h | ⟨i', h1, h2, h3⟩
      · left; unfold incr; rw [h]
      · rw [h2] at b1
        have : i' = k := by cases b1; rfl
        subst this
        unfold incr; rw [h1]
        simp only
        rw [List.getElem?_eq_getElem hi]
        cases hs : slots[i] with
        | none =>
          simp only
          rcases ih i' h3 (by omega) with h | ⟨j, b, k, c1, c2, c3⟩
          · exact Or.inl h
          · exact Or.inr ⟨j, b, k, c1, by omega, c3⟩
        | some x => exact Or.inr ⟨i, x, i', rfl, by omega, h3⟩
  have hloop : ∀ (vs : List (List (Option β))) (v : List (Option β)) (i : Nat), i < v.length →
      History v vs → v.length - i ≤ vs.length → loop .ub v.length (v :: vs) i = .ub := by
    intro vs
    induction vs with
    | nil => intro v i hi _ hl; rw [List.length_nil] at hl; omega
    | cons w ws ih =>
      intro v i hi hh hl
      rw [loop]
      rcases hnext v (v.length + 1) i hi (by omega) with h | ⟨j, b, i', h1, h2, h3⟩
      · rw [h]
      · rw [h1]
        simp only
        rw [List.length_cons] at hl
        have := ih w i' (by rw [hh.1.1]; exact h3) hh.2 (by rw [hh.1.1]; omega)
        rw [hh.1.1] at this
        rw [this]
  have h0 : 0 < v.length := List.length_pos_iff.mpr hne
  unfold forBodies
  match v, hne, h0, hh, hlen with
  | some x :: l, _, h0, hh, hlen => exact hloop vs _ 0 h0 hh (by omega)
  | none :: l, _, h0, hh, hlen =>
    show (match incr (none :: l) .ub 0 with
      | .ok i => loop .ub (none :: l).length ((none :: l) :: vs) i
      | .throws => .throws
      | .ub => .ub) = .ub
    rcases hskip (none :: l) _ 1 rfl (by simp) with h | ⟨i', h1, h2, h3⟩
    · unfold incr; rw [h]
    · unfold incr; rw [h1]
      simp only
      exact hloop vs _ i' h3 hh (by omega)

end Verif.Bodies.Iter
