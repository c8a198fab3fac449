import Verif.Sched.Model
/-!
# C52, C72, C73: periodic engines

A history is the list of polls (step number, simulation time, wall clock); step numbers do not decrease
unless the user resets the time, and start from 0.
-/
namespace Verif.Sched
open Verif

variable {R : Type} [Zero R] [Sub R] [LE R] [LT R] [DecidableLE R] [DecidableLT R]

/-- step numbers do not decrease, starting from step `i` -/
def Forward (i : Int) : List (Now R) → Prop
  | [] => True
  | n :: ns => i ≤ n.iter ∧ Forward n.iter ns

/-- at least one of the periods the user activated lies between the two polls -/
def Apart (p : Par R) (a b : Now R) : Prop :=
  (0 < p.virtPeriod ∧ p.virtPeriod ≤ b.virt - a.virt) ∨
  (0 < p.realPeriod ∧ p.realPeriod ≤ b.real - a.real) ∨
  (0 < p.iterPeriod ∧ p.iterPeriod ≤ b.iter - a.iter)

/-- the relation holds between each element and the next -/
def Successive (r : Now R → Now R → Prop) : List (Now R) → Prop
  | [] => True
  | [_] => True
  | a :: b :: l => r a b ∧ Successive r (b :: l)

omit [Zero R] [Sub R] [LE R] [LT R] [DecidableLE R] [DecidableLT R] in
private theorem forward_weaken {i j : Int} (h : i ≤ j) (ns : List (Now R)) (hf : Forward j ns) : Forward i ns := by
  cases ns with
  | nil => trivial
  | cons n ns => exact ⟨Int.le_trans h hf.1, hf.2⟩

/-- one poll when time goes forward -/
private theorem poll_cases (p : Par R) (e : Eng R) (n : Now R) (hf : e.iterLast ≤ n.iter) :
    ((poll p e n).2 = true ∧ (poll p e n).1 = mark e n ∧
      ((p.firstIterRun > 0 ∧ e.nDone = 0 ∧ n.iter = p.firstIterRun) ∨
       (¬ (p.firstIterRun > 0 ∧ e.nDone = 0) ∧ (p.nDo < 0 ∨ e.nDone < p.nDo) ∧ elapsed p e n = true) ∨
       (¬ p.firstIterRun > 0 ∧ e.nDone = 0 ∧ p.initRun = true))) ∨
    ((poll p e n).2 = false ∧ (poll p e n).1 = mark e n ∧ ¬ p.firstIterRun > 0 ∧ e.nDone = 0 ∧ p.initRun = false ∧
      ¬ ((p.nDo < 0 ∨ e.nDone < p.nDo) ∧ elapsed p e n = true)) ∨
    ((poll p e n).2 = false ∧ (poll p e n).1 = e ∧
      ((p.firstIterRun > 0 ∧ e.nDone = 0 ∧ n.iter ≠ p.firstIterRun) ∨
       (e.nDone ≠ 0 ∧ ¬ ((p.nDo < 0 ∨ e.nDone < p.nDo) ∧ elapsed p e n = true)))) := by
  unfold poll
  by_cases h1 : p.firstIterRun > 0 ∧ e.nDone = 0
  · rw [if_pos h1]
    by_cases h2 : p.firstIterRun = n.iter
    · rw [if_pos h2]; exact Or.inl ⟨rfl, rfl, Or.inl ⟨h1.1, h1.2, h2.symm⟩⟩
    · rw [if_neg h2]; exact Or.inr (Or.inr ⟨rfl, rfl, Or.inl ⟨h1.1, h1.2, fun e => h2 e.symm⟩⟩)
  · rw [if_neg h1]
    have hlt : ¬ n.iter < e.iterLast := by omega
    simp only [if_neg hlt]
    by_cases h2 : (p.nDo < 0 ∨ e.nDone < p.nDo) ∧ elapsed p e n = true
    · rw [if_pos h2]; exact Or.inl ⟨rfl, rfl, Or.inr (Or.inl ⟨h1, h2⟩)⟩
    · rw [if_neg h2]
      by_cases h3 : e.nDone = 0
      · rw [if_pos h3]
        have h4 : ¬ p.firstIterRun > 0 := fun h => h1 ⟨h, h3⟩
        cases h5 : p.initRun with
        | true => exact Or.inl ⟨rfl, rfl, Or.inr (Or.inr ⟨h4, h3, rfl⟩)⟩
        | false => exact Or.inr (Or.inl ⟨rfl, rfl, h4, h3, rfl, h2⟩)
      · rw [if_neg h3]; exact Or.inr (Or.inr ⟨rfl, rfl, Or.inr ⟨h3, h2⟩⟩)

omit [Zero R] [Sub R] [LE R] [LT R] [DecidableLE R] [DecidableLT R] in
private theorem mark_iter (e : Eng R) (n : Now R) : (mark e n).iterLast = n.iter := rfl
omit [Zero R] [Sub R] [LE R] [LT R] [DecidableLE R] [DecidableLT R] in
private theorem mark_nDone (e : Eng R) (n : Now R) : (mark e n).nDone = e.nDone + 1 := rfl

private theorem runs_limit (p : Par R) (hn : p.nDo ≥ 1) (ns : List (Now R)) : ∀ e : Eng R, 0 ≤ e.nDone →
    Forward e.iterLast ns → ((runs p e ns).length : Int) ≤ max 0 (p.nDo - e.nDone) := by
  induction ns with
  | nil => intro e _ _; simp [runs]; omega
  | cons n ns ih =>
    intro e h0 hf
    rcases poll_cases p e n hf.1 with ⟨h1, h2, h3⟩ | ⟨h1, h2, h3⟩ | ⟨h1, h2, h3⟩
    · simp only [runs, h1, h2, if_true, List.length_cons]
      have := ih (mark e n) (by rw [mark_nDone]; omega) hf.2
      rw [mark_nDone] at this
      omega
    · simp only [runs, h1, h2, Bool.false_eq_true, if_false]
      have := ih (mark e n) (by rw [mark_nDone]; omega) hf.2
      rw [mark_nDone] at this
      omega
    · simp only [runs, h1, h2, Bool.false_eq_true, if_false]
      exact ih e h0 (forward_weaken hf.1 ns hf.2)

/-- **C72 (1)**: with `nDo>0` a new engine runs at most `nDo` times, however it is polled. -/
theorem C72_at_most_nDo (p : Par R) (hn : p.nDo > 0) (clock : R) (ns : List (Now R)) (hf : Forward 0 ns) :
    ((runs p (fresh clock) ns).length : Int) ≤ p.nDo := by
  have := runs_limit p (by omega) ns (fresh clock) (by simp [fresh]) hf
  simp [fresh] at this ⊢
  omega

private theorem elapsed_apart (p : Par R) (e : Eng R) (a n : Now R) (h : elapsed p e n = true)
    (h1 : e.virtLast = a.virt) (h2 : e.realLast = a.real) (h3 : e.iterLast = a.iter) : Apart p a n := by
  simp only [elapsed, Bool.or_eq_true, Bool.and_eq_true, decide_eq_true_eq, h1, h2, h3] at h
  rcases h with (h | h) | h
  · exact Or.inl h
  · exact Or.inr (Or.inl h)
  · exact Or.inr (Or.inr h)

private theorem runs_spaced (p : Par R) (ns : List (Now R)) : ∀ (e : Eng R) (a : Now R), 0 < e.nDone →
    e.virtLast = a.virt → e.realLast = a.real → e.iterLast = a.iter → Forward e.iterLast ns →
    Successive (Apart p) (a :: runs p e ns) := by
  induction ns with
  | nil => intro e a _ _ _ _ _; simp [runs, Successive]
  | cons n ns ih =>
    intro e a h0 h1 h2 h3 hf
    rcases poll_cases p e n hf.1 with ⟨q1, q2, q3⟩ | ⟨q1, q2, q3⟩ | ⟨q1, q2, q3⟩
    · simp only [runs, q1, q2, if_true, Successive]
      refine ⟨?_, ih (mark e n) n (by rw [mark_nDone]; omega) rfl rfl rfl hf.2⟩
      rcases q3 with q3 | q3 | q3
      · omega
      · exact elapsed_apart p e a n q3.2.2 h1 h2 h3
      · omega
    · omega
    · simp only [runs, q1, q2, Bool.false_eq_true, if_false]
      exact ih e a h0 h1 h2 h3 (forward_weaken hf.1 ns hf.2)

omit [Zero R] [Sub R] [LE R] [LT R] [DecidableLE R] [DecidableLT R] in
private theorem succ_tail {r : Now R → Now R → Prop} {a : Now R} {l : List (Now R)} (h : Successive r (a :: l)) :
    Successive r l := by
  cases l with
  | nil => trivial
  | cons b l => exact h.2

/-- **C72 (2)**: between two successive runs at least one of the active periods has elapsed, for every
setting and every polling history. -/
theorem C72_period_between_runs (p : Par R) (clock : R) (ns : List (Now R)) (hf : Forward 0 ns) :
    Successive (Apart p) (runs p (fresh clock) ns) := by
  have gen : ∀ (ns : List (Now R)) (e : Eng R), 0 ≤ e.nDone → Forward e.iterLast ns → Successive (Apart p) (runs p e ns) := by
    intro ns
    induction ns with
    | nil => intro e _ _; trivial
    | cons n ns ih =>
      intro e h0 hf
      rcases poll_cases p e n hf.1 with ⟨q1, q2, q3⟩ | ⟨q1, q2, q3⟩ | ⟨q1, q2, q3⟩
      · simp only [runs, q1, q2, if_true]
        exact runs_spaced p ns (mark e n) n (by rw [mark_nDone]; omega) rfl rfl rfl hf.2
      · simp only [runs, q1, q2, Bool.false_eq_true, if_false]
        exact ih (mark e n) (by rw [mark_nDone]; omega) hf.2
      · simp only [runs, q1, q2, Bool.false_eq_true, if_false]
        exact ih e h0 (forward_weaken hf.1 ns hf.2)
  exact gen ns (fresh clock) (by simp [fresh]) hf

/-- a setting used in the examples: every third step, at most `d` runs -/
def every3 (d : Int) (init : Bool) : Par Int := ⟨0, 0, 3, d, init, 0⟩
/-- polls at consecutive steps `i, i+1, …` with both clocks standing still -/
def steps (i : Int) (k : Nat) : List (Now Int) := (List.range k).map fun j : Nat => ⟨0, 0, i + (j : Int)⟩

example : (runs (every3 2 true) (fresh 0) (steps 1 20)).map (·.iter) = [1, 4] ∧ Forward 0 (steps 1 20) := by
  refine ⟨by decide, ?_⟩
  simp [steps, Forward, List.range, List.range.loop]

/-- **C73 (1)**: with `initRun=True` (and no `firstIterRun`) a new engine runs the first time it is polled. -/
theorem C73_initRun (p : Par R) (hi : p.initRun = true) (hfi : p.firstIterRun ≤ 0) (clock : R) (n : Now R) (h : 0 ≤ n.iter) :
    (poll p (fresh clock) n).2 = true := by
  rcases poll_cases p (fresh clock) n h with ⟨q1, q2, q3⟩ | ⟨q1, q2, q3⟩ | ⟨q1, q2, q3⟩
  · exact q1
  · rw [hi] at q3; exact absurd q3.2.2.1 (by simp)
  · simp [fresh] at q3; omega

/-- polls at consecutive steps; simulation time and wall clock are arbitrary -/
def Consecutive (i : Int) : List (Now R) → Prop
  | [] => True
  | n :: ns => n.iter = i ∧ Consecutive (i + 1) ns

omit [Zero R] [Sub R] [LE R] [LT R] [DecidableLE R] [DecidableLT R] in
private theorem consec_forward (ns : List (Now R)) : ∀ (i j : Int), j ≤ i → Consecutive i ns → Forward j ns := by
  induction ns with
  | nil => intro i j _ _; trivial
  | cons n ns ih => intro i j hj h; exact ⟨by have := h.1; omega, by rw [h.1]; exact ih (i+1) i (by omega) h.2⟩

private theorem runs_enough (p : Par R) (hp : p.iterPeriod > 0) (ns : List (Now R)) :
    ∀ (e : Eng R) (i : Int), 0 < e.nDone → e.nDone ≤ p.nDo → e.iterLast < i → i ≤ e.iterLast + p.iterPeriod →
    Consecutive i ns →
    e.nDone + (runs p e ns).length = p.nDo ∨
      (i - e.iterLast - 1) + ns.length < p.iterPeriod * ((runs p e ns).length + 1) := by
  induction ns with
  | nil => intro e i h0 h1 h2 h3 _; right; simp [runs]; omega
  | cons n ns ih =>
    intro e i h0 h1 h2 h3 hc
    have hni : n.iter = i := hc.1
    rcases poll_cases p e n (by omega) with ⟨q1, q2, q3⟩ | ⟨q1, q2, q3⟩ | ⟨q1, q2, q3⟩
    · simp only [runs, q1, q2, if_true, List.length_cons]
      have hlim : e.nDone + 1 ≤ p.nDo := by
        rcases q3 with q3 | q3 | q3
        · omega
        · omega
        · omega
      rcases ih (mark e n) (i+1) (by rw [mark_nDone]; omega) (by rw [mark_nDone]; omega) (by rw [mark_iter]; omega)
        (by rw [mark_iter]; omega) hc.2 with h | h
      · left; rw [mark_nDone] at h; push_cast; omega
      · right
        rw [mark_iter] at h
        generalize (runs p (mark e n) ns).length = k at h ⊢
        have : p.iterPeriod * ((k + 1 : Nat) + 1 : Int) = p.iterPeriod * (k + 1) + p.iterPeriod := by
          push_cast; rw [Int.mul_add p.iterPeriod (k+1) 1, Int.mul_one]
        rw [this]
        push_cast at h ⊢; omega
    · omega
    · simp only [runs, q1, q2, Bool.false_eq_true, if_false, List.length_cons]
      by_cases hd : e.nDone < p.nDo
      · have hel : elapsed p e n = false := by
          rcases q3 with q3 | q3
          · omega
          · cases h : elapsed p e n with
            | false => rfl
            | true => exact absurd ⟨Or.inr hd, h⟩ q3.2
        have : n.iter - e.iterLast < p.iterPeriod := by
          simp only [elapsed, Bool.or_eq_false_iff, Bool.and_eq_false_iff, decide_eq_false_iff_not] at hel
          have := hel.2; omega
        rcases ih e (i+1) h0 h1 (by omega) (by omega) hc.2 with h | h
        · left; exact h
        · right; push_cast; omega
      · left
        have := runs_limit p (by omega) ns e (by omega) (consec_forward ns (i+1) e.iterLast (by omega) hc.2)
        omega

/-- **C73 (2)**: with `initRun=True`, `nDo>0` and an iteration period, polled at every step from any step
on, the engine has run exactly `nDo` times after `(nDo-1)*iterPeriod+1` steps (whatever the other two
criteria and the clocks do). -/
theorem C73_exactly_nDo (p : Par R) (hi : p.initRun = true) (hfi : p.firstIterRun ≤ 0) (hd : p.nDo > 0)
    (hp : p.iterPeriod > 0) (clock : R) (i : Int) (h0 : 0 ≤ i) (ns : List (Now R)) (hc : Consecutive i ns)
    (hlen : (p.nDo - 1) * p.iterPeriod + 1 ≤ ns.length) : ((runs p (fresh clock) ns).length : Int) = p.nDo := by
  cases ns with
  | nil =>
    have : 0 ≤ (p.nDo - 1) * p.iterPeriod := Int.mul_nonneg (by omega) (by omega)
    simp at hlen; omega
  | cons n ns =>
    have hni : n.iter = i := hc.1
    have hrun := C73_initRun p hi hfi clock n (by omega)
    have hmark : (poll p (fresh clock) n).1 = mark (fresh clock) n := by
      rcases poll_cases p (fresh clock) n (by simp [fresh]; omega) with ⟨q1, q2, q3⟩ | ⟨q1, q2, q3⟩ | ⟨q1, q2, q3⟩
      · exact q2
      · rw [hrun] at q1; cases q1
      · rw [hrun] at q1; cases q1
    simp only [runs, hrun, hmark, if_true, List.length_cons]
    have hm : (mark (fresh clock) n).nDone = 1 := rfl
    rcases runs_enough p hp ns (mark (fresh clock) n) (i+1) (by rw [hm]; omega) (by rw [hm]; omega)
      (by rw [mark_iter]; omega) (by rw [mark_iter]; omega) hc.2 with h | h
    · rw [hm] at h; push_cast; omega
    · have hl := runs_limit p (by omega) ns (mark (fresh clock) n) (by rw [hm]; omega)
        (consec_forward ns (i+1) _ (by rw [mark_iter]; omega) hc.2)
      rw [hm] at hl
      rw [mark_iter, hni] at h
      generalize (runs p (mark (fresh clock) n) ns).length = k at h hl ⊢
      rw [List.length_cons] at hlen
      push_cast at hlen h ⊢
      have h2 : (p.nDo - 1) * p.iterPeriod < (k + 1) * p.iterPeriod := by
        rw [Int.mul_comm ((k : Int) + 1)]; omega
      have := Int.lt_of_mul_lt_mul_right h2 (by omega)
      omega

example : ((runs (every3 4 true) (fresh 0) (steps 5 10)).length : Int) = 4 :=
  C73_exactly_nDo (every3 4 true) rfl (by decide) (by decide) (by decide) 0 5 (by decide) (steps 5 10)
    (by simp [steps, Consecutive, List.range, List.range.loop]) (by decide)

/-- **C73 (3)**: with `firstIterRun=f>0`, a new engine does not run before it is polled at step `f`, and
runs then. -/
theorem C73_firstIterRun (p : Par R) (hfi : p.firstIterRun > 0) (clock : R) (ns : List (Now R)) :
    (∀ n ∈ (runs p (fresh clock) ns).head?, n.iter = p.firstIterRun) ∧
    ((∃ n ∈ ns, n.iter = p.firstIterRun) → runs p (fresh clock) ns ≠ []) := by
  induction ns with
  | nil => simp [runs]
  | cons n ns ih =>
    have hp : poll p (fresh clock) n = if p.firstIterRun = n.iter then (mark (fresh clock) n, true) else (fresh clock, false) := by
      simp [poll, fresh, hfi]
    by_cases h : p.firstIterRun = n.iter
    · rw [if_pos h] at hp
      simp [runs, hp, h]
    · rw [if_neg h] at hp
      simp only [runs, hp, Bool.false_eq_true, if_false]
      refine ⟨ih.1, ?_⟩
      rintro ⟨m, hm, he⟩
      rcases List.mem_cons.1 hm with rfl | hm
      · exact absurd he.symm h
      · exact ih.2 ⟨m, hm, he⟩

example : (runs ({ every3 (-1) false with firstIterRun := 7 }) (fresh 0) (steps 1 15)).map (·.iter) = [7, 10, 13] := by decide

/-- **C52 (partial: `nDo` is not 0)**: at most `nDo` runs. -/
theorem C52_limit_partial (p : Par R) (hn : p.nDo ≥ 0) (h0 : p.nDo ≠ 0) (clock : R) (ns : List (Now R)) (hf : Forward 0 ns) :
    ((runs p (fresh clock) ns).length : Int) ≤ p.nDo := C72_at_most_nDo p (by omega) clock ns hf

/-- **C52 (partial: no active period has elapsed between the origin of time and the first poll)**: with
`initRun=False` the engine does not run the first time it is polled, and first runs when at least one
period has elapsed since then. -/
theorem C52_no_initial_run_partial (p : Par R) (hi : p.initRun = false) (hfi : p.firstIterRun ≤ 0) (clock : R)
    (n : Now R) (ns : List (Now R)) (hf : Forward 0 (n :: ns)) (hel : ¬ Apart p ⟨0, clock, 0⟩ n) :
    runs p (fresh clock) (n :: ns) = runs p (mark (fresh clock) n) ns ∧
    Successive (Apart p) (n :: runs p (fresh clock) (n :: ns)) := by
  have hs : runs p (fresh clock) (n :: ns) = runs p (mark (fresh clock) n) ns := by
    rcases poll_cases p (fresh clock) n hf.1 with ⟨q1, q2, q3⟩ | ⟨q1, q2, q3⟩ | ⟨q1, q2, q3⟩
    · rcases q3 with q3 | q3 | q3
      · omega
      · exact absurd (elapsed_apart p (fresh clock) ⟨0, clock, 0⟩ n q3.2.2 rfl rfl rfl) hel
      · rw [hi] at q3; simp at q3
    · simp only [runs, q1, q2, Bool.false_eq_true, if_false]
    · simp [fresh] at q3; omega
  refine ⟨hs, ?_⟩
  rw [hs]
  exact runs_spaced p ns _ n (by rw [mark_nDone]; simp [fresh]) rfl rfl rfl hf.2

example : ¬ Apart (every3 2 false) ⟨0, 0, 0⟩ ⟨0, 0, 2⟩ ∧
    (runs (every3 2 false) (fresh 0) (steps 2 20)).map (·.iter) = [5] := by
  refine ⟨?_, by decide⟩
  simp [Apart, every3]

/-- **C52 violated (limit)**: with `nDo=0` an engine with `initRun` runs once. -/
theorem C52_violated_zero : ∃ (p : Par Int) (ns : List (Now Int)), p.nDo = 0 ∧ Forward 0 ns ∧
    (runs p (fresh 0) ns).length = 1 :=
  ⟨every3 0 true, steps 0 10, rfl, by simp [steps, Forward, List.range, List.range.loop], by decide⟩

/-- **C52 violated (exact number)**: whenever the first poll does not run the engine, as `initRun=False`
is meant to do, it is counted as a run all the same: the engine runs at most `nDo-1` times, however long it is
polled.  (With `nDo=1` it never runs.) -/
theorem C52_violated_one_run_less (p : Par R) (hi : p.initRun = false) (hfi : p.firstIterRun ≤ 0) (hd : p.nDo > 0)
    (clock : R) (n : Now R) (ns : List (Now R)) (hf : Forward 0 (n :: ns)) (hel : ¬ Apart p ⟨0, clock, 0⟩ n) :
    ((runs p (fresh clock) (n :: ns)).length : Int) ≤ p.nDo - 1 := by
  rw [(C52_no_initial_run_partial p hi hfi clock n ns hf hel).1]
  have := runs_limit p (by omega) ns (mark (fresh clock) n) (by rw [mark_nDone]; simp [fresh]) hf.2
  rw [mark_nDone] at this
  simp [fresh] at this ⊢
  omega

example : (runs (every3 1 false) (fresh 0) (steps 0 100)).length = 0 := by decide

/-- **C52 violated (initial run)**: an engine with `initRun=False` added at step 5000 runs the first time it
is polled, because the period is counted from step 0. -/
theorem C52_violated_initial_run : ∃ (p : Par Int) (n : Now Int), p.initRun = false ∧ p.firstIterRun ≤ 0 ∧
    p.iterPeriod = 1000 ∧ (poll p (fresh 0) n).2 = true :=
  ⟨⟨0, 0, 1000, -1, false, 0⟩, ⟨0, 0, 5000⟩, rfl, by decide, rfl, by decide⟩

/-- **C52 violated (first step missed)**: if the engine is not polled at the step `firstIterRun` (it was
added later, or was `dead` then), it never runs. -/
theorem C52_violated_missed (p : Par R) (hfi : p.firstIterRun > 0) (clock : R) (ns : List (Now R))
    (h : ∀ n ∈ ns, n.iter ≠ p.firstIterRun) : runs p (fresh clock) ns = [] := by
  induction ns with
  | nil => rfl
  | cons n ns ih =>
    have hp : poll p (fresh clock) n = (fresh clock, false) := by
      have := h n (by simp)
      simp [poll, fresh, hfi, Ne.symm this]
    simp only [runs, hp, Bool.false_eq_true, if_false]
    exact ih fun m hm => h m (by simp [hm])

example : (runs ({ every3 (-1) false with firstIterRun := 7 }) (fresh 0) (steps 8 100)).length = 0 := by decide

end Verif.Sched
