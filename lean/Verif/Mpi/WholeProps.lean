import Verif.Mpi.WholeLemmas
/-!
# C116: the messages of a whole distributed run

Specification: `Good` (the neighbour lists of each split fit together: what C112 is about), `Heard` (the master listens to every worker, or
forces are not sent).  The claims are about every sequence of splits, steps and merges.
-/
namespace Verif.Mpi.Whole
open Verif.Mpi.Net Verif.Mpi.Exchange

variable {M : Type}

/-! ## Specification -/

/-- the neighbour lists used in a phase fit together -/
def Good (n : Nat) : Phase M → Prop
  | .split I .. => Consistent n I
  | .steps _ I _ _ => ∀ t, Consistent n (I t)
  | .merge .. => True

/-- forces are not sent, or every worker touches the master -/
def Heard (acc : Bool) (n : Nat) : Phase M → Prop
  | .steps _ I _ _ => acc = true → ∀ t p, 0 < p → p < n → p ∈ I t 0 0
  | _ => True

/-! ## Lemmas -/

section
variable {acc : Bool} {n : Nat}

theorem below_phase {f : Phase M} (hf : Good n f) : Below (f.len n) (f.ops acc n) := by
  intro p x hx
  cases f with
  | split I scene corners lists => have := (split_levels p).2 x hx; simp only [Phase.len]; omega
  | merge dat bounds => have := (merge_levels p).2 x hx; simp only [Phase.len]; omega
  | steps T I states forces =>
    simp only [Phase.ops, Exchange.steps] at hx
    split_ifs at hx
    · obtain ⟨t, ht, hx⟩ := List.mem_flatMap.mp hx
      have h1 := (stepOps_levels ((hf t).nodup 0)).2 x hx
      have h2 := List.mem_range.mp ht
      have h3 := baseAt_mono I h2
      obtain ⟨-, h4⟩ := h1
      rw [baseAt] at h4
      simp only [Phase.len]; omega
    · cases hx

theorem fed_of_matched {P : Prog M} (h : Matched P) : Fed P := by
  refine ⟨h.mono, fun p q t k l hk => ?_⟩
  have h1 := List.forall₂_iff_get.mp (h.send_wait p q t)
  obtain ⟨h2, h3⟩ := h1
  obtain ⟨hk', rfl⟩ := List.getElem?_eq_some_iff.mp hk
  have h4 : k < (sends q t (P p)).length := by rw [List.length_map] at h2; omega
  refine ⟨(sends q t (P p))[k], List.getElem?_eq_getElem h4, ?_⟩
  have := h3 k (by rw [List.length_map]; exact h4) hk'
  simpa using this

theorem fed_phase {f : Phase M} (hf : Good n f) : Fed (f.ops acc n) := by
  cases f with
  | split I scene corners lists => exact fed_of_matched (matched_split hf)
  | merge dat bounds => exact fed_of_matched matched_merge
  | steps T I states forces => exact fed_steps hf

theorem matched_phase {f : Phase M} (hf : Good n f) (ha : Heard acc n f) : Matched (f.ops acc n) := by
  cases f with
  | split I scene corners lists => exact matched_split hf
  | merge dat bounds => exact matched_merge
  | steps T I states forces => exact matched_steps hf ha

theorem run_cons (f : Phase M) (fs : List (Phase M)) : run acc n (f :: fs) = andThen (f.len n) (f.ops acc n) (run acc n fs) := rfl

theorem fed_run {fs : List (Phase M)} (hf : ∀ f ∈ fs, Good n f) : Fed (run acc n fs) := by
  induction fs with
  | nil => exact ⟨fun _ => .nil, fun p q t k l h => by simp [run] at h⟩
  | cons f fs ih =>
    rw [run_cons]
    exact fed_andThen (below_phase (hf f (by simp))) (fed_phase (hf f (by simp))) (ih fun g hg => hf g (by simp [hg]))

theorem matched_run {fs : List (Phase M)} (hf : ∀ f ∈ fs, Good n f) (ha : ∀ f ∈ fs, Heard acc n f) : Matched (run acc n fs) := by
  induction fs with
  | nil => exact ⟨fun _ => .nil, fun p q t => by simp [run], fun p q t => by simp [run]⟩
  | cons f fs ih =>
    rw [run_cons]
    exact matched_andThen (below_phase (hf f (by simp))) (matched_phase (hf f (by simp)) (ha f (by simp)))
      (ih (fun g hg => hf g (by simp [hg])) (fun g hg => ha g (by simp [hg])))

/-- as many messages other than forces are sent as waited for -/
theorem balanced_phase {f : Phase M} (hf : Good n f) (p q t : Nat) (ht : t ≠ 15) :
    (waits q t (f.ops acc n p)).length = (sends p t (f.ops acc n q)).length := by
  cases f with
  | split I scene corners lists => have := ((matched_split (scene := scene) (corners := corners) (lists := lists) hf).send_wait q p t).length_eq; rw [List.length_map] at this; exact this.symm
  | merge dat bounds => have := ((matched_merge (n := n) (dat := dat) (bounds := bounds)).send_wait q p t).length_eq; rw [List.length_map] at this; exact this.symm
  | steps T I states forces =>
    by_cases h : t = 177
    · subst h; exact (C46_matched hf q p).2
    · simp only [Phase.ops]
      rw [(steps_other h ht).2.1, (steps_other h ht).2.2]; rfl

theorem balanced_run {fs : List (Phase M)} (hf : ∀ f ∈ fs, Good n f) (p q t : Nat) (ht : t ≠ 15) :
    (waits q t (run acc n fs p)).length = (sends p t (run acc n fs q)).length := by
  induction fs with
  | nil => rfl
  | cons f fs ih =>
    simp only [run, waits_append, sends_append, List.length_append, waits_shift, sends_shift, List.length_map]
    rw [balanced_phase (hf f (by simp)) p q t ht, ih fun g hg => hf g (by simp [hg])]

/-- levels used by phases -/
def lenAll (n : Nat) (fs : List (Phase M)) : Nat := (fs.map (Phase.len n)).sum

theorem run_append (pre fs : List (Phase M)) (p : Nat) : run acc n (pre ++ fs) p = run acc n pre p ++ shift (lenAll n pre) (run acc n fs p) := by
  induction pre with
  | nil => simp [run, lenAll, shift_zero]
  | cons f pre ih =>
    simp only [List.cons_append, run]
    rw [ih, shift_append, shift_shift, List.append_assoc]
    simp [lenAll, Nat.add_comm]

/-- a wait of a phase delivers the message of the same number of the same phase -/
theorem delivered {pre post : List (Phase M)} {f : Phase M} (hf : ∀ g ∈ pre ++ f :: post, Good n g) {buf : Bool} {s s' : Net M}
    (h : Reach (run acc n (pre ++ f :: post)) buf s) {p q t j l : Nat} (ht : t ≠ 15) (hj : s.pc p = (run acc n pre p).length + j)
    (ho : (f.ops acc n p)[j]? = some (l, .wait q t)) (e : Step (run acc n (pre ++ f :: post)) buf s s') (hpc : s'.pc p = s.pc p + 1) :
    ∃ x, (sends p t (f.ops acc n q))[(waits q t ((f.ops acc n p).take j)).length]? = some x ∧ s'.got p = s.got p ++ [(q, t, x.2)] := by
  have hjl : j < (f.ops acc n p).length := (List.getElem?_eq_some_iff.mp ho).1
  have hprog : ∀ p, run acc n (pre ++ f :: post) p =
      run acc n pre p ++ shift (lenAll n pre) (f.ops acc n p ++ shift (f.len n) (run acc n post p)) := by
    intro p; rw [run_append]; rfl
  have hsl : ∀ d (l : List (Nat × Op M)), (shift d l).length = l.length := fun d l => by simp [shift]
  have hpo : (run acc n (pre ++ f :: post) p)[s.pc p]? = some (l + lenAll n pre, .wait q t) := by
    rw [hprog, hj, List.getElem?_append_right (by omega), Nat.add_sub_cancel_left, shift_append, List.getElem?_append_left (by rw [hsl]; exact hjl)]
    unfold shift
    rw [List.getElem?_map, ho]; rfl
  obtain ⟨x, h1, h2⟩ := wait_delivers_at h hpo e hpc
  have hw : waits q t (past (run acc n (pre ++ f :: post)) s p) =
      waits q t (run acc n pre p) ++ (waits q t ((f.ops acc n p).take j)).map (· + lenAll n pre) := by
    unfold past
    rw [hprog, hj, List.take_length_add_append, shift_append, List.take_append_of_le_length (by rw [hsl]; omega), shift_take, waits_append, waits_shift]
  rw [hw, List.length_append, List.length_map, hprog, sends_append, sends_shift, sends_append, List.map_append] at h1
  have hb := balanced_run (acc := acc) (fs := pre) (fun g hg => hf g (by simp [hg])) p q t ht
  rw [hb, List.getElem?_append_right (by omega), Nat.add_sub_cancel_left] at h1
  have hlt : (waits q t ((f.ops acc n p).take j)).length < (sends p t (f.ops acc n q)).length := by
    rw [← balanced_phase (acc := acc) (hf f (by simp)) p q t ht]
    have h3 : f.ops acc n p = (f.ops acc n p).take j ++ (l, Op.wait q t) :: (f.ops acc n p).drop (j + 1) := by
      have := List.take_append_drop j (f.ops acc n p)
      rw [List.drop_eq_getElem_cons hjl] at this
      rw [(List.getElem?_eq_some_iff.mp ho).2] at this
      exact this.symm
    have h4 := congrArg (fun a => (waits q t a).length) h3
    rw [waits_append, List.length_append] at h4
    rw [h4]
    simp [waits]
  rw [List.getElem?_append_left (by rw [List.length_map]; exact hlt), List.getElem?_map] at h1
  obtain ⟨y, h5, rfl⟩ := Option.map_eq_some_iff.mp h1
  exact ⟨y, h5, h2⟩

end

/-! ## C116 -/

section
variable {acc : Bool} {n : Nat} {pre post : List (Phase M)} {buf : Bool} {s s' : Net M}

/-- **C116, no deadlock.** For every number of processes, every sequence of splits, runs of steps and merges whose neighbour lists fit
together, and every content of the messages: in every state the processes can get into in which one has not carried out all its
communications, some process can go on, provided the library buffers messages nobody waits for yet. -/
theorem C116_no_deadlock {fs : List (Phase M)} (hf : ∀ f ∈ fs, Good n f) (h : Reach (run acc n fs) true s) {p : Nat}
    (hp : ¬ Done (run acc n fs) s p) : ∃ s', Step (run acc n fs) true s s' :=
  progress_buffered (fed_run hf) h hp

/-- **C116, no deadlock without buffering.** The same when no message is buffered, if forces are not sent to the master or every worker
touches the master in every step: the exchanges of a split and of a merge never hang. -/
theorem C116_no_deadlock_unbuffered {fs : List (Phase M)} (hf : ∀ f ∈ fs, Good n f) (ha : ∀ f ∈ fs, Heard acc n f)
    (h : Reach (run acc n fs) buf s) {p : Nat} (hp : ¬ Done (run acc n fs) s p) : ∃ s', Step (run acc n fs) false s s' :=
  progress (matched_run hf ha) h hp

/-- **C116, messages of a split.** Whatever happened before and in whatever order the processes go on: a message received in a split is the
scene, the corners or the list of shared bodies that the other process has sent to this one in the same split. -/
theorem C116_split_current {I : Nat → Nat → List Nat} {scene corners : Nat → M} {lists : Nat → Nat → M}
    (hf : ∀ g ∈ pre ++ .split I scene corners lists :: post, Good n g) (h : Reach (run acc n (pre ++ .split I scene corners lists :: post)) buf s)
    {p q t j l : Nat} (hj : s.pc p = (run acc n pre p).length + j) (ho : (splitOps n I scene corners lists p)[j]? = some (l, .wait q t))
    (e : Step (run acc n (pre ++ .split I scene corners lists :: post)) buf s s') (hpc : s'.pc p = s.pc p + 1) :
    ∃ m, s'.got p = s.got p ++ [(q, t, m)] ∧ (t = 11 ∧ q = 0 ∧ m = scene p ∨ t = 12 ∧ q ≠ 0 ∧ m = corners q ∨ t = 16 ∧ m = lists q p) := by
  have hI : Consistent n I := hf (.split I scene corners lists) (by simp)
  have htag : t = 11 ∨ t = 12 ∨ t = 16 := by
    have hm := List.mem_of_getElem? ho
    unfold splitOps at hm
    split_ifs at hm
    · simp only [List.mem_append] at hm
      unfold sceneOps sizeOps mirrorOps at hm
      rcases hm with (hm | hm) | hm <;> split_ifs at hm <;> simp at hm <;> grind
    · cases hm
  obtain ⟨x, h1, h2⟩ := delivered hf h (by omega) hj ho e hpc
  have hx := List.mem_of_getElem? h1
  refine ⟨x.2, h2, ?_⟩
  simp only [Phase.ops, splitOps] at hx
  split_ifs at hx with hq
  · rw [sends_append, sends_append, sends_scene, sends_size, sends_mirror (hI.nodup q)] at hx
    simp only [List.mem_append] at hx
    rcases hx with (hx | hx) | hx
    · split_ifs at hx with h3
      · simp at hx; exact Or.inl ⟨h3.2.2.2, h3.1, by rw [hx]⟩
      · cases hx
    · split_ifs at hx with h3
      · simp at hx; exact Or.inr (Or.inl ⟨h3.2.2.2, by omega, by rw [hx]⟩)
      · cases hx
    · split_ifs at hx with h3 h4 h5 h6
      all_goals first | (cases hx; done) | (simp at hx; exact Or.inr (Or.inr ⟨h3.2, by rw [hx]⟩))
  · cases hx

/-- **C116, messages of a merge.** In a merge the master receives from each worker the states and bounds that worker has sent in the same
merge. -/
theorem C116_merge_current {dat bounds : Nat → M} (hf : ∀ g ∈ pre ++ .merge dat bounds :: post, Good n g)
    (h : Reach (run acc n (pre ++ .merge dat bounds :: post)) buf s)
    {p q t j l : Nat} (hj : s.pc p = (run acc n pre p).length + j) (ho : (mergeOps n dat bounds p)[j]? = some (l, .wait q t))
    (e : Step (run acc n (pre ++ .merge dat bounds :: post)) buf s s') (hpc : s'.pc p = s.pc p + 1) :
    p = 0 ∧ ∃ m, s'.got 0 = s.got 0 ++ [(q, t, m)] ∧ (t = 17 ∧ m = dat q ∨ t = 18 ∧ m = bounds q) := by
  have htag : p = 0 ∧ (t = 17 ∨ t = 18) := by
    have hm := List.mem_of_getElem? ho
    unfold mergeOps at hm
    split_ifs at hm with h1 h2
    · obtain ⟨w, -, hw⟩ := List.mem_flatMap.mp hm
      simp at hw
      exact ⟨h2, by rcases hw with hw | hw <;> simp [hw]⟩
    · simp at hm
    · cases hm
  obtain ⟨rfl, htag⟩ := htag
  obtain ⟨x, h1, h2⟩ := delivered hf h (by omega) hj ho e hpc
  have hx := List.mem_of_getElem? h1
  refine ⟨rfl, x.2, h2, ?_⟩
  simp only [Phase.ops] at hx
  rw [sends_merge] at hx
  split_ifs at hx with h3 h4 h5
  · simp at hx; exact Or.inl ⟨h4, by rw [hx]⟩
  · simp at hx; exact Or.inr ⟨h5, by rw [hx]⟩
  all_goals cases hx

/-- **C116, states in a whole run.** In every step after any number of earlier splits, steps and merges a worker receives the states its
neighbour has sent in this very step: nothing left over from before. -/
theorem C116_states_current {T : Nat} {I : Nat → Nat → Nat → List Nat} {states : Nat → Nat → Nat → M} {forces : Nat → Nat → M}
    (hf : ∀ g ∈ pre ++ .steps T I states forces :: post, Good n g) (h : Reach (run acc n (pre ++ .steps T I states forces :: post)) buf s)
    {p q j l t : Nat} (hj : s.pc p = (run acc n pre p).length + j) (ho : (Exchange.steps acc n I states forces T p)[j]? = some (l, .wait q 177))
    (ht : InStep I t l) (e : Step (run acc n (pre ++ .steps T I states forces :: post)) buf s s') (hpc : s'.pc p = s.pc p + 1) :
    q ∈ I t p p ∧ s'.got p = s.got p ++ [(q, 177, states t q p)] := by
  have hI : ∀ t, Consistent n (I t) := hf (.steps T I states forces) (by simp)
  obtain ⟨x, h1, h2⟩ := delivered hf h (by omega) hj ho e hpc
  simp only [Phase.ops] at h1
  have h3 : (waits q 177 (Exchange.steps acc n I states forces T p))[(waits q 177 ((Exchange.steps acc n I states forces T p).take j)).length]? = some l := by
    have hjl := (List.getElem?_eq_some_iff.mp ho).1
    have h3 : Exchange.steps acc n I states forces T p = (Exchange.steps acc n I states forces T p).take j ++ (l, Op.wait q 177) :: (Exchange.steps acc n I states forces T p).drop (j + 1) := by
      have := List.take_append_drop j (Exchange.steps acc n I states forces T p)
      rw [List.drop_eq_getElem_cons hjl] at this
      rw [(List.getElem?_eq_some_iff.mp ho).2] at this
      exact this.symm
    have h4 : waits q 177 (Exchange.steps acc n I states forces T p) = waits q 177 ((Exchange.steps acc n I states forces T p).take j) ++
        l :: waits q 177 ((Exchange.steps acc n I states forces T p).drop (j + 1)) := by
      have := congrArg (waits q 177) h3
      rw [waits_append] at this
      rw [this]
      simp [waits]
    rw [h4, List.getElem?_append_right (Nat.le_refl _), Nat.sub_self]; rfl
  by_cases hp : p < n
  · rw [waits_steps_states (fun t => (hI t).nodup p), if_pos hp, List.getElem?_map] at h3
    obtain ⟨u, h4, rfl⟩ := Option.map_eq_some_iff.mp h3
    obtain ⟨h5, ⟨h6, h7⟩, -⟩ := nth_choice h4
    have hu : u = t := InStep.unique (I := I) ⟨by omega, by rw [baseAt]; omega⟩ ht
    subst hu
    obtain ⟨h8, -, -⟩ := (hI u).sym p q hp h7
    rw [sends_steps_states (fun t => (hI t).nodup q), if_pos h8, ← Consistent.filter hI hp h8, List.getElem?_map, h4] at h1
    injection h1 with h1
    subst h1
    exact ⟨h7, h2⟩
  · rw [Exchange.steps, if_neg hp] at h3; simp [waits] at h3

end

/-- neighbour lists of three processes all of which touch each other -/
def exI : Nat → Nat → List Nat := fun p k => if p ≠ k then [] else if p = 0 then [1, 2] else if p = 1 then [2, 0] else if p = 2 then [1, 0] else []

theorem exI_consistent : Consistent 3 exI := by
  refine ⟨fun p => ?_, fun p q hp hq => ?_⟩
  · unfold exI; split_ifs <;> simp_all
  · have : p = 0 ∨ p = 1 ∨ p = 2 := by omega
    rcases this with rfl | rfl | rfl <;> simp [exI] at hq <;> rcases hq with rfl | rfl <;> simp [exI]

/-- a run with a split, two steps, a merge and a new split; messages are labelled by what they are -/
def exPhases : List (Phase String) :=
  [.split exI (fun w => s!"scene {w}") (fun p => s!"corners {p}") (fun p w => s!"list {p} {w}"),
    .steps 2 (fun _ => exI) (fun t p q => s!"states {t} {p} {q}") (fun t p => s!"forces {t} {p}"),
    .merge (fun p => s!"dat {p}") (fun p => s!"bounds {p}"),
    .split exI (fun w => s!"scene2 {w}") (fun p => s!"corners2 {p}") (fun p w => s!"list2 {p} {w}")]

theorem exPhases_good : (∀ f ∈ exPhases, Good 3 f) ∧ ∀ f ∈ exPhases, Heard true 3 f := by
  refine ⟨?_, ?_⟩ <;> intro f hf <;> simp [exPhases] at hf <;> rcases hf with rfl | rfl | rfl | rfl <;>
    first | exact exI_consistent | exact fun _ => exI_consistent | exact trivial | skip
  intro _ t p h1 h2
  have : p = 1 ∨ p = 2 := by omega
  rcases this with rfl | rfl <;> simp [exI]

/-- the first thing a worker receives is its scene -/
example {s s' : Net String} (h : Reach (run true 3 exPhases) false s) (hj : s.pc 1 = 1) (e : Step (run true 3 exPhases) false s s') (hpc : s'.pc 1 = 2) :
    s'.got 1 = s.got 1 ++ [(0, 11, "scene 1")] := by
  obtain ⟨m, h1, h2⟩ := C116_split_current (pre := []) (p := 1) (q := 0) (t := 11) (j := 1) (l := 2) exPhases_good.1 h (by simpa [run] using hj)
    (by simp [splitOps, sceneOps]) e (by omega)
  rcases h2 with h2 | h2 | h2
  · rw [h1, h2.2.2]; rfl
  · omega
  · omega

/-- the whole run cannot hang -/
example {s : Net String} (h : Reach (run true 3 exPhases) false s) (hp : ¬ Done (run true 3 exPhases) s 2) : ∃ s', Step (run true 3 exPhases) false s s' :=
  C116_no_deadlock_unbuffered exPhases_good.1 exPhases_good.2 h hp

end Verif.Mpi.Whole
