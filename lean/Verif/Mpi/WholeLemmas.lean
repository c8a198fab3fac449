import Verif.Mpi.Whole
import Verif.Mpi.ExchangeProps
import Mathlib.Data.List.Forall2
/-!
# Lemmas: programs put in sequence
-/
namespace Verif.Mpi.Whole
open Verif.Mpi.Net Verif.Mpi.Exchange

variable {M : Type}

/-! ## Maps of operations -/

section
variable {l : List Nat} {c q tag t : Nat}

theorem posts_map_post (hl : l.Nodup) : posts q tag (l.map fun k => (c, (Op.post k t : Op M))) = if t = tag ∧ q ∈ l then [c] else [] := by
  simp only [posts, List.filterMap_map, Function.comp_def]
  by_cases h : t = tag
  · simp only [h, and_true, true_and]; exact filterMap_eq_if hl q c
  · simp [h]

theorem waits_map_wait (hl : l.Nodup) : waits q tag (l.map fun k => (c, (Op.wait k t : Op M))) = if t = tag ∧ q ∈ l then [c] else [] := by
  simp only [waits, List.filterMap_map, Function.comp_def]
  by_cases h : t = tag
  · simp only [h, and_true, true_and]; exact filterMap_eq_if hl q c
  · simp [h]

theorem sends_map_send (hl : l.Nodup) {m : Nat → M} : sends q tag (l.map fun k => (c, Op.send k t (m k))) = if t = tag ∧ q ∈ l then [(c, m q)] else [] := by
  simp only [sends, List.filterMap_map, Function.comp_def]
  by_cases h : t = tag
  · simp only [h, and_true, true_and]
    rw [← filterMap_eq_if hl q (c, m q)]
    congr 1; funext k; split_ifs with e
    · rw [e]
    · rfl
  · simp [h]

@[simp] theorem posts_map_send {m : Nat → M} : posts q tag (l.map fun k => (c, Op.send k t (m k))) = [] := by simp [posts, List.filterMap_map]
@[simp] theorem posts_map_wait : posts q tag (l.map fun k => (c, (Op.wait k t : Op M))) = [] := by simp [posts, List.filterMap_map]
@[simp] theorem waits_map_send {m : Nat → M} : waits q tag (l.map fun k => (c, Op.send k t (m k))) = [] := by simp [waits, List.filterMap_map]
@[simp] theorem waits_map_post : waits q tag (l.map fun k => (c, (Op.post k t : Op M))) = [] := by simp [waits, List.filterMap_map]
@[simp] theorem sends_map_post : sends q tag (l.map fun k => (c, (Op.post k t : Op M))) = [] := by simp [sends, List.filterMap_map]
@[simp] theorem sends_map_wait : sends q tag (l.map fun k => (c, (Op.wait k t : Op M))) = [] := by simp [sends, List.filterMap_map]

end

@[simp] theorem posts_nil (q t : Nat) : posts q t ([] : List (Nat × Op M)) = [] := rfl
@[simp] theorem waits_nil (q t : Nat) : waits q t ([] : List (Nat × Op M)) = [] := rfl
@[simp] theorem sends_nil (q t : Nat) : sends q t ([] : List (Nat × Op M)) = [] := rfl

/-! ## Levels moved up -/

theorem posts_shift (q t d : Nat) (l : List (Nat × Op M)) : posts q t (shift d l) = (posts q t l).map (· + d) := by
  induction l with
  | nil => rfl
  | cons x l ih =>
    obtain ⟨k, o⟩ := x
    have h1 : shift d ((k, o) :: l) = [(k + d, o)] ++ shift d l := rfl
    have h2 : (k, o) :: l = [(k, o)] ++ l := rfl
    rw [h1, h2, posts_append, posts_append, ih, List.map_append]
    congr 1
    cases o <;> simp only [posts, List.filterMap_cons, List.filterMap_nil, List.map_nil]
    split_ifs <;> rfl

theorem waits_shift (q t d : Nat) (l : List (Nat × Op M)) : waits q t (shift d l) = (waits q t l).map (· + d) := by
  induction l with
  | nil => rfl
  | cons x l ih =>
    obtain ⟨k, o⟩ := x
    have h1 : shift d ((k, o) :: l) = [(k + d, o)] ++ shift d l := rfl
    have h2 : (k, o) :: l = [(k, o)] ++ l := rfl
    rw [h1, h2, waits_append, waits_append, ih, List.map_append]
    congr 1
    cases o <;> simp only [waits, List.filterMap_cons, List.filterMap_nil, List.map_nil]
    split_ifs <;> rfl

theorem sends_shift (q t d : Nat) (l : List (Nat × Op M)) : sends q t (shift d l) = (sends q t l).map fun x => (x.1 + d, x.2) := by
  induction l with
  | nil => rfl
  | cons x l ih =>
    obtain ⟨k, o⟩ := x
    have h1 : shift d ((k, o) :: l) = [(k + d, o)] ++ shift d l := rfl
    have h2 : (k, o) :: l = [(k, o)] ++ l := rfl
    rw [h1, h2, sends_append, sends_append, ih, List.map_append]
    congr 1
    cases o <;> simp only [sends, List.filterMap_cons, List.filterMap_nil, List.map_nil]
    split_ifs <;> rfl

theorem shift_append (d : Nat) (a b : List (Nat × Op M)) : shift d (a ++ b) = shift d a ++ shift d b := List.map_append
theorem shift_shift (d e : Nat) (a : List (Nat × Op M)) : shift d (shift e a) = shift (e + d) a := by
  simp [shift, Function.comp_def, Nat.add_assoc]
theorem shift_zero (a : List (Nat × Op M)) : shift 0 a = a := by simp [shift]
theorem shift_take (d j : Nat) (a : List (Nat × Op M)) : (shift d a).take j = shift d (a.take j) := by simp [shift, List.map_take]

/-- all levels of a program are below `L` -/
def Below (L : Nat) (P : Prog M) : Prop := ∀ p, ∀ x ∈ P p, x.1 < L

/-- one program after the other -/
def andThen (L : Nat) (P Q : Prog M) : Prog M := fun p => P p ++ shift L (Q p)

theorem mono_andThen {L : Nat} {P Q : Prog M} (hL : Below L P) (hP : ∀ p, (P p).Pairwise fun a b => a.1 ≤ b.1)
    (hQ : ∀ p, (Q p).Pairwise fun a b => a.1 ≤ b.1) (p : Nat) : (andThen L P Q p).Pairwise fun a b => a.1 ≤ b.1 := by
  unfold andThen
  rw [List.pairwise_append]
  refine ⟨hP p, ?_, ?_⟩
  · unfold shift
    rw [List.pairwise_map]
    exact (hQ p).imp fun h => by dsimp only; omega
  · intro a ha b hb
    unfold shift at hb
    obtain ⟨x, -, rfl⟩ := List.mem_map.mp hb
    have := hL p a ha
    dsimp only; omega

theorem forall₂_shift {d : Nat} {a b : List Nat} (h : List.Forall₂ (· < ·) a b) : List.Forall₂ (· < ·) (a.map (· + d)) (b.map (· + d)) := by
  induction h with
  | nil => exact .nil
  | cons h _ ih => exact .cons (Nat.add_lt_add_right h d) ih

theorem matched_andThen {L : Nat} {P Q : Prog M} (hL : Below L P) (hP : Matched P) (hQ : Matched Q) : Matched (andThen L P Q) := by
  refine ⟨mono_andThen hL hP.mono hQ.mono, fun p q t => ?_, fun p q t => ?_⟩
  · have := forall₂_shift (d := L) (hQ.post_send p q t)
    unfold andThen
    rw [posts_append, sends_append, List.map_append, posts_shift, sends_shift, List.map_map]
    exact List.rel_append (hP.post_send p q t) (by rw [List.map_map] at this; exact this)
  · have := forall₂_shift (d := L) (hQ.send_wait p q t)
    unfold andThen
    rw [waits_append, sends_append, List.map_append, waits_shift, sends_shift, List.map_map]
    exact List.rel_append (hP.send_wait p q t) (by rw [List.map_map] at this; exact this)

/-- levels of the messages to one process grow -/
theorem sends_mono {l : List (Nat × Op M)} (h : l.Pairwise fun a b => a.1 ≤ b.1) (q t : Nat) : (sends q t l).Pairwise fun a b => a.1 ≤ b.1 := by
  unfold sends
  refine List.Pairwise.filterMap _ ?_ h
  rintro ⟨a, oa⟩ ⟨b, ob⟩ hab x hx y hy
  cases oa <;> simp at hx
  cases ob <;> simp at hy
  obtain ⟨_, rfl⟩ := hx
  obtain ⟨_, rfl⟩ := hy
  exact hab

theorem fed_andThen {L : Nat} {P Q : Prog M} (hL : Below L P) (hP : Fed P) (hQ : Fed Q) : Fed (andThen L P Q) := by
  refine ⟨mono_andThen hL hP.mono hQ.mono, fun p q t k l hk => ?_⟩
  unfold andThen at hk ⊢
  rw [waits_append] at hk
  rw [sends_append]
  have hle : (waits p t (P q)).length ≤ (sends q t (P p)).length := by
    by_contra hcon
    have h1 : (sends q t (P p)).length < (waits p t (P q)).length := by omega
    obtain ⟨x, h2, -⟩ := hP.fed p q t _ _ (List.getElem?_eq_getElem h1)
    rw [List.getElem?_eq_none (Nat.le_refl _)] at h2; cases h2
  rcases Nat.lt_or_ge k (waits p t (P q)).length with h | h
  · rw [List.getElem?_append_left h] at hk
    obtain ⟨x, h1, h2⟩ := hP.fed p q t k l hk
    exact ⟨x, by rw [List.getElem?_append_left (by omega)]; exact h1, h2⟩
  · rw [List.getElem?_append_right h, waits_shift, List.getElem?_map] at hk
    obtain ⟨l', h1, rfl⟩ := Option.map_eq_some_iff.mp hk
    obtain ⟨x, h2, h3⟩ := hQ.fed p q t _ l' h1
    rcases Nat.lt_or_ge k (sends q t (P p)).length with h4 | h4
    · refine ⟨(sends q t (P p))[k], by rw [List.getElem?_append_left h4]; exact List.getElem?_eq_getElem h4, ?_⟩
      have h5 : (sends q t (P p))[k] ∈ sends q t (P p) := List.getElem_mem h4
      have : (sends q t (P p))[k].1 < L := hL p _ (mem_sends (m := (sends q t (P p))[k].2) h5)
      omega
    · rw [List.getElem?_append_right h4, sends_shift, List.getElem?_map]
      obtain ⟨h5, h6⟩ := List.getElem?_eq_some_iff.mp h2
      have h7 : k - (sends q t (P p)).length < (sends q t (Q p)).length := by omega
      refine ⟨_, by rw [List.getElem?_eq_getElem h7]; rfl, ?_⟩
      have hm := List.pairwise_iff_getElem.mp (sends_mono (hQ.mono p) q t)
      rcases Nat.lt_or_ge (k - (sends q t (P p)).length) (k - (waits p t (P q)).length) with h8 | h8
      · have := hm _ _ h7 h5 h8
        rw [h6] at this; dsimp only; omega
      · have h9 : k - (sends q t (P p)).length = k - (waits p t (P q)).length := by omega
        have : (sends q t (Q p))[k - (sends q t (P p)).length] = x := by
          rw [← h6]; congr 1
        rw [this]; dsimp only; omega

/-! ## The messages of a split -/

theorem mem_workers {n k : Nat} : k ∈ workers n ↔ 0 < k ∧ k < n := by
  unfold workers
  rw [List.mem_map]
  constructor
  · rintro ⟨a, ha, rfl⟩; rw [List.mem_range] at ha; omega
  · rintro ⟨h1, h2⟩; exact ⟨k - 1, by rw [List.mem_range]; omega, by omega⟩

theorem nodup_workers (n : Nat) : (workers n).Nodup := by
  unfold workers
  exact List.Nodup.map (fun a b h => by omega) List.nodup_range

section
variable {n : Nat} {I : Nat → Nat → List Nat} {scene corners : Nat → M} {lists : Nat → Nat → M}

theorem posts_single_post {q t c a b : Nat} : posts q t [(c, (Op.post a b : Op M))] = if a = q ∧ b = t then [c] else [] := by
  simp only [posts, List.filterMap_cons, List.filterMap_nil]; split_ifs <;> rfl
theorem waits_single_wait {q t c a b : Nat} : waits q t [(c, (Op.wait a b : Op M))] = if a = q ∧ b = t then [c] else [] := by
  simp only [waits, List.filterMap_cons, List.filterMap_nil]; split_ifs <;> rfl

theorem posts_pair {q t c d a b a' b' : Nat} : posts q t [(c, (Op.post a b : Op M)), (d, Op.wait a' b')] = if a = q ∧ b = t then [c] else [] := by
  simp only [posts, List.filterMap_cons, List.filterMap_nil]; split_ifs <;> rfl
theorem waits_pair {q t c d a b a' b' : Nat} : waits q t [(c, (Op.post a b : Op M)), (d, Op.wait a' b')] = if a' = q ∧ b' = t then [d] else [] := by
  simp only [waits, List.filterMap_cons, List.filterMap_nil]; split_ifs <;> rfl
theorem sends_pair {q t c d a b a' b' : Nat} : sends q t [(c, (Op.post a b : Op M)), (d, Op.wait a' b')] = [] := rfl

theorem posts_scene {p q t : Nat} : posts q t (sceneOps n p scene) = if p ≠ 0 ∧ q = 0 ∧ t = 11 then [0] else [] := by
  unfold sceneOps
  split_ifs <;> simp_all [posts_pair] <;> grind

theorem waits_scene {p q t : Nat} : waits q t (sceneOps n p scene) = if p ≠ 0 ∧ q = 0 ∧ t = 11 then [2] else [] := by
  unfold sceneOps
  split_ifs <;> simp_all [waits_pair] <;> grind

theorem sends_scene {p q t : Nat} : sends q t (sceneOps n p scene) = if p = 0 ∧ 0 < q ∧ q < n ∧ t = 11 then [(1, scene q)] else [] := by
  unfold sceneOps
  by_cases h : p = 0
  · rw [if_pos h, sends_map_send (nodup_workers n)]
    simp only [mem_workers, h, true_and]
    congr 1; simp only [eq_iff_iff]; constructor <;> intro h <;> (refine ⟨?_, ?_, ?_⟩ <;> omega)
  · simp [h, sends_pair]

theorem posts_size {p q t : Nat} : posts q t (sizeOps n p corners) = if 0 < q ∧ q < n ∧ q ≠ p ∧ t = 12 then [3] else [] := by
  unfold sizeOps
  rw [posts_append, posts_append, posts_map_post ((nodup_workers n).filter _), posts_map_wait]
  have : posts q t (if p = 0 then [] else ((List.range n).filter fun k => k ≠ p).map fun w => (4, Op.send w 12 (corners p))) = [] := by
    split_ifs
    · rfl
    · exact posts_map_send (m := fun _ => corners p)
  rw [this]
  simp only [List.append_nil, List.mem_filter, mem_workers, decide_eq_true_eq]
  congr 1; simp only [eq_iff_iff]; constructor <;> intro h
  · exact ⟨h.2.1.1, h.2.1.2, h.2.2, h.1.symm⟩
  · exact ⟨h.2.2.2.symm, ⟨h.1, h.2.1⟩, h.2.2.1⟩

theorem waits_size {p q t : Nat} : waits q t (sizeOps n p corners) = if 0 < q ∧ q < n ∧ q ≠ p ∧ t = 12 then [5] else [] := by
  unfold sizeOps
  rw [waits_append, waits_append, waits_map_wait ((nodup_workers n).filter _), waits_map_post]
  have : waits q t (if p = 0 then [] else ((List.range n).filter fun k => k ≠ p).map fun w => (4, Op.send w 12 (corners p))) = [] := by
    split_ifs
    · rfl
    · exact waits_map_send (m := fun _ => corners p)
  rw [this]
  simp only [List.nil_append, List.mem_filter, mem_workers, decide_eq_true_eq]
  congr 1; simp only [eq_iff_iff]; constructor <;> intro h
  · exact ⟨h.2.1.1, h.2.1.2, h.2.2, h.1.symm⟩
  · exact ⟨h.2.2.2.symm, ⟨h.1, h.2.1⟩, h.2.2.1⟩

theorem sends_size {p q t : Nat} : sends q t (sizeOps n p corners) = if 0 < p ∧ q < n ∧ q ≠ p ∧ t = 12 then [(4, corners p)] else [] := by
  unfold sizeOps
  rw [sends_append, sends_append, sends_map_post, sends_map_wait, List.nil_append, List.append_nil]
  by_cases h : p = 0
  · simp [h]
  · rw [if_neg h, sends_map_send (m := fun _ => corners p) (List.nodup_range.filter _)]
    simp only [List.mem_filter, List.mem_range, decide_eq_true_eq]
    congr 1; simp only [eq_iff_iff]; constructor <;> intro h'
    · exact ⟨by omega, h'.2.1, h'.2.2, h'.1.symm⟩
    · exact ⟨h'.2.2.2.symm, h'.2.1, h'.2.2.1⟩

theorem posts_mirror {p q t : Nat} {nb : List Nat} (hn : nb.Nodup) {m : Nat → M} :
    posts q t (mirrorOps n p nb m) = if p ≠ 0 ∧ t = 16 then (if q = 0 then [6] else if q ∈ nb then [9] else []) else [] := by
  unfold mirrorOps
  by_cases h : p = 0
  · simp [h]
  · rw [if_neg h, posts_append, posts_append, posts_append, posts_pair, posts_map_post (hn.filter _), posts_map_send, posts_map_wait]
    simp only [List.mem_filter, decide_eq_true_eq, List.append_nil]
    by_cases ht : t = 16 <;> by_cases hq : q = 0 <;> by_cases hm : q ∈ nb <;> simp [h, ht, hq, hm, eq_comm]
    all_goals grind

theorem waits_mirror {p q t : Nat} {nb : List Nat} (hn : nb.Nodup) {m : Nat → M} :
    waits q t (mirrorOps n p nb m) = if p ≠ 0 ∧ t = 16 then (if q = 0 then [8] else if q ∈ nb then [11] else []) else [] := by
  unfold mirrorOps
  by_cases h : p = 0
  · simp [h]
  · rw [if_neg h, waits_append, waits_append, waits_append, waits_pair, waits_map_wait (hn.filter _), waits_map_send, waits_map_post]
    simp only [List.mem_filter, decide_eq_true_eq, List.append_nil]
    by_cases ht : t = 16 <;> by_cases hq : q = 0 <;> by_cases hm : q ∈ nb <;> simp [h, ht, hq, hm, eq_comm]
    all_goals grind

theorem sends_mirror {p q t : Nat} {nb : List Nat} (hn : nb.Nodup) {m : Nat → M} :
    sends q t (mirrorOps n p nb m) =
      if q ≠ 0 ∧ t = 16 then (if p = 0 then (if q < n then [(7, m q)] else []) else if q ∈ nb then [(10, m q)] else []) else [] := by
  unfold mirrorOps
  by_cases h : p = 0
  · rw [if_pos h, sends_map_send (nodup_workers n)]
    simp only [mem_workers]
    by_cases ht : t = 16 <;> by_cases hq : q = 0 <;> by_cases hm : q < n <;> simp [h, ht, hq, hm, eq_comm]
    all_goals grind
  · rw [if_neg h, sends_append, sends_append, sends_append, sends_pair, sends_map_post, sends_map_send (hn.filter _), sends_map_wait]
    simp only [List.mem_filter, decide_eq_true_eq, List.append_nil, List.nil_append]
    by_cases ht : t = 16 <;> by_cases hq : q = 0 <;> by_cases hm : q ∈ nb <;> simp [h, ht, hq, hm, eq_comm]
    all_goals grind

end

/-! ## Levels -/

/-- levels grow and lie between `a` and `b` -/
def Lev (a b : Nat) (l : List (Nat × Op M)) : Prop := l.Pairwise (fun x y => x.1 ≤ y.1) ∧ ∀ x ∈ l, a ≤ x.1 ∧ x.1 ≤ b

theorem Lev.append {a b c d : Nat} {l m : List (Nat × Op M)} (h : Lev a b l) (h' : Lev c d m) (h1 : b ≤ c) (h2 : a ≤ c) (h3 : b ≤ d) : Lev a d (l ++ m) := by
  refine ⟨List.pairwise_append.mpr ⟨h.1, h'.1, fun x hx y hy => ?_⟩, fun x hx => ?_⟩
  · have := h.2 x hx; have := h'.2 y hy; omega
  · rcases List.mem_append.mp hx with hx | hx
    · have := h.2 x hx; omega
    · have := h'.2 x hx; omega

theorem Lev.const {α : Type} (l : List α) (f : α → Op M) (c : Nat) : Lev c c (l.map fun k => (c, f k)) := by
  refine ⟨?_, ?_⟩
  · rw [List.pairwise_map]
    exact List.pairwise_of_forall fun _ _ => Nat.le_refl _
  · intro x hx
    obtain ⟨k, -, rfl⟩ := List.mem_map.mp hx
    exact ⟨Nat.le_refl _, Nat.le_refl _⟩

theorem Lev.nil (a b : Nat) : Lev a b ([] : List (Nat × Op M)) := ⟨.nil, fun _ h => by cases h⟩

theorem Lev.two {a b : Nat} {o o' : Op M} (h : a ≤ b) : Lev a b [(a, o), (b, o')] := by
  refine ⟨by simp [h], ?_⟩
  intro x hx
  simp at hx
  rcases hx with rfl | rfl <;> exact ⟨by simp [h], by simp [h]⟩

theorem Lev.wide {a b c d : Nat} {l : List (Nat × Op M)} (h : Lev a b l) (h1 : c ≤ a) (h2 : b ≤ d) : Lev c d l :=
  ⟨h.1, fun x hx => by have := h.2 x hx; omega⟩

section
variable {n : Nat} {I : Nat → Nat → List Nat} {scene corners : Nat → M} {lists : Nat → Nat → M} {dat bounds : Nat → M}

theorem split_levels (p : Nat) : Lev 0 11 (splitOps n I scene corners lists p) := by
  unfold splitOps
  split_ifs
  · refine Lev.append (b := 5) (c := 6) (d := 11) (Lev.append (b := 2) (c := 3) (d := 5) ?_ ?_ (by omega) (by omega) (by omega)) ?_ (by omega) (by omega) (by omega)
    · unfold sceneOps
      split_ifs
      · exact (Lev.const _ _ 1).wide (by omega) (by omega)
      · exact Lev.two (by omega)
    · unfold sizeOps
      refine Lev.append (Lev.append (Lev.const _ _ 3) (c := 4) (d := 4) ?_ (by omega) (by omega) (by omega)) (Lev.const _ _ 5) (by omega) (by omega) (by omega)
      split_ifs
      · exact Lev.nil _ _
      · exact Lev.const _ _ 4
    · unfold mirrorOps
      split_ifs
      · exact (Lev.const _ _ 7).wide (by omega) (by omega)
      · refine Lev.append (Lev.append (Lev.append (Lev.two (by omega)) (Lev.const _ _ 9) ?_ ?_ ?_) (Lev.const _ _ 10) ?_ ?_ ?_) (Lev.const _ _ 11) ?_ ?_ ?_ <;> omega
  · exact Lev.nil _ _

theorem merge_levels (p : Nat) : Lev 0 (6 * n + 5) (mergeOps n dat bounds p) := by
  unfold mergeOps
  split_ifs with h1 h2
  · refine ⟨?_, ?_⟩
    · rw [List.pairwise_flatMap]
      refine ⟨fun a _ => by simp, ?_⟩
      unfold workers
      rw [List.pairwise_map]
      refine List.pairwise_lt_range.imp fun hab x hx y hy => ?_
      simp at hx hy
      rcases hx with rfl | rfl | rfl | rfl <;> rcases hy with rfl | rfl | rfl | rfl <;> simp <;> omega
    · intro x hx
      obtain ⟨w, hw, hx⟩ := List.mem_flatMap.mp hx
      have := mem_workers.mp hw
      simp at hx
      rcases hx with rfl | rfl | rfl | rfl <;> simp <;> omega
  · exact (Lev.two (by omega)).wide (by omega) (by omega)
  · exact Lev.nil _ _

theorem matched_split (hI : Consistent n I) : Matched (splitOps n I scene corners lists) := by
  refine ⟨fun p => (split_levels p).1, fun p q t => ?_, fun p q t => ?_⟩
  · unfold splitOps
    by_cases hq : q < n <;> by_cases hp : p < n
    · rw [if_pos hq, if_pos hp, posts_append, posts_append, posts_scene, posts_size, posts_mirror (hI.nodup q)]
      rw [sends_append, sends_append, sends_scene, sends_size, sends_mirror (hI.nodup p)]
      have h1 : p ≠ 0 → q ≠ 0 → (p ∈ I q q ↔ q ∈ I p p) := fun _ _ => ⟨fun h => (hI.sym q p hq h).2.2, fun h => (hI.sym p q hp h).2.2⟩
      have h2 : p ∈ I q q → p ≠ q := fun h => (hI.sym q p hq h).2.1
      rcases Nat.eq_zero_or_pos p with rfl | hp0 <;> rcases Nat.eq_zero_or_pos q with rfl | hq0
      · simp
      · have hq0' : q ≠ 0 := by omega
        by_cases ht : t = 11
        · simp [hq0, hq0', hq, ht]
        · by_cases ht' : t = 16 <;> simp [hq0, hq0', hq, ht, ht']
      · have hp0' : p ≠ 0 := by omega
        by_cases ht : t = 12 <;> simp [hp0, hp0', hp, ht, hq, hp0'.symm]
      · have hp0' : p ≠ 0 := by omega
        have hq0' : q ≠ 0 := by omega
        have h1 := h1 hp0' hq0'
        by_cases hpq : p = q
        · subst hpq
          have h3 : p ∉ I p p := fun h => h2 h rfl
          simp [hp0', h3]
        · have hpq' : q ≠ p := fun e => hpq e.symm
          by_cases ht : t = 12
          · simp [ht, hp0, hp, hq, hpq, hpq', hp0', hq0']
          · by_cases ht' : t = 16
            · by_cases hm : q ∈ I p p <;> simp [ht, ht', hp0', hq0', h1, hm]
            · simp [ht, ht', hp0', hq0']
    · rw [if_pos hq, if_neg hp, posts_append, posts_append, posts_scene, posts_size, posts_mirror (hI.nodup q)]
      have h1 : p ∉ I q q := fun h => hp (hI.sym q p hq h).1
      have h2 : p ≠ 0 := by omega
      simp [hp, h1, h2]
    · rw [if_neg hq, if_pos hp, sends_append, sends_append, sends_scene, sends_size, sends_mirror (hI.nodup p)]
      have h1 : q ∉ I p p := fun h => hq (hI.sym p q hp h).1
      simp [hq, h1]
    · rw [if_neg hq, if_neg hp]; simp
  · unfold splitOps
    by_cases hq : q < n <;> by_cases hp : p < n
    · rw [if_pos hq, if_pos hp, waits_append, waits_append, waits_scene, waits_size, waits_mirror (hI.nodup q)]
      rw [sends_append, sends_append, sends_scene, sends_size, sends_mirror (hI.nodup p)]
      have h1 : p ≠ 0 → q ≠ 0 → (p ∈ I q q ↔ q ∈ I p p) := fun _ _ => ⟨fun h => (hI.sym q p hq h).2.2, fun h => (hI.sym p q hp h).2.2⟩
      have h2 : p ∈ I q q → p ≠ q := fun h => (hI.sym q p hq h).2.1
      rcases Nat.eq_zero_or_pos p with rfl | hp0 <;> rcases Nat.eq_zero_or_pos q with rfl | hq0
      · simp
      · have hq0' : q ≠ 0 := by omega
        by_cases ht : t = 11
        · simp [hq0, hq0', hq, ht]
        · by_cases ht' : t = 16 <;> simp [hq0, hq0', hq, ht, ht']
      · have hp0' : p ≠ 0 := by omega
        by_cases ht : t = 12 <;> simp [hp0, hp0', hp, ht, hq, hp0'.symm]
      · have hp0' : p ≠ 0 := by omega
        have hq0' : q ≠ 0 := by omega
        have h1 := h1 hp0' hq0'
        by_cases hpq : p = q
        · subst hpq
          have h3 : p ∉ I p p := fun h => h2 h rfl
          simp [hp0', h3]
        · have hpq' : q ≠ p := fun e => hpq e.symm
          by_cases ht : t = 12
          · simp [ht, hp0, hp, hq, hpq, hpq', hp0', hq0']
          · by_cases ht' : t = 16
            · by_cases hm : q ∈ I p p <;> simp [ht, ht', hp0', hq0', h1, hm]
            · simp [ht, ht', hp0', hq0']
    · rw [if_pos hq, if_neg hp, waits_append, waits_append, waits_scene, waits_size, waits_mirror (hI.nodup q)]
      have h1 : p ∉ I q q := fun h => hp (hI.sym q p hq h).1
      have h2 : p ≠ 0 := by omega
      simp [hp, h1, h2]
    · rw [if_neg hq, if_pos hp, sends_append, sends_append, sends_scene, sends_size, sends_mirror (hI.nodup p)]
      have h1 : q ∉ I p p := fun h => hq (hI.sym p q hp h).1
      simp [hq, h1]
    · rw [if_neg hq, if_neg hp]; simp

/-! ## The messages of a merge -/

theorem posts_merge {p q t : Nat} : posts q t (mergeOps n dat bounds p) =
    if p = 0 ∧ 0 < q ∧ q < n then (if t = 17 then [6 * q] else if t = 18 then [6 * q + 3] else []) else [] := by
  unfold mergeOps
  by_cases hp : p = 0
  · subst hp
    by_cases h0 : 0 < n
    · rw [if_pos h0, if_pos rfl, posts_flatMap]
      have h1 : ∀ w, posts q t [(6 * w, (Op.post w 17 : Op M)), (6 * w + 2, Op.wait w 17), (6 * w + 3, Op.post w 18), (6 * w + 5, Op.wait w 18)] =
          if w = q then (if t = 17 then [6 * w] else if t = 18 then [6 * w + 3] else []) else [] := by
        intro w
        by_cases hw : w = q
        · subst hw
          by_cases h17 : t = 17
          · subst h17; simp [posts]
          · by_cases h18 : t = 18
            · subst h18; simp [posts]
            · simp [posts, h17, h18, eq_comm]
        · simp [posts, hw]
      simp only [h1]
      by_cases h17 : t = 17
      · simp only [h17, if_true]
        rw [flatMap_eq_if (nodup_workers n)]; simp [mem_workers]
      · by_cases h18 : t = 18
        · simp only [h18, if_true]
          have : ∀ w, (if w = q then if (18:Nat) = 17 then [6 * w] else [6 * w + 3] else []) = if w = q then [6 * w + 3] else [] := by
            intro w; simp
          simp only [this]
          rw [flatMap_eq_if (nodup_workers n)]; simp [mem_workers]
        · simp [h17, h18]
    · have : ¬ q < n := by omega
      simp [h0, this]
  · by_cases h : p < n
    · simp [hp, h, posts]
    · simp [hp, h]

theorem waits_merge {p q t : Nat} : waits q t (mergeOps n dat bounds p) =
    if p = 0 ∧ 0 < q ∧ q < n then (if t = 17 then [6 * q + 2] else if t = 18 then [6 * q + 5] else []) else [] := by
  unfold mergeOps
  by_cases hp : p = 0
  · subst hp
    by_cases h0 : 0 < n
    · rw [if_pos h0, if_pos rfl, waits_flatMap]
      have h1 : ∀ w, waits q t [(6 * w, (Op.post w 17 : Op M)), (6 * w + 2, Op.wait w 17), (6 * w + 3, Op.post w 18), (6 * w + 5, Op.wait w 18)] =
          if w = q then (if t = 17 then [6 * w + 2] else if t = 18 then [6 * w + 5] else []) else [] := by
        intro w
        by_cases hw : w = q
        · subst hw
          by_cases h17 : t = 17
          · subst h17; simp [waits]
          · by_cases h18 : t = 18
            · subst h18; simp [waits]
            · simp [waits, h17, h18, eq_comm]
        · simp [waits, hw]
      simp only [h1]
      by_cases h17 : t = 17
      · simp only [h17, if_true]
        rw [flatMap_eq_if (nodup_workers n)]; simp [mem_workers]
      · by_cases h18 : t = 18
        · simp only [h18, if_true]
          have : ∀ w, (if w = q then if (18:Nat) = 17 then [6 * w + 2] else [6 * w + 5] else []) = if w = q then [6 * w + 5] else [] := by
            intro w; simp
          simp only [this]
          rw [flatMap_eq_if (nodup_workers n)]; simp [mem_workers]
        · simp [h17, h18]
    · have : ¬ q < n := by omega
      simp [h0, this]
  · by_cases h : p < n
    · simp [hp, h, waits]
    · simp [hp, h]

theorem sends_merge {p q t : Nat} : sends q t (mergeOps n dat bounds p) =
    if q = 0 ∧ 0 < p ∧ p < n then (if t = 17 then [(6 * p + 1, dat p)] else if t = 18 then [(6 * p + 4, bounds p)] else []) else [] := by
  unfold mergeOps
  by_cases hp : p = 0
  · subst hp
    by_cases h0 : 0 < n
    · rw [if_pos h0, if_pos rfl, sends_flatMap]
      simp [sends]
    · simp [h0]
  · by_cases h : p < n
    · rw [if_pos h, if_neg hp]
      by_cases hq : q = 0
      · subst hq
        by_cases h17 : t = 17
        · subst h17; simp [sends, h]; omega
        · by_cases h18 : t = 18
          · subst h18; simp [sends, h]; omega
          · simp [sends, h17, h18, eq_comm]
      · simp [sends, hq, eq_comm]
    · simp [h]

theorem matched_merge : Matched (mergeOps n dat bounds) := by
  refine ⟨fun p => (merge_levels p).1, fun p q t => ?_, fun p q t => ?_⟩
  · rw [posts_merge, sends_merge]
    split_ifs <;> simp
  · rw [waits_merge, sends_merge]
    split_ifs <;> simp

end

end Verif.Mpi.Whole
