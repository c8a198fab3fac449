import Verif.Pack.Ops
import Mathlib.Data.List.Basic
import Mathlib.Tactic.Linarith

/-!
# C149: the clumps of a packing
-/
namespace Verif.Pack
open scoped Classical

/-- The map has one entry for each key, in ascending order. -/
def Keyed (t : List (Int × List Nat)) : Prop := t.Pairwise fun a b => a.1 < b.1

theorem addTo_mem (id : Int) (i : Nat) (t : List (Int × List Nat)) (ht : Keyed t) :
    Keyed (addTo id i t) ∧ ∀ k m, (k, m) ∈ addTo id i t ↔
      (k ≠ id ∧ (k, m) ∈ t) ∨ (k = id ∧ ((∃ m0, (id, m0) ∈ t ∧ m = m0 ++ [i]) ∨ ((∀ m0, (id, m0) ∉ t) ∧ m = [i]))) := by
  induction t with
  | nil => simp [addTo, Keyed]
  | cons a t ih =>
    obtain ⟨k0, m0⟩ := a
    rw [Keyed, List.pairwise_cons] at ht
    obtain ⟨ha, ht'⟩ := ht
    have hlt : ∀ k m, (k, m) ∈ t → k0 < k := fun k m h => ha _ h
    obtain ⟨ih1, ih2⟩ := ih ht'
    rw [addTo]
    by_cases h1 : id < k0
    · rw [if_pos h1]
      have nid : ∀ m, (id, m) ∉ (k0, m0) :: t := by
        intro m h
        rcases List.mem_cons.mp h with h | h
        · cases h; omega
        · have := hlt _ _ h; omega
      constructor
      · rw [Keyed, List.pairwise_cons, List.pairwise_cons]
        refine ⟨?_, ha, ht'⟩
        intro b hb
        rcases List.mem_cons.mp hb with rfl | hb
        · exact h1
        · exact h1.trans (ha b hb)
      · intro k m
        rw [List.mem_cons]
        constructor
        · rintro (h | h)
          · cases h; right; exact ⟨rfl, .inr ⟨nid, rfl⟩⟩
          · left
            refine ⟨?_, h⟩
            rintro rfl
            exact nid _ h
        · rintro (⟨h, h'⟩ | ⟨rfl, ⟨m', h', -⟩ | ⟨-, rfl⟩⟩)
          · right; exact h'
          · exact absurd h' (nid _)
          · left; rfl
    · rw [if_neg h1]
      by_cases h2 : id = k0
      · rw [if_pos h2]
        subst h2
        constructor
        · rw [Keyed, List.pairwise_cons]
          exact ⟨fun b hb => ha b hb, ht'⟩
        · intro k m
          rw [List.mem_cons]
          constructor
          · rintro (h | h)
            · cases h; right; exact ⟨rfl, .inl ⟨m0, List.mem_cons_self .., rfl⟩⟩
            · left; exact ⟨(hlt _ _ h).ne', List.mem_cons_of_mem _ h⟩
          · rintro (⟨h, h'⟩ | ⟨rfl, ⟨m', h', rfl⟩ | ⟨h', -⟩⟩)
            · rcases List.mem_cons.mp h' with h' | h'
              · cases h'; exact absurd rfl h
              · right; exact h'
            · rcases List.mem_cons.mp h' with h' | h'
              · cases h'; left; rfl
              · exact absurd (hlt _ _ h') (lt_irrefl _)
            · exact absurd (List.mem_cons_self ..) (h' m0)
      · rw [if_neg h2]
        constructor
        · rw [Keyed, List.pairwise_cons]
          refine ⟨?_, ih1⟩
          rintro ⟨k, m⟩ hb
          rcases (ih2 k m).mp hb with ⟨-, h⟩ | ⟨rfl, -⟩
          · exact ha _ h
          · show k0 < k
            omega
        · intro k m
          rw [List.mem_cons, ih2]
          constructor
          · rintro (h | ⟨h, h'⟩ | ⟨rfl, ⟨m', h', rfl⟩ | ⟨h', rfl⟩⟩)
            · cases h; left; exact ⟨fun h => h2 h.symm, List.mem_cons_self ..⟩
            · left; exact ⟨h, List.mem_cons_of_mem _ h'⟩
            · right; exact ⟨rfl, .inl ⟨m', List.mem_cons_of_mem _ h', rfl⟩⟩
            · right
              refine ⟨rfl, .inr ⟨fun m' hm => ?_, rfl⟩⟩
              rcases List.mem_cons.mp hm with hm | hm
              · cases hm; exact h2 rfl
              · exact h' m' hm
          · rintro (⟨h, h'⟩ | ⟨rfl, ⟨m', h', rfl⟩ | ⟨h', rfl⟩⟩)
            · rcases List.mem_cons.mp h' with h' | h'
              · cases h'; left; rfl
              · right; left; exact ⟨h, h'⟩
            · rcases List.mem_cons.mp h' with h' | h'
              · cases h'; exact absurd rfl h2
              · right; right; exact ⟨rfl, .inl ⟨m', h', rfl⟩⟩
            · right; right
              exact ⟨rfl, .inr ⟨fun m' hm => h' m' (List.mem_cons_of_mem _ hm), rfl⟩⟩

/-- The indices of the spheres with the given property, in ascending order. -/
def indices (l : List Sph) (p : Int → Bool) : List Nat := (List.range l.length).filter fun i => (l[i]?.map fun s => p s.clumpId) = some true

theorem indices_append (l : List Sph) (s : Sph) (p : Int → Bool) :
    indices (l ++ [s]) p = indices l p ++ if p s.clumpId then [l.length] else [] := by
  rw [indices, List.length_append, List.length_singleton, List.range_succ, List.filter_append]
  congr 1
  · rw [indices]
    apply List.filter_congr
    intro i hi
    rw [List.getElem?_append_left (List.mem_range.mp hi)]
  · by_cases h : p s.clumpId <;> simp [h]

/-- What holds of the lists after the spheres of `l`. -/
def ClumpInv (l : List Sph) (acc : List Nat × List (Int × List Nat)) : Prop :=
  acc.1 = indices l (fun k => decide (k < 0)) ∧ Keyed acc.2 ∧
  ∀ k m, (k, m) ∈ acc.2 ↔ 0 ≤ k ∧ m = indices l (fun j => decide (j = k)) ∧ m ≠ []

theorem clumpsFrom_inv (l pre : List Sph) (acc : List Nat × List (Int × List Nat)) (h : ClumpInv pre acc) :
    ClumpInv (pre ++ l) (clumpsFrom pre.length l acc) := by
  induction l generalizing pre acc with
  | nil => rw [List.append_nil]; exact h
  | cons s l ih =>
    obtain ⟨alone, clumps⟩ := acc
    obtain ⟨h1, h2, h3⟩ := h
    simp only at h1 h2 h3
    rw [clumpsFrom]
    have hl : (pre ++ [s]).length = pre.length + 1 := by simp
    have ha : pre ++ s :: l = (pre ++ [s]) ++ l := by simp
    rw [ha, ← hl]
    by_cases hs : s.clumpId < 0
    · rw [if_pos hs]
      apply ih
      refine ⟨?_, h2, ?_⟩
      · simp only [indices_append, h1, hs, decide_true, if_true]
      · intro k m
        rw [h3, indices_append]
        constructor
        · rintro ⟨a, b, c⟩
          refine ⟨a, ?_, c⟩
          rw [if_neg (by simp; omega), List.append_nil]; exact b
        · rintro ⟨a, b, c⟩
          rw [if_neg (by simp; omega), List.append_nil] at b
          exact ⟨a, b, c⟩
    · rw [if_neg hs]
      apply ih
      obtain ⟨a1, a2⟩ := addTo_mem s.clumpId pre.length clumps h2
      refine ⟨?_, a1, ?_⟩
      · simp only [indices_append, h1, hs, decide_false, Bool.false_eq_true, if_false, List.append_nil]
      · intro k m
        simp only
        rw [a2, indices_append]
        by_cases hk : k = s.clumpId
        · subst hk
          simp only [ne_eq, not_true_eq_false, false_and, true_and, false_or, decide_true, if_true]
          constructor
          · rintro (⟨m0, hm0, rfl⟩ | ⟨hm0, rfl⟩)
            · obtain ⟨-, e, -⟩ := (h3 _ _).mp hm0
              exact ⟨not_lt.mp hs, by rw [e], by simp⟩
            · refine ⟨not_lt.mp hs, ?_, by simp⟩
              by_contra hne
              refine hm0 _ ((h3 _ _).mpr ⟨not_lt.mp hs, rfl, ?_⟩)
              intro h0
              rw [h0] at hne
              simp at hne
          · rintro ⟨hk0, rfl, -⟩
            by_cases h0 : indices pre (fun j => decide (j = s.clumpId)) = []
            · right
              refine ⟨fun m0 hm0 => ?_, by rw [h0]; rfl⟩
              obtain ⟨-, e, e'⟩ := (h3 _ _).mp hm0
              rw [e] at e'
              exact e' h0
            · left
              exact ⟨_, (h3 _ _).mpr ⟨hk0, rfl, h0⟩, rfl⟩
        · rw [if_neg (by simp; exact fun h => hk h.symm), List.append_nil]
          simp only [hk, ne_eq, not_false_eq_true, true_and, false_and, or_false]
          exact h3 k m

theorem getClumps_inv (l : List Sph) : ClumpInv l (clumpsFrom 0 l ([], [])) := by
  have := clumpsFrom_inv l [] ([], []) ⟨by simp [indices], List.Pairwise.nil, fun k m => by simp [indices]⟩
  simpa using this

theorem mem_indices {l : List Sph} {p : Int → Bool} {i : Nat} : i ∈ indices l p ↔ ∃ s, l[i]? = some s ∧ p s.clumpId = true := by
  rw [indices, List.mem_filter, List.mem_range, decide_eq_true_eq, Option.map_eq_some_iff]
  constructor
  · rintro ⟨-, h⟩; exact h
  · rintro ⟨s, h, h'⟩
    exact ⟨(List.getElem?_eq_some_iff.mp h).1, s, h, h'⟩

theorem indices_sorted (l : List Sph) (p : Int → Bool) : (indices l p).Pairwise (· < ·) :=
  List.pairwise_lt_range.filter _

/-- C149.  `getClumps` sorts all spheres: those with a negative id stand alone, and each non-negative id that occurs has one list, which
is made of exactly the spheres with this id, in ascending order; lists come in the order of the ids. -/
theorem C149_clumps (l : List Sph) :
    (∀ i, i ∈ (getClumps l).1 ↔ ∃ s, l[i]? = some s ∧ s.clumpId < 0) ∧ (getClumps l).1.Pairwise (· < ·) ∧
    (∀ m ∈ (getClumps l).2, m ≠ [] ∧ m.Pairwise (· < ·) ∧ ∃ k : Int, 0 ≤ k ∧ ∀ i, i ∈ m ↔ ∃ s, l[i]? = some s ∧ s.clumpId = k) ∧
    (∀ (i : Nat) (s : Sph), l[i]? = some s → 0 ≤ s.clumpId → ∃ m ∈ (getClumps l).2, i ∈ m) ∧
    (getClumps l).2.Pairwise fun m m' => ∀ (i j : Nat) (s t : Sph), i ∈ m → j ∈ m' → l[i]? = some s → l[j]? = some t → s.clumpId < t.clumpId := by
  obtain ⟨h1, h2, h3⟩ := getClumps_inv l
  have e1 : (getClumps l).1 = (clumpsFrom 0 l ([], [])).1 := rfl
  have e2 : (getClumps l).2 = (clumpsFrom 0 l ([], [])).2.map Prod.snd := rfl
  rw [e1, e2, h1]
  refine ⟨fun i => by simp [mem_indices], indices_sorted _ _, ?_, ?_, ?_⟩
  · intro m hm
    obtain ⟨⟨k, m⟩, hkm, rfl⟩ := List.mem_map.mp hm
    obtain ⟨a, b, c⟩ := (h3 k m).mp hkm
    refine ⟨c, ?_, k, a, ?_⟩
    · simp only [b]; exact indices_sorted _ _
    · intro i; simp only [b]; simp [mem_indices]
  · intro i s hi hs
    refine ⟨indices l (fun j => decide (j = s.clumpId)), List.mem_map.mpr ⟨(s.clumpId, _), (h3 _ _).mpr ⟨hs, rfl, ?_⟩, rfl⟩, ?_⟩
    · exact List.ne_nil_of_mem (mem_indices.mpr ⟨s, hi, by simp⟩)
    · exact mem_indices.mpr ⟨s, hi, by simp⟩
  · rw [List.pairwise_map]
    refine List.Pairwise.imp_of_mem ?_ h2
    rintro ⟨k, m⟩ ⟨k', m'⟩ hm hm' hlt i j s t hi hj hs ht
    obtain ⟨-, b, -⟩ := (h3 _ _).mp hm
    obtain ⟨-, b', -⟩ := (h3 _ _).mp hm'
    simp only [b] at hi
    simp only [b'] at hj
    obtain ⟨s', e, e'⟩ := mem_indices.mp hi
    obtain ⟨t', f, f'⟩ := mem_indices.mp hj
    rw [hs] at e
    rw [ht] at f
    cases e
    cases f
    simp only [decide_eq_true_eq] at e' f'
    rw [e', f']
    exact hlt

/-- Two clumps, numbered 3 and 1, and a sphere standing alone. -/
example : getClumps [{ c := 0, r := 1, clumpId := 3 }, { c := 0, r := 1 }, { c := 0, r := 1, clumpId := 1 }, { c := 0, r := 1, clumpId := 3 }] =
    ([1], [[2], [0, 3]]) := by
  simp [getClumps, clumpsFrom, addTo]

end Verif.Pack
