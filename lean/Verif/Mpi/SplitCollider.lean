import Verif.Mpi.SplitExamples
/-!
# The collider gives the interactions assumed for the split

`IsIntrs` is what the first run of the sweep-and-prune collider (`Verif/Collide`) leaves.
-/
namespace Verif.Collide
open Verif

variable {R : Type} [LinearOrder R] [Zero R]

/-- no two entries are for the same pair -/
def Distinct (I : Ints) : Prop := I.Pairwise fun e f => f.is e.a e.b = false

theorem Distinct.ins {I : Ints} (h : Distinct I) (i j : Nat) : Distinct (ins I i j) := by
  unfold Collide.ins
  split_ifs with hh
  · exact h
  · refine List.pairwise_append.mpr ⟨h, List.pairwise_singleton _ _, ?_⟩
    intro e he f hf
    rw [List.mem_singleton] at hf; subst hf
    have : ¬ e.is i j = true := fun h' => hh (List.any_eq_true.mpr ⟨e, he, h'⟩)
    unfold Ent.is at this ⊢
    rw [← Bool.not_eq_true]
    intro h'; apply this
    simp only [Bool.or_eq_true, Bool.and_eq_true, decide_eq_true_eq] at h' ⊢
    rcases h' with ⟨h1, h2⟩ | ⟨h1, h2⟩
    · exact Or.inl ⟨h1.symm, h2.symm⟩
    · exact Or.inr ⟨h2.symm, h1.symm⟩

theorem Distinct.sweepFrom {C : Cx R} {x : Bd R} {ys : List (Bd R)} {I J : Ints} (h : Distinct I) (hr : sweepFrom C x I ys = .ok J) : Distinct J := by
  induction ys generalizing I with
  | nil => unfold Collide.sweepFrom at hr; cases hr; exact h
  | cons y ys ih =>
    unfold Collide.sweepFrom at hr
    split_ifs at hr
    · cases hr; exact h
    · cases hw : wanted C x.id y.id with
      | ok d =>
        rw [hw] at hr
        cases d
        · exact ih h hr
        · exact ih (h.ins _ _) hr
      | throws => rw [hw] at hr; cases hr
      | ub => rw [hw] at hr; cases hr
    · exact ih h hr

theorem Distinct.sweep {C : Cx R} {v : List (Bd R)} {I J : Ints} (h : Distinct I) (hr : sweep C I v = .ok J) : Distinct J := by
  induction v generalizing I with
  | nil => unfold Collide.sweep at hr; cases hr; exact h
  | cons y ys ih =>
    unfold Collide.sweep at hr
    split_ifs at hr
    · cases hw : Collide.sweepFrom C y I ys with
      | ok d => rw [hw] at hr; exact ih (h.sweepFrom hw) hr
      | throws => rw [hw] at hr; cases hr
      | ub => rw [hw] at hr; cases hr
    · exact ih h hr

/-- the first run leaves at most one entry for each pair -/
theorem Distinct.first {P : Par R} {S : Scn R} {dirty : Bool} {c c' : Col R} {I J : Ints} (hc : Fresh c) (hn : 0 < S.n) (h : Distinct I)
    (hr : action P S dirty c I = .ok (c', J)) : Distinct J := by
  unfold action at hr
  have hinit : (c.doSort || (resize (dropPeriodic c) S.n).2 || dirty) = true := by
    have : (resize (dropPeriodic c) S.n).2 = true := by
      have h1 : (dropPeriodic c).size = 0 := by unfold dropPeriodic; split_ifs <;> exact hc.1
      unfold resize
      rw [h1, if_pos (by omega)]
      simp
    simp [this]
  simp only [hinit] at hr
  split at hr
  · rename_i c2 _
    split at hr
    · rename_i I' hI'
      have hd : Distinct I' := by
        unfold condErase at hI'
        split_ifs at hI'
        cases hI'; exact h.filter _
      unfold sortCollide at hr
      simp only [Bool.not_true, Bool.false_and, Bool.false_eq_true, if_false, if_true] at hr
      split at hr
      · rename_i hs; cases hr; exact hd.sweep hs
      · cases hr
      · cases hr
    · cases hr
    · cases hr
  · cases hr
  · cases hr

end Verif.Collide

namespace Verif.Mpi.Split
open Verif Verif.Collide

variable {R : Type} [Field R] [LinearOrder R]

/-- the scene as the collider of process `p` sees it, with `N` slots for bodies -/
def scn (S : Sc R) (p N : Nat) (pos : Nat → Fin 3 → R) : Scn R :=
  ⟨N, fun i => (S.body i).map fun b => ⟨b.flt, boxAt S p i, pos i⟩, S.avoid, p⟩

/-- the first run of a collider leaves the interactions assumed for the split, whatever real interactions of other bodies were
restored with the scene -/
theorem isIntrs_of_run {S : Sc R} {p N : Nat} {pos : Nat → Fin 3 → R} {P : Par R} {dirty : Bool} {c c' : Col R} {I J : Ints}
    (hc : Fresh c) (ha : Allowed P (scn S p N pos)) (hN : 0 < N) (hd : Distinct I)
    (hno : ∀ e ∈ I, ∀ k, 1 ≤ k → k < S.n → e.a ≠ S.sd k ∧ e.b ≠ S.sd k)
    (hr : action P (scn S p N pos) dirty c I = .ok (c', J)) : IsIntrs S p (J.map fun e => (e.a, e.b)) := by
  have hprior : Prior c 0 := Or.inl ⟨hc, rfl⟩
  have hbox : ∀ i x, boxAt S p i = some x → HasBox (scn S p N pos) i x.1 x.2 := by
    intro i x hx
    cases hb : S.body i with
    | none => unfold boxAt at hx; rw [hb] at hx; cases hx
    | some b => exact ⟨⟨b.flt, boxAt S p i, pos i⟩, by simp [scn, hb], by rw [hx]⟩
  have hbox' : ∀ i lo hi, HasBox (scn S p N pos) i lo hi → boxAt S p i = some (lo, hi) := by
    rintro i lo hi ⟨b, h1, h2⟩
    simp only [scn, Option.map_eq_some_iff] at h1
    obtain ⟨b', -, rfl⟩ := h1
    exact h2
  refine ⟨?_, ?_, ?_⟩
  · rw [List.pairwise_map]
    refine (Distinct.first (S := scn S p N pos) hc hN hd hr).imp ?_
    intro e f hef hs
    unfold Ent.is at hef
    rw [← Bool.not_eq_true] at hef
    apply hef
    simp only [Bool.or_eq_true, Bool.and_eq_true, decide_eq_true_eq]
    rcases hs with hs | ⟨h1, h2⟩
    · injection hs with h1 h2; exact Or.inl ⟨h1.symm, h2.symm⟩
    · exact Or.inr ⟨h2.symm, h1.symm⟩
  · rintro i k - - ⟨h1, a, b, x, y, h2, h3, h4, h5, h6, h7⟩
    obtain ⟨e, he, h8⟩ := C26_initial_sweep hprior ha (Nat.zero_le _) (Or.inl rfl) hr (i := i) (j := S.sd k) h1
      ⟨⟨a.flt, boxAt S p i, pos i⟩, ⟨b.flt, boxAt S p (S.sd k), pos (S.sd k)⟩, by simp [scn, h2], by simp [scn, h3], (filter_iff ..).mp h7⟩
      ⟨_, _, _, _, hbox _ _ h4, hbox _ _ h5, h6⟩
    rcases h8 with ⟨rfl, h8⟩ | ⟨h8, rfl⟩
    · exact Or.inl (List.mem_map.mpr ⟨e, he, by rw [h8]⟩)
    · exact Or.inr (List.mem_map.mpr ⟨e, he, by rw [h8]⟩)
  · have key : ∀ e ∈ J, ∀ k, 1 ≤ k → k < S.n → (e.a = S.sd k ∨ e.b = S.sd k) → Near Meet S p e.a e.b := by
      intro e he k hk hk' hs
      rcases C27_nothing_spurious hprior ha (Nat.zero_le _) hr e he with h1 | ⟨-, h1, ⟨b1, b2, h2, h3, h4⟩, ⟨lo, hi, lo', hi', h5, h6, h7⟩⟩
      · have := hno e h1 k hk hk'
        rcases hs with hs | hs
        · exact absurd hs this.1
        · exact absurd hs this.2
      · simp only [scn, Option.map_eq_some_iff] at h2 h3
        obtain ⟨a, h2, rfl⟩ := h2
        obtain ⟨b, h3, rfl⟩ := h3
        exact ⟨h1, a, b, _, _, h2, h3, hbox' _ _ _ h5, hbox' _ _ _ h6, h7, (filter_iff ..).mpr h4⟩
    rintro i k hk hk' (h | h)
    · obtain ⟨e, he, h1⟩ := List.mem_map.mp h
      injection h1 with h1 h2
      rw [← h1, ← h2]; exact key e he k hk hk' (Or.inr h2)
    · obtain ⟨e, he, h1⟩ := List.mem_map.mp h
      injection h1 with h1 h2
      rw [← h1, ← h2]; exact (key e he k hk hk' (Or.inl h1)).swap fun _ _ => Meet.symm

end Verif.Mpi.Split
