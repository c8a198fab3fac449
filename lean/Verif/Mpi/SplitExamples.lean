import Verif.Mpi.SplitProps
import Mathlib.Data.List.ProdSigma
import Mathlib.Tactic.NormNum
/-!
# Scenes for C112, C113
-/
namespace Verif.Mpi.Split
open Verif Verif.Collide Verif.Mpi.Exchange

/-- every finite scene has lists of interactions as the colliders leave them; pairs that just touch may be there in some processes
and not in others -/
theorem exists_intrs {R : Type} [Field R] [LinearOrder R] (S : Sc R) (N : Nat) (hN : ∀ i, N ≤ i → S.body i = none) (T : Nat → Prop) :
    ∃ L, AllIntrs S L ∧ ∀ p i j, Joined (L p) i j ↔ (Near Overlap S p i j ∨ (T p ∧ Near Meet S p i j)) := by
  classical
  obtain ⟨Q, hQ⟩ : ∃ Q : Nat → Nat → Nat → Prop, Q = fun p i j => Near Overlap S p i j ∨ (T p ∧ Near Meet S p i j) := ⟨_, rfl⟩
  have hsym : ∀ p i j, Q p i j → Q p j i := by
    subst hQ
    rintro p i j (h | ⟨h1, h⟩)
    · exact Or.inl (h.swap fun _ _ => Overlap.symm)
    · exact Or.inr ⟨h1, h.swap fun _ _ => Meet.symm⟩
  have hmeet : ∀ p i j, Q p i j → Near Meet S p i j := by
    subst hQ
    rintro p i j (⟨h1, a, b, x, y, h2, h3, h4, h5, h6, h7⟩ | h)
    · exact ⟨h1, a, b, x, y, h2, h3, h4, h5, fun a => ⟨le_of_lt (h6 a).1, le_of_lt (h6 a).2⟩, h7⟩
    · exact h.2
  have hlt : ∀ p i j, Q p i j → i < N ∧ j < N := by
    intro p i j h
    obtain ⟨-, a, b, -, -, h1, h2, -⟩ := hmeet p i j h
    constructor
    · by_contra h; rw [hN i (by omega)] at h1; cases h1
    · by_contra h; rw [hN j (by omega)] at h2; cases h2
  obtain ⟨L, hLdef⟩ : ∃ L : Nat → List (Nat × Nat), L = fun p => ((List.range N) ×ˢ (List.range N)).filter fun e => e.1 < e.2 ∧ Q p e.1 e.2 := ⟨_, rfl⟩
  have hj : ∀ p i j, Joined (L p) i j ↔ Q p i j := by
    intro p i j
    subst hLdef
    unfold Joined
    simp only [List.mem_filter, List.mem_product, List.mem_range, decide_eq_true_eq]
    constructor
    · rintro (h | h)
      · exact h.2.2
      · exact hsym _ _ _ h.2.2
    · intro h
      have h1 := hlt p i j h
      rcases Nat.lt_or_gt_of_ne (hmeet p i j h).1 with h2 | h2
      · exact Or.inl ⟨h1, h2, h⟩
      · exact Or.inr ⟨⟨h1.2, h1.1⟩, h2, hsym _ _ _ h⟩
  refine ⟨L, fun p _ => ⟨?_, fun i k _ _ h => (hj p _ _).mpr (by subst hQ; exact Or.inl h), fun i k _ _ h => hmeet p _ _ ((hj p _ _).mp h)⟩,
    by intro p i j; rw [hj, hQ]⟩
  subst hLdef
  have hnd : ((List.range N) ×ˢ (List.range N)).Nodup := List.nodup_range.product List.nodup_range
  refine List.Pairwise.imp_of_mem ?_ (hnd.filter _)
  rintro ⟨i, j⟩ ⟨k, l⟩ he hf hne
  rw [List.mem_filter] at he hf
  simp only [decide_eq_true_eq] at he hf
  rintro (h2 | ⟨h2, h3⟩)
  · exact hne h2
  · dsimp only at h2 h3; omega

/-- a cube -/
def cube (lo hi : ℚ) : Box ℚ := (fun _ => lo, fun _ => hi)

/-- a body of process `k` -/
def exBody (i k mask : Nat) (lo hi : ℚ) : SB ℚ := ⟨⟨i, -1, mask, k, false⟩, some (cube lo hi), none, false⟩

/-- the body of subdomain `k` -/
def exSd (i k : Nat) : SB ℚ := ⟨⟨i, -1, 1, k, true⟩, none, none, false⟩

/-- three processes: body 0 of the master reaches into the subdomain of worker 1, bodies 1 (worker 1), 2 and 3 (worker 2); the boxes of
1 and 2 do not meet, but for `lo2 = 11/4` enlarged by the Verlet distance 1/2 they do; body 3 lies in the box of body 1 -/
def exS (mask3 : Nat) (ids2 : List Nat) (lo2 : ℚ) : Sc ℚ where
  n := 3
  body := fun i => match i with
    | 0 => some (exBody 0 0 1 (-5) (-1/2))
    | 1 => some (exBody 1 1 1 0 2)
    | 2 => some (exBody 2 2 1 lo2 (lo2 + 1))
    | 3 => some (exBody 3 2 mask3 1 (3/2))
    | 4 => some (exSd 4 1)
    | 5 => some (exSd 5 2)
    | _ => none
  sd := fun k => k + 3
  ids := fun k => if k = 1 then [1] else ids2
  first := fun _ => 0
  verlet := 1/2
  avoid := 0

theorem exS_wf (m : Nat) (l : List Nat) (h : ℚ) : WF (exS m l h) := by
  refine ⟨?_, ?_, ?_, by show 0 < 3; decide⟩
  · intro k h1 h2
    have h2 : k < 3 := h2
    have : k = 1 ∨ k = 2 := by omega
    rcases this with rfl | rfl
    · exact ⟨exSd 4 1, rfl, rfl⟩
    · exact ⟨exSd 5 2, rfl, rfl⟩
  · intro i b hb hs
    match i with
    | 0 => cases hb; cases hs
    | 1 => cases hb; cases hs
    | 2 => cases hb; cases hs
    | 3 => cases hb; cases hs
    | 4 => exact ⟨1, by decide, by show 1 < 3; decide, rfl⟩
    | 5 => exact ⟨2, by decide, by show 2 < 3; decide, rfl⟩
    | n + 6 => cases hb
  · intro i b hb
    match i with
    | 0 => cases hb; exact ⟨by decide, by show (0 : Int) < 3; decide⟩
    | 1 => cases hb; exact ⟨by decide, by show (1 : Int) < 3; decide⟩
    | 2 => cases hb; exact ⟨by show (0 : Int) ≤ 2; decide, by show (2 : Int) < 3; decide⟩
    | 3 => cases hb; exact ⟨by show (0 : Int) ≤ 2; decide, by show (2 : Int) < 3; decide⟩
    | 4 => cases hb; exact ⟨by decide, by show (1 : Int) < 3; decide⟩
    | 5 => cases hb; exact ⟨by decide, by show (2 : Int) < 3; decide⟩
    | n + 6 => cases hb

theorem exS_none (m : Nat) (l : List Nat) (h : ℚ) : ∀ i, 6 ≤ i → (exS m l h).body i = none := by
  intro i hi
  match i, hi with
  | n + 6, _ => rfl

theorem ex_corners1 (m : Nat) (l : List Nat) (h : ℚ) : corners (exS m l h) 1 = some (cube 0 2) := by
  simp [corners, exS, hull, exBody, swept]

theorem ex_corners2 (m : Nat) (h : ℚ) : corners (exS m [2] h) 2 = some (cube h (h + 1)) := by
  simp [corners, exS, hull, exBody, swept]

theorem ex_corners23 (m : Nat) (h : ℚ) : corners (exS m [2, 3] h) 2 = some (join (cube h (h + 1)) (cube 1 (3/2))) := by
  simp [corners, exS, hull, exBody, swept]

/-- the enlarged boxes of the two subdomains overlap -/
theorem exS_noGraze : NoGraze (exS 2 [2, 3] (11/4)) := by
  have hW := exS_wf 2 [2, 3] (11/4)
  intro j k hj hj' hk hk' ⟨h1, a, b, x, y, h2, h3, h4, h5, h6, h7⟩
  refine ⟨h1, a, b, x, y, h2, h3, h4, h5, ?_, h7⟩
  rw [boxAt_sd hW hj hj'] at h4
  rw [boxAt_sd hW hk hk'] at h5
  have hj3 : j < 3 := hj'
  have hk3 : k < 3 := hk'
  have : j = 1 ∧ k = 2 ∨ j = 2 ∧ k = 1 := by
    have : j ≠ k := by rintro rfl; exact h1 rfl
    omega
  rcases this with ⟨rfl, rfl⟩ | ⟨rfl, rfl⟩
  · rw [ex_corners1] at h4; rw [ex_corners23] at h5; cases h4; cases h5
    intro a; simp only [swept, join, cube, exS]; norm_num
  · rw [ex_corners1] at h5; rw [ex_corners23] at h4; cases h4; cases h5
    intro a; simp only [swept, join, cube, exS]; norm_num

-- C112, C113: in this scene the lists exist, and body 2 is given to worker 1 (for body 1), body 0 to worker 1
example : ∃ L, AllIntrs (exS 2 [2, 3] (11/4)) L ∧ Consistent 3 (lists (exS 2 [2, 3] (11/4)) L) ∧
    2 ∈ mirror (exS 2 [2, 3] (11/4)) L 1 2 ∧ 0 ∈ mirror (exS 2 [2, 3] (11/4)) L 1 0 := by
  obtain ⟨L, hL, -⟩ := exists_intrs (exS 2 [2, 3] (11/4)) 6 (exS_none _ _ _) fun _ => True
  refine ⟨L, hL, C112_consistent_partial (exS_wf _ _ _) exS_noGraze hL, ?_, ?_⟩
  · exact (C113_present_partial (exS_wf _ _ _) hL (p := 1) (q := 2) (a := 1) (c := 2) (A := exBody 1 1 1 0 2) (C := exBody 2 2 1 (11/4) (11/4 + 1))
      (x := cube 0 2) (y := cube (11/4) (11/4 + 1)) (by decide) (by decide) (by decide) (by decide) rfl rfl rfl rfl (by decide) rfl rfl rfl rfl (by decide)
      (by decide) rfl (by decide) (by decide) (by intro a; simp only [swept, cube, exS]; norm_num) (fun _ => true)).2.1
  · exact (C113_present_partial (exS_wf _ _ _) hL (p := 1) (q := 0) (a := 1) (c := 0) (A := exBody 1 1 1 0 2) (C := exBody 0 0 1 (-5) (-1/2))
      (x := cube 0 2) (y := cube (-5) (-1/2)) (by decide) (by decide) (by decide) (by decide) rfl rfl rfl rfl (by decide) rfl rfl rfl rfl (by decide)
      (by decide) rfl (by decide) (by decide) (by intro a; simp only [swept, cube, exS]; norm_num) (fun _ => true)).2.1

-- C113_violated_mask: body 3 with mask 2 lies in the box of body 1, but worker 1 does not get it
example : ∃ L, AllIntrs (exS 2 [2, 3] (11/4)) L ∧ Meet (cube 0 2) (cube 1 (3/2)) ∧ boundedAt (exS 2 [2, 3] (11/4)) L (fun _ => true) 1 3 = false := by
  obtain ⟨L, hL, -⟩ := exists_intrs (exS 2 [2, 3] (11/4)) 6 (exS_none _ _ _) fun _ => True
  refine ⟨L, hL, by intro a; simp only [cube]; norm_num, ?_⟩
  refine C113_violated_mask (exS_wf _ _ _) hL (p := 1) (q := 2) (c := 3) (C := exBody 3 2 2 1 (3/2)) (by decide) (by decide) rfl rfl rfl (by decide) ?_ _
  intro o b l hb hl
  match o with
  | 0 => cases hb; cases hl
  | 1 => cases hb; cases hl
  | 2 => cases hb; cases hl
  | 3 => cases hb; cases hl
  | 4 => cases hb; cases hl
  | 5 => cases hb; cases hl
  | n + 6 => cases hb

/-- C112 does not hold if two boxes of subdomains just touch: the colliders may differ in whether they join them, and then worker 1
expects messages from worker 2, which does not know of worker 1 -/
theorem C112_violated : ∃ (S : Sc ℚ) (L : Nat → List (Nat × Nat)), WF S ∧ AllIntrs S L ∧ 2 ∈ lists S L 1 1 ∧ 1 ∉ lists S L 2 2 := by
  have hW := exS_wf 1 [2] 3
  obtain ⟨L, hL, hj⟩ := exists_intrs (exS 1 [2] 3) 6 (exS_none _ _ _) fun p => p = 1
  refine ⟨exS 1 [2] 3, L, hW, hL, ?_, ?_⟩
  · unfold lists
    rw [if_pos (by decide), mem_self hW hL (by decide), mem_gen_worker hW (by decide) (by decide) (hL 1 (by decide)), hj]
    refine Or.inl ⟨by decide, by decide, by decide, Or.inr ⟨rfl, by decide, exSd 4 1, exSd 5 2, swept (cube 0 2) (1/2), swept (cube 3 (3 + 1)) (1/2),
      rfl, rfl, ?_, ?_, ?_, by decide⟩⟩
    · rw [boxAt_sd hW (by decide) (by decide), ex_corners1]; rfl
    · rw [boxAt_sd hW (by decide) (by decide), ex_corners2]; rfl
    · intro a; simp only [swept, cube]; norm_num
  · unfold lists
    rw [if_pos (by decide), mem_self hW hL (by decide), mem_gen_worker hW (by decide) (by decide) (hL 2 (by decide)), hj]
    rintro (⟨-, -, -, ⟨-, a, b, x, y, -, -, h3, h4, h5, -⟩ | ⟨h, -⟩⟩ | ⟨-, h, -⟩)
    · rw [boxAt_sd hW (by decide) (by decide)] at h3 h4
      rw [ex_corners2] at h3; rw [ex_corners1] at h4
      cases h3; cases h4
      have := (h5 0).1
      simp only [swept, cube, exS] at this
      norm_num at this
    · cases h
    · cases h

/-- C113 does not hold for bodies added after the first split, which are not in `Subdomain.ids`: body 3 of worker 2 lies in the box of
body 1 of worker 1, but the box of subdomain 2 does not include it and worker 1 does not get it -/
theorem C113_violated_appended : ∃ S : Sc ℚ, WF S ∧ (∃ L, AllIntrs S L) ∧ ∃ A C x y, S.body 1 = some A ∧ A.flt.sub = 1 ∧ A.box = some x ∧
    S.body 3 = some C ∧ C.flt.sub = 2 ∧ C.box = some y ∧ A.flt.mask = 1 ∧ C.flt.mask = 1 ∧ S.avoid = 0 ∧ Meet x y ∧
    ∀ L, AllIntrs S L → boundedAt S L (fun _ => true) 1 3 = false := by
  refine ⟨exS 1 [2] 10, exS_wf _ _ _, (exists_intrs _ 6 (exS_none _ _ _) fun _ => True).imp fun _ h => h.1, exBody 1 1 1 0 2, exBody 3 2 1 1 (3/2), cube 0 2, cube 1 (3/2),
    rfl, rfl, rfl, rfl, rfl, rfl, rfl, rfl, rfl, by intro a; simp only [cube]; norm_num, ?_⟩
  intro L hL
  have hW := exS_wf 1 [2] 10
  -- the subdomains do not meet
  have hfar : 2 ∉ intersections (exS 1 [2] 10) L 1 1 := by
    rw [mem_self hW hL (by decide), mem_gen_worker hW (by decide) (by decide) (hL 1 (by decide))]
    rintro (⟨-, -, -, hj⟩ | ⟨-, h, -⟩)
    · obtain ⟨-, a, b, x, y, -, -, h3, h4, h5, -⟩ := (hL 1 (by decide)).sound _ 2 (by decide) (by decide) hj
      rw [boxAt_sd hW (by decide) (by decide)] at h3 h4
      rw [ex_corners1] at h3; rw [ex_corners2] at h4
      cases h3; cases h4
      have := (h5 0).2
      simp only [swept, cube, exS] at this
      norm_num at this
    · cases h
  unfold boundedAt
  show (if (false = true ∨ (2 : Int) = 1) then true else decide (3 ∈ rebound (exS 1 [2] 10) L 1) && !false) = false
  rw [if_neg (by decide), Bool.and_eq_false_iff]
  left
  rw [decide_eq_false_iff_not]
  intro hr
  unfold rebound at hr
  obtain ⟨r, hr1, hr2⟩ := List.mem_flatMap.mp hr
  have hr1 : r < 3 := List.mem_range.mp hr1
  unfold mirror at hr2
  rw [if_neg (by decide)] at hr2
  split_ifs at hr2 with h1 h2
  · subst h1
    have : 3 ∈ lists (exS 1 [2] 10) L 0 1 := by
      unfold lists; rw [if_pos (by decide), int_ne (by decide)]; exact hr2
    obtain ⟨-, -, o, b, g1, g2, -, -, g5⟩ := C112_listed hW hL (by decide) (by decide) this
    rcases g5 with rfl | ⟨l, g5, -⟩
    · cases g1; cases g2
    · match o with
      | 0 => cases g1; cases g5
      | 1 => cases g1; cases g5
      | 2 => cases g1; cases g5
      | 3 => cases g1; cases g5
      | 4 => cases g1; cases g5
      | 5 => cases g1; cases g5
      | n + 6 => cases g1
  · have := neighbour_range hW hL (by decide) h2
    have hr : r = 2 := by have h3 := this.2; omega
    subst hr; exact hfar h2
  · cases hr2

end Verif.Mpi.Split
