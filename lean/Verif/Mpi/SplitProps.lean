import Verif.Mpi.SplitLemmas
import Verif.Mpi.ExchangeProps
import Verif.Collide.Props
/-!
# C112, C113: the lists of shared bodies

Specification: `Consistent` (from C46: neighbours are mutual), `WF` (the scene has one body for each subdomain, as line 414–417 of mpy.py
make them), `Compatible` (from C23: which pairs may interact).
-/
namespace Verif.Mpi.Split
open Verif Verif.Collide Verif.Mpi.Exchange

/-! ## Specification -/

/-- subdomains 1 … n−1 are represented by bodies made by mpy.py 414–417 (default mask 1, standalone), no other body is marked as
subdomain, every body belongs to a process -/
structure WF {R : Type} (S : Sc R) : Prop where
  sd : ∀ k, 1 ≤ k → k < S.n → ∃ b, S.body (S.sd k) = some b ∧ b.flt = ⟨S.sd k, -1, 1, k, true⟩
  only : ∀ i b, S.body i = some b → b.flt.isSub = true → ∃ k, 1 ≤ k ∧ k < S.n ∧ i = S.sd k
  range : ∀ i b, S.body i = some b → 0 ≤ b.flt.sub ∧ b.flt.sub < S.n
  pos : 0 < S.n

variable {R : Type} [Field R] [LinearOrder R]

/-- every process has the interactions its collider found -/
def AllIntrs (S : Sc R) (L : Nat → List (Nat × Nat)) : Prop := ∀ p, p < S.n → IsIntrs S p (L p)

/-- no two boxes of subdomains touch without overlapping -/
def NoGraze (S : Sc R) : Prop := ∀ j k, 1 ≤ j → j < S.n → 1 ≤ k → k < S.n → Near Meet S j (S.sd j) (S.sd k) → Near Overlap S j (S.sd j) (S.sd k)

/-- the lists of the existing processes -/
def lists (S : Sc R) (L : Nat → List (Nat × Nat)) (p q : Nat) : List Nat := if p < S.n then intersections S L p q else []

/-! ## Lemmas -/

section
variable {S : Sc R} {L : Nat → List (Nat × Nat)}

theorem WF.sd_inj (h : WF S) {j k : Nat} (hj : 1 ≤ j) (hj' : j < S.n) (hk : 1 ≤ k) (hk' : k < S.n) (e : S.sd j = S.sd k) : j = k := by
  obtain ⟨b, h1, h2⟩ := h.sd j hj hj'
  obtain ⟨c, h3, h4⟩ := h.sd k hk hk'
  rw [e, h3] at h1; cases h1
  rw [h2] at h4
  have := congrArg Flt.sub h4
  simpa using this

/-- a subdomain body of process p is the one of p -/
theorem WF.sub_iff (h : WF S) {i p : Nat} {b : SB R} (hb : S.body i = some b) (hs : b.flt.isSub = true) (hp : b.flt.sub = p) :
    1 ≤ p ∧ p < S.n ∧ i = S.sd p := by
  obtain ⟨k, h1, h2, rfl⟩ := h.only i b hb hs
  obtain ⟨c, h3, h4⟩ := h.sd k h1 h2
  rw [hb] at h3; cases h3
  rw [h4] at hp
  have : k = p := by simpa using hp
  subst this; exact ⟨h1, h2, rfl⟩

theorem own_none (h : WF S) {p : Nat} (hp : p < S.n) (hL : IsIntrs S p (L p)) :
    p ∈ ranks S → ∀ e ∈ withBodyAll (L p) (S.sd p), ∀ b, S.body (other (S.sd p) e) = some b → b.flt.sub ≠ 0 := by
  intro hr e he b hb h0
  rw [mem_ranks] at hr
  obtain ⟨-, a, -, x, -, h1, -, h3, -⟩ := hL.sound _ _ hr.1 hr.2 ((mem_with hL hr.1 hr.2).mp ⟨e, he, rfl⟩)
  rw [hb] at h1; cases h1
  unfold boxAt at h3
  rw [hb] at h3
  dsimp only at h3
  split_ifs at h3 with h4 h5
  · have := (h.sub_iff (p := 0) hb h4 h0).1; omega
  · rw [h0] at h5; have : p = 0 := by exact_mod_cast h5.symm
    omega

theorem gen_ne (h : WF S) {p : Nat} (hp : p < S.n) (hL : IsIntrs S p (L p)) {k : Nat} (hk : k ≠ p) :
    genLocal S p (L p) k = if 1 ≤ k ∧ k < S.n then shared S p k (L p) else [] := (genLocal_eq (own_none h hp hL)).1 k hk

theorem mem_touching (hL : IsIntrs S p (L p)) {k : Nat} (hk : 1 ≤ k) (hk' : k < S.n) : touching S p (S.sd k) (withBodyAll (L p) (S.sd k)) ≠ [] ↔
    ∃ o b, S.body o = some b ∧ b.flt.sub = p ∧ b.flt.isSub = true ∧ Joined (L p) o (S.sd k) := by
  unfold touching
  constructor
  · intro hne
    obtain ⟨e, he⟩ := List.exists_mem_of_ne_nil _ hne
    rw [List.mem_filter] at he
    obtain ⟨h1, h2⟩ := he
    cases hb : S.body (other (S.sd k) e) with
    | none => rw [hb] at h2; simp at h2
    | some b =>
      rw [hb] at h2
      simp only [Bool.and_eq_true, decide_eq_true_eq] at h2
      exact ⟨_, b, hb, h2.1, h2.2, (mem_with hL hk hk').mp ⟨e, h1, rfl⟩⟩
  · rintro ⟨o, b, h1, h2, h3, h4⟩
    obtain ⟨e, h5, rfl⟩ := (mem_with hL hk hk').mpr h4
    refine List.ne_nil_of_mem (a := e) (List.mem_filter.mpr ⟨h5, ?_⟩)
    rw [h1]; simp [h2, h3]

/-- two interactions of the same pair do not occur -/
theorem touching_short (h : WF S) (hL : IsIntrs S p (L p)) {k : Nat} :
    (touching S p (S.sd k) (withBodyAll (L p) (S.sd k))).length ≤ 1 := by
  have hpw : (touching S p (S.sd k) (withBodyAll (L p) (S.sd k))).Pairwise fun e f => ¬ Same e f := by
    unfold touching withBodyAll
    exact (hL.distinct.filter _).filter _
  have hall : ∀ e ∈ touching S p (S.sd k) (withBodyAll (L p) (S.sd k)), (e = (S.sd p, S.sd k) ∨ e = (S.sd k, S.sd p)) := by
    intro e he
    unfold touching withBodyAll at he
    rw [List.mem_filter, List.mem_filter] at he
    obtain ⟨⟨-, h1⟩, h2⟩ := he
    cases hb : S.body (other (S.sd k) e) with
    | none => rw [hb] at h2; simp at h2
    | some b =>
      rw [hb] at h2
      simp only [Bool.and_eq_true, decide_eq_true_eq] at h2 h1
      have := (h.sub_iff hb h2.2 h2.1).2.2
      obtain ⟨i, j⟩ := e
      unfold other at this
      dsimp only at this h1
      split_ifs at this with h3
      · left; rw [← this, ← h3]
      · right; rw [← this]; rcases h1 with h1 | h1
        · rw [h1]
        · exact absurd h1 h3
  match htl : touching S p (S.sd k) (withBodyAll (L p) (S.sd k)) with
  | [] => simp
  | [_] => simp
  | e :: f :: l =>
    rw [htl] at hpw hall
    have h1 := hall e (by simp)
    have h2 := hall f (by simp)
    have h3 : ¬ Same e f := (List.pairwise_cons.mp hpw).1 f (by simp)
    exfalso; apply h3; unfold Same
    rcases h1 with rfl | rfl <;> rcases h2 with rfl | rfl <;> simp

/-- for the master no subdomain is its own -/
theorem touching_master (h : WF S) {es : List (Nat × Nat)} {s : Nat} : touching S 0 s es = [] := by
  unfold touching
  rw [List.filter_eq_nil_iff]
  intro e _
  cases hb : S.body (other s e) with
  | none => simp
  | some b =>
    simp only [Bool.and_eq_true, decide_eq_true_eq]
    rintro ⟨h1, h2⟩
    have := (h.sub_iff (p := 0) hb h2 h1).1; omega

theorem boxAt_sd (h : WF S) {k : Nat} (h1 : 1 ≤ k) (h2 : k < S.n) (p : Nat) :
    boxAt S p (S.sd k) = (corners S k).map fun x => swept x S.verlet := by
  obtain ⟨b, h3, h4⟩ := h.sd k h1 h2
  unfold boxAt; rw [h3]; dsimp only; rw [h4]; simp

/-- whether two subdomains meet is the same in both processes -/
theorem near_sd_symm (h : WF S) {rel : Box R → Box R → Prop} (hrel : ∀ x y, rel x y → rel y x) {p k : Nat} (hp : 1 ≤ p) (hp' : p < S.n)
    (hk : 1 ≤ k) (hk' : k < S.n) (hf : Near rel S p (S.sd p) (S.sd k)) : Near rel S k (S.sd p) (S.sd k) := by
  obtain ⟨h1, a, b, x, y, h2, h3, h4, h5, h6, h7⟩ := hf
  refine ⟨h1, a, b, x, y, h2, h3, ?_, ?_, h6, ?_⟩
  · rw [boxAt_sd h hp hp'] at h4 ⊢; exact h4
  · rw [boxAt_sd h hk hk'] at h5 ⊢; exact h5
  · obtain ⟨a', h8, h9⟩ := h.sd p hp hp'
    obtain ⟨b', h10, h11⟩ := h.sd k hk hk'
    rw [h2] at h8; cases h8
    rw [h3] at h10; cases h10
    rw [filter_iff] at h7 ⊢
    obtain ⟨c1, c2, c3, c4, c5, c6⟩ := h7
    rw [h9, h11] at c1 c2 c6 ⊢
    refine ⟨c1, c2, ?_, ?_, Or.inr rfl, c6⟩
    · rintro b (rfl | rfl) <;> simp
    · simp

theorem Near.swap {rel : Box R → Box R → Prop} (hrel : ∀ x y, rel x y → rel y x) {p i j : Nat} (hf : Near rel S p i j) : Near rel S p j i := by
  obtain ⟨h1, a, b, x, y, h2, h3, h4, h5, h6, h7⟩ := hf
  exact ⟨Ne.symm h1, b, a, y, x, h3, h2, h5, h4, hrel _ _ h6, by rw [filter_comm]; exact h7⟩

theorem Joined.symm {L : List (Nat × Nat)} {i j : Nat} (h : Joined L i j) : Joined L j i := Or.symm h

/-- without touching boxes, two subdomains are joined in one process if they are in the other -/
theorem joined_sd_symm (h : WF S) (hg : NoGraze S) (hL : AllIntrs S L) {p k : Nat} (hp : 1 ≤ p) (hp' : p < S.n) (hk : 1 ≤ k) (hk' : k < S.n)
    (hj : Joined (L p) (S.sd p) (S.sd k)) : Joined (L k) (S.sd k) (S.sd p) := by
  have h1 := hg p k hp hp' hk hk' ((hL p hp').sound _ k hk hk' hj)
  have h2 := near_sd_symm h (fun _ _ => Overlap.symm) hp hp' hk hk' h1
  exact ((hL k hk').complete _ k hk hk' h2).symm

/-- neighbours of a worker before the master is heard -/
theorem mem_gen_worker (h : WF S) {p : Nat} (hp0 : 1 ≤ p) (hp : p < S.n) (hL : IsIntrs S p (L p)) {k : Nat} :
    k ∈ genLocal S p (L p) p ↔ 1 ≤ k ∧ k < S.n ∧ k ≠ p ∧ Joined (L p) (S.sd p) (S.sd k) := by
  rw [(genLocal_eq (own_none h hp hL)).2, List.mem_flatMap]
  constructor
  · rintro ⟨j, h1, h2⟩
    rw [mem_ranks] at h1
    unfold neigh at h2
    split_ifs at h2 with h3 h4
    · exact absurd h2 (by simp)
    · omega
    · rw [List.append_nil, List.mem_map] at h2
      obtain ⟨e, he, rfl⟩ := h2
      obtain ⟨o, b, g1, g2, g3, g4⟩ := (mem_touching hL h1.1 h1.2).mp (List.ne_nil_of_mem he)
      rw [(h.sub_iff g1 g3 g2).2.2] at g4
      exact ⟨h1.1, h1.2, h3, g4⟩
  · rintro ⟨h1, h2, h3, h4⟩
    refine ⟨k, (mem_ranks S).mpr ⟨h1, h2⟩, ?_⟩
    unfold neigh
    rw [if_neg h3]
    obtain ⟨b, g1, g2⟩ := h.sd p hp0 hp
    have := (mem_touching (k := k) hL h1 h2).mpr ⟨_, b, g1, by rw [g2], by rw [g2], h4⟩
    obtain ⟨e, he⟩ := List.exists_mem_of_ne_nil _ this
    exact List.mem_append_left _ (List.mem_map.mpr ⟨e, he, rfl⟩)

theorem mem_gen_master (h : WF S) (hL : IsIntrs S 0 (L 0)) {k : Nat} :
    k ∈ genLocal S 0 (L 0) 0 ↔ 1 ≤ k ∧ k < S.n ∧ genLocal S 0 (L 0) k ≠ [] := by
  rw [(genLocal_eq (own_none h h.pos hL)).2, List.mem_flatMap]
  constructor
  · rintro ⟨j, h1, h2⟩
    rw [mem_ranks] at h1
    unfold neigh at h2
    rw [if_neg (by omega), touching_master h] at h2
    split_ifs at h2 with h3
    · have : k = j := by simpa using h2
      subst this
      refine ⟨h1.1, h1.2, ?_⟩
      rw [gen_ne h h.pos hL (by omega), if_pos h1]; exact h3.2
    · simp at h2
  · rintro ⟨h1, h2, h3⟩
    refine ⟨k, (mem_ranks S).mpr ⟨h1, h2⟩, ?_⟩
    rw [gen_ne h h.pos hL (by omega), if_pos ⟨h1, h2⟩] at h3
    unfold neigh
    rw [if_neg (by omega), if_pos ⟨rfl, h3⟩]; simp

theorem nodup_gen (h : WF S) {p : Nat} (hp : p < S.n) (hL : IsIntrs S p (L p)) : (genLocal S p (L p) p).Nodup := by
  rw [(genLocal_eq (own_none h hp hL)).2]
  have hall : ∀ k, ∀ x ∈ neigh S p k (L p), x = k := by
    intro k x hx
    unfold neigh at hx
    split_ifs at hx <;> simp at hx
    · rcases hx with hx | hx
      · exact hx.2
      · exact hx
    · exact hx.2
  rw [List.nodup_flatMap]
  constructor
  · intro k hk
    rw [mem_ranks] at hk
    unfold neigh
    split_ifs with h1 h2
    · exact List.nodup_nil
    · obtain ⟨rfl, -⟩ := h2
      rw [touching_master h]; simp
    · rw [List.append_nil]
      have := touching_short (L := L) (k := k) h hL
      match touching S p (S.sd k) (withBodyAll (L p) (S.sd k)), this with
      | [], _ => simp
      | [_], _ => simp
  · refine (nodup_ranks S).imp ?_
    intro a b hab x hx hy
    exact hab ((hall a x hx).symm.trans (hall b x hy))

/-! ### boxes -/

/-- `x` lies in `y` -/
def Within (x y : Box R) : Prop := ∀ a, y.1 a ≤ x.1 a ∧ x.2 a ≤ y.2 a

theorem Within.trans {x y z : Box R} (h : Within x y) (g : Within y z) : Within x z :=
  fun a => ⟨le_trans (g a).1 (h a).1, le_trans (h a).2 (g a).2⟩

theorem hull_spec {l : List (Box R)} {x : Box R} (h : x ∈ l) : ∃ y, hull l = some y ∧ Within x y := by
  induction l with
  | nil => cases h
  | cons z l ih =>
    unfold hull
    rcases List.mem_cons.mp h with rfl | h
    · cases hull l with
      | none => exact ⟨x, rfl, fun a => ⟨le_refl _, le_refl _⟩⟩
      | some y => exact ⟨_, rfl, fun a => ⟨min_le_left _ _, le_max_left _ _⟩⟩
    · obtain ⟨y, h1, h2⟩ := ih h
      rw [h1]
      exact ⟨_, rfl, fun a => ⟨le_trans (min_le_right _ _) (h2 a).1, le_trans (h2 a).2 (le_max_right _ _)⟩⟩

theorem Overlap.mono {x x' y y' : Box R} (h : Overlap x y) (hx : Within x x') (hy : Within y y') : Overlap x' y' :=
  fun a => ⟨lt_of_le_of_lt (hx a).1 (lt_of_lt_of_le (h a).1 (hy a).2), lt_of_le_of_lt (hy a).1 (lt_of_lt_of_le (h a).2 (hx a).2)⟩

variable [IsStrictOrderedRing R]

theorem within_swept (x : Box R) (l : R) : Within x (swept x l) := by
  intro a; unfold swept
  split_ifs with h
  · dsimp only; constructor <;> linarith
  · exact ⟨le_refl _, le_refl _⟩

theorem Within.swept {x y : Box R} (h : Within x y) (l : R) : Within (Split.swept x l) (Split.swept y l) := by
  intro a; have := h a; unfold Split.swept
  split_ifs
  · dsimp only; constructor <;> linarith [this.1, this.2]
  · exact this

/-- the box of a subdomain contains the boxes of its bodies -/
theorem corners_within {k i : Nat} {b : SB R} {x : Box R} (hi : i ∈ S.ids k) (hb : S.body i = some b) (hs : b.flt.sub = k) (hn : b.flt.isSub = false)
    (hx : b.box = some x) : ∃ y, corners S k = some y ∧ Within x y := by
  unfold corners
  obtain ⟨y, h1, h2⟩ := hull_spec (l := (S.ids k).filterMap fun i => (S.body i).bind fun b =>
    if b.flt.sub = k ∧ b.flt.isSub = false then b.box.map fun x => Split.swept x (S.first i) else none) (x := Split.swept x (S.first i))
    (List.mem_filterMap.mpr ⟨i, hi, by simp [hb, hs, hn, hx]⟩)
  exact ⟨y, h1, (within_swept _ _).trans h2⟩

end

/-! ## C112 -/

section
variable {S : Sc R} {L : Nat → List (Nat × Nat)}

theorem zero_notin (h : WF S) {p : Nat} (hp0 : 1 ≤ p) (hp : p < S.n) (hL : IsIntrs S p (L p)) : 0 ∉ genLocal S p (L p) p := by
  rw [mem_gen_worker h hp0 hp hL]; omega

/-- the neighbours of a process -/
theorem mem_self (h : WF S) (hL : AllIntrs S L) {p k : Nat} (hp : p < S.n) : k ∈ intersections S L p p ↔
    (k ∈ genLocal S p (L p) p ∨ (p ≠ 0 ∧ k = 0 ∧ genLocal S 0 (L 0) p ≠ [])) := by
  unfold intersections
  split_ifs with hc
  · rw [upd_same, List.mem_append, List.mem_singleton]
    constructor
    · rintro (h1 | h1)
      · exact Or.inl h1
      · exact Or.inr ⟨hc.1, h1, hc.2.1⟩
    · rintro (h1 | ⟨-, h1, -⟩)
      · exact Or.inl h1
      · exact Or.inr h1
  · constructor
    · exact Or.inl
    · rintro (h1 | ⟨h1, rfl, h2⟩)
      · exact h1
      · exact absurd ⟨h1, h2, zero_notin h (by omega) hp (hL p hp)⟩ hc

theorem int_ne {p k : Nat} (hk : k ≠ p) : intersections S L p k = genLocal S p (L p) k := by
  unfold intersections
  split_ifs
  · rw [upd_ne _ _ hk]
  · rfl

/-- neighbours are other existing processes -/
theorem neighbour_range (h : WF S) (hL : AllIntrs S L) {p q : Nat} (hp : p < S.n) (hq : q ∈ intersections S L p p) : q < S.n ∧ q ≠ p := by
  rw [mem_self h hL hp] at hq
  rcases hq with hq | ⟨h1, rfl, -⟩
  · by_cases hp0 : p = 0
    · subst hp0
      have := (mem_gen_master h (hL 0 hp)).mp hq
      exact ⟨this.2.1, by omega⟩
    · have := (mem_gen_worker h (by omega) hp (hL p hp)).mp hq
      exact ⟨this.2.1, this.2.2.1⟩
  · exact ⟨h.pos, Ne.symm h1⟩

/-- C112: after a split the neighbours of every process are other processes, each listed once, and every process is a neighbour of
its neighbours.  Partial: if no two boxes of subdomains just touch. -/
theorem C112_consistent_partial (h : WF S) (hg : NoGraze S) (hL : AllIntrs S L) : Consistent S.n (lists S L) := by
  constructor
  · intro p
    unfold lists
    split_ifs with hp
    · unfold intersections
      split_ifs with hc
      · rw [upd_same]
        exact (nodup_gen h hp (hL p hp)).append (by simp) (by simpa using hc.2.2)
      · exact nodup_gen h hp (hL p hp)
    · exact List.nodup_nil
  · intro p q hp hq
    unfold lists at hq ⊢
    rw [if_pos hp, mem_self h hL hp] at hq
    rcases hq with hq | ⟨h1, rfl, h3⟩
    · by_cases hp0 : p = 0
      · subst hp0
        obtain ⟨h1, h2, h3⟩ := (mem_gen_master h (hL 0 hp)).mp hq
        refine ⟨h2, by omega, ?_⟩
        rw [if_pos h2, mem_self h hL h2]
        exact Or.inr ⟨by omega, rfl, h3⟩
      · obtain ⟨h1, h2, h3, h4⟩ := (mem_gen_worker h (by omega) hp (hL p hp)).mp hq
        refine ⟨h2, h3, ?_⟩
        rw [if_pos h2, mem_self h hL h2]
        exact Or.inl ((mem_gen_worker h h1 h2 (hL q h2)).mpr ⟨by omega, hp, Ne.symm h3, joined_sd_symm h hg hL (by omega) hp h1 h2 h4⟩)
    · refine ⟨h.pos, Ne.symm h1, ?_⟩
      rw [if_pos h.pos, mem_self h hL h.pos]
      exact Or.inl ((mem_gen_master h (hL 0 h.pos)).mpr ⟨by omega, hp, h3⟩)

/-- C112: what a worker expects from a neighbour is what the neighbour lists for it, in the same order (and sends to it, as by
`C112_consistent_partial` the neighbour lists the worker) -/
theorem C112_mirror (h : WF S) (hL : AllIntrs S L) {p q : Nat} (hp : 0 < p) (hp' : p < S.n) (hq : q ∈ lists S L p p) :
    mirror S L p q = lists S L q p := by
  obtain ⟨h1, h2⟩ := neighbour_range h hL hp' (by unfold lists at hq; rwa [if_pos hp'] at hq)
  unfold lists at hq ⊢
  rw [if_pos hp'] at hq
  rw [if_pos h1]
  unfold mirror
  rw [if_neg (by omega)]
  split_ifs with h3
  · subst h3; rw [int_ne (Ne.symm h2)]
  · rfl

/-- C112: the ids a process lists for another are bodies of its own found near the other subdomain, or nodes and connections of such -/
theorem C112_listed (h : WF S) (hL : AllIntrs S L) {p q x : Nat} (hp : p < S.n) (hq : q ≠ p) (hx : x ∈ lists S L p q) :
    1 ≤ q ∧ q < S.n ∧ ∃ o b, S.body o = some b ∧ b.flt.sub = p ∧ b.flt.isSub = false ∧ Near Meet S p o (S.sd q) ∧ (x = o ∨ ∃ l, b.parts = some l ∧ x ∈ l) := by
  unfold lists at hx
  rw [if_pos hp, int_ne hq, gen_ne h hp (hL p hp) hq] at hx
  split_ifs at hx with h1
  · refine ⟨h1.1, h1.2, ?_⟩
    obtain ⟨o, b, h2, h3, h4, h5, h6⟩ := (mem_shared (hL p hp) h1.1 h1.2).mp hx
    refine ⟨o, b, h2, h3, h4, (hL p hp).sound _ _ h1.1 h1.2 h5, ?_⟩
    unfold stands at h6
    rcases List.mem_cons.mp h6 with h6 | h6
    · exact Or.inl h6
    · cases hb : b.parts with
      | none => rw [hb] at h6; cases h6
      | some l => rw [hb] at h6; exact Or.inr ⟨l, rfl, h6⟩
  · cases hx

end

/-! ## C113 -/

section
variable [IsStrictOrderedRing R] {S : Sc R} {L : Nat → List (Nat × Nat)}

/-- C113: after a split a worker holds, with its bound switched on, every body of another process whose box (enlarged for the time until
the next collision detection) overlaps that of one of its own bodies.  Partial: for bodies with bit 0 in their mask, if that bit is not among
the self-avoiding ones, and which the first split put into their subdomains. -/
theorem C113_present_partial (h : WF S) (hL : AllIntrs S L) {p q a c : Nat} {A C : SB R} {x y : Box R} (hp : 0 < p) (hp' : p < S.n) (hq : q < S.n) (hpq : q ≠ p)
    (hA : S.body a = some A) (hAp : A.flt.sub = p) (hAs : A.flt.isSub = false) (hAx : A.box = some x) (hAi : a ∈ S.ids p)
    (hC : S.body c = some C) (hCq : C.flt.sub = q) (hCs : C.flt.isSub = false) (hCy : C.box = some y) (hCi : q ≠ 0 → c ∈ S.ids q)
    (hcl : ¬ (C.flt.clumpId ≠ -1 ∧ C.flt.clumpId = C.flt.id)) (hg : C.gridNode = false)
    (hm : C.flt.mask.testBit 0 = true) (hav : S.avoid.testBit 0 = false)
    (hmeet : Overlap (swept x S.verlet) (swept y S.verlet)) (bounded0 : Nat → Bool) :
    q ∈ lists S L p p ∧ c ∈ mirror S L p q ∧ boundedAt S L bounded0 p c = true := by
  obtain ⟨X, hX, hxX⟩ := corners_within (S := S) hAi hA hAp hAs hAx
  have h1 : ∀ k, (1 : Nat).testBit k = true → k = 0 := by
    intro k hk
    rw [Nat.testBit_one_eq_true_iff_self_eq_zero] at hk; exact hk
  -- c is found near subdomain p in process q
  have hcne : c ≠ S.sd p := by
    rintro rfl
    obtain ⟨b, h3, h4⟩ := h.sd p hp hp'
    rw [hC] at h3; cases h3; rw [h4] at hCs; simp at hCs
  have hfound : Near Overlap S q c (S.sd p) := by
    obtain ⟨b, h3, h4⟩ := h.sd p hp hp'
    refine ⟨hcne, C, b, swept y S.verlet, swept X S.verlet, hC, h3, ?_, ?_, ?_, ?_⟩
    · unfold boxAt; rw [hC]; simp [hCs, hCq, hCy]
    · rw [boxAt_sd h hp hp', hX]; rfl
    · exact hmeet.symm.mono (fun a => ⟨le_refl _, le_refl _⟩) (hxX.swept _)
    · rw [filter_iff, h4]
      refine ⟨⟨0, hm, by simp⟩, ?_, ?_, ?_, Or.inl hCq, ?_⟩
      · rintro ⟨e, k, h5, h6⟩
        dsimp only at e
        rw [e] at h5
        rw [h1 k h5, hav] at h6; cases h6
      · rintro b' (rfl | rfl)
        · exact hcl
        · simp
      · rintro ⟨h5, h6⟩; exact h5 h6
      · intro e
        dsimp only at e
        rw [hCq] at e
        exact absurd (by exact_mod_cast e) hpq
  have hshared : c ∈ genLocal S q (L q) p := by
    rw [gen_ne h hq (hL q hq) (Ne.symm hpq), if_pos ⟨hp, hp'⟩, mem_shared (hL q hq) hp hp']
    exact ⟨c, C, hC, hCq, hCs, (hL q hq).complete _ _ hp hp' hfound, by simp [stands]⟩
  have hlist : q ∈ lists S L p p := by
    unfold lists
    rw [if_pos hp', mem_self h hL hp']
    by_cases hq0 : q = 0
    · subst hq0; exact Or.inr ⟨by omega, rfl, List.ne_nil_of_mem hshared⟩
    · left
      rw [mem_gen_worker h hp hp' (hL p hp')]
      refine ⟨by omega, hq, hpq, (hL p hp').complete _ _ (by omega) hq ?_⟩
      obtain ⟨Y, hY, hyY⟩ := corners_within (S := S) (hCi hq0) hC hCq hCs hCy
      obtain ⟨b, h3, h4⟩ := h.sd p hp hp'
      obtain ⟨d, h5, h6⟩ := h.sd q (by omega) hq
      refine ⟨fun e => hpq (h.sd_inj (by omega) hq hp hp' e.symm), b, d, swept X S.verlet, swept Y S.verlet, h3, h5, ?_, ?_, ?_, ?_⟩
      · rw [boxAt_sd h hp hp', hX]; rfl
      · rw [boxAt_sd h (by omega) hq, hY]; rfl
      · exact hmeet.mono (hxX.swept _) (hyY.swept _)
      · rw [filter_iff, h4, h6]
        refine ⟨⟨0, by simp, by simp⟩, ?_, ?_, ?_, Or.inl rfl, ?_⟩
        · rintro ⟨-, k, h7, h8⟩
          dsimp only at h7
          rw [h1 k h7, hav] at h8; cases h8
        · rintro b' (rfl | rfl) <;> simp
        · simp
        · intro e
          dsimp only at e
          exact absurd (by exact_mod_cast e.symm) hpq
  have hmir : c ∈ mirror S L p q := by
    rw [C112_mirror h hL hp hp' hlist]
    unfold lists
    rw [if_pos hq, int_ne (Ne.symm hpq)]; exact hshared
  refine ⟨hlist, hmir, ?_⟩
  unfold boundedAt
  rw [hC]
  dsimp only
  rw [if_neg (by rw [hCs, hCq]; simp; exact_mod_cast hpq)]
  simp only [hg, Bool.not_false, Bool.and_true, decide_eq_true_eq]
  unfold rebound
  exact List.mem_flatMap.mpr ⟨q, List.mem_range.mpr hq, hmir⟩

end

section
variable {S : Sc R} {L : Nat → List (Nat × Nat)}

/-- C113 does not hold for other masks: a body without bit 0 in its mask (and not part of a facet or connection of a grid) is never
given to another process, wherever it is and whatever it may touch there -/
theorem C113_violated_mask (h : WF S) (hL : AllIntrs S L) {p q c : Nat} {C : SB R} (hp' : p < S.n) (hpq : q ≠ p)
    (hC : S.body c = some C) (hCq : C.flt.sub = q) (hCs : C.flt.isSub = false) (hm : C.flt.mask.testBit 0 = false)
    (hparts : ∀ o b l, S.body o = some b → b.parts = some l → c ∉ l) (bounded0 : Nat → Bool) : boundedAt S L bounded0 p c = false := by
  unfold boundedAt
  rw [hC]
  dsimp only
  rw [if_neg (by rw [hCs, hCq]; simp; exact_mod_cast hpq)]
  rw [Bool.and_eq_false_iff]; left
  rw [decide_eq_false_iff_not]
  intro hr
  unfold rebound at hr
  obtain ⟨r, hr1, hr2⟩ := List.mem_flatMap.mp hr
  rw [List.mem_range] at hr1
  have hg : c ∈ genLocal S r (L r) p ∧ r ≠ p := by
    unfold mirror at hr2
    split_ifs at hr2 with h1 h2 h3
    · cases hr2
    · subst h2; exact ⟨hr2, fun e => h1 e.symm⟩
    · have hrp : r ≠ p := by
        rintro rfl
        exact (neighbour_range h hL hp' h3).2 rfl
      rw [int_ne (Ne.symm hrp)] at hr2; exact ⟨hr2, hrp⟩
    · cases hr2
  have hg' : c ∈ lists S L r p := by unfold lists; rw [if_pos hr1, int_ne (Ne.symm hg.2)]; exact hg.1
  obtain ⟨h1, h2, o, b, h3, h4, h5, h6, h7⟩ := C112_listed h hL hr1 (Ne.symm hg.2) hg'
  rcases h7 with rfl | ⟨l, h7, h8⟩
  · obtain ⟨-, a, d, x, y, g1, g2, -, -, -, g3⟩ := h6
    rw [hC] at g1; cases g1
    obtain ⟨d', g4, g5⟩ := h.sd p h1 h2
    rw [g2] at g4; cases g4
    rw [filter_iff] at g3
    obtain ⟨⟨k, k1, k2⟩, -⟩ := g3
    rw [g5] at k2
    dsimp only at k2
    rw [Nat.testBit_one_eq_true_iff_self_eq_zero] at k2
    subst k2; rw [hm] at k1; cases k1
  · exact hparts o b l h3 h7 h8

end

end Verif.Mpi.Split
