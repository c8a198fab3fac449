import Verif.Grid.Quick
import Verif.Grid.Act
import Verif.Loop.Props
import Verif.Mech.NewtonProps
import Mathlib.Tactic.FieldSimp
/-!
# Properties of the grid collider and of the quick-sort collider

C33: the grid collider finds touching spheres.  C34: the quick-sort collider.  C104: what a collider found is looked at in the same step.
C105: the grid collider runs again when bodies have moved.
-/
namespace Verif.Grid
open Verif Verif.Collide

/-! ## C33 -/

/-- the interaction joins the two bodies -/
def Joins (e : GI) (i j : Nat) : Prop := (e.a = i ∧ e.b = j) ∨ (e.a = j ∧ e.b = i)

theorem is_joins (e : GI) (i j : Nat) : e.is i j = true ↔ Joins e i j := is_iff e i j

section
variable {R : Type} [Field R] [LinearOrder R] [IsStrictOrderedRing R] [FloorRing R]

/-- body `i` is a sphere of this radius with its centre at `C` -/
def IsSphere (bs : List (Option (GBody R))) (i : Nat) (C : Fin 3 → R) (r : R) (f : Flt) : Prop :=
  bs.getD i none = some ⟨f, C, some (some r)⟩

omit [FloorRing R] in
/-- spheres not farther apart than the sum of their radii have a point in common -/
theorem common_point {C D : Fin 3 → R} {r s : R} (hr : 0 ≤ r) (hs : 0 ≤ s) (h : dist2 C D ≤ (r + s) ^ 2) :
    ∃ X, dist2 C X ≤ r ^ 2 ∧ dist2 D X ≤ s ^ 2 := by
  rcases eq_or_lt_of_le (add_nonneg hr hs) with h0 | h0
  · have hr0 : r = 0 := by linarith
    have hs0 : s = 0 := by linarith
    subst hr0 hs0
    refine ⟨D, by simpa using h, by simp [dist2]⟩
  · have key : ∀ t u : R, t * (r + s) = u → 0 ≤ u → (∀ (E F : Fin 3 → R) (X : Fin 3 → R), (∀ i, E i - X i = t * (E i - F i)) →
        dist2 E F ≤ (r + s) ^ 2 → dist2 E X ≤ u ^ 2) := by
      intro t u hu hu0 E F X hX hd
      unfold dist2 at *
      rw [hX, hX, hX]
      have e : (t * (E 0 - F 0)) ^ 2 + (t * (E 1 - F 1)) ^ 2 + (t * (E 2 - F 2)) ^ 2 =
          t ^ 2 * ((E 0 - F 0) ^ 2 + (E 1 - F 1) ^ 2 + (E 2 - F 2) ^ 2) := by ring
      rw [e, ← hu, mul_pow]
      exact mul_le_mul_of_nonneg_left hd (sq_nonneg t)
    refine ⟨fun i => C i - r / (r + s) * (C i - D i), ?_, ?_⟩
    · exact key (r / (r + s)) r (div_mul_cancel₀ _ h0.ne') hr C D _ (fun i => by ring) h
    · refine key (s / (r + s)) s (div_mul_cancel₀ _ h0.ne') hs D C _ (fun i => ?_) ?_
      · have : s / (r + s) = 1 - r / (r + s) := by field_simp; ring
        rw [this]; ring
      · unfold dist2 at *; nlinarith

theorem grid_run {avoid : Nat} {sub : Int} {step v : R} {mn mx : Fin 3 → R} {bs : List (Option (GBody R))} {iter : Int} {I I' : List GI}
    (h : gridAction avoid sub step v mn mx bs iter I = .ok I') :
    ∃ g g', updateGrid step mn mx = .ok g ∧ allBodies v 0 bs g = .ok g' ∧ Frame g g' ∧ (∀ k, ∀ x ∈ g'.data k, (bs.getD x none).isSome) ∧
      Grown (May avoid sub bs) iter I I' ∧
      (∀ c i j, i ∈ g'.data (g.cellNo c) → j ∈ g'.data (g.cellNo c) → i ≠ j →
        (May avoid sub bs i j → has I' i j = true) ∧ (has I i j = true → Seen iter I' i j)) := by
  unfold gridAction at h
  cases hg : updateGrid step mn mx with
  | throws => rw [hg] at h; cases h
  | ub => rw [hg] at h; cases h
  | ok g =>
    rw [hg, Res.bind_ok] at h
    obtain ⟨-, -, hsz, hd⟩ := updateGrid_ok hg
    cases ha : allBodies v 0 bs g with
    | throws => rw [ha] at h; cases h
    | ub => rw [ha] at h; cases h
    | ok g' =>
      rw [ha, Res.bind_ok] at h
      obtain ⟨f, n⟩ := allBodies_frame hsz ha
      have hall : ∀ k, ∀ x ∈ g'.data k, (bs.getD x none).isSome := by
        intro k x hx
        rcases n k x hx with h | h
        · rw [hd] at h; cases h
        · exact h.2
      obtain ⟨I2, e, gr, a, s⟩ := collisions_ok avoid sub bs iter g' ((List.range g'.len.toNat).map fun n : Nat => (n : Int)) I
        fun k _ => hall k
      rw [e] at h
      injection h with h
      subst h
      refine ⟨g, g', rfl, ha, f, hall, gr, fun c i j hi hj hij => ?_⟩
      have hr : g.cellNo c ∈ (List.range g'.len.toNat).map fun n : Nat => (n : Int) := by
        have hl : g'.len = g.len := by unfold Cells.len; rw [f.1]
        have := lin_range hsz (fit (c 0) (g.size 0)) (fit (c 1) (g.size 1)) (fit (c 2) (g.size 2))
        change 0 ≤ g.cellNo c ∧ g.cellNo c < g.len at this
        rw [List.mem_map]
        exact ⟨(g.cellNo c).toNat, by rw [List.mem_range, hl]; omega, by omega⟩
      exact ⟨a _ hr i hi j hj hij, s _ hr i hi j hj hij⟩

/-- the collider never reads outside its grid nor a missing body: it either finishes or throws -/
theorem C33_defined (avoid : Nat) (sub : Int) (step v : R) (mn mx : Fin 3 → R) (bs : List (Option (GBody R))) (iter : Int) (I : List GI) :
    gridAction avoid sub step v mn mx bs iter I ≠ .ub := by
  intro h
  unfold gridAction at h
  cases hg : updateGrid step mn mx with
  | throws => rw [hg] at h; cases h
  | ub =>
    unfold updateGrid at hg
    split at hg
    · cases hg
    · split at hg <;> cases hg
  | ok g =>
    rw [hg, Res.bind_ok] at h
    obtain ⟨-, -, hsz, hd⟩ := updateGrid_ok hg
    rcases allBodies_any v bs 0 hsz with ha | ⟨g', ha, f, -, n⟩
    · rw [ha] at h; cases h
    · rw [ha, Res.bind_ok] at h
      obtain ⟨I2, e, -⟩ := collisions_ok avoid sub bs iter g' ((List.range g'.len.toNat).map fun n : Nat => (n : Int)) I
        fun k _ x hx => by
          rcases n k x hx with h | h
          · rw [hd] at h; cases h
          · exact h.2
      rw [e] at h; cases h

/-- **C33**, for grids whose origin has equal coordinates: wherever two spheres lie, inside the grid or not, if they are not farther apart than the
sum of their radii, each enlarged by the Verlet distance, and may collide, an interaction joins them after the run.  What is missing: other grid
origins, see `C33_violated_origin`. -/
theorem C33_found_partial {avoid : Nat} {sub : Int} {step v : R} {mn mx : Fin 3 → R} {bs : List (Option (GBody R))} {iter : Int}
    {I I' : List GI} (h : gridAction avoid sub step v mn mx bs iter I = .ok I') (hm : mn 0 = mn 1 ∧ mn 2 = mn 1) (hv : 0 ≤ v) {i j : Nat}
    (hij : i ≠ j) {C D : Fin 3 → R} {r s : R} {f f' : Flt} (hi : IsSphere bs i C r f) (hj : IsSphere bs j D s f') (hr : 0 ≤ r) (hs : 0 ≤ s)
    (hd : dist2 C D ≤ (r + s + 2 * v) ^ 2) (hmay : filter avoid sub f f' = true) : ∃ e ∈ I', Joins e i j := by
  obtain ⟨g, g', hg, ha, -, -, -, hp⟩ := grid_run h
  obtain ⟨hst, hmn, hsz, -⟩ := updateGrid_ok hg
  have hmm : ∀ a, g.mn a = g.mn 1 := by
    rw [hmn]; intro a
    fin_cases a
    · exact hm.1
    · rfl
    · exact hm.2
  obtain ⟨X, hX1, hX2⟩ := common_point (C := C) (D := D) (r := r + v) (s := s + v) (by linarith) (by linarith)
    (by rw [show r + v + (s + v) = r + s + 2 * v by ring]; exact hd)
  have h1 := allBodies_in v bs 0 hsz hst hmm ha hi rfl (by linarith) X hX1
  have h2 := allBodies_in v bs 0 hsz hst hmm ha hj rfl (by linarith) X hX2
  rw [Nat.zero_add] at h1 h2
  obtain ⟨e, he, hh⟩ := (has_iff _ _ _).mp ((hp _ i j h1 h2 hij).1 ⟨_, _, hi, hj, hmay⟩)
  exact ⟨e, he, (is_joins _ _ _).mp hh⟩

/-- **C33**: the collider keeps every interaction it found, at most marking it as seen in this step, and creates interactions only between two
different existing bodies that may collide and had none; a new interaction is not a contact yet -/
theorem C33_only {avoid : Nat} {sub : Int} {step v : R} {mn mx : Fin 3 → R} {bs : List (Option (GBody R))} {iter : Int} {I I' : List GI}
    (h : gridAction avoid sub step v mn mx bs iter I = .ok I') :
    (∀ e ∈ I, e ∈ I' ∨ { e with seen := iter } ∈ I') ∧
    ∀ e' ∈ I', (∃ e ∈ I, e' = e ∨ e' = { e with seen := iter }) ∨
      (e'.real = false ∧ e'.a ≠ e'.b ∧ (¬ ∃ e ∈ I, Joins e e'.a e'.b) ∧
        ∃ a b, bs.getD e'.a none = some a ∧ bs.getD e'.b none = some b ∧ filter avoid sub a.flt b.flt = true) := by
  obtain ⟨g, g', -, -, -, -, gr, -⟩ := grid_run h
  refine ⟨gr.old, fun e' he' => (gr.new e' he').imp_right ?_⟩
  rintro ⟨h1, h2, h3, h4, -⟩
  refine ⟨h1, h3, fun ⟨e, he, hj⟩ => ?_, h2⟩
  have := (has_iff I e'.a e'.b).mpr ⟨e, he, (is_joins _ _ _).mpr hj⟩
  rw [h4] at this
  cases this

/-- **C33**: with a positive cell size, a box with a volume and no shapes but spheres the run finishes, wherever the bodies are -/
theorem C33_runs (avoid : Nat) (sub : Int) (step v : R) (mn mx : Fin 3 → R) (bs : List (Option (GBody R))) (iter : Int) (I : List GI)
    (hst : 0 < step) (hbox : ∀ i, mn i < mx i) (hsh : ∀ b ∈ bs, ∀ a, b = some a → a.shape ≠ some none) :
    ∃ I', gridAction avoid sub step v mn mx bs iter I = .ok I' := by
  have hg : ∃ g, updateGrid step mn mx = .ok g := by
    unfold updateGrid
    rw [if_neg (not_le.mpr hst), if_neg]
    · exact ⟨_, rfl⟩
    · have := hbox 0; have := hbox 1; have := hbox 2
      push Not
      exact ⟨by linarith, by linarith, by linarith⟩
  obtain ⟨g, hg⟩ := hg
  obtain ⟨-, -, hsz, hd⟩ := updateGrid_ok hg
  have main : ∀ (l : List (Option (GBody R))) (k : Nat) (g : Cells R), (∀ i, 1 ≤ g.size i) → (∀ b ∈ l, ∀ a, b = some a → a.shape ≠ some none) →
      allBodies v k l g ≠ .throws := by
    intro l
    induction l with
    | nil => intro k g _ _ h; cases h
    | cons b l ih =>
      intro k g hs hb
      cases b with
      | none => unfold allBodies; exact ih _ _ hs fun b hb' => hb b (List.mem_cons_of_mem _ hb')
      | some b =>
        unfold allBodies
        rcases updateBody_any v k b hs with h | ⟨g1, e1, f1, -, -⟩
        · exfalso
          have := hb _ (List.mem_cons_self ..) b rfl
          unfold updateBodyCells at h
          split at h
          · cases h
          · rename_i hc; exact this hc
          · rename_i rad _
            obtain ⟨g', e, -⟩ := fillCells_ok b.pos (rad + v) k
              (box3 (g.pt2int fun i => b.pos i - (rad + v)) (g.pt2int fun i => b.pos i + (rad + v))) hs
            dsimp only at h
            rw [e] at h; cases h
        · rw [e1, Res.bind_ok]
          exact ih _ _ (by rw [f1.1]; exact hs) fun b hb' => hb b (List.mem_cons_of_mem _ hb')
  cases hr : gridAction avoid sub step v mn mx bs iter I with
  | ok I' => exact ⟨I', rfl⟩
  | ub => exact absurd hr (C33_defined _ _ _ _ _ _ _ _ _)
  | throws =>
    exfalso
    unfold gridAction at hr
    rw [hg, Res.bind_ok] at hr
    rcases allBodies_any v bs 0 hsz with ha | ⟨g', ha, f, -, n⟩
    · exact main bs 0 g hsz hsh ha
    · rw [ha, Res.bind_ok] at hr
      obtain ⟨I2, e, -⟩ := collisions_ok avoid sub bs iter g' ((List.range g'.len.toNat).map fun n : Nat => (n : Int)) I
        fun k _ x hx => by
          rcases n k x hx with h | h
          · rw [hd] at h; cases h
          · exact h.2
      rw [e] at hr; cases hr

end

/-- attributes of an ordinary body -/
def flt0 (i : Int) : Flt := ⟨i, -1, 1, 0, false⟩

/-- a sphere -/
def ball (i : Int) (x y z r : Rat) : Option (GBody Rat) := some ⟨flt0 i, ![x, y, z], some (some r)⟩

/-- a run on a concrete scene, one sphere outside the grid, one erased body -/
example : gridAction 0 0 (1 : Rat) (1/10) ![0, 0, 0] ![4, 4, 4] [ball 0 (5/2) 1 1 (1/2), none, ball 2 (7/2) 1 1 (1/2), ball 3 9 9 9 1] 3 [] =
    .ok [⟨0, 2, false, 3⟩] := by decide +kernel

/-- the hypotheses of `C33_found_partial` on it -/
example : IsSphere [ball 0 (5/2) 1 1 (1/2), none, ball 2 (7/2) 1 1 (1/2)] 2 ![7/2, 1, 1] (1/2) (flt0 2) ∧
    dist2 (![5/2, 1, 1] : Fin 3 → Rat) ![7/2, 1, 1] ≤ (1/2 + 1/2 + 2 * (1/10)) ^ 2 ∧ filter 0 0 (flt0 0) (flt0 2) = true := by
  refine ⟨rfl, ?_, ?_⟩ <;> decide +kernel

/-- **C33 does not hold** for a grid whose origin has unequal coordinates: two overlapping spheres inside the grid get no interaction, because the
second coordinate of the origin is subtracted from all coordinates of a point while cells are placed with the origin itself -/
theorem C33_violated_origin : ∃ (mn mx : Fin 3 → Rat) (C D : Fin 3 → Rat) (r : Rat), (∀ i, mn i < C i ∧ C i < mx i) ∧ (∀ i, mn i < D i ∧ D i < mx i) ∧
    dist2 C D < (r + r) ^ 2 ∧ filter 0 0 (flt0 0) (flt0 1) = true ∧
    gridAction 0 0 1 0 mn mx [some ⟨flt0 0, C, some (some r)⟩, some ⟨flt0 1, D, some (some r)⟩] 3 [] = .ok [] := by
  refine ⟨![0, 2, 0], ![6, 8, 6], ![29/10, 5, 3], ![31/10, 5, 3], 3/10, ?_, ?_, ?_, ?_, ?_⟩
  all_goals decide +kernel

/-! ## C34 -/

section
variable {R : Type} [LinearOrder R]

/-- what `std::sort` promises -/
def Sorts (srt : List (Rk R) → List (Rk R)) : Prop := ∀ l, (srt l).Perm l ∧ (srt l).Pairwise fun r s => r.mn 0 ≤ s.mn 0

/-- all bodies exist and have a box, which is not inverted along x -/
def AllBoxed (bs : List (Option (QBody R))) : Prop := ∀ b ∈ bs, ∃ a p, b = some a ∧ a.box = some p ∧ p.1 0 ≤ p.2 0

theorem quick_run {srt : List (Rk R) → List (Rk R)} (hsrt : Sorts srt) (iter : Int) {bs : List (Option (QBody R))} (hb : AllBoxed bs)
    (rank : List (Option (Rk R))) (I : List GI) : ∃ rank' I', qAction srt iter bs rank I = .ok (rank', I') ∧
      Grown (Ov bs) iter (I.filter (·.real)) I' ∧ ∀ i j, i ≠ j → Ov bs i j → Seen iter I' i j := by
  unfold qAction
  have hlen := boxes_length bs 0 fun b hb' => by
    obtain ⟨a, p, h1, h2, -⟩ := hb b hb'
    exact ⟨a, p, h1, h2⟩
  rw [overwrite_all hlen, readAll_map, Res.bind_ok]
  have hperm := (hsrt (boxes 0 bs)).1
  have hent : ∀ r ∈ srt (boxes 0 bs), IsEntry bs r := by
    intro r hr
    obtain ⟨-, b, hb1, hb2⟩ := (boxes_mem bs 0 r).mp (hperm.mem_iff.mp hr)
    rw [Nat.sub_zero] at hb1
    refine ⟨b, hb1, hb2, ?_⟩
    have hmem : some b ∈ bs := by
      rw [List.getD_eq_getElem?_getD] at hb1
      cases hx : bs[r.id]? with
      | none => rw [hx] at hb1; cases hb1
      | some y =>
        rw [hx] at hb1
        have : y = some b := hb1
        subst this
        exact List.mem_of_getElem? hx
    obtain ⟨a, p, h1, h2, h3⟩ := hb _ hmem
    injection h1 with h1; subst h1
    rw [hb2] at h2; injection h2 with h2; subst h2
    exact h3
  obtain ⟨I', e, g, s⟩ := qOuter_ok iter (srt (boxes 0 bs)) (I.filter (·.real)) hent (hsrt _).2
    ((hperm.pairwise_iff fun h => h.symm).mpr (boxes_pairwise bs 0))
  refine ⟨_, I', by rw [e, Res.bind_ok], g, fun i j hij hov => ?_⟩
  have hov' := hov
  obtain ⟨a, b, p, q, h1, h2, h3, h4, -⟩ := hov
  exact s ⟨i, p.1, p.2⟩ (hperm.mem_iff.mpr ((boxes_mem bs 0 _).mpr ⟨Nat.zero_le _, a, h1, h3⟩)) ⟨j, q.1, q.2⟩
    (hperm.mem_iff.mpr ((boxes_mem bs 0 _).mpr ⟨Nat.zero_le _, b, h2, h4⟩)) hij hov'

/-- **C34**, when every body exists and has a box: whatever earlier runs left in the collider, after the run
* every contact is still there, at most marked as seen;
* every pair of different bodies with overlapping boxes has an interaction, and all of them were seen in this step;
* every other interaction is a contact of before, or joins two different existing bodies with overlapping boxes, is not a contact and was seen in this step.
What is missing: that the pair may collide, and scenes with bodies without a box or erased; see `C34_violated_filter`, `C34_violated_no_box`,
`C34_violated_erased` and `C34_violated_stale`. -/
theorem C34_exact_partial {srt : List (Rk R) → List (Rk R)} (hsrt : Sorts srt) (iter : Int) {bs : List (Option (QBody R))} (hb : AllBoxed bs)
    (rank : List (Option (Rk R))) (I : List GI) : ∃ rank' I', qAction srt iter bs rank I = .ok (rank', I') ∧
      (∀ e ∈ I, e.real = true → e ∈ I' ∨ { e with seen := iter } ∈ I') ∧
      (∀ i j, i ≠ j → Ov bs i j → (∃ e ∈ I', Joins e i j) ∧ ∀ e ∈ I', Joins e i j → e.seen = iter) ∧
      ∀ e' ∈ I', (∃ e ∈ I, e.real = true ∧ (e' = e ∨ e' = { e with seen := iter })) ∨
        (e'.real = false ∧ e'.a ≠ e'.b ∧ Ov bs e'.a e'.b ∧ e'.seen = iter) := by
  obtain ⟨rank', I', e, g, s⟩ := quick_run hsrt iter hb rank I
  refine ⟨rank', I', e, fun e he hr => g.old e (List.mem_filter.mpr ⟨he, hr⟩), fun i j hij hov => ?_, fun e' he' => ?_⟩
  · obtain ⟨h1, h2⟩ := s i j hij hov
    obtain ⟨f, hf, hh⟩ := (has_iff _ _ _).mp h1
    exact ⟨⟨f, hf, (is_joins _ _ _).mp hh⟩, fun e he hj => h2 e he ((is_joins _ _ _).mpr hj)⟩
  · rcases g.new e' he' with ⟨f, hf, hh⟩ | ⟨h1, h2, h3, -, -⟩
    · obtain ⟨hf1, hf2⟩ := List.mem_filter.mp hf
      exact .inl ⟨f, hf1, hf2, hh⟩
    · exact .inr ⟨h1, h3, h2, (s _ _ h3 h2).2 e' he' ((is_joins _ _ _).mpr (.inl ⟨rfl, rfl⟩))⟩

end

/-- insertion of an entry before the first one with a larger lower x -/
def insRk (r : Rk Rat) : List (Rk Rat) → List (Rk Rat)
  | [] => [r]
  | s :: l => if r.mn 0 ≤ s.mn 0 then r :: s :: l else s :: insRk r l

/-- a sort -/
def sortRk (l : List (Rk Rat)) : List (Rk Rat) := l.foldr insRk []

theorem insRk_perm (r : Rk Rat) : ∀ l, (insRk r l).Perm (r :: l)
  | [] => .refl _
  | s :: l => by
    unfold insRk
    split
    · exact .refl _
    · exact ((insRk_perm r l).cons s).trans (.swap _ _ _)

theorem sorts_sortRk : Sorts sortRk := by
  intro l
  unfold sortRk
  induction l with
  | nil => exact ⟨.refl _, .nil⟩
  | cons r l ih =>
    refine ⟨(insRk_perm r _).trans (ih.1.cons r), ?_⟩
    rw [List.foldr_cons]
    obtain ⟨-, h⟩ := ih
    generalize l.foldr insRk [] = m at h
    induction m with
    | nil => exact List.pairwise_singleton _ _
    | cons s m ihm =>
      unfold insRk
      split
      · rename_i hle
        refine List.pairwise_cons.mpr ⟨fun t ht => ?_, h⟩
        rcases List.mem_cons.mp ht with rfl | ht
        · exact hle
        · exact le_trans hle ((List.pairwise_cons.mp h).1 t ht)
      · rename_i hle
        refine List.pairwise_cons.mpr ⟨fun t ht => ?_, ihm (List.pairwise_cons.mp h).2⟩
        rcases List.mem_cons.mp ((insRk_perm r m).mem_iff.mp ht) with rfl | ht
        · exact (not_le.mp hle).le
        · exact (List.pairwise_cons.mp h).1 t ht

/-- a body with a box of side 2 around (x, 0, 0) -/
def qb (i : Int) (mask : Nat) (x : Rat) : Option (QBody Rat) := some ⟨⟨i, -1, mask, 0, false⟩, some (![x - 1, -1, -1], ![x + 1, 1, 1])⟩

/-- the interactions after a run -/
def qRes (r : Res (List (Option (Rk Rat)) × List GI)) : Option (List GI) := match r with | .ok (_, I) => some I | _ => none

/-- a run: the potential interaction 0–2 goes, the contact 0–3 stays -/
example : AllBoxed [qb 0 1 0, qb 1 1 1, qb 2 1 (5/2), qb 3 1 9] ∧
    qRes (qAction sortRk 4 [qb 0 1 0, qb 1 1 1, qb 2 1 (5/2), qb 3 1 9] [] [⟨0, 2, false, 3⟩, ⟨0, 3, true, 2⟩]) =
      some [⟨0, 3, true, 2⟩, ⟨0, 1, false, 4⟩, ⟨1, 2, false, 4⟩] := by
  refine ⟨?_, by decide +kernel⟩
  intro b hb
  simp only [List.mem_cons, List.not_mem_nil, or_false] at hb
  rcases hb with rfl | rfl | rfl | rfl <;> exact ⟨_, _, rfl, rfl, by norm_num⟩

/-- **C34 does not hold**: bodies that may not collide (here their masks have no common bit) get an interaction -/
theorem C34_violated_filter : filter 0 0 ⟨0, -1, 1, 0, false⟩ ⟨1, -1, 2, 0, false⟩ = false ∧
    qRes (qAction sortRk 4 [qb 0 1 0, qb 1 2 1] [] []) = some [⟨0, 1, false, 4⟩] := by
  constructor <;> decide +kernel

/-- **C34 does not hold**: in a scene with a body without a box the first run reads entries that were never written -/
theorem C34_violated_no_box : qAction sortRk 0 [qb 0 1 0, some ⟨⟨1, -1, 1, 0, false⟩, none⟩] [] [] = .ub := by rfl

/-- two runs, the second on changed bodies -/
def twoRuns (bs bs' : List (Option (QBody Rat))) : Res (List (Option (Rk Rat)) × List GI) :=
  (qAction sortRk 4 bs [] []).bind fun (rank, I) => qAction sortRk 5 bs' rank I

/-- is the outcome undefined? -/
def isUb {α : Type} : Res α → Bool
  | .ub => true
  | _ => false

/-- **C34 does not hold**: when a body is erased between two runs, the second run uses its old box and dereferences the missing body -/
theorem C34_violated_erased : qRes (qAction sortRk 4 [qb 0 1 0, qb 1 1 3] [] []) = some [] ∧
    isUb (twoRuns [qb 0 1 0, qb 1 1 3] [qb 0 1 (5/2), none]) = true := by
  constructor <;> decide +kernel

/-- **C34 does not hold**: when a body is erased between two runs, a body that has moved away still gets an interaction for the box it had before -/
theorem C34_violated_stale : ¬ Ov [none, qb 1 1 4, qb 2 1 9] 1 2 ∧
    qRes (twoRuns [qb 0 1 0, qb 1 1 3, qb 2 1 (7/2)] [none, qb 1 1 4, qb 2 1 9]) = some [⟨2, 1, false, 5⟩] := by
  constructor
  · rintro ⟨a, b, p, q, h1, h2, h3, h4, h5⟩
    have e1 : a = ⟨⟨1, -1, 1, 0, false⟩, some (![4 - 1, -1, -1], ![4 + 1, 1, 1])⟩ := (Option.some.inj h1).symm
    have e2 : b = ⟨⟨2, -1, 1, 0, false⟩, some (![9 - 1, -1, -1], ![9 + 1, 1, 1])⟩ := (Option.some.inj h2).symm
    subst e1 e2
    have e3 := Option.some.inj h3
    have e4 := Option.some.inj h4
    subst e3 e4
    have := h5.1.2
    norm_num at this
  · decide +kernel

/-! ## C104 -/

section
open Verif.Loop
variable {G Ph : Type}

/-- the interaction of the loop's model is the one the collider left, in the step the collider ran: both colliders set `iterColliderLastRun` to the step
(FlatGridCollider.cpp 29, SpatialQuickSortCollider.cpp 51) -/
def InLoop (E : Env G Ph) (iter : Int) (e : GI) (I : Intr G Ph) : Prop :=
  E.iter = iter ∧ E.lastRun = iter ∧ I.id1 = e.a ∧ I.id2 = e.b ∧ I.isReal = e.real ∧ I.lastSeen = e.seen

/-- **C104** for the quick-sort collider: whatever pair of different bodies has overlapping boxes, the interaction loop of the same step does not pass
over its interaction -/
theorem C104_quick {R : Type} [LinearOrder R] {srt : List (Rk R) → List (Rk R)} (hsrt : Sorts srt) {iter : Int}
    {bs : List (Option (QBody R))} (hb : AllBoxed bs) {rank rank' : List (Option (Rk R))} {I I' : List GI}
    (h : qAction srt iter bs rank I = .ok (rank', I')) {e : GI} (he : e ∈ I') {E : Env G Ph} {i : Intr G Ph} (hl : InLoop E iter e i) :
    ¬ NotSeen E i := by
  obtain ⟨r2, I2, e2, -, -, h3⟩ := C34_exact_partial hsrt iter hb rank I
  rw [h] at e2
  injection e2 with e2
  injection e2 with _ e2
  subst e2
  rintro ⟨-, -, h5, h6⟩
  obtain ⟨l1, -, -, -, l5, l6⟩ := hl
  rw [l5] at h5
  rw [l6, l1] at h6
  rcases h3 e he with ⟨f, -, hf, rfl | rfl⟩ | ⟨-, -, -, hs⟩
  · rw [hf] at h5; cases h5
  · rw [show ({ f with seen := iter } : GI).real = f.real from rfl, hf] at h5; cases h5
  · omega

/-- **C104** for the grid collider, for pairs that had an interaction before: if the spheres are close enough to be found (grid origin with equal
coordinates), the loop of the same step does not pass over it.  What is missing: new interactions, see `C104_violated_new`. -/
theorem C104_known_partial {R : Type} [Field R] [LinearOrder R] [IsStrictOrderedRing R] [FloorRing R] {avoid : Nat} {sub : Int} {step v : R}
    {mn mx : Fin 3 → R} {bs : List (Option (GBody R))} {iter : Int} {I I' : List GI} (h : gridAction avoid sub step v mn mx bs iter I = .ok I')
    (hm : mn 0 = mn 1 ∧ mn 2 = mn 1) (hv : 0 ≤ v) {i j : Nat} (hij : i ≠ j) {C D : Fin 3 → R} {r s : R} {f f' : Flt} (hi : IsSphere bs i C r f)
    (hj : IsSphere bs j D s f') (hr : 0 ≤ r) (hs : 0 ≤ s) (hd : dist2 C D ≤ (r + s + 2 * v) ^ 2) (hk : ∃ e ∈ I, Joins e i j)
    {e : GI} (he : e ∈ I') (hje : Joins e i j) {E : Env G Ph} {x : Intr G Ph} (hl : InLoop E iter e x) : ¬ NotSeen E x := by
  obtain ⟨g, g', hg, ha, -, -, -, hp⟩ := grid_run h
  obtain ⟨hst, hmn, hsz, -⟩ := updateGrid_ok hg
  have hmm : ∀ a, g.mn a = g.mn 1 := by
    rw [hmn]; intro a
    fin_cases a
    · exact hm.1
    · rfl
    · exact hm.2
  obtain ⟨X, hX1, hX2⟩ := common_point (C := C) (D := D) (r := r + v) (s := s + v) (by linarith) (by linarith)
    (by rw [show r + v + (s + v) = r + s + 2 * v by ring]; exact hd)
  have h1 := allBodies_in v bs 0 hsz hst hmm ha hi rfl (by linarith) X hX1
  have h2 := allBodies_in v bs 0 hsz hst hmm ha hj rfl (by linarith) X hX2
  rw [Nat.zero_add] at h1 h2
  obtain ⟨e0, he0, hj0⟩ := hk
  have := ((hp _ i j h1 h2 hij).2 ((has_iff _ _ _).mpr ⟨e0, he0, (is_joins _ _ _).mpr hj0⟩)).2 e he ((is_joins _ _ _).mpr hje)
  rintro ⟨-, -, -, h6⟩
  rw [hl.2.2.2.2.2, hl.1] at h6
  omega

/-- the hypotheses of `C104_known_partial` are met in a concrete run -/
example : gridAction 0 0 (1 : Rat) 0 ![0, 0, 0] ![4, 4, 4] [ball 0 (5/4) (5/2) (5/2) (1/5), ball 1 (6/4) (5/2) (5/2) (1/5)] 3 [⟨0, 1, false, 1⟩] =
    .ok [⟨0, 1, false, 3⟩] := by decide +kernel

/-- **C104 does not hold** for the grid collider: two overlapping spheres in one cell get a new interaction, but the loop of the same step passes over it,
whatever the functors are: no contact is created, no force computed -/
theorem C104_violated_new : dist2 (![5/4, 5/2, 5/2] : Fin 3 → Rat) ![6/4, 5/2, 5/2] < (1/5 + 1/5) ^ 2 ∧
    ∃ e : GI, gridAction 0 0 (1 : Rat) 0 ![0, 0, 0] ![4, 4, 4] [ball 0 (5/4) (5/2) (5/2) (1/5), ball 1 (6/4) (5/2) (5/2) (1/5)] 3 [] = .ok [e] ∧
    ∀ (E : Env G Ph) (i : Intr G Ph), InLoop E 3 e i → process E i = .done i [.later i.id1 i.id2] := by
  refine ⟨by decide +kernel, ⟨0, 1, false, -1⟩, by decide +kernel, fun E i h => C100_untouched_partial ?_⟩
  obtain ⟨h1, h2, -, -, h5, h6⟩ := h
  exact ⟨by omega, by omega, h5, by rw [h6, h1]; decide⟩

end

/-! ## C105 -/

section
open Verif.Mech

/-- the collider's turns: `fast n` is its estimate and `mv n` the integrator's `maxVelocitySq` when the turn `n` comes; it does not run in the turns before `N` -/
def Idle (dt verlet : ℝ) (mv : Nat → ℝ) (fast : Nat → ℝ) (N : Nat) : Prop :=
  ∀ n < N, gridTurn (some (mv n)) dt verlet (fast n) = (false, fast (n + 1))

/-- **C105**, if `maxVelocitySq` were the square of the largest speed: as long as the collider does not run, no coordinate of any body has changed by more
than the Verlet distance since the last run.  What is missing: `maxVelocitySq` is something else, see `C105_violated_never`. -/
theorem C105_bounded_partial {dt verlet : ℝ} {mv fast : Nat → ℝ} {N : Nat} (h0 : fast 0 = 0) (hv : 0 ≤ verlet) (h : Idle dt verlet mv fast N)
    {x : Nat → ℝ} (hx : ∀ n < N, |x (n + 1) - x n| ≤ Real.sqrt (mv n) * dt) : |x N - x 0| ≤ verlet := by
  have key : ∀ n ≤ N, |x n - x 0| ≤ fast n ∧ (n = 0 ∨ fast n ≤ verlet) := by
    intro n
    induction n with
    | zero => intro _; simp [h0]
    | succ n ih =>
      intro hn
      obtain ⟨h1, -⟩ := ih (by omega)
      have h2 := h n (by omega)
      unfold gridTurn gridActivated at h2
      simp only [Prod.mk.injEq, decide_eq_false_iff_not, not_lt, decide_eq_true_eq] at h2
      obtain ⟨h3, h4⟩ := h2
      rw [if_neg (not_lt.mpr h3)] at h4
      have h5 := hx n (by omega)
      refine ⟨?_, .inr (by rw [← h4]; exact h3)⟩
      calc |x (n + 1) - x 0| = |(x (n + 1) - x n) + (x n - x 0)| := by ring_nf
        _ ≤ |x (n + 1) - x n| + |x n - x 0| := abs_add_le _ _
        _ ≤ fast (n + 1) := by rw [← h4]; linarith
  obtain ⟨h1, h2 | h2⟩ := key N (le_refl _)
  · subst h2; simpa using hv
  · exact h1.trans h2

/-- with these numbers the collider is idle for two turns and runs in the third -/
example : Idle 1 (5/2) (fun _ => 1) (fun n => n) 2 ∧ (gridTurn (some 1) 1 (5/2) 2).1 = true := by
  constructor
  · intro n hn
    unfold gridTurn gridActivated
    have : ¬ ((5 : ℝ) / 2 < n + 1) := by
      have : (n : ℝ) ≤ 1 := by exact_mod_cast (by omega : n ≤ 1)
      linarith
    simp [this]
  · unfold gridTurn gridActivated
    norm_num

/-- no body has a bounding box: the grid collider does not make any, and does not use any -/
def NoBox (w : World) : Prop := ∀ i b, w.bodies i = some b → b.bound = none

theorem NoBox.set {w : World} (h : NoBox w) {i : Nat} {b : Bod} (hb : b.bound = none) : NoBox (w.setBody i b) := by
  intro j c hc
  unfold World.setBody at hc
  dsimp only at hc
  split at hc
  · injection hc with hc; rw [← hc]; exact hb
  · exact h j c hc

theorem save_noBox {b : Bod} (hb : b.bound = none) (w : World) : saveMaximaDisplacement b w = w := by
  unfold saveMaximaDisplacement; rw [hb]

theorem save_noBox' {b : Bod} (hb : b.bound = none) (s : Mech.State) (w : World) : saveMaximaDisplacement { b with st := s } w = w :=
  save_noBox (b := { b with st := s }) hb w

theorem move_noBox (c : Mech.State) : ∀ (ms : List (Nat × Se3)) (w w' : World), NoBox w → moveMembers c ms w = .ok w' →
    NoBox w' ∧ w'.maxVelocitySq = w.maxVelocitySq ∧ w'.periodic = w.periodic
  | [], w, w', hn, h => by injection h with h; subst h; exact ⟨hn, rfl, rfl⟩
  | (i, rel) :: ms, w, w', hn, h => by
    unfold moveMembers at h
    cases hb : w.bodies i with
    | none => rw [hb] at h; cases h
    | some b =>
      rw [hb] at h
      dsimp only at h
      rw [save_noBox' (hn i b hb)] at h
      obtain ⟨h1, h2, h3⟩ := move_noBox c ms _ w' (hn.set (by exact hn i b hb)) h
      exact ⟨h1, h2, h3⟩

theorem loop_noBox (P : Params) (D : Deform) : ∀ (o : List Nat) (w w' : World), NoBox w → actLoop P D o w = .ok w' →
    NoBox w' ∧ w'.maxVelocitySq = w.maxVelocitySq ∧ w'.periodic = w.periodic
  | [], w, w', hn, h => by injection h with h; subst h; exact ⟨hn, rfl, rfl⟩
  | i :: o, w, w', hn, h => by
    unfold actLoop at h
    cases ha : actBody P D i w with
    | throws => rw [ha] at h; cases h
    | ub => rw [ha] at h; cases h
    | ok w1 =>
      rw [ha] at h
      have key : NoBox w1 ∧ w1.maxVelocitySq = w.maxVelocitySq ∧ w1.periodic = w.periodic := by
        unfold actBody at ha
        cases hb : w.bodies i with
        | none => rw [hb] at ha; injection ha with ha; subst ha; exact ⟨hn, rfl, rfl⟩
        | some b =>
          have hbn := hn i b hb
          rw [hb] at ha
          dsimp only at ha
          split at ha
          · injection ha with ha; subst ha; exact ⟨hn, rfl, rfl⟩
          · split at ha
            · injection ha with ha; subst ha; exact ⟨hn, rfl, rfl⟩
            · rw [save_noBox' hbn] at ha
              injection ha with ha
              subst ha
              exact ⟨hn.set hbn, rfl, rfl⟩
          · split at ha
            · injection ha with ha; subst ha; exact ⟨hn, rfl, rfl⟩
            · split at ha
              · cases ha
              · cases ha
              · rw [save_noBox' hbn] at ha
                generalize hv : ({ w with torque := _, force := _ } : World) = v at ha
                have hv1 : NoBox v := by rw [← hv]; exact hn
                have hv2 : v.maxVelocitySq = w.maxVelocitySq ∧ v.periodic = w.periodic := by rw [← hv]; exact ⟨rfl, rfl⟩
                obtain ⟨m1, m2, m3⟩ := move_noBox _ _ _ _ (hv1.set (by exact hbn)) ha
                exact ⟨m1, m2.trans hv2.1, m3.trans hv2.2⟩
      obtain ⟨k1, k2, k3⟩ := key
      obtain ⟨h1, h2, h3⟩ := loop_noBox P D o w1 w' k1 h
      exact ⟨h1, h2.trans k2, h3.trans k3⟩

theorem before_zero {P : Params} {w : World} (hp : w.periodic = false) : (beforeLoop P w).maxVelocitySq = 0 := by
  unfold beforeLoop
  dsimp only
  generalize hw : (if (w.cell.velGradChanged || _) = true then _ else w) = v
  have hv : v.periodic = false := by
    rw [← hw]; split
    · exact hp
    · exact hp
  split
  · rfl
  · rw [hv]; simp

/-- a run of the integrator on bodies without boxes leaves `maxVelocitySq` at zero, however fast they are -/
theorem newton_zero {P : Params} {o : List Nat} {w w' : World} (hn : NoBox w) (hp : w.periodic = false) (h : action P o w = .ok w') :
    w'.maxVelocitySq = 0 := by
  unfold Mech.action at h
  dsimp only at h
  cases hl : actLoop P (beforeLoop P w).deform o (beforeLoop P w) with
  | throws => rw [hl] at h; cases h
  | ub => rw [hl] at h; cases h
  | ok u =>
    rw [hl] at h
    injection h with h
    subst h
    have hnb : NoBox (beforeLoop P w) := by
      intro i b hb
      rw [(beforeLoop_frame P w).1] at hb
      exact hn i b hb
    rw [(afterLoop_frame u).2.2, (loop_noBox P _ o _ u hnb hl).2.1, before_zero hp]

/-- a run of a scene: in step `n` the integrator turns `w n` into a scene with the same `maxVelocitySq` as `w (n + 1)`; everything else may be changed
by other engines in between; no body has a box and the scene is not periodic -/
def Steps (w : Nat → World) (P : Nat → Params) (o : Nat → List Nat) : Prop :=
  ∀ n, NoBox (w n) ∧ (w n).periodic = false ∧ ∃ u, action (P n) (o n) (w n) = .ok u ∧ u.maxVelocitySq = (w (n + 1)).maxVelocitySq

/-- **C105 does not hold**: after its first run (which sets the estimate to zero) the grid collider never runs again, whatever the bodies do: the integrator
only records for bodies with boxes -/
theorem C105_violated_never {w : Nat → World} {P : Nat → Params} {o : Nat → List Nat} (h : Steps w P o) {dt verlet : ℝ} (hv : 0 ≤ verlet) (N : Nat) :
    Idle dt verlet (fun n => (w (n + 1)).maxVelocitySq) (fun _ => 0) N := by
  intro n _
  obtain ⟨hn, hp, u, hu, he⟩ := h n
  have hz : (w (n + 1)).maxVelocitySq = 0 := by rw [← he]; exact newton_zero hn hp hu
  unfold gridTurn gridActivated
  simp [hz, not_lt.mpr hv]

/-- a body moving steadily along x, at `n` -/
def Mover (n : Nat) (w : World) : Prop :=
  w.periodic = false ∧ w.subdomain = 0 ∧ w.moveRotUsed = false ∧ (∀ i, i ≠ 0 → w.bodies i = none) ∧
  ∃ b, w.bodies 0 = some b ∧ b.kind = .standalone ∧ b.subdomain = 0 ∧ b.isSubdomain = false ∧ b.aspherical = false ∧ b.maskCompatible = true ∧
    b.bound = none ∧ b.st.blocked = dofAll ∧ b.st.vel = ![1, 0, 0] ∧ b.st.pos 0 = n

theorem mover_step {n : Nat} {w : World} (h : Mover n w) : ∃ w', action exParams [0] w = .ok w' ∧ Mover (n + 1) w' := by
  obtain ⟨hp, hs, hm, ho, ⟨st, kind, sd, isd, asph, mc, bnd⟩, hb, hk, hbs, hbi, hba, hbm, hbb, hbl, hbv, hbp⟩ := h
  dsimp only at hk hbs hbi hba hbm hbb hbl hbv hbp
  subst hk hbs hbi hba hbm hbb
  obtain ⟨f1, f2, f3, f4, f5, f6, f7, f8⟩ := beforeLoop_frame exParams w
  have hD : (beforeLoop exParams w).deform.periodic = false := by unfold World.deform; rw [← hp]; exact f2
  generalize hD' : (beforeLoop exParams w).deform = D at hD
  unfold Mech.action
  simp only [actLoop, actBody, f1, hb, f8, hs, hD', ne_eq, not_true_eq_false, Bool.false_eq_true, or_self, if_false]
  rw [save_noBox rfl]
  generalize hst : stepState exParams D _ _ _ st = st'
  refine ⟨_, rfl, ?_⟩
  generalize hb' : Bod.mk st' .standalone 0 false false true none = b'
  obtain ⟨a1, a2, -⟩ := afterLoop_frame ((beforeLoop exParams w).setBody 0 b')
  have a3 : ∀ v : World, (afterLoop v).subdomain = v.subdomain ∧ (afterLoop v).moveRotUsed = v.moveRotUsed := by
    intro v; unfold afterLoop; split <;> exact ⟨rfl, rfl⟩
  refine ⟨a2.trans (f2.trans hp), (a3 _).1.trans (f8.trans hs), (a3 _).2.trans (f5.trans hm), fun i hi => ?_, b', ?_, ?_⟩
  · rw [a1]; unfold World.setBody; dsimp only; rw [if_neg hi, f1]; exact ho i hi
  · rw [a1]; unfold World.setBody; dsimp only; rw [if_pos rfl]
  · rw [← hb']
    refine ⟨rfl, rfl, rfl, rfl, rfl, rfl, ?_⟩
    dsimp only
    rw [← hst]
    simp only [stepState, hbl, ne_eq, not_true_eq_false, if_false, hD, Bool.false_and, Bool.false_eq_true, useAspherical, World.extern,
      Bool.and_false, Bool.not_false, if_true, leapfrogSphericalRotate, leapfrogTranslate, imposedRot, f5, hm, moves]
    have hmv : (decide (exParams.mask ≤ 0) || true) = true := by simp
    simp only [hmv, if_true]
    split <;> refine ⟨rfl, hbv, ?_⟩ <;> simp [hbp, hbv, exParams]

/-- such runs exist, with a body that gets arbitrarily far from where it was when the collider last ran -/
theorem C105_violated_far : ∃ (w : Nat → World), Steps w (fun _ => exParams) (fun _ => [0]) ∧
    ∀ n, ∃ b, (w n).bodies 0 = some b ∧ b.st.pos 0 = n := by
  have h0 : Mover 0 (exWorld fun j => if j = 0 then some (exBod (exState dofAll ![1, 0, 0]) .standalone) else none) := by
    refine ⟨rfl, rfl, rfl, fun i hi => if_neg hi, exBod (exState dofAll ![1, 0, 0]) .standalone, by simp [exWorld], rfl, rfl, rfl, rfl, rfl, rfl, rfl, rfl, ?_⟩
    simp [exBod, exState]
  choose! nx hn1 hn2 using fun (n : Nat) (w : World) (h : Mover n w) => mover_step h
  let w : Nat → World := fun n => Nat.rec (exWorld fun j => if j = 0 then some (exBod (exState dofAll ![1, 0, 0]) .standalone) else none)
    (fun n v => nx n v) n
  have hw : ∀ n, Mover n (w n) := by
    intro n
    induction n with
    | zero => exact h0
    | succ n ih => exact hn2 n _ ih
  refine ⟨w, fun n => ⟨fun i b hb => ?_, (hw n).1, _, hn1 n _ (hw n), rfl⟩, fun n => ?_⟩
  · obtain ⟨-, -, -, ho, b', hb', -, -, -, -, -, hbb, -⟩ := hw n
    by_cases hi : i = 0
    · subst hi; rw [hb'] at hb; injection hb with hb; rw [← hb]; exact hbb
    · rw [ho i hi] at hb; cases hb
  · obtain ⟨-, -, -, -, b, hb, -, -, -, -, -, -, -, -, hp⟩ := hw n
    exact ⟨b, hb, hp⟩

end

end Verif.Grid
