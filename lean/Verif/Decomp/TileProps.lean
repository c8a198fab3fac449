import Verif.Decomp.Model

/-!
# Subdomains of a grid tile the box: C161
-/
namespace Verif.Decomp
open Verif.Mech
open scoped Classical

/-! ## Specification -/

/-- The point lies in the block spanned by the points of the subdomain. -/
def Inside (sd : Sub) (p : V3) : Prop := ∀ a, (∃ q ∈ sd.points, q a ≤ p a) ∧ ∃ q ∈ sd.points, p a ≤ q a

/-- The point lies in the block and not on its surface. -/
def Interior (sd : Sub) (p : V3) : Prop := ∀ a, (∃ q ∈ sd.points, q a < p a) ∧ ∃ q ∈ sd.points, p a < q a

/-- The point lies in the box. -/
def InBox (mn mx p : V3) : Prop := ∀ a, mn a ≤ p a ∧ p a ≤ mx a

/-! ## Blocks -/

/-- The corners of a block. -/
def corners8 (lo hi : V3) : List V3 :=
  [![lo 0, lo 1, lo 2], ![hi 0, lo 1, lo 2], ![lo 0, hi 1, lo 2], ![hi 0, hi 1, lo 2],
   ![lo 0, lo 1, hi 2], ![hi 0, lo 1, hi 2], ![lo 0, hi 1, hi 2], ![hi 0, hi 1, hi 2]]

theorem one_points (g : Grid) (i j k w : Nat) : (makeOne g i j k w).points = corners8 (g.pt i j k) (g.pt (i + 1) (j + 1) (k + 1)) := by
  simp [makeOne, corners8, Grid.pt]

theorem first_points (g : Grid) (i j k w : Nat) : (makeFirst g i j k w).points = corners8 (g.pt i j k) (half g i (j + 1) (k + 1)) := by
  simp [makeFirst, corners8, Grid.pt, half]

theorem second_points (g : Grid) (i j k w : Nat) : (makeSecond g i j k w).points = corners8 (half g i j k) (g.pt (i + 1) (j + 1) (k + 1)) := by
  simp [makeSecond, corners8, Grid.pt, half]

theorem inside_iff {sd : Sub} {lo hi : V3} (h : sd.points = corners8 lo hi) (hle : ∀ a, lo a ≤ hi a) (p : V3) :
    Inside sd p ↔ ∀ a, lo a ≤ p a ∧ p a ≤ hi a := by
  refine forall_congr' fun a => ?_
  have := hle a
  rw [h]
  fin_cases a <;> simp [corners8] at this ⊢
  all_goals
    constructor
    · rintro ⟨h1, h2⟩
      constructor
      · casesm* _ ∨ _ <;> linarith
      · casesm* _ ∨ _ <;> linarith
    · tauto

theorem interior_iff {sd : Sub} {lo hi : V3} (h : sd.points = corners8 lo hi) (hle : ∀ a, lo a ≤ hi a) (p : V3) :
    Interior sd p ↔ ∀ a, lo a < p a ∧ p a < hi a := by
  refine forall_congr' fun a => ?_
  have := hle a
  rw [h]
  fin_cases a <;> simp [corners8] at this ⊢
  all_goals
    constructor
    · rintro ⟨h1, h2⟩
      constructor
      · casesm* _ ∨ _ <;> linarith
      · casesm* _ ∨ _ <;> linarith
    · tauto

/-! ## The grid -/

theorem linspace_mono {a b : ℝ} (h : a ≤ b) (n : Nat) {i j : Nat} (hij : i ≤ j) : linspace a b n i ≤ linspace a b n j := by
  have : (i : ℝ) ≤ j := by exact_mod_cast hij
  have h0 : 0 ≤ (b - a) / ((n - 1 : Nat) : ℝ) := div_nonneg (by linarith) (by positivity)
  rw [linspace, linspace]
  nlinarith

theorem linspace_zero (a b : ℝ) (n : Nat) : linspace a b n 0 = a := by simp [linspace]

theorem linspace_last (a b : ℝ) {n : Nat} (hn : 0 < n - 1) : linspace a b n (n - 1) = b := by
  have : ((n - 1 : Nat) : ℝ) ≠ 0 := by exact_mod_cast hn.ne'
  rw [linspace]
  field_simp
  ring

/-- Every number of the range is in one of the intervals. -/
theorem linspace_cover {a b : ℝ} (h : a ≤ b) {n : Nat} (hn : 0 < n - 1) {x : ℝ} (hx : a ≤ x) (hx' : x ≤ b) :
    ∃ i < n - 1, linspace a b n i ≤ x ∧ x ≤ linspace a b n (i + 1) := by
  by_contra hno
  push_neg at hno
  have key : ∀ i, i ≤ n - 1 → linspace a b n i ≤ x := by
    intro i
    induction i with
    | zero => intro _; rw [linspace_zero]; exact hx
    | succ i ih => intro hi; exact (hno i (by omega) (ih (by omega))).le
  have h1 := hno (n - 2) (by omega) (key _ (by omega))
  rw [show n - 2 + 1 = n - 1 by omega, linspace_last a b hn] at h1
  linarith

theorem pt_coord (g : Grid) (i j k : Nat) (a : Fin 3) : g.pt i j k a = linspace (g.mn a) (g.mx a) (g.n a) (![i, j, k] a) := by
  fin_cases a <;> rfl

/-- A cell of the grid as a block. -/
def InCell (g : Grid) (c : Nat × Nat × Nat) (p : V3) : Prop :=
  ∀ a, g.pt c.1 c.2.1 c.2.2 a ≤ p a ∧ p a ≤ g.pt (c.1 + 1) (c.2.1 + 1) (c.2.2 + 1) a

/-- Not on the surface of the cell. -/
def InOpenCell (g : Grid) (c : Nat × Nat × Nat) (p : V3) : Prop :=
  ∀ a, g.pt c.1 c.2.1 c.2.2 a < p a ∧ p a < g.pt (c.1 + 1) (c.2.1 + 1) (c.2.2 + 1) a

theorem mem_cells {nx ny nz : Nat} {c : Nat × Nat × Nat} : c ∈ cells nx ny nz ↔ c.1 < nx ∧ c.2.1 < ny ∧ c.2.2 < nz := by
  obtain ⟨i, j, k⟩ := c
  simp only [cells, List.mem_flatMap, List.mem_range, List.mem_map, Prod.mk.injEq]
  constructor
  · rintro ⟨a, ha, b, hb, d, hd, rfl, rfl, rfl⟩; exact ⟨ha, hb, hd⟩
  · rintro ⟨ha, hb, hd⟩; exact ⟨i, ha, j, hb, k, hd, rfl, rfl, rfl⟩

theorem cells_nodup (nx ny nz : Nat) : (cells nx ny nz).Nodup := by
  rw [cells, List.nodup_flatMap]
  refine ⟨fun i _ => ?_, ?_⟩
  · rw [List.nodup_flatMap]
    refine ⟨fun j _ => List.Nodup.map (fun a b h => by simpa using h) List.nodup_range, ?_⟩
    refine List.nodup_range.imp fun hne => ?_
    rw [Function.onFun, List.disjoint_left]
    intro c h1 h2
    simp only [List.mem_map] at h1 h2
    obtain ⟨_, _, rfl⟩ := h1
    obtain ⟨_, _, h⟩ := h2
    simp only [Prod.mk.injEq] at h
    exact hne h.2.1.symm
  · refine List.nodup_range.imp fun hne => ?_
    rw [Function.onFun, List.disjoint_left]
    intro c h1 h2
    simp only [List.mem_flatMap, List.mem_map] at h1 h2
    obtain ⟨_, _, _, _, rfl⟩ := h1
    obtain ⟨_, _, _, _, h⟩ := h2
    simp only [Prod.mk.injEq] at h
    exact hne h.1.symm

theorem cells_length (nx ny nz : Nat) : (cells nx ny nz).length = nx * ny * nz := by
  simp [cells, List.length_flatMap, mul_assoc]

theorem pt_le {g : Grid} (hb : ∀ a, g.mn a ≤ g.mx a) {i j k i' j' k' : Nat} (hi : i ≤ i') (hj : j ≤ j') (hk : k ≤ k') (a : Fin 3) :
    g.pt i j k a ≤ g.pt i' j' k' a := by
  rw [pt_coord, pt_coord]
  refine linspace_mono (hb a) _ ?_
  fin_cases a <;> simpa

theorem open_disjoint {g : Grid} (hb : ∀ a, g.mn a ≤ g.mx a) {c c' : Nat × Nat × Nat} (hne : c ≠ c') (p : V3) (h : InOpenCell g c p) (h' : InOpenCell g c' p) : False := by
  obtain ⟨i, j, k⟩ := c
  obtain ⟨i', j', k'⟩ := c'
  have key : ∀ a, ¬ (![i, j, k] a < ![i', j', k'] a) ∧ ¬ (![i', j', k'] a < ![i, j, k] a) := by
    intro a
    have e : ∀ x y z : Nat, (![x + 1, y + 1, z + 1] : Fin 3 → Nat) a = ![x, y, z] a + 1 := by
      intro x y z; fin_cases a <;> rfl
    have h1 := h a
    have h2 := h' a
    simp only [pt_coord, e] at h1 h2
    constructor
    · intro hlt
      have := linspace_mono (hb a) (g.n a) (show ![i, j, k] a + 1 ≤ ![i', j', k'] a by omega)
      linarith [h1.2, h2.1]
    · intro hlt
      have := linspace_mono (hb a) (g.n a) (show ![i', j', k'] a + 1 ≤ ![i, j, k] a by omega)
      linarith [h2.2, h1.1]
  apply hne
  have k0 := key 0
  have k1 := key 1
  have k2 := key 2
  simp at k0 k1 k2
  simp only [Prod.mk.injEq]
  omega

/-! ## The parts of a cell -/

/-- The coordinate at which a cell is halved. -/
theorem half_coord (g : Grid) (i j k : Nat) : half g i j k 0 = (g.pt i j k 0 + g.pt (i + 1) j k 0) / 2 ∧
    half g i j k 1 = g.pt i j k 1 ∧ half g i j k 2 = g.pt i j k 2 := by
  refine ⟨?_, rfl, rfl⟩
  simp only [half, Matrix.cons_val_zero]
  ring

theorem one_inside {g : Grid} (hb : ∀ a, g.mn a ≤ g.mx a) (i j k w : Nat) (p : V3) :
    (Inside (makeOne g i j k w) p ↔ InCell g (i, j, k) p) ∧ (Interior (makeOne g i j k w) p ↔ InOpenCell g (i, j, k) p) := by
  have hle : ∀ a, g.pt i j k a ≤ g.pt (i + 1) (j + 1) (k + 1) a := pt_le hb (by omega) (by omega) (by omega)
  exact ⟨inside_iff (one_points ..) hle p, interior_iff (one_points ..) hle p⟩

/-- The middle of the cell along the first axis. -/
noncomputable def midX (g : Grid) (i j k : Nat) : ℝ := (g.pt i j k 0 + g.pt (i + 1) (j + 1) (k + 1) 0) / 2

theorem first_inside {g : Grid} (hb : ∀ a, g.mn a ≤ g.mx a) (i j k w : Nat) (p : V3) :
    (Inside (makeFirst g i j k w) p ↔ InCell g (i, j, k) p ∧ p 0 ≤ midX g i j k) ∧
    (Interior (makeFirst g i j k w) p ↔ InOpenCell g (i, j, k) p ∧ p 0 < midX g i j k) := by
  have hle : ∀ a, g.pt i j k a ≤ g.pt (i + 1) (j + 1) (k + 1) a := pt_le hb (by omega) (by omega) (by omega)
  obtain ⟨e0, e1, e2⟩ := half_coord g i (j + 1) (k + 1)
  have x0 : g.pt i (j + 1) (k + 1) 0 = g.pt i j k 0 := rfl
  have x1 : g.pt i (j + 1) (k + 1) 1 = g.pt (i + 1) (j + 1) (k + 1) 1 := rfl
  have x2 : g.pt i (j + 1) (k + 1) 2 = g.pt (i + 1) (j + 1) (k + 1) 2 := rfl
  rw [x0] at e0
  rw [x1] at e1
  rw [x2] at e2
  have h0 := hle 0
  have hle' : ∀ a, g.pt i j k a ≤ half g i (j + 1) (k + 1) a := by
    intro a
    fin_cases a
    · show g.pt i j k 0 ≤ half g i (j + 1) (k + 1) 0
      rw [e0]; linarith
    · show g.pt i j k 1 ≤ half g i (j + 1) (k + 1) 1
      rw [e1]; exact hle 1
    · show g.pt i j k 2 ≤ half g i (j + 1) (k + 1) 2
      rw [e2]; exact hle 2
  rw [inside_iff (first_points ..) hle' p, interior_iff (first_points ..) hle' p]
  simp only [InCell, InOpenCell, Fin.forall_fin_succ, Fin.isValue, Fin.succ_zero_eq_one, Fin.succ_one_eq_two, IsEmpty.forall_iff, and_true, e0, e1, e2, midX]
  constructor
  · constructor
    · rintro ⟨⟨a, b⟩, c, d⟩; exact ⟨⟨⟨a, by linarith⟩, c, d⟩, b⟩
    · rintro ⟨⟨⟨a, -⟩, c, d⟩, b⟩; exact ⟨⟨a, b⟩, c, d⟩
  · constructor
    · rintro ⟨⟨a, b⟩, c, d⟩; exact ⟨⟨⟨a, by linarith⟩, c, d⟩, b⟩
    · rintro ⟨⟨⟨a, -⟩, c, d⟩, b⟩; exact ⟨⟨a, b⟩, c, d⟩

theorem second_inside {g : Grid} (hb : ∀ a, g.mn a ≤ g.mx a) (i j k w : Nat) (p : V3) :
    (Inside (makeSecond g i j k w) p ↔ InCell g (i, j, k) p ∧ midX g i j k ≤ p 0) ∧
    (Interior (makeSecond g i j k w) p ↔ InOpenCell g (i, j, k) p ∧ midX g i j k < p 0) := by
  have hle : ∀ a, g.pt i j k a ≤ g.pt (i + 1) (j + 1) (k + 1) a := pt_le hb (by omega) (by omega) (by omega)
  obtain ⟨e0, e1, e2⟩ := half_coord g i j k
  have x0 : g.pt (i + 1) j k 0 = g.pt (i + 1) (j + 1) (k + 1) 0 := rfl
  rw [x0] at e0
  have h0 := hle 0
  have hle' : ∀ a, half g i j k a ≤ g.pt (i + 1) (j + 1) (k + 1) a := by
    intro a
    fin_cases a
    · show half g i j k 0 ≤ g.pt (i + 1) (j + 1) (k + 1) 0
      rw [e0]; linarith
    · show half g i j k 1 ≤ g.pt (i + 1) (j + 1) (k + 1) 1
      rw [e1]; exact hle 1
    · show half g i j k 2 ≤ g.pt (i + 1) (j + 1) (k + 1) 2
      rw [e2]; exact hle 2
  rw [inside_iff (second_points ..) hle' p, interior_iff (second_points ..) hle' p]
  simp only [InCell, InOpenCell, Fin.forall_fin_succ, Fin.isValue, Fin.succ_zero_eq_one, Fin.succ_one_eq_two, IsEmpty.forall_iff, and_true, e0, e1, e2, midX]
  constructor
  · constructor
    · rintro ⟨⟨a, b⟩, c, d⟩; exact ⟨⟨⟨by linarith, b⟩, c, d⟩, a⟩
    · rintro ⟨⟨⟨-, b⟩, c, d⟩, a⟩; exact ⟨⟨a, b⟩, c, d⟩
  · constructor
    · rintro ⟨⟨a, b⟩, c, d⟩; exact ⟨⟨⟨by linarith, b⟩, c, d⟩, a⟩
    · rintro ⟨⟨⟨-, b⟩, c, d⟩, a⟩; exact ⟨⟨a, b⟩, c, d⟩

/-! ## The whole grid -/

theorem partition_spec {g : Grid} (hb : ∀ a, g.mn a ≤ g.mx a) (l : List (Nat × Nat × Nat)) (hl : l.Nodup) (u : Int) (w : Nat) :
    (∀ p, (∃ sd ∈ partition g u w l, Inside sd p) ↔ ∃ c ∈ l, InCell g c p) ∧
    (∀ sd ∈ partition g u w l, ∀ p, Interior sd p → ∃ c ∈ l, InOpenCell g c p) ∧
    ((partition g u w l).Pairwise fun sd sd' => ∀ p, Interior sd p → ¬ Interior sd' p) ∧
    (partition g u w l).map Sub.worker = List.range' (w + 1) (partition g u w l).length ∧
    (partition g u w l).length = l.length + min u.toNat l.length := by
  induction l generalizing u w with
  | nil => simp [partition]
  | cons c t ih =>
    obtain ⟨i, j, k⟩ := c
    rw [List.nodup_cons] at hl
    rw [partition]
    by_cases hu : u > 0
    · rw [if_pos hu]
      obtain ⟨i1, i2, i3, i4, i5⟩ := ih hl.2 (u - 1) (w + 2)
      refine ⟨?_, ?_, ?_, ?_, ?_⟩
      · intro p
        simp only [List.mem_cons, exists_eq_or_imp, i1 p, (first_inside hb i j k (w + 1) p).1, (second_inside hb i j k (w + 2) p).1]
        rw [← or_assoc]
        apply or_congr_left
        rw [← and_or_left]
        exact and_iff_left (le_total _ _)
      · intro sd hsd p hp
        rcases List.mem_cons.mp hsd with rfl | hsd
        · exact ⟨_, List.mem_cons_self, ((first_inside hb i j k (w + 1) p).2.mp hp).1⟩
        · rcases List.mem_cons.mp hsd with rfl | hsd
          · exact ⟨_, List.mem_cons_self, ((second_inside hb i j k (w + 2) p).2.mp hp).1⟩
          · obtain ⟨c, hc, h⟩ := i2 sd hsd p hp
            exact ⟨c, List.mem_cons_of_mem _ hc, h⟩
      · rw [List.pairwise_cons, List.pairwise_cons]
        refine ⟨?_, ?_, i3⟩
        · intro sd hsd p h1 h2
          have h1 := (first_inside hb i j k (w + 1) p).2.mp h1
          rcases List.mem_cons.mp hsd with rfl | hsd
          · have h2 := (second_inside hb i j k (w + 2) p).2.mp h2
            linarith [h1.2, h2.2]
          · obtain ⟨c, hc, h⟩ := i2 sd hsd p h2
            exact open_disjoint hb (fun e => hl.1 (by rw [e]; exact hc)) p h1.1 h
        · intro sd hsd p h1 h2
          have h1 := (second_inside hb i j k (w + 2) p).2.mp h1
          obtain ⟨c, hc, h⟩ := i2 sd hsd p h2
          exact open_disjoint hb (fun e => hl.1 (by rw [e]; exact hc)) p h1.1 h
      · simp only [List.map_cons, List.length_cons, i4]
        rfl
      · simp only [List.length_cons, i5]
        omega
    · rw [if_neg hu]
      obtain ⟨i1, i2, i3, i4, i5⟩ := ih hl.2 u (w + 1)
      refine ⟨?_, ?_, ?_, ?_, ?_⟩
      · intro p
        simp only [List.mem_cons, exists_eq_or_imp, i1 p, (one_inside hb i j k (w + 1) p).1]
      · intro sd hsd p hp
        rcases List.mem_cons.mp hsd with rfl | hsd
        · exact ⟨_, List.mem_cons_self, (one_inside hb i j k (w + 1) p).2.mp hp⟩
        · obtain ⟨c, hc, h⟩ := i2 sd hsd p hp
          exact ⟨c, List.mem_cons_of_mem _ hc, h⟩
      · rw [List.pairwise_cons]
        refine ⟨?_, i3⟩
        intro sd hsd p h1 h2
        obtain ⟨c, hc, h⟩ := i2 sd hsd p h2
        exact open_disjoint hb (fun e => hl.1 (by rw [e]; exact hc)) p ((one_inside hb i j k (w + 1) p).2.mp h1) h
      · simp only [List.map_cons, List.length_cons, i4]
        rfl
      · simp only [List.length_cons, i5]
        omega

theorem cells_cover {g : Grid} (hb : ∀ a, g.mn a ≤ g.mx a) (hn : ∀ a, 0 < g.n a - 1) (p : V3) :
    (∃ c ∈ cells (g.n 0 - 1) (g.n 1 - 1) (g.n 2 - 1), InCell g c p) ↔ InBox g.mn g.mx p := by
  constructor
  · rintro ⟨⟨i, j, k⟩, hc, h⟩ a
    obtain ⟨h1, h2⟩ := h a
    rw [mem_cells] at hc
    obtain ⟨c0, c1, c2⟩ := hc
    simp only at c0 c1 c2
    rw [pt_coord] at h1 h2
    have l1 := linspace_mono (hb a) (g.n a) (Nat.zero_le ((![i, j, k] : Fin 3 → Nat) a))
    have l2 := linspace_mono (hb a) (g.n a) (show (![i + 1, j + 1, k + 1] : Fin 3 → Nat) a ≤ g.n a - 1 by fin_cases a <;> simp <;> omega)
    rw [linspace_zero] at l1
    rw [linspace_last _ _ (hn a)] at l2
    simp only at h1 h2
    exact ⟨by linarith, by linarith⟩
  · intro h
    choose f hf hf' using fun a => linspace_cover (hb a) (hn a) (h a).1 (h a).2
    refine ⟨(f 0, f 1, f 2), mem_cells.mpr ⟨hf 0, hf 1, hf 2⟩, ?_⟩
    intro a
    rw [pt_coord, pt_coord]
    have := hf' a
    fin_cases a <;> exact this

/-- C161.  However a box is split, each point of the box and no other lies in a subdomain, no two subdomains share a point that is on the
surface of neither, and the workers are numbered 1, 2, 3, ...  Missing: axes along which no part is asked for, see `C161_violated`. -/
theorem C161_tiles_partial {fuel : Nat} {mn mx : V3} {num : Int} {decomp : Fin 3 → Nat} {g : Grid} {l : List Sub} (hb : ∀ a, mn a ≤ mx a)
    (h : globaldomain fuel mn mx num decomp = some (.ok (g, l))) (hn : ∀ a, 1 < g.n a) :
    (∀ p, (∃ sd ∈ l, Inside sd p) ↔ InBox mn mx p) ∧ (l.Pairwise fun sd sd' => ∀ p, Interior sd p → ¬ Interior sd' p) ∧
    l.map Sub.worker = List.range' 1 l.length := by
  have key : ∃ u, l = partitionSubdomains g u ∧ g.mn = mn ∧ g.mx = mx := by
    rw [globaldomain] at h
    split_ifs at h with hd
    · simp only [Option.map_eq_some_iff] at h
      obtain ⟨r, -, hr⟩ := h
      rcases r with ⟨n, u⟩ | _ | _
      · rw [Res.bind_ok] at hr
        have hr := Res.ok.inj hr
        simp only [Prod.mk.injEq] at hr
        obtain ⟨rfl, rfl⟩ := hr
        exact ⟨u, rfl, rfl, rfl⟩
      · cases hr
      · cases hr
    · simp only [Option.some.injEq] at h
      have h := Res.ok.inj h
      simp only [Prod.mk.injEq] at h
      obtain ⟨rfl, rfl⟩ := h
      exact ⟨0, rfl, rfl, rfl⟩
  obtain ⟨u, rfl, rfl, rfl⟩ := key
  obtain ⟨h1, -, h3, h4, -⟩ := partition_spec hb (cells (g.n 0 - 1) (g.n 1 - 1) (g.n 2 - 1)) (cells_nodup _ _ _) u 0
  refine ⟨fun p => ?_, h3, ?_⟩
  · rw [partitionSubdomains, h1, cells_cover hb (fun a => by have := hn a; omega)]
  · rw [partitionSubdomains, h4]

/-- A box split by hand into two by three by one parts. -/
example : ∃ g l, globaldomain 0 0 1 6 ![2, 3, 1] = some (.ok (g, l)) ∧ (∀ a, 1 < g.n a) ∧ l.length = 6 := by
  refine ⟨⟨0, 1, fun a => (![2, 3, 1] : Fin 3 → Nat) a + 1⟩, partitionSubdomains ⟨0, 1, fun a => (![2, 3, 1] : Fin 3 → Nat) a + 1⟩ 0, ?_, ?_, ?_⟩
  · rw [globaldomain, if_neg (by simp)]
  · intro a; fin_cases a <;> simp
  · rw [partitionSubdomains, (partition_spec (by intro a; simp) _ (cells_nodup _ _ _) _ _).2.2.2.2, cells_length]
    simp

/-- C161 is violated if parts are asked for along some axes only: there is no subdomain at all. -/
theorem C161_violated : ∃ g, globaldomain 0 0 1 2 ![0, 2, 0] = some (.ok (g, [])) := by
  refine ⟨⟨0, 1, fun a => (![0, 2, 0] : Fin 3 → Nat) a + 1⟩, ?_⟩
  rw [globaldomain, if_neg (by simp)]
  simp [partitionSubdomains, cells, partition]

end Verif.Decomp
