import Verif.Pack.Ops
import Mathlib.Algebra.BigOperators.Ring.Finset
import Mathlib.Algebra.BigOperators.Group.Finset.Basic
import Mathlib.Tactic.FieldSimp
import Mathlib.Tactic.Linarith

/-!
# C144 to C146: repeating periodic packings
-/
namespace Verif.Pack
open Verif.Mech
open scoped Classical
open Finset

/-! ## Specification -/

/-- The sphere has a periodic image of radius `r` at `p`. -/
def HasImage (cell : V3) (p : V3) (r : ℝ) (s : Sph) : Prop := s.r = r ∧ ∃ z : Fin 3 → ℤ, ∀ a, s.c a + cell a * z a = p a

/-- The number of spheres of a periodic packing that have an image of radius `r` at `p`. -/
noncomputable def spheresAt (cell : V3) (l : List Sph) (p : V3) (r : ℝ) : Nat := l.countP fun s => HasImage cell p r s

/-! ## Lemmas -/

/-- Exactly one of `n` shifts brings a number onto a coarser lattice if it is on the fine one. -/
theorem sum_shift {w u : ℝ} (hw : w ≠ 0) {n : Nat} (hn : 0 < n) :
    ∑ i ∈ range n, (if ∃ z : ℤ, w * i + w * n * z = u then 1 else 0) = if ∃ z : ℤ, w * z = u then 1 else 0 := by
  by_cases h : ∃ z : ℤ, w * z = u
  · obtain ⟨z, hz⟩ := h
    rw [if_pos ⟨z, hz⟩]
    have hn' : (n : ℤ) ≠ 0 := by exact_mod_cast hn.ne'
    have hm0 := Int.emod_nonneg z hn'
    have hm1 := Int.emod_lt_of_pos z (by exact_mod_cast hn : (0 : ℤ) < n)
    have he := Int.emod_add_mul_ediv z n
    rw [Finset.sum_eq_single_of_mem (z % n).toNat]
    · rw [if_pos]
      refine ⟨z / n, ?_⟩
      rw [← hz]
      have : (((z % n).toNat : ℝ)) = ((z % n : ℤ) : ℝ) := by
        rw [← Int.cast_natCast, Int.toNat_of_nonneg hm0]
      rw [this]
      have hc : (z : ℝ) = ((z % n : ℤ) : ℝ) + n * ((z / n : ℤ) : ℝ) := by exact_mod_cast he.symm
      rw [hc]
      ring
    · rw [Finset.mem_range]; omega
    · intro i hi hne
      rw [if_neg]
      rintro ⟨y, hy⟩
      apply hne
      have h1 : (i : ℝ) + n * y = z := by
        have : w * (i + n * y) = w * z := by rw [hz, ← hy]; ring
        exact mul_left_cancel₀ hw this
      have h2 : (i : ℤ) + n * y = z := by exact_mod_cast h1
      have h3 : z % n = i := by
        rw [← h2, Int.add_mul_emod_self_left]
        exact Int.emod_eq_of_lt (by omega) (by have := Finset.mem_range.mp hi; omega)
      omega
  · rw [if_neg h]
    refine Finset.sum_eq_zero fun i _ => if_neg ?_
    rintro ⟨z, hz⟩
    exact h ⟨i + n * z, by rw [← hz]; push_cast; ring⟩

theorem ind_and3 (p q r : Prop) [Decidable p] [Decidable q] [Decidable r] :
    (if p ∧ q ∧ r then 1 else 0 : Nat) = (if p then 1 else 0) * ((if q then 1 else 0) * (if r then 1 else 0)) := by
  by_cases p <;> by_cases q <;> by_cases r <;> simp_all

theorem hasImage_iff (cell p : V3) (r : ℝ) (s : Sph) :
    HasImage cell p r s ↔ s.r = r ∧ (∃ z : ℤ, cell 0 * z = p 0 - s.c 0) ∧ (∃ z : ℤ, cell 1 * z = p 1 - s.c 1) ∧ ∃ z : ℤ, cell 2 * z = p 2 - s.c 2 := by
  constructor
  · rintro ⟨h, z, hz⟩
    exact ⟨h, ⟨z 0, by linarith [hz 0]⟩, ⟨z 1, by linarith [hz 1]⟩, ⟨z 2, by linarith [hz 2]⟩⟩
  · rintro ⟨h, ⟨z0, h0⟩, ⟨z1, h1⟩, ⟨z2, h2⟩⟩
    refine ⟨h, ![z0, z1, z2], fun a => ?_⟩
    fin_cases a <;> simp <;> linarith

/-- One sphere and its copies. -/
theorem one_sphere {cell : V3} (hc : ∀ a, cell a ≠ 0) {n : Fin 3 → Nat} (hn : ∀ a, 0 < n a) (p : V3) (r : ℝ) (s : Sph) :
    ∑ i ∈ range (n 0), ∑ j ∈ range (n 1), ∑ k ∈ range (n 2),
      (if HasImage (fun a => cell a * n a) p r { c := s.c + ![cell 0 * i, cell 1 * j, cell 2 * k], r := s.r } then 1 else 0) =
    if HasImage cell p r s then 1 else 0 := by
  by_cases hr : s.r = r
  · have e : ∀ i j k : Nat, (if HasImage (fun a => cell a * n a) p r { c := s.c + ![cell 0 * i, cell 1 * j, cell 2 * k], r := s.r } then 1 else 0) =
        (if ∃ z : ℤ, cell 0 * i + cell 0 * n 0 * z = p 0 - s.c 0 then 1 else 0) *
        ((if ∃ z : ℤ, cell 1 * j + cell 1 * n 1 * z = p 1 - s.c 1 then 1 else 0) *
         (if ∃ z : ℤ, cell 2 * k + cell 2 * n 2 * z = p 2 - s.c 2 then 1 else 0)) := by
      intro i j k
      rw [← ind_and3]
      congr 1
      rw [hasImage_iff]
      simp only [hr, true_and, Pi.add_apply, Matrix.cons_val_zero, Matrix.cons_val_one, Matrix.cons_val, eq_iff_iff]
      refine and_congr ?_ (and_congr ?_ ?_) <;>
        exact exists_congr fun z => ⟨fun h => by linarith, fun h => by linarith⟩
    simp only [e, ← Finset.mul_sum, ← Finset.sum_mul, sum_shift (hc _) (hn _)]
    rw [← ind_and3]
    congr 1
    rw [hasImage_iff]
    simp [hr]
  · have e : ∀ i j k : Nat, ¬ HasImage (fun a => cell a * n a) p r { c := s.c + ![cell 0 * i, cell 1 * j, cell 2 * k], r := s.r } :=
      fun i j k h => hr h.1
    simp only [e, if_false, Finset.sum_const_zero]
    rw [if_neg fun h => hr h.1]

theorem sum_range_list (n : Nat) (f : Nat → Nat) : ((List.range n).map f).sum = ∑ i ∈ range n, f i := by
  induction n with
  | zero => simp
  | succ n ih => rw [List.range_succ, List.map_append, List.sum_append, ih, Finset.sum_range_succ]; simp

/-- All copies of all spheres. -/
theorem all_spheres {cell : V3} (hc : ∀ a, cell a ≠ 0) {n : Fin 3 → Nat} (hn : ∀ a, 0 < n a) (p : V3) (r : ℝ) (l : List Sph) :
    ∑ i ∈ range (n 0), ∑ j ∈ range (n 1), ∑ k ∈ range (n 2),
      spheresAt (fun a => cell a * n a) (l.map fun s => { c := s.c + ![cell 0 * i, cell 1 * j, cell 2 * k], r := s.r }) p r =
    spheresAt cell l p r := by
  induction l with
  | nil => simp [spheresAt]
  | cons s l ih =>
    simp only [spheresAt, List.map_cons, List.countP_cons] at ih ⊢
    simp only [Finset.sum_add_distrib, ih]
    have h1 := one_sphere hc hn p r s
    simp only [decide_eq_true_eq]
    rw [h1]

theorem copies_count (cell cell' p : V3) (r : ℝ) (l : List Sph) (n : Fin 3 → Nat) (hn : ∀ a, 0 < n a) :
    spheresAt cell' (l ++ (List.range (n 0)).flatMap fun i => (List.range (n 1)).flatMap fun j =>
      (List.range (n 2)).flatMap fun k => copyOf cell l i j k) p r =
    ∑ i ∈ range (n 0), ∑ j ∈ range (n 1), ∑ k ∈ range (n 2),
      spheresAt cell' (l.map fun s => { c := s.c + ![cell 0 * i, cell 1 * j, cell 2 * k], r := s.r }) p r := by
  have e : ∀ i j k, spheresAt cell' (copyOf cell l i j k) p r =
      if i = 0 ∧ j = 0 ∧ k = 0 then 0
      else spheresAt cell' (l.map fun s => { c := s.c + ![cell 0 * i, cell 1 * j, cell 2 * k], r := s.r }) p r := by
    intro i j k
    rw [copyOf]
    split_ifs <;> simp [spheresAt]
  have z : spheresAt cell' (l.map fun s => { c := s.c + ![cell 0 * (0 : Nat), cell 1 * (0 : Nat), cell 2 * (0 : Nat)], r := s.r }) p r =
      spheresAt cell' l p r := by
    rw [spheresAt, List.countP_map, spheresAt]
    congr 1
    funext s
    have : s.c + ![cell 0 * ((0 : Nat) : ℝ), cell 1 * ((0 : Nat) : ℝ), cell 2 * ((0 : Nat) : ℝ)] = s.c := by
      funext a; fin_cases a <;> simp
    simp only [Function.comp_apply, this]
    rfl
  generalize hf : (fun i j k : Nat => spheresAt cell' (l.map fun s => { c := s.c + ![cell 0 * i, cell 1 * j, cell 2 * k], r := s.r }) p r) = f at *
  have hf' : ∀ i j k : Nat, spheresAt cell' (l.map fun s => { c := s.c + ![cell 0 * i, cell 1 * j, cell 2 * k], r := s.r }) p r = f i j k :=
    fun i j k => by rw [← hf]
  simp only [hf'] at e z ⊢
  have c1 : spheresAt cell' (l ++ (List.range (n 0)).flatMap fun i => (List.range (n 1)).flatMap fun j =>
      (List.range (n 2)).flatMap fun k => copyOf cell l i j k) p r =
      spheresAt cell' l p r + ∑ i ∈ range (n 0), ∑ j ∈ range (n 1), ∑ k ∈ range (n 2), if i = 0 ∧ j = 0 ∧ k = 0 then 0 else f i j k := by
    rw [spheresAt, List.countP_append]
    congr 1
    simp only [List.countP_flatMap, Function.comp_def, sum_range_list]
    exact Finset.sum_congr rfl fun i _ => Finset.sum_congr rfl fun j _ => Finset.sum_congr rfl fun k _ => e i j k
  rw [c1, ← z]
  have split : ∀ i j k : Nat, f i j k = (if i = 0 ∧ j = 0 ∧ k = 0 then 0 else f i j k) + if i = 0 ∧ j = 0 ∧ k = 0 then f 0 0 0 else 0 := by
    intro i j k
    by_cases h : i = 0 ∧ j = 0 ∧ k = 0
    · rw [if_pos h, if_pos h, h.1, h.2.1, h.2.2]; simp
    · rw [if_neg h, if_neg h]; simp
  have tot : ∑ i ∈ range (n 0), ∑ j ∈ range (n 1), ∑ k ∈ range (n 2), (if i = 0 ∧ j = 0 ∧ k = 0 then f 0 0 0 else 0) = f 0 0 0 := by
    rw [Finset.sum_eq_single_of_mem 0 (Finset.mem_range.mpr (hn 0)), Finset.sum_eq_single_of_mem 0 (Finset.mem_range.mpr (hn 1)),
      Finset.sum_eq_single_of_mem 0 (Finset.mem_range.mpr (hn 2))]
    · simp
    · intro k _ h; simp [h]
    · intro j _ h; exact Finset.sum_eq_zero fun k _ => by simp [h]
    · intro i _ h; exact Finset.sum_eq_zero fun j _ => Finset.sum_eq_zero fun k _ => by simp [h]
  rw [Finset.sum_congr rfl fun i _ => Finset.sum_congr rfl fun j _ => Finset.sum_congr rfl fun k _ => split i j k]
  simp only [Finset.sum_add_distrib, tot]
  ring

theorem cellRepeat_eq {count : Fin 3 → Int} {sp sp' : SpherePack} (h : cellRepeat count sp = .ok sp') :
    sp.cellSize ≠ 0 ∧ (∀ a, 0 < count a) ∧ (∀ a, sp'.cellSize a = sp.cellSize a * count a) ∧ sp'.isPeriodic = sp.isPeriodic ∧
    sp'.pack = sp.pack ++ (List.range (count 0).toNat).flatMap fun i => (List.range (count 1).toNat).flatMap fun j =>
      (List.range (count 2).toNat).flatMap fun k => copyOf sp.cellSize sp.pack i j k := by
  rw [cellRepeat] at h
  by_cases h1 : sp.cellSize = 0
  · rw [if_pos h1] at h; cases h
  rw [if_neg h1] at h
  by_cases h2 : count 0 ≤ 0 ∨ count 1 ≤ 0 ∨ count 2 ≤ 0
  · rw [if_pos h2] at h; cases h
  rw [if_neg h2] at h
  have h := Res.ok.inj h
  push_neg at h2
  refine ⟨h1, ?_, ?_, ?_, ?_⟩
  · intro a; fin_cases a; exacts [h2.1, h2.2.1, h2.2.2]
  all_goals rw [← h]
  intro a; rfl

/-! ## C144 -/

/-- C144.  Repeating a periodic packing changes nothing of the infinite packing it stands for: at each place and for each radius, as many
spheres have an image there in the new cell as in the old; there are as many spheres as cells times spheres before, and the cell is
larger by the counts given. -/
theorem C144_repeat {count : Fin 3 → Int} {sp sp' : SpherePack} (hc : ∀ a, sp.cellSize a ≠ 0) (h : cellRepeat count sp = .ok sp') :
    (∀ p r, spheresAt sp'.cellSize sp'.pack p r = spheresAt sp.cellSize sp.pack p r) ∧
    (sp'.pack.length : ℤ) = count 0 * count 1 * count 2 * sp.pack.length ∧
    (∀ a, sp'.cellSize a = sp.cellSize a * count a) ∧ sp'.isPeriodic = sp.isPeriodic := by
  obtain ⟨-, hp, hcell, hper, hpack⟩ := cellRepeat_eq h
  have hn : ∀ a, 0 < (fun a => (count a).toNat) a := fun a => by have := hp a; simp; omega
  have hcast : ∀ a, (((count a).toNat : Nat) : ℝ) = count a := fun a => by
    rw [← Int.cast_natCast, Int.toNat_of_nonneg (hp a).le]
  refine ⟨fun p r => ?_, ?_, hcell, hper⟩
  · have hce : sp'.cellSize = fun a => sp.cellSize a * ((count a).toNat : Nat) := by funext a; rw [hcell, hcast]
    rw [hpack, copies_count sp.cellSize _ p r sp.pack (fun a => (count a).toNat) hn, hce, all_spheres hc hn]
  · have key : ∀ (l : List Sph) (cell : V3) (n : Fin 3 → Nat), (∀ a, 0 < n a) →
        (l ++ (List.range (n 0)).flatMap fun i => (List.range (n 1)).flatMap fun j =>
          (List.range (n 2)).flatMap fun k => copyOf cell l i j k).length = n 0 * n 1 * n 2 * l.length := by
      intro l cell n hn
      have e : ∀ i j k, (copyOf cell l i j k).length + (if i = 0 ∧ j = 0 ∧ k = 0 then l.length else 0) = l.length := by
        intro i j k; rw [copyOf]; split_ifs <;> simp
      have tot : ∑ i ∈ range (n 0), ∑ j ∈ range (n 1), ∑ k ∈ range (n 2), (if i = 0 ∧ j = 0 ∧ k = 0 then l.length else 0) = l.length := by
        rw [Finset.sum_eq_single_of_mem 0 (Finset.mem_range.mpr (hn 0)), Finset.sum_eq_single_of_mem 0 (Finset.mem_range.mpr (hn 1)),
          Finset.sum_eq_single_of_mem 0 (Finset.mem_range.mpr (hn 2))]
        · simp
        · intro k _ h; simp [h]
        · intro j _ h; exact Finset.sum_eq_zero fun k _ => by simp [h]
        · intro i _ h; exact Finset.sum_eq_zero fun j _ => Finset.sum_eq_zero fun k _ => by simp [h]
      rw [List.length_append]
      simp only [List.length_flatMap, Function.comp_def, sum_range_list]
      have s := Finset.sum_congr rfl fun i (_ : i ∈ range (n 0)) => Finset.sum_congr rfl fun j (_ : j ∈ range (n 1)) =>
        Finset.sum_congr rfl fun k (_ : k ∈ range (n 2)) => e i j k
      simp only [Finset.sum_add_distrib, tot] at s
      simp only [Finset.sum_const, Finset.card_range, smul_eq_mul] at s
      rw [add_comm, s]
      ring
    rw [hpack, key sp.pack sp.cellSize (fun a => (count a).toNat) hn]
    push_cast
    rw [Int.toNat_of_nonneg (hp 0).le, Int.toNat_of_nonneg (hp 1).le, Int.toNat_of_nonneg (hp 2).le]

/-- C144, the other outcomes: packings without cell and counts that are not positive are refused. -/
theorem C144_refused (count : Fin 3 → Int) (sp : SpherePack) :
    cellRepeat count sp = .throws ↔ sp.cellSize = 0 ∨ ∃ a, count a ≤ 0 := by
  have e : (∃ a, count a ≤ 0) ↔ count 0 ≤ 0 ∨ count 1 ≤ 0 ∨ count 2 ≤ 0 := by
    constructor
    · rintro ⟨a, h⟩; fin_cases a <;> simp_all
    · rintro (h | h | h); exacts [⟨0, h⟩, ⟨1, h⟩, ⟨2, h⟩]
  rw [cellRepeat, e]
  by_cases h1 : sp.cellSize = 0
  · simp [h1]
  by_cases h2 : count 0 ≤ 0 ∨ count 1 ≤ 0 ∨ count 2 ≤ 0
  · rw [if_neg h1, if_pos h2]; simp [h2]
  · rw [if_neg h1, if_neg h2]; simp [h1, h2]

/-- A cell of two spheres, repeated twice along x and three times along z. -/
example : ∃ sp', cellRepeat ![2, 1, 3] ⟨[{ c := ![0, 0, 0], r := 0.2 }, { c := ![0.5, 0.5, 0.5], r := 0.3 }], ![1, 2, 1], 1, true⟩ = .ok sp' ∧
    sp'.pack.length = 12 := by
  have h : ∃ sp', cellRepeat ![2, 1, 3] ⟨[{ c := ![0, 0, 0], r := 0.2 }, { c := ![0.5, 0.5, 0.5], r := 0.3 }], ![1, 2, 1], 1, true⟩ = .ok sp' := by
    rw [cellRepeat, if_neg (by intro h; have := congrFun h 0; simp at this), if_neg (by simp)]
    exact ⟨_, rfl⟩
  obtain ⟨sp', h⟩ := h
  refine ⟨sp', h, ?_⟩
  have := (C144_repeat (by intro a; fin_cases a <;> simp) h).2.1
  simp at this
  omega

/-! ## C145 -/

/-- C145.  Filling a volume with a periodic packing gives a cell that is at least as large as the volume along each axis, and larger by less
than one cell; the infinite packing stays the same.  Missing: `dim()` of the result, see `C145_violated_dim`, and packings without a
cell, see `C145_violated_exception`. -/
theorem C145_fill_partial {vol : V3} {sp sp' : SpherePack} (hc : ∀ a, 0 < sp.cellSize a) (h : cellFill vol sp = .ok sp') :
    (∀ a, vol a ≤ sp'.cellSize a ∧ sp'.cellSize a < vol a + sp.cellSize a) ∧
    ∀ p r, spheresAt sp'.cellSize sp'.pack p r = spheresAt sp.cellSize sp.pack p r := by
  rw [cellFill, if_neg (by push_neg; exact fun a => (hc a).ne')] at h
  obtain ⟨h1, -, h3, -⟩ := C144_repeat (fun a => (hc a).ne') h
  refine ⟨fun a => ?_, h1⟩
  rw [h3]
  have c1 := Int.le_ceil (vol a / sp.cellSize a)
  have c2 := Int.ceil_lt_add_one (vol a / sp.cellSize a)
  have e : sp.cellSize a * (vol a / sp.cellSize a) = vol a := by field_simp [(hc a).ne']
  constructor
  · calc vol a = sp.cellSize a * (vol a / sp.cellSize a) := e.symm
      _ ≤ _ := mul_le_mul_of_nonneg_left c1 (hc a).le
  · calc sp.cellSize a * (⌈vol a / sp.cellSize a⌉ : ℝ) < sp.cellSize a * (vol a / sp.cellSize a + 1) := mul_lt_mul_of_pos_left c2 (hc a)
      _ = _ := by rw [mul_add, e, mul_one]

/-- C145 for positive volumes: filling succeeds. -/
theorem C145_succeeds {vol : V3} {sp : SpherePack} (hc : ∀ a, 0 < sp.cellSize a) (hv : ∀ a, 0 < vol a) : ∃ sp', cellFill vol sp = .ok sp' := by
  have k : ∀ a, 0 < ⌈vol a / sp.cellSize a⌉ := fun a => Int.ceil_pos.mpr (div_pos (hv a) (hc a))
  have n : sp.cellSize ≠ 0 := fun h => (hc 0).ne' (congrFun h 0)
  rw [cellFill, if_neg (by push_neg; exact fun a => (hc a).ne'), cellRepeat, if_neg n,
    if_neg (by push_neg; exact ⟨k 0, k 1, k 2⟩)]
  exact ⟨_, rfl⟩

/-- A cell of size 1 by 2 by 3 fills a volume of size 2.5 by 1 by 3: the new cell has size 3 by 2 by 3. -/
example : ∃ sp', cellFill ![2.5, 1, 3] ⟨[{ c := 0, r := 0.1 }], ![1, 2, 3], 1, true⟩ = .ok sp' ∧
    2.5 ≤ sp'.cellSize 0 ∧ sp'.cellSize 0 < 2.5 + 1 := by
  have hc : ∀ a, 0 < (![1, 2, 3] : V3) a := by intro a; fin_cases a <;> simp
  obtain ⟨sp', h⟩ := C145_succeeds (sp := ⟨[{ c := 0, r := 0.1 }], ![1, 2, 3], 1, true⟩) (vol := ![2.5, 1, 3]) hc
    (by intro a; fin_cases a <;> norm_num)
  refine ⟨sp', h, ?_⟩
  simpa using (C145_fill_partial hc h).1 0

/-- C145 is violated by `dim()`: a cell with one sphere fills a volume of its own size, but the box of the spheres is smaller. -/
theorem C145_violated_dim : ∃ sp sp' : SpherePack, cellFill ![1, 1, 1] sp = .ok sp' ∧ dim sp'.pack = some ![0.2, 0.2, 0.2] := by
  refine ⟨⟨[{ c := ![0, 0, 0], r := 0.1 }], ![1, 1, 1], 1, true⟩, ⟨[{ c := ![0, 0, 0], r := 0.1 }], ![1, 1, 1], 1, true⟩, ?_, ?_⟩
  · have ne : (![1, 1, 1] : V3) ≠ 0 := fun h => by have := congrFun h 0; simp at this
    have ce : (fun i => ⌈(![1, 1, 1] : V3) i / (![1, 1, 1] : V3) i⌉) = ![1, 1, 1] := by
      funext i; fin_cases i <;> simp
    rw [cellFill, if_neg (by rintro ⟨i, hi⟩; fin_cases i <;> simp at hi)]
    dsimp only
    rw [ce, cellRepeat, if_neg ne, if_neg (by simp)]
    congr 2
    · funext a; fin_cases a <;> simp
  · simp only [dim, packBox, List.foldl_nil, Option.map_some]
    congr 1
    funext i
    fin_cases i <;> simp <;> norm_num

/-- C145 is violated by packings without a cell: the conversion of an infinite number to `int` comes before the test. -/
theorem C145_violated_exception (vol : V3) : cellFill vol SpherePack.empty = .ub := by
  rw [cellFill, if_pos ⟨0, rfl⟩]

/-! ## C146 -/

/-- C146.  Repeating keeps the spheres that were there, with their clumps.  Missing: the copies, see `C146_violated`. -/
theorem C146_original_partial {count : Fin 3 → Int} {sp sp' : SpherePack} (h : cellRepeat count sp = .ok sp') :
    sp.pack <+: sp'.pack := by
  obtain ⟨-, -, -, -, h⟩ := cellRepeat_eq h
  rw [h]
  exact List.prefix_append _ _

/-- C146, packings without clumps: copies are the spheres with their centres moved, nothing is lost. -/
theorem C146_standalone_partial {count : Fin 3 → Int} {sp sp' : SpherePack} (hs : ∀ s ∈ sp.pack, s.clumpId = -1) (h : cellRepeat count sp = .ok sp') :
    ∀ s' ∈ sp'.pack, ∃ s ∈ sp.pack, ∃ z : Fin 3 → ℤ, s' = { s with c := fun a => s.c a + sp.cellSize a * z a } := by
  obtain ⟨-, -, -, -, h⟩ := cellRepeat_eq h
  intro s' hs'
  rw [h, List.mem_append] at hs'
  rcases hs' with h1 | h1
  · refine ⟨s', h1, 0, ?_⟩
    simp
  · simp only [List.mem_flatMap, copyOf] at h1
    obtain ⟨i, -, j, -, k, -, h1⟩ := h1
    split_ifs at h1 with h0
    · simp at h1
    · obtain ⟨s, hs1, rfl⟩ := List.mem_map.mp h1
      refine ⟨s, hs1, ![i, j, k], ?_⟩
      have := hs s hs1
      cases s
      simp only at this
      subst this
      simp only [Sph.mk.injEq, and_true]
      funext a
      fin_cases a <;> simp

/-- C146 is violated by packings with clumps: the copies of the members of a clump stand alone. -/
theorem C146_violated : ∃ sp sp' : SpherePack, cellRepeat ![2, 1, 1] sp = .ok sp' ∧
    getClumps sp.pack = ([], [[0, 1]]) ∧ getClumps sp'.pack = ([2, 3], [[0, 1]]) := by
  have h : ∃ sp', cellRepeat ![2, 1, 1] ⟨[{ c := ![0, 0, 0], r := 0.1, clumpId := 0 }, { c := ![0.1, 0, 0], r := 0.1, clumpId := 0 }],
      ![1, 1, 1], 1, true⟩ = .ok sp' := by
    rw [cellRepeat, if_neg (fun h => by have := congrFun h 0; simp at this), if_neg (by simp)]
    exact ⟨_, rfl⟩
  obtain ⟨sp', h⟩ := h
  refine ⟨_, sp', h, ?_, ?_⟩
  · simp [getClumps, clumpsFrom, addTo]
  · obtain ⟨-, -, -, -, h⟩ := cellRepeat_eq h
    rw [h]
    simp [getClumps, clumpsFrom, addTo, copyOf, List.range_succ]

end Verif.Pack
