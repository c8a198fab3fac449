import Verif.Pack.CloudRun

/-!
# C132 and C133: random packings have no overlaps and stay in their box
-/
namespace Verif.Pack
open Verif.Mech
open scoped Classical

/-! ## Specification -/

/-- Two spheres have a point in common. -/
def Common (s t : Sph) : Prop := ∃ p, norm3 (p - s.c) ≤ s.r ∧ norm3 (p - t.c) ≤ t.r

/-- The image of a sphere moved by `k` periods, the periods being the columns of `cell`. -/
def image (cell : M3) (k : Fin 3 → ℤ) (s : Sph) : Sph := { s with c := s.c + cell.mulVec fun i => (k i : ℝ) }

/-- A centre in the cell with corner `mn`. -/
def InCell (cell : M3) (mn c : V3) : Prop := ∃ f : V3, (∀ i, 0 ≤ f i ∧ f i < 1) ∧ c = cell.mulVec f + mn

/-- The sphere is within the box, where the box is not flat and is wide enough; where it is flat, the centre is in its plane. -/
def InBox (mn mx : V3) (s : Sph) : Prop := ∀ i, (mn i = mx i → s.c i = mn i) ∧
  (mn i ≠ mx i → 2 * s.r ≤ mx i - mn i → mn i ≤ s.c i - s.r ∧ s.c i + s.r ≤ mx i)

/-! ## Lemmas -/

theorem apart {s t : Sph} (h : ¬ (s.r + t.r) ^ 2 ≥ sqNorm (s.c - t.c)) : ¬ Common s t := by
  rintro ⟨p, h1, h2⟩
  apply h
  have h3 := norm3_sub_le (p - t.c) (p - s.c)
  rw [show p - t.c - (p - s.c) = s.c - t.c by abel] at h3
  have h4 := norm3_nonneg (s.c - t.c)
  rw [← norm3_sq]
  nlinarith

theorem sqNorm_mono {u v : V3} (h : ∀ i, |u i| ≤ |v i|) : sqNorm u ≤ sqNorm v := by
  have := fun i => sq_le_sq' (by linarith [neg_abs_le (u i), h i, abs_nonneg (u i), le_abs_self (v i), neg_abs_le (v i)] : -|v i| ≤ u i)
    (le_trans (le_abs_self _) (h i))
  simp only [sq_abs] at this
  have h0 := this 0
  have h1 := this 1
  have h2 := this 2
  simp only [sqNorm, dot]
  nlinarith

theorem sqNorm_columns {H : M3} (ho : ∀ i j, i ≠ j → dot (fun l => H l i) (fun l => H l j) = 0) (v : V3) :
    sqNorm (H.mulVec v) = ∑ i, v i ^ 2 * sqNorm (fun l => H l i) := by
  have h01 := ho 0 1 (by decide)
  have h02 := ho 0 2 (by decide)
  have h12 := ho 1 2 (by decide)
  simp only [sqNorm, dot, Matrix.mulVec, dotProduct, Fin.sum_univ_three] at *
  linear_combination 2 * v 0 * v 1 * h01 + 2 * v 0 * v 2 * h02 + 2 * v 1 * v 2 * h12

theorem nearest_le {x : ℝ} (h1 : -1 < x) (h2 : x < 1) (k : ℤ) :
    |if |x| < |x - sign x| then x else x - sign x| ≤ |x + k| := by
  have hk : k ≤ -2 ∨ k = -1 ∨ k = 0 ∨ k = 1 ∨ 2 ≤ k := by omega
  have key : ∀ y : ℝ, |y| ≤ |x| → |y| ≤ |x - 1| → |y| ≤ |x + 1| → |y| ≤ 1 → |y| ≤ |x + k| := by
    intro y ha hb hc hd
    rcases hk with hk | rfl | rfl | rfl | hk
    · have : (k : ℝ) ≤ -2 := by exact_mod_cast hk
      exact le_trans hd (le_trans (by linarith) (neg_le_abs _))
    · push_cast; rw [← sub_eq_add_neg]; exact hb
    · simpa using ha
    · simpa using hc
    · have : (2 : ℝ) ≤ k := by exact_mod_cast hk
      exact le_trans hd (le_trans (by linarith) (le_abs_self _))
  apply key
  all_goals
    unfold sign
    rcases lt_trichotomy x 0 with hx | hx | hx
    · simp only [hx, if_true]
      have e : |x| = -x := abs_of_neg hx
      have e2 : |x - -1| = x + 1 := by rw [sub_neg_eq_add]; exact abs_of_nonneg (by linarith)
      have e3 : |x - 1| = 1 - x := by rw [abs_of_neg (by linarith)]; ring
      have e4 : |x + 1| = x + 1 := abs_of_nonneg (by linarith)
      split_ifs with hh
      all_goals (rw [e, e2] at hh; try (simp only [e, e2, e3, e4]; try linarith))
    · subst hx; simp
    · simp only [hx, not_lt.mpr hx.le, if_true, if_false]
      have e : |x| = x := abs_of_pos hx
      have e3 : |x - 1| = 1 - x := by rw [abs_of_neg (by linarith)]; ring
      have e4 : |x + 1| = x + 1 := abs_of_nonneg (by linarith)
      split_ifs with hh
      all_goals (rw [e, e3] at hh; try (simp only [e, e3, e4]; try linarith))

theorem pairwise_snoc {α : Type} {R : α → α → Prop} {l : List α} {x : α} (h : l.Pairwise R) (hx : ∀ s ∈ l, R s x) :
    (l ++ [x]).Pairwise R := by
  rw [List.pairwise_append]
  exact ⟨h, List.pairwise_singleton _ _, fun s hs t ht => by rw [List.mem_singleton.mp ht]; exact hx s hs⟩

theorem between_peri {a : Args} (hp : a.periodic = true) (hh : a.hSize = 0) (p c : V3) (i : Fin 3) :
    (a.size i ≠ 0 → between a p c i =
      min (cellWrapRel (c i) (p i) (p i + a.size i)) (cellWrapRel (p i) (c i) (c i + a.size i))) ∧
    (a.size i = 0 → between a p c i = 0) := by
  unfold between
  rw [if_neg (by simp [hp]), if_pos hh]
  exact ⟨fun h => if_pos h, fun h => if_neg (fun hc => hc h)⟩

/-! ## C132: no overlaps -/

/-- C132.  In a box, a packing without overlaps has none after `makeCloud`, whatever way radii are
prescribed, whatever the random numbers, with or without retries. -/
theorem C132_box {n : Nat} {a : Args} {sp sp' : SpherePack} {g g' : Rnd} {k : Int} (hg : Good g) (hp : a.periodic = false)
    (hold : sp.pack.Pairwise fun s t => ¬ Common s t) (h : makeCloud n a sp g = some (.ok (sp', k, g'))) :
    sp'.pack.Pairwise fun s t => ¬ Common s t := by
  refine cloud_inv (P := fun l => l.Pairwise fun s t => ¬ Common s t) List.Pairwise.nil ?_ hg hold h
  rintro a' d s s' ⟨m, p, rfl, -⟩ - i pack c r ⟨-, -, -, ho⟩ hP
  refine pairwise_snoc hP fun s hs => apart ?_
  have := ho s hs
  simp only [overlaps, between, hp] at this
  simpa using this

/-- C132.  In a periodic box, no sphere overlaps any image of another. -/
theorem C132_periodic {n : Nat} {a : Args} {sp sp' : SpherePack} {g g' : Rnd} {k : Int} (hg : Good g) (hp : a.periodic = true)
    (hh : a.hSize = 0) (hb : ∀ i, a.mn i ≤ a.mx i)
    (hold : sp.pack.Pairwise fun s t => ∀ k, ¬ Common (image (.diagonal (a.mx - a.mn)) k s) t)
    (h : makeCloud n a sp g = some (.ok (sp', k, g'))) :
    sp'.pack.Pairwise fun s t => ∀ k, ¬ Common (image (.diagonal (a.mx - a.mn)) k s) t := by
  refine cloud_inv (P := fun l => l.Pairwise fun s t => ∀ k, ¬ Common (image (.diagonal (a.mx - a.mn)) k s) t)
    List.Pairwise.nil ?_ hg hold h
  rintro a' d s s' ⟨m, p, rfl, -⟩ - i pack c r ⟨-, -, -, ho⟩ hP
  refine pairwise_snoc hP fun s hs k => apart ?_
  have h1 := ho s hs
  obtain ⟨f, hf⟩ : ∃ f, f = between { a with rMean := m, porosity := p } s.c c := ⟨_, rfl⟩
  have hb1 := fun i => between_peri (a := { a with rMean := m, porosity := p }) hp hh s.c c i
  rw [overlaps, ← hf] at h1
  rw [← hf] at hb1
  simp only [image]
  intro hc
  apply h1
  refine le_trans (sqNorm_mono fun i => ?_) hc
  simp only [Matrix.mulVec_diagonal, Pi.add_apply, Pi.sub_apply]
  by_cases hs0 : a.size i = 0
  · rw [(hb1 i).2 hs0]
    simp
  · rw [(hb1 i).1 hs0]
    have hS : 0 < a.mx i - a.mn i := lt_of_le_of_ne (by linarith [hb i]) (Ne.symm hs0)
    obtain ⟨w1, w2⟩ := wrap_le hS (c i) (s.c i) (k i)
    change |min (cellWrapRel (c i) (s.c i) (s.c i + (a.mx i - a.mn i))) (cellWrapRel (s.c i) (c i) (c i + (a.mx i - a.mn i)))| ≤ _
    rw [abs_of_nonneg w1]
    refine le_trans w2 (le_of_eq ?_)
    ring_nf

/-- C132, in a cell given by `hSize` with perpendicular edges.  Missing: other cells, see
`C132_violated_sheared`. -/
theorem C132_cell_partial {n : Nat} {a : Args} {sp sp' : SpherePack} {g g' : Rnd} {k : Int} (hg : Good g) (hp : a.periodic = true)
    (hh : a.hSize ≠ 0) (hort : ∀ i j, i ≠ j → dot (fun l => a.hSize l i) (fun l => a.hSize l j) = 0)
    (hin : ∀ s ∈ sp.pack, InCell a.hSize a.mn s.c)
    (hold : sp.pack.Pairwise fun s t => ∀ k, ¬ Common (image a.hSize k s) t)
    (h : makeCloud n a sp g = some (.ok (sp', k, g'))) :
    (∀ s ∈ sp'.pack, InCell a.hSize a.mn s.c) ∧ sp'.pack.Pairwise fun s t => ∀ k, ¬ Common (image a.hSize k s) t := by
  refine cloud_inv (P := fun l => (∀ s ∈ l, InCell a.hSize a.mn s.c) ∧ l.Pairwise fun s t => ∀ k, ¬ Common (image a.hSize k s) t)
    ⟨by simp, List.Pairwise.nil⟩ ?_ hg ⟨hin, hold⟩ h
  rintro a' d s s' ⟨m, p, rfl, -⟩ hplan i pack c r ⟨-, -, ⟨g0, hg0, hc⟩, ho⟩ ⟨hI, hP⟩
  have hcell : Args.cell { a with rMean := m, porosity := p } = a.hSize := by simp [Args.cell, hh]
  have hdet : a.hSize.det ≠ 0 := by
    intro h0
    simp only [plan, hcell] at hplan
    rw [if_pos ⟨h0, hh⟩] at hplan
    cases hplan
  have hnew : InCell a.hSize a.mn c := by
    refine ⟨![g0 0, g0 1, g0 2], ?_, ?_⟩
    · intro i
      fin_cases i
      exacts [hg0 0, hg0 1, hg0 2]
    · rw [hc, candidate, if_pos hp, hcell]
  refine ⟨?_, pairwise_snoc hP fun s hs k => apart ?_⟩
  · intro s hs
    rcases List.mem_append.mp hs with hs | hs
    · exact hI s hs
    · rw [List.mem_singleton.mp hs]; exact hnew
  have h1 := ho s hs
  simp only [overlaps, between, hp] at h1
  rw [if_neg (by simp), if_neg hh] at h1
  simp only [image]
  intro hcon
  apply h1
  refine le_trans ?_ hcon
  obtain ⟨f, hf, e1⟩ := hI s hs
  obtain ⟨f', hf', e2⟩ := hnew
  have hx : a.hSize⁻¹.mulVec (s.c - c) = f - f' := by
    rw [e1, e2, add_sub_add_right_eq_sub, ← Matrix.mulVec_sub, Matrix.mulVec_mulVec,
      Matrix.nonsing_inv_mul _ (isUnit_iff_ne_zero.mpr hdet), Matrix.one_mulVec]
  have hd : s.c + a.hSize.mulVec (fun i => (k i : ℝ)) - c = a.hSize.mulVec (fun i => (f - f') i + k i) := by
    rw [e1, e2, show (fun i => (f - f') i + (k i : ℝ)) = (f - f') + fun i => (k i : ℝ) from rfl, Matrix.mulVec_add, Matrix.mulVec_sub]
    abel
  rw [hx, hd, sqNorm_columns hort, sqNorm_columns hort]
  refine Finset.sum_le_sum fun i _ => mul_le_mul_of_nonneg_right ?_ (sqNorm_nonneg _)
  rw [← sq_abs, ← sq_abs ((f - f') i + k i)]
  refine pow_le_pow_left₀ (abs_nonneg _) (nearest_le ?_ ?_ (k i)) 2
  · have := hf i; have := hf' i; simp only [Pi.sub_apply]; linarith
  · have := hf i; have := hf' i; simp only [Pi.sub_apply]; linarith

/-! ## C133: within the box -/

/-- C133.  Every sphere placed in a box is within the box along each direction in which the box is at least as wide as the sphere, and in
the plane of a flat box.  Missing: spheres wider than the box, see `C133_violated_wide`. -/
theorem C133_box_partial {n : Nat} {a : Args} {sp sp' : SpherePack} {g g' : Rnd} {k : Int} (hg : Good g) (hp : a.periodic = false)
    (h : makeCloud n a sp g = some (.ok (sp', k, g'))) : ∀ s ∈ sp'.pack, s ∈ sp.pack ∨ InBox a.mn a.mx s := by
  refine cloud_inv (P := fun l => ∀ s ∈ l, s ∈ sp.pack ∨ InBox a.mn a.mx s) (by simp) ?_ hg (fun s hs => Or.inl hs) h
  rintro a' d s s' ⟨m, p, rfl, -⟩ - i pack c r ⟨-, -, ⟨g0, hg0, hc⟩, -⟩ hP s hs
  rcases List.mem_append.mp hs with hs | hs
  · exact hP s hs
  refine Or.inr ?_
  rw [List.mem_singleton.mp hs]
  rw [candidate, if_neg (by simp [hp])] at hc
  dsimp only [Args.size] at hc
  have key : ∀ i : Fin 3, ∀ q : Nat, c i = a.mn i + (if a.mx i - a.mn i ≠ 0 then (a.mx i - a.mn i - 2 * r) * g0 q + r else 0) →
      (a.mn i = a.mx i → c i = a.mn i) ∧ (a.mn i ≠ a.mx i → 2 * r ≤ a.mx i - a.mn i → a.mn i ≤ c i - r ∧ c i + r ≤ a.mx i) := by
    intro i q hq
    refine ⟨fun he => ?_, fun hne hw => ?_⟩
    · rw [hq, if_neg (by simp [he]), add_zero]
    · rw [hq, if_pos (fun h0 => hne (by linarith))]
      obtain ⟨h1, h2⟩ := hg0 q
      constructor <;> nlinarith
  intro i
  fin_cases i
  · exact key 0 _ (congrFun hc 0)
  · exact key 1 _ (congrFun hc 1)
  · exact key 2 _ (congrFun hc 2)

/-- C133.  Every centre placed in a periodic packing is in the cell. -/
theorem C133_cell {n : Nat} {a : Args} {sp sp' : SpherePack} {g g' : Rnd} {k : Int} (hg : Good g) (hp : a.periodic = true)
    (h : makeCloud n a sp g = some (.ok (sp', k, g'))) : ∀ s ∈ sp'.pack, s ∈ sp.pack ∨
      InCell (if a.hSize = 0 then .diagonal (a.mx - a.mn) else a.hSize) a.mn s.c := by
  refine cloud_inv (P := fun l => ∀ s ∈ l, s ∈ sp.pack ∨ InCell (if a.hSize = 0 then .diagonal (a.mx - a.mn) else a.hSize) a.mn s.c)
    (by simp) ?_ hg (fun s hs => Or.inl hs) h
  rintro a' d s s' ⟨m, p, rfl, -⟩ - i pack c r ⟨-, -, ⟨g0, hg0, hc⟩, -⟩ hP s hs
  rcases List.mem_append.mp hs with hs | hs
  · exact hP s hs
  refine Or.inr ?_
  rw [List.mem_singleton.mp hs]
  refine ⟨![g0 0, g0 1, g0 2], ?_, ?_⟩
  · intro i
    fin_cases i
    exacts [hg0 0, hg0 1, hg0 2]
  · rw [hc, candidate, if_pos hp]
    rfl

/-! ## Violations, and cases meeting the hypotheses -/

/-- Two spheres of radius 0.3 in a cell whose second edge leans over by a full period. -/
noncomputable def sheared : Args :=
  { mn := 0, mx := ![1, 1, 1], rMean := 0.3, num := 2, periodic := true, hSize := !![1, 1, 0; 0, 1, 0; 0, 0, 1] }

theorem sheared_ne : sheared.hSize ≠ 0 := by
  intro h
  have := congrFun (congrFun h 0) 0
  simp [sheared] at this

theorem sheared_det : sheared.hSize.det = 1 := by simp [sheared, Matrix.det_fin_three]

theorem sheared_inv : sheared.hSize⁻¹ = !![1, -1, 0; 0, 1, 0; 0, 0, 1] := by
  apply Matrix.inv_eq_right_inv
  ext i j
  fin_cases i <;> fin_cases j <;> simp [sheared, Matrix.mul_apply, Fin.sum_univ_three]

/-- C132 is violated in leaning cells: the nearest image is sought along the edges one by one, but the nearest one may be another.  Two
spheres placed so overlap across the boundary. -/
theorem C132_violated_sheared : ∃ (n : Nat) (a : Args) (sp' : SpherePack) (g g' : Rnd) (k : Int), Good g ∧ a.periodic = true ∧
    a.hSize.det ≠ 0 ∧ makeCloud n a .empty g = some (.ok (sp', k, g')) ∧
    ∃ s t, sp'.pack = [s, t] ∧ ∃ k, Common (image a.hSize k s) t := by
  let g : Rnd := fun n => if n = 3 ∨ n = 4 then 0.45 else 0
  have hg : Good g := by
    intro n
    simp only [g]
    split_ifs <;> norm_num
  have hcell : sheared.cell = sheared.hSize := if_neg sheared_ne
  have e1 : (candidate sheared 0.3 g).1 = ![0, 0, 0] := by
    rw [candidate, if_pos (show sheared.periodic = true from rfl), hcell]
    ext i
    fin_cases i <;> simp [sheared, g]
  have e1' : (candidate sheared 0.3 g).2 = skip 3 g := by rw [candidate, if_pos (show sheared.periodic = true from rfl)]
  have e2 : (candidate sheared 0.3 (skip 3 g)).1 = ![0.9, 0.45, 0] := by
    rw [candidate, if_pos (show sheared.periodic = true from rfl), hcell]
    ext i
    fin_cases i <;> simp [sheared, g, skip, Matrix.mulVec, dotProduct, Fin.sum_univ_three] <;> norm_num
  have hno : ¬ overlaps sheared ![0.9, 0.45, 0] 0.3 { c := ![0, 0, 0], r := 0.3 } := by
    have hx : sheared.hSize⁻¹.mulVec (![0, 0, 0] - ![0.9, 0.45, 0]) = ![-0.45, -0.45, 0] := by
      rw [sheared_inv]
      ext i
      fin_cases i <;> simp [Matrix.mulVec, dotProduct, Fin.sum_univ_three] <;> norm_num
    have hy : (fun i => if |(![-0.45, -0.45, 0] : V3) i| < |(![-0.45, -0.45, 0] : V3) i - sign ((![-0.45, -0.45, 0] : V3) i)| then
        (![-0.45, -0.45, 0] : V3) i else (![-0.45, -0.45, 0] : V3) i - sign ((![-0.45, -0.45, 0] : V3) i)) = ![-0.45, -0.45, 0] := by
      ext i
      fin_cases i
      · simp only [sign]; norm_num [abs_of_pos, abs_of_neg]
      · simp only [sign]; norm_num [abs_of_pos, abs_of_neg]
      · simp only [sign]; norm_num
    rw [overlaps, between, if_neg (by simp [sheared]), if_neg sheared_ne]
    dsimp only
    rw [hx, hy]
    simp [sqNorm, dot, sheared, Matrix.mulVec, dotProduct, Fin.sum_univ_three]
    norm_num
  have hrun := cloud_all (n := 4) (a := sheared) (sp := .empty) (g := g) (plan_rmean (by norm_num [sheared]) rfl (Or.inr (by simp [sheared_det])))
    (by rw [loop_step (by simp [sheared]) (by simp [sheared]) (radius_fix rfl rfl) (by simp [SpherePack.empty]),
          show (candidate sheared sheared.rMean g).2 = skip 3 g from e1',
          loop_step (by simp [sheared]) (by simp [sheared]) (radius_fix rfl rfl), loop_end (by simp [sheared])]
        intro s hs
        simp only [SpherePack.empty, List.nil_append, List.mem_singleton] at hs
        rw [hs]
        change ¬ overlaps sheared (candidate sheared 0.3 (skip 3 g)).1 0.3 { c := (candidate sheared 0.3 g).1, r := 0.3 }
        rw [e1, e2]
        exact hno)
  obtain ⟨sp', h1, h2⟩ := hrun
  refine ⟨_, _, sp', g, _, _, hg, rfl, by simp [sheared_det], h2, _, _, h1, ![1, 0, 0], ![1, 0.225, 0], ?_, ?_⟩
  · change norm3 (_ - ((candidate sheared 0.3 g).1 + _)) ≤ 0.3
    rw [e1]
    apply Real.sqrt_le_iff.mpr
    simp [sqNorm, dot, sheared, Matrix.mulVec, dotProduct, Fin.sum_univ_three] <;> norm_num
  · change norm3 (_ - (candidate sheared 0.3 _).1) ≤ 0.3
    rw [e2]
    apply Real.sqrt_le_iff.mpr
    simp [sqNorm, dot] <;> norm_num

/-- One sphere of radius 1 in a unit box. -/
noncomputable def wide (periodic : Bool) : Args := { mn := 0, mx := ![1, 1, 1], rMean := 1, num := 1, periodic := periodic }

theorem wide_run (p : Bool) (g : Rnd) : ∃ n sp' g', makeCloud n (wide p) .empty g = some (.ok (sp', 1, g')) ∧
    sp'.pack = [{ c := (candidate (wide p) 1 g).1, r := 1 }] := by
  obtain ⟨sp', h1, h2⟩ := cloud_all (n := 2) (a := wide p) (sp := .empty) (g := g)
    (plan_rmean (by norm_num [wide]) rfl (Or.inl rfl))
    (by rw [loop_step (by simp [wide]) (by simp [wide]) (radius_fix rfl rfl) (by simp [SpherePack.empty]), loop_end (by simp [wide])])
  exact ⟨_, sp', _, h2, h1⟩

/-- C132 is violated by single spheres in small cells: a sphere is not tested against its own images. -/
theorem C132_violated_self : ∃ (n : Nat) (a : Args) (sp' : SpherePack) (g g' : Rnd) (k : Int), Good g ∧ a.periodic = true ∧ a.hSize = 0 ∧
    makeCloud n a .empty g = some (.ok (sp', k, g')) ∧ ∃ s, sp'.pack = [s] ∧ ∃ k, k ≠ 0 ∧ Common (image (.diagonal (a.mx - a.mn)) k s) s := by
  obtain ⟨n, sp', g', h1, h2⟩ := wide_run true (fun _ => 0)
  refine ⟨n, _, sp', _, g', _, fun _ => by norm_num, rfl, rfl, h1, _, h2, ![1, 0, 0], ?_, (candidate (wide true) 1 fun _ => 0).1, ?_, ?_⟩
  · intro h
    have := congrFun h 0
    simp at this
  · apply Real.sqrt_le_iff.mpr
    simp [image, sqNorm, dot, Matrix.mulVec_diagonal, wide]
  · apply Real.sqrt_le_iff.mpr
    simp [sqNorm, dot]

/-- C133 is violated by spheres wider than the box: they are placed, and stick out. -/
theorem C133_violated_wide : ∃ (n : Nat) (a : Args) (sp' : SpherePack) (g g' : Rnd) (k : Int), Good g ∧ a.periodic = false ∧
    (∀ i, a.mn i < a.mx i) ∧ makeCloud n a .empty g = some (.ok (sp', k, g')) ∧
    ∃ s ∈ sp'.pack, ∃ p, norm3 (p - s.c) ≤ s.r ∧ a.mx 0 < p 0 := by
  obtain ⟨n, sp', g', h1, h2⟩ := wide_run false (fun _ => 0)
  refine ⟨n, _, sp', _, g', _, fun _ => by norm_num, rfl, ?_, h1, _, by rw [h2]; exact List.mem_singleton.mpr rfl, ![2, 1, 1], ?_, ?_⟩
  · intro i
    fin_cases i <;> simp [wide]
  · have : (candidate (wide false) 1 fun _ => 0).1 = ![1, 1, 1] := by
      rw [candidate, if_neg (by simp [wide])]
      dsimp only
      ext i
      fin_cases i <;> simp [wide, Args.size]
    rw [this]
    apply Real.sqrt_le_iff.mpr
    simp [sqNorm, dot] <;> norm_num
  · simp [wide]

/-- Hypotheses of `C132_box` and `C133_box_partial` met: a unit sphere in a box of size 10, and one of radius 3 already there. -/
example : ∃ n a sp sp' g g' k, Good g ∧ a.periodic = false ∧ sp.pack = [{ c := ![-5, 0, 0], r := 3 }] ∧
    makeCloud n a sp g = some (.ok (sp', k, g')) ∧ sp'.pack.length = 2 := by
  let a : Args := { mn := 0, mx := ![10, 10, 10], rMean := 1, num := 1 }
  obtain ⟨sp', h1, h2⟩ := cloud_all (n := 2) (a := a) (sp := ⟨[{ c := ![-5, 0, 0], r := 3 }], 0, 1, false⟩) (g := fun _ => 0)
    (plan_rmean (by norm_num [a]) rfl (Or.inl rfl))
    (by rw [loop_step (by simp [a]) (by simp [a]) (radius_fix rfl rfl), loop_end (by simp [a])]
        intro s hs
        simp only [List.mem_singleton] at hs
        rw [hs, candidate, if_neg (by simp [a])]
        simp [overlaps, between, a, Args.size, sqNorm, dot]
        norm_num)
  exact ⟨_, a, _, sp', fun _ => 0, _, _, fun _ => by norm_num, rfl, rfl, h2, by rw [h1]; rfl⟩

/-- Hypotheses of `C132_periodic`, `C132_cell_partial` and `C133_cell` met, for boxes and for cells with perpendicular edges. -/
example : ∃ n a sp' g g' k, Good g ∧ a.periodic = true ∧ a.hSize = 0 ∧ (∀ i, a.mn i ≤ a.mx i) ∧
    makeCloud n a .empty g = some (.ok (sp', k, g')) := by
  obtain ⟨n, sp', g', h1, h2⟩ := wide_run true (fun _ => 0)
  exact ⟨n, _, sp', _, g', _, fun _ => by norm_num, rfl, rfl, fun i => by fin_cases i <;> simp [wide], h1⟩

example : ∃ n a sp' g g' k, Good g ∧ a.periodic = true ∧ a.hSize ≠ 0 ∧
    (∀ i j, i ≠ j → dot (fun l => a.hSize l i) (fun l => a.hSize l j) = 0) ∧
    makeCloud n a .empty g = some (.ok (sp', k, g')) := by
  let a : Args := { mn := 0, mx := 0, rMean := 0.1, num := 1, periodic := true, hSize := !![1, -2, 0; 1, 2, 0; 0, 0, 3] }
  have hdet : a.hSize.det ≠ 0 := by simp [a, Matrix.det_fin_three]
  obtain ⟨sp', h1, h2⟩ := cloud_all (n := 2) (a := a) (sp := .empty) (g := fun _ => 0)
    (plan_rmean (by norm_num [a]) rfl (Or.inr hdet))
    (by rw [loop_step (by simp [a]) (by simp [a]) (radius_fix rfl rfl) (by simp [SpherePack.empty]), loop_end (by simp [a])])
  refine ⟨_, a, sp', fun _ => 0, _, _, fun _ => by norm_num, rfl, ?_, ?_, h2⟩
  · intro h
    have := congrFun (congrFun h 0) 0
    simp [a] at this
  · intro i j hij
    fin_cases i <;> fin_cases j <;> simp [a, dot] at hij ⊢

end Verif.Pack
