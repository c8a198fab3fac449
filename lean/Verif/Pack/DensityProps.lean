import Verif.Pack.MoveProps
import Mathlib.MeasureTheory.Measure.Lebesgue.VolumeOfBalls

/-!
# C153: the relative density of a packing
-/
namespace Verif.Pack
open Verif.Mech
open MeasureTheory
open scoped Classical

/-- Euclidean space, in which volumes are measured. -/
abbrev E3 := EuclideanSpace ℝ (Fin 3)

/-- The points inside of the spheres of a packing. -/
def occupied (l : List Sph) : Set E3 := {x | ∃ s ∈ l, ‖x - WithLp.toLp 2 s.c‖ < s.r}

/-- The points of the box between two corners. -/
def boxSet (mn mx : V3) : Set E3 := {x | ∀ i, mn i ≤ x i ∧ x i ≤ mx i}

theorem norm_toLp (v : V3) : ‖(WithLp.toLp 2 v : E3)‖ = norm3 v := by
  rw [EuclideanSpace.norm_eq, norm3, sqNorm, dot, Fin.sum_univ_three]
  simp [sq]

theorem occupied_cons (s : Sph) (l : List Sph) : occupied (s :: l) = Metric.ball (WithLp.toLp 2 s.c) s.r ∪ occupied l := by
  ext x
  simp [occupied, dist_eq_norm]

theorem occupied_open (l : List Sph) : IsOpen (occupied l) := by
  induction l with
  | nil => simp [occupied]
  | cons s l ih => rw [occupied_cons]; exact Metric.isOpen_ball.union ih

theorem volume_occupied {l : List Sph} (hr : ∀ s ∈ l, 0 ≤ s.r) (h : NoOverlap l) :
    volume (occupied l) = ENNReal.ofReal ((l.map fun s => s.r ^ 3).sum * (4 / 3 * Real.pi)) := by
  induction l with
  | nil => simp [occupied]
  | cons s l ih =>
    rw [NoOverlap, List.pairwise_cons] at h
    obtain ⟨h1, h2⟩ := h
    have hs := hr s (List.mem_cons_self ..)
    have hl := fun t ht => hr t (List.mem_cons_of_mem _ ht)
    have hd : Disjoint (Metric.ball (WithLp.toLp 2 s.c : E3) s.r) (occupied l) := by
      rw [Set.disjoint_left]
      rintro x hx ⟨t, ht, hxt⟩
      have := Metric.ball_disjoint_ball (x := (WithLp.toLp 2 s.c : E3)) (y := WithLp.toLp 2 t.c) (δ := s.r) (ε := t.r) (by
        rw [dist_eq_norm, ← WithLp.toLp_sub, norm_toLp]
        exact h1 t ht)
      exact Set.disjoint_left.mp this hx (by rw [Metric.mem_ball, dist_eq_norm]; exact hxt)
    have hsum : 0 ≤ (l.map fun s => s.r ^ 3).sum := by
      apply List.sum_nonneg
      intro v hv
      obtain ⟨t, ht, rfl⟩ := List.mem_map.mp hv
      exact pow_nonneg (hl t ht) 3
    rw [occupied_cons, measure_union hd (occupied_open l).measurableSet, ih hl h2, EuclideanSpace.volume_ball_fin_three,
      ← ENNReal.ofReal_pow hs, ← ENNReal.ofReal_mul (pow_nonneg hs 3), ← ENNReal.ofReal_add (by positivity) (by positivity)]
    congr 1
    simp only [List.map_cons, List.sum_cons]
    ring

theorem volume_boxSet {mn mx : V3} (h : ∀ i, mn i ≤ mx i) :
    volume (boxSet mn mx) = ENNReal.ofReal ((mx 0 - mn 0) * (mx 1 - mn 1) * (mx 2 - mn 2)) := by
  have e : boxSet mn mx = (WithLp.ofLp : E3 → V3) ⁻¹' Set.Icc mn mx := by
    ext x
    simp only [boxSet, Set.mem_setOf_eq, Set.mem_preimage, Set.mem_Icc, Pi.le_def]
    exact ⟨fun h => ⟨fun i => (h i).1, fun i => (h i).2⟩, fun h i => ⟨h.1 i, h.2 i⟩⟩
  rw [e, (PiLp.volume_preserving_ofLp (Fin 3)).measure_preimage measurableSet_Icc.nullMeasurableSet, Real.volume_Icc_pi, Fin.prod_univ_three,
    ← ENNReal.ofReal_mul (sub_nonneg.mpr (h 0)), ← ENNReal.ofReal_mul (mul_nonneg (sub_nonneg.mpr (h 0)) (sub_nonneg.mpr (h 1)))]

theorem sum_foldl (f : Sph → ℝ) (l : List Sph) (a : ℝ) : l.foldl (fun v s => v + f s) a = a + (l.map f).sum := by
  induction l generalizing a with
  | nil => simp
  | cons s l ih => rw [List.foldl_cons, ih, List.map_cons, List.sum_cons]; ring

/-- C153.  For a packing of non-overlapping spheres of positive radius, the relative density is the volume of the set of points in the
spheres divided by the volume of the box of the packing, and lies above 0 and at most at 1. -/
theorem C153_density {l : List Sph} (h0 : l ≠ []) (hr : ∀ s ∈ l, 0 < s.r) (h : NoOverlap l) :
    ∃ d mn mx, relDensity l = .ok d ∧ packBox l = some (mn, mx) ∧ d = (volume (occupied l)).toReal / (volume (boxSet mn mx)).toReal ∧
    0 < d ∧ d ≤ 1 := by
  rcases hb : packBox l with _ | ⟨mn, mx⟩
  · exact absurd ((C147_box l).1.mp hb) h0
  have hbox := (C147_box l).2 mn mx hb
  obtain ⟨s0, hs0⟩ := List.exists_mem_of_ne_nil l h0
  have hlt : ∀ i, 0 < mx i - mn i := fun i => by
    have := (hbox i).1 s0 hs0
    have := hr s0 hs0
    linarith
  have hV : 0 < (mx 0 - mn 0) * (mx 1 - mn 1) * (mx 2 - mn 2) := mul_pos (mul_pos (hlt 0) (hlt 1)) (hlt 2)
  have hsum : 0 < (l.map fun s => s.r ^ 3).sum := by
    refine List.sum_pos _ ?_ (by simpa using h0)
    intro v hv
    obtain ⟨t, ht, rfl⟩ := List.mem_map.mp hv
    exact pow_pos (hr t ht) 3
  have hS : 0 < (l.map fun s => s.r ^ 3).sum * (4 / 3 * Real.pi) := mul_pos hsum (by positivity)
  have v1 := volume_occupied (fun s hs => (hr s hs).le) h
  have v2 := volume_boxSet (mn := mn) (mx := mx) fun i => by linarith [hlt i]
  refine ⟨(l.map fun s => s.r ^ 3).sum * (4 / 3 * Real.pi) / ((mx 0 - mn 0) * (mx 1 - mn 1) * (mx 2 - mn 2)), mn, mx, ?_, rfl, ?_, ?_⟩
  · rw [relDensity, dim, hb]
    simp only [Option.map_some, sum_foldl, zero_add, Pi.sub_apply]
    rw [quot, if_neg hV.ne']
  · rw [v1, v2, ENNReal.toReal_ofReal hS.le, ENNReal.toReal_ofReal hV.le]
  · refine ⟨div_pos hS hV, ?_⟩
    rw [div_le_one hV]
    have hsub : occupied l ⊆ boxSet mn mx := by
      rintro x ⟨s, hs, hx⟩ i
      obtain ⟨c1, c2⟩ := (hbox i).1 s hs
      have hi : |x i - s.c i| ≤ ‖x - WithLp.toLp 2 s.c‖ := by
        have := PiLp.norm_apply_le (x - WithLp.toLp 2 s.c : E3) i
        simpa using this
      have := abs_le.mp (hi.trans hx.le)
      constructor <;> linarith
    have hm := measure_mono (μ := volume) hsub
    rw [v1, v2] at hm
    exact (ENNReal.ofReal_le_ofReal_iff hV.le).mp hm

/-- Two touching unit spheres. -/
example : NoOverlap [{ c := ![-1, 0, 0], r := 1 }, { c := ![1, 0, 0], r := 1 }] := by
  have e : sqNorm (![-1, 0, 0] - ![1, 0, 0]) = 2 ^ 2 := by
    simp [sqNorm, dot]
    norm_num
  rw [NoOverlap, List.pairwise_pair]
  show (1 : ℝ) + 1 ≤ norm3 (![-1, 0, 0] - ![1, 0, 0])
  rw [norm3, e, Real.sqrt_sq (by norm_num)]
  norm_num

end Verif.Pack
