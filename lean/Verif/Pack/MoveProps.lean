import Verif.Pack.Ops
import Verif.Pack.PredLemmas
import Mathlib.Tactic.FieldSimp
import Mathlib.Tactic.Linarith
import Mathlib.Analysis.SpecialFunctions.Trigonometric.Basic

/-!
# C147, C148: bounding boxes of packings; moving, turning and scaling packings
-/
namespace Verif.Pack
open Verif.Mech
open scoped Classical

/-! ## C147: boxes -/

theorem foldl_minOf (f : Sph → ℝ) (l : List Sph) (a : ℝ) :
    l.foldl (fun m s => min m (f s)) a ≤ a ∧ (∀ s ∈ l, l.foldl (fun m s => min m (f s)) a ≤ f s) ∧
    (l.foldl (fun m s => min m (f s)) a = a ∨ ∃ s ∈ l, l.foldl (fun m s => min m (f s)) a = f s) := by
  induction l generalizing a with
  | nil => simp
  | cons s l ih =>
    obtain ⟨h1, h2, h3⟩ := ih (min a (f s))
    simp only [List.foldl_cons]
    refine ⟨h1.trans (min_le_left _ _), ?_, ?_⟩
    · intro t ht
      rcases List.mem_cons.mp ht with rfl | ht
      · exact h1.trans (min_le_right _ _)
      · exact h2 t ht
    · rcases h3 with h3 | ⟨t, ht, h3⟩
      · rw [h3]
        rcases min_choice a (f s) with h | h
        · left; exact h
        · right; exact ⟨s, List.mem_cons_self .., h⟩
      · right; exact ⟨t, List.mem_cons_of_mem _ ht, h3⟩

theorem foldl_maxOf (f : Sph → ℝ) (l : List Sph) (a : ℝ) :
    a ≤ l.foldl (fun m s => max m (f s)) a ∧ (∀ s ∈ l, f s ≤ l.foldl (fun m s => max m (f s)) a) ∧
    (l.foldl (fun m s => max m (f s)) a = a ∨ ∃ s ∈ l, l.foldl (fun m s => max m (f s)) a = f s) := by
  induction l generalizing a with
  | nil => simp
  | cons s l ih =>
    obtain ⟨h1, h2, h3⟩ := ih (max a (f s))
    simp only [List.foldl_cons]
    refine ⟨(le_max_left _ _).trans h1, ?_, ?_⟩
    · intro t ht
      rcases List.mem_cons.mp ht with rfl | ht
      · exact (le_max_right _ _).trans h1
      · exact h2 t ht
    · rcases h3 with h3 | ⟨t, ht, h3⟩
      · rw [h3]
        rcases max_choice a (f s) with h | h
        · left; exact h
        · right; exact ⟨s, List.mem_cons_self .., h⟩
      · right; exact ⟨t, List.mem_cons_of_mem _ ht, h3⟩

/-- C147.  The box of a packing contains every sphere, and each of its sides is touched by one; only the empty packing has none. -/
theorem C147_box (l : List Sph) :
    (packBox l = none ↔ l = []) ∧
    ∀ mn mx, packBox l = some (mn, mx) → ∀ i,
      (∀ s ∈ l, mn i ≤ s.c i - s.r ∧ s.c i + s.r ≤ mx i) ∧ (∃ s ∈ l, s.c i - s.r = mn i) ∧ ∃ s ∈ l, s.c i + s.r = mx i := by
  cases l with
  | nil => simp [packBox]
  | cons s l =>
    refine ⟨by simp [packBox], ?_⟩
    intro mn mx h i
    simp only [packBox, Option.some.injEq, Prod.mk.injEq] at h
    obtain ⟨a1, a2, a3⟩ := foldl_minOf (fun s => s.c i - s.r) l (s.c i - s.r)
    obtain ⟨b1, b2, b3⟩ := foldl_maxOf (fun s => s.c i + s.r) l (s.c i + s.r)
    rw [congrFun h.1 i] at a1 a2 a3
    rw [congrFun h.2 i] at b1 b2 b3
    refine ⟨?_, ?_, ?_⟩
    · intro t ht
      rcases List.mem_cons.mp ht with rfl | ht
      · exact ⟨a1, b1⟩
      · exact ⟨a2 t ht, b2 t ht⟩
    · rcases a3 with a3 | ⟨t, ht, a3⟩
      · exact ⟨s, List.mem_cons_self .., a3.symm⟩
      · exact ⟨t, List.mem_cons_of_mem _ ht, a3.symm⟩
    · rcases b3 with b3 | ⟨t, ht, b3⟩
      · exact ⟨s, List.mem_cons_self .., b3.symm⟩
      · exact ⟨t, List.mem_cons_of_mem _ ht, b3.symm⟩

/-- C147.  The box is the only one that contains every sphere and is touched on each side. -/
theorem box_unique {l : List Sph} {i : Fin 3} {a b a' b' : ℝ}
    (h : (∀ s ∈ l, a ≤ s.c i - s.r ∧ s.c i + s.r ≤ b) ∧ (∃ s ∈ l, s.c i - s.r = a) ∧ ∃ s ∈ l, s.c i + s.r = b)
    (h' : (∀ s ∈ l, a' ≤ s.c i - s.r ∧ s.c i + s.r ≤ b') ∧ (∃ s ∈ l, s.c i - s.r = a') ∧ ∃ s ∈ l, s.c i + s.r = b') : a = a' ∧ b = b' := by
  obtain ⟨h1, ⟨s, hs, e1⟩, ⟨t, ht, e2⟩⟩ := h
  obtain ⟨h1', ⟨s', hs', e1'⟩, ⟨t', ht', e2'⟩⟩ := h'
  exact ⟨le_antisymm (by rw [← e1']; exact (h1 s' hs').1) (by rw [← e1]; exact (h1' s hs).1),
    le_antisymm (by rw [← e2]; exact (h1' t ht).2) (by rw [← e2']; exact (h1 t' ht').2)⟩

/-- Two spheres and their box. -/
example : packBox [{ c := ![0, 0, 0], r := 1 }, { c := ![3, 1, 0], r := 0.5 }] = some (![-1, -1, -1], ![3.5, 1.5, 1]) := by
  simp only [packBox, List.foldl_cons, List.foldl_nil]
  congr 2 <;> funext i <;> fin_cases i <;> simp <;> norm_num

/-! ## C148: similarity -/

/-- `l'` is `l` enlarged by `k`: as many spheres in the same order and clumps, with radii and distances of all pairs times `k`. -/
def Enlarged (k : ℝ) (l l' : List Sph) : Prop :=
  List.Forall₂ (fun s s' => s'.r = k * s.r ∧ s'.clumpId = s.clumpId) l l' ∧
  ∀ (i j : Nat) (s t s' t' : Sph), l[i]? = some s → l[j]? = some t → l'[i]? = some s' → l'[j]? = some t' → norm3 (s'.c - t'.c) = k * norm3 (s.c - t.c)

/-- No two spheres of the packing overlap. -/
def NoOverlap (l : List Sph) : Prop := l.Pairwise fun s t => s.r + t.r ≤ norm3 (s.c - t.c)

theorem enlarged_map {k : ℝ} {l : List Sph} {f : Sph → Sph} (hr : ∀ s, (f s).r = k * s.r ∧ (f s).clumpId = s.clumpId)
    (hd : ∀ s t, norm3 ((f s).c - (f t).c) = k * norm3 (s.c - t.c)) : Enlarged k l (l.map f) := by
  constructor
  · induction l with
    | nil => exact .nil
    | cons s l ih => exact .cons (hr s) ih
  · intro i j s t s' t' hs ht hs' ht'
    rw [List.getElem?_map, hs, Option.map_some, Option.some.injEq] at hs'
    rw [List.getElem?_map, ht, Option.map_some, Option.some.injEq] at ht'
    rw [← hs', ← ht', hd]

theorem noOverlap_map {k : ℝ} (hk : 0 ≤ k) {l : List Sph} {f : Sph → Sph} (hr : ∀ s, (f s).r = k * s.r)
    (hd : ∀ s t, norm3 ((f s).c - (f t).c) = k * norm3 (s.c - t.c)) (h : NoOverlap l) : NoOverlap (l.map f) := by
  rw [NoOverlap, List.pairwise_map]
  refine h.imp fun {s t} hst => ?_
  rw [hr, hr, hd, ← mul_add]
  exact mul_le_mul_of_nonneg_left hst hk

theorem norm3_rot {q : Quat} (h : q.sqNorm = 1) (v : V3) : norm3 (q.rot v) = norm3 v := by
  rw [norm3, norm3, sqNorm, sqNorm, Quat.dot_rot h]

theorem angleAxis_unit {axis : V3} (h : norm3 axis = 1) (angle : ℝ) : (angleAxis axis angle).sqNorm = 1 := by
  have h1 : sqNorm axis = 1 := by rw [← norm3_sq, h]; norm_num
  rw [angleAxis, Quat.sqNorm]
  simp only [sqNorm, dot] at h1
  have := Real.sin_sq_add_cos_sq (0.5 * angle)
  nlinarith [this, h1]

/-- C148.  Moving a packing keeps radii, distances of all pairs and clumps, and each sphere is moved by the vector given. -/
theorem C148_translate (shift : V3) (sp : SpherePack) :
    Enlarged 1 sp.pack (translate shift sp).pack ∧ (NoOverlap sp.pack → NoOverlap (translate shift sp).pack) ∧
    List.Forall₂ (fun s s' => s'.c = s.c + shift) sp.pack (translate shift sp).pack := by
  refine ⟨enlarged_map (fun s => by simp) fun s t => ?_, noOverlap_map zero_le_one (fun s => by simp) fun s t => ?_, ?_⟩
  · simp
  · simp
  · rw [translate, List.forall₂_map_right_iff]
    exact List.forall₂_same.mpr fun s _ => rfl

theorem rot_about {q : Quat} (h : q.sqNorm = 1) (m s t : V3) : norm3 (q.rot (s - m) + m - (q.rot (t - m) + m)) = norm3 (s - t) := by
  rw [add_sub_add_right_eq_sub, ← Quat.rot_sub, norm3_rot h, sub_sub_sub_cancel_right]

/-- C148.  Turning a packing about an axis of length 1 keeps radii, distances of all pairs and clumps, and the distances from the centre
of the box, which stays where it is if taken as a point of the packing; points on the axis through it do not move.  Missing: axes of
other lengths, see `C148_violated_rotate`. -/
theorem C148_rotate_partial {axis : V3} (h : norm3 axis = 1) (angle : ℝ) (sp : SpherePack) :
    Enlarged 1 sp.pack (rotate axis angle sp).pack ∧ (NoOverlap sp.pack → NoOverlap (rotate axis angle sp).pack) ∧
    List.Forall₂ (fun s s' => norm3 (s'.c - midPt sp.pack) = norm3 (s.c - midPt sp.pack) ∧
      dot axis (s'.c - midPt sp.pack) = dot axis (s.c - midPt sp.pack) ∧ (cross axis (s.c - midPt sp.pack) = 0 → s'.c = s.c)) sp.pack
      (rotate axis angle sp).pack := by
  have hq := angleAxis_unit h angle
  refine ⟨enlarged_map (fun s => by simp) fun s t => ?_, noOverlap_map zero_le_one (fun s => by simp) fun s t => ?_, ?_⟩
  · rw [one_mul]; exact rot_about hq _ _ _
  · rw [one_mul]; exact rot_about hq _ _ _
  · rw [rotate, List.forall₂_map_right_iff]
    refine List.forall₂_same.mpr fun s _ => ?_
    generalize midPt sp.pack = m
    have hax : cross axis (s.c - m) = 0 → (angleAxis axis angle).rot (s.c - m) = s.c - m := by
      intro hc
      have c0 := congrFun hc 0
      have c1 := congrFun hc 1
      have c2 := congrFun hc 2
      generalize s.c - m = v at *
      simp only [cross, Matrix.cons_val_zero, Matrix.cons_val_one, Matrix.cons_val, Pi.zero_apply] at c0 c1 c2
      have k : cross (angleAxis axis angle).vec v = 0 := by
        funext i
        fin_cases i <;> simp only [cross, Quat.vec, angleAxis, Fin.zero_eta, Fin.mk_one, Fin.reduceFinMk, Matrix.cons_val_zero, Matrix.cons_val_one,
          Matrix.cons_val, Pi.zero_apply]
        · linear_combination Real.sin (0.5 * angle) * c0
        · linear_combination Real.sin (0.5 * angle) * c1
        · linear_combination Real.sin (0.5 * angle) * c2
      have k2 : ∀ w : V3, cross w 0 = 0 := by intro w; funext i; fin_cases i <;> simp [cross]
      simp only [Quat.rot, k, k2, smul_zero, add_zero]
    refine ⟨?_, ?_, ?_⟩
    · simp only [add_sub_cancel_right]
      exact norm3_rot hq _
    · simp only [add_sub_cancel_right]
      generalize s.c - m = v
      simp only [Quat.rot, Quat.vec, angleAxis, dot, cross, Pi.add_apply, Pi.smul_apply, smul_eq_mul, Matrix.cons_val_zero, Matrix.cons_val_one,
        Matrix.cons_val]
      ring
    · intro hc
      simp only [hax hc, sub_add_cancel]

/-- C148 is violated by turning about an axis that is not of length 1: the packing is stretched. -/
theorem C148_violated_rotate : ∃ (sp : SpherePack) (axis : V3) (angle : ℝ), axis = ![0, 0, 2] ∧
    sp.pack = [{ c := ![-1, 0, 0], r := 1 }, { c := ![1, 0, 0], r := 1 }] ∧
    (rotate axis angle sp).pack = [{ c := ![7, 0, 0], r := 1 }, { c := ![-7, 0, 0], r := 1 }] := by
  refine ⟨⟨[{ c := ![-1, 0, 0], r := 1 }, { c := ![1, 0, 0], r := 1 }], 0, 1, false⟩, ![0, 0, 2], Real.pi, rfl, rfl, ?_⟩
  have hm : midPt [{ c := ![-1, 0, 0], r := 1 }, { c := ![1, 0, 0], r := 1 }] = 0 := by
    simp only [midPt, packBox, List.foldl_cons, List.foldl_nil]
    funext i
    fin_cases i <;> simp
    all_goals norm_num
  have hq : angleAxis ![0, 0, 2] Real.pi = ⟨0, 0, 0, 2⟩ := by
    have : (0.5 : ℝ) * Real.pi = Real.pi / 2 := by ring
    simp [angleAxis, this]
  simp only [rotate, hm, hq, List.map_cons, List.map_nil, sub_zero, add_zero]
  congr 2
  · congr 1
    funext i
    fin_cases i <;> simp [Quat.rot, Quat.vec, cross]
    all_goals norm_num
  · congr 2
    funext i
    fin_cases i <;> simp [Quat.rot, Quat.vec, cross]
    all_goals norm_num

/-- C148.  Scaling a packing multiplies radii and distances of all pairs by the absolute value of the factor, keeps clumps and the centre of
the box, and moves each sphere along the line through the centre. -/
theorem C148_scale (k : ℝ) (sp : SpherePack) :
    Enlarged |k| sp.pack (scale k sp).pack ∧ (NoOverlap sp.pack → NoOverlap (scale k sp).pack) ∧
    List.Forall₂ (fun s s' => s'.c - midPt sp.pack = k • (s.c - midPt sp.pack)) sp.pack (scale k sp).pack ∧
    midPt (scale k sp).pack = midPt sp.pack := by
  have hd : ∀ m s t : V3, norm3 (k • (s - m) + m - (k • (t - m) + m)) = |k| * norm3 (s - t) := by
    intro m s t
    rw [add_sub_add_right_eq_sub, ← smul_sub, sub_sub_sub_cancel_right, norm3_smul']
  refine ⟨enlarged_map (fun s => ⟨mul_comm _ _, rfl⟩) fun s t => hd _ _ _, noOverlap_map (abs_nonneg k) (fun s => mul_comm _ _) fun s t => hd _ _ _, ?_, ?_⟩
  · rw [scale, List.forall₂_map_right_iff]
    exact List.forall₂_same.mpr fun s _ => by simp
  · rcases h : packBox sp.pack with _ | ⟨mn, mx⟩
    · have h0 := (C147_box sp.pack).1.mp h
      simp [scale, h0]
    · rcases h' : packBox (scale k sp).pack with _ | ⟨mn', mx'⟩
      · have h0 := (C147_box _).1.mp h'
        rw [scale, List.map_eq_nil_iff] at h0
        rw [h0] at h
        simp [packBox] at h
      · have hmid : midPt sp.pack = (0.5 : ℝ) • (mn + mx) := by rw [midPt, h]
        rw [midPt, h', hmid]
        funext i
        have b := (C147_box sp.pack).2 mn mx h i
        have b' := (C147_box _).2 mn' mx' h' i
        obtain ⟨b1, ⟨s, hs, b2⟩, ⟨t, ht, b3⟩⟩ := b
        have hm := congrFun hmid i
        simp only [Pi.smul_apply, Pi.add_apply, smul_eq_mul] at hm
        generalize midPt sp.pack i = m at *
        have f : ∀ u : Sph, u ∈ sp.pack → ({ u with c := k • (u.c - midPt sp.pack) + midPt sp.pack, r := u.r * |k| } : Sph) ∈ (scale k sp).pack :=
          fun u hu => List.mem_map.mpr ⟨u, hu, rfl⟩
        have hmm : midPt sp.pack i = m := by rw [hmid]; simp only [Pi.smul_apply, Pi.add_apply, smul_eq_mul]; exact hm.symm
        have e : mn' i = m - |k| * (m - mn i) ∧ mx' i = m + |k| * (m - mn i) := by
          refine box_unique b' ⟨?_, ?_, ?_⟩
          · intro u hu
            obtain ⟨v, hv, rfl⟩ := List.mem_map.mp hu
            obtain ⟨c1, c2⟩ := b1 v hv
            simp only [Pi.add_apply, Pi.smul_apply, Pi.sub_apply, smul_eq_mul, hmm]
            rcases abs_cases k with ⟨e, h0⟩ | ⟨e, h0⟩ <;> rw [e] <;> constructor <;> nlinarith
          · rcases abs_cases k with ⟨e, h0⟩ | ⟨e, h0⟩
            · refine ⟨_, f s hs, ?_⟩
              simp only [Pi.add_apply, Pi.smul_apply, Pi.sub_apply, smul_eq_mul, hmm, e, ← b2]
              ring
            · refine ⟨_, f t ht, ?_⟩
              have : m - mn i = mx i - m := by rw [hm]; ring
              simp only [Pi.add_apply, Pi.smul_apply, Pi.sub_apply, smul_eq_mul, hmm, e, this, ← b3]
              ring
          · rcases abs_cases k with ⟨e, h0⟩ | ⟨e, h0⟩
            · refine ⟨_, f t ht, ?_⟩
              have : m - mn i = mx i - m := by rw [hm]; ring
              simp only [Pi.add_apply, Pi.smul_apply, Pi.sub_apply, smul_eq_mul, hmm, e, this, ← b3]
              ring
            · refine ⟨_, f s hs, ?_⟩
              simp only [Pi.add_apply, Pi.smul_apply, Pi.sub_apply, smul_eq_mul, hmm, e, ← b2]
              ring
        simp only [Pi.smul_apply, Pi.add_apply, smul_eq_mul, e.1, e.2]
        rw [hm]
        ring

/-- A packing of two touching spheres, mirrored and doubled. -/
example : (scale (-2) ⟨[{ c := ![-1, 0, 0], r := 1 }, { c := ![1, 0, 0], r := 1 }], 0, 1, false⟩).pack =
    [{ c := ![2, 0, 0], r := 2 }, { c := ![-2, 0, 0], r := 2 }] := by
  have hm : midPt [{ c := ![-1, 0, 0], r := 1 }, { c := ![1, 0, 0], r := 1 }] = 0 := by
    simp only [midPt, packBox, List.foldl_cons, List.foldl_nil]
    funext i
    fin_cases i <;> simp
    all_goals norm_num
  simp [scale, hm]

end Verif.Pack
