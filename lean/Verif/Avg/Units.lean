import Verif.Avg.Props

/-!
# Properties of smoothing: units of length (C243)
-/
namespace Verif.Avg

/-- A point in other units of length. -/
def Pt.scale (k : ℝ) (p : Pt) : Pt := ⟨k * p.x, k * p.y, p.val⟩

/-- A polygon in other units of length. -/
def Poly.scale (k : ℝ) (p : Poly) : Poly := ⟨p.vertices.map fun v => ⟨k * v.x, k * v.y⟩, p.inclusive⟩

/-- What a script does with a container. -/
inductive Cmd
  | add (p : Pt)
  | sd (s : ℝ)
  | rt (r : ℝ)
  | clips (c : List Poly)

/-- A command in other units of length. -/
def Cmd.scale (k : ℝ) : Cmd → Cmd
  | .add p => .add (p.scale k)
  | .sd s => .sd (k * s)
  | .rt r => .rt r
  | .clips c => .clips (c.map (Poly.scale k))

/-- The commands of a script one after the other. -/
noncomputable def runAll : GA → List Cmd → Res GA
  | a, [] => .ok a
  | a, .add p :: l => (a.addPt p).bind fun r => runAll r.1 l
  | a, .sd s :: l => runAll (a.setSd s) l
  | a, .rt r :: l => runAll (a.setRt r) l
  | a, .clips c :: l => runAll (a.setClips c) l

/-- A container in other units of length. -/
def GA.scale (k : ℝ) (a : GA) : GA :=
  ⟨⟨k * a.grid.lox, k * a.grid.loy, k * a.grid.hix, k * a.grid.hiy, a.grid.nx, a.grid.ny, fun i j => (a.grid.cells i j).map (Pt.scale k)⟩,
    k * a.sd, a.rt, k * a.sd0, k ^ 2 * a.area, a.clips.map (Poly.scale k)⟩

theorem scale_sx (k : ℝ) (a : GA) : (a.scale k).grid.sx = k * a.grid.sx := by simp [Grid.sx, GA.scale]; ring

theorem scale_sy (k : ℝ) (a : GA) : (a.scale k).grid.sy = k * a.grid.sy := by simp [Grid.sy, GA.scale]; ring

theorem scale_cell {k : ℝ} (hk : 0 < k) (a : GA) (x y : ℝ) : (a.scale k).grid.cell (k * x) (k * y) = a.grid.cell x y := by
  unfold Grid.cell
  rw [scale_sx, scale_sy]
  have e : ∀ u lo s : ℝ, (k * u - k * lo) / (k * s) = (u - lo) / s := fun u lo s => by
    rw [← mul_sub, mul_div_mul_left _ _ hk.ne']
  have e1 : (a.scale k).grid.lox = k * a.grid.lox := rfl
  have e2 : (a.scale k).grid.loy = k * a.grid.loy := rfl
  have e3 : (a.scale k).grid.nx = a.grid.nx := rfl
  have e4 : (a.scale k).grid.ny = a.grid.ny := rfl
  rw [e1, e2, e3, e4, e, e]
  simp only [mul_eq_zero, hk.ne', false_or]

theorem scale_has (k : ℝ) (a : GA) : (a.scale k).grid.has = a.grid.has := rfl

theorem scale_passes {k : ℝ} (hk : 0 < k) (a : GA) (x y rx ry : ℝ) (c m : ℤ × ℤ) :
    (a.scale k).grid.passes (k * x) (k * y) (k * rx) (k * ry) c m = a.grid.passes x y rx ry c m := by
  have hn : (a.scale k).grid.near (k * x) (k * y) c m = (k * (a.grid.near x y c m).1, k * (a.grid.near x y c m).2) := by
    unfold Grid.near
    rw [scale_sx, scale_sy]
    have e1 : (a.scale k).grid.lox = k * a.grid.lox := rfl
    have e2 : (a.scale k).grid.loy = k * a.grid.loy := rfl
    simp only [e1, e2]
    split_ifs <;> simp only [Prod.mk.injEq] <;> constructor <;> ring
  unfold Grid.passes
  rw [scale_has, hn]
  simp only [mul_ne_zero_iff, hk.ne', ne_eq, not_false_eq_true, true_and, mul_pow, mul_div_mul_left _ _ (pow_ne_zero 2 hk.ne')]

theorem scale_ellipse {k : ℝ} (hk : 0 < k) (a : GA) (x y rx ry : ℝ) :
    (a.scale k).grid.ellipse (k * x) (k * y) (k * rx) (k * ry) = a.grid.ellipse x y rx ry := by
  unfold Grid.ellipse Grid.rectangle
  rw [← mul_sub, ← mul_sub, ← mul_add, ← mul_add, scale_cell hk, scale_cell hk, scale_cell hk, scale_has]
  have : (a.scale k).grid.passes (k * x) (k * y) (k * rx) (k * ry) = a.grid.passes x y rx ry := by
    funext c m; exact scale_passes hk a x y rx ry c m
  rw [this]

theorem scale_crosses {k : ℝ} (hk : 0 < k) (t i j : P2) :
    crosses ⟨k * t.x, k * t.y⟩ ⟨k * i.x, k * i.y⟩ ⟨k * j.x, k * j.y⟩ = crosses t i j := by
  have e : (k * j.x - k * i.x) * (k * t.y - k * i.y) / (k * j.y - k * i.y) + k * i.x =
      k * ((j.x - i.x) * (t.y - i.y) / (j.y - i.y) + i.x) := by
    rw [← mul_sub, ← mul_sub, ← mul_sub, mul_add, show k * (j.x - i.x) * (k * (t.y - i.y)) = k * (k * ((j.x - i.x) * (t.y - i.y))) by ring,
      mul_div_mul_left _ _ hk.ne', mul_div_assoc]
  simp only [crosses, gt_iff_lt, mul_lt_mul_iff_of_pos_left hk, e]

theorem scale_parity {k : ℝ} (hk : 0 < k) (t : P2) (j : P2) (l : List P2) :
    parity ⟨k * t.x, k * t.y⟩ ⟨k * j.x, k * j.y⟩ (l.map fun v => ⟨k * v.x, k * v.y⟩) = parity t j l := by
  induction l generalizing j with
  | nil => rfl
  | cons i l ih => simp only [List.map_cons, parity, ih, scale_crosses hk]

theorem scale_inside {k : ℝ} (hk : 0 < k) (t : P2) (l : List P2) :
    inside ⟨k * t.x, k * t.y⟩ (l.map fun v => ⟨k * v.x, k * v.y⟩) = inside t l := by
  unfold inside
  rw [List.getLast?_map]
  cases h : l.getLast? with
  | none => rfl
  | some j => exact scale_parity hk t j l

theorem scale_clipped {k : ℝ} (hk : 0 < k) (c : List Poly) (x y : ℝ) :
    clipped (c.map (Poly.scale k)) ⟨k * x, k * y⟩ = clipped c ⟨x, y⟩ := by
  unfold clipped
  rw [List.any_map]
  congr 1
  funext p
  simp only [Function.comp, Poly.scale]
  rw [scale_inside hk ⟨x, y⟩ p.vertices]

theorem scale_weight {k : ℝ} (hk : 0 < k) (a : GA) (x y : ℝ) (p : Pt) :
    (a.scale k).weight (k * x) (k * y) (p.scale k) = a.weight x y p / k := by
  unfold GA.weight
  have e1 : (a.scale k).rt = a.rt := rfl
  have e2 : (a.scale k).sd = k * a.sd := rfl
  have e3 : (a.scale k).sd0 = k * a.sd0 := rfl
  have e4 : (p.scale k).x = k * p.x := rfl
  have e5 : (p.scale k).y = k * p.y := rfl
  rw [e1, e2, e3, e4, e5]
  have q1 : (k * x - k * p.x) ^ 2 + (k * y - k * p.y) ^ 2 = k ^ 2 * ((x - p.x) ^ 2 + (y - p.y) ^ 2) := by ring
  have q2 : (a.rt * (k * a.sd)) ^ 2 = k ^ 2 * (a.rt * a.sd) ^ 2 := by ring
  have q3 : 2 * (k * a.sd0) ^ 2 = k ^ 2 * (2 * a.sd0 ^ 2) := by ring
  have hk2 : 0 < k ^ 2 := by positivity
  rw [q1, q2, q3, ← mul_neg, mul_div_mul_left _ _ hk2.ne']
  by_cases h : (x - p.x) ^ 2 + (y - p.y) ^ 2 > (a.rt * a.sd) ^ 2
  · rw [if_pos h, if_pos (mul_lt_mul_of_pos_left h hk2), zero_div]
  · rw [if_neg h, if_neg (fun h' => h (lt_of_mul_lt_mul_left h' hk2.le)), div_div]
    congr 1
    ring

theorem sum_div (l : List Pt) (f : Pt → ℝ) (k : ℝ) : (l.map fun p => f p / k).sum = (l.map f).sum / k := by
  induction l with
  | nil => simp
  | cons p l ih => simp only [List.map_cons, List.sum_cons, ih]; ring

theorem scale_sums {k : ℝ} (hk : 0 < k) (a : GA) (x y : ℝ) :
    (a.scale k).sums (k * x) (k * y) = (a.sums x y).bind fun s => .ok (s.1 / k, s.2 / k) := by
  unfold GA.sums GA.used
  have e : (a.scale k).sd * (a.scale k).rt = k * (a.sd * a.rt) := by simp [GA.scale]; ring
  rw [e, scale_ellipse hk]
  cases a.grid.ellipse x y (a.sd * a.rt) (a.sd * a.rt) with
  | ub => rfl
  | throws => rfl
  | ok cs =>
    simp only [Res.bind_ok, Res.ok.injEq, Prod.mk.injEq]
    have hl : (cs.flatMap fun c => (a.scale k).grid.cells c.1 c.2) = (cs.flatMap fun c => a.grid.cells c.1 c.2).map (Pt.scale k) := by
      rw [List.map_flatMap]; rfl
    rw [hl, List.map_map, List.map_map]
    constructor
    · rw [← sum_div]
      congr 1
      apply List.map_congr_left
      intro p _
      simp only [Function.comp, scale_weight hk]
      simp only [Pt.scale]
      ring
    · rw [← sum_div]
      congr 1
      apply List.map_congr_left
      intro p _
      simp only [Function.comp, scale_weight hk]

theorem scale_addPt {k : ℝ} (hk : 0 < k) (a : GA) (p : Pt) :
    (a.scale k).addPt (p.scale k) = (a.addPt p).bind fun r => .ok (r.1.scale k, r.2) := by
  unfold GA.addPt
  have e : clipped (a.scale k).clips ⟨(p.scale k).x, (p.scale k).y⟩ = clipped a.clips ⟨p.x, p.y⟩ := scale_clipped hk a.clips p.x p.y
  rw [e]
  split_ifs
  · rfl
  · unfold Grid.add
    have e2 : (a.scale k).grid.cell (p.scale k).x (p.scale k).y = a.grid.cell p.x p.y := scale_cell hk a p.x p.y
    rw [e2, scale_has]
    have hp : ∀ i j, (a.scale k).grid.push (p.scale k) i j = (GA.scale k { a with grid := a.grid.push p i j }).grid := by
      intro i j
      simp only [GA.scale, Grid.push, Grid.mk.injEq, true_and]
      funext u v
      split_ifs <;> simp
    cases a.grid.cell p.x p.y with
    | ub => rfl
    | throws => rfl
    | ok c =>
      simp only [Res.bind_ok]
      split_ifs
      · simp only [Res.bind_ok, hp]; rfl
      · simp only [Res.bind_ok]
        have : (a.scale k).grid.nx = a.grid.nx ∧ (a.scale k).grid.ny = a.grid.ny := ⟨rfl, rfl⟩
        rw [this.1, this.2, hp]; rfl

theorem scale_runAll {k : ℝ} (hk : 0 < k) (l : List Cmd) (a : GA) :
    runAll (a.scale k) (l.map (Cmd.scale k)) = (runAll a l).bind fun b => .ok (b.scale k) := by
  induction l generalizing a with
  | nil => rfl
  | cons c l ih =>
    cases c with
    | add p =>
      simp only [List.map_cons, Cmd.scale, runAll, scale_addPt hk]
      cases a.addPt p <;> simp [ih]
    | sd s => exact ih (a.setSd s)
    | rt r => exact ih (a.setRt r)
    | clips c => exact ih (a.setClips c)

theorem scale_new {k : ℝ} (hk : 0 < k) (Φ : ℝ → ℝ) (lox loy hix hiy : ℝ) (nx ny : ℤ) (sd rt : ℝ) :
    GA.new Φ (k * lox) (k * loy) (k * hix) (k * hiy) nx ny (k * sd) rt =
      (GA.new Φ lox loy hix hiy nx ny sd rt).bind fun a => .ok (a.scale k) := by
  have h1 : (k * sd ≤ 0) = (sd ≤ 0) := propext ⟨fun h => by by_contra h'; push Not at h'; nlinarith [mul_pos hk h'],
    fun h => mul_nonpos_of_nonneg_of_nonpos hk.le h⟩
  unfold GA.new
  simp only [h1]
  split_ifs with h
  · rfl
  · push Not at h
    simp only [Res.bind_ok, GA.scale, List.map_nil, Res.ok.injEq, GA.mk.injEq, true_and, and_true]
    unfold supportArea
    have : -(k * sd) * 3 / (k * sd) = -sd * 3 / sd := by
      rw [show -(k * sd) * 3 = k * (-sd * 3) by ring, mul_div_mul_left _ _ hk.ne']
    rw [this]
    ring

/-- A container made and used by a script. -/
noncomputable def script (Φ : ℝ → ℝ) (lox loy hix hiy : ℝ) (nx ny : ℤ) (sd rt : ℝ) (l : List Cmd) : Res GA :=
  (GA.new Φ lox loy hix hiy nx ny sd rt).bind (runAll · l)

/-- The script written in other units makes the container in those units. -/
theorem scale_script {k : ℝ} (hk : 0 < k) (Φ : ℝ → ℝ) (lox loy hix hiy : ℝ) (nx ny : ℤ) (sd rt : ℝ) (l : List Cmd) :
    script Φ (k * lox) (k * loy) (k * hix) (k * hiy) nx ny (k * sd) rt (l.map (Cmd.scale k)) =
      (script Φ lox loy hix hiy nx ny sd rt l).bind fun a => .ok (a.scale k) := by
  unfold script
  rw [scale_new hk]
  cases GA.new Φ lox loy hix hiy nx ny sd rt with
  | ub => rfl
  | throws => rfl
  | ok a => exact scale_runAll hk l a

/-- **C243 (averages).** A script with all lengths in other units finds the same averages. -/
theorem C243_avg_partial {k : ℝ} (hk : 0 < k) (Φ : ℝ → ℝ) (lox loy hix hiy : ℝ) (nx ny : ℤ) (sd rt : ℝ) (l : List Cmd) (x y : ℝ) :
    (script Φ (k * lox) (k * loy) (k * hix) (k * hiy) nx ny (k * sd) rt (l.map (Cmd.scale k))).bind (·.avg (k * x) (k * y)) =
      (script Φ lox loy hix hiy nx ny sd rt l).bind (·.avg x y) := by
  rw [scale_script hk]
  cases script Φ lox loy hix hiy nx ny sd rt l with
  | ub => rfl
  | throws => rfl
  | ok a =>
    simp only [Res.bind_ok]
    unfold GA.avg
    have e : clipped (a.scale k).clips ⟨k * x, k * y⟩ = clipped a.clips ⟨x, y⟩ := scale_clipped hk a.clips x y
    rw [e, scale_sums hk]
    split_ifs
    · rfl
    · cases a.sums x y with
      | ub => rfl
      | throws => rfl
      | ok s =>
        simp only [Res.bind_ok, div_eq_zero_iff, hk.ne', or_false, div_div_div_cancel_right₀ hk.ne']

/-- **C243 (violated, per unit area).** `avgPerUnitArea` is not per unit of area: with lengths `k` times as large it is divided by `k³`. -/
theorem C243_violated_perArea {k : ℝ} (hk : 0 < k) (Φ : ℝ → ℝ) (lox loy hix hiy : ℝ) (nx ny : ℤ) (sd rt : ℝ) (l : List Cmd) (x y v : ℝ)
    (hv : (script Φ lox loy hix hiy nx ny sd rt l).bind (·.perArea x y) = .ok (some v)) :
    (script Φ (k * lox) (k * loy) (k * hix) (k * hiy) nx ny (k * sd) rt (l.map (Cmd.scale k))).bind (·.perArea (k * x) (k * y)) =
      .ok (some (v / k ^ 3)) ∧ (v ≠ 0 → k ≠ 1 → v / k ^ 3 ≠ v / k ^ 2) := by
  constructor
  · rw [scale_script hk]
    cases hs : script Φ lox loy hix hiy nx ny sd rt l with
    | ub => rw [hs] at hv; simp at hv
    | throws => rw [hs] at hv; simp at hv
    | ok a =>
      rw [hs] at hv
      simp only [Res.bind_ok] at hv ⊢
      unfold GA.perArea at hv ⊢
      have e : clipped (a.scale k).clips ⟨k * x, k * y⟩ = clipped a.clips ⟨x, y⟩ := scale_clipped hk a.clips x y
      have e2 : (a.scale k).area = k ^ 2 * a.area := rfl
      rw [e, e2, scale_sums hk]
      cases hc : clipped a.clips ⟨x, y⟩ with
      | true => rw [hc] at hv; simp at hv
      | false =>
        rw [hc] at hv
        simp only [Bool.false_eq_true, if_false] at hv ⊢
        cases hq : a.sums x y with
        | ub => rw [hq] at hv; simp at hv
        | throws => rw [hq] at hv; simp at hv
        | ok s =>
          rw [hq] at hv
          simp only [Res.bind_ok, Res.ok.injEq] at hv ⊢
          by_cases h0 : a.area = 0
          · rw [if_pos h0] at hv; simp at hv
          rw [if_neg h0] at hv
          rw [if_neg (mul_ne_zero (by positivity) h0)]
          simp only [Option.some.injEq] at hv ⊢
          rw [← hv]
          field_simp
  · intro hv0 hk1 h
    rw [div_eq_div_iff (by positivity) (by positivity)] at h
    have := mul_left_cancel₀ hv0 h
    apply hk1
    have h2 : k ^ 2 * k = k ^ 2 * 1 := by rw [mul_one]; linarith [pow_succ k 2]
    exact mul_left_cancel₀ (by positivity) h2

/-- The hypothesis of `C243_violated_perArea` is met by an empty container. -/
example : (script (fun _ => 0) 0 0 2 2 2 2 1 3 []).bind (·.perArea 1 1) = .ok (some 0) := by
  have hn : GA.new (fun _ => 0) 0 0 2 2 2 2 1 3 = .ok ⟨⟨0, 0, 2, 2, 2, 2, fun _ _ => []⟩, 1, 3, 1, supportArea (fun _ => 0) 1 3, []⟩ := by
    unfold GA.new
    rw [if_neg (by push Not; exact ⟨by norm_num, by norm_num, one_pos⟩)]
  unfold script
  rw [hn]
  simp only [Res.bind_ok, runAll]
  obtain ⟨us, hu⟩ := used_one (a := ⟨⟨0, 0, 2, 2, 2, 2, fun _ _ => []⟩, 1, 3, 1, supportArea (fun _ => 0) 1 3, []⟩) rfl rfl
    (by simp [Grid.sx]) (by simp [Grid.sy]) rfl rfl (x := 1) (y := 1) (by norm_num [abs_of_pos]) (by norm_num [abs_of_pos])
  have h0 : us = [] := by
    obtain ⟨cs, -, rfl⟩ := used_ok hu
    simp
  unfold GA.perArea GA.sums
  rw [hu, h0]
  have : supportArea (fun _ => 0) 1 3 ≠ 0 := by unfold supportArea; positivity
  simp [clipped, this]

end Verif.Avg
