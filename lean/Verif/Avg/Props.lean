import Verif.Avg.Lemmas
import Mathlib.Tactic.Positivity

/-!
# Properties of smoothing: C238-C241, C243
-/
namespace Verif.Avg

/-- A `GaussAverage` made, filled with points (those accepted, in order) and changed by a script. -/
inductive Made (Φ : ℝ → ℝ) : GA → List Pt → Prop
  | new {a : GA} (lox loy hix hiy : ℝ) (nx ny : ℤ) (sd rt : ℝ) (h : GA.new Φ lox loy hix hiy nx ny sd rt = .ok a) : Made Φ a []
  | add {a a' : GA} {l : List Pt} (h : Made Φ a l) (p : Pt) (h' : a.addPt p = .ok (a', true)) : Made Φ a' (l ++ [p])
  | refuse {a a' : GA} {l : List Pt} (h : Made Φ a l) (p : Pt) (h' : a.addPt p = .ok (a', false)) : Made Φ a' l
  | sd {a : GA} {l : List Pt} (h : Made Φ a l) (s : ℝ) : Made Φ (a.setSd s) l
  | rt {a : GA} {l : List Pt} (h : Made Φ a l) (r : ℝ) : Made Φ (a.setRt r) l
  | clips {a : GA} {l : List Pt} (h : Made Φ a l) (c : List Poly) : Made Φ (a.setClips c) l

/-! ## What holds for all of them -/

/-- The cell a point is put into. -/
noncomputable def home (g : Grid) (p : Pt) : ℤ × ℤ :=
  (clamp ⌊(p.x - g.lox) / g.sx⌋ g.nx, clamp ⌊(p.y - g.loy) / g.sy⌋ g.ny)

theorem clamp_mem (c : ℤ) {n : ℤ} (h : 0 < n) : 0 ≤ clamp c n ∧ clamp c n < n := by
  unfold clamp
  simp only
  split_ifs <;> omega

theorem clamp_id {c n : ℤ} (h0 : 0 ≤ c) (h1 : c < n) : clamp c n = c := by
  unfold clamp
  simp only
  split_ifs <;> omega

/-- What stays. -/
structure Inv (Φ : ℝ → ℝ) (a : GA) (l : List Pt) : Prop where
  sd0 : 0 < a.sd0
  area : a.area = supportArea Φ a.sd0 3
  nx : 0 ≤ a.grid.nx
  ny : 0 < a.grid.nx → 0 ≤ a.grid.ny
  size : l ≠ [] → 0 < a.grid.nx ∧ 0 < a.grid.ny
  cells : ∀ i j, a.grid.cells i j = l.filter fun p => decide (home a.grid p = (i, j))

theorem add_ok {g g' : Grid} {p : Pt} (hx : 0 ≤ g.nx) (hy : 0 < g.nx → 0 ≤ g.ny) (h : g.add p = .ok g') :
    0 < g.nx ∧ 0 < g.ny ∧ g' = g.push p (home g p).1 (home g p).2 := by
  unfold Grid.add at h
  cases h1 : g.cell p.x p.y with
  | ub => rw [h1] at h; simp at h
  | throws => rw [h1] at h; simp at h
  | ok c =>
    rw [h1] at h
    simp only [Res.bind_ok] at h
    obtain ⟨n1, n2, -, -, c1, c2⟩ := cell_ok h1
    have p1 : 0 < g.nx := by omega
    have p2 : 0 < g.ny := by have := hy p1; omega
    refine ⟨p1, p2, ?_⟩
    simp only [home, ← c1, ← c2]
    cases hh : g.has c with
    | false =>
      rw [hh] at h
      simp only [Bool.false_eq_true, if_false, Res.ok.injEq] at h
      exact h.symm
    | true =>
      rw [hh] at h
      simp only [if_true, Res.ok.injEq] at h
      obtain ⟨k1, k2, k3, k4⟩ := has_iff.mp hh
      rw [clamp_id k1 k2, clamp_id k3 k4]
      exact h.symm

theorem addPt_true {a a' : GA} {p : Pt} (h : a.addPt p = .ok (a', true)) :
    clipped a.clips ⟨p.x, p.y⟩ = false ∧ ∃ g, a.grid.add p = .ok g ∧ a' = { a with grid := g } := by
  unfold GA.addPt at h
  cases hc : clipped a.clips ⟨p.x, p.y⟩ with
  | true => rw [hc] at h; simp at h
  | false =>
    rw [hc] at h
    simp only [Bool.false_eq_true, if_false] at h
    cases h1 : a.grid.add p with
    | ub => rw [h1] at h; simp at h
    | throws => rw [h1] at h; simp at h
    | ok g =>
      rw [h1] at h
      simp only [Res.bind_ok, Res.ok.injEq, Prod.mk.injEq, and_true] at h
      exact ⟨rfl, g, rfl, h.symm⟩

theorem addPt_false {a a' : GA} {p : Pt} (h : a.addPt p = .ok (a', false)) : clipped a.clips ⟨p.x, p.y⟩ = true ∧ a' = a := by
  unfold GA.addPt at h
  cases hc : clipped a.clips ⟨p.x, p.y⟩ with
  | true => rw [hc] at h; simp at h; exact ⟨rfl, h.symm⟩
  | false =>
    rw [hc] at h
    simp only [Bool.false_eq_true, if_false] at h
    cases h1 : a.grid.add p with
    | ub => rw [h1] at h; simp at h
    | throws => rw [h1] at h; simp at h
    | ok g => rw [h1] at h; simp at h

theorem made_inv {Φ : ℝ → ℝ} {a : GA} {l : List Pt} (h : Made Φ a l) : Inv Φ a l := by
  induction h with
  | new lox loy hix hiy nx ny sd rt h =>
    unfold GA.new at h
    split_ifs at h with h0
    push Not at h0
    simp only [Res.ok.injEq] at h
    subst h
    exact ⟨h0.2.2, rfl, h0.1, h0.2.1, by simp, by simp⟩
  | @add a a' l _ p h' ih =>
    obtain ⟨-, g, hg, rfl⟩ := addPt_true h'
    obtain ⟨p1, p2, rfl⟩ := add_ok ih.nx ih.ny hg
    refine ⟨ih.sd0, ih.area, ih.nx, ih.ny, fun _ => ⟨p1, p2⟩, ?_⟩
    intro i j
    have hhome : ∀ q, home (a.grid.push p (home a.grid p).1 (home a.grid p).2) q = home a.grid q := fun q => rfl
    simp only [hhome]
    rw [List.filter_append, ← ih.cells i j]
    simp only [Grid.push]
    by_cases hij : i = (home a.grid p).1 ∧ j = (home a.grid p).2
    · rw [if_pos hij]
      have : home a.grid p = (i, j) := by rw [hij.1, hij.2]
      simp [this]
    · rw [if_neg hij]
      have : home a.grid p ≠ (i, j) := by
        intro h; apply hij; rw [h]; exact ⟨rfl, rfl⟩
      simp [this]
  | refuse _ p h' ih => rw [(addPt_false h').2]; exact ih
  | sd _ s ih => exact ⟨ih.sd0, ih.area, ih.nx, ih.ny, ih.size, ih.cells⟩
  | rt _ r ih => exact ⟨ih.sd0, ih.area, ih.nx, ih.ny, ih.size, ih.cells⟩
  | clips _ c ih => exact ⟨ih.sd0, ih.area, ih.nx, ih.ny, ih.size, ih.cells⟩

theorem mem_cells {Φ : ℝ → ℝ} {a : GA} {l : List Pt} (h : Made Φ a l) {p : Pt} {i j : ℤ} :
    p ∈ a.grid.cells i j ↔ p ∈ l ∧ home a.grid p = (i, j) := by
  rw [(made_inv h).cells i j]; simp

/-! ## C238: averages are averages -/

/-- The distance of a point that still counts. -/
def Near (a : GA) (x y : ℝ) (p : Pt) : Prop := (x - p.x) ^ 2 + (y - p.y) ^ 2 ≤ (a.rt * a.sd) ^ 2

/-- **C238 (bounds).** A value given by `avg` is between the least and the greatest value of the points added that are no farther than
`relThreshold·stDev`. -/
theorem C238_bounds {Φ : ℝ → ℝ} {a : GA} {l : List Pt} (h : Made Φ a l) {x y v m M : ℝ} (hv : a.avg x y = .ok (some v))
    (hb : ∀ p ∈ l, Near a x y p → m ≤ p.val ∧ p.val ≤ M) : m ≤ v ∧ v ≤ M := by
  have hc : clipped a.clips ⟨x, y⟩ = false := by
    cases hc : clipped a.clips ⟨x, y⟩ with
    | false => rfl
    | true => unfold GA.avg at hv; rw [hc] at hv; simp at hv
  obtain ⟨us, hu, hv'⟩ := avg_ok hv hc
  obtain ⟨cs, -, hl⟩ := used_ok hu
  have h0 := (made_inv h).sd0
  obtain ⟨b1, b2⟩ := weighted_bounds us (a.weight x y) m M (fun p _ => weight_nonneg h0 x y p) (by
    intro p hp hw
    rw [hl, List.mem_flatMap] at hp
    obtain ⟨c, -, hc⟩ := hp
    refine hb p (mem_cells h |>.mp hc).1 ?_
    by_contra hn
    exact hw (weight_far (not_le.mp hn)))
  split_ifs at hv' with hz
  simp only [Option.some.injEq] at hv'
  have hpos : 0 < (us.map (a.weight x y)).sum := by
    refine lt_of_le_of_ne ?_ (Ne.symm hz)
    apply List.sum_nonneg
    intro w hw
    obtain ⟨p, -, rfl⟩ := List.mem_map.mp hw
    exact weight_nonneg h0 x y p
  rw [hv']
  exact ⟨by rw [le_div_iff₀ hpos]; exact b1, by rw [div_le_iff₀ hpos]; exact b2⟩

/-- **C238 (constant).** Equal values are reproduced. -/
theorem C238_constant {Φ : ℝ → ℝ} {a : GA} {l : List Pt} (h : Made Φ a l) {x y v c : ℝ} (hv : a.avg x y = .ok (some v))
    (hb : ∀ p ∈ l, p.val = c) : v = c := by
  obtain ⟨h1, h2⟩ := C238_bounds h (m := c) (M := c) hv (fun p hp _ => by rw [hb p hp]; exact ⟨le_refl _, le_refl _⟩)
  exact le_antisymm h2 h1

theorem ellipse_push (g : Grid) (p : Pt) (i j : ℤ) (x y rx ry : ℝ) : (g.push p i j).ellipse x y rx ry = g.ellipse x y rx ry := rfl

/-- Elements without weight do not matter. -/
theorem flatMap_weightless (cs : List (ℤ × ℤ)) (g : Grid) (p : Pt) (i j : ℤ) (f : Pt → ℝ) (hf : f p = 0) :
    ((cs.flatMap fun c => (g.push p i j).cells c.1 c.2).map f).sum = ((cs.flatMap fun c => g.cells c.1 c.2).map f).sum := by
  induction cs with
  | nil => simp
  | cons c cs ih =>
    simp only [List.flatMap_cons, List.map_append, List.sum_append, ih]
    congr 1
    simp only [Grid.push]
    split_ifs <;> simp [hf]

/-- **C238 (far points).** A point farther than `relThreshold·stDev` changes no average. -/
theorem C238_far {Φ : ℝ → ℝ} {a a' : GA} {l : List Pt} (h : Made Φ a l) {p : Pt} (hp : a.addPt p = .ok (a', true)) {x y : ℝ}
    (hf : ¬ Near a x y p) : a'.avg x y = a.avg x y ∧ a'.perArea x y = a.perArea x y := by
  obtain ⟨-, g, hg, rfl⟩ := addPt_true hp
  obtain ⟨-, -, rfl⟩ := add_ok (made_inv h).nx (made_inv h).ny hg
  have hw : a.weight x y p = 0 := weight_far (not_le.mp hf)
  have hs : ({ a with grid := a.grid.push p (home a.grid p).1 (home a.grid p).2 } : GA).sums x y = a.sums x y := by
    unfold GA.sums GA.used
    simp only [ellipse_push]
    cases a.grid.ellipse x y (a.sd * a.rt) (a.sd * a.rt) with
    | ub => rfl
    | throws => rfl
    | ok cs =>
      simp only [Res.bind_ok, Res.ok.injEq, Prod.mk.injEq]
      exact ⟨flatMap_weightless cs a.grid p _ _ (fun q => a.weight x y q * q.val) (by simp [hw]),
        flatMap_weightless cs a.grid p _ _ (a.weight x y) hw⟩
  unfold GA.avg GA.perArea
  rw [hs]
  exact ⟨rfl, rfl⟩

/-! ## C239: near points are found -/

theorem passes_of {g : Grid} {x y r : ℝ} {c m : ℤ × ℤ} (hr : 0 < r)
    (h : (g.near x y c m).1 ^ 2 + (g.near x y c m).2 ^ 2 ≤ r ^ 2) : g.passes x y r r c m = true := by
  simp only [Grid.passes, Bool.or_eq_true, decide_eq_true_eq]
  right
  refine ⟨hr.ne', hr.ne', ?_⟩
  rw [← add_div, div_le_one (by positivity)]
  exact h

/-- The near side of the column of a point is no farther than the point; the half is added and taken away again. -/
theorem near_side {lo s x0 x : ℝ} {c m : ℤ} (hs : 0 < s) (hc : c = ⌊(x0 - lo) / s⌋) (hm : m = ⌊(x - lo) / s⌋) (hne : m ≠ c) :
    |lo + s * (0.5 + m) - x0 + (if m < c then 1 else -1) * 0.5 * s| ≤ |x - x0| := by
  obtain ⟨c1, c2⟩ := floor_cell hs hc
  obtain ⟨m1, m2⟩ := floor_cell hs hm
  rcases lt_or_gt_of_ne hne with hlt | hgt
  · rw [if_pos hlt]
    have : (m : ℝ) + 1 ≤ c := by exact_mod_cast hlt
    have h2 := mul_le_mul_of_nonneg_right this hs.le
    rw [abs_of_nonpos (by nlinarith), abs_of_nonpos (by nlinarith)]
    nlinarith
  · rw [if_neg (by omega)]
    have : (c : ℝ) + 1 ≤ m := by exact_mod_cast hgt
    have h2 := mul_le_mul_of_nonneg_right this hs.le
    rw [abs_of_nonneg (by nlinarith), abs_of_nonneg (by nlinarith)]
    nlinarith

/-- A point of the grid in a cell that passes is used. -/
theorem used_mem {Φ : ℝ → ℝ} {a : GA} {l us : List Pt} (h : Made Φ a l) {x y : ℝ} (hu : a.used x y = .ok us) {p : Pt}
    (hp : p ∈ l) (hsx : 0 < a.grid.sx) (hsy : 0 < a.grid.sy) (hr : 0 < a.sd * a.rt)
    (hin : a.grid.has (⌊(p.x - a.grid.lox) / a.grid.sx⌋, ⌊(p.y - a.grid.loy) / a.grid.sy⌋) = true)
    (hn : Near a x y p)
    (hpass : a.grid.passes x y (a.sd * a.rt) (a.sd * a.rt) (⌊(x - a.grid.lox) / a.grid.sx⌋, ⌊(y - a.grid.loy) / a.grid.sy⌋)
      (⌊(p.x - a.grid.lox) / a.grid.sx⌋, ⌊(p.y - a.grid.loy) / a.grid.sy⌋) = true) : p ∈ us := by
  obtain ⟨cs, hcs, rfl⟩ := used_ok hu
  obtain ⟨u, v, c, h1, h2, h3, hall⟩ := ellipse_ok hcs
  obtain ⟨-, -, -, -, u1, u2⟩ := cell_ok h1
  obtain ⟨-, -, -, -, v1, v2⟩ := cell_ok h2
  obtain ⟨-, -, -, -, c1, c2⟩ := cell_ok h3
  have hc : c = (⌊(x - a.grid.lox) / a.grid.sx⌋, ⌊(y - a.grid.loy) / a.grid.sy⌋) := Prod.ext c1 c2
  have hn' : (x - p.x) ^ 2 + (y - p.y) ^ 2 ≤ (a.sd * a.rt) ^ 2 := by rw [mul_comm a.sd]; exact hn
  have hx : |x - p.x| ≤ a.sd * a.rt := abs_le_of_sq_le_sq (by nlinarith [sq_nonneg (y - p.y)]) hr.le
  have hy : |y - p.y| ≤ a.sd * a.rt := abs_le_of_sq_le_sq (by nlinarith [sq_nonneg (x - p.x)]) hr.le
  rw [abs_le] at hx hy
  rw [List.mem_flatMap]
  refine ⟨(⌊(p.x - a.grid.lox) / a.grid.sx⌋, ⌊(p.y - a.grid.loy) / a.grid.sy⌋), ?_, ?_⟩
  · rw [hall]
    refine ⟨⟨?_, ?_, ?_, ?_⟩, hin, hc ▸ hpass⟩
    · rw [u1]; exact floor_mono_cell hsx (by linarith)
    · rw [v1]; exact floor_mono_cell hsx (by linarith)
    · rw [u2]; exact floor_mono_cell hsy (by linarith)
    · rw [v2]; exact floor_mono_cell hsy (by linarith)
  · rw [mem_cells h]
    refine ⟨hp, ?_⟩
    obtain ⟨k1, k2, k3, k4⟩ := has_iff.mp hin
    unfold home
    rw [clamp_id k1 k2, clamp_id k3 k4]

/-- **C239 (partial, row).** A point of the grid no farther than `relThreshold·stDev` whose cell is in the same row as that of the
place asked for is used. -/
theorem C239_row_partial {Φ : ℝ → ℝ} {a : GA} {l us : List Pt} (h : Made Φ a l) {x y : ℝ} (hu : a.used x y = .ok us) {p : Pt}
    (hp : p ∈ l) (hsx : 0 < a.grid.sx) (hsy : 0 < a.grid.sy) (hr : 0 < a.sd * a.rt)
    (hin : a.grid.has (⌊(p.x - a.grid.lox) / a.grid.sx⌋, ⌊(p.y - a.grid.loy) / a.grid.sy⌋) = true)
    (hn : Near a x y p) (hrow : ⌊(p.y - a.grid.loy) / a.grid.sy⌋ = ⌊(y - a.grid.loy) / a.grid.sy⌋) : p ∈ us := by
  refine used_mem h hu hp hsx hsy hr hin hn (passes_of hr ?_)
  have hn' : (x - p.x) ^ 2 + (y - p.y) ^ 2 ≤ (a.sd * a.rt) ^ 2 := by rw [mul_comm a.sd]; exact hn
  simp only [Grid.near, hrow, ne_eq, not_true, if_false]
  by_cases hm : ⌊(p.x - a.grid.lox) / a.grid.sx⌋ = ⌊(x - a.grid.lox) / a.grid.sx⌋
  · simp only [hm, not_true, if_false]
    nlinarith [sq_nonneg (x - p.x), sq_nonneg (y - p.y)]
  · rw [if_pos hm]
    have hs := near_side hsx rfl rfl hm
    have := sq_le_sq' (by linarith [abs_nonneg (p.x - x), neg_abs_le (a.grid.lox + a.grid.sx * (0.5 + ⌊(p.x - a.grid.lox) / a.grid.sx⌋) - x + (if ⌊(p.x - a.grid.lox) / a.grid.sx⌋ < ⌊(x - a.grid.lox) / a.grid.sx⌋ then 1 else -1) * 0.5 * a.grid.sx)]) ((le_abs_self _).trans hs)
    rw [sq_abs] at this
    nlinarith [sq_nonneg (y - p.y)]

theorem margin {A B D h : ℝ} (hh : 0 ≤ h) (hA : A ≤ D) (hB : B ≤ D) (hs : A ^ 2 + B ^ 2 = D ^ 2) :
    (A + 0.5 * h) ^ 2 + (B + 0.5 * h) ^ 2 ≤ (D + h) ^ 2 := by
  nlinarith [mul_le_mul_of_nonneg_right hA hh, mul_le_mul_of_nonneg_right hB hh, mul_nonneg hh hh]

/-- **C239 (partial, margin).** A point of the grid that is nearer than `relThreshold·stDev` by the height of a cell is used.
Missing: the points between, which may be left out, and points outside the grid. -/
theorem C239_margin_partial {Φ : ℝ → ℝ} {a : GA} {l us : List Pt} (h : Made Φ a l) {x y : ℝ} (hu : a.used x y = .ok us) {p : Pt}
    (hp : p ∈ l) (hsx : 0 < a.grid.sx) (hsy : 0 < a.grid.sy)
    (hin : a.grid.has (⌊(p.x - a.grid.lox) / a.grid.sx⌋, ⌊(p.y - a.grid.loy) / a.grid.sy⌋) = true)
    (hn : √((x - p.x) ^ 2 + (y - p.y) ^ 2) + a.grid.sy ≤ a.sd * a.rt) : p ∈ us := by
  set D := √((x - p.x) ^ 2 + (y - p.y) ^ 2) with hD
  have hD0 : 0 ≤ D := Real.sqrt_nonneg _
  have hDsq : D ^ 2 = (x - p.x) ^ 2 + (y - p.y) ^ 2 := Real.sq_sqrt (by positivity)
  have hr : 0 < a.sd * a.rt := by linarith
  have hnear : Near a x y p := by
    unfold Near
    rw [← hDsq, mul_comm a.rt]
    exact pow_le_pow_left₀ hD0 (by linarith) 2
  by_cases hrow : ⌊(p.y - a.grid.loy) / a.grid.sy⌋ = ⌊(y - a.grid.loy) / a.grid.sy⌋
  · exact C239_row_partial h hu hp hsx hsy hr hin hnear hrow
  refine used_mem h hu hp hsx hsy hr hin hnear (passes_of hr ?_)
  set mi := ⌊(p.x - a.grid.lox) / a.grid.sx⌋ with hmi
  set mj := ⌊(p.y - a.grid.loy) / a.grid.sy⌋ with hmj
  set ci := ⌊(x - a.grid.lox) / a.grid.sx⌋ with hci
  set cj := ⌊(y - a.grid.loy) / a.grid.sy⌋ with hcj
  obtain ⟨j1, j2⟩ := floor_cell hsy hmj
  -- the first coordinate
  have hX : ∃ X S : ℝ, |X| ≤ |p.x - x| ∧ |S| = 0.5 * a.grid.sy ∧ (a.grid.near x y (ci, cj) (mi, mj)).1 = X + S ∧
      (a.grid.near x y (ci, cj) (mi, mj)).2 = a.grid.loy + a.grid.sy * (0.5 + mj) - y := by
    have hS : |(if mj < cj then (1 : ℝ) else -1) * 0.5 * a.grid.sy| = 0.5 * a.grid.sy := by
      split_ifs
      · rw [abs_of_nonneg (by positivity)]; ring
      · rw [abs_of_nonpos (by nlinarith)]; ring
    by_cases hm : mi = ci
    · refine ⟨0, _, by simp, hS, ?_, ?_⟩
      · simp only [Grid.near, hm, ne_eq, not_true, if_false, hrow, not_false_eq_true, if_true]
      · simp only [Grid.near, ne_eq, hrow, not_false_eq_true, if_true]
    · refine ⟨_, _, near_side hsx hci hmi hm, hS, ?_, ?_⟩
      · simp only [Grid.near, hm, ne_eq, hrow, not_false_eq_true, if_true]
      · simp only [Grid.near, ne_eq, hrow, not_false_eq_true, if_true]
  obtain ⟨X, S, k1, k2, k3, k4⟩ := hX
  rw [k3, k4]
  set Y := a.grid.loy + a.grid.sy * (0.5 + mj) - y with hY
  have hYy : |Y - (p.y - y)| ≤ 0.5 * a.grid.sy := by
    rw [hY, abs_le]; constructor <;> nlinarith
  have hA : |X + S| ≤ |p.x - x| + 0.5 * a.grid.sy := (abs_add_le _ _).trans (by rw [k2]; linarith)
  have hB : |Y| ≤ |p.y - y| + 0.5 * a.grid.sy := by
    have : Y = (p.y - y) + (Y - (p.y - y)) := by ring
    rw [this]; exact (abs_add_le _ _).trans (by linarith)
  have e1 : (X + S) ^ 2 ≤ (|p.x - x| + 0.5 * a.grid.sy) ^ 2 := by rw [← sq_abs (X + S)]; exact pow_le_pow_left₀ (abs_nonneg _) hA 2
  have e2 : Y ^ 2 ≤ (|p.y - y| + 0.5 * a.grid.sy) ^ 2 := by rw [← sq_abs Y]; exact pow_le_pow_left₀ (abs_nonneg _) hB 2
  have f1 : |p.x - x| ^ 2 = (x - p.x) ^ 2 := by rw [sq_abs]; ring
  have f2 : |p.y - y| ^ 2 = (y - p.y) ^ 2 := by rw [sq_abs]; ring
  have f3 : |p.x - x| ≤ D := abs_le_of_sq_le_sq (by rw [hDsq, ← sq_abs, f1]; linarith [sq_nonneg (y - p.y)]) hD0
  have f4 : |p.y - y| ≤ D := abs_le_of_sq_le_sq (by rw [hDsq, ← sq_abs, f2]; linarith [sq_nonneg (x - p.x)]) hD0
  have g1 : (X + S) ^ 2 + Y ^ 2 ≤ (D + a.grid.sy) ^ 2 :=
    (add_le_add e1 e2).trans (margin hsy.le f3 f4 (by rw [f1, f2, hDsq]))
  exact g1.trans (pow_le_pow_left₀ (by linarith) hn 2)

/-- The hypotheses of `C239_row_partial` and `C239_margin_partial` are met when the place asked for is that of the point. -/
theorem made_one (sd rt : ℝ) (hsd : 0 < sd) (p : Pt) (hx : -1000 ≤ p.x ∧ p.x < 1000) (hy : -1000 ≤ p.y ∧ p.y < 1000) :
    ∃ a, Made (fun _ => 0) a [p] ∧ a.sd = sd ∧ a.rt = rt ∧ a.sd0 = sd ∧ a.clips = [] ∧ a.grid.lox = 0 ∧ a.grid.loy = 0 ∧
      a.grid.sx = 1 ∧ a.grid.sy = 1 ∧ a.grid.nx = 2 ∧ a.grid.ny = 2 := by
  have hn : GA.new (fun _ => 0) 0 0 2 2 2 2 sd rt = .ok ⟨⟨0, 0, 2, 2, 2, 2, fun _ _ => []⟩, sd, rt, sd, supportArea (fun _ => 0) sd 3, []⟩ := by
    unfold GA.new
    rw [if_neg (by push Not; exact ⟨by norm_num, by norm_num, hsd⟩)]
  have hm := Made.new 0 0 2 2 2 2 sd rt hn
  have hsx : ∀ c, (Grid.mk 0 0 2 2 2 2 c).sx = 1 := fun c => by simp [Grid.sx]
  have hsy : ∀ c, (Grid.mk 0 0 2 2 2 2 c).sy = 1 := fun c => by simp [Grid.sy]
  have hadd : ∃ g, (Grid.mk 0 0 2 2 2 2 fun _ _ => []).add p = .ok g ∧ g.lox = 0 ∧ g.loy = 0 ∧ g.sx = 1 ∧ g.sy = 1 ∧ g.nx = 2 ∧ g.ny = 2 := by
    unfold Grid.add Grid.cell
    rw [if_neg (by rw [hsx, hsy]; simp), hsx, hsy]
    have t1 : toInt ((p.x - 0) / 1) = .ok ⌊(p.x - 0) / 1⌋ := by
      unfold toInt; rw [if_pos (by constructor <;> norm_num <;> linarith [hx.1, hx.2])]
    have t2 : toInt ((p.y - 0) / 1) = .ok ⌊(p.y - 0) / 1⌋ := by
      unfold toInt; rw [if_pos (by constructor <;> norm_num <;> linarith [hy.1, hy.2])]
    simp only [t1, t2, Res.bind_ok]
    split_ifs
    · exact ⟨_, rfl, rfl, rfl, hsx _, hsy _, rfl, rfl⟩
    · exact ⟨_, rfl, rfl, rfl, hsx _, hsy _, rfl, rfl⟩
  obtain ⟨g, hg, g1, g2, g3, g4, g5, g6⟩ := hadd
  refine ⟨_, Made.add hm p (a' := ⟨g, sd, rt, sd, supportArea (fun _ => 0) sd 3, []⟩) ?_, rfl, rfl, rfl, rfl, g1, g2, g3, g4, g5, g6⟩
  unfold GA.addPt
  simp only [clipped, List.any_nil, Bool.false_eq_true, if_false, hg, Res.bind_ok]

/-- In the grid of the example `used` is defined at moderate distances. -/
theorem used_one {a : GA} (hlx : a.grid.lox = 0) (hly : a.grid.loy = 0) (hsx : a.grid.sx = 1) (hsy : a.grid.sy = 1)
    (hnx : a.grid.nx = 2) (hny : a.grid.ny = 2) {x y : ℝ} (hx : |x| + |a.sd * a.rt| ≤ 1000) (hy : |y| + |a.sd * a.rt| ≤ 1000) :
    ∃ us, a.used x y = .ok us := by
  have hc : ∀ u v : ℝ, |u| ≤ 1000 → |v| ≤ 1000 → ∃ c, a.grid.cell u v = .ok c := by
    intro u v hu hv
    rw [abs_le] at hu hv
    unfold Grid.cell
    rw [if_neg (by rw [hsx, hsy, hnx, hny]; simp), hsx, hsy, hlx, hly]
    have t1 : toInt ((u - 0) / 1) = .ok ⌊(u - 0) / 1⌋ := by
      unfold toInt; rw [if_pos (by constructor <;> norm_num <;> linarith [hu.1, hu.2])]
    have t2 : toInt ((v - 0) / 1) = .ok ⌊(v - 0) / 1⌋ := by
      unfold toInt; rw [if_pos (by constructor <;> norm_num <;> linarith [hv.1, hv.2])]
    simp only [t1, t2, Res.bind_ok]
    exact ⟨_, rfl⟩
  have b1 : ∀ u r : ℝ, |u| + |r| ≤ 1000 → |u - r| ≤ 1000 ∧ |u + r| ≤ 1000 ∧ |u| ≤ 1000 := by
    intro u r h
    exact ⟨(abs_sub u r).trans h, (abs_add_le u r).trans h, by linarith [abs_nonneg r]⟩
  obtain ⟨x1, x2, x3⟩ := b1 x _ hx
  obtain ⟨y1, y2, y3⟩ := b1 y _ hy
  obtain ⟨c1, h1⟩ := hc _ _ x1 y1
  obtain ⟨c2, h2⟩ := hc _ _ x2 y2
  obtain ⟨c3, h3⟩ := hc _ _ x3 y3
  unfold GA.used Grid.ellipse Grid.rectangle
  rw [h1, h2, h3]
  simp only [Res.bind_ok]
  exact ⟨_, rfl⟩

example : ∃ a us, ∃ p ∈ [(⟨1 / 2, 1 / 2, 7⟩ : Pt)], Made (fun _ => 0) a [⟨1 / 2, 1 / 2, 7⟩] ∧ a.used (1 / 2) (1 / 2) = .ok us ∧
    0 < a.grid.sx ∧ 0 < a.grid.sy ∧ 0 < a.sd * a.rt ∧
    a.grid.has (⌊(p.x - a.grid.lox) / a.grid.sx⌋, ⌊(p.y - a.grid.loy) / a.grid.sy⌋) = true ∧ Near a (1 / 2) (1 / 2) p ∧
    √(((1 : ℝ) / 2 - p.x) ^ 2 + (1 / 2 - p.y) ^ 2) + a.grid.sy ≤ a.sd * a.rt := by
  obtain ⟨a, hm, h1, h2, -, -, h3, h4, h5, h6, h7, h8⟩ := made_one 1 3 one_pos ⟨1 / 2, 1 / 2, 7⟩ ⟨by norm_num, by norm_num⟩
    ⟨by norm_num, by norm_num⟩
  obtain ⟨us, hu⟩ := used_one h3 h4 h5 h6 h7 h8 (x := 1 / 2) (y := 1 / 2) (by rw [h1, h2]; norm_num [abs_of_pos])
    (by rw [h1, h2]; norm_num [abs_of_pos])
  have hf : ⌊(2⁻¹ : ℝ)⌋ = 0 := by norm_num [Int.floor_eq_iff]
  refine ⟨a, us, _, List.mem_singleton_self _, hm, hu, by rw [h5]; exact one_pos, by rw [h6]; exact one_pos, by rw [h1, h2]; norm_num, ?_, ?_, ?_⟩
  · rw [has_iff, h3, h4, h5, h6, h7, h8]
    simp [hf]
  · unfold Near; rw [h1, h2]; norm_num
  · rw [h6, h1, h2]; norm_num

end Verif.Avg
