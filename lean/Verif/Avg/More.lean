import Verif.Avg.Props

/-!
# Properties of smoothing: points left out, settings and data (C239-C241)
-/
namespace Verif.Avg

/-- Nothing used gives no average. -/
theorem avg_none {a : GA} {x y : ℝ} {us : List Pt} (hu : a.used x y = .ok us) (hn : us = []) : a.avg x y = .ok none := by
  unfold GA.avg GA.sums
  rw [hu, hn]
  simp

/-- **C239 (violated).** On a grid of 2x2 cells on [0,2]x[0,2], with the deviation 1/3 and the threshold 3, the only point (1/2, 6/5)
is not found from (1/2, 1/2), although its distance, 0.7, is below 1: there is no average. -/
theorem C239_violated : ∃ (a : GA) (p : Pt), Made (fun _ => 0) a [p] ∧ (0 ≤ p.x ∧ p.x < 2 ∧ 0 ≤ p.y ∧ p.y < 2) ∧
    Near a (1 / 2) (1 / 2) p ∧ a.avg (1 / 2) (1 / 2) = .ok none := by
  obtain ⟨a, hm, h1, h2, -, -, h3, h4, h5, h6, h7, h8⟩ := made_one (1 / 3) 3 (by norm_num) ⟨1 / 2, 6 / 5, 7⟩ ⟨by norm_num, by norm_num⟩
    ⟨by norm_num, by norm_num⟩
  obtain ⟨us, hu⟩ := used_one h3 h4 h5 h6 h7 h8 (x := 1 / 2) (y := 1 / 2) (by rw [h1, h2]; norm_num [abs_of_pos])
    (by rw [h1, h2]; norm_num [abs_of_pos])
  refine ⟨a, _, hm, ⟨by norm_num, by norm_num, by norm_num, by norm_num⟩, by unfold Near; rw [h1, h2]; norm_num, avg_none hu ?_⟩
  by_contra hne
  obtain ⟨q, hq⟩ := List.exists_mem_of_ne_nil us hne
  obtain ⟨cs, hcs, rfl⟩ := used_ok hu
  obtain ⟨c, hc, hqc⟩ := List.mem_flatMap.mp hq
  obtain ⟨hql, hh⟩ := (mem_cells hm).mp hqc
  rw [List.mem_singleton] at hql
  subst hql
  obtain ⟨_, _, m, _, _, hm3, hall⟩ := ellipse_ok hcs
  obtain ⟨-, -, hp⟩ := (hall c).mp hc
  obtain ⟨-, -, -, -, e1, e2⟩ := cell_ok hm3
  rw [h3, h5] at e1
  rw [h4, h6] at e2
  have f1 : ⌊((1 / 2 : ℝ) - 0) / 1⌋ = 0 := by norm_num [Int.floor_eq_iff]
  have f2 : ⌊((6 / 5 : ℝ) - 0) / 1⌋ = 1 := by norm_num [Int.floor_eq_iff]
  rw [f1] at e1 e2
  have hce : c = (0, 1) := by
    rw [← Prod.eta c, ← hh]
    simp only [home, h3, h4, h5, h6, h7, h8, f1, f2]
    rfl
  have hme : m = (0, 0) := Prod.ext e1 e2
  subst hce hme
  simp only [Grid.passes, Grid.near, h3, h4, h5, h6, h1, h2] at hp
  norm_num at hp

/-- **C239 (violated, outside).** Points outside the bounds of the grid are accepted, but no place beyond the bounds by more than
`relThreshold·stDev`, even that of such a point, has an average. -/
theorem C239_violated_outside {Φ : ℝ → ℝ} {a : GA} {l : List Pt} (_h : Made Φ a l) {p : Pt} (_hp : p ∈ l) (hsx : 0 < a.grid.sx)
    (ho : p.x + a.sd * a.rt < a.grid.lox) {v : Option ℝ} (hv : a.avg p.x p.y = .ok v) : v = none := by
  cases hc : clipped a.clips ⟨p.x, p.y⟩ with
  | true =>
    unfold GA.avg at hv
    rw [hc] at hv
    simpa using hv.symm
  | false =>
    obtain ⟨us, hu, -⟩ := avg_ok hv hc
    have : us = [] := by
      by_contra hne
      obtain ⟨q, hq⟩ := List.exists_mem_of_ne_nil us hne
      obtain ⟨cs, hcs, rfl⟩ := used_ok hu
      obtain ⟨c, hc, hqc⟩ := List.mem_flatMap.mp hq
      obtain ⟨_, m, _, _, hm2, _, hall⟩ := ellipse_ok hcs
      obtain ⟨⟨-, hr, -⟩, hh, -⟩ := (hall c).mp hc
      obtain ⟨-, -, -, -, e1, -⟩ := cell_ok hm2
      obtain ⟨k, -⟩ := has_iff.mp hh
      have : m.1 < 0 := by
        rw [e1, Int.floor_lt, div_lt_iff₀ hsx]
        push_cast
        linarith
      omega
    rw [avg_none hu this] at hv
    simpa using hv.symm

example : ∃ a p v, Made (fun _ => 0) a [p] ∧ 0 < a.grid.sx ∧ p.x + a.sd * a.rt < a.grid.lox ∧ a.avg p.x p.y = .ok v := by
  obtain ⟨a, hm, h1, h2, -, -, h3, h4, h5, h6, h7, h8⟩ := made_one 1 3 (by norm_num) ⟨-5, 1, 7⟩ ⟨by norm_num, by norm_num⟩
    ⟨by norm_num, by norm_num⟩
  obtain ⟨us, hu⟩ := used_one h3 h4 h5 h6 h7 h8 (x := -5) (y := 1) (by rw [h1, h2]; norm_num [abs_of_pos])
    (by rw [h1, h2]; norm_num [abs_of_pos])
  have hv : ∃ v, a.avg (-5) 1 = .ok v := by
    unfold GA.avg GA.sums
    rw [hu]
    split_ifs
    · exact ⟨_, rfl⟩
    · exact ⟨_, rfl⟩
  obtain ⟨v, hv⟩ := hv
  exact ⟨a, ⟨-5, 1, 7⟩, v, hm, by rw [h5]; exact one_pos, by rw [h1, h2, h3]; norm_num, hv⟩

/-! ## C240: settings -/

/-- Points added one after the other; those refused are left out. -/
noncomputable def addAll : GA → List Pt → Res GA
  | a, [] => .ok a
  | a, p :: l => (a.addPt p).bind fun r => addAll r.1 l

theorem setRt_addPt (a : GA) (r : ℝ) (p : Pt) : (a.setRt r).addPt p = (a.addPt p).bind fun x => .ok (x.1.setRt r, x.2) := by
  unfold GA.addPt GA.setRt
  simp only
  split_ifs
  · rfl
  · cases a.grid.add p <;> simp

/-- **C240 (partial, threshold).** Setting `relThreshold` on a container, whenever, gives the one that would have been made with it.
Missing: `stDev`, and the area by which `avgPerUnitArea` divides. -/
theorem C240_threshold_partial (Φ : ℝ → ℝ) (lox loy hix hiy : ℝ) (nx ny : ℤ) (sd rt rt' : ℝ) (l : List Pt) :
    (GA.new Φ lox loy hix hiy nx ny sd rt').bind (addAll · l) =
      ((GA.new Φ lox loy hix hiy nx ny sd rt).bind (addAll · l)).bind fun a => .ok (a.setRt rt') := by
  have hall : ∀ (l : List Pt) (a : GA), addAll (a.setRt rt') l = (addAll a l).bind fun a => .ok (a.setRt rt') := by
    intro l
    induction l with
    | nil => intro a; simp [addAll]
    | cons p l ih =>
      intro a
      simp only [addAll, setRt_addPt]
      cases a.addPt p <;> simp [ih]
  unfold GA.new
  split_ifs
  · simp
  · simp only [Res.bind_ok]
    rw [← hall]
    rfl

/-- The grid of one cell with two points. -/
noncomputable def two (sd rt sd0 area : ℝ) : GA :=
  ⟨⟨0, 0, 4, 4, 1, 1, fun i j => if i = 0 ∧ j = 0 then [⟨1, 1, 0⟩, ⟨2, 1, 1⟩] else []⟩, sd, rt, sd0, area, []⟩

theorem toInt_mid {x : ℝ} {i : ℤ} (h : -1000 ≤ x ∧ x ≤ 1000) (hi : ⌊x⌋ = i) : toInt x = .ok i := by
  unfold toInt; rw [if_pos (by constructor <;> linarith [h.1, h.2]), hi]

theorem cell_one (c : ℤ → ℤ → List Pt) {x y : ℝ} {i j : ℤ} (hx : -1000 ≤ x ∧ x ≤ 1000) (hy : -1000 ≤ y ∧ y ≤ 1000)
    (hi : ⌊x / 4⌋ = i) (hj : ⌊y / 4⌋ = j) : (Grid.mk 0 0 4 4 1 1 c).cell x y = .ok (i, j) := by
  have sx : (Grid.mk 0 0 4 4 1 1 c).sx = 4 := by simp [Grid.sx]
  have sy : (Grid.mk 0 0 4 4 1 1 c).sy = 4 := by simp [Grid.sy]
  unfold Grid.cell
  rw [if_neg (by rw [sx, sy]; simp), sx, sy]
  simp only [sub_zero]
  rw [toInt_mid (by constructor <;> linarith [hx.1, hx.2]) hi, toInt_mid (by constructor <;> linarith [hy.1, hy.2]) hj]
  rfl

/-- Two points added to a container of one cell. -/
theorem two_made (Φ : ℝ → ℝ) {s0 rt : ℝ} (h : 0 < s0) :
    (GA.new Φ 0 0 4 4 1 1 s0 rt).bind (addAll · [⟨1, 1, 0⟩, ⟨2, 1, 1⟩]) = .ok (two s0 rt s0 (supportArea Φ s0 3)) := by
  have f1 : ⌊(1 / 4 : ℝ)⌋ = 0 := by norm_num [Int.floor_eq_iff]
  have f2 : ⌊(2 / 4 : ℝ)⌋ = 0 := by norm_num [Int.floor_eq_iff]
  have c1 : ∀ c, (Grid.mk 0 0 4 4 1 1 c).cell 1 1 = .ok (0, 0) := fun c => cell_one c (by norm_num) (by norm_num) f1 f1
  have c2 : ∀ c, (Grid.mk 0 0 4 4 1 1 c).cell 2 1 = .ok (0, 0) := fun c => cell_one c (by norm_num) (by norm_num) f2 f1
  have hh : ∀ c, (Grid.mk 0 0 4 4 1 1 c).has (0, 0) = true := fun c => by simp [Grid.has]
  unfold GA.new
  rw [if_neg (by push Not; exact ⟨by norm_num, by norm_num, h⟩)]
  simp only [Res.bind_ok, addAll, GA.addPt, clipped, List.any_nil, Bool.false_eq_true, if_false, Grid.add, c1, hh, if_true, Grid.push, c2,
    two]
  congr 3
  funext i j
  split_ifs <;> simp

theorem two_avg {s rt s0 A : ℝ} (hs0 : 0 < s0) (hr : 1 ≤ s * rt) (hr' : s * rt < 3) :
    (two s rt s0 A).avg 1 1 = .ok (some (Real.exp (-1 / (2 * s0 ^ 2)) / (1 + Real.exp (-1 / (2 * s0 ^ 2))))) := by
  have hu : (two s rt s0 A).used 1 1 = .ok [⟨1, 1, 0⟩, ⟨2, 1, 1⟩] := by
    unfold GA.used Grid.ellipse Grid.rectangle two
    simp only
    have g1 : ∃ k : ℤ, (k = 0 ∨ k = -1) ∧ ⌊(1 - s * rt) / 4⌋ = k := by
      rcases eq_or_lt_of_le hr with h | h
      · exact ⟨0, .inl rfl, by rw [← h]; norm_num⟩
      · exact ⟨-1, .inr rfl, by rw [Int.floor_eq_iff]; push_cast; constructor <;> linarith⟩
    have g2 : ⌊(1 + s * rt) / 4⌋ = 0 := by rw [Int.floor_eq_iff]; push_cast; constructor <;> linarith
    have g3 : ⌊(1 / 4 : ℝ)⌋ = 0 := by norm_num [Int.floor_eq_iff]
    obtain ⟨k, hk, g1⟩ := g1
    rw [cell_one _ ⟨by linarith, by linarith⟩ ⟨by linarith, by linarith⟩ g1 g1,
      cell_one _ ⟨by linarith, by linarith⟩ ⟨by linarith, by linarith⟩ g2 g2, cell_one _ (by norm_num) (by norm_num) g3 g3]
    simp only [Res.bind_ok]
    have hrect : (((span k 0).flatMap fun i => (span k 0).map fun j => (i, j)).filter
        (Grid.has ⟨0, 0, 4, 4, 1, 1, fun i j => if i = 0 ∧ j = 0 then [⟨1, 1, 0⟩, ⟨2, 1, 1⟩] else []⟩)) = [(0, 0)] := by
      rcases hk with rfl | rfl
      · have : span 0 0 = [0] := by decide
        rw [this]; simp [Grid.has]
      · have : span (-1) 0 = [-1, 0] := by decide
        rw [this]; simp [Grid.has]
    rw [hrect]
    simp [Grid.passes, Grid.has]
  have w0 : (two s rt s0 A).weight 1 1 ⟨1, 1, 0⟩ = 1 / (s0 * √(2 * Real.pi)) := by
    unfold GA.weight two
    simp only
    rw [if_neg (by nlinarith)]
    norm_num
  have w1 : (two s rt s0 A).weight 1 1 ⟨2, 1, 1⟩ = Real.exp (-1 / (2 * s0 ^ 2)) / (s0 * √(2 * Real.pi)) := by
    unfold GA.weight two
    simp only
    rw [if_neg (by nlinarith)]
    norm_num
  have hp : 0 < s0 * √(2 * Real.pi) := mul_pos hs0 (Real.sqrt_pos.mpr (by positivity))
  have he := Real.exp_pos (-1 / (2 * s0 ^ 2))
  unfold GA.avg GA.sums
  rw [hu]
  have hc : clipped (two s rt s0 A).clips ⟨1, 1⟩ = false := rfl
  simp only [hc, Bool.false_eq_true, if_false, Res.bind_ok, List.map_cons, List.map_nil, List.sum_cons, List.sum_nil, w0, w1]
  rw [if_neg (by positivity)]
  congr 2
  field_simp
  ring

/-- **C240 (violated, deviation).** Setting `stDev` keeps the bell curve of the deviation the container was made with: the average of two
points at (1,1) and (2,1) is not the one of a container made with the deviation set. -/
theorem C240_violated_stdev (Φ : ℝ → ℝ) : ∃ (a b : GA) (l : List Pt), (GA.new Φ 0 0 4 4 1 1 1 1).bind (addAll · l) = .ok a ∧
    (GA.new Φ 0 0 4 4 1 1 2 1).bind (addAll · l) = .ok b ∧ (a.setSd 2).avg 1 1 ≠ b.avg 1 1 := by
  refine ⟨_, _, _, two_made Φ one_pos, two_made Φ two_pos, ?_⟩
  have e : (two 1 1 1 (supportArea Φ 1 3)).setSd 2 = two 2 1 1 (supportArea Φ 1 3) := rfl
  rw [e, two_avg one_pos (by norm_num) (by norm_num), two_avg two_pos (by norm_num) (by norm_num)]
  intro h
  simp only [Res.ok.injEq, Option.some.injEq] at h
  have h1 := Real.exp_pos (-1 / (2 * (1 : ℝ) ^ 2))
  have h2 := Real.exp_pos (-1 / (2 * (2 : ℝ) ^ 2))
  rw [div_eq_div_iff (by positivity) (by positivity)] at h
  have h3 : Real.exp (-1 / (2 * (1 : ℝ) ^ 2)) = Real.exp (-1 / (2 * (2 : ℝ) ^ 2)) := by linarith
  have h4 := Real.exp_injective h3
  norm_num at h4

/-- **C240 (violated, area).** The area by which `avgPerUnitArea` divides is the one of the threshold 3, whatever the threshold: it is
larger than that of a smaller one. -/
theorem C240_violated_area {Φ : ℝ → ℝ} (hΦ : Monotone Φ) {a : GA} {l : List Pt} (h : Made Φ a l) (hs : a.sd = a.sd0) (h0 : 0 < a.rt)
    (h3 : a.rt < 3) (hh : Φ (-a.rt) < 1 / 2) : supportArea Φ a.sd a.rt < a.area := by
  have hi := made_inv h
  have hp := hi.sd0
  rw [hi.area, hs]
  have e : ∀ r, -a.sd0 * r / a.sd0 = -r := fun r => by field_simp
  unfold supportArea
  rw [e, e]
  have m : Φ (-3) ≤ Φ (-a.rt) := hΦ (by linarith)
  have q : (a.rt * a.sd0) ^ 2 < (3 * a.sd0) ^ 2 := pow_lt_pow_left₀ (by nlinarith) (by positivity) (by norm_num)
  have q2 : Real.pi * (a.rt * a.sd0) ^ 2 < Real.pi * (3 * a.sd0) ^ 2 := mul_lt_mul_of_pos_left q Real.pi_pos
  exact mul_lt_mul' (by linarith) q2 (by positivity) (by linarith)

example : ∃ (Φ : ℝ → ℝ) (a : GA) (l : List Pt), Monotone Φ ∧ Made Φ a l ∧ a.sd = a.sd0 ∧ 0 < a.rt ∧ a.rt < 3 ∧ Φ (-a.rt) < 1 / 2 := by
  obtain ⟨a, hm, h1, h2, h3, -⟩ := made_one 1 2 (by norm_num) ⟨1, 1, 7⟩ ⟨by norm_num, by norm_num⟩ ⟨by norm_num, by norm_num⟩
  exact ⟨_, a, _, monotone_const, hm, by rw [h1, h3], by rw [h2]; norm_num, by rw [h2]; norm_num, by norm_num⟩

/-! ## C241: data and cells -/

theorem partition {f : Pt → ℤ × ℤ} {I J : List ℤ} (hI : I.Nodup) (hJ : J.Nodup) (l : List Pt)
    (h : ∀ p ∈ l, (f p).1 ∈ I ∧ (f p).2 ∈ J) :
    (I.flatMap fun i => J.flatMap fun j => l.filter fun p => decide (f p = (i, j))).Perm l := by
  induction l with
  | nil => simp
  | cons p l ih =>
    have ih := ih fun q hq => h q (List.mem_cons_of_mem _ hq)
    obtain ⟨h1, h2⟩ := h p List.mem_cons_self
    refine (flatMap_push hI h1 (flatMap_push hJ h2 (p := p) (f := fun j => l.filter fun q => decide (f q = ((f p).1, j))) ?_ ?_) ?_).trans
      (List.Perm.cons p ih)
    · simp
    · intro j hj
      rw [List.filter_cons_of_neg]
      simpa [Prod.ext_iff] using fun e => hj e.symm
    · intro i hi
      congr 1
      funext j
      rw [List.filter_cons_of_neg]
      simpa [Prod.ext_iff] using fun e => absurd e.symm hi

/-- **C241 (data).** `data` has every point added and accepted, once for every time it was added, and no other. -/
theorem C241_data {Φ : ℝ → ℝ} {a : GA} {l : List Pt} (h : Made Φ a l) : a.data.Perm l := by
  have hi := made_inv h
  unfold GA.data
  simp only [hi.cells]
  refine partition (span_nodup _ _) (span_nodup _ _) l fun p hp => ?_
  obtain ⟨s1, s2⟩ := hi.size (List.ne_nil_of_mem hp)
  rw [mem_span, mem_span]
  have k1 := clamp_mem ⌊(p.x - a.grid.lox) / a.grid.sx⌋ s1
  have k2 := clamp_mem ⌊(p.y - a.grid.loy) / a.grid.sy⌋ s2
  exact ⟨⟨k1.1, by have := k1.2; show clamp _ _ ≤ _; omega⟩, ⟨k2.1, by have := k2.2; show clamp _ _ ≤ _; omega⟩⟩

/-- The box of a cell: its lower sides belong to it, its upper ones do not. -/
def InBox (g : Grid) (c : ℤ × ℤ) (p : Pt) : Prop :=
  (g.lox + c.1 * g.sx ≤ p.x ∧ p.x < g.lox + (c.1 + 1) * g.sx) ∧ (g.loy + c.2 * g.sy ≤ p.y ∧ p.y < g.loy + (c.2 + 1) * g.sy)

open Classical in
/-- **C241 (cells).** When all points are inside the bounds, a cell has exactly those in its box: their number is `cellNum`, the sum of
their values `cellSum` and the mean `cellAvg`. -/
theorem C241_cells_partial {Φ : ℝ → ℝ} {a : GA} {l : List Pt} (h : Made Φ a l) (hsx : 0 < a.grid.sx) (hsy : 0 < a.grid.sy)
    (hb : ∀ p ∈ l, (a.grid.lox ≤ p.x ∧ p.x < a.grid.lox + a.grid.nx * a.grid.sx) ∧ (a.grid.loy ≤ p.y ∧ p.y < a.grid.loy + a.grid.ny * a.grid.sy))
    {c : ℤ × ℤ} (hc : (0 ≤ c.1 ∧ c.1 < a.grid.nx) ∧ 0 ≤ c.2 ∧ c.2 < a.grid.ny) :
    a.cellNum c = .ok (l.filter fun p => decide (InBox a.grid c p)).length ∧
      a.cellSum c = .ok ((l.filter fun p => decide (InBox a.grid c p)).map Pt.val).sum ∧
      a.cellAvg c = .ok (if (l.filter fun p => decide (InBox a.grid c p)) = [] then none else
        some (((l.filter fun p => decide (InBox a.grid c p)).map Pt.val).sum / (l.filter fun p => decide (InBox a.grid c p)).length)) := by
  have hh : a.grid.has c = true := has_iff.mpr ⟨hc.1.1, hc.1.2, hc.2.1, hc.2.2⟩
  have hl : a.grid.cells c.1 c.2 = l.filter fun p => decide (InBox a.grid c p) := by
    rw [(made_inv h).cells]
    apply List.filter_congr
    intro p hp
    obtain ⟨⟨b1, b2⟩, b3, b4⟩ := hb p hp
    have fl : ∀ {lo s x : ℝ} {n : ℤ}, 0 < s → lo ≤ x → x < lo + n * s → 0 ≤ ⌊(x - lo) / s⌋ ∧ ⌊(x - lo) / s⌋ < n := by
      intro lo s x n hs h1 h2
      exact ⟨Int.floor_nonneg.mpr (div_nonneg (by linarith) hs.le), by rw [Int.floor_lt, div_lt_iff₀ hs]; linarith⟩
    obtain ⟨k1, k2⟩ := fl hsx b1 b2
    obtain ⟨k3, k4⟩ := fl hsy b3 b4
    have e : home a.grid p = (⌊(p.x - a.grid.lox) / a.grid.sx⌋, ⌊(p.y - a.grid.loy) / a.grid.sy⌋) := by
      unfold home; rw [clamp_id k1 k2, clamp_id k3 k4]
    rw [e, decide_eq_decide]
    unfold InBox
    rw [← floor_cell_iff hsx, ← floor_cell_iff hsy, Prod.mk.injEq]
    exact ⟨fun h => ⟨h.1.symm, h.2.symm⟩, fun h => ⟨h.1.symm, h.2.symm⟩⟩
  have n1 : a.cellNum c = .ok (l.filter fun p => decide (InBox a.grid c p)).length := by
    unfold GA.cellNum; rw [hh, hl]; rfl
  have n2 : a.cellSum c = .ok ((l.filter fun p => decide (InBox a.grid c p)).map Pt.val).sum := by
    unfold GA.cellSum; rw [hh, hl]; rfl
  refine ⟨n1, n2, ?_⟩
  unfold GA.cellAvg
  rw [n1, n2]
  simp only [Res.bind_ok, List.length_eq_zero_iff]

example : ∃ a l, Made (fun _ => 0) a l ∧ l ≠ [] ∧ 0 < a.grid.sx ∧ 0 < a.grid.sy ∧
    ∀ p ∈ l, (a.grid.lox ≤ p.x ∧ p.x < a.grid.lox + a.grid.nx * a.grid.sx) ∧ (a.grid.loy ≤ p.y ∧ p.y < a.grid.loy + a.grid.ny * a.grid.sy) := by
  obtain ⟨a, hm, h1, h2, -, -, h3, h4, h5, h6, h7, h8⟩ := made_one 1 2 (by norm_num) ⟨1, 1, 7⟩ ⟨by norm_num, by norm_num⟩ ⟨by norm_num, by norm_num⟩
  refine ⟨a, _, hm, by simp, by rw [h5]; exact one_pos, by rw [h6]; exact one_pos, ?_⟩
  intro p hp
  rw [List.mem_singleton] at hp
  subst hp
  rw [h3, h4, h5, h6, h7, h8]
  norm_num

/-- **C241 (violated).** Asking for a cell outside the grid is not refused: it is undefined. -/
theorem C241_violated_cells (a : GA) {c : ℤ × ℤ} (hc : ¬ ((0 ≤ c.1 ∧ c.1 < a.grid.nx) ∧ 0 ≤ c.2 ∧ c.2 < a.grid.ny)) :
    a.cellNum c = .ub ∧ a.cellSum c = .ub ∧ a.cellAvg c = .ub := by
  have hh : a.grid.has c = false := by
    rw [Bool.eq_false_iff]
    intro h
    obtain ⟨h1, h2, h3, h4⟩ := has_iff.mp h
    exact hc ⟨⟨h1, h2⟩, h3, h4⟩
  have n1 : a.cellNum c = .ub := by unfold GA.cellNum; rw [hh]; rfl
  have n2 : a.cellSum c = .ub := by unfold GA.cellSum; rw [hh]; rfl
  refine ⟨n1, n2, ?_⟩
  unfold GA.cellAvg
  rw [n2]
  rfl

end Verif.Avg
