import Verif.Pack.PlanLemmas

/-!
# C134 and C137: how many spheres `makeCloud` makes, what it keeps, what the seed does
-/
namespace Verif.Pack
open Verif.Mech
open scoped Classical

/-! ## C134 -/

/-- C134.  With a number of spheres and no mean radius, a call that ends has added exactly that number of spheres, to the earlier ones or,
after a retry, to nothing. -/
theorem C134_exact {n : Nat} {a : Args} {sp sp' : SpherePack} {g g' : Rnd} {k : Int} (hg : Good g) (hn : 0 < a.num) (hm : a.rMean ≤ 0)
    (h : makeCloud n a sp g = some (.ok (sp', k, g'))) :
    ∃ old new, sp'.pack = old ++ new ∧ (old = [] ∨ old = sp.pack) ∧ (new.length : Int) = a.num := by
  obtain ⟨a', d, s, s', old, new, -, -, h1, h2, h3, -⟩ := cloud_added hg h
  refine ⟨old, new, h1, ?_, ?_⟩
  · rcases h2 with h2 | h2
    · exact Or.inl h2.1
    · exact Or.inr h2.1
  · rcases h3 with ⟨-, h3⟩ | ⟨-, h3⟩
    · omega
    · have := (h3 hn).1
      linarith

/-- C134, earlier spheres: they are kept, in front, if a mean radius is given or no number; at most the number of spheres asked for is
added.  Missing: with a number of spheres and no mean radius, see `C134_violated_kept`. -/
theorem C134_kept_partial {n : Nat} {a : Args} {sp sp' : SpherePack} {g g' : Rnd} {k : Int} (hg : Good g) (hr : 0 < a.rMean ∨ a.num ≤ 0)
    (h : makeCloud n a sp g = some (.ok (sp', k, g'))) : ∃ new, sp'.pack = sp.pack ++ new ∧ (0 < a.num → (new.length : Int) ≤ a.num) := by
  obtain ⟨a', d, s, s', old, new, -, -, h1, h2, h3, -⟩ := cloud_added hg h
  rcases h2 with ⟨-, h2, h2'⟩ | ⟨rfl, -⟩
  · rcases hr with hr | hr
    · exact absurd hr h2'
    · omega
  · refine ⟨new, h1, fun hn => ?_⟩
    rcases h3 with ⟨-, h3⟩ | ⟨-, h3⟩
    · omega
    · exact (h3 hn).2.le

/-- C134, the number returned: for a packing that was empty it is the number of spheres made.  Missing: packings with earlier spheres, see
`C134_violated_number`. -/
theorem C134_number_partial {n : Nat} {a : Args} {sp sp' : SpherePack} {g g' : Rnd} {k : Int} (hg : Good g) (he : sp.pack = [])
    (h : makeCloud n a sp g = some (.ok (sp', k, g'))) : k = sp'.pack.length := by
  obtain ⟨a', d, s, s', old, new, -, -, h1, h2, h3, -⟩ := cloud_added hg h
  have ho : old = [] := by
    rcases h2 with h2 | h2
    · exact h2.1
    · rw [h2.1, he]
  rcases h3 with h3 | h3
  · exact h3.1
  · rw [h3.1, h1, ho, List.nil_append]

/-- A small sphere in a unit box. -/
noncomputable def small : Args := { mn := 0, mx := ![1, 1, 1], rMean := 0.1, num := 1 }

theorem small_run {sp : SpherePack} {g : Rnd} (h : ∀ s ∈ sp.pack, ¬ overlaps small (candidate small 0.1 g).1 0.1 s) :
    ∃ sp', makeCloud 3 small sp g = some (.ok (sp', (sp.pack.length : Int) + 1, skip 3 g)) ∧
      sp'.pack = sp.pack ++ [{ c := (candidate small 0.1 g).1, r := 0.1 }] := by
  have e : (candidate small 0.1 g).2 = skip 3 g := by
    rw [candidate, if_neg (by simp [small])]
    simp [small, Args.size]
  obtain ⟨sp', h1, h2⟩ := cloud_all (n := 2) (a := small) (sp := sp) (g := g)
    (plan_rmean (by norm_num [small]) rfl (Or.inl rfl))
    (by rw [loop_step (by simp [small]) (by simp [small]) (r := small.rMean) (radius_fix rfl rfl) h, loop_end (by simp [small])])
  refine ⟨sp', ?_, h1⟩
  rw [show (candidate small small.rMean g).2 = skip 3 g from e] at h2
  rw [h2]
  simp

theorem small_centre (g : Rnd) (i : Fin 3) : (candidate small 0.1 g).1 i = 0.8 * g i + 0.1 := by
  rw [candidate, if_neg (by simp [small])]
  fin_cases i <;> simp [small, Args.size] <;> norm_num

/-- C134 is violated for packings that had spheres before: one sphere is added, two are reported. -/
theorem C134_violated_number : ∃ (n : Nat) (a : Args) (sp sp' : SpherePack) (g g' : Rnd) (k : Int), Good g ∧
    makeCloud n a sp g = some (.ok (sp', k, g')) ∧ (∃ s, sp'.pack = sp.pack ++ [s]) ∧ k = 2 := by
  obtain ⟨sp', h1, h2⟩ := small_run (sp := ⟨[{ c := ![5, 0, 0], r := 1 }], 0, 1, false⟩) (g := fun _ => 0) (by
    intro s hs
    rw [List.mem_singleton.mp hs, overlaps, between, if_pos (by simp [small])]
    simp only [sqNorm, dot, Pi.sub_apply, small_centre]
    norm_num
    simp
    norm_num)
  exact ⟨3, small, _, sp', fun _ => 0, _, _, fun _ => by norm_num, h1, ⟨_, h2⟩, by simp⟩

/-- One sphere in a unit box, its radius to be found. -/
noncomputable def found (p : ℝ) : Args := { mn := 0, mx := ![1, 1, 1], num := 1, porosity := p }

/-- The mean radius found in `found`. -/
noncomputable def foundRadius (p : ℝ) : ℝ := ((1 - p) / (Real.pi * (4 / 3))) ^ (1 / 3 : ℝ)

theorem found_plan {p : ℝ} (h0 : 0 < p) (h1 : p < 1) (s : ℝ) :
    plan (found p) s = .ok (.num (foundRadius p), s) ∧ 0 ≤ foundRadius p ∧ foundRadius p ≤ 1 := by
  have hdet : (found p).cell.det = 1 := by
    simp [Args.cell, found, Args.size, Matrix.det_diagonal, Fin.prod_univ_three]
  have hp : (found p).poro = p := poro_of_pos h0
  have hpi : 0 < Real.pi := Real.pi_pos
  have hx : 0 ≤ (1 - p) / (Real.pi * (4 / 3)) := div_nonneg (by linarith) (by positivity)
  have hx1 : (1 - p) / (Real.pi * (4 / 3)) ≤ 1 := by
    rw [div_le_one (by positivity)]
    have := Real.pi_gt_three
    linarith
  refine ⟨?_, Real.rpow_nonneg hx _, Real.rpow_le_one hx hx1 (by norm_num)⟩
  rw [plan, hdet, hp, if_neg (by simp), if_neg (by norm_num [found]), if_pos (by simp [found]), if_pos (by norm_num), power, if_neg]
  · simp [found, foundRadius]
  · simp only [found]
    norm_num
    have : (1 - p) / (Real.pi * (4 / 3)) = (1 - p) / (Real.pi * (4 / 3)) := rfl
    exact hx

/-- C134 is violated when the radius is to be found: a sphere that leaves no room makes the first trial fail, and the retry deletes it. -/
theorem C134_violated_kept : ∃ (n : Nat) (a : Args) (sp sp' : SpherePack) (g g' : Rnd) (k : Int), Good g ∧
    makeCloud n a sp g = some (.ok (sp', k, g')) ∧ ∃ s ∈ sp.pack, s ∉ sp'.pack := by
  let sp : SpherePack := ⟨[{ c := 0, r := 100 }], 0, 1, false⟩
  let sp2 : SpherePack := ⟨[], 0, 1, false⟩
  obtain ⟨q1, q2, q3⟩ := found_plan (p := 0.5) (by norm_num) (by norm_num) 1
  obtain ⟨t1, t2, t3⟩ := found_plan (p := 0.55) (by norm_num) (by norm_num) 1
  have hz : ∀ g : Rnd, (g = fun _ => 0) → (candidate (found 0.5) (foundRadius 0.5) g).2 = (fun _ => 0) := by
    rintro g rfl
    rw [candidate, if_neg (by simp [found])]
    rfl
  obtain ⟨g', rfl, hpl⟩ := place_never (a := found 0.5) (r := foundRadius 0.5) (pack := sp.pack) (fun g => g = fun _ => 0) hz
    (by
      rintro g rfl
      refine ⟨_, List.mem_singleton.mpr rfl, ?_⟩
      rw [overlaps, between, if_pos (by simp [found]), candidate, if_neg (by simp [found])]
      simp [found, Args.size, sqNorm, dot]
      nlinarith) maxTry (g := fun _ => 0) rfl
  have hr : ∀ p x, radius (found p) (.num (foundRadius p)) x = .ok (foundRadius p) := fun p x => radius_fix' rfl rfl
  obtain ⟨sp', h1, h2⟩ := cloud_all (n := 2) (a := found 0.55) (sp := sp2) (g := fun _ => 0) t1
    (by rw [loop_step (by simp [found]) (by simp [found]) (hr _ _) (by simp [sp2]), loop_end (by simp [found])])
  refine ⟨4, found 0.5, sp, sp', fun _ => 0, ?_, ?_, fun _ => by norm_num, ?h1, { c := 0, r := 100 }, List.mem_singleton.mpr rfl, ?h2⟩
  case h1 =>
    rw [makeCloud, show plan (found 0.5) sp.scaling = _ from q1]
    dsimp only
    rw [cloudLoop, if_pos (by simp [found]), sizeNumber, if_pos (by simp [found])]
    dsimp only
    rw [hr]
    dsimp only
    rw [hpl]
    dsimp only
    rw [if_pos ⟨by simp [found], rfl⟩]
    have hp : (found 0.5).poro = 0.5 := poro_of_pos (by norm_num [found])
    rw [hp, show ({ found 0.5 with rMean := -1, porosity := 0.5 + (1 - 0.5) / 10 } : Args) = found 0.55 by
      simp only [found]; congr 1; norm_num]
    exact h2
  case h2 =>
    rw [h1]
    simp only [sp2, List.nil_append, List.mem_singleton]
    intro he
    have := congrArg Sph.r he
    dsimp only at this
    linarith

/-! ## C137 -/

/-- C137, the first call of a process: the same seed gives the same packing.  Missing: later calls, see `C137_violated`. -/
theorem C137_first_partial (stream : Int → Rnd) (n : Nat) (a : Args) (seed : Int) (sp : SpherePack) :
    (call stream n a seed sp none).map (fun r => r.bind fun x => .ok (x.1, x.2.1)) =
      (makeCloud n a sp (stream seed)).map (fun r => r.bind fun x => .ok (x.1, x.2.1)) := by
  rw [call, generator]
  cases h : makeCloud n a sp (stream seed) with
  | none => rfl
  | some r => cases r <;> rfl

/-- C137 is violated from the second call of the process on: whatever the generators are, as long as one of them does not repeat its first
three numbers, the same call with the same seed on an empty packing gives two different packings; and the seed of the second call has no
effect at all. -/
theorem C137_violated (stream : Int → Rnd) (seed : Int) (i : Fin 3) (hd : stream seed (i + 3) ≠ stream seed i) :
    (∃ sp1 sp2 st1 st2 k1 k2, call stream 3 small seed .empty none = some (.ok (sp1, k1, some st1)) ∧
      call stream 3 small seed .empty (some st1) = some (.ok (sp2, k2, st2)) ∧ sp1.pack ≠ sp2.pack) ∧
    ∀ n a seed' sp st, call stream n a seed sp (some st) = call stream n a seed' sp (some st) := by
  refine ⟨?_, fun _ _ _ _ _ => rfl⟩
  obtain ⟨sp1, h1, h2⟩ := small_run (sp := .empty) (g := stream seed) (by simp [SpherePack.empty])
  obtain ⟨sp2, h3, h4⟩ := small_run (sp := .empty) (g := skip 3 (stream seed)) (by simp [SpherePack.empty])
  refine ⟨sp1, sp2, _, _, _, _, by rw [call, generator, h1]; rfl, by rw [call, generator, h3]; rfl, ?_⟩
  rw [h2, h4]
  intro he
  have := congrArg (fun l => (l.map fun s : Sph => s.c i)) he
  simp only [SpherePack.empty, List.nil_append, List.map_cons, List.map_nil, small_centre, List.cons.injEq, and_true] at this
  apply hd
  simp only [skip] at this
  linarith

/-! ## Cases meeting the hypotheses -/

example : ∃ n a sp sp' g g' k, Good g ∧ 0 < a.rMean ∧ sp.pack ≠ [] ∧ makeCloud n a sp g = some (.ok (sp', k, g')) := by
  obtain ⟨sp', h1, h2⟩ := small_run (sp := ⟨[{ c := ![5, 0, 0], r := 1 }], 0, 1, false⟩) (g := fun _ => 0) (by
    intro s hs
    rw [List.mem_singleton.mp hs, overlaps, between, if_pos (by simp [small])]
    simp only [sqNorm, dot, Pi.sub_apply, small_centre]
    norm_num
    simp
    norm_num)
  exact ⟨3, small, _, sp', fun _ => 0, _, _, fun _ => by norm_num, by norm_num [small], by simp, h1⟩

example : ∃ n a sp' g g' k, Good g ∧ 0 < a.num ∧ a.rMean ≤ 0 ∧ makeCloud n a .empty g = some (.ok (sp', k, g')) := by
  obtain ⟨t1, t2, t3⟩ := found_plan (p := 0.55) (by norm_num) (by norm_num) 1
  obtain ⟨sp', h1, h2⟩ := cloud_all (n := 2) (a := found 0.55) (sp := .empty) (g := fun _ => 0) t1
    (by rw [loop_step (by simp [found]) (by simp [found]) (radius_fix' rfl rfl) (by simp [SpherePack.empty]), loop_end (by simp [found])])
  exact ⟨3, _, sp', fun _ => 0, _, _, fun _ => by norm_num, by simp [found], by norm_num [found], h2⟩

/-- A generator as in `C137_violated`. -/
example : ∃ stream : Int → Rnd, Good (stream 1) ∧ stream 1 ((0 : Fin 3) + 3) ≠ stream 1 (0 : Fin 3) :=
  ⟨fun _ n => 1 / ((n : ℝ) + 2), fun n => ⟨by positivity, by rw [div_lt_one (by positivity)]; linarith [Nat.cast_nonneg (α := ℝ) n]⟩, by norm_num⟩

end Verif.Pack
