import Verif.Fac.PsdLemmas
import Mathlib.Algebra.BigOperators.Field

/-!
# Size distributions of factories: C178
-/
namespace Verif.Fac
open Verif.Mech
open scoped Classical

/-- What a sphere counts: its mass, or one. -/
noncomputable def weight (cm : Bool) (s : Sph) : ℝ := if cm then s.mass else 1

/-- A sphere has size `k`, or is between sizes `k` and `k+1`. -/
def InBin (sizes : List ℝ) (exact : Bool) (k : Nat) (s : Sph) : Prop :=
  if exact then 2 * s.r = sizes.getD k 0 else sizes.getD k 0 ≤ 2 * s.r ∧ 2 * s.r < sizes.getD (k + 1) 0

/-- What the spheres of a bin count. -/
noncomputable def binW (sizes : List ℝ) (exact cm : Bool) (made : List Sph) (k : Nat) : ℝ := ((made.filter fun s => InBin sizes exact k s).map (weight cm)).sum

/-- What all spheres count. -/
noncomputable def allW (cm : Bool) (made : List Sph) : ℝ := (made.map (weight cm)).sum

/-- The share of bin `k` asked for. -/
def share (cum : List ℝ) (k : Nat) : ℝ := cum.getD k 0 - if k = 0 then 0 else cum.getD (k - 1) 0

/-- A new factory with a valid size distribution, which ends in one. -/
structure Fresh (f : Fac) : Prop where
  ne : f.cum ≠ []
  asc : f.cum.Pairwise (· ≤ ·)
  pos : ∀ c ∈ f.cum, 0 < c
  last : f.cum.getLastD 0 = 1
  sizes : f.sizes.Pairwise (· < ·)
  unused : f.use = false ∧ f.need = [] ∧ f.curMean = [] ∧ f.curProc = [] ∧ f.totalMass = 0 ∧ f.numParticles = 0

/-- What holds of the distribution at any time. -/
structure DistInv (cum sizes : List ℝ) (ex cm : Bool) (M : ℝ) (f : Fac) (made : List Sph) : Prop where
  use : f.use = true
  cum_eq : f.cum = cum
  sizes_eq : f.sizes = sizes
  ex_eq : f.exactDiam = ex
  cm_eq : f.calcMass = cm
  need : f.need = diffs 0 cum
  tot : (if cm then f.totalMass else (f.numParticles : ℝ)) = allW cm made
  mean : f.curMean = (List.range cum.length).map (binW sizes ex cm made)
  proc : f.curProc = (List.range cum.length).map fun k => binW sizes ex cm made k / allW cm made
  sum : ∑ k ∈ Finset.range cum.length, binW sizes ex cm made k = allW cm made
  bound : (∀ s ∈ made, 0 < weight cm s ∧ weight cm s ≤ M) → ∀ k < cum.length, binW sizes ex cm made k ≤ share cum k * allW cm made + M

theorem binW_snoc (sizes : List ℝ) (ex cm : Bool) (made : List Sph) (s : Sph) (k : Nat) :
    binW sizes ex cm (made ++ [s]) k = binW sizes ex cm made k + if InBin sizes ex k s then weight cm s else 0 := by
  rw [binW, binW, List.filter_append, List.map_append, List.sum_append]
  congr 1
  by_cases h : InBin sizes ex k s <;> simp [h]

theorem allW_snoc (cm : Bool) (made : List Sph) (s : Sph) : allW cm (made ++ [s]) = allW cm made + weight cm s := by
  rw [allW, allW, List.map_append, List.sum_append]; simp

theorem getD_lt {l : List ℝ} (h : l.Pairwise (· < ·)) {i j : Nat} (hij : i < j) (hj : j < l.length) : l.getD i 0 < l.getD j 0 := by
  have := List.pairwise_iff_getElem.mp h i j (by omega) hj hij
  simpa [List.getD_eq_getElem?_getD, hj, show i < l.length by omega] using this

theorem getD_le {l : List ℝ} (h : l.Pairwise (· < ·)) {i j : Nat} (hij : i ≤ j) (hj : j < l.length) : l.getD i 0 ≤ l.getD j 0 := by
  rcases hij.lt_or_eq with h1 | rfl
  · exact (getD_lt h h1 hj).le
  · exact le_rfl

theorem readR_getD {l : List ℝ} {i : Nat} {v : ℝ} (h : readR l i = .ok v) : i < l.length ∧ l.getD i 0 = v := by
  rw [readR] at h
  split at h
  · rename_i w hw
    obtain rfl := Res.ok.inj h
    obtain ⟨h1, h2⟩ := List.getElem?_eq_some_iff.mp hw
    exact ⟨h1, by simp [List.getD_eq_getElem?_getD, hw]⟩
  · cases h

theorem share_nonneg {cum : List ℝ} (hp : ∀ c ∈ cum, 0 < c) (ha : cum.Pairwise (· ≤ ·)) {k : Nat} (hk : k < cum.length) : 0 ≤ share cum k := by
  have h := diffs_getD cum 0 k hk
  rw [share, ← h]
  have : k < (diffs 0 cum).length := by rw [diffs_length]; exact hk
  rw [List.getD_eq_getElem?_getD, List.getElem?_eq_getElem this, Option.getD_some]
  exact diffs_nonneg cum 0 (fun c hc => (hp c hc).le) ha _ (List.getElem_mem _)

theorem share_sum {cum : List ℝ} (hl : cum.getLastD 0 = 1) : ∑ k ∈ Finset.range cum.length, share cum k = 1 := by
  have h1 := diffs_sum cum 0
  rw [hl, eq_map_range (diffs 0 cum), diffs_length] at h1
  have hsum : ∀ (F : Nat → ℝ) (n : Nat), ((List.range n).map F).sum = ∑ k ∈ Finset.range n, F k := by
    intro F n
    induction n with
    | zero => simp
    | succ n ih => rw [List.range_succ, List.map_append, List.sum_append, ih, Finset.sum_range_succ]; simp
  rw [hsum, sub_zero] at h1
  rw [← h1]
  exact Finset.sum_congr rfl fun k hk => (diffs_getD cum 0 k (Finset.mem_range.mp hk)).symm

section
variable {cum sizes : List ℝ} {ex cm : Bool} {M : ℝ}

/-- A turn keeps the invariant. -/
theorem inv_step {C : Coll} {reg : Region} {ds : List ℝ} {vel : V3} {u : Nat → ℝ} {s s' : St} {bin : Nat} {r d : ℝ} {c : V3} {prior : List Sph}
    (hne : cum ≠ []) (hp : ∀ c ∈ cum, 0 < c) (ha : cum.Pairwise (· ≤ ·)) (hl : cum.getLastD 0 = 1) (hz : sizes.Pairwise (· < ·)) (hlen : if ex then sizes.length = cum.length else sizes.length = cum.length + 1)
    (hu : ∀ k, 0 ≤ u k ∧ u k < 1) (hI : DistInv cum sizes ex cm M s.f (prior ++ s.made)) (hm : Makes C reg ds vel u s s' bin r d c) : DistInv cum sizes ex cm M s'.f (prior ++ s'.made) := by
  obtain ⟨g', rfl⟩ := hm.result
  obtain ⟨g, hr⟩ := hm.radius
  set made := prior ++ s.made with hmade
  have hK : 0 < cum.length := List.length_pos_of_ne_nil hne
  have hW : 0 ≤ ∑ k ∈ Finset.range cum.length, (share cum k - binW sizes ex cm made k / allW cm made) := by
    rw [Finset.sum_sub_distrib, ← Finset.sum_div, hI.sum, share_sum hl]
    by_cases h0 : allW cm made = 0
    · rw [h0]; simp
    · rw [div_self h0]; simp
  obtain ⟨hb1, hb2⟩ := pickBin_ok hK hW
  have hzip : (s.f.need.zip s.f.curProc).take s.f.cum.length = (List.range cum.length).map fun k => (share cum k, binW sizes ex cm made k / allW cm made) := by
    have hn : s.f.need = (List.range cum.length).map (share cum) := by
      rw [hI.need, eq_map_range (diffs 0 cum), diffs_length]
      apply List.map_congr_left
      intro k hk
      exact diffs_getD cum 0 k (by simpa using hk)
    rw [hn, hI.proc, List.zip_map', hI.cum_eq, List.take_of_length_le (by simp)]
  -- the bin and the radius
  have key : bin < cum.length ∧ binW sizes ex cm made bin / allW cm made ≤ share cum bin ∧
      if ex then 2 * r = sizes.getD bin 0 else sizes.getD bin 0 ≤ 2 * r ∧ 2 * r < sizes.getD (bin + 1) 0 := by
    rw [nextRadius, if_pos hI.use, hzip, if_neg (by rw [hI.need, hI.proc, hI.cum_eq, diffs_length]; simp)] at hr
    dsimp only at hr
    obtain ⟨a, h1, h2⟩ := bind_inv hr
    rw [hI.sizes_eq] at h1 h2
    obtain ⟨-, h1⟩ := readR_getD h1
    rw [hI.ex_eq] at h2
    by_cases hex : ex = true
    · rw [if_pos hex] at h2 ⊢
      simp only [Res.ok.injEq, Prod.mk.injEq] at h2
      obtain ⟨rfl, rfl, -⟩ := h2
      exact ⟨hb1, hb2, by rw [h1]; ring⟩
    · rw [if_neg hex] at h2 ⊢
      obtain ⟨e, h3, h4⟩ := bind_inv h2
      obtain ⟨h5, h3⟩ := readR_getD h3
      simp only [Res.ok.injEq, Prod.mk.injEq] at h4
      obtain ⟨rfl, rfl, -⟩ := h4
      have hlt := getD_lt hz (Nat.lt_succ_self _) h5
      rw [Nat.succ_eq_add_one, h1, h3] at hlt
      refine ⟨hb1, hb2, ?_⟩
      rw [h1, h3]
      obtain ⟨u1, u2⟩ := hu s.g
      constructor <;> nlinarith
  obtain ⟨k1, k2, k3⟩ := key
  set x : Sph := ⟨s.slots, c, vel, r, vol r * d, fun _ => 2 / 5 * vol r * r * r * d⟩ with hx
  have hmade' : prior ++ (create d vel bin r c { s with g := g' }).made = made ++ [x] := by rw [hmade, List.append_assoc]; rfl
  have hin : ∀ k < cum.length, (InBin sizes ex k x ↔ k = bin) := by
    intro k hk
    rw [InBin]
    by_cases hex : ex = true
    · rw [if_pos hex] at k3 hlen ⊢
      show 2 * r = _ ↔ _
      rw [k3]
      constructor
      · intro h
        rcases lt_trichotomy k bin with h1 | h1 | h1
        · have := getD_lt hz h1 (by omega); linarith
        · exact h1
        · have := getD_lt hz h1 (by omega); linarith
      · rintro rfl; rfl
    · rw [if_neg hex] at k3 hlen ⊢
      constructor
      · rintro ⟨h1, h2⟩
        change _ ≤ 2 * r at h1
        change 2 * r < _ at h2
        rcases lt_trichotomy k bin with h | h | h
        · have := getD_le hz (show k + 1 ≤ bin by omega) (by omega); linarith
        · exact h
        · have := getD_le hz (show bin + 1 ≤ k by omega) (by omega); linarith
      · rintro rfl; exact k3
  have hbin : ∀ k < cum.length, binW sizes ex cm (made ++ [x]) k = binW sizes ex cm made k + if k = bin then weight cm x else 0 := by
    intro k hk
    rw [binW_snoc]
    by_cases h : k = bin
    · rw [if_pos h, if_pos ((hin k hk).mpr h)]
    · rw [if_neg h, if_neg (fun h' => h ((hin k hk).mp h'))]
  -- the attributes
  have hf : (create d vel bin r c { s with g := g' }).f = account { s.f with ids := s.f.ids ++ [s.slots], totalMass := s.f.totalMass + vol r * d, totalVolume := s.f.totalVolume + vol r, numParticles := s.f.numParticles + 1 } bin (vol r * d) := rfl
  rw [hmade', hf, account, if_pos (show s.f.use = true from hI.use)]
  have htot : (if cm then s.f.totalMass + vol r * d else ((s.f.numParticles + 1 : Int) : ℝ)) = allW cm (made ++ [x]) := by
    rw [allW_snoc, ← hI.tot, weight]
    by_cases hc : cm = true
    · simp only [if_pos hc, hx]
    · simp only [if_neg hc]; push_cast; rfl
  have hmean : s.f.curMean.modify bin (· + if s.f.calcMass then vol r * d else 1) = (List.range cum.length).map (binW sizes ex cm (made ++ [x])) := by
    apply List.ext_getElem
    · rw [hI.mean]; simp
    · intro n h1 h2
      have hn : n < cum.length := by simpa using h2
      rw [List.getElem_modify, List.getElem_map, List.getElem_range, hbin n hn]
      simp only [hI.mean, List.getElem_map, List.getElem_range, hI.cm_eq]
      by_cases h : bin = n
      · rw [if_pos h, if_pos h.symm]; rfl
      · rw [if_neg h, if_neg (Ne.symm h), add_zero]
  refine ⟨hI.use, hI.cum_eq, hI.sizes_eq, hI.ex_eq, hI.cm_eq, hI.need, htot, hmean, ?_, ?_, ?_⟩
  · dsimp only
    rw [hmean, hI.cm_eq]
    rw [List.map_map]
    apply List.map_congr_left
    intro k _
    rw [← htot]
    rfl
  · rw [Finset.sum_congr rfl fun k hk => hbin k (Finset.mem_range.mp hk), Finset.sum_add_distrib, hI.sum, Finset.sum_ite_eq' , if_pos (Finset.mem_range.mpr k1), allW_snoc]
  · intro hw k hk
    have hw1 : ∀ s ∈ made, 0 < weight cm s ∧ weight cm s ≤ M := fun s hs => hw s (List.mem_append_left _ hs)
    obtain ⟨wx1, wx2⟩ := hw x (List.mem_append_right _ (List.mem_singleton_self _))
    have hsh := share_nonneg hp ha hk
    have hW0 : 0 ≤ allW cm made := by
      rw [allW]
      apply List.sum_nonneg
      intro y hy
      obtain ⟨s, hs, rfl⟩ := List.mem_map.mp hy
      exact (hw1 s hs).1.le
    have hold := hI.bound hw1 k hk
    rw [hbin k hk, allW_snoc]
    by_cases h : k = bin
    · subst h
      rw [if_pos rfl]
      have h2 : binW sizes ex cm made k ≤ share cum k * allW cm made := by
        rcases hW0.lt_or_eq with h0 | h0
        · exact (div_le_iff₀ h0).mp k2
        · have : made = [] := by
            by_contra hne
            obtain ⟨y, t, ht⟩ := List.exists_cons_of_ne_nil hne
            have hy := (hw1 y (by rw [ht]; simp)).1
            have : 0 ≤ (t.map (weight cm)).sum := List.sum_nonneg fun z hz => by
              obtain ⟨s, hs, rfl⟩ := List.mem_map.mp hz
              exact (hw1 s (by rw [ht]; exact List.mem_cons_of_mem _ hs)).1.le
            rw [ht, allW, List.map_cons, List.sum_cons] at h0
            linarith
          rw [this, binW, allW]; simp
      nlinarith [mul_nonneg hsh wx1.le]
    · rw [if_neg h]
      nlinarith [mul_nonneg hsh wx1.le]

/-- The preparation sets the invariant up. -/
theorem inv_start {past : Res ℝ} {dt : ℝ} {f f' : Fac} (hM : 0 ≤ M) (hf : Fresh f) (h : start past dt f = .ok f') :
    DistInv f.cum f.sizes f.exactDiam f.calcMass M f' [] ∧ if f.exactDiam then f.sizes.length = f.cum.length else f.sizes.length = f.cum.length + 1 := by
  obtain ⟨e1, e2, e3, e4, e5, e6⟩ := hf.unused
  rw [start] at h
  obtain ⟨f₁, h1, h⟩ := bind_inv h
  rw [prepare, if_pos ⟨List.length_pos_of_ne_nil hf.ne, by simp [e1]⟩] at h1
  split_ifs at h1 with c1 c2 c3 c4
  obtain ⟨x, -, h1⟩ := bind_inv h1
  have h1 := Res.ok.inj h1
  have h := Res.ok.inj h
  subst h1
  subst h
  dsimp only
  rw [normalise_one hf.last]
  refine ⟨⟨rfl, rfl, rfl, rfl, rfl, ?_, ?_, ?_, ?_, ?_, ?_⟩, ?_⟩
  · dsimp only; rw [e2]; rfl
  · dsimp only; rw [e5, e6]; simp [allW]
  · dsimp only
    rw [e3, List.nil_append]
    exact List.ext_getElem (by simp) (by intros; simp [binW])
  · dsimp only; rw [e4]; simp [binW, List.map_const']
  · simp [binW, allW]
  · intro _ k _; simp [binW, allW, hM]
  · split_ifs with he
    · by_contra hn; exact c1 ⟨Ne.symm hn, he⟩
    · by_contra hn; exact c2 ⟨Ne.symm hn, he⟩

theorem inv_restart {past : Res ℝ} {dt : ℝ} {f f' : Fac} {made : List Sph} (hI : DistInv cum sizes ex cm M f made) (h : start past dt f = .ok f') : DistInv cum sizes ex cm M f' made := by
  rw [start, prepare, if_neg (by simp [hI.use]), Res.bind_ok] at h
  rw [← Res.ok.inj h]
  exact ⟨hI.use, hI.cum_eq, hI.sizes_eq, hI.ex_eq, hI.cm_eq, hI.need, hI.tot, hI.mean, hI.proc, hI.sum, hI.bound⟩

end

/-- C178.  In any run of a new factory with a size distribution that ends in one, what each size counts differs from its share of the whole by no more than the
largest sphere (upwards) and by no more than that for each other size (downwards).  Missing: distributions that do not end in one and the read behind the end. -/
theorem C178_psd_partial {past : Res ℝ} {reg : Region} {ds : List ℝ} {u : Nat → ℝ} {f₀ f : Fac} {made : List Sph} {T M : ℝ} (hu : ∀ k, 0 ≤ u k ∧ u k < 1) (hf : Fresh f₀) (hM : 0 ≤ M)
    (h : Runs past reg ds u f₀ f made T) (hw : ∀ s ∈ made, 0 < weight f₀.calcMass s ∧ weight f₀.calcMass s ≤ M) : ∀ k < f₀.cum.length,
      binW f₀.sizes f₀.exactDiam f₀.calcMass made k ≤ share f₀.cum k * allW f₀.calcMass made + M ∧
      share f₀.cum k * allW f₀.calcMass made - (f₀.cum.length - 1) * M ≤ binW f₀.sizes f₀.exactDiam f₀.calcMass made k := by
  have hinv : (f = f₀ ∧ made = []) ∨ (DistInv f₀.cum f₀.sizes f₀.exactDiam f₀.calcMass M f made ∧ if f₀.exactDiam then f₀.sizes.length = f₀.cum.length else f₀.sizes.length = f₀.cum.length + 1) := by
    clear hw
    induction h with
    | zero => exact Or.inl ⟨rfl, rfl⟩
    | @step f made T C dt n slots g s' hp hdt ha ih =>
      right
      obtain ⟨f', h1, h2⟩ := action_inv ha
      have hs : DistInv f₀.cum f₀.sizes f₀.exactDiam f₀.calcMass M f' made ∧ if f₀.exactDiam then f₀.sizes.length = f₀.cum.length else f₀.sizes.length = f₀.cum.length + 1 := by
        rcases ih with ⟨rfl, rfl⟩ | ih
        · exact inv_start hM hf h1
        · exact ⟨inv_restart ih.1 h1, ih.2⟩
      refine ⟨?_, hs.2⟩
      refine loop_inv (P := fun s => DistInv f₀.cum f₀.sizes f₀.exactDiam f₀.calcMass M s.f (made ++ s.made)) ?_ ?_ (by simpa using hs.1) h2
      · intro s s₁ bin r d c hI _ hm
        exact inv_step hf.ne hf.pos hf.asc hf.last hf.sizes hs.2 hu hI hm
      · intro s s₁ hI hg
        obtain ⟨g', rfl⟩ := hg.result
        by_cases hst : s.f.stopIfFailed = true
        · rw [if_pos hst]
          exact ⟨hI.use, hI.cum_eq, hI.sizes_eq, hI.ex_eq, hI.cm_eq, hI.need, hI.tot, hI.mean, hI.proc, hI.sum, hI.bound⟩
        · rw [if_neg hst]
          exact hI
  have hbs : (∀ k < f₀.cum.length, binW f₀.sizes f₀.exactDiam f₀.calcMass made k ≤ share f₀.cum k * allW f₀.calcMass made + M) ∧
      ∑ k ∈ Finset.range f₀.cum.length, binW f₀.sizes f₀.exactDiam f₀.calcMass made k = allW f₀.calcMass made := by
    rcases hinv with ⟨-, rfl⟩ | ⟨hI, -⟩
    · refine ⟨fun k _ => by simp [binW, allW, hM], by simp [binW, allW]⟩
    · exact ⟨hI.bound hw, hI.sum⟩
  obtain ⟨hb, hs⟩ := hbs
  intro k hk
  refine ⟨hb k hk, ?_⟩
  have hk' : k ∈ Finset.range f₀.cum.length := Finset.mem_range.mpr hk
  rw [← Finset.add_sum_erase _ _ hk'] at hs
  have hsh := share_sum hf.last
  rw [← Finset.add_sum_erase _ _ hk'] at hsh
  have hle : ∑ j ∈ (Finset.range f₀.cum.length).erase k, binW f₀.sizes f₀.exactDiam f₀.calcMass made j ≤ ∑ j ∈ (Finset.range f₀.cum.length).erase k, (share f₀.cum j * allW f₀.calcMass made + M) :=
    Finset.sum_le_sum fun j hj => hb j (Finset.mem_range.mp (Finset.mem_of_mem_erase hj))
  rw [Finset.sum_add_distrib, ← Finset.sum_mul, Finset.sum_const, Finset.card_erase_of_mem hk', Finset.card_range, nsmul_eq_mul, Nat.cast_sub (by omega)] at hle
  push_cast at hle
  have : ∑ j ∈ (Finset.range f₀.cum.length).erase k, share f₀.cum j = 1 - share f₀.cum k := by linarith
  rw [this] at hle
  nlinarith

/-! ### Cases -/

/-- A factory of at most one sphere of diameters 1 and 2. -/
noncomputable def fac1 (cum : List ℝ) : Fac := { fac0 1 1 with cum := cum, sizes := [1, 2] }

theorem fac1_fresh : Fresh (fac1 [1 / 2, 1]) where
  ne := by simp [fac1]
  asc := by simp [fac1]; norm_num
  pos := by simp [fac1]
  last := by simp [fac1]
  sizes := by simp [fac1]
  unused := ⟨rfl, rfl, rfl, rfl, rfl, rfl⟩

theorem one_sphere {past : Res ℝ} {f f' : Fac} {dt : ℝ} {u : Nat → ℝ} {reg : Region} (hs : start past dt f = .ok f') (h1 : f'.maxParticles = 1) (h2 : f'.numParticles = 0) (h3 : f'.totalMass < f'.goalMass)
    (h4 : f'.maxMass < 0) (h5 : f'.maxAttempt = 1) (h6 : f'.materialId = -1) {bin g2 : Nat} {r : ℝ} (hr : nextRadius f' u 1 = .ok (bin, r, g2)) :
    ∃ s' a, action past noBodies reg [1] u dt 1 f 0 0 = some (.ok s') ∧ s'.made = [a] ∧ a.r = r ∧ a.mass = vol r := by
  rw [action, hs]
  dsimp only
  generalize initVel f' (u 0) = vel
  have hg : goesOn f' := ⟨h3, Or.inr (by omega), Or.inl h4⟩
  rw [loop, if_pos hg, turn]
  dsimp only
  have hp : place noBodies reg f'.normal u [] r 1 g2 = .ok (some (pick reg f'.normal u g2 r), g2 + 3) := by
    rw [place, noBodies_probe, Res.bind_ok, if_pos ⟨rfl, by simp⟩]
  have hm : material [1] (-1) = .ok 1 := by simp [material, readR]
  rw [hr, Res.bind_ok]
  dsimp only
  rw [h5, if_neg (by norm_num), show (1 : Int).toNat = 1 from rfl, hp, Res.bind_ok]
  dsimp only
  rw [h6, hm, Res.bind_ok]
  dsimp only
  obtain ⟨a, b, hc⟩ := create_f 1 vel bin r (pick reg f'.normal u g2 r) ⟨f', 0, [], g2 + 3⟩
  rw [loop, if_neg]
  · exact ⟨_, _, rfl, rfl, rfl, by simp⟩
  · rw [hc]
    rintro ⟨-, h, -⟩
    dsimp only at h
    omega

/-- The first sphere is of the first size. -/
theorem fac1_first (u : Nat → ℝ) (x : ℝ) : ∃ s' a, action (.ok x) noBodies spot [1] u 1 1 { fac1 [1 / 2, 1] with maxAttempt := 1 } 0 0 = some (.ok s') ∧ s'.made = [a] ∧ a.r = 1 / 2 ∧ a.mass = vol (1 / 2) := by
  have hp : prepare (.ok x) { fac1 [1 / 2, 1] with maxAttempt := 1, goalMass := 0 + 1 * 1 } = .ok { fac1 [1 / 2, 1] with maxAttempt := 1, goalMass := 0 + 1 * 1, use := true, need := [1 / 2, 1 / 2], curMean := [0, 0], curProc := [0, 0] } := by
    rw [prepare, if_pos (by simp [fac1, fac0]), if_neg (by simp [fac1]), if_neg (by simp [fac1, fac0]), if_neg, if_neg, Res.bind_ok]
    · dsimp only [fac1, fac0]
      rw [normalise_one (by simp)]
      norm_num [diffs]
    · norm_num [fac1, ascending]
    · norm_num [fac1, ascending]
  have hs : start (.ok x) 1 { fac1 [1 / 2, 1] with maxAttempt := 1 } = .ok { fac1 [1 / 2, 1] with maxAttempt := 1, goalMass := 1, use := true, need := [1 / 2, 1 / 2], curMean := [0, 0], curProc := [0, 0] } := by
    rw [start]
    erw [hp]
    rw [Res.bind_ok]
    simp only [fac1, fac0, unit_z, Option.map_none]
    norm_num
  have hr : nextRadius { fac1 [1 / 2, 1] with maxAttempt := 1, goalMass := 1, use := true, need := [1 / 2, 1 / 2], curMean := [0, 0], curProc := [0, 0] } u 1 = .ok (0, 1 / 2, 1) := by
    rw [nextRadius, if_pos rfl, if_neg (by simp [fac1])]
    simp [fac1, fac0, pickBin, readR]
  exact one_sphere hs rfl rfl (by norm_num [fac1, fac0]) (by norm_num [fac1, fac0]) rfl rfl hr

example (u : Nat → ℝ) (hu : ∀ k, 0 ≤ u k ∧ u k < 1) : ∃ f made, Runs (.ok 0) spot [1] u { fac1 [1 / 2, 1] with maxAttempt := 1 } f made 1 ∧ made ≠ [] ∧
    1 / 2 * allW true made - vol (1 / 2) ≤ binW [1, 2] true true made 1 := by
  obtain ⟨s', a, h, hm, -, hmass⟩ := fac1_first u 0
  have hrun := Runs.step (Runs.zero _) zero_le_one h
  rw [List.nil_append, zero_add, hm] at hrun
  have hpos : 0 < vol (1 / 2) := by rw [vol]; have := Real.pi_pos; positivity
  refine ⟨_, _, hrun, by simp, ?_⟩
  have hfr : Fresh { fac1 [1 / 2, 1] with maxAttempt := 1 } := ⟨fac1_fresh.ne, fac1_fresh.asc, fac1_fresh.pos, fac1_fresh.last, fac1_fresh.sizes, fac1_fresh.unused⟩
  have := (C178_psd_partial hu hfr hpos.le hrun (by
    intro s hs
    simp only [List.mem_singleton] at hs
    subst hs
    show 0 < weight true s ∧ weight true s ≤ _
    rw [weight, if_pos rfl, hmass]
    exact ⟨hpos, le_rfl⟩) 1 (by simp [fac1])).2
  simp only [fac1, fac0, share, List.getD_cons_succ, List.getD_cons_zero, List.length_cons, List.length_nil] at this
  norm_num at this ⊢
  linarith

/-- C178 is violated with any distribution: whether to normalise it is decided by memory behind its end. -/
theorem C178_violated_memory {C : Coll} {reg : Region} {ds : List ℝ} {u : Nat → ℝ} {dt : ℝ} {n slots g : Nat} : action .ub C reg ds u dt n (fac1 [1 / 2, 1]) slots g = some .ub := by
  have hp : ∀ x : ℝ, prepare .ub { fac1 [1 / 2, 1] with goalMass := x } = .ub := by
    intro x
    rw [prepare, if_pos (by simp [fac1, fac0]), if_neg (by simp [fac1]), if_neg (by simp [fac1, fac0]), if_neg, if_neg]
    · rfl
    · norm_num [fac1, ascending]
    · norm_num [fac1, ascending]
  rw [action, start, hp]
  rfl

/-- What holds of a factory with percentages. -/
structure Percent (f : Fac) : Prop where
  use : f.use = true
  cum : f.cum.length = 2
  sizes : f.sizes = [1, 2]
  ex : f.exactDiam = true
  need : f.need = [50, -49]
  mean : ∃ x, f.curMean = [x, 0]
  proc : ∃ y, f.curProc = [y, 0]

theorem percent_step {C : Coll} {reg : Region} {ds : List ℝ} {vel : V3} {u : Nat → ℝ} {s s' : St} {bin : Nat} {r d : ℝ} {c : V3} (h : Percent s.f) (hm : Makes C reg ds vel u s s' bin r d c) :
    Percent s'.f ∧ r = 1 / 2 := by
  obtain ⟨g', rfl⟩ := hm.result
  obtain ⟨g, hr⟩ := hm.radius
  obtain ⟨x, hx⟩ := h.mean
  obtain ⟨y, hy⟩ := h.proc
  have hb : pickBin 0 (0, 0) [(50, y), (-49, (0 : ℝ))] = 0 := by
    rw [pickBin]
    split_ifs with h1
    · dsimp only at h1
      rw [pickBin, if_neg (by dsimp only; linarith), pickBin]
    · rw [pickBin, if_neg (by norm_num), pickBin]
  rw [nextRadius, if_pos h.use, if_neg (by rw [h.need, hy, h.cum]; simp), h.need, hy, h.cum, h.sizes] at hr
  simp only [List.zip_cons_cons, List.zip_nil_right, List.take_succ_cons, List.take_zero, hb] at hr
  rw [show readR [1, 2] 0 = .ok 1 from rfl, Res.bind_ok, if_pos h.ex] at hr
  simp only [Res.ok.injEq, Prod.mk.injEq] at hr
  obtain ⟨rfl, rfl, -⟩ := hr
  refine ⟨?_, rfl⟩
  rw [create]
  dsimp only
  rw [account, if_pos (show s.f.use = true from h.use)]
  refine ⟨h.use, h.cum, h.sizes, h.ex, h.need, ?_, ?_⟩
  · dsimp only; rw [hx]; exact ⟨_, rfl⟩
  · dsimp only; rw [hx]
    simp only [List.modify_zero_cons, List.map_cons, List.map_nil, zero_div]
    exact ⟨_, rfl⟩

/-- C178 is violated by distributions in percent: the first number is not normalised, and only the first size is ever made. -/
theorem C178_violated_percent {reg : Region} {ds : List ℝ} {u : Nat → ℝ} {f f₀ : Fac} {made : List Sph} {T : ℝ} (hc : f₀.cum = [50, 100]) (hz : f₀.sizes = [1, 2]) (hx : f₀.exactDiam = true)
    (h0 : f₀.use = false ∧ f₀.need = [] ∧ f₀.curMean = [] ∧ f₀.curProc = []) (h : Runs (.ok 0) reg ds u f₀ f made T) : ∀ s ∈ made, s.r = 1 / 2 := by
  have : (f = f₀ ∨ Percent f) ∧ ∀ s ∈ made, s.r = 1 / 2 := by
    induction h with
    | zero => exact ⟨Or.inl rfl, by simp⟩
    | @step f made T C dt n slots g s' hp hdt ha ih =>
      obtain ⟨f', h1, h2⟩ := action_inv ha
      have hs : Percent f' := by
        rcases ih.1 with rfl | hf
        · obtain ⟨e1, e2, e3, e4⟩ := h0
          rw [start] at h1
          obtain ⟨f₁, h1, h⟩ := bind_inv h1
          rw [prepare, if_pos (by simp [hc, e1])] at h1
          split_ifs at h1 with c1 c2 c3 c4
          rw [Res.bind_ok] at h1
          have h1 := Res.ok.inj h1
          have h := Res.ok.inj h
          subst h1
          subst h
          have hn : normalise 0 f.cum = [50, 1] := by
            rw [hc, normalise, if_pos (by norm_num)]
            norm_num
          refine ⟨rfl, ?_, hz, hx, ?_, ?_, ?_⟩ <;> dsimp only <;> rw [hn]
          · rfl
          · rw [e2]; norm_num [diffs]
          · rw [e3]; exact ⟨0, rfl⟩
          · rw [e4]; exact ⟨0, rfl⟩
        · rw [start, prepare, if_neg (by simp [hf.use]), Res.bind_ok] at h1
          rw [← Res.ok.inj h1]
          exact ⟨hf.use, hf.cum, hf.sizes, hf.ex, hf.need, hf.mean, hf.proc⟩
      have := loop_inv (P := fun s => Percent s.f ∧ ∀ x ∈ s.made, x.r = 1 / 2) ?_ ?_ ⟨hs, by simp⟩ h2
      · refine ⟨Or.inr this.1, fun s hs => ?_⟩
        rcases List.mem_append.mp hs with hs | hs
        · exact ih.2 s hs
        · exact this.2 s hs
      · rintro s s₁ bin r d c ⟨k1, k2⟩ - hm
        obtain ⟨q1, q2⟩ := percent_step k1 hm
        refine ⟨q1, ?_⟩
        obtain ⟨g', rfl⟩ := hm.result
        intro x hx
        rw [create] at hx
        rcases List.mem_append.mp hx with hx | hx
        · exact k2 x hx
        · simp only [List.mem_singleton] at hx
          subst hx
          exact q2
      · rintro s s₁ ⟨k1, k2⟩ hg
        obtain ⟨g', rfl⟩ := hg.result
        refine ⟨?_, k2⟩
        by_cases hst : s.f.stopIfFailed = true
        · rw [if_pos hst]
          exact ⟨k1.use, k1.cum, k1.sizes, k1.ex, k1.need, k1.mean, k1.proc⟩
        · rw [if_neg hst]
          exact k1
  exact this.2

example (u : Nat → ℝ) : ∃ f made, Runs (.ok 0) spot [1] u { fac1 [50, 100] with maxAttempt := 1 } f made 1 ∧ made ≠ [] ∧ ∀ s ∈ made, s.r = 1 / 2 := by
  have hp : prepare (.ok 0) { fac1 [50, 100] with maxAttempt := 1, goalMass := 0 + 1 * 1 } = .ok { fac1 [50, 1] with maxAttempt := 1, goalMass := 0 + 1 * 1, use := true, need := [50, -49], curMean := [0, 0], curProc := [0, 0] } := by
    rw [prepare, if_pos (by simp [fac1, fac0]), if_neg (by simp [fac1]), if_neg (by simp [fac1, fac0]), if_neg, if_neg, Res.bind_ok]
    · dsimp only [fac1, fac0]
      rw [show normalise 0 [50, 100] = [50, 1] by norm_num [normalise]]
      norm_num [diffs]
    · norm_num [fac1, ascending]
    · norm_num [fac1, ascending]
  have hs : start (.ok 0) 1 { fac1 [50, 100] with maxAttempt := 1 } = .ok { fac1 [50, 1] with maxAttempt := 1, goalMass := 1, use := true, need := [50, -49], curMean := [0, 0], curProc := [0, 0] } := by
    rw [start]
    erw [hp]
    rw [Res.bind_ok]
    simp only [fac1, fac0, unit_z, Option.map_none]
    norm_num
  have hr : nextRadius { fac1 [50, 1] with maxAttempt := 1, goalMass := 1, use := true, need := [50, -49], curMean := [0, 0], curProc := [0, 0] } u 1 = .ok (0, 1 / 2, 1) := by
    rw [nextRadius, if_pos rfl, if_neg (by simp [fac1])]
    have : ¬ (50 : ℝ) < -49 := by norm_num
    simp [fac1, fac0, pickBin, readR, this]
  obtain ⟨s', a, h, hm, -⟩ := one_sphere (reg := spot) hs rfl rfl (by norm_num [fac1, fac0]) (by norm_num [fac1, fac0]) rfl rfl hr
  have hrun := Runs.step (Runs.zero _) zero_le_one h
  rw [List.nil_append, zero_add] at hrun
  exact ⟨_, _, hrun, by simp [hm], C178_violated_percent rfl rfl rfl ⟨rfl, rfl, rfl, rfl⟩ hrun⟩

end Verif.Fac
