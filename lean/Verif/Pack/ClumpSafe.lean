import Verif.Pack.ClumpProps

/-!
# Reads outside of vectors in random packings of clumps: C159
-/
namespace Verif.Pack
open Verif.Mech
open scoped Classical

/-- With fewer random numbers than rounds asked for, the loop ends. -/
theorem loop_ends {mn mx cell : V3} {periodic : Bool} {num : Int} (h0 : 0 ≤ num) {clumps : List (List Sph)} {n nGen : Nat} (hn : num < nGen + n)
    {pack : List Sph} {infos : List ClumpInfo} {g : Rnd} : clumpLoop mn mx cell periodic num clumps n nGen pack infos g ≠ none ∨ n = 0 := by
  induction n generalizing nGen pack infos g with
  | zero => right; rfl
  | succ n ih =>
    left
    rw [clumpLoop]
    by_cases hl : (nGen : Int) < num ∨ num < 0
    · rw [if_pos hl]
      rcases choice clumps (g 0) with _ | c
      · simp
      · simp only
        rcases tryClump mn mx cell periodic pack infos c clumpTries (skip 1 g) with ⟨o, g1⟩ | _ | _
        · rcases o with _ | ⟨C, pos⟩
          · simp
          · simp only
            have hn' : num < ((nGen + 1 : Nat) : Int) + n := by push_cast at hn ⊢; omega
            rcases ih hn' (pack := pack ++ C.map fun s => { s with clumpId := nGen })
              (infos := infos ++ [⟨nGen, pos, boundRad c, pack.length, pack.length + C.length⟩]) (g := g1) with h | h
            · exact h
            · exfalso
              push_cast at hn'
              omega
        · simp
        · simp
    · rw [if_neg hl]
      simp

/-- A property of the packing under which tests of clumps read nothing outside is enough. -/
theorem clump_safe {mn mx cell : V3} {periodic : Bool} {num : Int} {clumps : List (List Sph)} (hne : clumps ≠ []) {P : Nat → List Sph → List ClumpInfo → Prop}
    (hsafe : ∀ (nGen : Nat) pack infos c g, c ∈ clumps → P nGen pack infos → ((nGen : Int) < num ∨ num < 0) →
      ∃ b, collides mn mx cell periodic pack infos (placed c (randomOri g) (randomPos mn mx g)) (randomPos mn mx g) (boundRad c) = .ok b)
    (hstep : ∀ (nGen : Nat) pack infos c g, c ∈ clumps → P nGen pack infos →
      P (nGen + 1) (pack ++ (placed c (randomOri g) (randomPos mn mx g)).map fun s => { s with clumpId := nGen })
        (infos ++ [⟨nGen, randomPos mn mx g, boundRad c, pack.length, pack.length + (placed c (randomOri g) (randomPos mn mx g)).length⟩]))
    {n nGen : Nat} {pack : List Sph} {infos : List ClumpInfo} {g : Rnd} (hg : Good g) (h0 : P nGen pack infos) :
    clumpLoop mn mx cell periodic num clumps n nGen pack infos g = none ∨
    ∃ r, clumpLoop mn mx cell periodic num clumps n nGen pack infos g = some (.ok r) := by
  induction n generalizing nGen pack infos g with
  | zero => left; rfl
  | succ n ih =>
    rw [clumpLoop]
    by_cases hl : (nGen : Int) < num ∨ num < 0
    · rw [if_pos hl]
      have hlt : ⌊g 0 * ((clumps.length : ℝ) - 1e-20)⌋.toNat < clumps.length := by
        have hlen : 0 < clumps.length := List.length_pos_of_ne_nil hne
        have hl1 : (1 : ℝ) ≤ clumps.length := by exact_mod_cast hlen
        obtain ⟨g0, g1⟩ := hg 0
        have : ⌊g 0 * ((clumps.length : ℝ) - 1e-20)⌋ < (clumps.length : Int) := by
          rw [Int.floor_lt]
          push_cast
          have h1 : g 0 * ((clumps.length : ℝ) - 1e-20) ≤ g 0 * clumps.length := mul_le_mul_of_nonneg_left (by norm_num) g0
          have h2 : g 0 * (clumps.length : ℝ) < clumps.length := by nlinarith
          linarith
        have h0 : 0 ≤ ⌊g 0 * ((clumps.length : ℝ) - 1e-20)⌋ := Int.floor_nonneg.mpr (mul_nonneg g0 (by norm_num; linarith))
        omega
      have hch : choice clumps (g 0) = some clumps[⌊g 0 * ((clumps.length : ℝ) - 1e-20)⌋.toNat] := by
        rw [choice, List.getElem?_eq_getElem hlt]
      rw [hch]
      have hm : clumps[⌊g 0 * ((clumps.length : ℝ) - 1e-20)⌋.toNat] ∈ clumps := List.getElem_mem _
      revert hm
      generalize clumps[⌊g 0 * ((clumps.length : ℝ) - 1e-20)⌋.toNat] = c
      intro hm
      have htry : ∀ (t : Nat) (g : Rnd), ∃ r, tryClump mn mx cell periodic pack infos c t g = .ok r := by
        intro t
        induction t with
        | zero => exact fun g => ⟨_, rfl⟩
        | succ t iht =>
          intro g
          obtain ⟨b, hb⟩ := hsafe nGen pack infos c g hm h0 hl
          rw [tryClump, hb, Res.bind_ok]
          cases b with
          | true => simpa using iht (skip 7 g)
          | false => simp
      obtain ⟨⟨o, g1⟩, ht⟩ := htry clumpTries (skip 1 g)
      have hs := tryClump_spec (hg.skip 1) ht
      simp only [ht]
      rcases o with _ | ⟨C, pos⟩
      · right; exact ⟨_, rfl⟩
      · obtain ⟨g0, -, rfl, rfl, -⟩ := hs.2 C pos rfl
        exact ih hs.1 (hstep nGen pack infos c g0 hm h0)
    · rw [if_neg hl]
      right; exact ⟨_, rfl⟩

/-- C159, first half: if at most one clump is asked for and clumps are given, nothing is read outside of vectors, and the call returns. -/
theorem C159_one_partial {mn mx : V3} {temps : List SpherePack} {periodic : Bool} {num : Int} {sp : SpherePack} {g : Rnd}
    (hg : Good g) (hne : temps ≠ []) (h0 : 0 ≤ num) (h1 : num ≤ 1) :
    ∃ n r, makeClumpCloud n mn mx temps periodic num sp g = some (.ok r) := by
  refine ⟨num.toNat + 1, ?_⟩
  rw [makeClumpCloud]
  simp only
  generalize (if periodic then { sp with cellSize := mx - mn } else sp : SpherePack) = sp0
  have hn : num < ((0 : Nat) : Int) + (num.toNat + 1 : Nat) := by push_cast; omega
  rcases loop_ends (mn := mn) (mx := mx) (cell := sp0.cellSize) (periodic := periodic) h0
    (clumps := temps.map recentered) hn (pack := sp0.pack) (infos := []) (g := g) with h | h
  · rcases clump_safe (mn := mn) (mx := mx) (cell := sp0.cellSize) (periodic := periodic) (num := num)
      (clumps := temps.map recentered) (by simpa using hne) (P := fun nGen _ infos => nGen = 0 → infos = [])
      (by
        intro nGen pack infos c g _ hP hl
        have : nGen = 0 := by omega
        rw [hP this, collides]
        split_ifs
        · exact ⟨_, rfl⟩
        · exact ⟨_, rfl⟩)
      (by intro nGen pack infos c g _ _ h; omega) (n := num.toNat + 1) hg (fun _ => rfl)
      (pack := sp0.pack) with h' | ⟨r, hr⟩
    · exact absurd h' h
    · rw [hr]
      exact ⟨_, rfl⟩
  · omega

/-- C159, second half: if every given clump is one sphere centred at the origin, nothing is read outside of vectors and the call returns,
however many are asked for. -/
theorem C159_balls_partial {mn mx : V3} {temps : List SpherePack} {periodic : Bool} {num : Int} {sp : SpherePack} {g : Rnd}
    (hg : Good g) (hne : temps ≠ []) (h0 : 0 ≤ num) (hb : ∀ t ∈ temps, ∃ s : Sph, t.pack = [s] ∧ s.c = 0 ∧ 0 ≤ s.r) :
    ∃ n r, makeClumpCloud n mn mx temps periodic num sp g = some (.ok r) := by
  have hball : ∀ c ∈ temps.map recentered, ∃ s : Sph, c = [s] ∧ s.c = 0 ∧ 0 ≤ s.r := by
    intro c hc
    obtain ⟨t, ht, rfl⟩ := List.mem_map.mp hc
    obtain ⟨s, hs, hs0, hr⟩ := hb t ht
    have hm : midPt [s] = 0 := by
      have := midPt_ball s.c s.r
      rw [hs0] at this
      rw [← this]
      simp only [midPt, packBox, List.foldl_nil, hs0]
    refine ⟨s, ?_, hs0, hr⟩
    simp [recentered, translate, hs, hm]
  have hrad : ∀ s : Sph, s.c = 0 → 0 ≤ s.r → boundRad [s] = s.r := by
    intro s hs hr
    have hz : norm3 (0 : V3) = 0 := by simp [norm3, sqNorm, dot]
    simp only [boundRad, List.foldl_cons, List.foldl_nil, hs, hz, zero_add]
    exact max_eq_right hr
  have hplaced : ∀ (s : Sph) (q : Quat) (pos : V3), s.c = 0 → placed [s] q pos = [{ s with c := pos }] := by
    intro s q pos hs
    rw [placed_eq]
    simp [hs, rot_zero_vec]
  refine ⟨num.toNat + 1, ?_⟩
  rw [makeClumpCloud]
  simp only
  generalize hcell : (if periodic then { sp with cellSize := mx - mn } else sp : SpherePack) = sp0
  have hn : num < ((0 : Nat) : Int) + (num.toNat + 1 : Nat) := by push_cast; omega
  rcases loop_ends (mn := mn) (mx := mx) (cell := sp0.cellSize) (periodic := periodic) h0
    (clumps := temps.map recentered) hn (pack := sp0.pack) (infos := []) (g := g) with h | h
  · rcases clump_safe (mn := mn) (mx := mx) (cell := sp0.cellSize) (periodic := periodic) (num := num)
      (clumps := temps.map recentered) (by simpa using hne)
      (P := fun _ pack infos => ∀ i ∈ infos, ∃ p, pack[i.minId]? = some p ∧ p.c = i.center ∧ p.r = i.rad ∧ i.maxId = i.minId + 1)
      (by
        intro nGen pack infos c g hc hP _
        obtain ⟨s, rfl, hs, hr⟩ := hball c hc
        rw [hplaced s _ _ hs, hrad s hs hr, collides]
        split_ifs
        · exact ⟨_, rfl⟩
        · clear h
          induction infos with
          | nil => exact ⟨_, rfl⟩
          | cons i infos ih =>
            obtain ⟨p, hp, hpc, hpr, hmax⟩ := hP i (by simp)
            obtain ⟨b, hb'⟩ := ih (fun j hj => hP j (by simp [hj]))
            rw [scanClumps]
            by_cases hcl : closer (distSq periodic sp0.cellSize (randomPos mn mx g) i.center) (s.r + i.rad)
            · refine ⟨true, ?_⟩
              rw [if_pos ⟨hcl, _, List.mem_singleton_self _, hcl⟩]
              have e : List.range' i.minId (i.maxId + 1 - i.minId) = i.minId :: List.range' (i.minId + 1) 1 := by
                rw [show i.maxId + 1 - i.minId = 2 by omega]
                rfl
              rw [e, scanMembers, scanIds, hp]
              simp only [hpc, hpr, if_pos hcl, Res.bind_ok, if_true]
            · refine ⟨b, ?_⟩
              rw [if_neg (fun hh => hcl hh.1), Res.bind_ok]
              simpa using hb')
      (by
        intro nGen pack infos c g hc hP i hi
        obtain ⟨s, rfl, hs, hr⟩ := hball c hc
        rcases List.mem_append.mp hi with hi | hi
        · obtain ⟨p, hp, h'⟩ := hP i hi
          refine ⟨p, ?_, h'⟩
          rw [List.getElem?_append_left (List.getElem?_eq_some_iff.mp hp).1]
          exact hp
        · rw [List.mem_singleton] at hi
          subst hi
          rw [hplaced s _ _ hs, hrad s hs hr]
          exact ⟨{ s with c := randomPos mn mx g, clumpId := nGen }, by simp, rfl, rfl, rfl⟩)
      (n := num.toNat + 1) hg (nGen := 0) (by simp) (pack := sp0.pack) (infos := []) with h' | ⟨r, hr⟩
    · exact absurd h' h
    · rw [hr]
      exact ⟨_, rfl⟩
  · omega

example : Good halves ∧ ∀ t ∈ [ballAt 0 0.25, ballAt 0 0.5], ∃ s : Sph, t.pack = [s] ∧ s.c = 0 ∧ 0 ≤ s.r := by
  refine ⟨halves_good, ?_⟩
  intro t ht
  simp only [List.mem_cons, List.not_mem_nil, or_false] at ht
  rcases ht with rfl | rfl
  · exact ⟨_, rfl, rfl, by norm_num⟩
  · exact ⟨_, rfl, rfl, by norm_num⟩

/-- C159 is violated without clumps to choose from: a clump is read nevertheless. -/
theorem C159_violated_none (n : Nat) (mn mx : V3) (periodic : Bool) (sp : SpherePack) (g : Rnd) :
    makeClumpCloud (n + 1) mn mx [] periodic 1 sp g = some .ub := by
  rw [makeClumpCloud]
  simp only [List.map_nil]
  rw [clumpLoop, if_pos (show ((0 : Nat) : Int) < 1 ∨ (1 : Int) < 0 by left; norm_num)]
  simp [choice, Res.bind]

/-- A dumb-bell: two small balls. -/
noncomputable def dumbbell : SpherePack := ⟨[{ c := ![1, 0, 0], r := 1 / 10 }, { c := ![-1, 0, 0], r := 1 / 10 }], 0, 1, false⟩

theorem dumbbell_mid : midPt dumbbell.pack = 0 := by
  funext i
  fin_cases i <;>
    simp only [midPt, dumbbell, packBox, List.foldl_cons, List.foldl_nil, Pi.smul_apply, Pi.add_apply, smul_eq_mul] <;>
    norm_num

theorem dumbbell_recentered : recentered dumbbell = dumbbell.pack := by
  rw [recentered, dumbbell_mid]
  simp [translate]

theorem dumbbell_rad : boundRad dumbbell.pack = 11 / 10 := by
  have n1 : norm3 ![1, 0, 0] = 1 := norm3_val (by norm_num) (by simp [sqNorm, dot])
  have n2 : norm3 ![-1, 0, 0] = 1 := norm3_val (by norm_num) (by simp [sqNorm, dot])
  simp only [boundRad, dumbbell, List.foldl_cons, List.foldl_nil, n1, n2]
  norm_num

/-- Random numbers that put two dumb-bells beside each other: the first in the middle, the second a little off. -/
noncomputable def beside : Rnd := fun n => if n = 1 ∨ n = 2 ∨ n = 3 ∨ n = 9 ∨ n = 11 then 1 / 2 else if n = 10 then 53 / 100 else if n = 4 ∨ n = 12 then 1 / 2 else 0

theorem beside_good : Good beside := by
  intro n
  simp only [beside]
  split_ifs <;> norm_num

theorem ori_one {g : Rnd} (h3 : g 3 = 1 / 2) (h4 : g 4 = 0) (h5 : g 5 = 0) (h6 : g 6 = 0) (v : V3) : (randomOri g).rot v = v := by
  have : randomOri g = Quat.one := by
    have hs : Real.sqrt (1 / 4 : ℝ) = 1 / 2 := by
      rw [show (1 / 4 : ℝ) = (1 / 2) ^ 2 by norm_num, Real.sqrt_sq (by norm_num)]
    simp only [randomOri, Quat.normalize, Quat.sqNorm, h3, h4, h5, h6, Quat.one]
    norm_num [hs]
  rw [this, rot_one]

/-- C159 is violated by clumps that come near each other without touching: after the last sphere of the last clump, one more sphere
is read that is not there. -/
theorem C159_violated_beyond : ∃ g, Good g ∧ ∀ (n : Nat) (periodic : Bool), periodic = false →
    makeClumpCloud (n + 2) (fun _ => -5) (fun _ => 5) [dumbbell] periodic 2 ⟨[], 0, 1, false⟩ g = some .ub := by
  refine ⟨beside, beside_good, ?_⟩
  rintro n _ rfl
  set mn : V3 := fun _ => -5 with hmn
  set mx : V3 := fun _ => 5 with hmx
  have p1 : randomPos mn mx (skip 1 beside) = 0 := by
    funext i
    fin_cases i <;> simp [randomPos, skip, beside, hmn, hmx] <;> norm_num
  have p2 : randomPos mn mx (skip 1 (skip 7 (skip 1 beside))) = ![0, 3 / 10, 0] := by
    funext i
    fin_cases i <;> simp [randomPos, skip, beside, hmn, hmx] <;> norm_num
  have o1 : ∀ v, (randomOri (skip 1 beside)).rot v = v := ori_one (by simp [skip, beside]) (by simp [skip, beside]) (by simp [skip, beside]) (by simp [skip, beside])
  have o2 : ∀ v, (randomOri (skip 1 (skip 7 (skip 1 beside)))).rot v = v :=
    ori_one (by simp [skip, beside]) (by simp [skip, beside]) (by simp [skip, beside]) (by simp [skip, beside])
  have e1 : placed dumbbell.pack (randomOri (skip 1 beside)) 0 = dumbbell.pack := by
    rw [placed_eq]
    simp [o1]
  have e2 : placed dumbbell.pack (randomOri (skip 1 (skip 7 (skip 1 beside)))) ![0, 3 / 10, 0] =
      [{ c := ![1, 3 / 10, 0], r := 1 / 10 }, { c := ![-1, 3 / 10, 0], r := 1 / 10 }] := by
    rw [placed_eq]
    simp [o2, dumbbell]
  rw [makeClumpCloud]
  simp only [List.map_cons, List.map_nil, dumbbell_recentered, Bool.false_eq_true, if_false]
  rw [round_ok (c := dumbbell.pack) (by left; norm_num) (choice_single _ (beside_good 0).1 (beside_good 0).2)]
  · rw [p1, e1, dumbbell_rad]
    rw [clumpLoop, if_pos (by left; norm_num), choice_single _ ((beside_good.skip 1).skip 7 0).1 ((beside_good.skip 1).skip 7 0).2]
    have : ∀ pack, pack = dumbbell.pack.map (fun s => { s with clumpId := 0 }) →
        collides mn mx 0 false pack [⟨0, 0, 11 / 10, 0, 2⟩]
          [{ c := ![1, 3 / 10, 0], r := 1 / 10 }, { c := ![-1, 3 / 10, 0], r := 1 / 10 }] ![0, 3 / 10, 0] (11 / 10) = .ub := by
      rintro _ rfl
      rw [collides, if_neg, scanClumps, if_pos]
      · have hr : List.range' 0 (2 + 1 - 0) = [0, 1, 2] := rfl
        simp only [hr, scanMembers, scanIds, dumbbell, List.map_cons, List.map_nil, List.getElem?_cons_zero, List.getElem?_cons_succ, List.getElem?_nil]
        rw [if_neg, if_neg]
        · rfl
        · simp [closer, distSq, sqNorm, dot]; norm_num
        · simp [closer, distSq, sqNorm, dot]; norm_num
      · refine ⟨?_, _, List.mem_cons_self, ?_⟩
        · simp [closer, distSq, sqNorm, dot]; norm_num
        · simp [closer, distSq, sqNorm, dot]; norm_num
      · rintro ⟨-, ⟨i, hi⟩, -⟩
        simp only [hmn, hmx] at hi
        fin_cases i <;> simp at hi <;> norm_num at hi
    have ht : tryClump mn mx 0 false ([] ++ dumbbell.pack.map fun s => { s with clumpId := ((0 : Nat) : Int) })
        ([] ++ [⟨((0 : Nat) : Int), 0, 11 / 10, ([] : List Sph).length, ([] : List Sph).length + dumbbell.pack.length⟩]) dumbbell.pack clumpTries
        (skip 1 (skip 7 (skip 1 beside))) = .ub := by
      rw [clumpTries, tryClump]
      simp only [p2, e2, dumbbell_rad]
      have := this _ rfl
      simp only [dumbbell] at this ⊢
      simp only [List.nil_append, List.length_nil, List.length_cons, zero_add, Nat.cast_zero]
      rw [this]
      rfl
    simp only [ht]
    rfl
  · rw [p1, collides, if_neg, scanClumps]
    rintro ⟨-, ⟨i, hi⟩, -⟩
    rw [dumbbell_rad] at hi
    simp only [hmn, hmx, Pi.zero_apply] at hi
    norm_num at hi

end Verif.Pack
