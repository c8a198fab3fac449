import Verif.Pack.ClumpInv
import Verif.Pack.SimProps
import Verif.Pack.PadProps

/-!
# Properties of random packings of clumps: C156-C160

The specifications are `shifts`, `ApartIn`, `RigidCopy` and `PutAt` of `ClumpLemmas` (which do not speak of
the code), and `getClumps`, which has its own specification in C149.
-/
namespace Verif.Pack
open Verif.Mech
open scoped Classical

/-! ## Single rounds -/

/-- A generator that gives 1/2 for ever. -/
noncomputable def halves : Rnd := fun _ => 1 / 2

theorem halves_good : Good halves := fun _ => by simp only [halves]; norm_num

theorem choice_single (c : List Sph) {x : ℝ} (h0 : 0 ≤ x) (h1 : x < 1) : choice [c] x = some c := by
  have : ⌊x * ((([c] : List (List Sph)).length : ℝ) - 1e-20)⌋ = 0 := by
    rw [Int.floor_eq_zero_iff]
    simp only [List.length_singleton, Nat.cast_one]
    constructor
    · exact mul_nonneg h0 (by norm_num)
    · nlinarith
  rw [choice, this]
  rfl

/-- A round in which the first try succeeds. -/
theorem round_ok {mn mx cell : V3} {periodic : Bool} {num : Int} {clumps : List (List Sph)} {n nGen : Nat} {pack : List Sph} {infos : List ClumpInfo}
    {g : Rnd} {c : List Sph} (hn : (nGen : Int) < num ∨ num < 0) (hc : choice clumps (g 0) = some c)
    (h : collides mn mx cell periodic pack infos (placed c (randomOri (skip 1 g)) (randomPos mn mx (skip 1 g))) (randomPos mn mx (skip 1 g)) (boundRad c) = .ok false) :
    clumpLoop mn mx cell periodic num clumps (n + 1) nGen pack infos g =
      clumpLoop mn mx cell periodic num clumps n (nGen + 1)
        (pack ++ (placed c (randomOri (skip 1 g)) (randomPos mn mx (skip 1 g))).map fun s => { s with clumpId := nGen })
        (infos ++ [⟨nGen, randomPos mn mx (skip 1 g), boundRad c, pack.length,
          pack.length + (placed c (randomOri (skip 1 g)) (randomPos mn mx (skip 1 g))).length⟩]) (skip 7 (skip 1 g)) := by
  rw [clumpLoop, if_pos hn, hc]
  have : tryClump mn mx cell periodic pack infos c clumpTries (skip 1 g) =
      .ok (some (placed c (randomOri (skip 1 g)) (randomPos mn mx (skip 1 g)), randomPos mn mx (skip 1 g)), skip 7 (skip 1 g)) := by
    rw [clumpTries, tryClump, h]
    rfl
  simp only [this]

theorem clump_loop_end {mn mx cell : V3} {periodic : Bool} {num : Int} {clumps : List (List Sph)} {n nGen : Nat} {pack : List Sph} {infos : List ClumpInfo}
    {g : Rnd} (hn : ¬ ((nGen : Int) < num ∨ num < 0)) : clumpLoop mn mx cell periodic num clumps (n + 1) nGen pack infos g = some (.ok (pack, nGen, g)) := by
  rw [clumpLoop, if_neg hn]

/-- A ball round the origin. -/
def ballAt (c : V3) (r : ℝ) : SpherePack := ⟨[{ c := c, r := r }], 0, 1, false⟩

theorem midPt_ball (c : V3) (r : ℝ) : midPt [{ c := c, r := r }] = c := by
  funext i
  simp only [midPt, packBox, List.foldl_nil, Pi.smul_apply, Pi.add_apply, smul_eq_mul]
  ring

theorem rot_zero_vec (q : Quat) : q.rot 0 = 0 := by
  have := Quat.rot_sub q 0 0
  simpa using this

theorem recentered_ball (c : V3) (r : ℝ) : recentered (ballAt c r) = [{ c := c + c, r := r }] := by
  simp [recentered, ballAt, translate, midPt_ball]

theorem placed_ball (r : ℝ) (q : Quat) (pos : V3) : placed [{ c := (0 : V3), r := r }] q pos = [{ c := pos, r := r }] := by
  rw [placed_eq]
  simp [rot_zero_vec]

theorem recentered_ball_zero (r : ℝ) : recentered (ballAt 0 r) = [{ c := 0, r := r }] := by
  rw [recentered_ball, add_zero]

/-- One ball put into a box, with a generator that gives 1/2. -/
theorem one_ball {mn mx : V3} {periodic : Bool} {r : ℝ} (n : Nat) (sp : SpherePack)
    (h : periodic = true ∨ ∀ i, mn i ≤ (mn i + mx i) / 2 - r ∧ (mn i + mx i) / 2 + r ≤ mx i) :
    ∃ g', makeClumpCloud (n + 2) mn mx [ballAt 0 r] periodic 1 sp halves =
      some (.ok ({ (if periodic then { sp with cellSize := mx - mn } else sp) with
        pack := sp.pack ++ [{ c := fun i => (mn i + mx i) / 2, r := r, clumpId := 0 }] }, 1, g')) := by
  have hpos : randomPos mn mx (skip 1 halves) = fun i => (mn i + mx i) / 2 := by
    funext i
    simp only [randomPos, skip, halves]
    ring
  refine ⟨skip 7 (skip 1 halves), ?_⟩
  rw [makeClumpCloud]
  simp only [List.map_cons, List.map_nil, recentered_ball_zero]
  rw [round_ok (c := [{ c := 0, r := r }]) (by left; norm_num) (choice_single _ (by norm_num [halves]) (by norm_num [halves]))]
  · rw [clump_loop_end (by norm_num)]
    rw [placed_ball, hpos]
    cases periodic <;> rfl
  · rw [placed_ball, hpos, collides, if_neg, scanClumps]
    rintro ⟨hp, -, s, hs, i, hi⟩
    rw [List.mem_singleton] at hs
    subst hs
    rcases h with h | h
    · exact hp h
    · have := h i
      simp only at hi
      rcases hi with hi | hi <;> linarith

/-! ## C156: clumps do not overlap -/

/-- C156, first half: spheres of different new clumps do not overlap; in a periodic cell, no images of them do. -/
theorem C156_apart_partial {n : Nat} {mn mx : V3} {temps : List SpherePack} {periodic : Bool} {num : Int} {sp sp' : SpherePack} {g g' : Rnd} {k : Nat}
    (hg : Good g) (hbox : periodic = true → ∀ a, mn a < mx a) (hr : ∀ c ∈ temps, ∀ s ∈ c.pack, 0 ≤ s.r)
    (h : makeClumpCloud n mn mx temps periodic num sp g = some (.ok (sp', k, g'))) :
    ∃ new, sp'.pack = sp.pack ++ new ∧ ∀ (i j : Nat) (s t : Sph), new[i]? = some s → new[j]? = some t → s.clumpId < t.clumpId →
      ApartIn periodic (mx - mn) s t := by
  obtain ⟨infos, gs, hP⟩ := cloud_clumped hg hbox hr h
  refine ⟨_, hP.pack_, ?_⟩
  intro i j s t hs ht hlt
  have hs := List.mem_of_getElem? hs
  have ht := List.mem_of_getElem? ht
  simp only [List.mem_flatten, List.mem_map, exists_exists_and_eq_and] at hs ht
  obtain ⟨x, hx, hsx⟩ := hs
  obtain ⟨y, hy, hty⟩ := ht
  obtain ⟨a, ha, rfl⟩ := List.mem_iff_getElem.mp hx
  obtain ⟨b, hb, rfl⟩ := List.mem_iff_getElem.mp hy
  have e1 := hP.ids a _ (List.getElem?_eq_getElem ha) s hsx
  have e2 := hP.ids b _ (List.getElem?_eq_getElem hb) t hty
  exact List.pairwise_iff_getElem.mp hP.apart_ a b ha hb (by omega) s hsx t hty

/-- A ball is put into a box and into a periodic cell. -/
example : (∃ sp' g', makeClumpCloud 2 0 1 [ballAt 0 0.25] false 1 (ballAt 3 1) halves = some (.ok (sp', 1, g'))) ∧
    ∃ sp' g', makeClumpCloud 2 0 1 [ballAt 0 0.25] true 1 (ballAt 3 1) halves = some (.ok (sp', 1, g')) := by
  constructor
  · obtain ⟨g', h⟩ := one_ball (mn := 0) (mx := 1) (periodic := false) (r := 0.25) 0 (ballAt 3 1) (by right; intro i; norm_num)
    exact ⟨_, _, h⟩
  · obtain ⟨g', h⟩ := one_ball (mn := 0) (mx := 1) (periodic := true) (r := 0.25) 0 (ballAt 3 1) (by left; rfl)
    exact ⟨_, _, h⟩

/-- C156 is violated by spheres that are in the packing already: new ones are put right onto them. -/
theorem C156_violated_earlier : ∃ (sp : SpherePack) (n : Nat) (g : Rnd), Good g ∧ ∃ sp' k g' s t,
    makeClumpCloud n 0 1 [ballAt 0 0.25] false 1 sp g = some (.ok (sp', k, g')) ∧
    sp'.pack = [s, t] ∧ s.c = t.c ∧ s.r = 0.25 ∧ t.r = 0.25 := by
  obtain ⟨g', h⟩ := one_ball (mn := 0) (mx := 1) (periodic := false) (r := 0.25) 0 (ballAt (fun _ => 1 / 2) 0.25) (by right; intro i; norm_num)
  refine ⟨ballAt (fun _ => 1 / 2) 0.25, _, _, halves_good, _, _, _, _, _, h, rfl, ?_, rfl, rfl⟩
  funext i
  norm_num

/-- C156 is violated by clumps and their own images: a clump larger than the cell is put into it. -/
theorem C156_violated_images : ∃ (n : Nat) (g : Rnd), Good g ∧ ∃ sp' k g' s v,
    makeClumpCloud n 0 1 [ballAt 0 1] true 1 ⟨[], 0, 1, false⟩ g = some (.ok (sp', k, g')) ∧
    sp'.pack = [s] ∧ s.r = 1 ∧ v ∈ shifts true (1 - 0) ∧ v ≠ 0 ∧ norm3 (s.c - s.c - v) < s.r + s.r := by
  obtain ⟨g', h⟩ := one_ball (mn := 0) (mx := 1) (periodic := true) (r := 1) 0 ⟨[], 0, 1, false⟩ (by left; rfl)
  refine ⟨_, _, halves_good, _, _, _, _, ![1, 0, 0], h, rfl, rfl, ?_, ?_, ?_⟩
  · simp only [shifts, if_true, Set.mem_setOf_eq]
    refine ⟨![1, 0, 0], ?_⟩
    intro a
    fin_cases a <;> simp
  · intro h
    simpa using congrFun h 0
  · rw [norm3_val (r := 1) (by norm_num) (by simp [sqNorm, dot])]
    norm_num

/-- C156 is violated in a flat periodic cell: distances are not numbers, and clumps are put onto each other. -/
theorem C156_violated_flat : ∃ (mx : V3) (n : Nat) (g : Rnd), Good g ∧ ∃ sp' k g' s t,
    makeClumpCloud n 0 mx [ballAt 0 0.25] true 2 ⟨[], 0, 1, false⟩ g = some (.ok (sp', k, g')) ∧
    sp'.pack = [s, t] ∧ s.clumpId ≠ t.clumpId ∧ s.c = t.c ∧ s.r = 0.25 ∧ t.r = 0.25 := by
  refine ⟨![1, 1, 0], 3, halves, halves_good, ?_⟩
  have flat : ∀ a b r, ¬ closer (distSq true (![1, 1, 0] - 0) a b) r := by
    intro a b r
    rw [distSq, if_pos rfl, periPtDistSq, if_pos ⟨2, by simp⟩]
    exact id
  have hcol : ∀ pack infos C pos rad, collides 0 ![1, 1, 0] (![1, 1, 0] - 0) true pack infos C pos rad = .ok false := by
    intro pack infos C pos rad
    rw [collides, if_neg (by simp)]
    induction infos with
    | nil => rfl
    | cons i infos ih =>
      rw [scanClumps, if_neg (fun h => flat _ _ _ h.1)]
      exact ih
  have hrun : makeClumpCloud 3 0 ![1, 1, 0] [ballAt 0 0.25] true 2 ⟨[], 0, 1, false⟩ halves =
      some (.ok (⟨[{ c := randomPos 0 ![1, 1, 0] halves, r := 0.25, clumpId := 0 }, { c := randomPos 0 ![1, 1, 0] halves, r := 0.25, clumpId := 1 }],
        ![1, 1, 0] - 0, 1, false⟩, 2, halves)) := by
    have sk : ∀ m, skip m halves = halves := fun m => rfl
    rw [makeClumpCloud]
    simp only [List.map_cons, List.map_nil, recentered_ball_zero, if_true]
    rw [round_ok (c := [{ c := 0, r := 0.25 }]) (by left; norm_num) (choice_single _ (by norm_num [halves]) (by norm_num [halves])) (hcol _ _ _ _ _)]
    simp only [sk]
    rw [round_ok (c := [{ c := 0, r := 0.25 }]) (by left; norm_num) (choice_single _ (by norm_num [halves]) (by norm_num [halves])) (hcol _ _ _ _ _)]
    simp only [sk]
    rw [clump_loop_end (by norm_num), placed_ball]
    rfl
  exact ⟨_, _, _, _, _, hrun, rfl, by norm_num, rfl, rfl, rfl⟩

/-! ## C157: clumps are inside of the box -/

/-- C157: without periodicity, every new sphere lies in the box. -/
theorem C157_inside {n : Nat} {mn mx : V3} {temps : List SpherePack} {num : Int} {sp sp' : SpherePack} {g g' : Rnd} {k : Nat}
    (hg : Good g) (hr : ∀ c ∈ temps, ∀ s ∈ c.pack, 0 ≤ s.r)
    (h : makeClumpCloud n mn mx temps false num sp g = some (.ok (sp', k, g'))) :
    ∃ new, sp'.pack = sp.pack ++ new ∧ ∀ s ∈ new, ∀ x : V3, norm3 (x - s.c) ≤ s.r → ∀ i, mn i ≤ x i ∧ x i ≤ mx i := by
  obtain ⟨infos, gs, hP⟩ := cloud_clumped hg (by simp) hr h
  refine ⟨_, hP.pack_, ?_⟩
  intro s hs x hx i
  simp only [List.mem_flatten, List.mem_map, exists_exists_and_eq_and] at hs
  obtain ⟨y, hy, hs⟩ := hs
  have := hP.box rfl y hy s hs i
  have hc := comp_le (x - s.c) i
  rw [Pi.sub_apply, abs_le] at hc
  constructor <;> linarith [hc.1, hc.2, this.1, this.2]

example : ∃ sp' g', makeClumpCloud 2 0 1 [ballAt 0 0.25] false 1 (ballAt 3 1) halves = some (.ok (sp', 1, g')) := by
  obtain ⟨g', h⟩ := one_ball (mn := 0) (mx := 1) (periodic := false) (r := 0.25) 0 (ballAt 3 1) (by right; intro i; norm_num)
  exact ⟨_, _, h⟩

/-! ## C158: new clumps are copies of the given ones -/

/-- C158, first half: what is added is as many groups of spheres as the number returned, at most as many as
asked for; each is a given clump moved as a rigid body, and bears its number as id. -/
theorem C158_copies_partial {n : Nat} {mn mx : V3} {temps : List SpherePack} {periodic : Bool} {num : Int} {sp sp' : SpherePack} {g g' : Rnd} {k : Nat}
    (hg : Good g) (hbox : periodic = true → ∀ a, mn a < mx a) (hr : ∀ c ∈ temps, ∀ s ∈ c.pack, 0 ≤ s.r)
    (h : makeClumpCloud n mn mx temps periodic num sp g = some (.ok (sp', k, g'))) :
    (0 ≤ num → (k : Int) ≤ num) ∧
    ∃ groups : List (List Sph), groups.length = k ∧ sp'.pack = sp.pack ++ groups.flatten ∧ (∀ G ∈ groups, ∃ c ∈ temps, RigidCopy c.pack G) ∧
      ∀ (j : Nat) (G : List Sph), groups[j]? = some G → ∀ s ∈ G, s.clumpId = j := by
  obtain ⟨infos, gs, hP⟩ := cloud_clumped hg hbox hr h
  refine ⟨hP.num_, gs.map Prod.snd, by rw [List.length_map, hP.len], hP.pack_, ?_, ?_⟩
  · intro G hG
    obtain ⟨x, hx, rfl⟩ := List.mem_map.mp hG
    obtain ⟨c, hc, hcopy⟩ := hP.copy_ x hx
    obtain ⟨t, ht, rfl⟩ := List.mem_map.mp hc
    exact ⟨t, ht, hcopy⟩
  · intro j G hj
    rw [List.getElem?_map, Option.map_eq_some_iff] at hj
    obtain ⟨x, hx, rfl⟩ := hj
    exact hP.ids j x hx

/-- C158 is violated by packings that have clumps: ids begin with zero again, and a second call makes one clump of
an old one and a new one. -/
theorem C158_violated : ∃ (mn mx : V3) (n : Nat) (g : Rnd), Good g ∧ ∃ sp1 g1 sp2 g2,
    makeClumpCloud n 0 1 [ballAt 0 0.25] false 1 ⟨[], 0, 1, false⟩ g = some (.ok (sp1, 1, g1)) ∧
    makeClumpCloud n mn mx [ballAt 0 0.25] false 1 sp1 g = some (.ok (sp2, 1, g2)) ∧
    (getClumps sp1.pack).2 = [[0]] ∧ (getClumps sp2.pack).2 = [[0, 1]] ∧
    ∃ s t, sp2.pack = [s, t] ∧ ApartIn false 0 s t := by
  obtain ⟨g1, h1⟩ := one_ball (mn := 0) (mx := 1) (periodic := false) (r := 0.25) 0 ⟨[], 0, 1, false⟩ (by right; intro i; norm_num)
  obtain ⟨g2, h2⟩ := one_ball (mn := 2) (mx := 3) (periodic := false) (r := 0.25) 0
    ⟨[{ c := fun i => ((0 : V3) i + (1 : V3) i) / 2, r := 0.25, clumpId := 0 }], 0, 1, false⟩ (by right; intro i; norm_num)
  refine ⟨2, 3, _, _, halves_good, _, _, _, _, h1, h2, by simp [getClumps, clumpsFrom, addTo], by simp [getClumps, clumpsFrom, addTo], _, _, rfl, ?_⟩
  intro v hv
  simp only [shifts, Bool.false_eq_true, if_false, Set.mem_singleton_iff] at hv
  subst hv
  rw [norm3]
  apply Real.le_sqrt_of_sq_le
  simp only [sqNorm, dot, Pi.sub_apply, Pi.zero_apply, Pi.one_apply, Pi.ofNat_apply]
  norm_num

/-! ## C160: it does not matter where the given clumps lie -/

/-- C160, first half: if the box of every given clump is centred at the origin, clumps are put with the centre of
their box at a place in the box. -/
theorem C160_centred_partial {n : Nat} {mn mx : V3} {temps : List SpherePack} {periodic : Bool} {num : Int} {sp sp' : SpherePack} {g g' : Rnd} {k : Nat}
    (hg : Good g) (hbox : ∀ a, mn a < mx a) (hr : ∀ c ∈ temps, ∀ s ∈ c.pack, 0 ≤ s.r) (hmid : ∀ c ∈ temps, midPt c.pack = 0)
    (h : makeClumpCloud n mn mx temps periodic num sp g = some (.ok (sp', k, g'))) :
    ∃ groups : List (List Sph), groups.length = k ∧ sp'.pack = sp.pack ++ groups.flatten ∧ ∀ G ∈ groups, ∃ c ∈ temps,
      ∃ (q : Quat) (v : V3), q.sqNorm = 1 ∧ (∀ i, mn i ≤ v i ∧ v i ≤ mx i) ∧
        List.Forall₂ (fun s s' => s'.c = q.rot (s.c - midPt c.pack) + v ∧ s'.r = s.r) c.pack G := by
  obtain ⟨infos, gs, hP⟩ := cloud_clumped hg (fun _ => hbox) hr h
  refine ⟨gs.map Prod.snd, by rw [List.length_map, hP.len], hP.pack_, ?_⟩
  intro G hG
  obtain ⟨x, hx, rfl⟩ := List.mem_map.mp hG
  obtain ⟨c, hc, q, v, hq, hv, hf⟩ := hP.at_ (fun a => (hbox a).le) x hx
  obtain ⟨t, ht, rfl⟩ := List.mem_map.mp hc
  refine ⟨t, ht, q, v, hq, hv, ?_⟩
  simpa [hmid t ht] using hf

example : midPt (ballAt 0 0.25).pack = 0 := midPt_ball 0 0.25

theorem norm3_triple {a : ℝ} (ha : 0 ≤ a) : norm3 ![a, 0, 0] = a := norm3_val ha (by simp [sqNorm, dot, sq])

/-- The far ball is never inside of the box. -/
theorem far_never (t : Nat) {g : Rnd} (hg : Good g) (pack : List Sph) (cell : V3) :
    ∃ g', tryClump 0 1 cell false pack [] [{ c := ![20, 0, 0], r := 0.25 }] t g = .ok (none, g') := by
  induction t generalizing g with
  | zero => exact ⟨g, rfl⟩
  | succ t ih =>
    have hb : boundRad [{ c := ![20, 0, 0], r := 0.25 }] = 20.25 := by
      simp only [boundRad, List.foldl_cons, List.foldl_nil]
      rw [norm3_triple (by norm_num)]
      norm_num
    have hpos : ∀ i, 0 ≤ randomPos 0 1 g i ∧ randomPos 0 1 g i ≤ 1 := by
      intro i
      obtain ⟨g0, g1⟩ := hg i.val
      simp only [randomPos, Pi.one_apply, Pi.zero_apply]
      constructor <;> linarith
    have hcol : collides 0 1 cell false pack [] (placed [{ c := ![20, 0, 0], r := 0.25 }] (randomOri g) (randomPos 0 1 g)) (randomPos 0 1 g)
        (boundRad [{ c := ![20, 0, 0], r := 0.25 }]) = .ok true := by
      rw [collides, if_pos]
      refine ⟨by simp, ⟨0, ?_⟩, ?_⟩
      · left
        rw [hb]
        have := (hpos 0).1
        simp only [Pi.one_apply]
        linarith
      · obtain ⟨q, hq, hr⟩ := exists_unit ⟨g 3, g 4, g 5, g 6⟩
        rw [placed_eq]
        refine ⟨_, List.mem_map_of_mem (List.mem_singleton_self _), ?_⟩
        by_contra hno
        simp only [beyond, not_exists, not_or, not_lt, gt_iff_lt, Pi.one_apply, Pi.zero_apply, Pi.add_apply, randomOri, hr] at hno
        have hn : norm3 (q.rot ![20, 0, 0]) = 20 := by rw [norm3_rot hq, norm3_triple (by norm_num)]
        have hs : sqNorm (q.rot ![20, 0, 0]) = 400 := by rw [← norm3_sq, hn]; norm_num
        simp only [sqNorm, dot] at hs
        have b : ∀ i, (q.rot ![20, 0, 0] i) ^ 2 ≤ 1 := by
          intro i
          obtain ⟨h1, h2⟩ := hno i
          obtain ⟨p1, p2⟩ := hpos i
          have l1 : -1 ≤ q.rot ![20, 0, 0] i := by linarith
          have l2 : q.rot ![20, 0, 0] i ≤ 1 := by linarith
          nlinarith
        have b0 := b 0
        have b1 := b 1
        have b2 := b 2
        nlinarith [b0, b1, b2, hs]
    obtain ⟨g', h'⟩ := ih (hg.skip 7)
    refine ⟨g', ?_⟩
    rw [tryClump, hcol]
    exact h'

/-- C160 is violated by clumps elsewhere: they are moved away from the origin instead of to it.  A ball ten lengths of the
box away is never put into the box, whatever the random numbers; the same ball at the origin is. -/
theorem C160_violated : (∀ (n : Nat) (g : Rnd) (sp : SpherePack), Good g → ∃ g',
      makeClumpCloud (n + 1) 0 1 [ballAt ![10, 0, 0] 0.25] false 1 sp g = some (.ok (sp, 0, g'))) ∧
    (ballAt ![10, 0, 0] 0.25).pack = (translate ![10, 0, 0] (ballAt 0 0.25)).pack ∧
    ∃ (n : Nat) (g : Rnd) (sp' : SpherePack) (g' : Rnd), Good g ∧ makeClumpCloud n 0 1 [ballAt 0 0.25] false 1 (ballAt 3 1) g = some (.ok (sp', 1, g')) := by
  refine ⟨?_, by simp [ballAt, translate], ?_⟩
  · intro n g sp hg
    have hc : recentered (ballAt ![10, 0, 0] 0.25) = [{ c := ![20, 0, 0], r := 0.25 }] := by
      rw [recentered_ball]
      norm_num
    obtain ⟨g', h⟩ := far_never clumpTries (hg.skip 1) sp.pack sp.cellSize
    refine ⟨g', ?_⟩
    rw [makeClumpCloud]
    simp only [List.map_cons, List.map_nil, hc, Bool.false_eq_true, if_false]
    rw [clumpLoop, if_pos (by left; norm_num), choice_single _ (hg 0).1 (hg 0).2]
    simp only [h]
    rfl
  · obtain ⟨g', h⟩ := one_ball (mn := 0) (mx := 1) (periodic := false) (r := 0.25) 0 (ballAt 3 1) (by right; intro i; norm_num)
    exact ⟨_, _, _, _, halves_good, h⟩

/-! ## C151 and clumps -/

/-- C151 is violated by periodic packings of clumps: the simulation they are put into is not periodic. -/
theorem C151_violated_clumps (place : List Nat → V3) : ∃ (n : Nat) (g : Rnd) (sp' : SpherePack) (k : Nat) (g' : Rnd), Good g ∧
    makeClumpCloud n 0 1 [ballAt 0 0.25] true 1 ⟨[], 0, 1, false⟩ g = some (.ok (sp', k, g')) ∧
    sp'.cellSize = 1 ∧ (toSimulation place 1 sp' Sim.fresh).periodic = false := by
  obtain ⟨g', h⟩ := one_ball (mn := 0) (mx := 1) (periodic := true) (r := 0.25) 0 ⟨[], 0, 1, false⟩ (by left; rfl)
  refine ⟨_, _, _, _, _, halves_good, h, ?_, ?_⟩
  · simp
  · simp [toSimulation, setCell, Sim.fresh]

end Verif.Pack
