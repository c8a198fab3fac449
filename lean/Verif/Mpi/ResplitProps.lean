import Verif.Mpi.Resplit
import Verif.Stride.Props
/-!
# C114: contacts between bodies of different processes after a split
-/
namespace Verif.Mpi.Resplit
open Verif Verif.Mech Verif.Stride

/-! ## Helper lemmas -/

/-- what the dispatcher leaves for body `j` if it processes it in state `s` -/
structure Done (s s' : Scn) (j : Nat) (b : Bod) (bx : V3 × V3) : Prop where
  body : s'.w.bodies j = some { b with bound := some ⟨b.st.pos, newSweep s j b⟩ }
  last : s'.last j = s.iter
  box : s'.box j = swept bx (newSweep s j b)

/-- body `j` is left as it is -/
structure Kept (s s' : Scn) (j : Nat) : Prop where
  body : s'.w.bodies j = s.w.bodies j
  last : s'.last j = s.last j
  box : s'.box j = s.box j

theorem process_kept {id j : Nat} {s s' : Scn} (h : processBody id s = .ok s') (hj : j ≠ id ∨ s.bounded j = false) : Kept s s' j := by
  unfold processBody at h
  split at h
  · rename_i b sh hb hbo _
    have hne : j ≠ id := by
      rcases hj with hj | hj
      · exact hj
      · rintro rfl; rw [hbo] at hj; cases hj
    generalize shapeBox s.enlarge s.cell sh b.st = R at h
    rcases R with (_ | bx) | _ | _
    · injection h with h; subst h; exact ⟨rfl, rfl, rfl⟩
    · injection h with h; subst h; exact ⟨if_neg hne, if_neg hne, if_neg hne⟩
    · cases h
    · cases h
  · injection h with h; subst h; exact ⟨rfl, rfl, rfl⟩

theorem loop_cons {id : Nat} {ids : List Nat} {s s' : Scn} (h : boundLoop (id :: ids) s = .ok s') :
    ∃ s1, processBody id s = .ok s1 ∧ boundLoop ids s1 = .ok s' := by
  unfold boundLoop at h
  cases h1 : processBody id s with
  | throws => rw [h1] at h; cases h
  | ub => rw [h1] at h; cases h
  | ok s1 => rw [h1] at h; exact ⟨s1, rfl, h⟩

theorem loop_kept {ids : List Nat} {s s' : Scn} {j : Nat} (h : boundLoop ids s = .ok s') (hj : j ∉ ids ∨ s.bounded j = false) : Kept s s' j := by
  induction ids generalizing s with
  | nil => injection h with h; subst h; exact ⟨rfl, rfl, rfl⟩
  | cons id ids ih =>
    obtain ⟨s1, h1, h2⟩ := loop_cons h
    have k1 := process_kept (j := j) h1 (by
      rcases hj with hj | hj
      · exact Or.inl fun e => hj (by rw [e]; exact List.mem_cons_self)
      · exact Or.inr hj)
    have k2 := ih h2 (by
      rcases hj with hj | hj
      · exact Or.inl fun e => hj (List.mem_cons_of_mem _ e)
      · right; rw [(processBody_frame h1).1.rest]; exact hj)
    exact ⟨k2.body.trans k1.body, k2.last.trans k1.last, k2.box.trans k1.box⟩

theorem loop_frame {ids : List Nat} {s s' : Scn} (h : boundLoop ids s = .ok s') : BoundFrame s s' := by
  induction ids generalizing s with
  | nil => injection h with h; subst h; exact .refl s
  | cons id ids ih =>
    obtain ⟨s1, h1, h2⟩ := loop_cons h
    exact (processBody_frame h1).1.trans (ih h2)

theorem loop_done {ids : List Nat} {s s' : Scn} {j : Nat} {b : Bod} {sh : Shp} {bx : V3 × V3} (h : boundLoop ids s = .ok s') (hn : ids.Nodup)
    (hj : j ∈ ids) (hb : s.w.bodies j = some b) (hbo : s.bounded j = true) (hsh : s.shape j = some sh)
    (hbx : shapeBox s.enlarge s.cell sh b.st = .ok (some bx)) : Done s s' j b bx := by
  induction ids generalizing s with
  | nil => cases hj
  | cons id ids ih =>
    obtain ⟨s1, h1, h2⟩ := loop_cons h
    obtain ⟨hn1, hn2⟩ := List.nodup_cons.mp hn
    by_cases e : j = id
    · subst e
      have k := loop_kept h2 (Or.inl hn1)
      unfold processBody at h1
      rw [hb, hbo, hsh] at h1
      dsimp only at h1
      rw [hbx] at h1
      dsimp only at h1
      injection h1 with h1; subst h1
      exact ⟨k.body.trans (if_pos rfl), k.last.trans (if_pos rfl), k.box.trans (if_pos rfl)⟩
    · have k := process_kept h1 (Or.inl e)
      have hr := (processBody_frame h1).1.rest
      have hin : j ∈ ids := by
        rcases List.mem_cons.mp hj with hj | hj
        · exact absurd hj e
        · exact hj
      have d := ih h2 hn2 hin (k.body.trans hb) (by rw [hr]; exact hbo) (by rw [hr]; exact hsh) (by rw [hr]; exact hbx)
      have hsw : newSweep s1 j b = newSweep s j b := by
        unfold newSweep
        rw [k.last]
        rw [hr]
      have hit : s1.iter = s.iter := by rw [hr]
      exact ⟨by rw [← hsw]; exact d.body, by rw [← hit]; exact d.last, by rw [← hsw]; exact d.box⟩

/-- a run of the collider with a given Verlet distance -/
theorem action_loop {s s' : Scn} (h : colliderAction s = .ok s') (hv : 0 ≤ s.verletDist) :
    ∃ s1, boundLoop (List.range s.size) { s with doSort := false, nBB := s.size, dirty := false } = .ok s1 ∧
      s'.w = s1.w ∧ s'.last = s1.last ∧ s'.box = s1.box ∧ s'.iter = s.iter ∧ s'.size = s.size ∧ s'.bounded = s.bounded ∧ s'.shape = s.shape ∧
      s'.verletDist = s.verletDist ∧ s'.targetInterv = s.targetInterv ∧ s'.minSweepDistFactor = s.minSweepDistFactor ∧ s'.cell = s.cell ∧
      s'.enlarge = s.enlarge := by
  have hav : autoVerlet s = s.verletDist := by unfold autoVerlet; rw [if_neg (not_lt.mpr hv)]
  unfold colliderAction at h
  dsimp only at h
  rw [hav] at h
  cases h1 : boundLoop (List.range s.size) { s with doSort := false, nBB := s.size, dirty := false } with
  | throws => rw [h1] at h; cases h
  | ub => rw [h1] at h; cases h
  | ok s1 =>
    rw [h1] at h
    simp only [Res.bind_ok] at h
    have hr := (loop_frame h1).rest
    refine ⟨s1, rfl, ?_⟩
    split at h
    · split at h
      · injection h with h; subst h
        refine ⟨rfl, rfl, rfl, ?_, ?_, ?_, ?_, ?_, ?_, ?_, ?_, ?_⟩ <;> (dsimp only; rw [hr])
      · cases h
    · injection h with h; subst h
      refine ⟨rfl, rfl, rfl, ?_, ?_, ?_, ?_, ?_, ?_, ?_, ?_, ?_⟩ <;> rw [hr]

theorem split_parts {own near : Nat → Bool} {s s' : Scn} (h : splitRun own near s = .ok s') : ∃ s1 s2,
    boundLoop (List.range s.size) (unbound own s) = .ok s1 ∧ colliderAction s1 = .ok s2 ∧ colliderAction (eraseFar own near (rebound near s2)) = .ok s' := by
  unfold splitRun at h
  cases h1 : boundLoop (List.range s.size) (unbound own s) with
  | throws => rw [h1] at h; cases h
  | ub => rw [h1] at h; cases h
  | ok s1 =>
    rw [h1, Res.bind_ok] at h
    cases h2 : colliderAction s1 with
    | throws => rw [h2] at h; cases h
    | ub => rw [h2] at h; cases h
    | ok s2 => rw [h2, Res.bind_ok] at h; exact ⟨s1, s2, rfl, h2, h⟩

/-- a bound updated in the same iteration gets the whole Verlet distance -/
theorem sweep_again {s : Scn} {j : Nat} {b : Bod} {bd : BoundInfo} (hb : b.bound = some bd) (hl : s.last j = s.iter) : newSweep s j b = s.verletDist := by
  unfold newSweep
  rw [hb]
  dsimp only
  rw [if_neg (by rw [hl]; exact fun h => lt_irrefl _ h.2)]

/-- the margin of a bound that did not exist before -/
noncomputable def freshSweep (s : Scn) : ℝ :=
  if 0 ≤ s.targetInterv ∧ 0 < s.iter then max (s.minSweepDistFactor * s.verletDist) (min 0 s.verletDist) else s.verletDist

/-- the boxes of the own bodies of a process after the split -/
theorem own_after {own near : Nat → Bool} {s s' : Scn} (h : splitRun own near s = .ok s') (hv : 0 ≤ s.verletDist) {j : Nat} (hj : j < s.size)
    (ho : own j = true) {b : Bod} (hb : s.w.bodies j = some b) (hbo : s.bounded j = true) {sh : Shp} (hsh : s.shape j = some sh) {bx : V3 × V3}
    (hbx : shapeBox s.enlarge s.cell sh b.st = .ok (some bx)) :
    s'.w.bodies j = some { b with bound := some ⟨b.st.pos, s.verletDist⟩ } ∧ s'.box j = swept bx s.verletDist := by
  obtain ⟨s1, s2, h1, h2, h3⟩ := split_parts h
  have hr := (loop_frame h1).rest
  have hmem : j ∈ List.range s.size := List.mem_range.mpr hj
  have d1 := loop_done h1 List.nodup_range hmem (b := b) (by simp [unbound, ho, hb]) (by simp [unbound, ho, hbo]) (show (unbound own s).shape j = _ from hsh) hbx
  have hs1 : s1.size = s.size := by rw [hr]; rfl
  have hv1 : s1.verletDist = s.verletDist := by rw [hr]; rfl
  have hi1 : s1.iter = s.iter := by rw [hr]; rfl
  obtain ⟨t, g0, g1, g2, g3, g4, g5, g6, g7, g8, g9, g10, g11, g12⟩ := action_loop h2 (by rw [hv1]; exact hv)
  have d2 := loop_done g0 List.nodup_range (by rw [hs1]; exact hmem) (bx := bx) (sh := sh) d1.body (by show s1.bounded j = true; rw [hr]; simp [unbound, ho, hbo])
    (by show s1.shape j = _; rw [hr]; exact hsh) (by show shapeBox s1.enlarge s1.cell _ _ = _; rw [hr]; exact hbx)
  have hl2 : s2.last j = s2.iter := by rw [g2, d2.last, g4]
  obtain ⟨l, hb2⟩ : ∃ l, s2.w.bodies j = some { b with bound := some ⟨b.st.pos, l⟩ } := ⟨_, by rw [g1]; exact d2.body⟩
  obtain ⟨t', k0, k1, k2, k3, k4, k5, k6, k7, k8, k9, k10, k11, k12⟩ := action_loop h3 (by show 0 ≤ s2.verletDist; rw [g8, hv1]; exact hv)
  have d3 := loop_done k0 List.nodup_range (j := j) (by show j ∈ List.range s2.size; rw [g5, hs1]; exact hmem) (bx := bx) (sh := sh)
    (b := { b with bound := some ⟨b.st.pos, l⟩ })
    (by show (if own j || near j then s2.w.bodies j else none) = _; rw [ho, Bool.true_or, if_pos rfl, hb2])
    (by show (near j || s2.bounded j) = true; rw [g6, hr]; simp [unbound, ho, hbo])
    (by show s2.shape j = _; rw [g7, hr]; exact hsh) (by show shapeBox s2.enlarge s2.cell _ _ = _; rw [g12, g11, hr]; exact hbx)
  have hv3 : s2.verletDist = s.verletDist := g8.trans hv1
  have e1 := d3.body
  have e2 := d3.box
  have hsw : newSweep { eraseFar own near (rebound near s2) with doSort := false, nBB := (eraseFar own near (rebound near s2)).size, dirty := false } j
      { b with bound := some ⟨b.st.pos, l⟩ } = s.verletDist := by
    rw [sweep_again (bd := ⟨b.st.pos, l⟩) rfl (by exact hl2)]; exact hv3
  rw [hsw] at e1 e2
  rw [k1, k3]
  exact ⟨e1, e2⟩

/-- the boxes of remote bodies near those of the process -/
theorem remote_after {own near : Nat → Bool} {s s' : Scn} (h : splitRun own near s = .ok s') (hv : 0 ≤ s.verletDist) {j : Nat} (hj : j < s.size)
    (ho : own j = false) (hne : near j = true) {b : Bod} (hb : s.w.bodies j = some b) {sh : Shp} (hsh : s.shape j = some sh) {bx : V3 × V3}
    (hbx : shapeBox s.enlarge s.cell sh b.st = .ok (some bx)) :
    s'.w.bodies j = some { b with bound := some ⟨b.st.pos, freshSweep s⟩ } ∧ s'.box j = swept bx (freshSweep s) := by
  obtain ⟨s1, s2, h1, h2, h3⟩ := split_parts h
  have hr := (loop_frame h1).rest
  have hmem : j ∈ List.range s.size := List.mem_range.mpr hj
  have d1 := loop_kept (j := j) h1 (Or.inr (by simp [unbound, ho]))
  have hs1 : s1.size = s.size := by rw [hr]; rfl
  have hv1 : s1.verletDist = s.verletDist := by rw [hr]; rfl
  have hi1 : s1.iter = s.iter := by rw [hr]; rfl
  have ht1 : s1.targetInterv = s.targetInterv := by rw [hr]; rfl
  have hm1 : s1.minSweepDistFactor = s.minSweepDistFactor := by rw [hr]; rfl
  obtain ⟨t, g0, g1, g2, g3, g4, g5, g6, g7, g8, g9, g10, g11, g12⟩ := action_loop h2 (by rw [hv1]; exact hv)
  have d2 := loop_kept (j := j) g0 (Or.inr (by show s1.bounded j = false; rw [hr]; simp [unbound, ho]))
  have hb2 : s2.w.bodies j = some { b with bound := none } := by
    rw [g1, d2.body]
    show s1.w.bodies j = _
    rw [d1.body]; simp [unbound, ho, hb]
  obtain ⟨t', k0, k1, k2, k3, k4, k5, k6, k7, k8, k9, k10, k11, k12⟩ := action_loop h3 (by show 0 ≤ s2.verletDist; rw [g8, hv1]; exact hv)
  have d3 := loop_done k0 List.nodup_range (j := j) (by show j ∈ List.range s2.size; rw [g5, hs1]; exact hmem) (bx := bx) (sh := sh)
    (b := { b with bound := none })
    (by show (if own j || near j then s2.w.bodies j else none) = _; rw [hne, Bool.or_true, if_pos rfl, hb2])
    (by show (near j || s2.bounded j) = true; rw [hne]; rfl)
    (by show s2.shape j = _; rw [g7, hr]; exact hsh) (by show shapeBox s2.enlarge s2.cell _ _ = _; rw [g12, g11, hr]; exact hbx)
  have e1 := d3.body
  have e2 := d3.box
  have hsw : newSweep { eraseFar own near (rebound near s2) with doSort := false, nBB := (eraseFar own near (rebound near s2)).size, dirty := false } j
      { b with bound := none } = freshSweep s := by
    unfold newSweep freshSweep
    simp only [eraseFar, rebound, g9, g4, g10, g8, hv1, hi1, ht1, hm1]
  rw [hsw] at e1 e2
  rw [k1, k3]
  exact ⟨e1, e2⟩

/-! ## C114 -/

/-- the exact boxes of two spheres overlap -/
def Close (p q : V3) (r t : ℝ) : Prop := Stride.Overlap (fun i => p i - r, fun i => p i + r) (fun i => q i - t, fun i => q i + t)

/-- **C114, partial.** Workers `P` and `Q` split the same scene before the first step (or with a negative `targetInterv`).  Body `a`
belongs to `P`, body `c` to `Q` and is in the mirror list of `P`.  From then on, as long as each of the two workers finds its own body
within the margin of its box (so that neither asks for the collider, C32), whenever the exact boxes of the two spheres overlap, their
boxes in `P` overlap, so that the collider of `P` has reported the pair (C26).  Missing: later splits (`C114_violated`). -/
theorem C114_found_partial {ownP nearP ownQ nearQ : Nat → Bool} {s sP sQ : Scn} (hP : splitRun ownP nearP s = .ok sP)
    (hQ : splitRun ownQ nearQ s = .ok sQ) (hv : 0 ≤ s.verletDist) (h0 : s.iter = 0 ∨ s.targetInterv < 0) (hcell : s.cell = none)
    (he : 0 < s.enlarge → 1 ≤ s.enlarge) {a c : Nat} (ha : a < s.size) (hc : c < s.size) (h1 : ownP a = true) (h2 : ownP c = false)
    (h3 : nearP c = true) (h4 : ownQ c = true) {A C : Bod} (hA : s.w.bodies a = some A) (hC : s.w.bodies c = some C) {r t : ℝ} (hr : 0 ≤ r)
    (ht : 0 ≤ t) (hsa : IsSphere s a r) (hsc : IsSphere s c t) {A1 C1 A2 C2 : Bod} {bdA bdC : BoundInfo} (hA1 : sP.w.bodies a = some A1)
    (hC1 : sQ.w.bodies c = some C1) (hbA : A1.bound = some bdA) (hbC : C1.bound = some bdC) (hnA : Stride.Near A2 bdA) (hnC : Stride.Near C2 bdC)
    (hcl : Close A2.st.pos C2.st.pos r t) : Stride.Overlap (sP.box a) (sP.box c) := by
  have bxa : shapeBox s.enlarge s.cell (.sphere r) A.st = .ok (some _) := rfl
  have bxc : shapeBox s.enlarge s.cell (.sphere t) C.st = .ok (some _) := rfl
  obtain ⟨a1, a2⟩ := own_after hP hv ha h1 hA hsa.1 hsa.2 bxa
  obtain ⟨c1, -⟩ := own_after hQ hv hc h4 hC hsc.1 hsc.2 bxc
  obtain ⟨-, d2⟩ := remote_after hP hv hc h2 h3 hC hsc.2 bxc
  rw [hA1] at a1; injection a1 with a1; subst a1
  rw [hC1] at c1; injection c1 with c1; subst c1
  injection hbA with hbA; subst hbA
  injection hbC with hbC; subst hbC
  have hfr : freshSweep s = s.verletDist := by
    unfold freshSweep
    rw [if_neg (by rintro ⟨x, y⟩; omega)]
  rw [hfr] at d2
  intro i
  have n1 := abs_le.mp (near_disp hnA i)
  have n2 := abs_le.mp (near_disp hnC i)
  have k := hcl i
  have er := enlarged_ge he hr
  have et := enlarged_ge he ht
  rw [a2, d2, (swept_le _ _ i).1, (swept_le _ _ i).2, (swept_le _ _ i).1, (swept_le _ _ i).2]
  simp only [sphereBox, unshearPt, sphereHalf, hcell, Pi.add_apply, Pi.sub_apply] at n1 n2 k ⊢
  constructor <;> linarith [k.1, k.2, n1.1, n1.2, n2.1, n2.2]

/-- the scene of the witnesses: unit spheres at 0 and at 3.5 on the x axis, in the iteration `n` -/
noncomputable def duo (n : Int) (own : Nat → Bool) : Scn :=
  { w := exWorld fun j => if j = 0 then some (exBod (exState 0 0) .standalone)
      else if j = 1 then some (exBod { exState 0 0 with pos := ![7 / 2, 0, 0] } .standalone) else none
    cell := none, size := 2, iter := n, shape := fun _ => some (.sphere 1), bounded := own, box := fun _ => (0, 0), last := fun _ => 0
    doSort := true, dirty := false, verletDist := 1, targetInterv := 0, minSweepDistFactor := 0.1, enlarge := -1, nBB := 0
    hasNewton := false, newtonInEngines := true, strideActive := false }

theorem process_sphere {id : Nat} {s : Scn} {r : ℝ} (hs : s.shape id = some (.sphere r)) : ∃ s', processBody id s = .ok s' := by
  unfold processBody
  rw [hs]
  cases s.w.bodies id with
  | none => exact ⟨_, rfl⟩
  | some b => cases s.bounded id with
    | false => exact ⟨_, rfl⟩
    | true => exact ⟨_, rfl⟩

theorem loop_spheres {ids : List Nat} {s : Scn} (hs : ∀ j, ∃ r, s.shape j = some (.sphere r)) : ∃ s', boundLoop ids s = .ok s' := by
  induction ids generalizing s with
  | nil => exact ⟨s, rfl⟩
  | cons id ids ih =>
    obtain ⟨r, hr⟩ := hs id
    obtain ⟨s1, h1⟩ := process_sphere hr
    obtain ⟨s2, h2⟩ := ih (s := s1) (by rw [(processBody_frame h1).1.rest]; exact hs)
    exact ⟨s2, by unfold boundLoop; rw [h1, Res.bind_ok, h2]⟩

theorem action_spheres {s : Scn} (hs : ∀ j, ∃ r, s.shape j = some (.sphere r)) (hn : s.newtonInEngines = true) :
    ∃ s', colliderAction s = .ok s' ∧ s'.shape = s.shape ∧ s'.newtonInEngines = true := by
  unfold colliderAction
  dsimp only
  obtain ⟨s1, h1⟩ := loop_spheres (ids := List.range s.size) (s := { s with doSort := false, nBB := s.size, verletDist := autoVerlet s, dirty := false }) hs
  have hr := (loop_frame h1).rest
  rw [h1, Res.bind_ok]
  have h2 : s1.newtonInEngines = true := by rw [hr]; exact hn
  have h3 : s1.shape = s.shape := by rw [hr]
  split
  · rw [h2, Bool.or_true, if_pos rfl]; exact ⟨_, rfl, h3, rfl⟩
  · exact ⟨_, rfl, h3, h2⟩

/-- in a scene of spheres the split succeeds -/
theorem split_spheres {own near : Nat → Bool} {s : Scn} (hs : ∀ j, ∃ r, s.shape j = some (.sphere r)) (hn : s.newtonInEngines = true) :
    ∃ s', splitRun own near s = .ok s' := by
  unfold splitRun
  obtain ⟨s1, h1⟩ := loop_spheres (ids := List.range s.size) (s := unbound own s) hs
  have hr := (loop_frame h1).rest
  obtain ⟨s2, h2, h3, h4⟩ := action_spheres (s := s1) (by rw [hr]; exact hs) (by rw [hr]; exact hn)
  have hs1 : s1.shape = s.shape := by rw [hr]; rfl
  obtain ⟨s3, h5, -, -⟩ := action_spheres (s := eraseFar own near (rebound near s2)) (by show ∀ j, ∃ r, s2.shape j = _; rw [h3, hs1]; exact hs) h4
  exact ⟨s3, by rw [h1, Res.bind_ok, h2, Res.bind_ok, h5]⟩

/-- **C114 is violated.** Unit spheres at 0 (worker `P`) and 3.5 (worker `Q`) on the x axis, Verlet distance 1, `minSweepDistFactor`
0.1, a split in iteration 5; each is in the mirror list of the other worker.  Each then moves 0.9 towards the other: both stay within the
margins of the boxes their own workers keep, and they overlap.  But their boxes overlap neither in `P` nor in `Q`: the box of a remote
body is new, so its margin is 0.1 instead of 1. -/
theorem C114_violated : ∃ (s sP sQ : Scn) (A1 C1 A2 C2 : Bod) (bdA bdC : BoundInfo),
    splitRun (fun j => j == 0) (fun j => j == 1) s = .ok sP ∧ splitRun (fun j => j == 1) (fun j => j == 0) s = .ok sQ ∧ 0 < s.verletDist ∧
      s.iter = 5 ∧ s.cell = none ∧ IsSphere s 0 1 ∧ IsSphere s 1 1 ∧ sP.w.bodies 0 = some A1 ∧ sQ.w.bodies 1 = some C1 ∧ A1.bound = some bdA ∧
      C1.bound = some bdC ∧ Stride.Near A2 bdA ∧ Stride.Near C2 bdC ∧ A2.st.pos = ![9 / 10, 0, 0] ∧ C2.st.pos = ![26 / 10, 0, 0] ∧
      Close A2.st.pos C2.st.pos 1 1 ∧ ¬ Stride.Overlap (sP.box 0) (sP.box 1) ∧ ¬ Stride.Overlap (sQ.box 0) (sQ.box 1) := by
  have hsh : ∀ j, ∃ r, (duo 5 fun _ => true).shape j = some (.sphere r) := fun _ => ⟨1, rfl⟩
  obtain ⟨sP, hP⟩ := split_spheres (own := fun j => j == 0) (near := fun j => j == 1) hsh rfl
  obtain ⟨sQ, hQ⟩ := split_spheres (own := fun j => j == 1) (near := fun j => j == 0) hsh rfl
  have hv : (0 : ℝ) ≤ (duo 5 fun _ => true).verletDist := by simp [duo]
  have b0 : (duo 5 fun _ => true).w.bodies 0 = some (exBod (exState 0 0) .standalone) := rfl
  have b1 : (duo 5 fun _ => true).w.bodies 1 = some (exBod { exState 0 0 with pos := ![7 / 2, 0, 0] } .standalone) := rfl
  obtain ⟨p1, p2⟩ := own_after (j := 0) hP hv (by decide) rfl b0 rfl (sh := .sphere 1) rfl rfl
  obtain ⟨-, p3⟩ := remote_after (j := 1) hP hv (by decide) rfl rfl b1 (sh := .sphere 1) rfl rfl
  obtain ⟨q1, q2⟩ := own_after (j := 1) hQ hv (by decide) rfl b1 rfl (sh := .sphere 1) rfl rfl
  obtain ⟨-, q3⟩ := remote_after (j := 0) hQ hv (by decide) rfl rfl b0 (sh := .sphere 1) rfl rfl
  have hf : freshSweep (duo 5 fun _ => true) = 1 / 10 := by
    unfold freshSweep duo
    norm_num
  have hw : (duo 5 fun _ => true).verletDist = 1 := rfl
  rw [hf] at p3 q3
  rw [hw] at p2 q2
  refine ⟨duo 5 fun _ => true, sP, sQ, _, _, exBod { exState 0 0 with pos := ![9 / 10, 0, 0] } .standalone,
    exBod { exState 0 0 with pos := ![26 / 10, 0, 0] } .standalone, _, _, hP, hQ, by simp [duo], rfl, rfl, ⟨rfl, rfl⟩, ⟨rfl, rfl⟩, p1, q1, rfl, rfl,
    Or.inr ?_, Or.inr ?_, rfl, rfl, ?_, ?_, ?_⟩
  · rw [hw]; simp [maxDisp, exBod, exState]; norm_num
  · rw [hw]; simp [maxDisp, exBod, exState]; norm_num
  · intro i; fin_cases i <;> simp [exBod, exState] <;> norm_num
  · intro h
    have := (h 0).2
    rw [p2, p3, (swept_le _ _ 0).1, (swept_le _ _ 0).2] at this
    simp [sphereBox, unshearPt, sphereHalf, exBod, exState, duo] at this
    norm_num at this
  · intro h
    have := (h 0).2
    rw [q2, q3, (swept_le _ _ 0).1, (swept_le _ _ 0).2] at this
    simp [sphereBox, unshearPt, sphereHalf, exBod, exState, duo] at this
    norm_num at this

/-- `C114_found_partial` applies to the same spheres when the scene is split in iteration 0 -/
example : ∃ sP sQ : Scn, splitRun (fun j => j == 0) (fun j => j == 1) (duo 0 fun _ => true) = .ok sP ∧
    splitRun (fun j => j == 1) (fun j => j == 0) (duo 0 fun _ => true) = .ok sQ ∧ Stride.Overlap (sP.box 0) (sP.box 1) := by
  have hsh : ∀ j, ∃ r, (duo 0 fun _ => true).shape j = some (.sphere r) := fun _ => ⟨1, rfl⟩
  obtain ⟨sP, hP⟩ := split_spheres (own := fun j => j == 0) (near := fun j => j == 1) hsh rfl
  obtain ⟨sQ, hQ⟩ := split_spheres (own := fun j => j == 1) (near := fun j => j == 0) hsh rfl
  have hv : (0 : ℝ) ≤ (duo 0 fun _ => true).verletDist := by simp [duo]
  obtain ⟨p1, -⟩ := own_after (j := 0) hP hv (by decide) rfl (b := exBod (exState 0 0) .standalone) rfl rfl (sh := .sphere 1) rfl rfl
  obtain ⟨q1, -⟩ := own_after (j := 1) hQ hv (by decide) rfl (b := exBod { exState 0 0 with pos := ![7 / 2, 0, 0] } .standalone) rfl rfl (sh := .sphere 1) rfl rfl
  refine ⟨sP, sQ, hP, hQ, C114_found_partial hP hQ hv (Or.inl rfl) rfl (fun h => absurd h (by show ¬ (0 : ℝ) < -1; norm_num)) (by decide) (by decide) rfl rfl rfl rfl rfl rfl
    zero_le_one zero_le_one ⟨rfl, rfl⟩ ⟨rfl, rfl⟩ p1 q1 rfl rfl (A2 := exBod { exState 0 0 with pos := ![9 / 10, 0, 0] } .standalone)
    (C2 := exBod { exState 0 0 with pos := ![26 / 10, 0, 0] } .standalone) (Or.inr ?_) (Or.inr ?_) ?_⟩
  · show _ < (1 : ℝ); simp [maxDisp, exBod, exState]; norm_num
  · show _ < (1 : ℝ); simp [maxDisp, exBod, exState]; norm_num
  · intro i; fin_cases i <;> simp [exBod, exState] <;> norm_num

end Verif.Mpi.Resplit
