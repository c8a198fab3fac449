import Verif.Pack.ClumpCloud
import Verif.Pack.CloudLemmas
import Verif.Pack.MoveProps

/-!
# Lemmas on random packings of clumps
-/
namespace Verif.Pack
open Verif.Mech
open scoped Classical

/-- The shifts by which images of a sphere are found: lattice vectors in a periodic cell, else none but zero. -/
def shifts (periodic : Bool) (cell : V3) : Set V3 :=
  if periodic then {v | ∃ z : Fin 3 → ℤ, ∀ a, v a = z a * cell a} else {0}

/-- No images of the two spheres overlap. -/
def ApartIn (periodic : Bool) (cell : V3) (s t : Sph) : Prop := ∀ v ∈ shifts periodic cell, s.r + t.r ≤ norm3 (t.c - s.c - v)

/-- `G` is `c` moved as a rigid body. -/
def RigidCopy (c G : List Sph) : Prop := ∃ (q : Quat) (v : V3), q.sqNorm = 1 ∧ List.Forall₂ (fun s s' => s'.c = q.rot s.c + v ∧ s'.r = s.r) c G

theorem not_closer {periodic : Bool} {cell : V3} (hc : periodic = true → ∀ a, 0 < cell a) {a b : V3} {r : ℝ} (hr : 0 ≤ r)
    (h : ¬ closer (distSq periodic cell a b) r) {v : V3} (hv : v ∈ shifts periodic cell) : r ≤ norm3 (a - b - v) := by
  rw [norm3]
  apply Real.le_sqrt_of_sq_le
  cases periodic with
  | false =>
    simp only [shifts, Bool.false_eq_true, if_false, Set.mem_singleton_iff] at hv
    simp only [distSq, Bool.false_eq_true, if_false, closer, not_lt] at h
    rw [hv, sub_zero]
    exact h
  | true =>
    have hc := hc rfl
    simp only [shifts, if_true, Set.mem_setOf_eq] at hv
    obtain ⟨z, hz⟩ := hv
    simp only [distSq, if_true, periPtDistSq] at h
    rw [if_neg (by push_neg; exact fun i => (hc i).ne')] at h
    simp only [closer, not_lt] at h
    refine h.trans ?_
    have key : ∀ i, (min (cellWrapRel (a i) (b i) (b i + cell i)) (cellWrapRel (b i) (a i) (a i + cell i))) ^ 2 ≤ (a i - b i - v i) ^ 2 := by
      intro i
      obtain ⟨w1, w2⟩ := wrap_le (hc i) (a i) (b i) (z i)
      rw [← sq_abs (a i - b i - v i)]
      have : |a i - b i - v i| = |b i + z i * cell i - a i| := by rw [hz, ← abs_neg]; congr 1; ring
      rw [this]
      exact pow_le_pow_left₀ w1 w2 2
    simp only [sqNorm, dot, Pi.sub_apply]
    have k0 := key 0
    have k1 := key 1
    have k2 := key 2
    nlinarith [k0, k1, k2]

theorem scanIds_false {dist : V3 → V3 → Option ℝ} {pack : List Sph} {s : Sph} {ids : List Nat} (h : scanIds dist pack s ids = .ok false) :
    ∀ id ∈ ids, ∃ p, pack[id]? = some p ∧ ¬ closer (dist s.c p.c) (s.r + p.r) := by
  induction ids with
  | nil => simp
  | cons i ids ih =>
    rw [scanIds] at h
    rcases hp : pack[i]? with _ | p
    · rw [hp] at h; cases h
    · rw [hp] at h
      simp only at h
      by_cases hc : closer (dist s.c p.c) (s.r + p.r)
      · rw [if_pos hc] at h; cases h
      · rw [if_neg hc] at h
        intro id hid
        rcases List.mem_cons.mp hid with rfl | hid
        · exact ⟨p, hp, hc⟩
        · exact ih h id hid

theorem scanMembers_false {dist : V3 → V3 → Option ℝ} {pack : List Sph} {ids : List Nat} {C : List Sph} (h : scanMembers dist pack ids C = .ok false) :
    ∀ s ∈ C, ∀ id ∈ ids, ∃ p, pack[id]? = some p ∧ ¬ closer (dist s.c p.c) (s.r + p.r) := by
  induction C with
  | nil => simp
  | cons t C ih =>
    rw [scanMembers] at h
    rcases hp : scanIds dist pack t ids with b | _ | _
    · rw [hp] at h
      simp only [Res.bind_ok] at h
      cases b with
      | true => simp at h
      | false =>
        simp only [Bool.false_eq_true, if_false] at h
        intro s hs
        rcases List.mem_cons.mp hs with rfl | hs
        · exact scanIds_false hp
        · exact ih h s hs
    · rw [hp] at h; cases h
    · rw [hp] at h; cases h

theorem scanClumps_false {dist : V3 → V3 → Option ℝ} {pack C : List Sph} {pos : V3} {rad : ℝ} {infos : List ClumpInfo}
    (h : scanClumps dist pack C pos rad infos = .ok false) : ∀ i ∈ infos,
      ¬ closer (dist pos i.center) (rad + i.rad) ∨ (∀ s ∈ C, ¬ closer (dist s.c i.center) (s.r + i.rad)) ∨
      ∀ s ∈ C, ∀ id, i.minId ≤ id → id < i.maxId → ∃ p, pack[id]? = some p ∧ ¬ closer (dist s.c p.c) (s.r + p.r) := by
  induction infos with
  | nil => simp
  | cons j infos ih =>
    rw [scanClumps] at h
    rcases hp : (if closer (dist pos j.center) (rad + j.rad) ∧ ∃ s ∈ C, closer (dist s.c j.center) (s.r + j.rad) then
        scanMembers dist pack (List.range' j.minId (j.maxId + 1 - j.minId)) C else .ok false) with b | _ | _
    · rw [hp] at h
      simp only [Res.bind_ok] at h
      cases b with
      | true => simp at h
      | false =>
        simp only [Bool.false_eq_true, if_false] at h
        intro i hi
        rcases List.mem_cons.mp hi with rfl | hi
        · by_cases hn : closer (dist pos i.center) (rad + i.rad) ∧ ∃ s ∈ C, closer (dist s.c i.center) (s.r + i.rad)
          · rw [if_pos hn] at hp
            right; right
            intro s hs id h1 h2
            refine scanMembers_false hp s hs id ?_
            rw [List.mem_range'_1]
            omega
          · rw [not_and_or] at hn
            rcases hn with hn | hn
            · left; exact hn
            · right; left
              push_neg at hn
              exact hn
        · exact ih h i hi
    · rw [hp] at h; cases h
    · rw [hp] at h; cases h

theorem normalize_cases (q : Quat) : q.normalize.sqNorm = 1 ∨ q.normalize = ⟨0, 0, 0, 0⟩ := by
  by_cases h : q.sqNorm = 0
  · right
    simp [Quat.normalize, h]
  · left
    exact Quat.normalize_sqNorm h

theorem rot_zero (v : V3) : Quat.rot ⟨0, 0, 0, 0⟩ v = v := by
  funext i
  fin_cases i <;> simp [Quat.rot, Quat.vec, cross] <;> rfl

theorem rot_one (v : V3) : Quat.rot Quat.one v = v := by
  funext i
  fin_cases i <;> simp [Quat.rot, Quat.vec, Quat.one, cross] <;> rfl

theorem exists_unit (q : Quat) : ∃ q' : Quat, q'.sqNorm = 1 ∧ ∀ v, q.normalize.rot v = q'.rot v := by
  rcases normalize_cases q with h | h
  · exact ⟨_, h, fun _ => rfl⟩
  · exact ⟨Quat.one, by simp [Quat.sqNorm, Quat.one], fun v => by rw [h, rot_zero, rot_one]⟩

theorem placed_eq (c : List Sph) (q : Quat) (pos : V3) : placed c q pos = c.map fun s => { s with c := q.rot s.c + pos } := by
  simp [placed, translate, rotateAroundOrigin]

theorem placed_copy (sp : SpherePack) (g : Rnd) (pos : V3) (f : Sph → Int) :
    RigidCopy sp.pack ((placed (recentered sp) (randomOri g) pos).map fun s => { s with clumpId := f s }) := by
  obtain ⟨q, hq, hr⟩ := exists_unit ⟨g 3, g 4, g 5, g 6⟩
  refine ⟨q, q.rot (midPt sp.pack) + pos, hq, ?_⟩
  rw [placed_eq, recentered, translate, List.map_map, List.map_map, List.forall₂_map_right_iff]
  refine List.forall₂_same.mpr fun s _ => ⟨?_, rfl⟩
  simp only [Function.comp_apply, randomOri]
  rw [hr, Quat.rot_add, add_assoc]

/-- Where the clump is put. -/
def PutAt (mn mx : V3) (c : List Sph) (G : List Sph) : Prop :=
  ∃ (q : Quat) (v : V3), q.sqNorm = 1 ∧ (∀ i, mn i ≤ v i ∧ v i ≤ mx i) ∧ List.Forall₂ (fun s s' => s'.c = q.rot (s.c + midPt c) + v ∧ s'.r = s.r) c G

theorem placed_at {mn mx : V3} (hb : ∀ i, mn i ≤ mx i) (sp : SpherePack) {g : Rnd} (hg : Good g) (f : Sph → Int) :
    PutAt mn mx sp.pack ((placed (recentered sp) (randomOri g) (randomPos mn mx g)).map fun s => { s with clumpId := f s }) := by
  obtain ⟨q, hq, hr⟩ := exists_unit ⟨g 3, g 4, g 5, g 6⟩
  refine ⟨q, randomPos mn mx g, hq, ?_, ?_⟩
  · intro i
    obtain ⟨g0, g1⟩ := hg i.val
    have := hb i
    constructor
    · show _ ≤ g i.val * (mx i - mn i) + mn i
      nlinarith
    · show g i.val * (mx i - mn i) + mn i ≤ _
      nlinarith
  · rw [placed_eq, recentered, translate, List.map_map, List.map_map, List.forall₂_map_right_iff]
    refine List.forall₂_same.mpr fun s _ => ⟨?_, rfl⟩
    simp only [Function.comp_apply, randomOri]
    rw [hr]

theorem boundRad_le (l : List Sph) : 0 ≤ boundRad l ∧ ∀ s ∈ l, norm3 s.c + s.r ≤ boundRad l := by
  obtain ⟨h1, h2, -⟩ := foldl_maxOf (fun s => norm3 s.c + s.r) l 0
  exact ⟨h1, h2⟩

theorem placed_bound (c : List Sph) (g : Rnd) (pos : V3) : ∀ s ∈ placed c (randomOri g) pos, norm3 (s.c - pos) + s.r ≤ boundRad c := by
  intro s hs
  rw [placed_eq] at hs
  obtain ⟨t, ht, rfl⟩ := List.mem_map.mp hs
  obtain ⟨q, hq, hr⟩ := exists_unit ⟨g 3, g 4, g 5, g 6⟩
  simp only [randomOri]
  rw [hr, add_sub_cancel_right, norm3_rot hq]
  exact (boundRad_le c).2 t ht

/-- A clump of the packing and what is noted of it. -/
structure Block (pack : List Sph) (i : ClumpInfo) (G : List Sph) : Prop where
  at_ : ∀ k p, G[k]? = some p → pack[i.minId + k]? = some p
  max_ : i.maxId = i.minId + G.length
  bound : ∀ p ∈ G, norm3 (p.c - i.center) + p.r ≤ i.rad
  rad : 0 ≤ i.rad

theorem Block.append {pack : List Sph} {i : ClumpInfo} {G : List Sph} (h : Block pack i G) (l : List Sph) : Block (pack ++ l) i G where
  at_ k p hk := by
    have := h.at_ k p hk
    rw [List.getElem?_append_left (List.getElem?_eq_some_iff.mp this).1]
    exact this
  max_ := h.max_
  bound := h.bound
  rad := h.rad

/-- A clump that does not collide is apart from the clumps placed. -/
theorem apart_of_scan {periodic : Bool} {cell : V3} (hc : periodic = true → ∀ a, 0 < cell a) {pack C : List Sph} {pos : V3} {rad : ℝ} {infos : List ClumpInfo}
    (h : scanClumps (distSq periodic cell) pack C pos rad infos = .ok false) (hC : ∀ s ∈ C, norm3 (s.c - pos) + s.r ≤ rad) (hrad : 0 ≤ rad)
    (hr : ∀ s ∈ C, 0 ≤ s.r) {i : ClumpInfo} (hi : i ∈ infos) {G : List Sph} (hb : Block pack i G) (hG : ∀ p ∈ G, 0 ≤ p.r) :
    ∀ p ∈ G, ∀ s ∈ C, ApartIn periodic cell p s := by
  intro p hp s hs v hv
  have hbp := hb.bound p hp
  have hsp := hC s hs
  rcases scanClumps_false h i hi with h1 | h1 | h1
  · have k := not_closer hc (add_nonneg hrad hb.rad) h1 hv
    have t1 : norm3 (pos - i.center - v) ≤ norm3 (s.c - p.c - v) + norm3 (p.c - i.center) + norm3 (s.c - pos) := by
      have e : pos - i.center - v = ((s.c - p.c - v) + (p.c - i.center)) - (s.c - pos) := by abel
      rw [e]
      refine (norm3_sub_le _ _).trans ?_
      have := norm3_add_le (s.c - p.c - v) (p.c - i.center)
      linarith
    linarith
  · have k := not_closer hc (add_nonneg (hr s hs) hb.rad) (h1 s hs) hv
    have t1 : norm3 (s.c - i.center - v) ≤ norm3 (s.c - p.c - v) + norm3 (p.c - i.center) := by
      have e : s.c - i.center - v = (s.c - p.c - v) + (p.c - i.center) := by abel
      rw [e]
      exact norm3_add_le _ _
    linarith
  · obtain ⟨k, hk, rfl⟩ := List.mem_iff_getElem.mp hp
    have hk' : G[k]? = some G[k] := List.getElem?_eq_getElem hk
    obtain ⟨p', e, hn⟩ := h1 s hs (i.minId + k) (by omega) (by rw [hb.max_]; omega)
    rw [hb.at_ k _ hk'] at e
    cases e
    have := not_closer hc (add_nonneg (hr s hs) (hG _ hp)) hn hv
    linarith

theorem tryClump_spec {mn mx cell : V3} {periodic : Bool} {pack : List Sph} {infos : List ClumpInfo} {c : List Sph} {t : Nat} {g g' : Rnd} (hg : Good g)
    {o : Option (List Sph × V3)} (h : tryClump mn mx cell periodic pack infos c t g = .ok (o, g')) :
    Good g' ∧ ∀ C pos, o = some (C, pos) → ∃ g0, Good g0 ∧ pos = randomPos mn mx g0 ∧ C = placed c (randomOri g0) pos ∧
      collides mn mx cell periodic pack infos C pos (boundRad c) = .ok false := by
  induction t generalizing g with
  | zero => cases h; exact ⟨hg, by intro C pos hc; cases hc⟩
  | succ t ih =>
    rw [tryClump] at h
    rcases hb : collides mn mx cell periodic pack infos (placed c (randomOri g) (randomPos mn mx g)) (randomPos mn mx g) (boundRad c) with b | _ | _
    · rw [hb] at h
      simp only [Res.bind_ok] at h
      cases b with
      | true =>
        simp only [if_true] at h
        exact ih (hg.skip 7) h
      | false =>
        simp only [Bool.false_eq_true, if_false] at h
        have h := Res.ok.inj h
        simp only [Prod.mk.injEq] at h
        refine ⟨by rw [← h.2]; exact hg.skip 7, ?_⟩
        intro C pos ho
        rw [← h.1] at ho
        simp only [Option.some.injEq, Prod.mk.injEq] at ho
        refine ⟨g, hg, ho.2.symm, ?_, ?_⟩
        · rw [← ho.1, ← ho.2]
        · rw [← ho.1, ← ho.2]; exact hb
    · rw [hb] at h; cases h
    · rw [hb] at h; cases h

/-- Induction over the rounds of the loop. -/
theorem clump_inv {mn mx cell : V3} {periodic : Bool} {num : Int} {clumps : List (List Sph)} {P : Nat → List Sph → List ClumpInfo → Prop}
    (hstep : ∀ (nGen : Nat) pack infos c g, c ∈ clumps → Good g → ((nGen : Int) < num ∨ num < 0) →
      collides mn mx cell periodic pack infos (placed c (randomOri g) (randomPos mn mx g)) (randomPos mn mx g) (boundRad c) = .ok false →
      P nGen pack infos → P (nGen + 1) (pack ++ (placed c (randomOri g) (randomPos mn mx g)).map fun s => { s with clumpId := nGen })
        (infos ++ [⟨nGen, randomPos mn mx g, boundRad c, pack.length, pack.length + (placed c (randomOri g) (randomPos mn mx g)).length⟩]))
    {n nGen : Nat} {pack : List Sph} {infos : List ClumpInfo} {g : Rnd} (hg : Good g) (h0 : P nGen pack infos) {pack' : List Sph} {k : Nat} {g' : Rnd}
    (h : clumpLoop mn mx cell periodic num clumps n nGen pack infos g = some (.ok (pack', k, g'))) :
    ∃ infos', P k pack' infos' ∧ nGen ≤ k := by
  induction n generalizing nGen pack infos g with
  | zero => cases h
  | succ n ih =>
    rw [clumpLoop] at h
    by_cases hn : (nGen : Int) < num ∨ num < 0
    · rw [if_pos hn] at h
      rcases hch : choice clumps (g 0) with _ | c
      · rw [hch] at h; cases h
      rw [hch] at h
      simp only at h
      rcases ht : tryClump mn mx cell periodic pack infos c clumpTries (skip 1 g) with ⟨o, g1⟩ | _ | _
      · have hs := tryClump_spec (hg.skip 1) ht
        rw [ht] at h
        rcases o with _ | ⟨C, pos⟩
        · simp only [Option.some.injEq] at h
          have h := Res.ok.inj h
          simp only [Prod.mk.injEq] at h
          refine ⟨infos, ?_, by omega⟩
          rw [← h.1, ← h.2.1]
          exact h0
        · simp only at h
          obtain ⟨g0, hg0, rfl, rfl, hcol⟩ := hs.2 C pos rfl
          obtain ⟨infos', hP, hk⟩ := ih hs.1 (hstep nGen pack infos c g0 (List.mem_of_getElem? hch) hg0 hn hcol h0) h
          exact ⟨infos', hP, by omega⟩
      · rw [ht] at h; cases h
      · rw [ht] at h; cases h
    · rw [if_neg hn] at h
      simp only [Option.some.injEq] at h
      have h := Res.ok.inj h
      simp only [Prod.mk.injEq] at h
      refine ⟨infos, ?_, by omega⟩
      rw [← h.1, ← h.2.1]
      exact h0

theorem collides_false {mn mx cell : V3} {periodic : Bool} {pack : List Sph} {infos : List ClumpInfo} {C : List Sph} {pos : V3} {rad : ℝ}
    (h : collides mn mx cell periodic pack infos C pos rad = .ok false) :
    scanClumps (distSq periodic cell) pack C pos rad infos = .ok false ∧
    (periodic = false → ¬ beyond mn mx pos rad ∨ ∀ s ∈ C, ¬ beyond mn mx s.c s.r) := by
  rw [collides] at h
  by_cases hb : ¬ periodic ∧ beyond mn mx pos rad ∧ ∃ s ∈ C, beyond mn mx s.c s.r
  · rw [if_pos hb] at h; cases h
  · rw [if_neg hb] at h
    refine ⟨h, fun hp => ?_⟩
    rw [hp] at hb
    simp only [Bool.false_eq_true, not_false_eq_true, true_and, not_and_or] at hb
    rcases hb with hb | hb
    · left; exact hb
    · right; push_neg at hb; exact hb

end Verif.Pack
