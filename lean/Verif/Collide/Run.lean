import Verif.Collide.RunLemmas
/-!
# Helper lemmas on `action`: what one run of the collider does
-/
namespace Verif.Collide
open Verif

set_option linter.unusedSectionVars false

variable {R : Type} [LinearOrder R] [Zero R]

/-- the lists of the collider belong to `m` bodies -/
structure WF (m : Nat) (c : Col R) : Prop where
  size : c.size = 2 * m
  full : ∀ j, Full m (c.vec j)
  per : c.periodic = false

/-- the boxes overlap as far as the order in the list tells -/
def PosOv (v : List (Bd R)) (i j : Nat) : Prop := pos v (i, true) < pos v (j, false) ∧ pos v (j, true) < pos v (i, false)

/-- both have a box and the pair passes the filter -/
structure Elig (S : Scn R) (i j : Nat) : Prop where
  left : Boxed S i
  right : Boxed S j
  pair : Pair S i j

/-- overlaps shown by the order of the lists have an interaction -/
def Cov (E : Nat → Nat → Prop) (vec : Fin 3 → List (Bd R)) (I : Ints) : Prop :=
  ∀ i j, i ≠ j → E i j → (∀ a, PosOv (vec a) i j) → has I i j = true

/-- the bounds in a list carry the boxes of the scene -/
def Carry (S : Scn R) (j : Fin 3) (v : List (Bd R)) : Prop :=
  ∀ x ∈ v, (x.hasBB = true → Boxed S x.id) ∧
    ∀ b bb, S.body x.id = some b → b.bound = some bb → x.hasBB = true ∧ x.coord = if x.isMin then bb.1 j else bb.2 j

/-- state after the boxes have been copied -/
structure Ready (S : Scn R) (c : Col R) : Prop where
  wf : WF S.n c
  nmm : c.nmm = S.n
  carry : ∀ j, Carry S j (c.vec j)
  box : ∀ i, i < S.n → ∀ b bb, S.body i = some b → b.bound = some bb → c.mn i = bb.1 ∧ c.mx i = bb.2

/-- bodies exist only below `n` -/
def InRange (S : Scn R) : Prop := ∀ i, S.body i ≠ none → i < S.n

theorem pos_append (v w : List (Bd R)) (k : Nat × Bool) :
    pos (v ++ w) k = if k ∈ v.map key then pos v k else v.length + pos w k := by
  unfold pos; rw [List.map_append, idx_append, List.length_map]

theorem Full.mem {n : Nat} {v : List (Bd R)} (h : Full n v) (k : Nat × Bool) : k ∈ v.map key ↔ k.1 < n := by
  rw [List.Perm.mem_iff h, mem_newBounds]; simp

theorem Full.pos_lt {n : Nat} {v : List (Bd R)} (h : Full n v) {k : Nat × Bool} (hk : k.1 < n) : pos v k < 2 * n := by
  have h1 := (h.mem k).mpr hk
  have h2 := List.idxOf_lt_length_iff.mpr h1
  rw [List.length_map, h.length] at h2
  exact h2

/-- the state after the storage was adapted and the boxes copied, and whether an initial sort is due -/
theorem prep {m : Nat} {c : Col R} {S : Scn R} (hw : WF m c) (hm : m ≤ S.n) (P : Par R) (dirty : Bool) (I : Ints) :
    ∃ c2, (action P S dirty c I = match condErase (cxOf S c2) I with
        | .ok I' => sortCollide P S c2 (c.doSort || (resize c S.n).2 || dirty) I'
        | .throws => .throws
        | .ub => .ub) ∧ Ready S c2 ∧ c2.sortThenCollide = c.sortThenCollide ∧ c2.sortAxis = c.sortAxis ∧ c2.doSort = false ∧
      (∀ j k, k.1 < m → pos (c2.vec j) k = pos (c.vec j) k) ∧
      (∀ j i b, m ≤ i → i < S.n → pos (c2.vec j) (i, b) = 2 * i + (if b then 0 else 1)) := by
  have hd : dropPeriodic c = c := by unfold dropPeriodic; rw [hw.per]; rfl
  have hvec : ∀ j, (resize c S.n).1.vec j = c.vec j ++ newBounds m (S.n - m) := by
    intro j
    unfold resize
    rw [hw.size]
    by_cases h : 2 * m = 2 * S.n
    · have : S.n - m = 0 := by omega
      rw [if_neg (not_not.mpr h), this]; simp [newBounds]
    · rw [if_pos h, if_neg (by omega : ¬ 2 * S.n < 2 * m)]
      simp
  have hfull : ∀ j, Full S.n ((resize c S.n).1.vec j) := fun j => by rw [hvec]; exact (hw.full j).append hm
  have hrest : (resize c S.n).1.size = 2 * S.n ∧ (resize c S.n).1.periodic = false ∧
      (resize c S.n).1.sortThenCollide = c.sortThenCollide ∧ (resize c S.n).1.sortAxis = c.sortAxis := by
    have hl := (hfull 0).length
    unfold resize at hl ⊢
    by_cases h : c.size = 2 * S.n
    · rw [if_neg (not_not.mpr h)]; exact ⟨h, hw.per, rfl, rfl⟩
    · rw [if_pos h] at hl ⊢; exact ⟨hl, hw.per, rfl, rfl⟩
  obtain ⟨r1, r2, r3, r4⟩ := hrest
  let c1 : Col R := { (resize c S.n).1 with nmm := S.n, doSort := false }
  let mm := copyBoxes S (c1.vec 1) (c1.mn, c1.mx)
  let c2 : Col R := { c1 with vec := fun j => (c1.vec j).map (copyBd S j), mn := mm.1, mx := mm.2 }
  have hcopy : copy S c1 = .ok c2 := by
    unfold copy
    rw [if_pos (fun j => Nat.le_of_eq (hfull j).length.symm)]
  refine ⟨c2, ?_, ⟨⟨r1, fun j => (hfull j).copy S j, r2⟩, rfl, ?_, ?_⟩, r3, r4, rfl, ?_, ?_⟩
  · unfold action
    rw [hd]
    show (match copy S c1 with
      | .ok c2 => match condErase (cxOf S c2) I with
        | .ok I' => sortCollide P S c2 (c.doSort || (resize c S.n).2 || dirty) I'
        | .throws => .throws
        | .ub => .ub
      | .throws => .throws
      | .ub => .ub) = _
    rw [hcopy]
  · intro j x hx
    obtain ⟨y, hy, rfl⟩ := List.mem_map.mp hx
    have hk := key_copyBd S j y
    have hid : (copyBd S j y).id = y.id := congrArg Prod.fst hk
    have him : (copyBd S j y).isMin = y.isMin := congrArg Prod.snd hk
    rw [hid, him]
    exact ⟨copyBd_boxed, fun b bb h1 h2 => copyBd_coord j h1 h2⟩
  · intro i hi b bb h1 h2
    exact (copyBoxes_spec S i (c1.vec 1) (c1.mn, c1.mx)).1 b bb h1 h2 (Or.inl ((hfull 1).exists hi true))
  · intro j k hk
    show pos (((resize c S.n).1.vec j).map (copyBd S j)) k = _
    rw [pos_copy, hvec, pos_append, if_pos (((hw.full j).mem k).mpr hk)]
  · intro j i b h1 h2
    show pos (((resize c S.n).1.vec j).map (copyBd S j)) (i, b) = _
    rw [pos_copy, hvec, pos_append, if_neg (fun h => absurd (((hw.full j).mem (i, b)).mp h) (Nat.not_lt.mpr h1)), (hw.full j).length,
      pos_newBounds _ m i b h1 (by omega)]
    omega

/-- bounds with a box belong to bodies with a box, inside the arrays -/
theorem Ready.safe {S : Scn R} {c : Col R} (h : Ready S c) (j : Fin 3) : Safe (cxOf S c) (c.vec j) := by
  intro x hx hb
  exact ⟨by rw [show (cxOf S c).nmm = c.nmm from rfl, h.nmm]; exact (h.wf.full j).lt hx, (h.carry j x hx).1 hb⟩

theorem Carry.perm {S : Scn R} {j : Fin 3} {v w : List (Bd R)} (h : Carry S j v) (hp : w.Perm v) : Carry S j w :=
  fun x hx => h x (hp.mem_iff.mp hx)

/-- order overlap in sorted lists is coordinate overlap -/
theorem touch_of_pos {S : Scn R} {c : Col R} {vec : Fin 3 → List (Bd R)} (hc : Ready S c) (hf : ∀ a, Full S.n (vec a))
    (hcar : ∀ a, Carry S a (vec a)) (hs : ∀ a, Sorted (vec a)) {i j : Nat} (hi : i < S.n) (hj : j < S.n)
    (hbi : Boxed S i) (hbj : Boxed S j) (hp : ∀ a, PosOv (vec a) i j) : Touch (cxOf S c) i j := by
  intro a
  obtain ⟨bi, bbi, i1, i2⟩ := hbi
  obtain ⟨bj, bbj, j1, j2⟩ := hbj
  have hmi := hc.box i hi bi bbi i1 i2
  have hmj := hc.box j hj bj bbj j1 j2
  have key1 : ∀ {k : Nat} {b : CBody R} {bb} (m : Bool), k < S.n → S.body k = some b → b.bound = some bb →
      ∃ x ∈ vec a, key x = (k, m) ∧ x.coord = if m then bb.1 a else bb.2 a := by
    intro k b bb m hk h1 h2
    obtain ⟨x, hx, hxk⟩ := (hf a).exists hk m
    have e1 : x.id = k := congrArg Prod.fst hxk
    have e2 : x.isMin = m := congrArg Prod.snd hxk
    have := ((hcar a x hx).2 b bb (e1 ▸ h1) h2).2
    rw [e2] at this
    exact ⟨x, hx, hxk, this⟩
  obtain ⟨x1, x1m, x1k, x1c⟩ := key1 true hi i1 i2
  obtain ⟨x2, x2m, x2k, x2c⟩ := key1 false hi i1 i2
  obtain ⟨y1, y1m, y1k, y1c⟩ := key1 true hj j1 j2
  obtain ⟨y2, y2m, y2k, y2c⟩ := key1 false hj j1 j2
  obtain ⟨p1, p2⟩ := hp a
  rw [← x1k, ← y2k] at p1
  rw [← y1k, ← x2k] at p2
  have c1 := sorted_pos (hs a) (hf a).nk x1m y2m p1
  have c2 := sorted_pos (hs a) (hf a).nk y1m x2m p2
  rw [x1c, y2c] at c1
  rw [y1c, x2c] at c2
  show c.mn i a ≤ c.mx j a ∧ c.mn j a ≤ c.mx i a
  rw [hmi.1, hmi.2, hmj.1, hmj.2]
  exact ⟨by simpa using c1, by simpa using c2⟩

theorem sort3_spec {C : Cx R} {f : Ints → List (Bd R) → Res (Ints × List (Bd R))} {D : Prop} {N : Prop} {vec : Fin 3 → List (Bd R)}
    (hf : ∀ a I, ∃ I' w, f I (vec a) = .ok (I', w) ∧ w.Perm (vec a) ∧ Sorted w ∧ Ext C I I' ∧ (N → I' = I) ∧
      (D → Handled C (fun i j => has I' i j = true) (vec a) w)) (I : Ints) :
    ∃ I' w, sort3 f I vec = .ok (I', w) ∧ (∀ a, (w a).Perm (vec a)) ∧ (∀ a, Sorted (w a)) ∧ Ext C I I' ∧ (N → I' = I) ∧
      (D → ∀ a, Handled C (fun i j => has I' i j = true) (vec a) (w a)) := by
  obtain ⟨I0, w0, a1, a2, a3, a4, a5, a6⟩ := hf 0 I
  obtain ⟨I1, w1, b1, b2, b3, b4, b5, b6⟩ := hf 1 I0
  obtain ⟨I2, w2, c1, c2, c3, c4, c5, c6⟩ := hf 2 I1
  have fin3 : ∀ a : Fin 3, a = 0 ∨ a = 1 ∨ a = 2 := by decide
  refine ⟨I2, fun j => if j = 0 then w0 else if j = 1 then w1 else w2, by simp only [sort3, a1, b1, c1], ?_, ?_, (a4.trans b4).trans c4,
    fun h => by rw [c5 h, b5 h, a5 h], ?_⟩
  · intro a
    rcases fin3 a with rfl | rfl | rfl
    · exact a2
    · exact b2
    · exact c2
  · intro a
    rcases fin3 a with rfl | rfl | rfl
    · exact a3
    · exact b3
    · exact c3
  · intro hD a
    rcases fin3 a with rfl | rfl | rfl
    · exact (a6 hD).mono (fun i j h => (b4.trans c4).mono i j h)
    · exact (b6 hD).mono (fun i j h => c4.mono i j h)
    · exact c6 hD

/-- the chunks of the parallel sort fit, or it is not used -/
def Fits (P : Par R) (n : Nat) : Prop := P.threads ≤ 1 ∨ n < 1000 ∨ ∀ m, 2 ≤ m → m ≤ P.threads → ChunksFit (2 * n) m

/-- `std::sort` gives a permutation sorted by coordinate -/
def SortOk (P : Par R) : Prop := ∀ v, (P.srt v).Perm v ∧ Sorted (P.srt v)

/-- what `sortCollide` leaves behind -/
structure Done (X : Prop) (S : Scn R) (c c' : Col R) (I I' : Ints) : Prop where
  vec : ∃ v, c' = { c with vec := v } ∧ (∀ a, (v a).Perm (c.vec a)) ∧ (∀ a, Sorted (v a))
  ext : Ext (cxOf S c) I I'
  cov : X → Cov (Elig S) c'.vec I'

theorem wanted_of {S : Scn R} {c : Col R} (hc : Ready S c) {i j : Nat} (hi : i < S.n) (hj : j < S.n) (he : Elig S i j)
    (ht : Touch (cxOf S c) i j) : Wanted (cxOf S c) i j := by
  rw [wanted_iff]
  refine ⟨?_, ?_, ht, he.pair⟩
  · show i < c.nmm; rw [hc.nmm]; exact hi
  · show j < c.nmm; rw [hc.nmm]; exact hj

theorem Elig.symm {S : Scn R} {i j : Nat} (h : Elig S i j) : Elig S j i := by
  obtain ⟨a, b, b1, b2, h1, h2, h3⟩ := h
  exact ⟨b, a, b2, b1, h2, h1, by rw [filter_comm]; exact h3⟩

theorem PosOv.symm {v : List (Bd R)} {i j : Nat} (h : PosOv v i j) : PosOv v j i := ⟨h.2, h.1⟩

theorem Boxed.lt {S : Scn R} (hr : InRange S) {i : Nat} (h : Boxed S i) : i < S.n := by
  obtain ⟨b, _, h1, _⟩ := h
  exact hr i (by rw [h1]; simp)

/-- incremental run -/
theorem incr_spec {X : Prop} {S : Scn R} {c : Col R} (hr : InRange S) (hc : Ready S c) (P : Par R) (hfit : Fits P S.n) (hst : c.sortThenCollide = false)
    (I : Ints) (hcov : X → ∀ i j, i ≠ j → Elig S i j → (∀ a, PosOv (c.vec a) i j) → Touch (cxOf S c) i j → has I i j = true) :
    ∃ c' I', sortCollide P S c false I = .ok (c', I') ∧ Done X S c c' I I' := by
  have hf : ∀ a I, ∃ I' w, (if P.threads ≤ 1 ∨ S.n < 1000 then insertionSort (cxOf S c) true
      else insertionSortParallel (cxOf S c) true P.threads P.narrow) I (c.vec a) = .ok (I', w) ∧ w.Perm (c.vec a) ∧ Sorted w ∧
      Ext (cxOf S c) I I' ∧ (False → I' = I) ∧ (True → Handled (cxOf S c) (fun i j => has I' i j = true) (c.vec a) w) := by
    intro a I
    by_cases h : P.threads ≤ 1 ∨ S.n < 1000
    · simp only [if_pos h]
      obtain ⟨I', w, a1, a2, a3, a4, _, a6⟩ := insertionSort_spec (dc := true) (hc.safe a) (hc.wf.full a).nk I
      exact ⟨I', w, a1, a2, a3, a4, False.elim, fun _ => a6 rfl⟩
    · simp only [if_neg h]
      have hcf : ∀ m, 2 ≤ m → m ≤ P.threads → ChunksFit (c.vec a).length m := by
        rw [(hc.wf.full a).length]
        rcases hfit with h1 | h1 | h1
        · exact absurd (Or.inl h1) h
        · exact absurd (Or.inr h1) h
        · exact h1
      obtain ⟨I', w, a1, a2, a3, a4, a6⟩ := insertionSortParallel_spec (dc := true) (hc.safe a) (hc.wf.full a).nk I P.threads P.narrow hcf
      exact ⟨I', w, a1, a2, a3, a4, False.elim, fun _ => a6 rfl⟩
  obtain ⟨I', w, s1, s2, s3, s4, _, s6⟩ := sort3_spec hf I
  refine ⟨{ c with vec := w }, I', ?_, ⟨w, rfl, s2, s3⟩, s4, ?_⟩
  · have hcond : (!false && !c.sortThenCollide) = true := by rw [hst]; rfl
    simp only [sortCollide]
    rw [if_pos hcond, s1]
  · intro hX i j hij he hp
    have hi := he.left.lt hr
    have hj := he.right.lt hr
    have ht := touch_of_pos hc (fun a => (hc.wf.full a).perm (s2 a)) (fun a => (hc.carry a).perm (s2 a)) s3 hi hj he.left he.right hp
    have hwt := wanted_of hc hi hj he ht
    by_cases hold : ∀ a, PosOv (c.vec a) i j
    · exact s4.mono _ _ (hcov hX i j hij he hold ht)
    · -- some axis shows an inversion
      have inv : ∀ (i j : Nat), i ≠ j → Elig S i j → i < S.n → j < S.n → Wanted (cxOf S c) i j → ∀ a, pos (w a) (i, true) < pos (w a) (j, false) →
          ¬ pos (c.vec a) (i, true) < pos (c.vec a) (j, false) → has I' i j = true := by
        intro i j hij he hi hj hw a h1 h2
        obtain ⟨x, hx, kx⟩ := (hc.wf.full a).exists hi true
        obtain ⟨y, hy, ky⟩ := (hc.wf.full a).exists hj false
        have xi : x.id = i := congrArg Prod.fst kx
        have xm : x.isMin = true := congrArg Prod.snd kx
        have yi : y.id = j := congrArg Prod.fst ky
        have ym : y.isMin = false := congrArg Prod.snd ky
        have xb : x.hasBB = true := by
          obtain ⟨b, bb, e1, e2⟩ := he.left
          exact ((hc.carry a x hx).2 b bb (xi ▸ e1) e2).1
        have yb : y.hasBB = true := by
          obtain ⟨b, bb, e1, e2⟩ := he.right
          exact ((hc.carry a y hy).2 b bb (yi ▸ e1) e2).1
        have hne : pos (c.vec a) (key x) ≠ pos (c.vec a) (key y) := by
          intro h
          have := pos_inj hx h
          rw [kx, ky] at this; cases this
        rw [← kx, ← ky] at h1 h2
        have := s6 trivial a x hx y hy (by omega) h1 (by simp [relevant, xm, ym, xb, yb, xi, yi, hij]) (by rw [xi, yi]; exact hw)
        rwa [xi, yi] at this
      refine Classical.byContradiction fun hno => hold fun a => ?_
      refine ⟨Classical.byContradiction fun h => hno ?_, Classical.byContradiction fun h => hno ?_⟩
      · exact inv i j hij he hi hj hwt a (hp a).1 h
      · rw [has_comm]
        exact inv j i (Ne.symm hij) he.symm hj hi hwt.symm a (hp a).2 h

/-- run with the initial sweep -/
theorem init_spec {X : Prop} {S : Scn R} {c : Col R} (hr : InRange S) (hc : Ready S c) (P : Par R) (hP : SortOk P) (init : Bool)
    (h : init = true ∨ c.sortThenCollide = true) (I : Ints) :
    ∃ c' I', sortCollide P S c init I = .ok (c', I') ∧ Done X S c c' I I' := by
  have hsort : ∃ v, (if init then Res.ok (I, fun j => P.srt (c.vec j)) else sort3 (insertionSort (cxOf S c) false) I c.vec) = .ok (I, v) ∧
      (∀ a, (v a).Perm (c.vec a)) ∧ ∀ a, Sorted (v a) := by
    cases init with
    | true => exact ⟨fun j => P.srt (c.vec j), rfl, fun a => (hP _).1, fun a => (hP _).2⟩
    | false =>
      have hf : ∀ a I, ∃ I' w, insertionSort (cxOf S c) false I (c.vec a) = .ok (I', w) ∧ w.Perm (c.vec a) ∧ Sorted w ∧
          Ext (cxOf S c) I I' ∧ (True → I' = I) ∧ (False → Handled (cxOf S c) (fun i j => has I' i j = true) (c.vec a) w) := by
        intro a I
        obtain ⟨I', w, a1, a2, a3, a4, a5, _⟩ := insertionSort_spec (dc := false) (hc.safe a) (hc.wf.full a).nk I
        exact ⟨I', w, a1, a2, a3, a4, fun _ => a5 rfl, False.elim⟩
      obtain ⟨I', w, s1, s2, s3, _, s5, _⟩ := sort3_spec hf I
      rw [s5 trivial] at s1
      exact ⟨w, s1, s2, s3⟩
  obtain ⟨v, v1, v2, v3⟩ := hsort
  have hsafe : Safe (cxOf S c) (v c.sortAxis) := fun x hx => hc.safe c.sortAxis x ((v2 _).mem_iff.mp hx)
  have hfull : ∀ a, Full S.n (v a) := fun a => (hc.wf.full a).perm (v2 a)
  have hcarry : ∀ a, Carry S a (v a) := fun a => (hc.carry a).perm (v2 a)
  obtain ⟨I', w1, w2, w3⟩ := sweep_spec hsafe (v c.sortAxis) I (fun y hy => hy) (hfull _).nk
  refine ⟨{ c with vec := v }, I', ?_, ⟨v, rfl, v2, v3⟩, w2, ?_⟩
  · have hcond : (!init && !c.sortThenCollide) = false := by
      rcases h with h | h <;> simp [h]
    unfold sortCollide
    rw [hcond]
    show (match (if init then Res.ok (I, fun j => P.srt (c.vec j)) else sort3 (insertionSort (cxOf S c) false) I c.vec) with
      | .ok (I', v) => match sweep (cxOf S c) I' (v c.sortAxis) with
        | .ok I'' => Res.ok ({ c with vec := v }, I'')
        | .throws => .throws
        | .ub => .ub
      | .throws => .throws
      | .ub => .ub) = _
    rw [v1]
    show (match sweep (cxOf S c) I (v c.sortAxis) with
        | .ok I'' => Res.ok ({ c with vec := v }, I'')
        | .throws => .throws
        | .ub => .ub) = _
    rw [w1]
  · intro hX i j hij he hp
    have hi := he.left.lt hr
    have hj := he.right.lt hr
    have ht := touch_of_pos hc hfull hcarry v3 hi hj he.left he.right hp
    have hwt := wanted_of hc hi hj he ht
    have core : ∀ (i j : Nat), i ≠ j → Elig S i j → i < S.n → j < S.n → Wanted (cxOf S c) i j → PosOv (v c.sortAxis) i j →
        pos (v c.sortAxis) (i, true) < pos (v c.sortAxis) (j, true) → has I' i j = true := by
      intro i j hij he hi hj hw hp hlt
      obtain ⟨x, hx, kx⟩ := (hfull c.sortAxis).exists hi true
      obtain ⟨y, hy, ky⟩ := (hfull c.sortAxis).exists hj true
      have xi : x.id = i := congrArg Prod.fst kx
      have xm : x.isMin = true := congrArg Prod.snd kx
      have yi : y.id = j := congrArg Prod.fst ky
      have ym : y.isMin = true := congrArg Prod.snd ky
      have xb : x.hasBB = true := by
        obtain ⟨b, bb, e1, e2⟩ := he.left
        exact ((hcarry _ x hx).2 b bb (xi ▸ e1) e2).1
      have yb : y.hasBB = true := by
        obtain ⟨b, bb, e1, e2⟩ := he.right
        exact ((hcarry _ y hy).2 b bb (yi ▸ e1) e2).1
      have := w3 x hx y hy xm xb ym yb (by rw [kx, ky]; exact hlt) ?_ (by rw [xi, yi]; exact hw)
      · rwa [xi, yi] at this
      · intro z hz hzi
        cases hzm : z.isMin with
        | true =>
          left
          have : key z = key x := by unfold key; rw [hzi, hzm, xm]
          rw [this]; exact Nat.le_refl _
        | false =>
          right
          have : key z = (i, false) := by unfold key; rw [hzi, hzm, xi]
          rw [this, ky]; exact hp.2
    have hne : pos (v c.sortAxis) (i, true) ≠ pos (v c.sortAxis) (j, true) := by
      obtain ⟨x, hx, kx⟩ := (hfull c.sortAxis).exists hi true
      obtain ⟨y, hy, ky⟩ := (hfull c.sortAxis).exists hj true
      rw [← kx, ← ky]
      intro e
      have := pos_inj hx e
      rw [kx, ky] at this
      exact hij (congrArg Prod.fst this)
    rcases Nat.lt_or_gt_of_ne hne with e | e
    · exact core i j hij he hi hj hwt (hp _) e
    · rw [has_comm]
      exact core j i (Ne.symm hij) he.symm hj hi hwt.symm (hp _).symm e

theorem has_iff (I : Ints) (i j : Nat) : has I i j = true ↔ ∃ e ∈ I, e.is i j = true := by
  unfold has; exact List.any_eq_true

theorem is_iff (e : Ent) (i j : Nat) : e.is i j = true ↔ (e.a = i ∧ e.b = j) ∨ (e.a = j ∧ e.b = i) := by
  unfold Ent.is; simp

/-- interactions of ids inside the arrays, or real -/
def IdsOk (S : Scn R) (I : Ints) : Prop := ∀ e ∈ I, e.real = true ∨ (e.a < S.n ∧ e.b < S.n)

theorem condErase_iff {S : Scn R} {c : Col R} (hc : Ready S c) (I : Ints) :
    (IdsOk S I → condErase (cxOf S c) I = .ok (I.filter (fun e => e.real || overlap (cxOf S c) e.a e.b))) ∧
    (∀ I', condErase (cxOf S c) I = .ok I' → IdsOk S I) := by
  have hn : (cxOf S c).nmm = S.n := hc.nmm
  have hiff : (I.all (fun e => e.real || (decide (e.a < (cxOf S c).nmm) && decide (e.b < (cxOf S c).nmm)))) = true ↔ IdsOk S I := by
    rw [hn, List.all_eq_true]
    unfold IdsOk
    simp
  constructor
  · intro h; unfold condErase; rw [if_pos (hiff.mpr h)]
  · intro I' h
    unfold condErase at h
    split at h
    · rename_i h'; exact hiff.mp h'
    · cases h

/-- what one run does: summary used by the property theorems -/
structure Run (X : Prop) (S : Scn R) (c c' : Col R) (I I' : Ints) : Prop where
  ready : Ready S c'
  attrs : c'.sortThenCollide = c.sortThenCollide ∧ c'.sortAxis = c.sortAxis ∧ c'.doSort = false
  sorted : ∀ a, Sorted (c'.vec a)
  cov : X → Cov (Elig S) c'.vec I'
  kept : ∀ e ∈ I, (e.real = true ∨ Touch (cxOf S c') e.a e.b) → e ∈ I'
  new : ∀ e ∈ I', (e ∈ I ∧ (e.real = true ∨ Touch (cxOf S c') e.a e.b)) ∨ (e.real = false ∧ Good (cxOf S c') e.a e.b)

theorem run_spec {X : Prop} {m : Nat} {c : Col R} {S : Scn R} {P : Par R} {dirty : Bool} {I : Ints} (hw : WF m c) (hm : m ≤ S.n) (hr : InRange S)
    (hP : SortOk P) (hfit : Fits P S.n) (hid : IdsOk S I)
    (hcov : X → m = 0 ∨ c.doSort = true ∨ dirty = true ∨ c.sortThenCollide = true ∨
      ∃ E, Cov E c.vec I ∧ ∀ i j, i < m → j < m → Elig S i j → E i j) :
    ∃ c' I', action P S dirty c I = .ok (c', I') ∧ Run X S c c' I I' := by
  obtain ⟨c2, e, hR, h1, h2, h3, h4, h5⟩ := prep hw hm P dirty I
  have hce := (condErase_iff hR I).1 hid
  rw [hce] at e
  have e' : action P S dirty c I = sortCollide P S c2 (c.doSort || (resize c S.n).2 || dirty)
    (I.filter (fun e => e.real || overlap (cxOf S c2) e.a e.b)) := e
  rw [e']
  generalize hini : (c.doSort || (resize c S.n).2 || dirty) = init
  have hI : ∀ e, e ∈ I.filter (fun e => e.real || overlap (cxOf S c2) e.a e.b) ↔ e ∈ I ∧ (e.real = true ∨ Touch (cxOf S c2) e.a e.b) := by
    intro e; rw [List.mem_filter, Bool.or_eq_true, overlap_iff]
  have fin : (∃ c' I', sortCollide P S c2 init (I.filter (fun e => e.real || overlap (cxOf S c2) e.a e.b)) = .ok (c', I') ∧
      Done X S c2 c' (I.filter (fun e => e.real || overlap (cxOf S c2) e.a e.b)) I') →
      ∃ c' I', sortCollide P S c2 init (I.filter (fun e => e.real || overlap (cxOf S c2) e.a e.b)) = .ok (c', I') ∧ Run X S c c' I I' := by
    rintro ⟨c', I', g1, ⟨v, rfl, g2, g3⟩, g4, g5⟩
    refine ⟨_, I', g1, ⟨⟨hR.wf.size, fun a => (hR.wf.full a).perm (g2 a), hR.wf.per⟩, hR.nmm, fun a => (hR.carry a).perm (g2 a), hR.box⟩,
      ⟨h1, h2, h3⟩, g3, g5, fun e he hk => g4.sub e ((hI e).mpr ⟨he, hk⟩), fun e he => ?_⟩
    rcases g4.new e he with x | x
    · exact Or.inl ((hI e).mp x)
    · exact Or.inr x
  apply fin
  by_cases hc : init = true ∨ c2.sortThenCollide = true
  · exact init_spec hr hR P hP init hc _
  · have hi : init = false := by
      cases init with
      | true => exact absurd (Or.inl rfl) hc
      | false => rfl
    have hst : c2.sortThenCollide = false := by
      cases hs : c2.sortThenCollide with
      | true => exact absurd (Or.inr hs) hc
      | false => rfl
    subst hi
    refine incr_spec hr hR P hfit hst _ (fun hX i j hij he hp ht => ?_)
    have hin := he.left.lt hr
    have hjn := he.right.lt hr
    have hkeep : has I i j = true → has (I.filter (fun e => e.real || overlap (cxOf S c2) e.a e.b)) i j = true := by
      rw [has_iff, has_iff]
      rintro ⟨q, q1, q2⟩
      refine ⟨q, (hI q).mpr ⟨q1, Or.inr ?_⟩, q2⟩
      rcases (is_iff q i j).mp q2 with ⟨r1, r2⟩ | ⟨r1, r2⟩
      · rw [r1, r2]; exact ht
      · rw [r1, r2]; exact fun a => ⟨(ht a).2, (ht a).1⟩
    have hnew : ∀ i j : Nat, i ≠ j → m ≤ i → i < S.n → j < S.n → ¬ PosOv (c2.vec 0) i j := by
      rintro i j hij hmi hi hj ⟨p1, p2⟩
      rw [h5 0 i true hmi hi] at p1
      rw [h5 0 i false hmi hi] at p2
      by_cases hmj : m ≤ j
      · rw [h5 0 j false hmj hj] at p1
        rw [h5 0 j true hmj hj] at p2
        simp at p1 p2
        omega
      · have e1 := h4 0 (j, false) (by show j < m; omega)
        rw [e1] at p1
        have e2 := (hw.full 0).pos_lt (k := (j, false)) (by show j < m; omega)
        simp at p1
        omega
    by_cases hmi : m ≤ i
    · exact absurd (hp 0) (hnew i j hij hmi hin hjn)
    · by_cases hmj : m ≤ j
      · exact absurd (hp 0).symm (hnew j i (Ne.symm hij) hmj hjn hin)
      · rcases hcov hX with h | h | h | h | ⟨E, hE, hE'⟩
        · omega
        · simp [h] at hini
        · simp [h] at hini
        · rw [h1] at hst; rw [h] at hst; cases hst
        · apply hkeep
          apply hE i j hij (hE' i j (by omega) (by omega) he)
          intro a
          obtain ⟨p1, p2⟩ := hp a
          rw [h4 a (i, true) (by show i < m; omega), h4 a (j, false) (by show j < m; omega)] at p1
          rw [h4 a (i, false) (by show i < m; omega), h4 a (j, true) (by show j < m; omega)] at p2
          exact ⟨p1, p2⟩

/-- a run that returned had its ids inside the arrays -/
theorem ids_of_ok {m : Nat} {c : Col R} {S : Scn R} {P : Par R} {dirty : Bool} {I : Ints} (hw : WF m c) (hm : m ≤ S.n) {r}
    (h : action P S dirty c I = .ok r) : IdsOk S I := by
  obtain ⟨c2, e, hR, _⟩ := prep hw hm P dirty I
  rw [h] at e
  cases hce : condErase (cxOf S c2) I with
  | ok I' => exact (condErase_iff hR I).2 I' hce
  | throws => rw [hce] at e; cases e
  | ub => rw [hce] at e; cases e

/-- strict overlap shows in the order -/
theorem posOv_of_strict {S : Scn R} {c : Col R} (hc : Ready S c) (hs : ∀ a, Sorted (c.vec a)) {i j : Nat} {bi bj : CBody R} {bbi bbj}
    (hi : i < S.n) (hj : j < S.n) (i1 : S.body i = some bi) (i2 : bi.bound = some bbi) (j1 : S.body j = some bj) (j2 : bj.bound = some bbj)
    (a : Fin 3) (h : bbi.1 a < bbj.2 a ∧ bbj.1 a < bbi.2 a) : PosOv (c.vec a) i j := by
  have key1 : ∀ {k : Nat} {b : CBody R} {bb} (m : Bool), k < S.n → S.body k = some b → b.bound = some bb →
      ∃ x ∈ c.vec a, key x = (k, m) ∧ x.coord = if m then bb.1 a else bb.2 a := by
    intro k b bb m hk h1 h2
    obtain ⟨x, hx, hxk⟩ := (hc.wf.full a).exists hk m
    have e1 : x.id = k := congrArg Prod.fst hxk
    have e2 : x.isMin = m := congrArg Prod.snd hxk
    have := ((hc.carry a x hx).2 b bb (e1 ▸ h1) h2).2
    rw [e2] at this
    exact ⟨x, hx, hxk, this⟩
  obtain ⟨x1, x1m, x1k, x1c⟩ := key1 true hi i1 i2
  obtain ⟨x2, x2m, x2k, x2c⟩ := key1 false hi i1 i2
  obtain ⟨y1, y1m, y1k, y1c⟩ := key1 true hj j1 j2
  obtain ⟨y2, y2m, y2k, y2c⟩ := key1 false hj j1 j2
  have c1 := pos_of_lt (hs a) (hc.wf.full a).nk x1m y2m (by rw [x1c, y2c]; simpa using h.1)
  have c2 := pos_of_lt (hs a) (hc.wf.full a).nk y1m x2m (by rw [y1c, x2c]; simpa using h.2)
  rw [x1k, y2k] at c1
  rw [y1k, x2k] at c2
  exact ⟨c1, c2⟩

end Verif.Collide
