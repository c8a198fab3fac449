import Verif.Collide.Run
import Mathlib.Data.List.Sort
import Mathlib.Data.Int.Order.Basic
import Mathlib.Tactic.Ring
/-!
# Properties C23–C29 and C67–C69: the sweep-and-prune collider in non-periodic scenes

The specification below speaks of bodies, boxes, masks and interactions; it uses nothing of the collider but the
state it starts from and the result of `action`.
-/
namespace Verif.Collide
open Verif

set_option linter.unusedSectionVars false

/-! ## Specification -/

/-- the two bodies may collide: they share a mask bit, do not have the same self-avoiding mask, none is a clump, they are not
members of one clump, and one of them belongs to the running subdomain while the pair is not a subdomain box with a body of the
same subdomain -/
structure Compatible (avoid : Nat) (sub : Int) (b1 b2 : Flt) : Prop where
  bit : ∃ k, b1.mask.testBit k = true ∧ b2.mask.testBit k = true
  self : ¬ (b1.mask = b2.mask ∧ ∃ k, b1.mask.testBit k = true ∧ avoid.testBit k = true)
  noClump : ∀ b, b = b1 ∨ b = b2 → ¬ (b.clumpId ≠ -1 ∧ b.clumpId = b.id)
  clump : ¬ (b1.clumpId ≠ -1 ∧ b1.clumpId = b2.clumpId)
  sub : b1.sub = sub ∨ b2.sub = sub
  ownBox : b1.sub = b2.sub → b1.isSub = false ∧ b2.isSub = false

variable {R : Type} [LinearOrder R] [Zero R]

/-- body `i` exists and has the box from `lo` to `hi` -/
def HasBox (S : Scn R) (i : Nat) (lo hi : Fin 3 → R) : Prop := ∃ b, S.body i = some b ∧ b.bound = some (lo, hi)

/-- the boxes overlap by more than a common face -/
def Overlap (S : Scn R) (i j : Nat) : Prop :=
  ∃ lo hi lo' hi', HasBox S i lo hi ∧ HasBox S j lo' hi' ∧ ∀ a, lo a < hi' a ∧ lo' a < hi a

/-- the boxes have a common point -/
def Meet (S : Scn R) (i j : Nat) : Prop :=
  ∃ lo hi lo' hi', HasBox S i lo hi ∧ HasBox S j lo' hi' ∧ ∀ a, lo a ≤ hi' a ∧ lo' a ≤ hi a

/-- both bodies exist and may collide -/
def Collidable (S : Scn R) (i j : Nat) : Prop :=
  ∃ b1 b2, S.body i = some b1 ∧ S.body j = some b2 ∧ Compatible S.avoid S.sub b1.flt b2.flt

/-- there is an interaction between the two -/
def Joined (I : Ints) (i j : Nat) : Prop := ∃ e ∈ I, (e.a = i ∧ e.b = j) ∨ (e.a = j ∧ e.b = i)

/-- a collider that has not run -/
def Fresh (c : Col R) : Prop := c.size = 0 ∧ (∀ j, c.vec j = []) ∧ c.periodic = false

/-- conditions on a run: bodies are in the container, the library sort sorts, and the chunks of the parallel sort lie in the
list (C28) -/
structure Allowed (P : Par R) (S : Scn R) : Prop where
  range : ∀ i, S.body i ≠ none → i < S.n
  sort : ∀ v, (P.srt v).Perm v ∧ (P.srt v).Pairwise (fun a b => a.coord ≤ b.coord)
  fits : P.threads ≤ 1 ∨ S.n < 1000 ∨ P.threads * P.threads ≤ S.n

/-- between the scenes `S` and `S'` no pair of bodies that were there became collidable or got boxes -/
def Settled (S S' : Scn R) : Prop := ∀ i j, i < S.n → j < S.n → Collidable S' i j →
  (∃ lo hi, HasBox S' i lo hi) → (∃ lo hi, HasBox S' j lo hi) →
  Collidable S i j ∧ (∃ lo hi, HasBox S i lo hi) ∧ ∃ lo hi, HasBox S j lo hi

/-- all executions: a first run, then any number of runs; between the runs the bodies move and bodies are added or erased,
interactions are added and change their state, the user changes the attributes `a1`–`a3` of the collider. An initial sort (or
`sortThenCollide`) allows any change. -/
inductive Hist : Col R → Ints → Scn R → Prop
  | first {P : Par R} {S : Scn R} {dirty : Bool} {c c' : Col R} {I I' : Ints} (hc : Fresh c) (ha : Allowed P S)
      (hr : action P S dirty c I = .ok (c', I')) : Hist c' I' S
  | next {P : Par R} {S S' : Scn R} {dirty : Bool} {c c' : Col R} {I J J' : Ints} (h : Hist c I S) (ha : Allowed P S') (hn : S.n ≤ S'.n)
      (a1 a2 : Bool) (a3 : Fin 3)
      (hs : dirty = true ∨ a1 = true ∨ a2 = true ∨ (Settled S S' ∧ ∀ i j, Joined I i j → Joined J i j))
      (hr : action P S' dirty { c with doSort := a1, sortThenCollide := a2, sortAxis := a3 } J = .ok (c', J')) : Hist c' J' S'

/-- a collider that ran last with `n` bodies (or never), with any attributes -/
def Prior (c : Col R) (n : Nat) : Prop :=
  (Fresh c ∧ n = 0) ∨ ∃ c0 I S a1 a2 a3, Hist c0 I S ∧ S.n = n ∧ c = { c0 with doSort := a1, sortThenCollide := a2, sortAxis := a3 }

/-! ## From the model to the specification -/

theorem testBit_and (a b : Nat) : decide (a &&& b ≠ 0) = true ↔ ∃ k, a.testBit k = true ∧ b.testBit k = true := by
  rw [decide_eq_true_eq]
  constructor
  · intro h
    refine Classical.byContradiction fun hc => h (Nat.eq_of_testBit_eq fun k => ?_)
    rw [Nat.testBit_and, Nat.zero_testBit]
    cases h1 : a.testBit k <;> cases h2 : b.testBit k <;> first | rfl | exact absurd ⟨k, h1, h2⟩ hc
  · rintro ⟨k, h1, h2⟩ h
    have := Nat.testBit_and a b k
    rw [h, h1, h2] at this; simp at this

theorem filter_iff (avoid : Nat) (sub : Int) (b1 b2 : Flt) : filter avoid sub b1 b2 = true ↔ Compatible avoid sub b1 b2 := by
  have e1 := testBit_and b1.mask b2.mask
  have e2 := testBit_and b1.mask avoid
  constructor
  · intro h
    simp only [filter, Flt.isStandalone, Flt.isClump, Flt.maskCompatible, Bool.and_eq_true, Bool.or_eq_true, Bool.not_eq_true',
      decide_eq_true_eq, Bool.and_eq_false_iff, decide_eq_false_iff_not] at h
    obtain ⟨⟨⟨⟨⟨⟨h1, h2⟩, h3⟩, h4⟩, h5⟩, h6⟩, h7⟩ := h
    refine ⟨e1.mp (by simpa using h6), ?_, ?_, ?_, ?_, ?_⟩
    · rintro ⟨hm, hk⟩
      rcases h7 with h7 | h7
      · exact h7 hm
      · exact h7 (by simpa using e2.mpr hk)
    · rintro b (rfl | rfl) ⟨k1, k2⟩
      · rcases h4 with h4 | h4
        · exact h4 k1
        · exact h4 k2.symm
      · rcases h5 with h5 | h5
        · exact h5 k1
        · exact h5 k2.symm
    · rintro ⟨k1, k2⟩
      rcases h3 with (h3 | h3) | h3
      · exact k1 h3
      · exact k1 (k2.trans h3)
      · exact h3 k2
    · rcases h1 with h1 | h1
      · exact Or.inl h1.symm
      · exact Or.inr h1.symm
    · intro hs
      rcases h2 with h2 | h2
      · exact absurd hs h2
      · simpa using h2
  · rintro ⟨h1, h2, h3, h4, h5, h6⟩
    simp only [filter, Flt.isStandalone, Flt.isClump, Flt.maskCompatible, Bool.and_eq_true, Bool.or_eq_true, Bool.not_eq_true',
      decide_eq_true_eq, Bool.and_eq_false_iff, decide_eq_false_iff_not]
    refine ⟨⟨⟨⟨⟨⟨?_, ?_⟩, ?_⟩, ?_⟩, ?_⟩, ?_⟩, ?_⟩
    · rcases h5 with h | h
      · exact Or.inl h.symm
      · exact Or.inr h.symm
    · by_cases hs : b1.sub = b2.sub
      · right; simpa using h6 hs
      · exact Or.inl hs
    · by_cases hs : b1.clumpId = -1
      · exact Or.inl (Or.inl hs)
      · exact Or.inr (fun e => h4 ⟨hs, e⟩)
    · by_cases hs : b1.clumpId = -1
      · exact Or.inl (fun h => h hs)
      · exact Or.inr (fun e => h3 b1 (Or.inl rfl) ⟨hs, e.symm⟩)
    · by_cases hs : b2.clumpId = -1
      · exact Or.inl (fun h => h hs)
      · exact Or.inr (fun e => h3 b2 (Or.inr rfl) ⟨hs, e.symm⟩)
    · simpa using e1.mpr h1
    · by_cases hm : b1.mask = b2.mask
      · right; intro h; exact h2 ⟨hm, e2.mp (by simpa using h)⟩
      · exact Or.inl hm

theorem boxed_iff (S : Scn R) (i : Nat) : Boxed S i ↔ ∃ lo hi, HasBox S i lo hi := by
  constructor
  · rintro ⟨b, bb, h1, h2⟩; exact ⟨bb.1, bb.2, b, h1, h2⟩
  · rintro ⟨lo, hi, b, h1, h2⟩; exact ⟨b, (lo, hi), h1, h2⟩

theorem pair_iff (S : Scn R) (i j : Nat) : Pair S i j ↔ Collidable S i j := by
  unfold Pair Collidable fltOf
  constructor
  · rintro ⟨b1, b2, h1, h2, h3⟩
    cases e1 : S.body i with
    | none => rw [e1] at h1; cases h1
    | some c1 =>
      cases e2 : S.body j with
      | none => rw [e2] at h2; cases h2
      | some c2 =>
        rw [e1] at h1; rw [e2] at h2
        simp at h1 h2
        exact ⟨c1, c2, rfl, rfl, (filter_iff ..).mp (by rw [h1, h2]; exact h3)⟩
  · rintro ⟨b1, b2, h1, h2, h3⟩
    exact ⟨b1.flt, b2.flt, by simp [h1], by simp [h2], (filter_iff ..).mpr h3⟩

theorem joined_iff (I : Ints) (i j : Nat) : has I i j = true ↔ Joined I i j := by
  rw [has_iff]; unfold Joined
  constructor
  · rintro ⟨e, h, h'⟩; exact ⟨e, h, (is_iff e i j).mp h'⟩
  · rintro ⟨e, h, h'⟩; exact ⟨e, h, (is_iff e i j).mpr h'⟩

theorem elig_iff (S : Scn R) (i j : Nat) :
    Elig S i j ↔ Collidable S i j ∧ (∃ lo hi, HasBox S i lo hi) ∧ ∃ lo hi, HasBox S j lo hi := by
  constructor
  · rintro ⟨h1, h2, h3⟩; exact ⟨(pair_iff S i j).mp h3, (boxed_iff S i).mp h1, (boxed_iff S j).mp h2⟩
  · rintro ⟨h1, h2, h3⟩; exact ⟨(boxed_iff S i).mpr h2, (boxed_iff S j).mpr h3, (pair_iff S i j).mpr h1⟩

/-- with at least `t` bounds per thread squared the chunks lie inside the list -/
theorem chunksFit_of {size t m : Nat} (h1 : 2 ≤ m) (h2 : m ≤ t) (h3 : 2 * (t * t) ≤ size) : ChunksFit size m := by
  unfold ChunksFit chunkSize
  have hm : 2 * (m * m) ≤ size := le_trans (Nat.mul_le_mul_left 2 (Nat.mul_le_mul h2 h2)) h3
  have hq : 2 * m ≤ size / m := by
    rw [Nat.le_div_iff_mul_le (by omega)]
    have : 2 * m * m = 2 * (m * m) := by rw [Nat.mul_assoc]
    omega
  have hs : size / m * m ≤ size := Nat.div_mul_le_self size m
  generalize size / m = q at *
  obtain ⟨k, rfl⟩ : ∃ k, m = k + 1 := ⟨m - 1, by omega⟩
  have e1 : q * (k + 1) = k * q + q := by ring
  have e2 : (k + 1 - 1) * (q + 1) = k * q + k := by simp; ring
  rw [e1] at hs; rw [e2]
  generalize k * q = w at *
  constructor <;> omega

theorem fits_of {P : Par R} {S : Scn R} (h : Allowed P S) : Fits P S.n := by
  rcases h.fits with h | h | h
  · exact Or.inl h
  · exact Or.inr (Or.inl h)
  · exact Or.inr (Or.inr (fun m h1 h2 => chunksFit_of h1 h2 (by omega)))

theorem Fresh.wf {c : Col R} (h : Fresh c) : WF 0 c := ⟨h.1, fun j => by rw [h.2.1]; exact List.Perm.refl _, h.2.2⟩

/-- what holds after every run -/
structure After (c : Col R) (I : Ints) (S : Scn R) : Prop where
  ready : Ready S c
  sorted : ∀ a, Sorted (c.vec a)
  cov : Cov (Elig S) c.vec I

theorem Run.after {S : Scn R} {c c' : Col R} {I I' : Ints} (h : Run True S c c' I I') : After c' I' S := ⟨h.ready, h.sorted, h.cov trivial⟩

/-- the state a run may start from -/
structure Start (c : Col R) (I : Ints) (S : Scn R) (dirty : Bool) (m : Nat) : Prop where
  wf : WF m c
  le : m ≤ S.n
  cov : m = 0 ∨ c.doSort = true ∨ dirty = true ∨ c.sortThenCollide = true ∨
      ∃ E, Cov E c.vec I ∧ ∀ i j, i < m → j < m → Elig S i j → E i j

theorem Start.run {c : Col R} {I : Ints} {S : Scn R} {dirty : Bool} {m : Nat} (h : Start c I S dirty m) {P : Par R} (ha : Allowed P S)
    {c' I'} (hr : action P S dirty c I = .ok (c', I')) : Run True S c c' I I' := by
  obtain ⟨c1, I1, e, r⟩ := run_spec (X := True) (P := P) h.wf h.le ha.range ha.sort (fits_of ha) (ids_of_ok h.wf h.le hr) (fun _ => h.cov)
  rw [hr] at e; cases e; exact r

theorem Fresh.start {c : Col R} (h : Fresh c) (I : Ints) (S : Scn R) (dirty : Bool) : Start c I S dirty 0 :=
  ⟨h.wf, Nat.zero_le _, Or.inl rfl⟩

theorem After.start {c : Col R} {I J : Ints} {S S' : Scn R} (h : After c I S) (hn : S.n ≤ S'.n) {dirty a1 a2 : Bool} {a3 : Fin 3}
    (hs : dirty = true ∨ a1 = true ∨ a2 = true ∨ (Settled S S' ∧ ∀ i j, Joined I i j → Joined J i j)) :
    Start { c with doSort := a1, sortThenCollide := a2, sortAxis := a3 } J S' dirty S.n := by
  refine ⟨⟨h.ready.wf.size, h.ready.wf.full, h.ready.wf.per⟩, hn, ?_⟩
  rcases hs with hs | hs | hs | ⟨hs, hj⟩
  · exact Or.inr (Or.inr (Or.inl hs))
  · exact Or.inr (Or.inl hs)
  · exact Or.inr (Or.inr (Or.inr (Or.inl hs)))
  · refine Or.inr (Or.inr (Or.inr (Or.inr ⟨Elig S, ?_, ?_⟩)))
    · intro i j hij he hp
      rw [joined_iff]
      exact hj i j ((joined_iff I i j).mp (h.cov i j hij he hp))
    · intro i j hi hj he
      obtain ⟨e1, e2, e3⟩ := (elig_iff S' i j).mp he
      exact (elig_iff S i j).mpr (hs i j hi hj e1 e2 e3)

theorem Hist.after {c : Col R} {I : Ints} {S : Scn R} (h : Hist c I S) : After c I S := by
  induction h with
  | first hc ha hr => exact ((hc.start _ _ _).run ha hr).after
  | next h ha hn a1 a2 a3 hs hr ih => exact ((ih.start hn hs).run ha hr).after

theorem Prior.wf {c : Col R} {n : Nat} (h : Prior c n) : WF n c := by
  rcases h with ⟨h, rfl⟩ | ⟨c0, I, S, a1, a2, a3, h, rfl, rfl⟩
  · exact h.wf
  · have := h.after.ready.wf
    exact ⟨this.size, this.full, this.per⟩

theorem Prior.run {c : Col R} {n : Nat} (h : Prior c n) {P : Par R} {S : Scn R} (ha : Allowed P S) (hn : n ≤ S.n) {dirty : Bool}
    {I I' : Ints} {c' : Col R} (hr : action P S dirty c I = .ok (c', I')) : Run False S c c' I I' := by
  obtain ⟨c1, I1, e, r⟩ := run_spec (X := False) (P := P) h.wf hn ha.range ha.sort (fits_of ha) (ids_of_ok h.wf hn hr) False.elim
  rw [hr] at e; cases e; exact r

theorem meet_of_touch {S : Scn R} {c : Col R} (hc : Ready S c) (hr : InRange S) {i j : Nat} (hi : Boxed S i) (hj : Boxed S j)
    (h : Touch (cxOf S c) i j) : Meet S i j := by
  have li := hi.lt hr
  have lj := hj.lt hr
  obtain ⟨bi, bbi, i1, i2⟩ := hi
  obtain ⟨bj, bbj, j1, j2⟩ := hj
  have mi := hc.box i li bi bbi i1 i2
  have mj := hc.box j lj bj bbj j1 j2
  refine ⟨bbi.1, bbi.2, bbj.1, bbj.2, ⟨bi, i1, i2⟩, ⟨bj, j1, j2⟩, fun a => ?_⟩
  have := h a
  change c.mn i a ≤ c.mx j a ∧ c.mn j a ≤ c.mx i a at this
  rwa [mi.1, mi.2, mj.1, mj.2] at this

theorem touch_of_meet {S : Scn R} {c : Col R} (hc : Ready S c) (hr : InRange S) {i j : Nat} (h : Meet S i j) : Touch (cxOf S c) i j := by
  obtain ⟨lo, hi, lo', hi', ⟨bi, i1, i2⟩, ⟨bj, j1, j2⟩, hm⟩ := h
  have li : i < S.n := hr i (by rw [i1]; simp)
  have lj : j < S.n := hr j (by rw [j1]; simp)
  have mi := hc.box i li bi _ i1 i2
  have mj := hc.box j lj bj _ j1 j2
  intro a
  change c.mn i a ≤ c.mx j a ∧ c.mn j a ≤ c.mx i a
  rw [mi.1, mi.2, mj.1, mj.2]
  exact hm a

theorem After.found {c : Col R} {I : Ints} {S : Scn R} (h : After c I S) (hr : InRange S) {i j : Nat} (hij : i ≠ j) (hc : Collidable S i j)
    (ho : Overlap S i j) : Joined I i j := by
  obtain ⟨lo, hi, lo', hi', ⟨bi, i1, i2⟩, ⟨bj, j1, j2⟩, hm⟩ := ho
  have li : i < S.n := hr i (by rw [i1]; simp)
  have lj : j < S.n := hr j (by rw [j1]; simp)
  rw [← joined_iff]
  refine h.cov i j hij ((elig_iff S i j).mpr ⟨hc, ⟨lo, hi, bi, i1, i2⟩, ⟨lo', hi', bj, j1, j2⟩⟩) (fun a => ?_)
  exact posOv_of_strict h.ready h.sorted li lj i1 i2 j1 j2 a (hm a)

theorem Hist.range {c : Col R} {I : Ints} {S : Scn R} (h : Hist c I S) : InRange S := by
  cases h with
  | first hc ha hr => exact ha.range
  | next h ha hn a1 a2 a3 hs hr => exact ha.range

/-! ## Concrete scenes -/

/-- a body with the cube from `x` to `x+w` on the first axis, `[0,1]` on the others -/
def cube (x w : Int) (mask : Nat := 1) : CBody Int := ⟨⟨0, -1, mask, 0, false⟩, some (fun a => if a = 0 then x else 0, fun a => if a = 0 then x + w else 1), fun _ => 0⟩

/-- a scene with these bodies -/
def scene (bs : List (Option (CBody Int))) : Scn Int := ⟨bs.length, fun i => (bs[i]?).join, 0, 0⟩

/-- sort by coordinates, one thread -/
def par1 : Par Int := ⟨List.insertionSort (fun a b => a.coord ≤ b.coord), 1, fun _ => false⟩

/-- a fresh collider -/
def col0 : Col Int := ⟨fun _ => [], 0, fun _ _ => 0, fun _ _ => 0, 0, false, false, false, 0⟩

theorem fresh0 : Fresh col0 := ⟨rfl, fun _ => rfl, rfl⟩

theorem scene_range (bs : List (Option (CBody Int))) (i : Nat) (h : (scene bs).body i ≠ none) : i < (scene bs).n := by
  refine Classical.byContradiction fun hn => h ?_
  show (bs[i]?).join = none
  rw [List.getElem?_eq_none (Nat.not_lt.mp hn)]; rfl

theorem allowed1 (bs : List (Option (CBody Int))) : Allowed par1 (scene bs) := by
  refine ⟨scene_range bs, fun v => ⟨List.perm_insertionSort _ v, ?_⟩, Or.inl (Nat.le_refl 1)⟩
  have : Std.Total (fun a b : Bd Int => a.coord ≤ b.coord) := ⟨fun a b => le_total _ _⟩
  have : IsTrans (Bd Int) (fun a b => a.coord ≤ b.coord) := ⟨fun a b c h1 h2 => le_trans h1 h2⟩
  exact List.pairwise_insertionSort _ v

/-- the result of a run (the fresh collider if it failed) -/
def out : Res (Col Int × Ints) → Col Int × Ints
  | .ok r => r
  | _ => (col0, [])

/-- the run completed -/
def done : Res (Col Int × Ints) → Bool
  | .ok _ => true
  | _ => false

theorem out_ok {r : Res (Col Int × Ints)} (h : done r = true) : r = .ok ((out r).1, (out r).2) := by
  cases r with
  | ok r => rfl
  | throws => cases h
  | ub => cases h

/-- a run with default attributes -/
def go (bs : List (Option (CBody Int))) (r : Col Int × Ints) : Res (Col Int × Ints) := action par1 (scene bs) false r.1 r.2

/-- two plain bodies with a common mask bit may collide -/
theorem compatible_plain {m1 m2 : Nat} (h : decide (m1 &&& m2 ≠ 0) = true) :
    Compatible 0 0 ⟨0, -1, m1, 0, false⟩ ⟨0, -1, m2, 0, false⟩ := by
  refine ⟨(testBit_and m1 m2).mp h, ?_, ?_, ?_, Or.inl rfl, fun _ => ⟨rfl, rfl⟩⟩
  · rintro ⟨_, k, _, h⟩; simp at h
  · rintro b (rfl | rfl) ⟨h, _⟩ <;> exact h rfl
  · rintro ⟨h, _⟩; exact h rfl

/-! ## C23: the pair filter -/

/-- C23, for existing bodies: the filter is exactly compatibility, and is symmetric. Missing: deleted bodies (null pointers) are
not answered with 'no', see `C23_violated_null`. -/
theorem C23_filter_partial (avoid : Nat) (sub : Int) (b1 b2 : Flt) :
    ∃ d, mayCollide avoid sub (some b1) (some b2) = .ok d ∧ mayCollide avoid sub (some b2) (some b1) = .ok d ∧
      (d = true ↔ Compatible avoid sub b1 b2) := by
  refine ⟨filter avoid sub b1 b2, rfl, ?_, filter_iff avoid sub b1 b2⟩
  rw [filter_comm]; rfl

/-- C23 does not hold for a deleted body: the subdomain is read through the null pointer before it is tested -/
theorem C23_violated_null (avoid : Nat) (sub : Int) (b : Option Flt) :
    mayCollide avoid sub none b = .ub ∧ mayCollide avoid sub b none = .ub := by
  cases b <;> exact ⟨rfl, rfl⟩

-- masks 6 and 3 share bit 1; two members of different clumps in subdomain 0
example : Compatible 0 0 ⟨4, 9, 6, 0, false⟩ ⟨5, 8, 3, 0, false⟩ := (filter_iff ..).mp (by decide)
-- same mask that is self-avoiding
example : ¬ Compatible 2 0 ⟨4, -1, 2, 0, false⟩ ⟨5, -1, 2, 0, false⟩ := fun h => h.self ⟨rfl, 1, by decide, by decide⟩

/-! ## C24: the lists -/

/-- C24: after every run the list of every axis is sorted, contains the lower and the upper bound of every body once and
nothing else, and the bounds of a body with a box carry the box. -/
theorem C24_sorted_permutation {c : Col R} {I : Ints} {S : Scn R} (h : Hist c I S) (a : Fin 3) :
    (c.vec a).Pairwise (fun x y => x.coord ≤ y.coord) ∧ (c.vec a).length = 2 * S.n ∧
    (∀ i, i < S.n → ∀ m, ∃ x ∈ c.vec a, x.id = i ∧ x.isMin = m) ∧
    (∀ x ∈ c.vec a, x.id < S.n ∧ ∀ y ∈ c.vec a, x.id = y.id → x.isMin = y.isMin → x = y) ∧
    (∀ x ∈ c.vec a, ∀ lo hi, HasBox S x.id lo hi → x.coord = if x.isMin then lo a else hi a) := by
  have ha := h.after
  have hf := ha.ready.wf.full a
  refine ⟨ha.sorted a, hf.length, fun i hi m => ?_, fun x hx => ⟨hf.lt hx, fun y hy h1 h2 => ?_⟩, ?_⟩
  · obtain ⟨x, hx, hk⟩ := hf.exists hi m
    exact ⟨x, hx, congrArg Prod.fst hk, congrArg Prod.snd hk⟩
  · exact hf.nk.eq hx hy (by unfold key; rw [h1, h2])
  · rintro x hx lo hi ⟨b, h1, h2⟩
    exact ((ha.ready.carry a x hx).2 b (lo, hi) h1 h2).2

/-- C24: a run always completes, if the ids of potential interactions are those of body slots -/
theorem C24_run_completes {c : Col R} {n : Nat} {J : Ints} {S : Scn R} (h : Prior c n) {P : Par R} (ha : Allowed P S) (hn : n ≤ S.n)
    (dirty : Bool) (hid : ∀ e ∈ J, e.real = true ∨ (e.a < S.n ∧ e.b < S.n)) : ∃ r, action P S dirty c J = .ok r := by
  obtain ⟨c', I', e, _⟩ := run_spec (X := False) (P := P) (dirty := dirty) (I := J) h.wf hn ha.range ha.sort (fits_of ha) hid False.elim
  exact ⟨_, e⟩

/-- first scene of the example: two bodies apart -/
def sc1 : List (Option (CBody Int)) := [some (cube 0 5), some (cube 10 5)]
/-- second scene: both moved, body 0 jumped over body 1, body 2 was added -/
def sc2 : List (Option (CBody Int)) := [some (cube 20 5), some (cube 3 5), some (cube 4 5)]

theorem sc_body (bs : List (Option (CBody Int))) (i : Nat) : (scene bs).body i = (bs[i]?).join := rfl

theorem settled12 : Settled (scene sc1) (scene sc2) := by
  intro i j hi hj _ _ _
  have hi' : i = 0 ∨ i = 1 := by have : i < 2 := hi; omega
  have hj' : j = 0 ∨ j = 1 := by have : j < 2 := hj; omega
  have hb : ∀ k, k = 0 ∨ k = 1 → ∃ x w, (scene sc1).body k = some (cube x w) := by
    rintro k (rfl | rfl)
    · exact ⟨0, 5, rfl⟩
    · exact ⟨10, 5, rfl⟩
  obtain ⟨x, w, e⟩ := hb i hi'
  obtain ⟨x', w', e'⟩ := hb j hj'
  exact ⟨⟨_, _, e, e', compatible_plain (by decide)⟩, ⟨_, _, _, e, rfl⟩, ⟨_, _, _, e', rfl⟩⟩

-- a history with two runs; bodies 1 and 2 overlap in the second scene and got an interaction, nothing else did
theorem hist_example : Hist (out (go sc2 (out (go sc1 (col0, []))))).1 (out (go sc2 (out (go sc1 (col0, []))))).2 (scene sc2) ∧
    (out (go sc2 (out (go sc1 (col0, []))))).2 = [⟨2, 1, false⟩] := by
  refine ⟨?_, by decide +kernel⟩
  have h1 : Hist (out (go sc1 (col0, []))).1 (out (go sc1 (col0, []))).2 (scene sc1) :=
    .first (P := par1) (dirty := false) (I := []) fresh0 (allowed1 _) (out_ok (r := go sc1 (col0, [])) (by decide +kernel))
  refine .next (P := par1) (dirty := false) h1 (allowed1 sc2) (by decide) false false 0 (Or.inr (Or.inr (Or.inr ⟨settled12, fun i j h => h⟩))) ?_
  exact out_ok (r := go sc2 (out (go sc1 (col0, [])))) (by decide +kernel)

/-! ## C25, C26: completeness -/

/-- C25: after any number of runs with arbitrary motion between them, every pair of collidable bodies whose boxes overlap has an
interaction. -/
theorem C25_no_overlap_missed {c : Col R} {I : Ints} {S : Scn R} (h : Hist c I S) {i j : Nat} (hij : i ≠ j) (hc : Collidable S i j)
    (ho : Overlap S i j) : Joined I i j := h.after.found h.range hij hc ho

-- in the example the overlapping pair is 1, 2
example : Overlap (scene sc2) 1 2 ∧ Collidable (scene sc2) 1 2 :=
  ⟨⟨_, _, _, _, ⟨_, rfl, rfl⟩, ⟨_, rfl, rfl⟩, by decide⟩, ⟨_, _, rfl, rfl, compatible_plain (by decide)⟩⟩

/-- C26: after a run with an initial sort (asked for by the user, by dirty interactions, because the collider runs for the first
time) or with `sortThenCollide`, along any axis, every pair of collidable bodies whose boxes overlap has an interaction,
whatever was there before. -/
theorem C26_initial_sweep {c c' : Col R} {n : Nat} {J J' : Ints} {S : Scn R} (h : Prior c n) {P : Par R} (ha : Allowed P S) (hn : n ≤ S.n)
    {dirty : Bool} (hinit : n = 0 ∨ c.doSort = true ∨ dirty = true ∨ c.sortThenCollide = true)
    (hr : action P S dirty c J = .ok (c', J')) {i j : Nat} (hij : i ≠ j) (hc : Collidable S i j) (ho : Overlap S i j) : Joined J' i j := by
  have hst : Start c J S dirty n := ⟨h.wf, hn, by
    rcases hinit with h | h | h | h
    · exact Or.inl h
    · exact Or.inr (Or.inl h)
    · exact Or.inr (Or.inr (Or.inl h))
    · exact Or.inr (Or.inr (Or.inr (Or.inl h)))⟩
  exact (hst.run ha hr).after.found ha.range hij hc ho

-- the second scene seen by a fresh collider sweeping along the third axis
example : ∃ r, action par1 (scene sc2) false { col0 with sortAxis := 2 } [] = .ok r ∧ r.2 = [⟨1, 2, false⟩] :=
  ⟨_, out_ok (by decide +kernel), by decide +kernel⟩

/-! ## C27: nothing spurious, nothing obsolete -/

/-- C27: an interaction made by a run is potential and joins two different collidable bodies whose boxes meet. -/
theorem C27_nothing_spurious {c c' : Col R} {n : Nat} {J J' : Ints} {S : Scn R} (h : Prior c n) {P : Par R} (ha : Allowed P S) (hn : n ≤ S.n)
    {dirty : Bool} (hr : action P S dirty c J = .ok (c', J')) :
    ∀ e ∈ J', e ∈ J ∨ (e.real = false ∧ e.a ≠ e.b ∧ Collidable S e.a e.b ∧ Meet S e.a e.b) := by
  have hrun := h.run ha hn hr
  intro e he
  rcases hrun.new e he with x | ⟨x1, x2⟩
  · exact Or.inl x.1
  · right
    have hw := (wanted_iff (cxOf S c') e.a e.b).mp x2.wanted
    exact ⟨x1, x2.ne, (pair_iff S _ _).mp hw.2.2.2, meet_of_touch hrun.ready ha.range x2.left x2.right hw.2.2.1⟩

/-- C27: no run removes a real interaction, nor a potential one whose boxes meet. -/
theorem C27_kept {c c' : Col R} {n : Nat} {J J' : Ints} {S : Scn R} (h : Prior c n) {P : Par R} (ha : Allowed P S) (hn : n ≤ S.n)
    {dirty : Bool} (hr : action P S dirty c J = .ok (c', J')) : ∀ e ∈ J, e.real = true ∨ Meet S e.a e.b → e ∈ J' := by
  have hrun := h.run ha hn hr
  intro e he hk
  refine hrun.kept e he ?_
  rcases hk with hk | hk
  · exact Or.inl hk
  · exact Or.inr (touch_of_meet hrun.ready ha.range hk)

/-- C27, nothing obsolete: no potential interaction remains between bodies with boxes that do not meet. Missing: deleted bodies
and bodies without box, see `C27_violated_deleted`. -/
theorem C27_nothing_obsolete_partial {c c' : Col R} {n : Nat} {J J' : Ints} {S : Scn R} (h : Prior c n) {P : Par R} (ha : Allowed P S)
    (hn : n ≤ S.n) {dirty : Bool} (hr : action P S dirty c J = .ok (c', J')) :
    ∀ e ∈ J', e.real = false → (∃ lo hi, HasBox S e.a lo hi) → (∃ lo hi, HasBox S e.b lo hi) → Meet S e.a e.b := by
  have hrun := h.run ha hn hr
  intro e he hr' ha' hb'
  rcases hrun.new e he with ⟨_, x | x⟩ | ⟨_, x⟩
  · rw [hr'] at x; cases x
  · exact meet_of_touch hrun.ready ha.range ((boxed_iff S _).mpr ha') ((boxed_iff S _).mpr hb') x
  · exact meet_of_touch hrun.ready ha.range x.left x.right ((wanted_iff (cxOf S c') e.a e.b).mp x.wanted).2.2.1

-- body 1 moves away and touches body 2 instead: the first interaction goes, the second comes
example : (out (go [some (cube 0 2), some (cube 1 2), some (cube 9 2)] (col0, []))).2 = [⟨0, 1, false⟩] ∧
    (out (go [some (cube 0 2), some (cube 8 2), some (cube 9 2)] (out (go [some (cube 0 2), some (cube 1 2), some (cube 9 2)] (col0, []))))).2
      = [⟨2, 1, false⟩] := by decide +kernel

/-- C27 does not hold for deleted bodies: the potential interaction of a body that was erased stays, because the stored box of
the body is compared. -/
theorem C27_violated_deleted : ∃ c c' I I', Prior c 2 ∧ action par1 (scene [some (cube 0 2), none]) false c I = .ok (c', I') ∧
    Joined I' 0 1 ∧ (∀ e ∈ I', e.real = false) ∧ (scene [some (cube 0 2), none]).body 1 = none := by
  let r1 := out (go [some (cube 0 2), some (cube 1 2)] (col0, []))
  let r2 := out (go [some (cube 0 2), none] r1)
  have hI : r2.2 = [⟨0, 1, false⟩] := by decide +kernel
  refine ⟨r1.1, r2.1, r1.2, r2.2, Or.inr ⟨r1.1, r1.2, scene [some (cube 0 2), some (cube 1 2)], r1.1.doSort, r1.1.sortThenCollide,
    r1.1.sortAxis, ?_, rfl, rfl⟩, out_ok (r := go [some (cube 0 2), none] r1) (by decide +kernel), ?_, ?_, rfl⟩
  · exact .first (P := par1) (dirty := false) (I := []) fresh0 (allowed1 _)
      (out_ok (r := go [some (cube 0 2), some (cube 1 2)] (col0, [])) (by decide +kernel))
  · rw [hI]; exact ⟨_, List.mem_singleton.mpr rfl, Or.inl ⟨rfl, rfl⟩⟩
  · rw [hI]; intro e he; rw [List.mem_singleton.mp he]

/-! ## C28: the parallel sort -/

/-- C28: for lists with at least two bounds per squared thread number the parallel sort reads nothing outside the list and gives
the coordinates in the same order as the sort with one thread. Missing: shorter lists, see `C28_violated_start` and
`C28_violated_last`. -/
theorem C28_parallel_sort_partial {C : Cx R} {v : List (Bd R)} (hbox : ∀ x ∈ v, x.hasBB = true → x.id < C.nmm ∧ ∃ lo hi, HasBox C.S x.id lo hi)
    (hnd : v.Pairwise (fun x y => ¬ (x.id = y.id ∧ x.isMin = y.isMin))) (dc : Bool) (threads : Nat) (narrow : Nat → Bool) (I : Ints)
    (ht : 2 * (threads * threads) ≤ v.length) :
    ∃ I' w I1 w1, insertionSortParallel C dc threads narrow I v = .ok (I', w) ∧ insertionSort C dc I v = .ok (I1, w1) ∧
      w.Perm v ∧ w.Pairwise (fun x y => x.coord ≤ y.coord) ∧ w.map (·.coord) = w1.map (·.coord) := by
  have hs : Safe C v := fun x hx hb => ⟨(hbox x hx hb).1, (boxed_iff C.S x.id).mpr (hbox x hx hb).2⟩
  have hn : NK v := by
    unfold NK
    rw [List.Nodup, List.pairwise_map]
    refine hnd.imp (fun {x y} h e => h ⟨congrArg Prod.fst e, congrArg Prod.snd e⟩)
  obtain ⟨I', w, a1, a2, a3, _⟩ := insertionSortParallel_spec (dc := dc) hs hn I threads narrow (fun m h1 h2 => chunksFit_of h1 h2 ht)
  obtain ⟨I1, w1, b1, b2, b3, _⟩ := insertionSort_spec (dc := dc) hs hn I
  refine ⟨I', w, I1, w1, a1, b1, a2, a3, ?_⟩
  refine List.Perm.eq_of_pairwise (le := fun a b : R => a ≤ b) (fun a b _ _ h1 h2 => le_antisymm h1 h2) ?_ ?_ ((a2.trans b2.symm).map _)
  · exact List.pairwise_map.mpr a3
  · exact List.pairwise_map.mpr b3

/-- InsertionSortCollider.cpp:116 `halfChunkStart` for border `k` -/
def halfStart (cs k : Nat) : Nat := k * cs - (cs + 1) / 2
/-- InsertionSortCollider.cpp:117 `halfChunkEnd` for border `k` -/
def halfEnd (cs k : Nat) : Nat := k * cs + cs / 2

/-- C28: the index ranges written by different threads in the second sort are disjoint, so the order in which the borders are
treated does not matter. -/
theorem C28_ranges_disjoint (cs : Nat) {k k' : Nat} (h : k < k') : halfEnd cs k ≤ halfStart cs k' := by
  unfold halfEnd halfStart
  have : (k + 1) * cs ≤ k' * cs := Nat.mul_le_mul_right cs h
  rw [Nat.succ_mul] at this
  omega

/-- C28 does not hold: with 1000 bodies and 64 threads the start of the last chunk is behind the end of every list. -/
theorem C28_violated_start (C : Cx R) (dc : Bool) (narrow : Nat → Bool) (I : Ints) (v : List (Bd R)) (hv : v.length = 2000) :
    insertionSortParallel C dc 64 narrow I v = .ub := by
  unfold insertionSortParallel
  rw [if_neg (by omega), hv]
  have : chunkLoop 2000 narrow 64 = .ub := by
    show (if 63 * chunkSize 2000 64 < 2000 then _ else _) = _
    rw [if_neg (by decide)]
  rw [this]

/-- bounds without box at these coordinates -/
def plain (l : List Int) : List (Bd Int) := l.mapIdx (fun i x => ⟨x, i / 2, decide (i % 2 = 0), false⟩)

/-- C28 does not hold: when the last chunk is shorter than half a chunk and its bounds moved before all those of the preceding
half chunk, the second sort goes on behind the end of the list (20 bounds, 4 threads). -/
theorem C28_violated_last (C : Cx Int) (I : Ints) :
    insertionSortParallel C true 4 (fun _ => false) I
      (plain [0, 10, 20, 30, 40, 50, 60, 70, 80, 90, 100, 110, 120, 130, 140, 150, 160, 170, 1, 2]) = .ub := by rfl

-- five threads, 50 bounds, shuffled: the chunks fit
example : 2 * (5 * 5) ≤ (plain ((List.range 50).map (fun i => ((i * 37 % 50 : Nat) : Int)))).length := by decide

/-! ## C29: the order of bounds -/

/-- C29, what is true: the comparison is transitive, and asymmetric for two different bounds. Missing: it is neither irreflexive nor
is incomparability transitive, see `C29_violated_irreflexive`, `C29_violated_incomparable`. -/
theorem C29_order_partial (a b c : Bd R) :
    (a.lt b = true → b.lt c = true → a.lt c = true) ∧ (¬ (a.id = b.id ∧ a.isMin = b.isMin) → a.lt b = true → b.lt a = false) ∧
    (¬ (a.id = b.id ∧ a.isMin = b.isMin) → a.gt b = b.lt a) := by
  unfold Bd.lt Bd.gt
  refine ⟨fun h1 h2 => ?_, fun hn h1 => ?_, fun hn => ?_⟩
  · split at h1
    · rename_i e1
      split at h2
      · rename_i e2; rw [if_pos ⟨e1.1.trans e2.1, e1.2.trans e2.2⟩]; exact h1
      · have h2' := of_decide_eq_true h2
        rw [e1.2, if_neg (fun e => absurd e.2 (ne_of_lt h2'))]; exact h2
    · have h1' := of_decide_eq_true h1
      split at h2
      · rename_i e2
        rw [if_neg (fun e => absurd (e.2.trans e2.2.symm) (ne_of_lt h1')), ← e2.2]; exact h1
      · have h2' := of_decide_eq_true h2
        have h3 := lt_trans h1' h2'
        rw [if_neg (fun e => absurd e.2 (ne_of_lt h3))]; exact decide_eq_true h3
  · split at h1
    · rename_i e1
      rw [if_pos ⟨e1.1.symm, e1.2.symm⟩]
      cases hb : b.isMin with
      | false => rfl
      | true => exact absurd ⟨e1.1, h1.trans hb.symm⟩ hn
    · have h1' := of_decide_eq_true h1
      rw [if_neg (fun e => absurd e.2.symm (ne_of_lt h1'))]
      exact decide_eq_false (not_lt.mpr (le_of_lt h1'))
  · by_cases e : a.id = b.id ∧ a.coord = b.coord
    · rw [if_pos e, if_pos ⟨e.1.symm, e.2.symm⟩]
      cases ha : a.isMin <;> cases hb : b.isMin <;> first | rfl | exact absurd ⟨e.1, ha.trans hb.symm⟩ hn
    · rw [if_neg e, if_neg (fun e' => e ⟨e'.1.symm, e'.2.symm⟩)]

/-- C29 does not hold: every lower bound is smaller than itself. -/
theorem C29_violated_irreflexive (a : Bd R) (h : a.isMin = true) : a.lt a = true := by unfold Bd.lt; simp [h]

/-- C29 does not hold: the lower bound of a body without extension is not comparable with a bound of another body at the same
place, nor that with the upper bound, but the lower is smaller than the upper bound. -/
theorem C29_violated_incomparable (x : R) : ∃ a b c : Bd R, a.lt b = false ∧ b.lt a = false ∧ b.lt c = false ∧ c.lt b = false ∧
    a.lt c = true := by
  refine ⟨⟨x, 0, true, true⟩, ⟨x, 1, true, true⟩, ⟨x, 0, false, true⟩, ?_⟩
  simp [Bd.lt]

example : ¬ ((⟨3, 0, true, true⟩ : Bd Int).id = (⟨3, 0, false, true⟩ : Bd Int).id ∧ (⟨3, 0, true, true⟩ : Bd Int).isMin = (⟨3, 0, false, true⟩ : Bd Int).isMin) ∧
    (⟨3, 0, true, true⟩ : Bd Int).lt ⟨3, 0, false, true⟩ = true := by decide

/-! ## C67: other numbers of bodies, other periodicity -/

/-- C67, what is true: the collider goes on if bodies were added, and if all were removed. Missing: fewer bodies, and a change of
periodicity, see `C67_violated_fewer`, `C67_violated_periodic`. -/
theorem C67_restart_partial {c : Col R} {n : Nat} {J : Ints} {S : Scn R} (h : Prior c n) {P : Par R} (ha : Allowed P S)
    (hn : n ≤ S.n ∨ S.n = 0) (dirty : Bool) (hid : ∀ e ∈ J, e.real = true ∨ (e.a < S.n ∧ e.b < S.n)) : ∃ r, action P S dirty c J = .ok r := by
  by_cases hle : n ≤ S.n
  · exact C24_run_completes h ha hle dirty hid
  · have h0 : S.n = 0 := by
      rcases hn with h | h
      · exact absurd h hle
      · exact h
    have hw := h.wf
    -- as a collider without bodies, up to the stored boxes
    let c0 : Col R := { c with vec := fun _ => [], size := 0 }
    have hw0 : WF 0 c0 := ⟨rfl, fun _ => List.Perm.refl _, hw.per⟩
    have hres : resize c S.n = resize c0 S.n := by
      rw [h0]
      have e0 : resize c0 0 = (c0, false) := by simp [resize, c0]
      rw [e0]
      unfold resize
      rw [hw.size, if_pos (by omega)]
      have e1 : (0 : Nat) - 2 * n / 2 = 0 := by omega
      have e2 : (2 * 0 : Nat) < 2 * n := by omega
      simp only [e1, newBounds, if_pos e2]
      have e3 : n ≠ 0 := by omega
      simp [c0, e3]
      omega
    obtain ⟨c', I', e, _⟩ := run_spec (X := False) (P := P) (dirty := dirty) (I := J) hw0 (Nat.zero_le _) ha.range ha.sort (fits_of ha) hid False.elim
    refine ⟨(c', I'), ?_⟩
    rw [← e]
    have d0 : dropPeriodic c0 = c0 := by unfold dropPeriodic; rw [hw0.per]; rfl
    have d1 : dropPeriodic c = c := by unfold dropPeriodic; rw [hw.per]; rfl
    unfold action
    simp only [d0, d1, hres]
    rfl

/-- C67 does not hold for fewer bodies (`O.bodies.clear()` and new bodies, the collider staying in place): the lists are emptied
but the cached size prevents that bounds are added, and the run reads outside the lists. -/
theorem C67_violated_fewer {c : Col R} {n : Nat} (h : Prior c n) (P : Par R) {S : Scn R} (hn : S.n < n) (h0 : 0 < S.n) (dirty : Bool) (J : Ints) :
    action P S dirty c J = .ub := by
  have hw := h.wf
  have d1 : dropPeriodic c = c := by unfold dropPeriodic; rw [hw.per]; rfl
  have hv : ∀ j, (resize c S.n).1.vec j = [] := by
    intro j
    unfold resize
    rw [hw.size, if_pos (by omega)]
    have e1 : S.n - 2 * n / 2 = 0 := by omega
    have e2 : 2 * S.n < 2 * n := by omega
    simp only [e1, newBounds, if_pos e2]; rfl
  unfold action
  rw [d1]
  simp only
  unfold copy
  rw [if_neg (fun hc => by
    have := hc 0
    simp only [hv] at this
    simp at this; omega)]

/-- C67 does not hold when the scene stops being periodic: the lists are emptied but their cached size is not. -/
theorem C67_violated_periodic {c : Col R} (P : Par R) {S : Scn R} (hp : c.periodic = true) (hs : c.size = 2 * S.n) (h0 : 0 < S.n) (dirty : Bool)
    (J : Ints) : action P S dirty c J = .ub := by
  have d1 : dropPeriodic c = { c with vec := fun _ => [], periodic := false } := by unfold dropPeriodic; rw [hp]; rfl
  have hv : resize (dropPeriodic c) S.n = (dropPeriodic c, false) := by
    unfold resize; rw [if_neg (by rw [d1]; exact not_not.mpr hs)]
  unfold action
  simp only
  unfold copy
  rw [if_neg (fun hc => by
    have := hc 0
    rw [hv, d1] at this
    simp at this; omega)]

-- three bodies after two
example : ∃ c, Prior c 2 ∧ ∃ r, action par1 (scene sc2) false c [] = .ok r ∧ r.2 = [⟨2, 1, false⟩] :=
  ⟨(out (go sc1 (col0, []))).1, Or.inr ⟨_, _, scene sc1, (out (go sc1 (col0, []))).1.doSort, (out (go sc1 (col0, []))).1.sortThenCollide,
    (out (go sc1 (col0, []))).1.sortAxis, .first (P := par1) (dirty := false) (I := []) fresh0 (allowed1 _)
      (out_ok (r := go sc1 (col0, [])) (by decide +kernel)), rfl, rfl⟩,
    _, out_ok (by decide +kernel), by decide +kernel⟩

/-! ## C68: changes of masks at run time -/

/-- C68, what is true: when the masks, subdomains, clumps or boxes of bodies were changed, a run with an initial sort finds every
overlap of collidable bodies. Missing: an ordinary run, see `C68_violated_mask`. -/
theorem C68_changed_filter_partial {c c' : Col R} {n : Nat} {J J' : Ints} {S : Scn R} (h : Prior c n) {P : Par R} (ha : Allowed P S)
    (hn : n ≤ S.n) {dirty : Bool} (hinit : c.doSort = true ∨ dirty = true) (hr : action P S dirty c J = .ok (c', J')) :
    ∀ i j, i ≠ j → Collidable S i j → Overlap S i j → Joined J' i j := fun i j hij hc ho =>
  C26_initial_sweep h ha hn (by rcases hinit with h | h; exacts [Or.inr (Or.inl h), Or.inr (Or.inr (Or.inl h))]) hr hij hc ho

/-- C68 does not hold for an ordinary run: two overlapping bodies are given a common mask bit, and get no interaction. -/
theorem C68_violated_mask : ∃ c c' I', Prior c 2 ∧ action par1 (scene [some (cube 0 2), some (cube 1 2)]) false c [] = .ok (c', I') ∧
    Collidable (scene [some (cube 0 2), some (cube 1 2)]) 0 1 ∧ Overlap (scene [some (cube 0 2), some (cube 1 2)]) 0 1 ∧ ¬ Joined I' 0 1 := by
  let r1 := out (go [some (cube 0 2), some (cube 1 2 2)] (col0, []))
  let r2 := out (go [some (cube 0 2), some (cube 1 2)] (r1.1, []))
  have hI : r2.2 = [] := by decide +kernel
  refine ⟨r1.1, r2.1, r2.2, Or.inr ⟨r1.1, r1.2, scene [some (cube 0 2), some (cube 1 2 2)], r1.1.doSort, r1.1.sortThenCollide,
    r1.1.sortAxis, ?_, rfl, rfl⟩, out_ok (r := go [some (cube 0 2), some (cube 1 2)] (r1.1, [])) (by decide +kernel), ?_, ?_, ?_⟩
  · exact .first (P := par1) (dirty := false) (I := []) fresh0 (allowed1 _)
      (out_ok (r := go [some (cube 0 2), some (cube 1 2 2)] (col0, [])) (by decide +kernel))
  · exact ⟨_, _, rfl, rfl, compatible_plain (by decide)⟩
  · exact ⟨_, _, _, _, ⟨_, rfl, rfl⟩, ⟨_, rfl, rfl⟩, by decide⟩
  · rw [hI]; rintro ⟨e, he, _⟩; cases he

-- the same change with an initial sort asked for
example : ∃ r, action par1 (scene [some (cube 0 2), some (cube 1 2)]) false
    { (out (go [some (cube 0 2), some (cube 1 2 2)] (col0, []))).1 with doSort := true } [] = .ok r ∧ r.2 = [⟨0, 1, false⟩] :=
  ⟨_, out_ok (by decide +kernel), by decide +kernel⟩

/-! ## C69: boxes that only touch -/

/-- C69, what is true: an interaction between bodies whose boxes meet, if only in a face, is not removed. Missing: whether there is
one depends on where the bodies came from, see `C69_violated_history`. -/
theorem C69_touching_kept_partial {c c' : Col R} {n : Nat} {J J' : Ints} {S : Scn R} (h : Prior c n) {P : Par R} (ha : Allowed P S) (hn : n ≤ S.n)
    {dirty : Bool} (hr : action P S dirty c J = .ok (c', J')) {i j : Nat} (hm : Meet S i j) (hj : Joined J i j) : Joined J' i j := by
  obtain ⟨e, he, hij⟩ := hj
  refine ⟨e, C27_kept h ha hn hr e he (Or.inr ?_), hij⟩
  rcases hij with ⟨h1, h2⟩ | ⟨h1, h2⟩
  · rw [h1, h2]; exact hm
  · rw [h1, h2]
    obtain ⟨lo, hi, lo', hi', a, b, k⟩ := hm
    exact ⟨lo', hi', lo, hi, b, a, fun x => ⟨(k x).2, (k x).1⟩⟩

/-- C69 does not hold: two boxes that touch in a face have an interaction if they overlapped before, none if they were apart. -/
theorem C69_violated_history : ∃ c1 c2 I1 I2,
    Hist c1 I1 (scene [some (cube 0 1), some (cube 1 1)]) ∧ Hist c2 I2 (scene [some (cube 0 1), some (cube 1 1)]) ∧
    Meet (scene [some (cube 0 1), some (cube 1 1)]) 0 1 ∧ Joined I1 0 1 ∧ ¬ Joined I2 0 1 := by
  have settled : ∀ x, Settled (scene [some (cube 0 1), some (cube x 1)]) (scene [some (cube 0 1), some (cube 1 1)]) := by
    intro x i j hi hj _ _ _
    have hi' : i = 0 ∨ i = 1 := by have : i < 2 := hi; omega
    have hj' : j = 0 ∨ j = 1 := by have : j < 2 := hj; omega
    have hb : ∀ k, k = 0 ∨ k = 1 → ∃ y w, (scene [some (cube 0 1), some (cube x 1)]).body k = some (cube y w) := by
      rintro k (rfl | rfl)
      · exact ⟨0, 1, rfl⟩
      · exact ⟨x, 1, rfl⟩
    obtain ⟨x, w, e⟩ := hb i hi'
    obtain ⟨x', w', e'⟩ := hb j hj'
    exact ⟨⟨_, _, e, e', compatible_plain (by decide)⟩, ⟨_, _, _, e, rfl⟩, ⟨_, _, _, e', rfl⟩⟩
  have hist : ∀ x, done (go [some (cube 0 1), some (cube x 1)] (col0, [])) = true →
      done (go [some (cube 0 1), some (cube 1 1)] (out (go [some (cube 0 1), some (cube x 1)] (col0, [])))) = true →
      Hist (out (go [some (cube 0 1), some (cube 1 1)] (out (go [some (cube 0 1), some (cube x 1)] (col0, []))))).1
        (out (go [some (cube 0 1), some (cube 1 1)] (out (go [some (cube 0 1), some (cube x 1)] (col0, []))))).2
        (scene [some (cube 0 1), some (cube 1 1)]) := by
    intro x d1 d2
    have h1 : Hist (out (go [some (cube 0 1), some (cube x 1)] (col0, []))).1 (out (go [some (cube 0 1), some (cube x 1)] (col0, []))).2
        (scene [some (cube 0 1), some (cube x 1)]) :=
      .first (P := par1) (dirty := false) (I := []) fresh0 (allowed1 _) (out_ok (r := go _ (col0, [])) d1)
    exact .next (P := par1) (dirty := false) h1 (allowed1 _) (Nat.le_refl 2) (out (go [some (cube 0 1), some (cube x 1)] (col0, []))).1.doSort
      (out (go [some (cube 0 1), some (cube x 1)] (col0, []))).1.sortThenCollide (out (go [some (cube 0 1), some (cube x 1)] (col0, []))).1.sortAxis
      (Or.inr (Or.inr (Or.inr ⟨settled x, fun i j h => h⟩))) (out_ok d2)
  have hI1 : (out (go [some (cube 0 1), some (cube 1 1)] (out (go [some (cube 0 1), some (cube 0 1)] (col0, []))))).2 = [⟨0, 1, false⟩] := by
    decide +kernel
  have hI2 : (out (go [some (cube 0 1), some (cube 1 1)] (out (go [some (cube 0 1), some (cube 2 1)] (col0, []))))).2 = [] := by
    decide +kernel
  refine ⟨_, _, _, _, hist 0 (by decide +kernel) (by decide +kernel), hist 2 (by decide +kernel) (by decide +kernel),
    ⟨_, _, _, _, ⟨_, rfl, rfl⟩, ⟨_, rfl, rfl⟩, by decide⟩, ?_, ?_⟩
  · rw [hI1]; exact ⟨_, List.mem_singleton.mpr rfl, Or.inl ⟨rfl, rfl⟩⟩
  · rw [hI2]; rintro ⟨e, he, _⟩; cases he

end Verif.Collide
