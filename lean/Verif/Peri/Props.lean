import Verif.Peri.Run
import Mathlib.Data.List.Sort
/-!
# Properties of the collider in periodic scenes: C95, C96
-/
namespace Verif.Peri
open Verif Verif.Collide

variable {R : Type} [Field R] [LinearOrder R] [IsStrictOrderedRing R] [FloorRing R]

set_option linter.unusedSectionVars false

/-! ## Specification -/

/-- there is an interaction between `i` and `j` -/
def JoinedP (I : PInts) (i j : Nat) : Prop := ∃ e ∈ I, (e.a = i ∧ e.b = j) ∨ (e.a = j ∧ e.b = i)

/-- the box of `i` and the box of `j` moved by `m` periods of sizes `dim` have inner points in common -/
def OverlapAt (S : Scn R) (dim : Fin 3 → R) (i j : Nat) (m : Fin 3 → Int) : Prop :=
  ∃ lo hi lo' hi', HasBox S i lo hi ∧ HasBox S j lo' hi' ∧ ∀ a, lo a < hi' a + m a * dim a ∧ lo' a + m a * dim a < hi a

/-- the box of `i` and the box of `j` moved by `m` periods meet, or miss each other by at most `tol` periods on each axis -/
def CloseAt (S : Scn R) (P : PPar R) (i j : Nat) (m : Fin 3 → Int) : Prop :=
  ∃ lo hi lo' hi', HasBox S i lo hi ∧ HasBox S j lo' hi' ∧
    ∀ a, lo' a + m a * P.dim a ≤ hi a + P.tol * P.dim a ∧ lo a ≤ hi' a + m a * P.dim a + P.tol * P.dim a

/-- a collider that has not run -/
def FreshP (c : PCol R) : Prop := c.size = 0 ∧ ∀ a, (c.bb a).size = 0

/-- all executions in a periodic scene with a fixed number of ids, the first run being the only initial sort.  Between the runs the
bodies move anywhere, the cell changes its size (with all ids in use), interactions are added and change their state, the user changes
the attributes `a2`, `a3` of the collider. -/
inductive PHist : PCol R → PInts → Scn R → (Fin 3 → R) → Prop
  | first {P : PPar R} {S : Scn R} {fuel : Nat} {dirty : Bool} {c c' : PCol R} {I I' : PInts} (hc : FreshP c) (ha : AllowedP P S)
      (hr : actionPeri P S fuel dirty c I = some (.ok (c', I'))) : PHist c' I' S P.dim
  | next {P : PPar R} {S S' : Scn R} {dim : Fin 3 → R} {fuel : Nat} {c c' : PCol R} {I J J' : PInts} (h : PHist c I S dim) (ha : AllowedP P S')
      (hn : S'.n = S.n) (hp : (∀ i, i < S'.n → S'.body i ≠ none) ∨ P.dim = dim) (a2 : Bool) (a3 : Fin 3)
      (hs : a2 = true ∨ (Settled S S' ∧ ∀ i j, JoinedP I i j → JoinedP J i j))
      (hr : actionPeri P S' fuel false { c with sortThenCollide := a2, sortAxis := a3 } J = some (.ok (c', J'))) : PHist c' J' S' P.dim

/-- a collider ready for a run with `n` ids: it has not run, or ran last with as many and is not asked for another initial sort -/
def ReadyP (c : PCol R) (S : Scn R) (dim : Fin 3 → R) (dirty : Bool) : Prop :=
  FreshP c ∨ dirty = false ∧ ∃ c0 I0 S0 d0 a2 a3, PHist c0 I0 S0 d0 ∧ S.n = S0.n ∧ ((∀ i, i < S.n → S.body i ≠ none) ∨ dim = d0) ∧
    c = { c0 with sortThenCollide := a2, sortAxis := a3 }

/-! ## From the model to the specification -/

theorem PHist.after {c : PCol R} {I : PInts} {S : Scn R} {dim : Fin 3 → R} (h : PHist c I S dim) : AfterP c I S dim := by
  induction h with
  | first hc ha hr => exact (run_first ha hc hr).1
  | @next P S S' dim fuel c c' I J J' h ha hn hp a2 a3 hs hr ih =>
    refine (run_next ha ih hn hp a2 a3 hr).1 (hs.imp_right fun ⟨h1, h2⟩ => ⟨fun i j he => ?_, fun i j hj => ?_⟩)
    · obtain ⟨e1, e2, e3⟩ := (elig_iff S' i j).mp he
      have hi : i < S.n := by obtain ⟨b, _, hb, _⟩ := he.1; rw [← hn]; exact ha.range i (by rw [hb]; simp)
      have hj : j < S.n := by obtain ⟨b, _, hb, _⟩ := he.right; rw [← hn]; exact ha.range j (by rw [hb]; simp)
      exact (elig_iff S i j).mpr (h1 i j hi hj e1 e2 e3)
    · exact pfound_iff.2 (h2 i j (pfound_iff.1 hj))

theorem ReadyP.changes {c c' : PCol R} {I I' : PInts} {S : Scn R} {P : PPar R} {dirty : Bool} {fuel : Nat} (h : ReadyP c S P.dim dirty)
    (ha : AllowedP P S) (hr : actionPeri P S fuel dirty c I = some (.ok (c', I'))) : ∃ o1 o2, Changes P S o1 o2 I I' := by
  rcases h with h | ⟨rfl, c0, I0, S0, d0, a2, a3, hh, hn, hp, rfl⟩
  · exact (run_first ha h hr).2
  · exact (run_next ha hh.after hn hp a2 a3 hr).2

/-! ## C95: the lists of bounds -/

/-- what a list of bounds along axis `a` should be -/
structure ListOk (S : Scn R) (a : Fin 3) (dim : R) (s : VB R) : Prop where
  /-- two bounds for each id -/
  size : s.size = 2 * S.n
  once : ∀ i, i < S.n → ∀ m, ∃ r, r < s.size ∧ ((s.v r).id = i ∧ (s.v r).isMin = m) ∧
    ∀ r', r' < s.size → (s.v r').id = i → (s.v r').isMin = m → r' = r
  /-- a bound and its period give the coordinate in space, of the box or of the centre if there is none -/
  coord : ∀ r, r < s.size → ∀ b, S.body (s.v r).id = some b →
    (∀ lo hi, b.bound = some (lo, hi) → (s.v r).coord + (s.v r).period * dim = if (s.v r).isMin then lo a else hi a) ∧
    (b.bound = none → (s.v r).coord + (s.v r).period * dim = b.pos a)
  split : s.lo < s.size
  /-- from the split on the coordinates do not decrease, and span at most a period -/
  sorted : ∀ t, t + 1 < s.size → (s.v ((s.lo + t) % s.size)).coord ≤ (s.v ((s.lo + (t + 1)) % s.size)).coord
  around : (s.v ((s.lo + (s.size - 1)) % s.size)).coord ≤ (s.v s.lo).coord + dim

theorem listOk_of {S : Scn R} {a : Fin 3} {dim : R} {s : VB R} {K : Key → Int} {X : Key → R} (h : St (Ids S.n) X (hbOf S) (2 * S.n) dim s K)
    (hx : ∀ i b, S.body i = some b → ∀ m, X (i, m) = spaceCoord b m a) (hg : ∀ r, r < 2 * S.n → 0 ≤ gap s r) : ListOk S a dim s := by
  have hsz := h.size
  have hlo := h.rep.lo
  refine ⟨hsz, fun i hi m => ?_, fun r hr b hb => ?_, hlo, fun t ht => ?_, ?_⟩
  · obtain ⟨r, hr, e⟩ := (h.keys (i, m)).2 hi
    refine ⟨r, hr, ⟨congrArg Prod.fst e, congrArg Prod.snd e⟩, fun r' hr' e1 e2 => h.rep.inj r' r hr' hr ?_⟩
    rw [e]; exact Prod.ext e1 e2
  · have e := h.rep.crd r hr
    unfold space at e
    rw [h.sdim, show pkey (s.v r) = ((s.v r).id, (s.v r).isMin) from rfl, hx _ b hb] at e
    unfold spaceCoord at e
    constructor
    · intro lo hi hb'; rw [hb'] at e; exact e.symm
    · intro hb'; rw [hb'] at e; exact e.symm
  · have hp : prv s.size ((s.lo + (t + 1)) % s.size) = (s.lo + t) % s.size := by
      have hl : (s.lo + t) % s.size < s.size := Nat.mod_lt _ (by omega)
      have : (s.lo + (t + 1)) % s.size = nxt s.size ((s.lo + t) % s.size) := by
        rw [← Nat.add_assoc, Nat.add_mod, ← norm_succ hl]
        have : (((s.lo + t) % s.size : Nat) : Int) + 1 = (((s.lo + t) % s.size + 1 : Nat) : Int) := by push_cast; rfl
        rw [this, norm_nat, Nat.mod_eq_of_lt (show 1 < s.size by omega)]
      rw [this, prv_nxt hl]
    have hgt := hg ((s.lo + (t + 1)) % s.size) (by rw [← hsz]; exact Nat.mod_lt _ (by omega))
    unfold gap at hgt
    rw [hp, if_neg] at hgt
    · linarith
    · intro e
      by_cases c : s.lo + (t + 1) < s.size
      · rw [Nat.mod_eq_of_lt c] at e; omega
      · rw [Nat.mod_eq_sub_mod (by omega), Nat.mod_eq_of_lt (by omega)] at e; omega
  · have hgt := hg s.lo (by rw [← hsz]; exact hlo)
    have hp : (s.lo + (s.size - 1)) % s.size = prv s.size s.lo := by
      unfold prv
      split
      · rename_i e; rw [e, Nat.zero_add, Nat.mod_eq_of_lt (by omega)]
      · have : s.lo + (s.size - 1) = s.lo - 1 + s.size := by omega
        rw [this, Nat.add_mod_right, Nat.mod_eq_of_lt (by omega)]
    unfold gap at hgt
    rw [if_pos rfl, h.sdim] at hgt
    rw [hp]; linarith

/-- C95: after every run each list holds the two bounds of every id once, each with the period that gives its coordinate in space, in
cyclic order from the split on. -/
theorem C95_lists {c : PCol R} {I : PInts} {S : Scn R} {dim : Fin 3 → R} (h : PHist c I S dim) (a : Fin 3) : ListOk S a (dim a) (c.bb a) := by
  obtain ⟨K, X, hl, hg, _⟩ := h.after.ex
  exact listOk_of (hl.st a) (hl.crd a) (hg a)

/-! ## C96: no contact is missed -/

/-- C96, what is true: in every execution with one initial sort and a fixed number of ids, after each run every two collidable bodies one
of whose images overlap have an interaction.  Missing: further initial sorts, see `C96_violated_reinit`, and bodies added later, see
`C96_violated_added`. -/
theorem C96_no_miss_partial {c : PCol R} {I : PInts} {S : Scn R} {dim : Fin 3 → R} (h : PHist c I S dim) {i j : Nat} (hij : i ≠ j)
    (hc : Collidable S i j) (ho : ∃ m, OverlapAt S dim i j m) : JoinedP I i j := by
  obtain ⟨K, X, hl, hg, cv⟩ := h.after.ex
  obtain ⟨m, lo, hi, lo', hi', b1, b2, ho⟩ := ho
  have he : Elig S i j := (elig_iff S i j).mpr ⟨hc, ⟨lo, hi, b1⟩, ⟨lo', hi', b2⟩⟩
  have hr : ∀ i, S.body i ≠ none → i < S.n := by cases h with
    | first _ ha _ => exact ha.range
    | next _ ha _ _ _ _ _ _ => exact ha.range
  obtain ⟨x, e1, e2⟩ := b1
  obtain ⟨y, e3, e4⟩ := b2
  have li : Ids S.n (i, true) := hr i (by rw [e1]; simp)
  have lj : Ids S.n (j, true) := hr j (by rw [e3]; simp)
  refine pfound_iff.1 (cv i j m hij he fun a => ⟨?_, ?_⟩)
  · refine (hl.st a).lt_of_lt (hg a) li lj ?_
    rw [hl.crd a i x e1, hl.crd a j y e3]
    unfold spaceCoord
    rw [e2, e4]
    exact (ho a).1
  · have := (hl.st a).lt_of_lt (hg a) (κ := (j, true)) (κ' := (i, false)) (m := -m a) lj li (by
      rw [hl.crd a i x e1, hl.crd a j y e3]
      unfold spaceCoord
      rw [e2, e4]
      have := (ho a).2
      push_cast
      simp only [if_true, Bool.false_eq_true, if_false]
      linarith)
    rw [mul_neg] at this
    linarith

/-! ## C97: what a run does with the interactions -/

theorem close_of_near {S : Scn R} {P : PPar R} {i j : Nat} {m : Fin 3 → Int} {o1 o2 : Nat → Fin 3 → R} (hi : Boxed S i) (hj : Boxed S j)
    (h : Near (pcx S P (boxLo S o1) (boxHi S o2)) P.dim i j m) : CloseAt S P i j m := by
  obtain ⟨_, lo, hi', b1, l1, l2⟩ := boxed_of hi
  obtain ⟨_, lo', hi'', b2, l3, l4⟩ := boxed_of hj
  refine ⟨lo, hi', lo', hi'', b1, b2, fun a => ?_⟩
  have : NearAt P.tol (P.dim a) (boxLo S o1 i a) (boxHi S o2 i a) (boxLo S o1 j a) (boxHi S o2 j a) (m a) := h a
  rw [l1, l2, l3, l4] at this
  exact this

theorem overlap_close {S : Scn R} {P : PPar R} (ha : AllowedP P S) {i j : Nat} {o1 o2 : Nat → Fin 3 → R} (hi : Boxed S i) (hj : Boxed S j) :
    (∀ d, overlapPeri (pcx S P (boxLo S o1) (boxHi S o2)) i j = .ok (some d) → CloseAt S P i j d) ∧
    ((∃ m, CloseAt S P i j m) → ∃ d, overlapPeri (pcx S P (boxLo S o1) (boxHi S o2)) i j = .ok (some d)) := by
  obtain ⟨p1, p2⟩ := perOk ha hi hj o1 o2
  rcases C30_exact _ P.dim i j p1 p2 with ⟨d, e, h⟩ | ⟨e, h⟩
  · refine ⟨fun d' e' => ?_, fun _ => ⟨d, e⟩⟩
    rw [e] at e'; cases e'; exact close_of_near hi hj h
  · refine ⟨fun d' e' => (by rw [e] at e'; cases e'), fun ⟨m, hm⟩ => absurd ?_ (h m)⟩
    obtain ⟨_, lo, hi', b1, l1, l2⟩ := boxed_of hi
    obtain ⟨_, lo', hi'', b2, l3, l4⟩ := boxed_of hj
    obtain ⟨k1, k2, k3, k4, c1, c2, hm⟩ := hm
    have u : ∀ {i} {a b c d : Fin 3 → R}, HasBox S i a b → HasBox S i c d → a = c ∧ b = d := by
      rintro i a b c d ⟨x, f1, f2⟩ ⟨y, f3, f4⟩
      rw [f1] at f3; cases f3; rw [f2] at f4; cases f4; exact ⟨rfl, rfl⟩
    obtain ⟨rfl, rfl⟩ := u b1 c1
    obtain ⟨rfl, rfl⟩ := u b2 c2
    intro a
    show NearAt P.tol (P.dim a) (boxLo S o1 i a) (boxHi S o2 i a) (boxLo S o1 j a) (boxHi S o2 j a) (m a)
    rw [l1, l2, l3, l4]
    exact hm a

theorem grow_mem {C : PCx R} {hb : Nat → Bool} {I I' : PInts} (h : Grow C hb I I') :
    (∀ e ∈ I, e ∈ I') ∧ ∀ e ∈ I', e ∈ I ∨ (e.real = false ∧ e.a ≠ e.b ∧ hb e.a = true ∧ hb e.b = true ∧ pfound I e.a e.b = false ∧
      overlapPeri C e.a e.b = .ok (some e.dist) ∧ mayCollide C.S.avoid C.S.sub (fltOf C.S e.a) (fltOf C.S e.b) = .ok true) := by
  induction h with
  | refl => exact ⟨fun e he => he, fun e he => Or.inl he⟩
  | @add I' i j d g ne b1 b2 new ov may ih =>
    refine ⟨fun e he => List.mem_append_left _ (ih.1 e he), fun e he => ?_⟩
    rcases List.mem_append.1 he with he | he
    · exact ih.2 e he
    · cases List.mem_singleton.1 he
      refine Or.inr ⟨rfl, ne, b1, b2, ?_, ov, may⟩
      cases e : pfound I i j with
      | false => rfl
      | true => rw [g.mono e] at new; cases new

/-- no two interactions for the same two bodies -/
def OnceP (I : PInts) : Prop := I.Pairwise fun e e' => ¬ ((e.a = e'.a ∧ e.b = e'.b) ∨ (e.a = e'.b ∧ e.b = e'.a))

theorem condErase_sub {C : PCx R} : ∀ {I I' : PInts}, condErasePeri C I = .ok I' → I'.Sublist I := by
  intro I
  induction I with
  | nil => intro I' h; cases h; exact .refl _
  | cons x I ih =>
    intro I' h
    unfold condErasePeri at h
    have keep : ∀ {I'}, ((condErasePeri C I).bind fun I' => .ok (x :: I')) = .ok I' → I'.Sublist (x :: I) := by
      intro I' h
      cases e : condErasePeri C I with
      | throws => rw [e] at h; cases h
      | ub => rw [e] at h; cases h
      | ok J => rw [e] at h; cases h; exact (ih e).cons_cons x
    by_cases hr : x.real = true
    · rw [if_pos hr] at h; exact keep h
    · rw [if_neg hr] at h
      cases ho : overlapPeri C x.a x.b with
      | throws => rw [ho] at h; cases h
      | ub => rw [ho] at h; cases h
      | ok r =>
        rw [ho] at h
        cases r with
        | none => simp only [Res.bind_ok] at h; exact (ih h).cons x
        | some d => simp only [Res.bind_ok] at h; exact keep h

theorem grow_once {C : PCx R} {hb : Nat → Bool} {I I' : PInts} (h : Grow C hb I I') (h0 : OnceP I) : OnceP I' := by
  induction h with
  | refl => exact h0
  | @add I' i j d g ne b1 b2 new ov may ih =>
    refine List.pairwise_append.2 ⟨ih, List.pairwise_singleton _ _, fun e he e' he' hs => ?_⟩
    cases List.mem_singleton.1 he'
    have : pfound I' i j = true := pfound_iff.2 ⟨e, he, hs⟩
    rw [this] at new; cases new

/-- C97: a run removes no real interaction and none between bodies with images that meet; each it creates is between two different
collidable bodies, not real, with the shift that brings the boxes together; the potential ones left are between bodies with images that
meet; no pair gets a second interaction. -/
theorem C97_run {c c' : PCol R} {I I' : PInts} {S : Scn R} {P : PPar R} {dirty : Bool} {fuel : Nat} (h : ReadyP c S P.dim dirty)
    (ha : AllowedP P S) (hr : actionPeri P S fuel dirty c I = some (.ok (c', I'))) :
    (∀ e ∈ I, e.real = true ∨ (∃ m, CloseAt S P e.a e.b m) → e ∈ I') ∧
    (∀ e ∈ I', e ∈ I ∨ (e.real = false ∧ e.a ≠ e.b ∧ Collidable S e.a e.b ∧ CloseAt S P e.a e.b e.dist)) ∧
    (∀ e ∈ I', e.real = false → (∃ lo hi, HasBox S e.a lo hi) → (∃ lo hi, HasBox S e.b lo hi) → ∃ m, CloseAt S P e.a e.b m) ∧
    (OnceP I → OnceP I') := by
  obtain ⟨o1, o2, I1, h1, h2⟩ := h.changes ha hr
  obtain ⟨c1, c2⟩ := condErase_ok h1
  obtain ⟨g1, g2⟩ := grow_mem h2
  refine ⟨fun e he hk => g1 e (c2 e he ?_), fun e he => ?_, fun e he hr' ⟨lo, hi, b1⟩ ⟨lo', hi', b2⟩ => ?_, fun ho => ?_⟩
  · rcases hk with hk | ⟨m, hk⟩
    · exact Or.inl hk
    · have hk' := hk
      obtain ⟨lo, hi, lo', hi', b1, b2, _⟩ := hk
      exact Or.inr ((overlap_close ha ((boxed_iff S e.a).mpr ⟨lo, hi, b1⟩) ((boxed_iff S e.b).mpr ⟨lo', hi', b2⟩)).2 ⟨m, hk'⟩)
  · rcases g2 e he with k | ⟨k1, k2, k3, k4, _, k6, k7⟩
    · exact Or.inl (c1 e k).1
    · refine Or.inr ⟨k1, k2, (pair_iff S e.a e.b).mp ?_, (overlap_close ha (boxed_of_hb k3) (boxed_of_hb k4)).1 _ k6⟩
      unfold Pair
      have k7 : mayCollide S.avoid S.sub (fltOf S e.a) (fltOf S e.b) = .ok true := k7
      cases f1 : fltOf S e.a with
      | none => rw [f1] at k7; cases k7
      | some x =>
        cases f2 : fltOf S e.b with
        | none => rw [f1, f2] at k7; cases k7
        | some y =>
          rw [f1, f2] at k7
          exact ⟨x, y, rfl, rfl, by have : Res.ok (filter S.avoid S.sub x y) = Res.ok true := k7; cases h : filter S.avoid S.sub x y <;> rw [h] at this <;> simp at this ⊢⟩
  · have hb1 := (boxed_iff S e.a).mpr ⟨lo, hi, b1⟩
    have hb2 := (boxed_iff S e.b).mpr ⟨lo', hi', b2⟩
    rcases g2 e he with k | k
    · rcases (c1 e k).2 with k | ⟨d, k⟩
      · rw [hr'] at k; cases k
      · exact ⟨d, (overlap_close ha hb1 hb2).1 d k⟩
    · exact ⟨e.dist, (overlap_close ha hb1 hb2).1 _ k.2.2.2.2.2.1⟩
  · exact grow_once h2 (ho.sublist (condErase_sub h1))

/-! ## Concrete scenes -/

/-- a cube from `x` to `y` on every axis -/
def pcube (x y : ℚ) : CBody ℚ := ⟨⟨0, -1, 1, 0, false⟩, some (fun _ => x, fun _ => y), fun _ => (x + y) / 2⟩

/-- a scene with these cubes -/
def pscene (bs : List (ℚ × ℚ)) : Scn ℚ := ⟨bs.length, fun i => (bs[i]?).map fun b => pcube b.1 b.2, 0, 0⟩

/-- sort by coordinates, lower bounds first -/
def psort (n : Nat) (v : Nat → PBd ℚ) (k : Nat) : PBd ℚ :=
  (((List.range n).map v).insertionSort fun a b => a.coord < b.coord ∨ (a.coord = b.coord ∧ (a.isMin = true ∨ b.isMin = false))).getD k (v k)

/-- a cell of size 20, the default tolerance -/
def ppar : PPar ℚ := ⟨psort, fun _ => 20, 1 / 10 ^ 7, false⟩

/-- a fresh collider -/
def pcol0 : PCol ℚ := ⟨fun _ => ⟨0, fun _ => ⟨0, 0, true, false, 0⟩, 0, 0⟩, 0, fun _ _ => 0, fun _ _ => 0, false, false, false, 0⟩

def pout : Option (Res (PCol ℚ × PInts)) → PCol ℚ × PInts
  | some (.ok r) => r
  | _ => (pcol0, [])

def pdone : Option (Res (PCol ℚ × PInts)) → Bool
  | some (.ok _) => true
  | _ => false

def pgo (bs : List (ℚ × ℚ)) (dirty : Bool) (r : PCol ℚ × PInts) : Option (Res (PCol ℚ × PInts)) := actionPeri ppar (pscene bs) 40 dirty r.1 r.2

theorem pscene_body (bs : List (ℚ × ℚ)) (i : Nat) (x : CBody ℚ) (h : (pscene bs).body i = some x) : ∃ b ∈ bs, x = pcube b.1 b.2 := by
  have h : (bs[i]?).map (fun b => pcube b.1 b.2) = some x := h
  cases e : bs[i]? with
  | none => rw [e] at h; cases h
  | some b => rw [e] at h; cases h; exact ⟨b, List.mem_of_getElem? e, rfl⟩

theorem pscene_range (bs : List (ℚ × ℚ)) (i : Nat) : (pscene bs).body i ≠ none ↔ i < (pscene bs).n := by
  show (bs[i]?).map (fun b => pcube b.1 b.2) ≠ none ↔ i < bs.length
  simp

theorem psort_perm (n : Nat) (v : Nat → PBd ℚ) : ((List.range n).map (psort n v)).Perm ((List.range n).map v) ∧
    ((List.range n).map (psort n v)).Pairwise fun a b => a.coord < b.coord ∨ (a.coord = b.coord ∧ (a.isMin = true ∨ b.isMin = false)) := by
  let r : PBd ℚ → PBd ℚ → Prop := fun a b => a.coord < b.coord ∨ (a.coord = b.coord ∧ (a.isMin = true ∨ b.isMin = false))
  have e : (List.range n).map (psort n v) = ((List.range n).map v).insertionSort r := by
    apply List.ext_getElem
    · simp
    · intro k h1 h2
      simp only [List.getElem_map, List.getElem_range]
      unfold psort
      rw [List.getD_eq_getElem?_getD, List.getElem?_eq_getElem h2]
      rfl
  rw [e]
  have : Std.Total r := ⟨fun a b => by
    rcases lt_trichotomy a.coord b.coord with h | h | h
    · exact Or.inl (Or.inl h)
    · cases ha : a.isMin <;> cases hb : b.isMin <;> simp [r, h, ha, hb]
    · exact Or.inr (Or.inl h)⟩
  have : IsTrans (PBd ℚ) r := ⟨fun a b c h1 h2 => by
    rcases h1 with h1 | ⟨h1, k1⟩ <;> rcases h2 with h2 | ⟨h2, k2⟩
    · exact Or.inl (lt_trans h1 h2)
    · exact Or.inl (lt_of_lt_of_eq h1 h2)
    · exact Or.inl (lt_of_eq_of_lt h1 h2)
    · refine Or.inr ⟨h1.trans h2, ?_⟩
      rcases k1 with k1 | k1
      · exact Or.inl k1
      · rcases k2 with k2 | k2
        · rw [k1] at k2; cases k2
        · exact Or.inr k2⟩
  exact ⟨List.perm_insertionSort _ _, List.pairwise_insertionSort _ _⟩

theorem psort_rel (n : Nat) (v : Nat → PBd ℚ) (r r' : Nat) (h : r < r') (h' : r' < n) : (psort n v r).coord < (psort n v r').coord ∨
    ((psort n v r).coord = (psort n v r').coord ∧ ((psort n v r).isMin = true ∨ (psort n v r').isMin = false)) := by
  have := List.pairwise_iff_getElem.1 (psort_perm n v).2 r r' (by simp; omega) (by simpa using h') h
  simpa using this

theorem pallowed (bs : List (ℚ × ℚ)) (h0 : bs ≠ []) (h1 : ∀ b ∈ bs, b.1 ≤ b.2 ∧ b.2 - b.1 ≤ 10 ∧ 0 ≤ b.2 ∧ b.2 ≤ 100) : AllowedP ppar (pscene bs) := by
  have box : ∀ i lo hi, HasBox (pscene bs) i lo hi → ∃ b ∈ bs, (lo = fun _ => b.1) ∧ hi = fun _ => b.2 := by
    rintro i lo hi ⟨x, e1, e2⟩
    obtain ⟨b, hb, rfl⟩ := pscene_body bs i x e1
    cases e2
    exact ⟨b, hb, rfl, rfl⟩
  refine ⟨List.length_pos_iff.2 h0, fun i h => (pscene_range bs i).1 h, fun n v => (psort_perm n v).1, fun n v r r' h h' => ?_,
    fun n v r r' h h' e _ k => ?_, fun a => by norm_num [ppar], by norm_num [ppar], fun i lo hi h a => ?_, fun i lo hi j lo' hi' h h' a => ?_⟩
  · rcases psort_rel n v r r' h h' with h | h
    · exact h.le
    · exact h.1.le
  · rcases psort_rel n v r r' h h' with h | ⟨_, h⟩
    · exact absurd e h.ne
    · rcases h with h | h
      · exact absurd (h.symm.trans k) (by simp)
      · exact h
  · obtain ⟨b, hb, rfl, rfl⟩ := box i lo hi h
    have := h1 b hb
    norm_num [ppar]
    constructor <;> linarith
  · obtain ⟨b, hb, rfl, rfl⟩ := box i lo hi h
    obtain ⟨b', hb', rfl, rfl⟩ := box j lo' hi' h'
    have := h1 b hb
    have := h1 b' hb'
    norm_num [ppar]
    rw [abs_lt]
    constructor <;> linarith

theorem pout_ok {r : Option (Res (PCol ℚ × PInts))} (h : pdone r = true) : r = some (.ok ((pout r).1, (pout r).2)) := by
  match r with
  | some (.ok r) => rfl
  | some .throws => cases h
  | some .ub => cases h
  | none => cases h

theorem pout_eq {r : Option (Res (PCol ℚ × PInts))} (h : pdone r = true) : r = some (.ok (pout r)) := pout_ok h

theorem pcollidable (bs : List (ℚ × ℚ)) {i j : Nat} (hi : i < bs.length) (hj : j < bs.length) : Collidable (pscene bs) i j :=
  ⟨pcube bs[i].1 bs[i].2, pcube bs[j].1 bs[j].2, by show (bs[i]?).map _ = _; rw [List.getElem?_eq_getElem hi]; rfl,
    by show (bs[j]?).map _ = _; rw [List.getElem?_eq_getElem hj]; rfl, compatible_plain (by decide)⟩

theorem phas (bs : List (ℚ × ℚ)) {i : Nat} (hi : i < bs.length) : HasBox (pscene bs) i (fun _ => bs[i].1) (fun _ => bs[i].2) :=
  ⟨pcube bs[i].1 bs[i].2, by show (bs[i]?).map _ = _; rw [List.getElem?_eq_getElem hi]; rfl, rfl⟩

theorem psettled (bs bs' : List (ℚ × ℚ)) (h : bs'.length = bs.length) : Settled (pscene bs) (pscene bs') := by
  intro i j hi hj _ _ _
  exact ⟨pcollidable bs hi hj, ⟨_, _, phas bs hi⟩, ⟨_, _, phas bs hj⟩⟩

theorem pfirst (bs : List (ℚ × ℚ)) (h0 : bs ≠ []) (h1 : ∀ b ∈ bs, b.1 ≤ b.2 ∧ b.2 - b.1 ≤ 10 ∧ 0 ≤ b.2 ∧ b.2 ≤ 100) {dirty : Bool}
    (hd : pdone (pgo bs dirty (pcol0, [])) = true) :
    PHist (pout (pgo bs dirty (pcol0, []))).1 (pout (pgo bs dirty (pcol0, []))).2 (pscene bs) fun _ => 20 :=
  PHist.first (P := ppar) (fuel := 40) (dirty := dirty) (c := pcol0) (I := []) ⟨rfl, fun _ => rfl⟩ (pallowed bs h0 h1)
    (pout_ok (r := pgo bs dirty (pcol0, [])) hd)

theorem pnext (bs : List (ℚ × ℚ)) (h0 : bs ≠ []) (h1 : ∀ b ∈ bs, b.1 ≤ b.2 ∧ b.2 - b.1 ≤ 10 ∧ 0 ≤ b.2 ∧ b.2 ≤ 100) {bs0 : List (ℚ × ℚ)} {r : PCol ℚ × PInts}
    (h : PHist r.1 r.2 (pscene bs0) fun _ => 20) (hl : bs.length = bs0.length) (hd : pdone (pgo bs false r) = true) :
    PHist (pout (pgo bs false r)).1 (pout (pgo bs false r)).2 (pscene bs) fun _ => 20 :=
  PHist.next (P := ppar) (fuel := 40) h (pallowed bs h0 h1) hl (Or.inr rfl) r.1.sortThenCollide r.1.sortAxis
    (Or.inr ⟨psettled bs0 bs hl, fun i j h => h⟩) (pout_ok (r := pgo bs false r) hd)

/-- three cubes, the third across the border of the cell -/
def pb1 : List (ℚ × ℚ) := [(1, 3), (8, 12), (17, 20)]
/-- the cubes moved: the first meets an image of the third -/
def pb2 : List (ℚ × ℚ) := [(2, 4), (8, 12), (20, 23)]
/-- the third has passed the first -/
def pb3 : List (ℚ × ℚ) := [(0, 2), (8, 12), (26, 29)]

/-- three runs -/
theorem phist_example : ∃ c1 I1 c2 I2 c3 I3, PHist c1 I1 (pscene pb1) (fun _ => 20) ∧ PHist c2 I2 (pscene pb2) (fun _ => 20) ∧
    PHist c3 I3 (pscene pb3) (fun _ => 20) ∧ (I1.map fun e => (e.a, e.b)) = [] ∧ (I2.map fun e => (e.a, e.b, e.dist 0)) = [(0, 2, -1)] ∧
    (I3.map fun e => (e.a, e.b, e.dist 0)) = [(1, 2, -1)] := by
  let r1 := pout (pgo pb1 false (pcol0, []))
  let r2 := pout (pgo pb2 false r1)
  let r3 := pout (pgo pb3 false r2)
  have h1 : PHist r1.1 r1.2 (pscene pb1) fun _ => 20 := pfirst pb1 (by simp [pb1]) (by decide +kernel) (by decide +kernel)
  have h2 : PHist r2.1 r2.2 (pscene pb2) fun _ => 20 := pnext pb2 (by simp [pb2]) (by decide +kernel) h1 rfl (by decide +kernel)
  have h3 : PHist r3.1 r3.2 (pscene pb3) fun _ => 20 := pnext pb3 (by simp [pb3]) (by decide +kernel) h2 rfl (by decide +kernel)
  exact ⟨_, _, _, _, _, _, h1, h2, h3, by decide +kernel, by decide +kernel, by decide +kernel⟩

/-- C96, example: the hypotheses for the second of these runs -/
example : OverlapAt (pscene pb2) (fun _ => 20) 0 2 (fun _ => -1) ∧ Collidable (pscene pb2) 0 2 :=
  ⟨⟨_, _, _, _, phas pb2 (i := 0) (by decide), phas pb2 (i := 2) (by decide), fun a => by norm_num [pb2]⟩, pcollidable pb2 (by decide) (by decide)⟩

/-! ## Violations -/

theorem pnot {I : PInts} {i j : Nat} (h : pfound I i j = false) : ¬ JoinedP I i j := fun hj => by
  rw [pfound_iff.2 hj] at h; cases h

/-- C96 does not hold after further initial sorts: they compute the periods from coordinates that are already wrapped.  Three cubes in a
cell of size 20; with the third initial sort the second cube has the wrong period, and in the ordinary run that follows its overlap with
the first is not found. -/
theorem C96_violated_reinit : ∃ r1 r2 r3 r4 : PCol ℚ × PInts,
    PHist r1.1 r1.2 (pscene [(18, 24), (18, 20), (15, 22)]) (fun _ => 20) ∧
    pgo [(18, 24), (21, 23), (14, 21)] true r1 = some (.ok r2) ∧ pgo [(15, 21), (24, 26), (13, 20)] true r2 = some (.ok r3) ∧
    pgo [(18, 24), (22, 24), (14, 21)] false r3 = some (.ok r4) ∧ AllowedP ppar (pscene [(18, 24), (22, 24), (14, 21)]) ∧
    Collidable (pscene [(18, 24), (22, 24), (14, 21)]) 0 1 ∧ OverlapAt (pscene [(18, 24), (22, 24), (14, 21)]) (fun _ => 20) 0 1 (fun _ => 0) ∧
    ¬ JoinedP r4.2 0 1 := by
  obtain ⟨r1, e1⟩ : ∃ r, r = pout (pgo [(18, 24), (18, 20), (15, 22)] true (pcol0, [])) := ⟨_, rfl⟩
  obtain ⟨r2, e2⟩ : ∃ r, r = pout (pgo [(18, 24), (21, 23), (14, 21)] true r1) := ⟨_, rfl⟩
  obtain ⟨r3, e3⟩ : ∃ r, r = pout (pgo [(15, 21), (24, 26), (13, 20)] true r2) := ⟨_, rfl⟩
  obtain ⟨r4, e4⟩ : ∃ r, r = pout (pgo [(18, 24), (22, 24), (14, 21)] false r3) := ⟨_, rfl⟩
  refine ⟨r1, r2, r3, r4, by rw [e1]; exact pfirst _ (by simp) (by decide +kernel) (by decide +kernel),
    by rw [e2]; exact pout_eq (by rw [e1]; decide +kernel), by rw [e3]; exact pout_eq (by rw [e2, e1]; decide +kernel),
    by rw [e4]; exact pout_eq (by rw [e3, e2, e1]; decide +kernel), pallowed _ (by simp) (by decide +kernel), pcollidable _ (by decide) (by decide),
    ⟨_, _, _, _, phas _ (i := 0) (by decide), phas _ (i := 1) (by decide), fun a => by norm_num⟩, pnot (by rw [e4, e3, e2, e1]; decide +kernel)⟩

/-- C96 does not hold when bodies are added: the new bounds enter at the end of the lists without a period, the split is somewhere else.
Two cubes in a cell of size 20, a third is added, and its overlap with the second is not found. -/
theorem C96_violated_added : ∃ r1 r2 : PCol ℚ × PInts, PHist r1.1 r1.2 (pscene [(18, 19), (13, 21)]) (fun _ => 20) ∧
    pgo [(19, 20), (10, 18), (15, 20)] false r1 = some (.ok r2) ∧ AllowedP ppar (pscene [(19, 20), (10, 18), (15, 20)]) ∧
    Collidable (pscene [(19, 20), (10, 18), (15, 20)]) 1 2 ∧ OverlapAt (pscene [(19, 20), (10, 18), (15, 20)]) (fun _ => 20) 1 2 (fun _ => 0) ∧
    ¬ JoinedP r2.2 1 2 := by
  let r1 := pout (pgo [(18, 19), (13, 21)] false (pcol0, []))
  let r2 := pout (pgo [(19, 20), (10, 18), (15, 20)] false r1)
  refine ⟨r1, r2, pfirst _ (by simp) (by decide +kernel) (by decide +kernel),
    pout_eq (r := pgo [(19, 20), (10, 18), (15, 20)] false r1) (by decide +kernel), pallowed _ (by simp) (by decide +kernel), pcollidable _ (by decide) (by decide),
    ⟨_, _, _, _, phas _ (i := 1) (by decide), phas _ (i := 2) (by decide), fun a => by norm_num⟩, pnot (by decide +kernel)⟩

/-! ## C98: the shift recorded with an interaction -/

/-- C98, what is true: an interaction that was not there before the run records a shift that brings the boxes together.  Missing: a
potential interaction that stays, see `C98_violated_kept`. -/
theorem C98_new_shift_partial {c c' : PCol R} {I I' : PInts} {S : Scn R} {P : PPar R} {dirty : Bool} {fuel : Nat} (h : ReadyP c S P.dim dirty)
    (ha : AllowedP P S) (hr : actionPeri P S fuel dirty c I = some (.ok (c', I'))) (e : PEnt) (he : e ∈ I') (hn : e ∉ I) :
    CloseAt S P e.a e.b e.dist := by
  rcases (C97_run h ha hr).2.1 e he with k | ⟨_, _, _, k⟩
  · exact absurd k hn
  · exact k

/-- C98 does not hold for potential interactions that stay: two cubes in a cell of size 20 overlap, then one moves so that it overlaps
with the image on the other side; the interaction keeps the shift 0, for which the boxes are 13 apart. -/
theorem C98_violated_kept : ∃ r1 r2 : PCol ℚ × PInts, PHist r1.1 r1.2 (pscene [(0, 4), (3, 7)]) (fun _ => 20) ∧
    pgo [(0, 4), (17, 21)] false r1 = some (.ok r2) ∧ PHist r2.1 r2.2 (pscene [(0, 4), (17, 21)]) (fun _ => 20) ∧
    OverlapAt (pscene [(0, 4), (17, 21)]) (fun _ => 20) 0 1 (fun _ => -1) ∧
    ∃ e ∈ r2.2, e.a = 0 ∧ e.b = 1 ∧ e.real = false ∧ ¬ CloseAt (pscene [(0, 4), (17, 21)]) ppar 0 1 e.dist := by
  let r1 := pout (pgo [(0, 4), (3, 7)] false (pcol0, []))
  let r2 := pout (pgo [(0, 4), (17, 21)] false r1)
  have h1 : PHist r1.1 r1.2 (pscene [(0, 4), (3, 7)]) fun _ => 20 := pfirst _ (by simp) (by decide +kernel) (by decide +kernel)
  refine ⟨r1, r2, h1, pout_eq (r := pgo [(0, 4), (17, 21)] false r1) (by decide +kernel), pnext _ (by simp) (by decide +kernel) h1 rfl (by decide +kernel),
    ⟨_, _, _, _, phas _ (i := 0) (by decide), phas _ (i := 1) (by decide), fun a => by norm_num⟩, ?_⟩
  have hI : r2.2.map (fun e => (e.a, e.b, e.real, e.dist 0)) = [(0, 1, false, 0)] := by decide +kernel
  generalize r2.2 = I at hI
  match I, hI with
  | [], hI => cases hI
  | _ :: _ :: _, hI => simp at hI
  | [e], hI =>
    simp only [List.map_cons, List.map_nil, List.cons.injEq, Prod.mk.injEq, and_true] at hI
    obtain ⟨h1, h2, h3, h4⟩ := hI
    refine ⟨e, List.mem_singleton.2 rfl, h1, h2, h3, ?_⟩
    rintro ⟨lo, hi, lo', hi', ⟨x, b1, b2⟩, ⟨y, b3, b4⟩, hc⟩
    replace hc := (hc 0).1
    cases b1; cases b3; cases b2; cases b4
    rw [h4] at hc
    norm_num [ppar] at hc

/-! ## C99: an empty periodic scene -/

/-- C99, what is true: without bodies a run with an initial sort completes and there are no interactions.  Missing: an ordinary run, see
`C99_violated_empty`. -/
theorem C99_empty_partial (P : PPar R) {S : Scn R} (h : S.n = 0) {c : PCol R} (hc : FreshP c) {dirty : Bool} (hi : c.doSort = true ∨ dirty = true)
    (fuel : Nat) : ∃ c', actionPeri P S fuel dirty c [] = some (.ok (c', [])) ∧ ∀ a, (c'.bb a).size = 0 := by
  have ht : (∀ a, ((toPeriodic c).bb a).size = 0) ∧ (toPeriodic c).size = 0 := by
    unfold toPeriodic
    split
    · exact ⟨hc.2, hc.1⟩
    · exact ⟨fun _ => rfl, hc.1⟩
  have hr : resizePeri (toPeriodic c) S.n = (toPeriodic c, false) := by
    unfold resizePeri; rw [if_neg (by rw [ht.2, h]; simp)]
  have hcp : ∀ a s, copyAxis S P true a s = .ok { s with v := fun k => s.v k, dim := P.dim a } := by
    intro a s
    unfold copyAxis mapRes
    rw [if_pos (by rw [h]; omega), if_pos (by rw [h]; intro k hk; omega)]
    simp only [Res.bind_ok]
    congr 2
    funext k
    rw [if_neg (by rw [h]; omega)]
  have hd : (c.doSort || false || dirty) = true := by rcases hi with h | h <;> rw [h] <;> simp
  unfold actionPeri
  rw [hr]
  simp only [hd, hcp, axes3, Res.bind_ok, obind, condErasePeri]
  unfold sortCollidePeri
  simp only [Bool.not_true, Bool.false_and, Bool.false_eq_true, if_false, if_true, obind, h, Nat.mul_zero, sweepPeri]
  exact ⟨_, rfl, forall_fin3 (ht.1 0) (ht.1 1) (ht.1 2)⟩

/-- C99 does not hold: without bodies an ordinary run of the collider divides by zero (the length of the list of bounds). -/
theorem C99_violated_empty (P : PPar R) {S : Scn R} (h : S.n = 0) {c : PCol R} (hc : FreshP c) (hd : c.doSort = false) (hs : c.sortThenCollide = false)
    (fuel : Nat) : actionPeri P S fuel false c [] = some .ub := by
  have ht : (∀ a, ((toPeriodic c).bb a).size = 0) ∧ (toPeriodic c).size = 0 ∧ (toPeriodic c).sortThenCollide = false := by
    unfold toPeriodic
    split
    · exact ⟨hc.2, hc.1, hs⟩
    · exact ⟨fun _ => rfl, hc.1, hs⟩
  have hr : resizePeri (toPeriodic c) S.n = (toPeriodic c, false) := by
    unfold resizePeri; rw [if_neg (by rw [ht.2.1, h]; simp)]
  have hcp : ∀ a s, copyAxis S P false a s = .ok { s with v := fun k => s.v k, dim := P.dim a } := by
    intro a s
    unfold copyAxis mapRes
    rw [if_pos (by rw [h]; omega), if_pos (by rw [h]; intro k hk; omega)]
    simp only [Res.bind_ok]
    congr 2
    funext k
    rw [if_neg (by rw [h]; omega)]
  unfold actionPeri
  rw [hr]
  simp only [hd, Bool.or_false, hcp, axes3, Res.bind_ok, obind, condErasePeri]
  unfold sortCollidePeri
  simp only [ht.2.2, Bool.not_false, Bool.and_self, if_true, axes3, obind]
  unfold insertionSortPeri
  simp only [if_true, ht.1, obind]

/-- a fresh collider in an empty scene -/
example : actionPeri ppar (pscene []) 40 false pcol0 [] = some .ub :=
  C99_violated_empty ppar rfl ⟨rfl, fun _ => rfl⟩ rfl rfl 40

end Verif.Peri
