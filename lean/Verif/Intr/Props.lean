import Verif.Intr.Sim
import Verif.Intr.Reach
import Mathlib.Data.List.Nodup
import Batteries.Data.List.Perm
/-!
# Properties of the interaction container (C06–C10, C36, C57, C58)
-/
namespace Verif.Intr
open Verif

/-- **C06.** Starting from an empty scene, every legal history of body creation, interaction
construction, insert, erase, requestErase, clear, find, has and iteration runs without error or
undefined behaviour, and every returned value is the one of a finite map keyed by unordered pairs
(iteration lists every stored interaction exactly once). -/
theorem C06_container_is_pair_map (ops : List Op) (hl : Spec.empty.legalAll ops) :
    ∃ s' outs, execAll St.empty ops = .ok (s', outs) ∧ Spec.empty.allowsAll ops outs := by
  obtain ⟨s', os, h1, h2, _⟩ := execAll_sim ops rel_empty hl
  exact ⟨s', os, h1, h2⟩

/-- A history meeting the hypothesis: three bodies, two interactions, a refused double insertion, a
swap-with-last erase, look-ups in both orders. -/
def demoOps : List Op :=
  [.newBody, .newBody, .newBody, .newObj 0 1 7, .newObj 2 1 (-3), .newObj 1 0 0, .insert 0, .insert 1,
   .insert 2, .find 1 2, .erase 1 0 0, .has 0 1, .list, .insert 2, .find 0 1]

example : Spec.empty.legalAll demoOps := by
  simp [demoOps, Spec.legalAll, Spec.legal, Spec.next, Spec.empty, SamePair]

example : (execAll St.empty demoOps) = .ok
    (⟨[some [(1, 2)], some [(0, 2), (2, 1)], some [(1, 1)]],
      [⟨0, 1, false, false, (0, 0, 0), 0⟩, ⟨2, 1, false, false, (0, 0, 0), 0⟩, ⟨1, 0, false, false, (0, 0, 0), 1⟩], [1, 2], []⟩,
     [.unit, .unit, .unit, .ref (some 0), .ref (some 1), .ref (some 2), .flag true, .flag true,
      .flag false, .ref (some 1), .flag true, .flag false, .items [1], .flag true, .ref (some 2)]) := by
  rfl

/-! ## C07: bulk removal -/

/-- The collider wants this stored interaction removed: it is not real (geometry or physics missing)
and the collider's predicate says so. -/
def Doomed (p : Int → Int → Bool) (s : St) (h : Nat) : Prop :=
  ∃ i, s.heap[h]? = some i ∧ ¬ (i.geom = true ∧ i.phys = true) ∧ p i.id1 i.id2 = true

theorem bad_iff_doomed (p : Int → Int → Bool) (s : St) (h : Nat) : Bad p s h ↔ Doomed p s h := by
  unfold Bad Doomed toBeErased Intr.isReal
  constructor
  · rintro ⟨i, hi, hb⟩
    refine ⟨i, hi, ?_⟩
    cases hg : i.geom <;> cases hp : i.phys <;> simp_all
  · rintro ⟨i, hi, h1, h2⟩
    refine ⟨i, hi, ?_⟩
    cases hg : i.geom <;> cases hp : i.phys <;> simp_all

/-- **C07.** In every reachable state (bodies may have been deleted), for every predicate and every
split of the positions over threads: the single-threaded loop stops after at most as many rounds as
there are interactions, both variants keep exactly the interactions that are not doomed, once each,
leave every interaction object as it was, and report the number removed. -/
theorem C07_bulk_removal_exact (p : Int → Int → Bool) (s : St) (hr : Reach s) (sizes : List Nat)
    (hs : sizes.sum = s.lin.length) :
    ∃ s1 s2 n, condEraseSerial p s.lin.length s = some (.ok (s1, n)) ∧
      condEraseParallel p sizes s = .ok (s2, n) ∧
      (∀ h, h ∈ s1.lin ↔ h ∈ s.lin ∧ ¬ Doomed p s h) ∧
      (∀ h, h ∈ s2.lin ↔ h ∈ s.lin ∧ ¬ Doomed p s h) ∧
      s1.lin.Nodup ∧ s2.lin.Nodup ∧
      s1.heap.map toObj = s.heap.map toObj ∧ s2.heap.map toObj = s.heap.map toObj ∧
      n + s1.lin.length = s.lin.length := by
  have w := hr.inv.wf
  obtain ⟨s1, e1, w1, sm1, hm1⟩ := serial_spec p s.lin.length 0 s w (by omega) (by intro j h hj; omega)
  obtain ⟨s2, e2, w2, sm2, hm2⟩ := parallel_spec p sizes s w hs
  have hlen : s1.lin.length = s2.lin.length := by
    apply Nat.le_antisymm
    · exact (List.subperm_of_subset w1.nodup (fun x hx => (hm2 x).mpr ((hm1 x).mp hx))).length_le
    · exact (List.subperm_of_subset w2.nodup (fun x hx => (hm1 x).mpr ((hm2 x).mp hx))).length_le
  have hle : s1.lin.length ≤ s.lin.length :=
    (List.subperm_of_subset w1.nodup (fun x hx => ((hm1 x).mp hx).1)).length_le
  refine ⟨s1, s2, s.lin.length - s1.lin.length, ?_, ?_, ?_, ?_, w1.nodup, w2.nodup,
    map_toObj_congr sm1.face, map_toObj_congr sm2.face, by omega⟩
  · simp [condEraseSerial, e1]
  · rw [e2, hlen]
  · intro h; rw [hm1, bad_iff_doomed]
  · intro h; rw [hm2, bad_iff_doomed]

/-! ### A reachable example: two bodies kept, one deleted, three interactions -/

/-- three bodies, interactions {0,1}, {1,2}, {0,2} (handles 0, 1, 2), body 0 deleted, {1,2} real -/
def demoSt : St :=
  ⟨[none, some [(2, 1), (0, 0)], some [(0, 2), (1, 1)]],
   [⟨0, 1, false, false, (0, 0, 0), 0⟩, ⟨1, 2, true, true, (0, 0, 0), 1⟩, ⟨2, 0, false, false, (0, 0, 0), 2⟩],
   [0, 1, 2], [[(2, 2), (1, 0)]]⟩

theorem demoSt_reach : Reach demoSt := by
  have r3 : Reach ⟨[some [], some [], some []], [], [], []⟩ :=
    Reach.newBody (Reach.newBody (Reach.newBody Reach.init))
  have r4 := Reach.newObj 2 0 5 (Reach.newObj 1 2 5 (Reach.newObj 0 1 5 r3))
  have r5 := Reach.insert 0 _ true r4 rfl (by decide) ⟨_, rfl⟩ ⟨_, rfl⟩ rfl
  have r6 := Reach.insert 1 _ true r5 rfl (by decide) ⟨_, rfl⟩ ⟨_, rfl⟩ rfl
  have r7 := Reach.insert 2 _ true r6 rfl (by decide) ⟨_, rfl⟩ ⟨_, rfl⟩ rfl
  have r8 := Reach.fill 1 _ true true r7 rfl (fun _ => ⟨⟨_, rfl⟩, ⟨_, rfl⟩⟩)
  exact Reach.deleteBody 0 r8

/-- every interaction of the deleted body is removed, whatever the split -/
example : ∃ s1 s2, condEraseSerial (fun _ _ => true) 3 demoSt = some (.ok (s1, 2)) ∧ s1.lin = [1] ∧
    condEraseParallel (fun _ _ => true) [1, 2] demoSt = .ok (s2, 2) ∧ s2.lin = [1] :=
  ⟨_, _, rfl, rfl, rfl, rfl⟩

/-! ## C08: eraseNonReal -/

/-- the interaction at list position `k` is real -/
def IsRealAt (s : St) (k : Nat) : Prop :=
  ∃ h i, s.lin[k]? = some h ∧ s.heap[h]? = some i ∧ i.geom = true ∧ i.phys = true

theorem realAt_iff (s : St) (k : Nat) : RealAt s k ↔ IsRealAt s k := by
  unfold RealAt IsRealAt Intr.isReal; simp

/-- **C08, partial.**  `eraseNonReal` is safe and exact when no interaction before the last one is
non-real.  Missing for the full claim: every other pattern, where the code is undefined (next
theorem). -/
theorem C08_eraseNonReal_partial (s : St) (hr : Reach s)
    (h : ∀ k, k + 1 < s.lin.length → IsRealAt s k) :
    ∃ s', eraseNonReal s = .ok s' ∧ ∀ x, x ∈ s'.lin ↔
      x ∈ s.lin ∧ ∃ i, s.heap[x]? = some i ∧ i.geom = true ∧ i.phys = true := by
  obtain ⟨s', e, _, _, hm⟩ := eraseNonReal_ok s.lin.length 0 s hr.inv.wf (by omega)
    (fun k _ h2 => (realAt_iff s k).mpr (h k h2)) (fun k hk => absurd hk (by omega))
  refine ⟨s', e, ?_⟩
  intro x; rw [hm]; unfold Intr.isReal; simp

/-- **C08, negation.**  In every reachable state in which some interaction other than the last is
non-real, `eraseNonReal` runs over the end of the shortened list. -/
theorem C08_eraseNonReal_violated (s : St) (hr : Reach s)
    (h : ∃ k, k + 1 < s.lin.length ∧ ¬ IsRealAt s k) : eraseNonReal s = .ub := by
  obtain ⟨k, h1, h2⟩ := h
  exact eraseNonReal_ub' s.lin.length 0 s hr.inv.wf (by omega)
    ⟨k, by omega, h1, fun hc => h2 ((realAt_iff s k).mp hc)⟩

/-- the violating situation is reachable -/
example : Reach demoSt ∧ (∃ k, k + 1 < demoSt.lin.length ∧ ¬ IsRealAt demoSt k) ∧
    eraseNonReal demoSt = .ub := by
  refine ⟨demoSt_reach, ⟨0, by decide, ?_⟩, rfl⟩
  rintro ⟨h, i, h1, h2, h3, h4⟩
  simp [demoSt] at h1; subst h1; simp [demoSt] at h2; subst h2; simp at h3

/-- a reachable state meeting the hypothesis of the partial theorem, with one interaction removed -/
example : ∃ s s', Reach s ∧ (∀ k, k + 1 < s.lin.length → IsRealAt s k) ∧
    eraseNonReal s = .ok s' ∧ s.lin = [0, 1] ∧ s'.lin = [0] := by
  have r3 : Reach ⟨[some [], some [], some []], [], [], []⟩ :=
    Reach.newBody (Reach.newBody (Reach.newBody Reach.init))
  have r4 := Reach.newObj 1 2 5 (Reach.newObj 0 1 5 r3)
  have r5 := Reach.insert 0 _ true r4 rfl (by decide) ⟨_, rfl⟩ ⟨_, rfl⟩ rfl
  have r6 := Reach.insert 1 _ true r5 rfl (by decide) ⟨_, rfl⟩ ⟨_, rfl⟩ rfl
  have r8 := Reach.fill 0 _ true true r6 rfl (fun _ => ⟨⟨_, rfl⟩, ⟨_, rfl⟩⟩)
  refine ⟨_, _, r8, ?_, rfl, rfl, rfl⟩
  intro k hk
  have hk0 : k = 0 := by
    have : k + 1 < 2 := hk
    omega
  subst hk0
  exact ⟨_, _, rfl, rfl, rfl, rfl⟩

/-! ## C09: an erased pair can be inserted again -/

/-- **C09, partial.**  In every reachable state, an interaction over two distinct existing bodies for
which no stored interaction joins the same pair is accepted, becomes the last listed one, and is
found.  Missing for the full claim: histories in which a slot is refilled, or an erased body object
is appended again, while a stale entry mentions it (next two theorems). -/
theorem C09_reinsert_partial (s : St) (hr : Reach s) (h : Nat) (i : Intr) (hi : s.heap[h]? = some i)
    (hne : i.id1 ≠ i.id2) (a1 : Alive s i.id1) (a2 : Alive s i.id2)
    (hno : ∀ k j, k ∈ s.lin → s.heap[k]? = some j → ¬ SamePair j.id1 j.id2 i.id1 i.id2) :
    ∃ s', Intr.insert s h = .ok (s', true) ∧ s'.lin = s.lin ++ [h] ∧
      Intr.find s' i.id1 i.id2 = .ok (some h) ∧ Intr.find s' i.id2 i.id1 = .ok (some h) ∧
      Intr.found s' i.id1 i.id2 = .ok true ∧ Intr.found s' i.id2 i.id1 = .ok true := by
  have w := hr.inv.wf
  obtain ⟨⟨m1, h1⟩, ⟨m2, h2⟩⟩ := alive_lohi a1 a2
  have hlt := Intr.lo_lt_hi hne
  have hg : m1.get i.hi = none := by
    cases hg : m1.get i.hi with
    | none => rfl
    | some k =>
      obtain ⟨q1, j, q2, q3⟩ := (map_iff w hlt h1 k).mp hg
      refine absurd ?_ (hno k j q1 q2)
      unfold Joins Intr.lo Intr.hi at q3
      unfold SamePair
      revert q3; split <;> omega
  obtain ⟨s', es, w', hlin, _, _, _, hnb, hsl⟩ := insert_absent w hi hne h1 h2 hg
  have hslo : slot s' i.lo = some (some (m1.add i.hi h)) := by
    rw [hsl, if_neg (by omega), if_pos rfl]
  have hget : (m1.add i.hi h).get i.hi = some h := by rw [IMap.get_add, if_pos rfl]
  have hnb1 : i.id1 < nb s' ∧ i.id2 < nb s' := by
    obtain ⟨m, hm⟩ := a1
    obtain ⟨m', hm'⟩ := a2
    have := slot_nb hm
    have := slot_nb hm'
    omega
  have ea : ∀ x y : Int, (x = i.id1 ∧ y = i.id2) ∨ (x = i.id2 ∧ y = i.id1) →
      (if x > y then y else x) = i.lo ∧ (if x > y then x else y) = i.hi := by
    intro x y hxy
    unfold Intr.lo Intr.hi
    rcases hxy with ⟨rfl, rfl⟩ | ⟨rfl, rfl⟩ <;> (repeat' split) <;> omega
  have hfind : ∀ x y : Int, (x = i.id1 ∧ y = i.id2) ∨ (x = i.id2 ∧ y = i.id1) →
      Intr.find s' x y = .ok (some h) ∧ Intr.found s' x y = .ok true := by
    intro x y hxy
    obtain ⟨e1, e2⟩ := ea x y hxy
    constructor
    · unfold Intr.find
      simp only [e1, e2, hslo, hget]
      rw [if_neg]; unfold Intr.hi; split <;> omega
    · unfold Intr.found
      rw [if_neg (by omega)]
      simp only [e1, e2, hslo, hget]
      rfl
  exact ⟨s', es, hlin, (hfind _ _ (Or.inl ⟨rfl, rfl⟩)).1, (hfind _ _ (Or.inr ⟨rfl, rfl⟩)).1,
    (hfind _ _ (Or.inl ⟨rfl, rfl⟩)).2, (hfind _ _ (Or.inr ⟨rfl, rfl⟩)).2⟩

/-- a case meeting the hypotheses: in `demoSt` the interaction {1,2} is erased, then inserted again
although body 0 has been deleted -/
example : ∃ s, Reach s ∧ s.lin = [0, 2] ∧ s.heap[1]? = some ⟨1, 2, true, true, (0, 0, 0), 1⟩ ∧
    Alive s 1 ∧ Alive s 2 :=
  ⟨_, Reach.eraseAt 1 1 _ true demoSt_reach rfl rfl rfl, rfl, rfl, ⟨_, rfl⟩, ⟨_, rfl⟩⟩

/-- **C09, negation (1).**  Bodies 0 and 1 interact; body 0 is deleted; the interaction is removed as
the bulk removal does it; slot 0 is filled again; a new interaction {0,1} is refused although the
container is empty, and afterwards `has` reports it while iteration does not list it. -/
theorem C09_reinsert_violated :
    ∃ s0 s1 s2 s3, Reach s0 ∧ s0.lin = [0] ∧
      (∃ i, s0.heap[0]? = some i ∧ SamePair i.id1 i.id2 0 1) ∧
      s1 = eraseBody s0 0 ∧ Intr.erase s1 0 1 0 = .ok (s2, true) ∧ s2.lin = [] ∧
      s3 = (alloc (refillBody s2 0 []) 0 1 (-1)).1 ∧ Alive s3 0 ∧ Alive s3 1 ∧
      ∃ s4, Intr.insert s3 1 = .ok (s4, false) ∧ s4.lin = [] ∧ Intr.found s4 0 1 = .ok true := by
  have r := Reach.insert 0 _ true (Reach.newObj 0 1 5 (Reach.newBody (Reach.newBody Reach.init))) rfl
    (by decide) ⟨_, rfl⟩ ⟨_, rfl⟩ rfl
  exact ⟨_, _, _, _, r, rfl, ⟨_, rfl, by decide⟩, rfl, rfl, rfl, rfl, ⟨_, rfl⟩, ⟨_, rfl⟩, _, rfl, rfl, rfl⟩

/-- **C09, negation (2).**  An erased body object kept by the user and appended again brings its old
interaction map along: here it gets id 2 and a brand-new interaction {0,2} is refused although no
interaction is stored. -/
theorem C09_reappended_body_violated :
    ∃ s0 s1 s2 s3 m, Reach s0 ∧ s1 = eraseBody s0 1 ∧ s1.held = [m] ∧
      Intr.erase s1 0 1 0 = .ok (s2, true) ∧ s2.lin = [] ∧
      s3 = (alloc (appendBody s2 m) 0 2 (-1)).1 ∧ Alive s3 0 ∧ Alive s3 2 ∧
      ∃ s4, Intr.insert s3 1 = .ok (s4, false) ∧ s4.lin = [] := by
  have r := Reach.insert 0 _ true (Reach.newObj 0 1 5 (Reach.newBody (Reach.newBody Reach.init))) rfl
    (by decide) ⟨_, rfl⟩ ⟨_, rfl⟩ rfl
  exact ⟨_, _, _, _, _, r, rfl, rfl, rfl, rfl, rfl, ⟨_, rfl⟩, ⟨_, rfl⟩, _, rfl, rfl⟩

/-! ## C10: saving and loading -/

/-- The interactions that must survive: stored, with geometry or physics, both bodies existing. -/
def Survives (s : St) (f : Int × Int × Bool × Bool × (Int × Int × Int)) : Prop :=
  ∃ h i, h ∈ s.lin ∧ s.heap[h]? = some i ∧ (i.geom = true ∨ i.phys = true) ∧
    Alive s i.id1 ∧ Alive s i.id2 ∧ f = (i.id1, i.id2, i.geom, i.phys, i.cellDist)

/-- The attributes of the listed interactions, in order. -/
def listed (s : St) : List (Int × Int × Bool × Bool × (Int × Int × Int)) :=
  s.lin.filterMap (fun h => (s.heap[h]?).map (fun i => (i.id1, i.id2, i.geom, i.phys, i.cellDist)))

theorem slot_savedBodies (s : St) (c : Int) (hp : List Intr) (l : List Nat) (hd : List IMap) :
    slot (Intr.clear ⟨savedBodies s, hp, l, hd⟩) c = (slot s c).map (fun b => b.map (fun _ => [])) := by
  rw [slot_clear]
  unfold slot savedBodies
  split
  · simp only [List.getElem?_map, Option.map_map]
    congr 1
    funext b
    cases b <;> rfl
  · rfl

theorem saved_pairs (s : St) (w : WF s) :
    (s.lin.filterMap (fun h => s.heap[h]?)).Pairwise (fun i j => ¬ (i.lo = j.lo ∧ i.hi = j.hi)) := by
  have key : ∀ l : List Nat, l.Nodup → (∀ x ∈ l, x ∈ s.lin) →
      (l.filterMap (fun h => s.heap[h]?)).Pairwise (fun i j => ¬ (i.lo = j.lo ∧ i.hi = j.hi)) := by
    intro l
    induction l with
    | nil => intro _ _; simp
    | cons x l ih =>
      intro hn hm
      rw [List.nodup_cons] at hn
      have ih' := ih hn.2 (fun y hy => hm y (List.mem_cons_of_mem _ hy))
      cases hx : s.heap[x]? with
      | none => rw [List.filterMap_cons_none hx]; exact ih'
      | some i =>
        rw [List.filterMap_cons_some hx, List.pairwise_cons]
        refine ⟨?_, ih'⟩
        intro j hj hc
        obtain ⟨y, hy, hyj⟩ := List.mem_filterMap.mp hj
        have := w.uniq x y (hm x (List.mem_cons_self ..)) (hm y (List.mem_cons_of_mem _ hy)) i j hx hyj hc.1 hc.2
        subst this; exact hn.1 hy
  exact key s.lin w.nodup (fun _ h => h)

theorem perm_pairs {l l' : List Intr} (hp : l.Perm l')
    (h : l'.Pairwise (fun i j => ¬ (i.lo = j.lo ∧ i.hi = j.hi))) :
    l.Pairwise (fun i j => ¬ (i.lo = j.lo ∧ i.hi = j.hi)) :=
  hp.symm.pairwise h (fun h1 h2 => h1 ⟨h2.1.symm, h2.2.symm⟩)

theorem mem_preSave (sorted : Bool) (s : St) (i : Intr) : i ∈ preSave sorted [] s ↔
    ∃ h, h ∈ s.lin ∧ s.heap[h]? = some i ∧ (i.geom = true ∨ i.phys = true) := by
  have hl : i ∈ (s.lin.filterMap (fun h => s.heap[h]?)).filter (fun i => i.geom || i.phys) ↔
      ∃ h, h ∈ s.lin ∧ s.heap[h]? = some i ∧ (i.geom = true ∨ i.phys = true) := by
    rw [List.mem_filter, List.mem_filterMap]
    simp only [Bool.or_eq_true]
    constructor
    · rintro ⟨⟨h, h1, h2⟩, h3⟩; exact ⟨h, h1, h2, h3⟩
    · rintro ⟨h, h1, h2, h3⟩; exact ⟨⟨h, h1, h2⟩, h3⟩
  unfold preSave
  simp only [List.nil_append]
  split
  · rw [(sortIntrs_perm _).mem_iff]; exact hl
  · exact hl

theorem preSave_pairs (sorted : Bool) (s : St) (w : WF s) :
    (preSave sorted [] s).Pairwise (fun i j => ¬ (i.lo = j.lo ∧ i.hi = j.hi)) := by
  unfold preSave
  simp only [List.nil_append]
  split
  · exact perm_pairs (sortIntrs_perm _) ((saved_pairs s w).sublist (List.filter_sublist))
  · exact (saved_pairs s w).sublist (List.filter_sublist)

/-- **C10.**  From every reachable state (bodies may have been deleted), saving and loading, sorted or
not, succeeds and lists exactly the interactions that had geometry or physics and whose bodies
exist, each once and with its ids, geometry, physics and cell offset; the loaded container is
consistent (every listed interaction is found under its pair) and its save buffer is empty. -/
theorem C10_save_load_roundtrip (s : St) (hr : Reach s) (sorted : Bool) :
    ∃ s', postLoad (savedBodies s) (save sorted [] s).1 = .ok (s', []) ∧
      (∀ f, f ∈ listed s' ↔ Survives s f) ∧ (listed s').Nodup ∧
      (∀ a, Alive s' a ↔ Alive s a) ∧
      (∀ h i, h ∈ s'.lin → s'.heap[h]? = some i → Intr.find s' i.id1 i.id2 = .ok (some h)) := by
  have v := hr.inv
  have w := v.wf
  have hmem := mem_preSave sorted s
  have hal0 : ∀ a, Alive s a → ∃ m, slot (Intr.clear ⟨savedBodies s, [], [], []⟩) a = some (some m) := by
    rintro a ⟨m, hm⟩
    exact ⟨[], by rw [slot_savedBodies, hm]; rfl⟩
  obtain ⟨s', e, w', hnb, hnull, hmap⟩ := postLoadLoop_spec (preSave sorted [] s) (preSave sorted [] s)
    (Intr.clear ⟨savedBodies s, [], [], []⟩) WF_clear (by
      intro i hi
      obtain ⟨h, h1, h2, h3⟩ := (hmem i).mp hi
      have := v.full h h1 i h2 h3
      exact ⟨(w.pair h h1 i h2).1, hal0 _ this.1, hal0 _ this.2⟩) (preSave_pairs sorted s w) (by
      intro i _ h hh; simp [Intr.clear] at hh)
  have hnb0 : nb (Intr.clear ⟨savedBodies s, [], [], []⟩) = nb s := by
    simp [nb, Intr.clear, savedBodies]
  have hal : ∀ a, Alive s' a ↔ Alive s a := by
    intro a
    rw [alive_iff, alive_iff, hnb, hnb0]
    have : slot s' a = some none ↔ slot s a = some none := by
      rw [hnull, slot_savedBodies]
      cases slot s a with
      | none => simp
      | some b => cases b <;> simp
    constructor
    · rintro ⟨q1, q2, q3⟩; exact ⟨q1, q2, fun e => q3 (this.mpr e)⟩
    · rintro ⟨q1, q2, q3⟩; exact ⟨q1, q2, fun e => q3 (this.mp e)⟩
  have hlisted : listed s' = (preSave sorted [] s).map Intr.face := by
    have h1 : (listed s').map some = (preSave sorted [] s).map (fun i => some i.face) := by
      have h2 : (listed s').map some = s'.lin.map (fun h => (s'.heap[h]?).map Intr.face) := by
        have : ∀ l : List Nat, (∀ x ∈ l, x ∈ s'.lin) →
            (l.filterMap (fun h => (s'.heap[h]?).map (fun i => (i.id1, i.id2, i.geom, i.phys, i.cellDist)))).map some
            = l.map (fun h => (s'.heap[h]?).map Intr.face) := by
          intro l
          induction l with
          | nil => intro _; rfl
          | cons x l ih =>
            intro hm
            obtain ⟨i, hi⟩ := w'.mem_heap (hm x (List.mem_cons_self ..))
            have hx : (s'.heap[x]?).map (fun i => (i.id1, i.id2, i.geom, i.phys, i.cellDist)) = some i.face := by
              rw [hi]; rfl
            rw [List.filterMap_cons, hx]
            simp only []
            rw [List.map_cons, List.map_cons,
              ih (fun y hy => hm y (List.mem_cons_of_mem _ hy)), hi]
            rfl
        exact this s'.lin (fun _ h => h)
      rw [h2, hmap]
      simp [Intr.clear]
    have h3 : (preSave sorted [] s).map (fun i => some i.face) = ((preSave sorted [] s).map Intr.face).map some := by
      rw [List.map_map]; rfl
    rw [h3] at h1
    exact List.map_injective_iff.mpr (fun a b hab => Option.some.inj hab) h1
  refine ⟨s', e, ?_, ?_, hal, ?_⟩
  · intro f
    rw [hlisted, List.mem_map]
    constructor
    · rintro ⟨i, hi, rfl⟩
      obtain ⟨h, h1, h2, h3⟩ := (hmem i).mp hi
      have := v.full h h1 i h2 h3
      exact ⟨h, i, h1, h2, h3, this.1, this.2, rfl⟩
    · rintro ⟨h, i, h1, h2, h3, _, _, rfl⟩
      exact ⟨i, (hmem i).mpr ⟨h, h1, h2, h3⟩, rfl⟩
  · rw [hlisted]
    have hp := preSave_pairs sorted s w
    rw [List.Nodup, List.pairwise_map]
    refine hp.imp ?_
    intro i j hij e
    exact hij ⟨Intr.lo_of_face e, Intr.hi_of_face e⟩
  · intro h i hh hi
    have hf : i.geom = true ∨ i.phys = true := by
      have : i.face ∈ listed s' := by
        unfold listed
        rw [List.mem_filterMap]
        exact ⟨h, hh, by rw [hi]; rfl⟩
      rw [hlisted, List.mem_map] at this
      obtain ⟨j, hj, e⟩ := this
      obtain ⟨_, _, _, h3⟩ := (hmem j).mp hj
      simp only [Intr.face, Prod.mk.injEq] at e
      rw [← e.2.2.1, ← e.2.2.2.1]; exact h3
    have hface : i.face ∈ listed s' := by
      unfold listed
      rw [List.mem_filterMap]
      exact ⟨h, hh, by rw [hi]; rfl⟩
    have hals : Alive s' i.id1 ∧ Alive s' i.id2 := by
      rw [hlisted, List.mem_map] at hface
      obtain ⟨j, hj, e⟩ := hface
      obtain ⟨k, h1, h2, h3⟩ := (hmem j).mp hj
      have := v.full k h1 j h2 h3
      rw [hal, hal, ← Intr.id1_of_face e, ← Intr.id2_of_face e]
      exact this
    obtain ⟨⟨m1, hm1⟩, _⟩ := alive_lohi hals.1 hals.2
    have hp := w'.pair h hh i hi
    have hg := (w'.fwd h hh i hi).1 m1 hm1
    have ea : (if i.id1 > i.id2 then i.id2 else i.id1) = i.lo := rfl
    have eb : (if i.id1 > i.id2 then i.id1 else i.id2) = i.hi := rfl
    unfold Intr.find
    simp only [ea, eb, hm1, hg]
    rw [if_neg (by omega)]

/-- the hypotheses are met by `demoSt`: of its three interactions only {1,2} survives -/
example : ∃ s', postLoad (savedBodies demoSt) (save true [] demoSt).1 = .ok (s', []) ∧
    listed s' = [(1, 2, true, true, (0, 0, 0))] := ⟨_, rfl, rfl⟩

/-- **C10, second save.**  Saving again writes the same list, and every pair is written once. -/
theorem C10_save_twice (s : St) (hr : Reach s) (sorted : Bool) :
    (save sorted (save sorted [] s).2 s).1 = (save sorted [] s).1 ∧
    (save sorted [] s).1.Pairwise (fun i j => ¬ SamePair i.id1 i.id2 j.id1 j.id2) := by
  refine ⟨rfl, (preSave_pairs sorted s hr.inv.wf).imp ?_⟩
  intro i j hij hc
  apply hij
  have := joins_iff.mp (show Joins i j.id1 j.id2 from hc)
  exact this

/-- **C10, negation outside reachable states.**  A file in which an interaction with a missing body
precedes a good one loses the good one, and the save buffer keeps both, so that the next save writes
them in addition to the container's content. -/
theorem C10_orphan_in_file_violated :
    ∃ bodies saved s' attr i, postLoad bodies saved = .ok (s', attr) ∧ i ∈ saved ∧
      i.id1 ≠ i.id2 ∧ i.geom = true ∧ i.phys = true ∧
      Alive ⟨bodies, [], [], []⟩ i.id1 ∧ Alive ⟨bodies, [], [], []⟩ i.id2 ∧
      listed s' = [] ∧ (save false attr s').1 ≠ (save false [] s').1 := by
  refine ⟨[none, some [], some []], [⟨0, 1, true, true, (0, 0, 0), -1⟩, ⟨1, 2, true, true, (0, 0, 0), -1⟩],
    _, _, ⟨1, 2, true, true, (0, 0, 0), -1⟩, rfl, by simp, by decide, rfl, rfl, ⟨_, rfl⟩, ⟨_, rfl⟩, rfl, by decide⟩

/-! ## C36: swapping the bodies of an interaction -/

/-- **C36.**  `swapOrder` is refused exactly when geometry or physics exist; otherwise it exchanges
the ids, negates the cell offset, keeps the pair, and applied twice gives the interaction back. -/
theorem C36_swapOrder (i : Intr) :
    (i.swapOrder = .throws ↔ i.geom = true ∨ i.phys = true) ∧
    (¬ (i.geom = true ∨ i.phys = true) → ∃ i', i.swapOrder = .ok i' ∧
      i'.id1 = i.id2 ∧ i'.id2 = i.id1 ∧
      i'.cellDist.1 = -i.cellDist.1 ∧ i'.cellDist.2.1 = -i.cellDist.2.1 ∧
      i'.cellDist.2.2 = -i.cellDist.2.2 ∧ SamePair i'.id1 i'.id2 i.id1 i.id2 ∧
      i'.swapOrder = .ok i) := by
  obtain ⟨a, b, g, p, ⟨c1, c2, c3⟩, l⟩ := i
  unfold Intr.swapOrder
  cases g <;> cases p <;> simp [SamePair]

/-- **C36 in the container.**  Swapping a stored potential interaction changes no look-up and no
listing. -/
theorem C36_swap_in_container (s : St) (hr : Reach s) (h : Nat) (hp : List Intr)
    (hs : swapAt s.heap h = .ok hp) :
    ∀ x y, Intr.find { s with heap := hp } x y = Intr.find s x y ∧
      Intr.found { s with heap := hp } x y = Intr.found s x y ∧
      ({ s with heap := hp } : St).lin = s.lin ∧ Reach { s with heap := hp } :=
  fun _ _ => ⟨rfl, rfl, rfl, Reach.swap h hp hr hs⟩

example : (⟨3, 8, false, false, (1, 0, -2), 4⟩ : Intr).swapOrder = .ok ⟨8, 3, false, false, (-1, 0, 2), 4⟩ := rfl

/-! ## C57: emptying the body container -/

/-- `O.bodies.clear()` (core/BodyContainer.cpp:14–16): the vector is emptied, interactions stay. -/
def clearBodies (s : St) : St := { s with bodies := [] }

/-- **C57, negation.**  After `O.bodies.clear()` with one interaction left, the collider's
single-threaded bulk removal never ends if it wants the interaction removed. -/
theorem C57_clear_bodies_violated :
    ∃ s, Reach s ∧ ∀ fuel, condEraseSerial (fun _ _ => true) fuel (clearBodies s) = none := by
  have r : Reach (⟨[some [(1, 0)], some [(0, 0)]], [⟨0, 1, false, false, (0, 0, 0), 0⟩], [0], []⟩ : St) :=
    Reach.insert 0 _ true (Reach.newObj 0 1 5 (Reach.newBody (Reach.newBody Reach.init))) rfl
    (by decide) ⟨_, rfl⟩ ⟨_, rfl⟩ rfl
  refine ⟨_, r, ?_⟩
  have key : ∀ fuel, condEraseSerialLoop (fun _ _ => true) fuel 0
      (⟨[], [⟨0, 1, false, false, (0, 0, 0), 0⟩], [0], []⟩ : St) = none := by
    intro fuel
    induction fuel with
    | zero => rfl
    | succ n ih => exact ih
  intro fuel
  unfold condEraseSerial
  simp only [clearBodies, key]

/-- **C57, partial.**  If the interactions are cleared first, clearing the bodies leaves an empty,
consistent scene. -/
theorem C57_clear_bodies_partial (s : St) (p : Int → Int → Bool) (fuel : Nat) :
    (clearBodies (Intr.clear s)).lin = [] ∧
    condEraseSerial p fuel (clearBodies (Intr.clear s)) = some (.ok (clearBodies (Intr.clear s), 0)) := by
  refine ⟨rfl, ?_⟩
  unfold condEraseSerial condEraseSerialLoop
  simp [clearBodies, Intr.clear]

/-! ## C58: looking up interactions of missing bodies -/

/-- **C58 for `O.interactions[a,b]`.**  For non-negative ids the look-up is defined in every reachable
state, whether or not the bodies exist, and what it returns is a stored interaction of that pair. -/
theorem C58_find_safe (s : St) (hr : Reach s) (x y : Int) (hx : 0 ≤ x) (hy : 0 ≤ y) :
    ∃ r, Intr.find s x y = .ok r ∧ ∀ h, r = some h →
      h ∈ s.lin ∧ ∃ i, s.heap[h]? = some i ∧ SamePair i.id1 i.id2 x y := by
  have w := hr.inv.wf
  have h1 : 0 ≤ (if x > y then y else x) := by split <;> omega
  have h3 : (if x > y then y else x) ≤ (if x > y then x else y) := by split <;> omega
  unfold Intr.find
  simp only []
  by_cases hb : (if x > y then x else y) ≥ nb s
  · rw [if_pos hb]; exact ⟨none, rfl, fun h e => by cases e⟩
  · rw [if_neg hb]
    obtain ⟨b1, hb1⟩ := slot_of_lt (s := s) h1 (by omega)
    rw [hb1]
    cases b1 with
    | none => exact ⟨none, rfl, fun h e => by cases e⟩
    | some m =>
      refine ⟨_, rfl, ?_⟩
      intro h e
      by_cases he : (if x > y then y else x) = (if x > y then x else y)
      · rw [← he, map_self w hb1] at e; cases e
      · obtain ⟨q1, i, q2, q3⟩ := (map_iff w (by omega) hb1 h).mp e
        refine ⟨q1, i, q2, ?_⟩
        unfold Joins at q3; unfold SamePair; revert q3; split <;> omega

/-- **C58 for `O.interactions.has(a,b)`, partial.**  With no deleted body, `has` is defined for all
non-negative ids.  Missing: states with deleted bodies, see the next theorem. -/
theorem C58_has_partial (s : St) (hr : Reach s) (hlive : ∀ a, 0 ≤ a → a < nb s → Alive s a)
    (x y : Int) (hx : 0 ≤ x) (hy : 0 ≤ y) :
    ∃ b, Intr.found s x y = .ok b ∧ (b = true ↔ ∃ h i, h ∈ s.lin ∧ s.heap[h]? = some i ∧
      SamePair i.id1 i.id2 x y) := by
  obtain ⟨b, e, hb⟩ := found_spec hr.inv.wf hx hy (by
    intro c hc
    obtain ⟨m, hm⟩ := hlive c (slot_lt hc).1 (slot_nb hc)
    rw [hc] at hm; cases hm)
  refine ⟨b, e, hb.trans ?_⟩
  constructor
  · rintro ⟨h, h1, i, h2, h3⟩; exact ⟨h, i, h1, h2, h3⟩
  · rintro ⟨h, i, h1, h2, h3⟩; exact ⟨h, h1, i, h2, h3⟩

/-- **C58 for `has`, negation.**  Asking for a pair whose smaller id is a deleted body dereferences a
null pointer; a negative first id reads before the vector. -/
theorem C58_has_violated :
    Reach demoSt ∧ Intr.found demoSt 0 1 = .ub ∧ Intr.found demoSt (-1) 1 = .ub ∧
    Intr.find demoSt (-1) 1 = .ub := ⟨demoSt_reach, rfl, rfl, rfl⟩

end Verif.Intr
