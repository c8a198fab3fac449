import Verif.Intr.Bulk
import Verif.Intr.Spec
/-!
# Histories that also delete bodies

`Reach s`: `s` is reached from the empty scene by body creation and deletion, interaction
construction, the functors filling or dropping geometry and physics, insert, erase, requestErase,
swapOrder, clear and bulk removal.  Conditions on callers:

* an interaction is inserted, and geometry/physics is created, only for two distinct existing bodies
  (InteractionLoop.cpp:75 skips interactions of which a body is missing);
* the position given to `erase` is the position of the interaction that is erased, or negative;
* the slot of a deleted body is filled again (`insertAtId`) only when neither a stored interaction nor
  another body's map mentions it.  What happens otherwise is property C09.
* `O.bodies.clear()` is not used while interactions exist (see C57).
-/
namespace Verif.Intr
open Verif

/-- the body in slot `a` exists -/
def Alive (s : St) (a : Int) : Prop := ∃ m, slot s a = some (some m)

/-- nothing refers to slot `a` -/
def Unmentioned (s : St) (a : Int) : Prop :=
  (∀ h, h ∈ s.lin → ∀ i, s.heap[h]? = some i → i.id1 ≠ a ∧ i.id2 ≠ a) ∧
  (∀ c m, slot s c = some (some m) → m.get a = none)

inductive Reach : St → Prop
  | init : Reach St.empty
  | newBody {s} : Reach s → Reach (appendBody s [])
  | deleteBody {s} (a : Int) : Reach s → Reach (eraseBody s a)
  | refill {s} (a : Int) : Reach s → Unmentioned s a → Reach (refillBody s a [])
  | newObj {s} (x y junk : Int) : Reach s → Reach (alloc s x y junk).1
  | fill {s} (h : Nat) (i : Intr) (g p : Bool) : Reach s → s.heap[h]? = some i →
      (g = true ∨ p = true → Alive s i.id1 ∧ Alive s i.id2) →
      Reach { s with heap := s.heap.set h { i with geom := g, phys := p } }
  | swap {s} (h : Nat) (hp : List Intr) : Reach s → swapAt s.heap h = .ok hp →
      Reach { s with heap := hp }
  | insert {s s'} (h : Nat) (i : Intr) (b : Bool) : Reach s → s.heap[h]? = some i → i.id1 ≠ i.id2 →
      Alive s i.id1 → Alive s i.id2 → Intr.insert s h = .ok (s', b) → Reach s'
  | eraseAt {s s'} (k h : Nat) (i : Intr) (b : Bool) : Reach s → s.lin[k]? = some h →
      s.heap[h]? = some i → Intr.erase s i.id1 i.id2 k = .ok (s', b) → Reach s'
  | erase {s s'} (x y : Int) (b : Bool) : Reach s → 0 ≤ x → 0 ≤ y →
      Intr.erase s x y (-1) = .ok (s', b) → Reach s'
  | requestErase {s s'} (x y : Int) : Reach s → Intr.requestErase s x y = .ok s' → Reach s'
  | reset {s} (h : Nat) : Reach s → Reach (resetAt s h)
  | clear {s} : Reach s → Reach (Intr.clear s)
  | bulkSerial {s s'} (p : Int → Int → Bool) (fuel n : Nat) : Reach s →
      condEraseSerial p fuel s = some (.ok (s', n)) → Reach s'
  | bulkParallel {s s'} (p : Int → Int → Bool) (sizes : List Nat) (n : Nat) : Reach s →
      sizes.sum = s.lin.length → condEraseParallel p sizes s = .ok (s', n) → Reach s'

/-- Invariant of reachable states: representation invariant, and an interaction with geometry or
physics has two existing bodies. -/
structure Inv (s : St) : Prop where
  wf : WF s
  full : ∀ h, h ∈ s.lin → ∀ i, s.heap[h]? = some i → (i.geom = true ∨ i.phys = true) →
    Alive s i.id1 ∧ Alive s i.id2

theorem alive_lohi {s : St} {i : Intr} (h1 : Alive s i.id1) (h2 : Alive s i.id2) :
    Alive s i.lo ∧ Alive s i.hi := by
  unfold Intr.lo Intr.hi; split
  · exact ⟨h2, h1⟩
  · exact ⟨h1, h2⟩

theorem alive_iff {s : St} {a : Int} : Alive s a ↔ 0 ≤ a ∧ a < nb s ∧ slot s a ≠ some none := by
  constructor
  · rintro ⟨m, hm⟩
    refine ⟨(slot_lt hm).1, slot_nb hm, ?_⟩
    rw [hm]; simp
  · rintro ⟨h1, h2, h3⟩
    obtain ⟨b, hb⟩ := slot_of_lt h1 h2
    cases b with
    | none => exact absurd hb h3
    | some m => exact ⟨m, hb⟩

theorem alive_same {s s' : St} (h : Same s s') {a : Int} : Alive s' a ↔ Alive s a := by
  rw [alive_iff, alive_iff, h.nb]
  constructor
  · rintro ⟨h1, h2, h3⟩; exact ⟨h1, h2, fun e => h3 ((h.null a).mpr e)⟩
  · rintro ⟨h1, h2, h3⟩; exact ⟨h1, h2, fun e => h3 ((h.null a).mp e)⟩

theorem Inv.of_same {s s' : St} (v : Inv s) (w' : WF s') (h : Same s s')
    (hm : ∀ x, x ∈ s'.lin → x ∈ s.lin) : Inv s' := by
  refine ⟨w', ?_⟩
  intro x hx i hi hg
  obtain ⟨j, hj, _, _, e1, e2, e⟩ := face_some (h.face x) hi
  have hg' : j.geom = true ∨ j.phys = true := by
    simp only [Intr.face, Prod.mk.injEq] at e
    rw [e.2.2.1, e.2.2.2.1]; exact hg
  have := v.full x (hm x hx) j hj hg'
  rw [alive_same h, alive_same h, ← e1, ← e2]
  exact this

theorem Inv.insert {s s' : St} (v : Inv s) {h : Nat} {i : Intr} {b : Bool} (hi : s.heap[h]? = some i)
    (hne : i.id1 ≠ i.id2) (a1 : Alive s i.id1) (a2 : Alive s i.id2)
    (he : Intr.insert s h = .ok (s', b)) : Inv s' := by
  obtain ⟨⟨m1, h1⟩, ⟨m2, h2⟩⟩ := alive_lohi a1 a2
  cases hg : m1.get i.hi with
  | some k =>
    rw [insert_present hi h1 h2 (by rw [hg]; rfl)] at he
    cases he; exact v
  | none =>
    obtain ⟨s1, es, w', hlin, hnl, hheap, _, hnb, hsl⟩ := insert_absent v.wf hi hne h1 h2 hg
    rw [es] at he
    obtain ⟨rfl, rfl⟩ : s1 = s' ∧ true = b := by simpa using he
    have hal : ∀ c, Alive s c → Alive s1 c := by
      rintro c ⟨m, hm⟩
      unfold Alive
      rw [hsl]
      split
      · exact ⟨_, rfl⟩
      · split
        · exact ⟨_, rfl⟩
        · exact ⟨m, hm⟩
    refine ⟨w', ?_⟩
    intro x hx j hj hgp
    rw [hheap, List.getElem?_set] at hj
    by_cases hxh : h = x
    · subst hxh
      rw [if_pos rfl, if_pos (List.getElem?_eq_some_iff.mp hi).1] at hj
      cases hj
      exact ⟨hal _ a1, hal _ a2⟩
    · rw [if_neg hxh] at hj
      rw [hlin] at hx
      rcases List.mem_append.mp hx with hx | hx
      · have := v.full x hx j hj hgp
        exact ⟨hal _ this.1, hal _ this.2⟩
      · exact absurd (List.mem_singleton.mp hx).symm hxh

theorem Inv.resetAt {s : St} (v : Inv s) (h : Nat) : Inv (resetAt s h) := by
  obtain ⟨c1, c2, _, _⟩ := resetAt_bodies s h
  refine ⟨WF_resetAt v.wf h, ?_⟩
  intro x hx i hi hg
  rw [c2] at hx
  rw [resetAt_get] at hi
  have hsl := slot_congr c1
  unfold Alive
  rw [hsl, hsl]
  split at hi
  · cases hq : s.heap[x]? with
    | none => rw [hq] at hi; cases hi
    | some j =>
      rw [hq] at hi; cases hi
      simp [Intr.reset] at hg
  · exact v.full x hx i hi hg

theorem Inv.eraseBody {s : St} (v : Inv s) (a : Int) : Inv (eraseBody s a) := by
  refine ⟨WF_eraseBody v.wf a, ?_⟩
  unfold Intr.eraseBody
  split
  · rename_i m hm
    obtain ⟨f1, f2, f3, f4, f5⟩ := foldl_reset m s
    generalize hs1 : m.foldl (fun t p => Intr.resetAt t p.2) s = s1 at *
    have hm1 : slot s1 a = some (some m) := by rw [slot_congr f1]; exact hm
    have hsl := fun c => slot_null s1 a c _ hm1
      ({ s1 with bodies := s1.bodies.set a.toNat none, held := s1.held ++ [m] }) rfl
    intro x hx i hi hg
    simp only at hx hi
    rw [f2] at hx
    rw [f4] at hi
    split at hi
    · cases hq : s.heap[x]? with
      | none => rw [hq] at hi; cases hi
      | some j => rw [hq] at hi; cases hi; simp [Intr.reset] at hg
    · rename_i hxm
      obtain ⟨⟨n1, hn1⟩, ⟨n2, hn2⟩⟩ := v.full x hx i hi hg
      have hf := v.wf.fwd x hx i hi
      have hja : ∀ c m', slot s c = some (some m') → (c = i.id1 ∨ c = i.id2) → c ≠ a := by
        intro c m' hc hor e
        subst e
        rw [hm] at hc; cases hc
        apply hxm
        have : ∃ k, m.get k = some x := by
          have hlh : c = i.lo ∨ c = i.hi := by
            unfold Intr.lo Intr.hi; split <;> omega
          rcases hlh with e | e
          · exact ⟨_, hf.1 m (by rw [← e]; exact hm)⟩
          · exact ⟨_, hf.2 m (by rw [← e]; exact hm)⟩
        obtain ⟨k, hk⟩ := this
        exact List.mem_map.mpr ⟨(k, x), IMap.mem_of_get hk, rfl⟩
      unfold Alive
      rw [hsl, hsl, if_neg (hja _ _ hn1 (Or.inl rfl)), if_neg (hja _ _ hn2 (Or.inr rfl)),
        slot_congr f1, slot_congr f1]
      exact ⟨⟨n1, hn1⟩, ⟨n2, hn2⟩⟩
  · exact v.full

theorem Inv.eraseAt {s s' : St} (v : Inv s) {k h : Nat} {i : Intr} {b : Bool} (hk : s.lin[k]? = some h)
    (hi : s.heap[h]? = some i) (he : Intr.erase s i.id1 i.id2 k = .ok (s', b)) : Inv s' := by
  obtain ⟨s1, e1, w1, r⟩ := erase_present v.wf hk hi (x := i.id1) (y := i.id2)
    (linPos := (k : Int)) (Or.inl ⟨rfl, rfl⟩) (Or.inl rfl)
  rw [e1] at he; cases he
  exact v.of_same w1 r.same (fun x hx => ((r.mem x).mp hx).1)

theorem serial_inv (p : Int → Int → Bool) : ∀ (fuel pos : Nat) (s s' : St), Inv s →
    condEraseSerialLoop p fuel pos s = some (.ok s') → Inv s' := by
  intro fuel
  induction fuel with
  | zero =>
    intro pos s s' v h
    unfold condEraseSerialLoop at h
    split at h
    · cases h; exact v
    · cases h
  | succ fuel ih =>
    intro pos s s' v h
    unfold condEraseSerialLoop at h
    split at h
    · cases h; exact v
    · rename_i hh hp
      simp only at h
      split at h
      · cases h
      · rename_i i hi
        split at h
        · split at h
          · rename_i s1 b e1
            exact ih pos s1 s' (v.eraseAt hp hi e1) h
          · cases h
          · cases h
        · exact ih (pos + 1) s s' v h

theorem Reach.inv {s : St} (hr : Reach s) : Inv s := by
  induction hr with
  | init => exact ⟨by refine ⟨?_, ?_, ?_, ?_, ?_⟩ <;> simp [St.empty, slot], by simp [St.empty]⟩
  | newBody _ v =>
    refine ⟨WF_append v.wf, ?_⟩
    intro h hm i hi hg
    have hal : ∀ {s : St} c, Alive s c → Alive (appendBody s []) c := by
      rintro s c ⟨m, hm⟩
      unfold Alive
      rw [slot_append]
      split
      · exact ⟨_, rfl⟩
      · exact ⟨m, hm⟩
    have := v.full h hm i hi hg
    exact ⟨hal _ this.1, hal _ this.2⟩
  | deleteBody a _ v => exact v.eraseBody a
  | @refill s a _ hu v =>
    refine ⟨WF_refill v.wf a hu.1 hu.2, ?_⟩
    unfold refillBody
    split
    · rename_i hn
      intro h hm i hi hg
      have hsl := fun c => slot_setSlot (c := c) [] hn
      have hal : ∀ c, Alive s c → Alive (setSlot s a []) c := by
        rintro c ⟨m, hm⟩
        unfold Alive
        rw [hsl]
        split
        · exact ⟨_, rfl⟩
        · exact ⟨m, hm⟩
      have := v.full h hm i hi hg
      exact ⟨hal _ this.1, hal _ this.2⟩
    · exact v.full
  | newObj x y junk _ v =>
    refine ⟨WF_alloc v.wf x y junk, ?_⟩
    intro h hm i hi hg
    obtain ⟨j, hj⟩ := v.wf.mem_heap hm
    have := (List.getElem?_eq_some_iff.mp hj).1
    simp only [alloc] at hi; rw [List.getElem?_append_left this] at hi
    exact v.full h hm i hi hg
  | fill h i g p _ hi hal v =>
    refine ⟨WF_setReal v.wf hi g p, ?_⟩
    intro x hx j hj hg
    simp only [List.getElem?_set] at hj
    by_cases hxh : h = x
    · subst hxh
      rw [if_pos rfl, if_pos (List.getElem?_eq_some_iff.mp hi).1] at hj
      cases hj
      exact hal hg
    · rw [if_neg hxh] at hj
      exact v.full x hx j hj hg
  | @swap s h hp _ hs v =>
    unfold swapAt at hs
    split at hs
    · cases hs
    · rename_i i hi
      unfold Intr.swapOrder at hs
      by_cases hgp : (i.geom || i.phys) = true
      · rw [if_pos hgp] at hs; cases hs
      · rw [if_neg hgp] at hs
        simp only [Res.ok.injEq] at hs
        subst hs
        have hil := (List.getElem?_eq_some_iff.mp hi).1
        refine ⟨WF_heap v.wf rfl rfl ?_, ?_⟩
        · intro x j hj
          simp only [List.getElem?_set]
          by_cases hx : h = x
          · subst hx
            rw [hi] at hj; cases hj
            rw [if_pos rfl, if_pos hil]
            refine ⟨_, rfl, ?_, ?_, rfl⟩
            · unfold Intr.lo; simp only; (repeat' split) <;> omega
            · unfold Intr.hi; simp only; (repeat' split) <;> omega
          · rw [if_neg hx]; exact ⟨j, hj, rfl, rfl, rfl⟩
        · intro x hx j hj hg
          simp only [List.getElem?_set] at hj
          by_cases hxh : h = x
          · subst hxh
            rw [if_pos rfl, if_pos hil] at hj
            cases hj
            simp at hgp
            simp [hgp] at hg
          · rw [if_neg hxh] at hj
            exact v.full x hx j hj hg
  | insert h i b _ hi hne a1 a2 he v => exact v.insert hi hne a1 a2 he
  | eraseAt k h i b _ hk hi he v => exact v.eraseAt hk hi he
  | @erase s s' x y b _ hx hy he v =>
    have w := v.wf
    by_cases hno : ∀ m, slot s (if x > y then y else x) = some (some m) →
        m.get (if x > y then x else y) = none
    · rw [erase_absent (by omega) hx hy hno] at he
      cases he; exact v
    · obtain ⟨m, hm, hg⟩ : ∃ m, slot s (if x > y then y else x) = some (some m) ∧
          m.get (if x > y then x else y) ≠ none := by
        apply Classical.byContradiction
        intro hc
        apply hno
        intro m hm
        apply Classical.byContradiction
        intro hg
        exact hc ⟨m, hm, hg⟩
      cases hg' : m.get (if x > y then x else y) with
      | none => exact absurd hg' hg
      | some k =>
        have hne : (if x > y then y else x) ≠ (if x > y then x else y) := by
          intro e; rw [← e, map_self w hm] at hg'; cases hg'
        have hlt : (if x > y then y else x) < (if x > y then x else y) := by
          revert hne; split <;> omega
        obtain ⟨q1, j, q2, q3⟩ := (map_iff w hlt hm k).mp hg'
        obtain ⟨pk, hpk⟩ := List.mem_iff_getElem?.mp q1
        have q4 : j.lo = (if x > y then y else x) := by
          rw [joins_iff] at q3; rw [q3.1]; (repeat' split) <;> omega
        obtain ⟨s1, e1, w1, r⟩ := erase_present w hpk q2 (x := x) (y := y)
          (linPos := -1) (by unfold Joins at q3; revert q3; split <;> omega)
          (Or.inr ⟨m, by rw [q4]; exact hm⟩)
        rw [e1] at he; cases he
        exact v.of_same w1 r.same (fun x hx => ((r.mem x).mp hx).1)
  | requestErase x y _ he v =>
    unfold Intr.requestErase at he
    split at he
    · cases he; exact v.resetAt _
    · cases he; exact v
    · cases he
    · cases he
  | reset h _ v => exact v.resetAt h
  | clear _ v => exact ⟨WF_clear, by simp [Intr.clear]⟩
  | @bulkSerial s s' p fuel n _ he v =>
    unfold condEraseSerial at he
    split at he
    · cases he
    · rename_i s1 e1
      have : s1 = s' := by simp at he; exact he.1
      subst this
      exact serial_inv p fuel 0 s s1 v e1
    · cases he
    · cases he
  | bulkParallel p sizes n _ hsum he v =>
    obtain ⟨s1, e1, w1, sm, hm⟩ := parallel_spec p sizes _ v.wf hsum
    rw [e1] at he; cases he
    exact v.of_same w1 sm (fun x hx => ((hm x).mp hx).1)

end Verif.Intr
