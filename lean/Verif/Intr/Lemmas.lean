import Verif.Intr.Model
/-!
# Helper lemmas for the interaction container

Representation invariant `WF` and its preservation by every operation.
-/
namespace Verif.Intr
open Verif

namespace IMap
@[simp] theorem get_nil (x : Int) : IMap.get [] x = none := rfl
theorem get_add (m : IMap) (k x : Int) (v : Nat) :
    (m.add k v).get x = if k = x then some v else m.get x := rfl
theorem get_del (m : IMap) (k x : Int) :
    (m.del k).get x = if x = k then none else m.get x := by
  induction m with
  | nil => simp [del]
  | cons p m ih =>
    obtain ⟨k', v⟩ := p
    simp only [del] at ih ⊢
    by_cases h : k' = k
    · subst h
      simp only [List.filter_cons, ne_eq, not_true_eq_false, decide_false, Bool.false_eq_true,
        if_false, ih, get]
      by_cases hx : x = k'
      · simp [hx]
      · simp [hx, Ne.symm hx]
    · simp only [List.filter_cons, ne_eq, h, not_false_eq_true, decide_true, if_true, get, ih]
      by_cases hx : x = k
      · subst hx; simp [h]
      · simp [hx]
theorem mem_of_get {m : IMap} {k : Int} {v : Nat} (h : m.get k = some v) : (k, v) ∈ m := by
  induction m with
  | nil => simp at h
  | cons p m ih =>
    obtain ⟨k', v'⟩ := p
    simp only [get] at h
    split at h
    · rename_i hk; subst hk; simp at h; subst h; simp
    · exact List.mem_cons_of_mem _ (ih h)
end IMap

/-- everything but the back reference -/
def Intr.face (i : Intr) : Int × Int × Bool × Bool × (Int × Int × Int) :=
  (i.id1, i.id2, i.geom, i.phys, i.cellDist)

theorem Intr.lo_of_face {i j : Intr} (h : i.face = j.face) : i.lo = j.lo := by
  simp only [Intr.face, Prod.mk.injEq] at h
  simp [Intr.lo, h.1, h.2.1]
theorem Intr.hi_of_face {i j : Intr} (h : i.face = j.face) : i.hi = j.hi := by
  simp only [Intr.face, Prod.mk.injEq] at h
  simp [Intr.hi, h.1, h.2.1]
theorem Intr.id1_of_face {i j : Intr} (h : i.face = j.face) : i.id1 = j.id1 := by
  simp only [Intr.face, Prod.mk.injEq] at h; exact h.1
theorem Intr.id2_of_face {i j : Intr} (h : i.face = j.face) : i.id2 = j.id2 := by
  simp only [Intr.face, Prod.mk.injEq] at h; exact h.2.1

theorem Intr.lo_le_hi (i : Intr) : i.lo ≤ i.hi := by
  unfold Intr.lo Intr.hi; split <;> omega
theorem Intr.lo_ne_hi {i : Intr} (h : i.id1 ≠ i.id2) : i.lo ≠ i.hi := by
  unfold Intr.lo Intr.hi; split <;> omega
theorem Intr.lo_lt_hi {i : Intr} (h : i.id1 ≠ i.id2) : i.lo < i.hi := by
  unfold Intr.lo Intr.hi; split <;> omega

theorem slot_lt {s : St} {a : Int} {b} (h : slot s a = some b) : 0 ≤ a ∧ a.toNat < s.bodies.length := by
  unfold slot at h
  split at h
  · rename_i h0
    refine ⟨h0, ?_⟩
    exact (List.getElem?_eq_some_iff.mp h).1
  · simp at h

theorem slot_nb {s : St} {a : Int} {b} (h : slot s a = some b) : a < nb s := by
  have := slot_lt h; unfold nb; omega

theorem slot_of_lt {s : St} {a : Int} (h0 : 0 ≤ a) (h1 : a < nb s) : ∃ b, slot s a = some b := by
  unfold slot nb at *
  rw [if_pos h0]
  have : a.toNat < s.bodies.length := by omega
  exact ⟨_, List.getElem?_eq_getElem this⟩

theorem slot_setSlot {s : St} {a c : Int} {b} (m : IMap) (h : slot s a = some b) :
    slot (setSlot s a m) c = if c = a then some (some m) else slot s c := by
  obtain ⟨h0, h1⟩ := slot_lt h
  unfold slot setSlot
  simp only [List.getElem?_set]
  by_cases hc : c = a
  · subst hc; simp [h0, h1]
  · simp only [hc, if_false]
    by_cases hc0 : 0 ≤ c
    · have : a.toNat ≠ c.toNat := by omega
      simp [hc0, this]
    · simp [hc0]

@[simp] theorem nb_setSlot (s : St) (a : Int) (m : IMap) : nb (setSlot s a m) = nb s := by
  simp [nb, setSlot]
@[simp] theorem heap_setSlot (s : St) (a : Int) (m : IMap) : (setSlot s a m).heap = s.heap := rfl
@[simp] theorem lin_setSlot (s : St) (a : Int) (m : IMap) : (setSlot s a m).lin = s.lin := rfl

/-- Representation invariant.  Bodies may have been erased (null slots); an entry of a live body
`a` for another id `b` refers to a stored interaction, unless `b < a` and slot `b` is null (the
stale entry left behind by `erase` when the lower body is gone). -/
structure WF (s : St) : Prop where
  linIx : ∀ (k : Nat) (h : Nat), s.lin[k]? = some h → ∃ i, s.heap[h]? = some i ∧ i.linIx = k
  pair : ∀ (h : Nat), h ∈ s.lin → ∀ i, s.heap[h]? = some i →
    i.id1 ≠ i.id2 ∧ 0 ≤ i.lo ∧ i.hi < nb s
  fwd : ∀ (h : Nat), h ∈ s.lin → ∀ i, s.heap[h]? = some i →
    (∀ m, slot s i.lo = some (some m) → m.get i.hi = some h) ∧
    (∀ m, slot s i.hi = some (some m) → m.get i.lo = some h)
  uniq : ∀ (h h' : Nat), h ∈ s.lin → h' ∈ s.lin → ∀ i i', s.heap[h]? = some i →
    s.heap[h']? = some i' → i.lo = i'.lo → i.hi = i'.hi → h = h'
  back : ∀ a m b h, slot s a = some (some m) → m.get b = some h →
    (∃ i, s.heap[h]? = some i ∧ i.id1 ≠ i.id2 ∧ ((i.lo = a ∧ i.hi = b) ∨ (i.lo = b ∧ i.hi = a))) ∧
    (h ∈ s.lin ∨ (b < a ∧ slot s b = some none))

theorem WF.mem_heap {s : St} (w : WF s) {h : Nat} (hm : h ∈ s.lin) : ∃ i, s.heap[h]? = some i := by
  obtain ⟨k, hk⟩ := List.mem_iff_getElem?.mp hm
  obtain ⟨i, hi, _⟩ := w.linIx k h hk
  exact ⟨i, hi⟩

theorem WF.ix_inj {s : St} (w : WF s) {k k' h : Nat} (h1 : s.lin[k]? = some h)
    (h2 : s.lin[k']? = some h) : k = k' := by
  obtain ⟨i, hi, hk⟩ := w.linIx k h h1
  obtain ⟨i', hi', hk'⟩ := w.linIx k' h h2
  rw [hi] at hi'; cases hi'
  omega

theorem WF.nodup {s : St} (w : WF s) : s.lin.Nodup := by
  rw [List.nodup_iff_pairwise_ne, List.pairwise_iff_getElem]
  intro i j hi hj hij hne
  have := w.ix_inj (List.getElem?_eq_getElem hi) ((List.getElem?_eq_getElem hj).trans (by rw [hne]))
  omega

/-! ### swap-with-last removal -/

theorem swapRemove_get? (l : List Nat) (k last : Nat)
    (hk : k + 1 < l.length) (j : Nat) :
    ((l.set k last).dropLast)[j]? =
      if j + 1 < l.length then (if j = k then some last else l[j]?) else none := by
  rw [List.dropLast_eq_take, List.getElem?_take]
  simp only [List.length_set]
  by_cases hj : j + 1 < l.length
  · have : j < l.length - 1 := by omega
    simp only [this, if_true, hj, List.getElem?_set]
    by_cases hjk : j = k
    · subst hjk
      have : j < l.length := by omega
      simp [this]
    · simp [hjk, Ne.symm hjk]
  · have : ¬ j < l.length - 1 := by omega
    simp [this, hj]

theorem getLast_get? (l : List Nat) (last : Nat) (hl : l.getLast? = some last) :
    0 < l.length ∧ l[l.length - 1]? = some last := by
  rw [List.getLast?_eq_getElem?] at hl
  refine ⟨?_, hl⟩
  have := (List.getElem?_eq_some_iff.mp hl).1
  omega

theorem dropLast_get? (l : List Nat) (j : Nat) :
    (l.dropLast)[j]? = if j + 1 < l.length then l[j]? else none := by
  rw [List.dropLast_eq_take, List.getElem?_take]
  by_cases hj : j + 1 < l.length
  · have : j < l.length - 1 := by omega
    simp [this, hj]
  · have : ¬ j < l.length - 1 := by omega
    simp [this, hj]

/-- Effect of `linRemove` on a state with correct back references: the element `h` at position `k`
disappears from the linear list, all others stay, and only back references change in the heap. -/
theorem linRemove_spec (s : St) (k h : Nat) (hk : s.lin[k]? = some h)
    (hix : ∀ (k : Nat) (h : Nat), s.lin[k]? = some h → ∃ i, s.heap[h]? = some i ∧ i.linIx = k) :
    ∃ s', linRemove s k = .ok (s', true) ∧ s'.bodies = s.bodies ∧ s'.held = s.held ∧
      (∀ (k : Nat) (h : Nat), s'.lin[k]? = some h → ∃ i, s'.heap[h]? = some i ∧ i.linIx = k) ∧
      (∀ x, x ∈ s'.lin ↔ x ∈ s.lin ∧ x ≠ h) ∧
      (∀ x : Nat, (s'.heap[x]?).map Intr.face = (s.heap[x]?).map Intr.face) ∧
      s'.lin.length + 1 = s.lin.length ∧
      (∀ j, j < k → s'.lin[j]? = s.lin[j]?) ∧
      (∀ j, j + 1 < s.lin.length → j ≠ k → s'.lin[j]? = s.lin[j]?) := by
  have hinj : ∀ {k k' x : Nat}, s.lin[k]? = some x → s.lin[k']? = some x → k = k' := by
    intro k k' x h1 h2
    obtain ⟨i, hi, hk⟩ := hix k x h1
    obtain ⟨i', hi', hk'⟩ := hix k' x h2
    rw [hi] at hi'; cases hi'
    omega
  have hkl : k < s.lin.length := (List.getElem?_eq_some_iff.mp hk).1
  have hne : s.lin ≠ [] := by intro h0; simp [h0] at hkl
  obtain ⟨last, hlast⟩ : ∃ last, s.lin.getLast? = some last :=
    ⟨_, List.getLast?_eq_some_getLast hne⟩
  obtain ⟨_, hlast'⟩ := getLast_get? _ _ hlast
  unfold linRemove
  simp only [hlast]
  by_cases hk1 : k + 1 < s.lin.length
  · simp only [hk1, if_true]
    obtain ⟨j, hj, hjx⟩ := hix _ _ hlast'
    simp only [hj]
    refine ⟨_, rfl, rfl, rfl, ?_, ?_, ?_, ?_, ?_, ?_⟩
    · intro k' x hx
      simp only at hx
      rw [swapRemove_get? _ _ _ hk1] at hx
      split at hx
      · rename_i hk'
        split at hx
        · rename_i hkk; subst hkk
          cases hx
          refine ⟨{ j with linIx := (k' : Int) }, ?_, rfl⟩
          simp [(List.getElem?_eq_some_iff.mp hj).1]
        · obtain ⟨i, hi, hxi⟩ := hix k' x hx
          have : x ≠ last := by
            intro hxl; subst hxl
            have := hinj hx hlast'
            omega
          refine ⟨i, ?_, hxi⟩
          simp [Ne.symm this, hi]
      · simp at hx
    · intro x
      constructor
      · intro hx
        obtain ⟨k', hk'⟩ := List.mem_iff_getElem?.mp hx
        simp only at hk'
        rw [swapRemove_get? _ _ _ hk1] at hk'
        split at hk'
        · split at hk'
          · cases hk'
            refine ⟨List.mem_of_getElem? hlast', ?_⟩
            intro h2; subst h2
            have := hinj hk hlast'
            omega
          · rename_i h1 h2
            refine ⟨List.mem_of_getElem? hk', ?_⟩
            intro h3; subst h3
            exact h2 (hinj hk' hk)
        · simp at hk'
      · rintro ⟨hx, hxh⟩
        obtain ⟨k', hk'⟩ := List.mem_iff_getElem?.mp hx
        have hkk : k' ≠ k := by
          intro h2; subst h2; rw [hk] at hk'; cases hk'; exact hxh rfl
        by_cases hlt : k' + 1 < s.lin.length
        · apply List.mem_of_getElem? (i := k')
          simp only
          rw [swapRemove_get? _ _ _ hk1]
          simp [hlt, hkk, hk']
        · have hk'l := (List.getElem?_eq_some_iff.mp hk').1
          have : k' = s.lin.length - 1 := by omega
          subst this
          rw [hlast'] at hk'; cases hk'
          apply List.mem_of_getElem? (i := k)
          simp only
          rw [swapRemove_get? _ _ _ hk1]
          simp [hk1]
    · intro x
      simp only [List.getElem?_set]
      by_cases hx : last = x
      · subst hx
        obtain ⟨hlt, rfl⟩ := List.getElem?_eq_some_iff.mp hj
        simp [hlt, Intr.face]
      · simp [hx]
    · simp; omega
    · intro j' hj'
      simp only
      rw [swapRemove_get? _ _ _ hk1]
      have h1 : j' + 1 < s.lin.length := by omega
      have h2 : j' ≠ k := by omega
      simp [h1, h2]
    · intro j' h1 h2
      simp only
      rw [swapRemove_get? _ _ _ hk1]
      simp [h1, h2]
  · simp only [hk1, if_false]
    have hkl' : k = s.lin.length - 1 := by omega
    have hh : last = h := by rw [← hkl', hk] at hlast'; cases hlast'; rfl
    refine ⟨_, rfl, rfl, rfl, ?_, ?_, ?_, ?_, ?_, ?_⟩
    · intro k' x hx
      simp only at hx
      rw [dropLast_get?] at hx
      split at hx
      · exact hix k' x hx
      · simp at hx
    · intro x
      constructor
      · intro hx
        obtain ⟨k', hk'⟩ := List.mem_iff_getElem?.mp hx
        simp only at hk'
        rw [dropLast_get?] at hk'
        split at hk'
        · refine ⟨List.mem_of_getElem? hk', ?_⟩
          intro h2; subst h2
          have := hinj hk' hk
          omega
        · simp at hk'
      · rintro ⟨hx, hxh⟩
        obtain ⟨k', hk'⟩ := List.mem_iff_getElem?.mp hx
        have hk'l := (List.getElem?_eq_some_iff.mp hk').1
        have hkk : k' ≠ k := by
          intro h2; subst h2; rw [hk] at hk'; cases hk'; exact hxh rfl
        apply List.mem_of_getElem? (i := k')
        simp only
        rw [dropLast_get?]
        have : k' + 1 < s.lin.length := by omega
        simp [this, hk']
    · intro x; rfl
    · simp; omega
    · intro j' hj'
      simp only
      rw [dropLast_get?]
      have : j' + 1 < s.lin.length := by omega
      simp [this]
    · intro j' h1 _
      simp only
      rw [dropLast_get?]
      simp [h1]

/-! ### insert -/

theorem insert_present {s : St} {h : Nat} {i : Intr} {m1 : IMap} {b2} (hh : s.heap[h]? = some i)
    (h1 : slot s i.lo = some (some m1)) (h2 : slot s i.hi = some b2)
    (hp : (m1.get i.hi).isSome) : insert s h = .ok (s, false) := by
  unfold insert
  simp [hh, h1, h2, hp]

theorem insert_absent {s : St} (w : WF s) {h : Nat} {i : Intr} {m1 m2 : IMap}
    (hh : s.heap[h]? = some i) (hne : i.id1 ≠ i.id2)
    (h1 : slot s i.lo = some (some m1)) (h2 : slot s i.hi = some (some m2))
    (hp : m1.get i.hi = none) :
    ∃ s', insert s h = .ok (s', true) ∧ WF s' ∧ s'.lin = s.lin ++ [h] ∧ h ∉ s.lin ∧
      s'.heap = s.heap.set h { i with linIx := s.lin.length } ∧
      s'.held = s.held ∧ nb s' = nb s ∧
      (∀ c, slot s' c = if c = i.hi then some (some (m2.add i.lo h)) else
        if c = i.lo then some (some (m1.add i.hi h)) else slot s c) := by
  have hlt := Intr.lo_lt_hi hne
  have hlohi : i.hi ≠ i.lo := by omega
  have hnotin : ∀ h', h' ∈ s.lin → ∀ i', s.heap[h']? = some i' → i'.lo = i.lo → i'.hi ≠ i.hi := by
    intro h' hm i' hi' e1 e2
    have := (w.fwd h' hm i' hi').1 m1 (by rw [e1]; exact h1)
    rw [e2, hp] at this; cases this
  have hnl : h ∉ s.lin := fun hm => hnotin h hm i hh rfl rfl
  have hm2 : m2.get i.lo = none := by
    cases hg : m2.get i.lo with
    | none => rfl
    | some h' =>
      exfalso
      obtain ⟨⟨i', hi', _, hor⟩, hst⟩ := w.back i.hi m2 i.lo h' h2 hg
      rcases hst with hl | ⟨_, hnull⟩
      · rcases hor with ⟨e1, e2⟩ | ⟨e1, e2⟩
        · have := Intr.lo_le_hi i'; omega
        · exact hnotin h' hl i' hi' e1 e2
      · rw [h1] at hnull; cases hnull
  have hs1 : slot (setSlot s i.lo (m1.add i.hi h)) i.hi = some (some m2) := by
    rw [slot_setSlot _ h1]; simp [hlohi, h2]
  have hslot : ∀ c, slot (setSlot (setSlot s i.lo (m1.add i.hi h)) i.hi (m2.add i.lo h)) c =
      if c = i.hi then some (some (m2.add i.lo h)) else
        if c = i.lo then some (some (m1.add i.hi h)) else slot s c := by
    intro c
    rw [slot_setSlot _ hs1, slot_setSlot _ h1]
  have hhl : h < s.heap.length := (List.getElem?_eq_some_iff.mp hh).1
  -- heap after
  have hheap : ∀ x : Nat, (s.heap.set h { i with linIx := (s.lin.length : Int) })[x]? =
      if h = x then some { i with linIx := (s.lin.length : Int) } else s.heap[x]? := by
    intro x
    rw [List.getElem?_set]
    by_cases hx : h = x
    · subst hx; simp [hhl]
    · simp [hx]
  have hface : ∀ (x : Nat) (j : Intr), (s.heap.set h { i with linIx := (s.lin.length : Int) })[x]? = some j →
      ∃ j0, s.heap[x]? = some j0 ∧ j0.lo = j.lo ∧ j0.hi = j.hi ∧ j0.id1 = j.id1 ∧ j0.id2 = j.id2 := by
    intro x j hj
    rw [hheap] at hj
    split at hj
    · rename_i hx; subst hx; cases hj; exact ⟨i, hh, rfl, rfl, rfl, rfl⟩
    · exact ⟨j, hj, rfl, rfl, rfl, rfl⟩
  refine ⟨{ setSlot (setSlot s i.lo (m1.add i.hi h)) i.hi (m2.add i.lo h) with
      lin := s.lin ++ [h],
      heap := s.heap.set h { i with linIx := (s.lin.length : Int) } }, ?_, ?_, rfl, hnl, rfl, rfl, ?_, ?_⟩
  · unfold insert
    simp [hh, h1, h2, hp, hs1, hm2]
  · refine ⟨?_, ?_, ?_, ?_, ?_⟩
    · intro k x hx
      simp only at hx ⊢
      rw [List.getElem?_append] at hx
      split at hx
      · obtain ⟨j, hj, hjk⟩ := w.linIx k x hx
        have hxh : h ≠ x := by
          intro e; subst e; exact hnl (List.mem_of_getElem? hx)
        exact ⟨j, by rw [hheap, if_neg hxh]; exact hj, hjk⟩
      · rename_i hk
        have hk0 : k - s.lin.length = 0 := by
          have := (List.getElem?_eq_some_iff.mp hx).1
          simp at this; omega
        rw [hk0] at hx; simp at hx; subst hx
        refine ⟨_, by rw [hheap, if_pos rfl], ?_⟩
        simp only; omega
    · intro x hx j hj
      simp only at hx hj
      obtain ⟨j0, hj0, e1, e2, e3, e4⟩ := hface x j hj
      rw [← e1, ← e2, ← e3, ← e4]
      show _ ∧ _ ∧ _ < nb (setSlot _ _ _)
      rw [nb_setSlot, nb_setSlot]
      rcases List.mem_append.mp hx with hx | hx
      · exact w.pair x hx j0 hj0
      · simp at hx; subst hx; rw [hh] at hj0; cases hj0
        exact ⟨hne, (slot_lt h1).1, slot_nb h2⟩
    · intro x hx j hj
      simp only at hx hj
      obtain ⟨j0, hj0, e1, e2, e3, e4⟩ := hface x j hj
      rw [← e1, ← e2]
      show (∀ m, slot (setSlot (setSlot s i.lo (m1.add i.hi h)) i.hi (m2.add i.lo h)) j0.lo = _ → _) ∧
        (∀ m, slot (setSlot (setSlot s i.lo (m1.add i.hi h)) i.hi (m2.add i.lo h)) j0.hi = _ → _)
      rw [hslot, hslot]
      rcases List.mem_append.mp hx with hx | hx
      · have hp0 := w.pair x hx j0 hj0
        have hf0 := w.fwd x hx j0 hj0
        have hlt0 := Intr.lo_lt_hi hp0.1
        have hn0 := hnotin x hx j0 hj0
        constructor
        · intro m hm
          split at hm
          · rename_i hc; cases hm
            rw [IMap.get_add, if_neg (by omega)]
            exact hf0.1 m2 (by rw [hc]; exact h2)
          · split at hm
            · rename_i hc; cases hm
              rw [IMap.get_add, if_neg (by have := hn0 hc; omega)]
              exact hf0.1 m1 (by rw [hc]; exact h1)
            · exact hf0.1 m hm
        · intro m hm
          split at hm
          · rename_i hc; cases hm
            have : i.lo ≠ j0.lo := fun e => hn0 e.symm hc
            rw [IMap.get_add, if_neg this]
            exact hf0.2 m2 (by rw [hc]; exact h2)
          · split at hm
            · rename_i hc; cases hm
              rw [IMap.get_add, if_neg (by omega)]
              exact hf0.2 m1 (by rw [hc]; exact h1)
            · exact hf0.2 m hm
      · simp at hx; subst hx; rw [hh] at hj0; cases hj0
        constructor
        · intro m hm
          rw [if_neg (by omega), if_pos rfl] at hm; cases hm
          rw [IMap.get_add, if_pos rfl]
        · intro m hm
          rw [if_pos rfl] at hm; cases hm
          rw [IMap.get_add, if_pos rfl]
    · intro x x' hx hx' j j' hj hj' e1 e2
      simp only at hx hx' hj hj'
      obtain ⟨j0, hj0, a1, a2, _, _⟩ := hface x j hj
      obtain ⟨j0', hj0', a1', a2', _, _⟩ := hface x' j' hj'
      rcases List.mem_append.mp hx with gx | gx <;> rcases List.mem_append.mp hx' with gx' | gx'
      · exact w.uniq x x' gx gx' j0 j0' hj0 hj0' (by omega) (by omega)
      · have gx' := List.mem_singleton.mp gx'
        subst gx'; rw [hh] at hj0'; cases hj0'
        exact absurd (by omega) (hnotin x gx j0 hj0 (by omega))
      · have gx := List.mem_singleton.mp gx
        subst gx; rw [hh] at hj0; cases hj0
        exact absurd (by omega) (hnotin x' gx' j0' hj0' (by omega))
      · rw [List.mem_singleton.mp gx, List.mem_singleton.mp gx']
    · intro a m b x ha hb
      have ha' : slot (setSlot (setSlot s i.lo (m1.add i.hi h)) i.hi (m2.add i.lo h)) a = some (some m) := ha
      rw [hslot] at ha'
      have hlift : ∀ (P : Prop), ((∃ j, s.heap[x]? = some j ∧ j.id1 ≠ j.id2 ∧ ((j.lo = a ∧ j.hi = b) ∨ (j.lo = b ∧ j.hi = a))) ∧ P) →
          (∃ j, (s.heap.set h { i with linIx := (s.lin.length : Int) })[x]? = some j ∧ j.id1 ≠ j.id2 ∧ ((j.lo = a ∧ j.hi = b) ∨ (j.lo = b ∧ j.hi = a))) ∧ P := by
        rintro P ⟨⟨j, hj, hj1, hj2⟩, hP⟩
        refine ⟨?_, hP⟩
        by_cases hx : h = x
        · subst hx; rw [hh] at hj; cases hj
          exact ⟨{ i with linIx := (s.lin.length : Int) }, by rw [hheap, if_pos rfl], hj1, hj2⟩
        · exact ⟨j, by rw [hheap, if_neg hx]; exact hj, hj1, hj2⟩
      have hold : ∀ (mm : IMap), slot s a = some (some mm) → mm.get b = some x →
          (∃ j, (s.heap.set h { i with linIx := (s.lin.length : Int) })[x]? = some j ∧ j.id1 ≠ j.id2 ∧ ((j.lo = a ∧ j.hi = b) ∨ (j.lo = b ∧ j.hi = a))) ∧
          (x ∈ s.lin ++ [h] ∨ (b < a ∧ slot (setSlot (setSlot s i.lo (m1.add i.hi h)) i.hi (m2.add i.lo h)) b = some none)) := by
        intro mm hs hg
        obtain ⟨q1, q2⟩ := w.back a mm b x hs hg
        apply hlift
        refine ⟨q1, ?_⟩
        rcases q2 with q2 | ⟨q2, q3⟩
        · exact Or.inl (List.mem_append_left _ q2)
        · refine Or.inr ⟨q2, ?_⟩
          rw [hslot]
          have b1 : b ≠ i.hi := by intro e; rw [e, h2] at q3; cases q3
          have b2 : b ≠ i.lo := by intro e; rw [e, h1] at q3; cases q3
          rw [if_neg b1, if_neg b2]; exact q3
      split at ha'
      · rename_i hc; cases ha'
        rw [IMap.get_add] at hb
        split at hb
        · rename_i hb'; cases hb
          refine ⟨⟨{ i with linIx := (s.lin.length : Int) }, by show (List.set _ _ _)[_]? = _; rw [hheap, if_pos rfl], hne, Or.inr ⟨hb', hc.symm⟩⟩, Or.inl (by simp)⟩
        · exact hold m2 (by rw [hc]; exact h2) hb
      · split at ha'
        · rename_i hc; cases ha'
          rw [IMap.get_add] at hb
          split at hb
          · rename_i hb'; cases hb
            refine ⟨⟨{ i with linIx := (s.lin.length : Int) }, by show (List.set _ _ _)[_]? = _; rw [hheap, if_pos rfl], hne, Or.inl ⟨hc.symm, hb'⟩⟩, Or.inl (by simp)⟩
          · exact hold m1 (by rw [hc]; exact h1) hb
        · exact hold m ha' hb
  · show nb (setSlot _ _ _) = _
    rw [nb_setSlot, nb_setSlot]
  · exact hslot

/-! ### erase -/

theorem face_some {s s' : St} {x : Nat} {j : Intr}
    (hf : (s'.heap[x]?).map Intr.face = (s.heap[x]?).map Intr.face) (hj : s'.heap[x]? = some j) :
    ∃ j0, s.heap[x]? = some j0 ∧ j0.lo = j.lo ∧ j0.hi = j.hi ∧ j0.id1 = j.id1 ∧ j0.id2 = j.id2 ∧
      j0.face = j.face := by
  rw [hj] at hf
  cases h0 : s.heap[x]? with
  | none => rw [h0] at hf; simp at hf
  | some j0 =>
    rw [h0] at hf
    simp at hf
    have := hf.symm
    refine ⟨j0, rfl, Intr.lo_of_face this, Intr.hi_of_face this, ?_, ?_, this⟩
    · unfold Intr.face at this; simp at this; exact this.1
    · unfold Intr.face at this; simp at this; exact this.2.1

theorem WF_of_remove {s s' : St} (w : WF s) {h : Nat} {i : Intr} (hi : s.heap[h]? = some i)
    (hix : ∀ (k : Nat) (h : Nat), s'.lin[k]? = some h → ∃ i, s'.heap[h]? = some i ∧ i.linIx = k)
    (hmem : ∀ x, x ∈ s'.lin ↔ x ∈ s.lin ∧ x ≠ h)
    (hface : ∀ x : Nat, (s'.heap[x]?).map Intr.face = (s.heap[x]?).map Intr.face)
    (hnb : nb s' = nb s)
    (hnull : ∀ c, slot s' c = some none ↔ slot s c = some none)
    (hmaps : ∀ c m', slot s' c = some (some m') → ∃ m, slot s c = some (some m) ∧
      ∀ b, m'.get b = m.get b ∨ (m'.get b = none ∧ ((c = i.lo ∧ b = i.hi) ∨ (c = i.hi ∧ b = i.lo))))
    (hlo : ∀ m', slot s' i.lo = some (some m') → m'.get i.hi = none)
    (hhi : ∀ m', slot s' i.hi = some (some m') → m'.get i.lo = none ∨ slot s i.lo = some none)
    (hmemh : h ∈ s.lin) : WF s' := by
  have hpi := w.pair h hmemh i hi
  have hlt := Intr.lo_lt_hi hpi.1
  refine ⟨hix, ?_, ?_, ?_, ?_⟩
  · intro x hx j hj
    obtain ⟨j0, hj0, e1, e2, e3, e4, _⟩ := face_some (hface x) hj
    rw [hnb, ← e1, ← e2, ← e3, ← e4]
    exact w.pair x ((hmem x).mp hx).1 j0 hj0
  · intro x hx j hj
    obtain ⟨hx, hxh⟩ := (hmem x).mp hx
    obtain ⟨j0, hj0, e1, e2, e3, e4, _⟩ := face_some (hface x) hj
    rw [← e1, ← e2]
    have hf := w.fwd x hx j0 hj0
    have hp0 := w.pair x hx j0 hj0
    have hlt0 := Intr.lo_lt_hi hp0.1
    have hn : ¬ (j0.lo = i.lo ∧ j0.hi = i.hi) := fun e => hxh (w.uniq x h hx hmemh j0 i hj0 hi e.1 e.2)
    constructor
    · intro m' hm'
      obtain ⟨m, hm, hb⟩ := hmaps _ m' hm'
      rcases hb j0.hi with e | ⟨_, e | e⟩
      · rw [e]; exact hf.1 m hm
      · exact absurd e hn
      · omega
    · intro m' hm'
      obtain ⟨m, hm, hb⟩ := hmaps _ m' hm'
      rcases hb j0.lo with e | ⟨_, e | e⟩
      · rw [e]; exact hf.2 m hm
      · omega
      · exact absurd ⟨e.2, e.1⟩ hn
  · intro x x' hx hx' j j' hj hj' e1 e2
    obtain ⟨j0, hj0, a1, a2, _⟩ := face_some (hface x) hj
    obtain ⟨j0', hj0', a1', a2', _⟩ := face_some (hface x') hj'
    exact w.uniq x x' ((hmem x).mp hx).1 ((hmem x').mp hx').1 j0 j0' hj0 hj0' (by omega) (by omega)
  · intro a m' b x ha hb
    obtain ⟨m, hm, hbb⟩ := hmaps a m' ha
    have hmb : m.get b = some x := by
      rcases hbb b with e | ⟨e, _⟩
      · rw [← e]; exact hb
      · rw [e] at hb; cases hb
    obtain ⟨⟨j0, hj0, q1, q2⟩, q3⟩ := w.back a m b x hm hmb
    have hf := hface x
    rw [hj0] at hf
    refine ⟨?_, ?_⟩
    · cases hj : s'.heap[x]? with
      | none => rw [hj] at hf; simp at hf
      | some j =>
        obtain ⟨j1, hj1, a1, a2, a3, a4, _⟩ := face_some (hface x) hj
        rw [hj0] at hj1; cases hj1
        exact ⟨j, rfl, by rw [← a3, ← a4]; exact q1, by rw [← a1, ← a2]; exact q2⟩
    · rcases q3 with q3 | ⟨q3, q4⟩
      · by_cases hxh : x = h
        · subst hxh
          rw [hi] at hj0; cases hj0
          rcases q2 with ⟨e1, e2⟩ | ⟨e1, e2⟩
          · subst e1; subst e2
            rw [hlo m' ha] at hb; cases hb
          · subst e1; subst e2
            rcases hhi m' ha with e | e
            · rw [e] at hb; cases hb
            · exact Or.inr ⟨hlt, (hnull _).mpr e⟩
        · exact Or.inl ((hmem x).mpr ⟨q3, hxh⟩)
      · exact Or.inr ⟨q3, (hnull _).mpr q4⟩

/-- What a successful removal of `h` (at position `k`) leaves. -/
structure Removed (s s' : St) (h k : Nat) : Prop where
  mem : ∀ x, x ∈ s'.lin ↔ x ∈ s.lin ∧ x ≠ h
  face : ∀ x : Nat, (s'.heap[x]?).map Intr.face = (s.heap[x]?).map Intr.face
  nb : nb s' = nb s
  null : ∀ c, slot s' c = some none ↔ slot s c = some none
  held : s'.held = s.held
  len : s'.lin.length + 1 = s.lin.length
  before : ∀ j, j < k → s'.lin[j]? = s.lin[j]?
  other : ∀ j, j + 1 < s.lin.length → j ≠ k → s'.lin[j]? = s.lin[j]?

theorem slot_congr {s s' : St} (h : s'.bodies = s.bodies) (c : Int) : slot s' c = slot s c := by
  unfold slot; rw [h]
theorem nb_congr {s s' : St} (h : s'.bodies = s.bodies) : nb s' = nb s := by
  unfold nb; rw [h]

theorem erase_present {s : St} (w : WF s) {h k : Nat} {i : Intr} (hk : s.lin[k]? = some h)
    (hi : s.heap[h]? = some i) {x y linPos : Int}
    (hxy : (x = i.id1 ∧ y = i.id2) ∨ (x = i.id2 ∧ y = i.id1))
    (hpos : linPos = k ∨ ∃ m, slot s i.lo = some (some m)) :
    ∃ s', erase s x y linPos = .ok (s', true) ∧ WF s' ∧ Removed s s' h k := by
  have hmemh : h ∈ s.lin := List.mem_of_getElem? hk
  obtain ⟨hne, h0, hnb⟩ := w.pair h hmemh i hi
  have hlt := Intr.lo_lt_hi hne
  have hlohi : i.hi ≠ i.lo := by omega
  have ea : (if x > y then y else x) = i.lo := by
    unfold Intr.lo; rcases hxy with ⟨rfl, rfl⟩ | ⟨rfl, rfl⟩ <;> (repeat' split) <;> omega
  have eb : (if x > y then x else y) = i.hi := by
    unfold Intr.hi; rcases hxy with ⟨rfl, rfl⟩ | ⟨rfl, rfl⟩ <;> (repeat' split) <;> omega
  obtain ⟨b1, hb1⟩ := slot_of_lt (s := s) h0 (by omega)
  obtain ⟨b2, hb2⟩ := slot_of_lt (s := s) (a := i.hi) (by omega) hnb
  have hikx : i.linIx = k := by
    obtain ⟨i', hi', e⟩ := w.linIx k h hk
    rw [hi] at hi'; cases hi'; exact e
  unfold erase
  simp only [ea, eb, hb1, hb2]
  rw [if_neg (by omega)]
  cases b1 with
  | none =>
    have hlp : linPos = k := by
      rcases hpos with e | ⟨m, hm⟩
      · exact e
      · rw [hb1] at hm; cases hm
    subst hlp
    obtain ⟨s', e, hbod, hheld, hix, hmem, hface, hlen, hbef, hoth⟩ := linRemove_spec s k h hk w.linIx
    have hsl := slot_congr hbod
    refine ⟨s', ?_, ?_, ⟨hmem, hface, nb_congr hbod, fun c => by rw [hsl], hheld, hlen, hbef, hoth⟩⟩
    · simp only []
      rw [if_neg (by omega)]
      simpa using e
    · refine WF_of_remove w hi hix hmem hface (nb_congr hbod) (fun c => by rw [hsl]) ?_ ?_ ?_ hmemh
      · intro c m' hm'; rw [hsl] at hm'; exact ⟨m', hm', fun b => Or.inl rfl⟩
      · intro m' hm'; rw [hsl, hb1] at hm'; cases hm'
      · intro m' _; exact Or.inr hb1
  | some m1 =>
    have hg := (w.fwd h hmemh i hi).1 m1 hb1
    simp only [hg, Option.map_some, hi]
    have hs1 : slot (setSlot s i.lo (m1.del i.hi)) i.hi = some b2 := by
      rw [slot_setSlot _ hb1, if_neg hlohi, hb2]
    simp only [hs1]
    -- the state after both map deletions
    obtain ⟨s2, hs2, hs2h, hs2l, hs2d, hs2n, hs2s⟩ : ∃ s2, delOther (setSlot s i.lo (m1.del i.hi)) i.lo i.hi b2 = s2 ∧ s2.heap = s.heap ∧ s2.lin = s.lin ∧
        s2.held = s.held ∧ nb s2 = nb s ∧ (∀ c, slot s2 c =
          if c = i.hi then some (b2.map (fun m2 => m2.del i.lo)) else
          if c = i.lo then some (some (m1.del i.hi)) else slot s c) := by
      cases b2 with
      | some m2 =>
        refine ⟨_, rfl, rfl, rfl, rfl, by simp [delOther], ?_⟩
        intro c
        show slot (setSlot (setSlot s i.lo (m1.del i.hi)) i.hi (m2.del i.lo)) c = _
        rw [slot_setSlot _ hs1, slot_setSlot _ hb1]; rfl
      | none =>
        refine ⟨_, rfl, rfl, rfl, rfl, by simp [delOther], ?_⟩
        intro c
        show slot (setSlot s i.lo (m1.del i.hi)) c = _
        rw [slot_setSlot _ hb1]
        by_cases hc : c = i.hi
        · subst hc; simp [hlohi, hb2]
        · simp [hc]
    rw [hs2]
    rw [if_neg (by omega), hikx]
    have hk2 : s2.lin[k]? = some h := by rw [hs2l]; exact hk
    obtain ⟨s', e, hbod, hheld, hix, hmem, hface, hlen, hbef, hoth⟩ :=
      linRemove_spec s2 k h hk2 (by rw [hs2l, hs2h]; exact w.linIx)
    have hsl := slot_congr hbod
    rw [hs2l] at hmem hlen hbef hoth
    rw [hs2h] at hface
    have hnbs : nb s' = nb s := (nb_congr hbod).trans hs2n
    have hnull : ∀ c, slot s' c = some none ↔ slot s c = some none := by
      intro c
      rw [hsl, hs2s]
      by_cases c1 : c = i.hi
      · subst c1; rw [if_pos rfl, hb2]; cases b2 <;> simp
      · by_cases c2 : c = i.lo
        · subst c2; rw [if_neg c1, if_pos rfl, hb1]; simp
        · rw [if_neg c1, if_neg c2]
    refine ⟨s', by simpa using e, ?_, ⟨hmem, hface, hnbs, hnull, hheld.trans hs2d, hlen, hbef, hoth⟩⟩
    refine WF_of_remove w hi hix hmem hface hnbs hnull ?_ ?_ ?_ hmemh
    · intro c m' hm'
      rw [hsl, hs2s] at hm'
      by_cases c1 : c = i.hi
      · rw [if_pos c1] at hm'
        cases b2 with
        | none => simp at hm'
        | some m2 =>
          simp at hm'; subst hm'
          refine ⟨m2, by rw [c1]; exact hb2, ?_⟩
          intro b
          rw [IMap.get_del]
          split
          · rename_i hbb
            right; refine ⟨rfl, Or.inr ⟨c1, by omega⟩⟩
          · left; rfl
      · rw [if_neg c1] at hm'
        by_cases c2 : c = i.lo
        · rw [if_pos c2] at hm'
          simp at hm'; subst hm'
          refine ⟨m1, by rw [c2]; exact hb1, ?_⟩
          intro b
          rw [IMap.get_del]
          split
          · right; refine ⟨rfl, Or.inl ⟨c2, by omega⟩⟩
          · left; rfl
        · rw [if_neg c2] at hm'
          exact ⟨m', hm', fun b => Or.inl rfl⟩
    · intro m' hm'
      rw [hsl, hs2s, if_neg (by omega), if_pos rfl] at hm'
      simp at hm'; subst hm'
      rw [IMap.get_del, if_pos rfl]
    · intro m' hm'
      rw [hsl, hs2s, if_pos rfl] at hm'
      cases b2 with
      | none => simp at hm'
      | some m2 =>
        simp at hm'; subst hm'
        left; rw [IMap.get_del, if_pos rfl]

theorem erase_absent {s : St} {x y linPos : Int} (hpos : linPos < 0) (hx : 0 ≤ x) (hy : 0 ≤ y)
    (hno : ∀ m, slot s (if x > y then y else x) = some (some m) →
      m.get (if x > y then x else y) = none) :
    erase s x y linPos = .ok (s, false) := by
  unfold erase
  simp only []
  by_cases hb : (if x > y then x else y) ≥ nb s
  · rw [if_pos hb]
  · rw [if_neg hb]
    have h1 : 0 ≤ (if x > y then y else x) := by split <;> omega
    have h2 : 0 ≤ (if x > y then x else y) := by split <;> omega
    have h3 : (if x > y then y else x) ≤ (if x > y then x else y) := by split <;> omega
    obtain ⟨b1, hb1⟩ := slot_of_lt (s := s) h1 (by omega)
    obtain ⟨b2, hb2⟩ := slot_of_lt (s := s) h2 (by omega)
    rw [hb1, hb2]
    simp only []
    cases b1 with
    | none => simp [hpos]
    | some m =>
      simp only [hno m hb1, Option.map_none]
      rw [if_pos hpos]

/-- `i` joins the unordered pair `{x, y}`. -/
def Joins (i : Intr) (x y : Int) : Prop := (i.id1 = x ∧ i.id2 = y) ∨ (i.id1 = y ∧ i.id2 = x)

theorem joins_iff {i : Intr} {x y : Int} : Joins i x y ↔
    i.lo = (if x > y then y else x) ∧ i.hi = (if x > y then x else y) := by
  unfold Joins Intr.lo Intr.hi
  constructor
  · rintro (⟨rfl, rfl⟩ | ⟨rfl, rfl⟩) <;> (repeat' split) <;> omega
  · rintro ⟨h1, h2⟩
    (repeat' split at h1) <;> (repeat' split at h2) <;> omega

/-- In a well-formed state, looking a pair up among live bodies is membership in the list. -/
theorem map_iff {s : St} (w : WF s) {x y : Int} {m : IMap} (hxy : x < y)
    (hm : slot s x = some (some m)) (h : Nat) :
    m.get y = some h ↔ h ∈ s.lin ∧ ∃ i, s.heap[h]? = some i ∧ Joins i x y := by
  have hj : ∀ i : Intr, Joins i x y ↔ i.lo = x ∧ i.hi = y := by
    intro i; rw [joins_iff, if_neg (by omega), if_neg (by omega)]
  constructor
  · intro hg
    obtain ⟨⟨i, hi, hne, hor⟩, hst⟩ := w.back x m y h hm hg
    rcases hst with hl | ⟨hlt, _⟩
    · refine ⟨hl, i, hi, ?_⟩
      rw [hj]
      rcases hor with e | ⟨e1, e2⟩
      · exact e
      · have := Intr.lo_lt_hi hne; omega
    · omega
  · rintro ⟨hl, i, hi, hij⟩
    rw [hj] at hij
    have := (w.fwd h hl i hi).1 m (by rw [hij.1]; exact hm)
    rw [hij.2] at this; exact this

theorem map_iff' {s : St} (w : WF s) {x y : Int} {m : IMap} (hxy : x < y)
    (hm : slot s y = some (some m)) (hx : slot s x ≠ some none) (h : Nat) :
    m.get x = some h ↔ h ∈ s.lin ∧ ∃ i, s.heap[h]? = some i ∧ Joins i x y := by
  have hj : ∀ i : Intr, Joins i x y ↔ i.lo = x ∧ i.hi = y := by
    intro i; rw [joins_iff, if_neg (by omega), if_neg (by omega)]
  constructor
  · intro hg
    obtain ⟨⟨i, hi, hne, hor⟩, hst⟩ := w.back y m x h hm hg
    rcases hst with hl | ⟨hlt, h2⟩
    · refine ⟨hl, i, hi, ?_⟩
      rw [hj]
      rcases hor with ⟨e1, e2⟩ | e
      · have := Intr.lo_lt_hi hne; omega
      · exact e
    · exact absurd h2 hx
  · rintro ⟨hl, i, hi, hij⟩
    rw [hj] at hij
    have := (w.fwd h hl i hi).2 m (by rw [hij.2]; exact hm)
    rw [hij.1] at this; exact this

theorem map_self {s : St} (w : WF s) {x : Int} {m : IMap} (hm : slot s x = some (some m)) :
    m.get x = none := by
  cases hg : m.get x with
  | none => rfl
  | some h =>
    obtain ⟨⟨i, hi, hne, hor⟩, _⟩ := w.back x m x h hm hg
    have := Intr.lo_lt_hi hne
    rcases hor with e | e <;> omega

/-- `find` among live bodies. -/
theorem find_spec {s : St} (w : WF s) {x y : Int} (hx : 0 ≤ x) (hy : 0 ≤ y)
    (hlive : ∀ c, slot s c ≠ some none) :
    ∃ r, find s x y = .ok r ∧ ∀ h, r = some h ↔ h ∈ s.lin ∧ ∃ i, s.heap[h]? = some i ∧ Joins i x y := by
  have h1 : 0 ≤ (if x > y then y else x) := by split <;> omega
  have h3 : (if x > y then y else x) ≤ (if x > y then x else y) := by split <;> omega
  have hsym : ∀ i : Intr, Joins i x y ↔ Joins i (if x > y then y else x) (if x > y then x else y) := by
    intro i; unfold Joins; split <;> omega
  unfold find
  simp only []
  by_cases hb : (if x > y then x else y) ≥ nb s
  · rw [if_pos hb]
    refine ⟨none, rfl, ?_⟩
    intro h
    constructor
    · intro e; cases e
    · rintro ⟨hl, i, hi, hij⟩
      have := w.pair h hl i hi
      rw [joins_iff] at hij
      omega
  · rw [if_neg hb]
    obtain ⟨b1, hb1⟩ := slot_of_lt (s := s) h1 (by omega)
    rw [hb1]
    cases b1 with
    | none => exact absurd hb1 (hlive _)
    | some m =>
      refine ⟨_, rfl, ?_⟩
      intro h
      by_cases he : (if x > y then y else x) = (if x > y then x else y)
      · rw [← he, map_self w hb1]
        constructor
        · intro e; cases e
        · rintro ⟨hl, i, hi, hij⟩
          have := w.pair h hl i hi
          have hlt := Intr.lo_lt_hi this.1
          rw [joins_iff] at hij
          omega
      · rw [map_iff w (by omega) hb1]
        constructor
        · rintro ⟨a, i, b, c⟩; exact ⟨a, i, b, (hsym i).mpr c⟩
        · rintro ⟨a, i, b, c⟩; exact ⟨a, i, b, (hsym i).mp c⟩

/-- `found` among live bodies. -/
theorem found_spec {s : St} (w : WF s) {x y : Int} (hx : 0 ≤ x) (hy : 0 ≤ y)
    (hlive : ∀ c, slot s c ≠ some none) :
    ∃ r, found s x y = .ok r ∧ (r = true ↔ ∃ h, h ∈ s.lin ∧ ∃ i, s.heap[h]? = some i ∧ Joins i x y) := by
  unfold found
  by_cases hc : y ≥ nb s ∨ x = y
  · rw [if_pos hc]
    refine ⟨false, rfl, ?_⟩
    constructor
    · intro e; cases e
    · rintro ⟨h, hl, i, hi, hij⟩
      have hp := w.pair h hl i hi
      have hlt := Intr.lo_lt_hi hp.1
      rw [joins_iff] at hij
      obtain ⟨e1, e2⟩ := hij
      split at e1 <;> split at e2 <;> omega
  · rw [if_neg hc]
    simp only []
    have h1 : 0 ≤ (if x > y then y else x) := by split <;> omega
    have h2 : (if x > y then y else x) < nb s := by split <;> omega
    have h3 : (if x > y then y else x) < (if x > y then x else y) := by split <;> omega
    obtain ⟨b1, hb1⟩ := slot_of_lt (s := s) h1 h2
    have hsym : ∀ i : Intr, Joins i x y ↔ Joins i (if x > y then y else x) (if x > y then x else y) := by
      intro i; unfold Joins; split <;> omega
    rw [hb1]
    cases b1 with
    | none => exact absurd hb1 (hlive _)
    | some m =>
      refine ⟨_, rfl, ?_⟩
      rw [Option.isSome_iff_exists]
      constructor
      · rintro ⟨h, hg⟩
        obtain ⟨a, i, b, c⟩ := (map_iff w h3 hb1 h).mp hg
        exact ⟨h, a, i, b, (hsym i).mpr c⟩
      · rintro ⟨h, a, i, b, c⟩
        exact ⟨h, (map_iff w h3 hb1 h).mpr ⟨a, i, b, (hsym i).mp c⟩⟩

/-! ### Operations touching only the heap, bodies -/

/-- A change of the heap that keeps ids and back references of the old objects. -/
theorem WF_heap {s s' : St} (w : WF s) (hb : s'.bodies = s.bodies) (hl : s'.lin = s.lin)
    (hh : ∀ (x : Nat) i, s.heap[x]? = some i → ∃ i', s'.heap[x]? = some i' ∧ i'.lo = i.lo ∧
      i'.hi = i.hi ∧ i'.linIx = i.linIx) : WF s' := by
  have key : ∀ (x : Nat) i, s.heap[x]? = some i → ∀ i', s'.heap[x]? = some i' →
      (i.id1 ≠ i.id2 → i'.id1 ≠ i'.id2) ∧ i'.linIx = i.linIx ∧ i'.lo = i.lo ∧ i'.hi = i.hi := by
    intro x i hi i' hi'
    obtain ⟨i'', h1, h2, h3, h4⟩ := hh x i hi
    rw [hi'] at h1; cases h1
    refine ⟨?_, h4, h2, h3⟩
    intro hne e
    have := Intr.lo_lt_hi hne
    have : i'.lo = i'.hi := by unfold Intr.lo Intr.hi; split <;> omega
    omega
  have hs := slot_congr hb
  refine ⟨?_, ?_, ?_, ?_, ?_⟩
  · intro k h hk
    rw [hl] at hk
    obtain ⟨i, hi, e⟩ := w.linIx k h hk
    obtain ⟨i', h1, _, _, h4⟩ := hh h i hi
    exact ⟨i', h1, by omega⟩
  · intro h hm i' hi'
    rw [hl] at hm
    obtain ⟨i, hi⟩ := w.mem_heap hm
    obtain ⟨e1, _, e3, e4⟩ := key h i hi i' hi'
    have := w.pair h hm i hi
    rw [e3, e4, nb_congr hb]
    exact ⟨e1 this.1, this.2⟩
  · intro h hm i' hi'
    rw [hl] at hm
    obtain ⟨i, hi⟩ := w.mem_heap hm
    obtain ⟨_, _, e3, e4⟩ := key h i hi i' hi'
    rw [e3, e4, hs, hs]
    exact w.fwd h hm i hi
  · intro h h' hm hm' i i' hi hi' e1 e2
    rw [hl] at hm hm'
    obtain ⟨i0, hi0⟩ := w.mem_heap hm
    obtain ⟨i0', hi0'⟩ := w.mem_heap hm'
    obtain ⟨_, _, e3, e4⟩ := key h i0 hi0 i hi
    obtain ⟨_, _, e5, e6⟩ := key h' i0' hi0' i' hi'
    exact w.uniq h h' hm hm' i0 i0' hi0 hi0' (by omega) (by omega)
  · intro a m b h ha hg
    rw [hs] at ha
    obtain ⟨⟨i, hi, q1, q2⟩, q3⟩ := w.back a m b h ha hg
    obtain ⟨i', h1, h2, h3, h4⟩ := hh h i hi
    obtain ⟨e1, _, e3, e4⟩ := key h i hi i' h1
    refine ⟨⟨i', h1, e1 q1, by rw [e3, e4]; exact q2⟩, ?_⟩
    rw [hl, hs]; exact q3

theorem WF_resetAt {s : St} (w : WF s) (h : Nat) : WF (resetAt s h) := by
  unfold resetAt
  split
  · rename_i i hi
    refine WF_heap w rfl rfl ?_
    intro x j hj
    simp only [List.getElem?_set]
    by_cases hx : h = x
    · subst hx; rw [hi] at hj; cases hj
      have := (List.getElem?_eq_some_iff.mp hi).1
      exact ⟨i.reset, by simp [this], rfl, rfl, rfl⟩
    · exact ⟨j, by simp [hx, hj], rfl, rfl, rfl⟩
  · exact w

theorem WF_setReal {s : St} (w : WF s) {h : Nat} {i : Intr} (hi : s.heap[h]? = some i) (g p : Bool) :
    WF { s with heap := s.heap.set h { i with geom := g, phys := p } } := by
  refine WF_heap w rfl rfl ?_
  intro x j hj
  simp only [List.getElem?_set]
  by_cases hx : h = x
  · subst hx; rw [hi] at hj; cases hj
    have := (List.getElem?_eq_some_iff.mp hi).1
    exact ⟨{ i with geom := g, phys := p }, by simp [this], rfl, rfl, rfl⟩
  · exact ⟨j, by simp [hx, hj], rfl, rfl, rfl⟩

theorem WF_alloc {s : St} (w : WF s) (x y ix : Int) : WF (alloc s x y ix).1 := by
  refine WF_heap w rfl rfl ?_
  intro k j hj
  have := (List.getElem?_eq_some_iff.mp hj).1
  refine ⟨j, ?_, rfl, rfl, rfl⟩
  simp only [alloc]
  rw [List.getElem?_append_left this]; exact hj

theorem slot_append (s : St) (m : IMap) (c : Int) : slot (appendBody s m) c =
    if c = nb s then some (some m) else slot s c := by
  unfold slot appendBody nb
  by_cases h0 : 0 ≤ c
  · simp only [h0, if_true]
    by_cases hc : c = s.bodies.length
    · have : c.toNat = s.bodies.length := by omega
      simp [hc]
    · rw [if_neg hc, List.getElem?_append]
      split
      · rfl
      · rename_i h1
        have h2 : c.toNat - s.bodies.length ≠ 0 := by omega
        rw [List.getElem?_eq_none (by simp; omega), List.getElem?_eq_none (by omega)]
  · rw [if_neg h0, if_neg h0, if_neg (by omega)]

theorem nb_append (s : St) (m : IMap) : nb (appendBody s m) = nb s + 1 := by
  simp [nb, appendBody]

theorem WF_append {s : St} (w : WF s) : WF (appendBody s []) := by
  have hnn : ∀ h, h ∈ s.lin → ∀ i, s.heap[h]? = some i → i.lo ≠ nb s ∧ i.hi ≠ nb s := by
    intro h hm i hi
    have := w.pair h hm i hi
    have := Intr.lo_lt_hi this.1
    omega
  refine ⟨w.linIx, ?_, ?_, w.uniq, ?_⟩
  · intro h hm i hi
    have := w.pair h hm i hi
    rw [nb_append]; omega
  · intro h hm i hi
    have hn := hnn h hm i hi
    rw [slot_append, slot_append, if_neg hn.1, if_neg hn.2]
    exact w.fwd h hm i hi
  · intro a m b h ha hg
    rw [slot_append] at ha
    split at ha
    · cases ha; simp at hg
    · obtain ⟨q1, q3⟩ := w.back a m b h ha hg
      refine ⟨q1, ?_⟩
      rcases q3 with q3 | ⟨q3, q4⟩
      · exact Or.inl q3
      · refine Or.inr ⟨q3, ?_⟩
        rw [slot_append]
        have := slot_nb q4
        rw [if_neg (by omega)]; exact q4

theorem slot_clear (s : St) (c : Int) : slot (clear s) c = (slot s c).map (fun b => b.map (fun _ => [])) := by
  unfold slot clear
  split
  · simp
  · rfl

theorem WF_clear {s : St} : WF (clear s) := by
  refine ⟨?_, ?_, ?_, ?_, ?_⟩
  · intro k h hk; simp [clear] at hk
  · intro h hm; simp [clear] at hm
  · intro h hm; simp [clear] at hm
  · intro h h' hm; simp [clear] at hm
  · intro a m b h ha hg
    rw [slot_clear] at ha
    cases hs : slot s a with
    | none => rw [hs] at ha; cases ha
    | some o =>
      rw [hs] at ha
      cases o with
      | none => simp at ha
      | some m0 => simp at ha; subst ha; simp at hg

/-- a slot becomes null -/
theorem slot_null (s : St) (a c : Int) (b : Option IMap) (h : slot s a = some b) (t : St)
    (ht : t.bodies = s.bodies.set a.toNat none) :
    slot t c = if c = a then some none else slot s c := by
  obtain ⟨h0, h1⟩ := slot_lt h
  unfold slot
  rw [ht]
  simp only [List.getElem?_set]
  by_cases hc : c = a
  · subst hc; simp [h0, h1]
  · simp only [hc, if_false]
    by_cases hc0 : 0 ≤ c
    · have : a.toNat ≠ c.toNat := by omega
      simp [hc0, this]
    · simp [hc0]

theorem resetAt_bodies (s : St) (h : Nat) : (resetAt s h).bodies = s.bodies ∧
    (resetAt s h).lin = s.lin ∧ (resetAt s h).held = s.held ∧
    (resetAt s h).heap.length = s.heap.length := by
  unfold resetAt; split <;> simp

theorem resetAt_get (s : St) (h x : Nat) : (resetAt s h).heap[x]? =
    if x = h then (s.heap[x]?).map Intr.reset else s.heap[x]? := by
  unfold resetAt
  split
  · rename_i i hi
    simp only [List.getElem?_set]
    by_cases hx : h = x
    · subst hx
      have := (List.getElem?_eq_some_iff.mp hi).1
      simp [this, (List.getElem?_eq_some_iff.mp hi).2]
    · simp [hx, Ne.symm hx]
  · rename_i hn
    split
    · rename_i hx; subst hx; rw [hn]; rfl
    · rfl

/-- resetting a list of handles -/
theorem foldl_reset (m : IMap) (s : St) :
    (m.foldl (fun t p => resetAt t p.2) s).bodies = s.bodies ∧
    (m.foldl (fun t p => resetAt t p.2) s).lin = s.lin ∧
    (m.foldl (fun t p => resetAt t p.2) s).held = s.held ∧
    (∀ x : Nat, (m.foldl (fun t p => resetAt t p.2) s).heap[x]? =
      if x ∈ m.map Prod.snd then (s.heap[x]?).map Intr.reset else s.heap[x]?) ∧
    (WF s → WF (m.foldl (fun t p => resetAt t p.2) s)) := by
  induction m generalizing s with
  | nil => simp
  | cons p m ih =>
    obtain ⟨i1, i2, i3, i4, i5⟩ := ih (resetAt s p.2)
    obtain ⟨r1, r2, r3, _⟩ := resetAt_bodies s p.2
    refine ⟨i1.trans r1, i2.trans r2, i3.trans r3, ?_, fun w => i5 (WF_resetAt w _)⟩
    intro x
    simp only [List.foldl_cons]
    rw [i4, resetAt_get]
    have hrr : ∀ i : Intr, i.reset.reset = i.reset := fun i => rfl
    by_cases h1 : x = p.2
    · subst h1
      simp only [if_true, List.map_cons, List.mem_cons, true_or, Option.map_map]
      split <;> congr 1
    · simp only [h1, if_false, List.map_cons, List.mem_cons, false_or]

theorem WF_eraseBody {s : St} (w : WF s) (a : Int) : WF (eraseBody s a) := by
  unfold eraseBody
  split
  · rename_i m hm
    obtain ⟨f1, f2, f3, f4, f5⟩ := foldl_reset m s
    have w1 := f5 w
    generalize hs1 : m.foldl (fun t p => resetAt t p.2) s = s1 at *
    have hm1 : slot s1 a = some (some m) := by rw [slot_congr f1]; exact hm
    have hsl := fun c => slot_null s1 a c _ hm1
      ({ s1 with bodies := s1.bodies.set a.toNat none, held := s1.held ++ [m] }) rfl
    simp only []
    refine ⟨w1.linIx, ?_, ?_, w1.uniq, ?_⟩
    · intro h hl i hi
      have := w1.pair h hl i hi
      simpa [nb] using this
    · intro h hl i hi
      rw [hsl, hsl]
      have hf := w1.fwd h hl i hi
      constructor
      · intro m' hm'
        split at hm'
        · cases hm'
        · exact hf.1 m' hm'
      · intro m' hm'
        split at hm'
        · cases hm'
        · exact hf.2 m' hm'
    · intro c m' b h hc hg
      rw [hsl] at hc
      split at hc
      · cases hc
      · obtain ⟨q1, q3⟩ := w1.back c m' b h hc hg
        refine ⟨q1, ?_⟩
        rcases q3 with q3 | ⟨q3, q4⟩
        · exact Or.inl q3
        · refine Or.inr ⟨q3, ?_⟩
          rw [hsl]
          split
          · rfl
          · exact q4
  · exact w

/-- Refilling a null slot that no stored interaction and no live map mentions. -/
theorem WF_refill {s : St} (w : WF s) (a : Int)
    (h1 : ∀ h, h ∈ s.lin → ∀ i, s.heap[h]? = some i → i.id1 ≠ a ∧ i.id2 ≠ a)
    (h2 : ∀ c m, slot s c = some (some m) → m.get a = none) :
    WF (refillBody s a []) := by
  unfold refillBody
  split
  · rename_i hn
    have hset : ({ s with bodies := s.bodies.set a.toNat (some []) } : St) = setSlot s a [] := rfl
    rw [hset]
    have hsl := fun c => slot_setSlot (c := c) [] hn
    have hne : ∀ h, h ∈ s.lin → ∀ i, s.heap[h]? = some i → i.lo ≠ a ∧ i.hi ≠ a := by
      intro h hl i hi
      have := h1 h hl i hi
      unfold Intr.lo Intr.hi; split <;> omega
    refine ⟨w.linIx, ?_, ?_, w.uniq, ?_⟩
    · intro h hl i hi; rw [nb_setSlot]; exact w.pair h hl i hi
    · intro h hl i hi
      have := hne h hl i hi
      rw [hsl, hsl, if_neg this.1, if_neg this.2]
      exact w.fwd h hl i hi
    · intro c m b h hc hg
      rw [hsl] at hc
      split at hc
      · cases hc; simp at hg
      · obtain ⟨q1, q3⟩ := w.back c m b h hc hg
        refine ⟨q1, ?_⟩
        rcases q3 with q3 | ⟨q3, q4⟩
        · exact Or.inl q3
        · refine Or.inr ⟨q3, ?_⟩
          rw [hsl, if_neg]
          · exact q4
          · intro e; subst e
            rw [h2 c m hc] at hg; cases hg
  · exact w

end Verif.Intr
