import Verif.Intr.Lemmas
/-!
# Helper lemmas for bulk removal, saving and loading
-/
namespace Verif.Intr
open Verif

/-- `h` is a stored object satisfying the removal test. -/
def Bad (p : Int → Int → Bool) (s : St) (h : Nat) : Prop :=
  ∃ i, s.heap[h]? = some i ∧ toBeErased p i = true

theorem toBeErased_face {p : Int → Int → Bool} {i j : Intr} (h : i.face = j.face) :
    toBeErased p i = toBeErased p j := by
  simp only [Intr.face, Prod.mk.injEq] at h
  obtain ⟨h1, h2, h3, h4, _⟩ := h
  simp [toBeErased, Intr.isReal, h1, h2, h3, h4]

theorem bad_congr {p : Int → Int → Bool} {s s' : St} {x : Nat}
    (hf : (s'.heap[x]?).map Intr.face = (s.heap[x]?).map Intr.face) : Bad p s' x ↔ Bad p s x := by
  constructor
  · rintro ⟨i, hi, hb⟩
    obtain ⟨j, hj, _, _, _, _, e⟩ := face_some hf hi
    exact ⟨j, hj, by rw [toBeErased_face e]; exact hb⟩
  · rintro ⟨i, hi, hb⟩
    obtain ⟨j, hj, _, _, _, _, e⟩ := face_some hf.symm hi
    exact ⟨j, hj, by rw [toBeErased_face e]; exact hb⟩

/-- The part of the state a bulk removal may not touch. -/
structure Same (s s' : St) : Prop where
  face : ∀ x : Nat, (s'.heap[x]?).map Intr.face = (s.heap[x]?).map Intr.face
  nb : nb s' = nb s
  null : ∀ c, slot s' c = some none ↔ slot s c = some none
  held : s'.held = s.held

theorem Same.refl (s : St) : Same s s := ⟨fun _ => rfl, rfl, fun _ => Iff.rfl, rfl⟩
theorem Same.trans {a b c : St} (h1 : Same a b) (h2 : Same b c) : Same a c :=
  ⟨fun x => (h2.face x).trans (h1.face x), h2.nb.trans h1.nb,
   fun x => (h2.null x).trans (h1.null x), h2.held.trans h1.held⟩
theorem Removed.same {s s' : St} {h k : Nat} (r : Removed s s' h k) : Same s s' :=
  ⟨r.face, r.nb, r.null, r.held⟩

theorem serial_spec (p : Int → Int → Bool) : ∀ (fuel pos : Nat) (s : St), WF s →
    s.lin.length - pos ≤ fuel →
    (∀ j h, j < pos → s.lin[j]? = some h → ¬ Bad p s h) →
    ∃ s', condEraseSerialLoop p fuel pos s = some (.ok s') ∧ WF s' ∧ Same s s' ∧
      (∀ x, x ∈ s'.lin ↔ x ∈ s.lin ∧ ¬ Bad p s x) := by
  intro fuel
  induction fuel with
  | zero =>
    intro pos s w hf hpre
    unfold condEraseSerialLoop
    cases hp : s.lin[pos]? with
    | none =>
      refine ⟨s, rfl, w, Same.refl s, ?_⟩
      intro x
      constructor
      · intro hx
        refine ⟨hx, ?_⟩
        obtain ⟨j, hj⟩ := List.mem_iff_getElem?.mp hx
        have h1 := (List.getElem?_eq_some_iff.mp hj).1
        have h2 := List.getElem?_eq_none_iff.mp hp
        exact hpre j x (by omega) hj
      · exact fun h => h.1
    | some h =>
      have := (List.getElem?_eq_some_iff.mp hp).1
      omega
  | succ fuel ih =>
    intro pos s w hf hpre
    unfold condEraseSerialLoop
    cases hp : s.lin[pos]? with
    | none =>
      refine ⟨s, rfl, w, Same.refl s, ?_⟩
      intro x
      constructor
      · intro hx
        refine ⟨hx, ?_⟩
        obtain ⟨j, hj⟩ := List.mem_iff_getElem?.mp hx
        have h1 := (List.getElem?_eq_some_iff.mp hj).1
        have h2 := List.getElem?_eq_none_iff.mp hp
        exact hpre j x (by omega) hj
      · exact fun h => h.1
    | some h =>
      have hlt := (List.getElem?_eq_some_iff.mp hp).1
      obtain ⟨i, hi, hix⟩ := w.linIx pos h hp
      simp only [hi]
      by_cases hb : toBeErased p i = true
      · rw [if_pos hb]
        obtain ⟨s1, e1, w1, r⟩ := erase_present w hp hi (x := i.id1) (y := i.id2)
          (linPos := (pos : Int)) (Or.inl ⟨rfl, rfl⟩) (Or.inl rfl)
        simp only [e1]
        have hbad1 : ∀ x, Bad p s1 x ↔ Bad p s x := fun x => bad_congr (r.face x)
        obtain ⟨s', e', w', sm, hm⟩ := ih pos s1 w1 (by have := r.len; omega) (by
          intro j x hj hx
          rw [r.before j hj] at hx
          rw [hbad1]; exact hpre j x hj hx)
        refine ⟨s', e', w', r.same.trans sm, ?_⟩
        intro x
        rw [hm, r.mem, hbad1]
        constructor
        · rintro ⟨⟨a, _⟩, c⟩; exact ⟨a, c⟩
        · rintro ⟨a, c⟩
          refine ⟨⟨a, ?_⟩, c⟩
          intro e; subst e; exact c ⟨i, hi, hb⟩
      · rw [if_neg hb]
        apply ih (pos + 1) s w (by omega)
        intro j x hj hx
        by_cases hjp : j = pos
        · subst hjp
          rw [hp] at hx; cases hx
          rintro ⟨i', hi', hb'⟩
          rw [hi] at hi'; cases hi'; exact hb hb'
        · exact hpre j x (by omega) hx

/-! ### parallel flavour -/

theorem collect_add (p : Int → Int → Bool) (s : St) (a n m : Nat) :
    collect p s a (n + m) = collect p s a n ++ collect p s (a + n) m := by
  induction n generalizing a with
  | zero => simp [collect]
  | succ n ih =>
    rw [Nat.succ_add]
    simp only [collect, ih, List.append_assoc]
    congr 3; omega

theorem collectAll_flatten (p : Int → Int → Bool) (s : St) (sizes : List Nat) (a : Nat) :
    (collectAll p s a sizes).flatten = collect p s a sizes.sum := by
  induction sizes generalizing a with
  | nil => simp [collectAll, collect]
  | cons n ns ih =>
    simp only [collectAll, List.flatten_cons, ih, List.sum_cons, collect_add]

theorem reverse_flatMap_reverse {α : Type} (l : List (List α)) :
    l.reverse.flatMap List.reverse = l.flatten.reverse := by
  induction l with
  | nil => rfl
  | cons a l ih => simp [List.flatMap_append, ih]

theorem mem_collect (p : Int → Int → Bool) (s : St) : ∀ (n a : Nat) (t : Int × Int × Nat),
    t ∈ collect p s a n ↔ a ≤ t.2.2 ∧ t.2.2 < a + n ∧ ∃ h i, s.lin[t.2.2]? = some h ∧
      s.heap[h]? = some i ∧ toBeErased p i = true ∧ t.1 = i.id1 ∧ t.2.1 = i.id2 := by
  intro n
  induction n with
  | zero => intro a t; simp [collect]; omega
  | succ n ih =>
    intro a t
    simp only [collect, List.mem_append, ih]
    constructor
    · rintro (h | h)
      · split at h
        · rename_i hh hl
          split at h
          · rename_i i hi
            split at h
            · rename_i hb
              simp at h; subst h
              exact ⟨Nat.le_refl _, by simp only; omega, hh, i, hl, hi, hb, rfl, rfl⟩
            · simp at h
          · simp at h
        · simp at h
      · obtain ⟨h1, h2, h3⟩ := h
        exact ⟨by omega, by omega, h3⟩
    · rintro ⟨h1, h2, hh, i, hl, hi, hb, e1, e2⟩
      by_cases ha : a = t.2.2
      · left
        subst ha
        rw [hl]; simp only [hi, hb, if_true, List.mem_singleton]
        rw [← e1, ← e2]
      · right
        exact ⟨by omega, by omega, hh, i, hl, hi, hb, e1, e2⟩

theorem collect_sorted (p : Int → Int → Bool) (s : St) : ∀ (n a : Nat),
    (collect p s a n).Pairwise (fun t u => t.2.2 < u.2.2) := by
  intro n
  induction n with
  | zero => intro a; simp [collect]
  | succ n ih =>
    intro a
    simp only [collect, List.pairwise_append]
    refine ⟨?_, ih _, ?_⟩
    · split
      · split
        · split <;> simp
        · simp
      · simp
    · intro t ht u hu
      have hu' := ((mem_collect p s n (a+1) u).mp hu).1
      have : t.2.2 = a := by
        split at ht
        · split at ht
          · split at ht
            · simp at ht; subst ht; rfl
            · simp at ht
          · simp at ht
        · simp at ht
      omega

theorem eraseSeq_spec : ∀ (ts : List (Int × Int × Nat)) (s : St), WF s →
    ts.Pairwise (fun t u => u.2.2 < t.2.2) →
    (∀ t ∈ ts, ∃ h i, s.lin[t.2.2]? = some h ∧ s.heap[h]? = some i ∧ t.1 = i.id1 ∧ t.2.1 = i.id2) →
    ∃ s', eraseSeq s ts = .ok s' ∧ WF s' ∧ Same s s' ∧
      (∀ x, x ∈ s'.lin ↔ x ∈ s.lin ∧ ¬ ∃ t ∈ ts, s.lin[t.2.2]? = some x) ∧
      s'.lin.length + ts.length = s.lin.length := by
  intro ts
  induction ts with
  | nil => intro s w _ _; exact ⟨s, rfl, w, Same.refl s, by simp, by simp⟩
  | cons t ts ih =>
    intro s w hp hall
    obtain ⟨a, b, k⟩ := t
    rw [List.pairwise_cons] at hp
    obtain ⟨h, i, hl, hi, e1, e2⟩ := hall _ (List.mem_cons_self ..)
    simp only at hl e1 e2 hp
    subst e1; subst e2
    obtain ⟨s1, es, w1, r⟩ := erase_present w hl hi (x := i.id1) (y := i.id2)
      (linPos := (k : Int)) (Or.inl ⟨rfl, rfl⟩) (Or.inl rfl)
    have hbef : ∀ t ∈ ts, s1.lin[t.2.2]? = s.lin[t.2.2]? := fun t ht => r.before _ (hp.1 t ht)
    obtain ⟨s', e', w', sm, hm, hlen⟩ := ih s1 w1 hp.2 (by
      intro t ht
      obtain ⟨h', i', hl', hi', q1, q2⟩ := hall t (List.mem_cons_of_mem _ ht)
      obtain ⟨j, hj, _, _, q3, q4, _⟩ := face_some (r.face h').symm hi'
      exact ⟨h', j, by rw [hbef t ht]; exact hl', hj, by omega, by omega⟩)
    refine ⟨s', ?_, w', r.same.trans sm, ?_, by simp only [List.length_cons]; have := r.len; omega⟩
    · simp only [eraseSeq, es]; exact e'
    · intro x
      rw [hm, r.mem]
      constructor
      · rintro ⟨⟨h1, h2⟩, h3⟩
        refine ⟨h1, ?_⟩
        rintro ⟨t, ht, htx⟩
        rcases List.mem_cons.mp ht with rfl | ht
        · simp only at htx; rw [hl] at htx; cases htx; exact h2 rfl
        · exact h3 ⟨t, ht, by rw [hbef t ht]; exact htx⟩
      · rintro ⟨h1, h2⟩
        refine ⟨⟨h1, ?_⟩, ?_⟩
        · intro e; subst e; exact h2 ⟨_, List.mem_cons_self .., hl⟩
        · rintro ⟨t, ht, htx⟩
          exact h2 ⟨t, List.mem_cons_of_mem _ ht, by rw [← hbef t ht]; exact htx⟩

theorem parallel_spec (p : Int → Int → Bool) (sizes : List Nat) (s : St) (w : WF s)
    (hsum : sizes.sum = s.lin.length) :
    ∃ s', condEraseParallel p sizes s = .ok (s', s.lin.length - s'.lin.length) ∧ WF s' ∧ Same s s' ∧
      (∀ x, x ∈ s'.lin ↔ x ∈ s.lin ∧ ¬ Bad p s x) := by
  unfold condEraseParallel
  rw [reverse_flatMap_reverse, collectAll_flatten, hsum]
  obtain ⟨s', e, w', sm, hm, _⟩ := eraseSeq_spec (collect p s 0 s.lin.length).reverse s w (by
      rw [List.pairwise_reverse]; exact collect_sorted p s _ _) (by
      intro t ht
      rw [List.mem_reverse, mem_collect] at ht
      obtain ⟨_, _, h, i, hl, hi, _, e1, e2⟩ := ht
      exact ⟨h, i, hl, hi, e1, e2⟩)
  rw [e]
  refine ⟨s', rfl, w', sm, ?_⟩
  intro x
  rw [hm]
  constructor
  · rintro ⟨hx, hn⟩
    refine ⟨hx, ?_⟩
    rintro ⟨i, hi, hb⟩
    obtain ⟨k, hk⟩ := List.mem_iff_getElem?.mp hx
    have hlt := (List.getElem?_eq_some_iff.mp hk).1
    refine hn ⟨(i.id1, i.id2, k), ?_, hk⟩
    rw [List.mem_reverse, mem_collect]
    exact ⟨Nat.zero_le _, by simp only; omega, x, i, hk, hi, hb, rfl, rfl⟩
  · rintro ⟨hx, hn⟩
    refine ⟨hx, ?_⟩
    rintro ⟨t, ht, htx⟩
    rw [List.mem_reverse, mem_collect] at ht
    obtain ⟨_, _, h, i, hl, hi, hb, _, _⟩ := ht
    rw [hl] at htx; cases htx
    exact hn ⟨i, hi, hb⟩

/-! ### eraseNonReal -/

/-- Once the list is shorter than the cached end, the loop runs over the end. -/
theorem eraseNonReal_ub : ∀ (n pos : Nat) (s : St), WF s → 1 ≤ n → s.lin.length < pos + n →
    eraseNonRealLoop n pos s = .ub := by
  intro n
  induction n with
  | zero => intro pos s w h; omega
  | succ n ih =>
    intro pos s w _ hlen
    unfold eraseNonRealLoop
    cases hp : s.lin[pos]? with
    | none => rfl
    | some h =>
      have hlt := (List.getElem?_eq_some_iff.mp hp).1
      obtain ⟨i, hi, hix⟩ := w.linIx pos h hp
      simp only [hi]
      split
      · exact ih (pos + 1) s w (by omega) (by omega)
      · obtain ⟨s1, e1, w1, r⟩ := erase_present w hp hi (x := i.id1) (y := i.id2)
          (linPos := i.linIx) (Or.inl ⟨rfl, rfl⟩) (Or.inl hix)
        simp only [e1]
        have := r.len
        exact ih (pos + 1) s1 w1 (by omega) (by omega)

/-- The stored object at position `k` is real. -/
def RealAt (s : St) (k : Nat) : Prop :=
  ∃ h i, s.lin[k]? = some h ∧ s.heap[h]? = some i ∧ i.isReal = true

theorem eraseNonReal_ok : ∀ (n pos : Nat) (s : St), WF s → pos + n = s.lin.length →
    (∀ k, pos ≤ k → k + 1 < s.lin.length → RealAt s k) →
    (∀ k, k < pos → RealAt s k) →
    ∃ s', eraseNonRealLoop n pos s = .ok s' ∧ WF s' ∧ Same s s' ∧
      (∀ x, x ∈ s'.lin ↔ x ∈ s.lin ∧ ∃ i, s.heap[x]? = some i ∧ i.isReal = true) := by
  intro n
  induction n with
  | zero =>
    intro pos s w hlen _ hpre
    refine ⟨s, rfl, w, Same.refl s, ?_⟩
    intro x
    constructor
    · intro hx
      obtain ⟨k, hk⟩ := List.mem_iff_getElem?.mp hx
      have hlt := (List.getElem?_eq_some_iff.mp hk).1
      obtain ⟨h, i, h1, h2, h3⟩ := hpre k (by omega)
      rw [hk] at h1; cases h1
      exact ⟨hx, i, h2, h3⟩
    · exact fun h => h.1
  | succ n ih =>
    intro pos s w hlen hpost hpre
    unfold eraseNonRealLoop
    have hlt : pos < s.lin.length := by omega
    cases hp : s.lin[pos]? with
    | none => have := List.getElem?_eq_none_iff.mp hp; omega
    | some h =>
      obtain ⟨i, hi, hix⟩ := w.linIx pos h hp
      simp only [hi]
      by_cases hr : i.isReal = true
      · rw [if_pos hr]
        refine ih (pos + 1) s w (by omega) (fun k h1 h2 => hpost k (by omega) h2) ?_
        intro k hk
        by_cases e : k = pos
        · subst e; exact ⟨h, i, hp, hi, hr⟩
        · exact hpre k (by omega)
      · rw [if_neg hr]
        have hn : n = 0 := by
          rcases Nat.lt_or_ge (pos + 1) s.lin.length with h1 | h1
          · obtain ⟨h', i', q1, q2, q3⟩ := hpost pos (Nat.le_refl _) h1
            rw [hp] at q1; cases q1; rw [hi] at q2; cases q2
            exact absurd q3 hr
          · omega
        subst hn
        obtain ⟨s1, e1, w1, r⟩ := erase_present w hp hi (x := i.id1) (y := i.id2)
          (linPos := i.linIx) (Or.inl ⟨rfl, rfl⟩) (Or.inl hix)
        simp only [e1]
        refine ⟨s1, rfl, w1, r.same, ?_⟩
        intro x
        rw [r.mem]
        constructor
        · rintro ⟨hx, hxh⟩
          refine ⟨hx, ?_⟩
          obtain ⟨k, hk⟩ := List.mem_iff_getElem?.mp hx
          have hkl := (List.getElem?_eq_some_iff.mp hk).1
          have : k ≠ pos := by
            intro e; subst e; rw [hp] at hk; cases hk; exact hxh rfl
          obtain ⟨h', i', q1, q2, q3⟩ := hpre k (by omega)
          rw [hk] at q1; cases q1
          exact ⟨i', q2, q3⟩
        · rintro ⟨hx, i', h1, h2⟩
          refine ⟨hx, ?_⟩
          intro e; subst e
          rw [hi] at h1; cases h1; exact hr h2

theorem eraseNonReal_ub' : ∀ (n pos : Nat) (s : St), WF s → pos + n = s.lin.length →
    (∃ k, pos ≤ k ∧ k + 1 < s.lin.length ∧ ¬ RealAt s k) → eraseNonRealLoop n pos s = .ub := by
  intro n
  induction n with
  | zero => rintro pos s w hlen ⟨k, h1, h2, _⟩; omega
  | succ n ih =>
    rintro pos s w hlen ⟨k, h1, h2, h3⟩
    unfold eraseNonRealLoop
    cases hp : s.lin[pos]? with
    | none => rfl
    | some h =>
      obtain ⟨i, hi, hix⟩ := w.linIx pos h hp
      simp only [hi]
      by_cases hr : i.isReal = true
      · rw [if_pos hr]
        refine ih (pos + 1) s w (by omega) ⟨k, ?_, h2, h3⟩
        by_cases e : k = pos
        · subst e; exact absurd ⟨h, i, hp, hi, hr⟩ h3
        · omega
      · rw [if_neg hr]
        obtain ⟨s1, e1, w1, r⟩ := erase_present w hp hi (x := i.id1) (y := i.id2)
          (linPos := i.linIx) (Or.inl ⟨rfl, rfl⟩) (Or.inl hix)
        simp only [e1]
        have := r.len
        exact eraseNonReal_ub n (pos + 1) s1 w1 (by omega) (by omega)

/-! ### save / load -/

theorem orderedInsert_perm (i : Intr) : ∀ l : List Intr, (orderedInsert i l).Perm (i :: l)
  | [] => List.Perm.refl _
  | j :: js => by
    unfold orderedInsert
    split
    · exact List.Perm.refl _
    · exact ((orderedInsert_perm i js).cons j).trans (List.Perm.swap i j js)

theorem sortIntrs_perm : ∀ l : List Intr, (sortIntrs l).Perm l
  | [] => List.Perm.refl _
  | i :: is => (orderedInsert_perm i _).trans ((sortIntrs_perm is).cons i)

/-- Loading a list of interactions over pairwise different pairs of live bodies. -/
theorem postLoadLoop_spec (all : List Intr) : ∀ (l : List Intr) (s : St), WF s →
    (∀ i ∈ l, i.id1 ≠ i.id2 ∧ (∃ m, slot s i.id1 = some (some m)) ∧ (∃ m, slot s i.id2 = some (some m))) →
    l.Pairwise (fun i j => ¬ (i.lo = j.lo ∧ i.hi = j.hi)) →
    (∀ i ∈ l, ∀ h ∈ s.lin, ∀ j, s.heap[h]? = some j → ¬ (i.lo = j.lo ∧ i.hi = j.hi)) →
    ∃ s', postLoadLoop all l s = .ok (s', []) ∧ WF s' ∧ nb s' = nb s ∧
      (∀ c, slot s' c = some none ↔ slot s c = some none) ∧
      s'.lin.map (fun h => (s'.heap[h]?).map Intr.face) =
        s.lin.map (fun h => (s.heap[h]?).map Intr.face) ++ l.map (fun i => some i.face) := by
  intro l
  induction l with
  | nil => intro s w _ _ _; exact ⟨s, rfl, w, rfl, fun _ => Iff.rfl, by simp⟩
  | cons i is ih =>
    intro s w hl hpw hnew
    rw [List.pairwise_cons] at hpw
    obtain ⟨hne, ⟨ma, hma⟩, ⟨mb, hmb⟩⟩ := hl i (List.mem_cons_self ..)
    unfold postLoadLoop
    simp only [hma, hmb, Option.isNone_some, Bool.or_self, Bool.false_eq_true, if_false]
    generalize hs1 : ({ s with heap := s.heap ++ [{ i with linIx := -1 }] } : St) = s1
    have w1 : WF s1 := by
      refine WF_heap w (by rw [← hs1]) (by rw [← hs1]) ?_
      intro x j hj
      have := (List.getElem?_eq_some_iff.mp hj).1
      refine ⟨j, ?_, rfl, rfl, rfl⟩
      rw [← hs1]; simp only
      rw [List.getElem?_append_left this]; exact hj
    have hsl : ∀ c, slot s1 c = slot s c := slot_congr (by rw [← hs1])
    have hnb1 : nb s1 = nb s := nb_congr (by rw [← hs1])
    have hlin1 : s1.lin = s.lin := by rw [← hs1]
    have hhp : s1.heap[s.heap.length]? = some { i with linIx := -1 } := by rw [← hs1]; simp
    have hold : ∀ x : Nat, x ∈ s.lin → s1.heap[x]? = s.heap[x]? := by
      intro x hx
      obtain ⟨j, hj⟩ := w.mem_heap hx
      have := (List.getElem?_eq_some_iff.mp hj).1
      rw [← hs1]; simp only
      rw [List.getElem?_append_left this]
    have hlo : ∃ m, slot s1 i.lo = some (some m) := by
      rw [hsl]; unfold Intr.lo; split
      · exact ⟨_, hmb⟩
      · exact ⟨_, hma⟩
    have hhi : ∃ m, slot s1 i.hi = some (some m) := by
      rw [hsl]; unfold Intr.hi; split
      · exact ⟨_, hma⟩
      · exact ⟨_, hmb⟩
    obtain ⟨m1, hm1⟩ := hlo
    obtain ⟨m2, hm2⟩ := hhi
    have hlt := Intr.lo_lt_hi hne
    have habs : m1.get i.hi = none := by
      cases hg : m1.get i.hi with
      | none => rfl
      | some h =>
        obtain ⟨hl', j, hj, hjj⟩ := (map_iff w1 hlt hm1 h).mp hg
        rw [hlin1] at hl'
        rw [hold h hl'] at hj
        rw [joins_iff, if_neg (by omega), if_neg (by omega)] at hjj
        exact absurd ⟨hjj.1.symm, hjj.2.symm⟩ (hnew i (List.mem_cons_self ..) h hl' j hj)
    obtain ⟨s2, e2, w2, hl2, hnm, hh2, _, hnb2, hsl2⟩ := insert_absent w1 (h := s.heap.length)
      (i := { i with linIx := -1 }) hhp hne hm1 hm2 habs
    rw [e2]
    have hsl2 : ∀ c, slot s2 c = if c = i.hi then some (some (m2.add i.lo s.heap.length)) else
        if c = i.lo then some (some (m1.add i.hi s.heap.length)) else slot s1 c := hsl2
    have hlive : ∀ c m, slot s c = some (some m) → ∃ m', slot s2 c = some (some m') := by
      intro c m hc
      rw [hsl2]
      by_cases c1 : c = i.hi
      · exact ⟨_, by rw [if_pos c1]⟩
      · rw [if_neg c1]
        by_cases c2 : c = i.lo
        · exact ⟨_, by rw [if_pos c2]⟩
        · exact ⟨m, by rw [if_neg c2, hsl]; exact hc⟩
    have hnull2 : ∀ c, slot s2 c = some none ↔ slot s c = some none := by
      intro c
      rw [hsl2]
      by_cases c1 : c = i.hi
      · subst c1
        rw [if_pos rfl, ← hsl, hm2]; simp
      · rw [if_neg c1]
        by_cases c2 : c = i.lo
        · subst c2; rw [if_pos rfl, ← hsl, hm1]; simp
        · rw [if_neg c2, hsl]
    have hf2 : ∀ x : Nat, x ∈ s.lin → s2.heap[x]? = s.heap[x]? := by
      intro x hx
      have hxn : s.heap.length ≠ x := by
        intro e
        obtain ⟨j, hj⟩ := w.mem_heap hx
        have := (List.getElem?_eq_some_iff.mp hj).1
        omega
      rw [hh2, List.getElem?_set, if_neg hxn, hold x hx]
    have hfn : s2.heap[s.heap.length]? = some { i with linIx := (s.lin.length : Int) } := by
      have := (List.getElem?_eq_some_iff.mp hhp).1
      rw [hh2, List.getElem?_set, if_pos rfl, if_pos this, hlin1]
    have hl2' : s2.lin = s.lin ++ [s.heap.length] := by rw [hl2, hlin1]
    obtain ⟨s', e', w', hnb', hnull', hmap⟩ := ih s2 w2 (by
        intro j hj
        obtain ⟨q1, ⟨mm, q2⟩, ⟨mm', q3⟩⟩ := hl j (List.mem_cons_of_mem _ hj)
        exact ⟨q1, hlive _ _ q2, hlive _ _ q3⟩) hpw.2 (by
        intro j hj h hh j' hj'
        rw [hl2'] at hh
        rcases List.mem_append.mp hh with hh | hh
        · rw [hf2 h hh] at hj'
          exact hnew j (List.mem_cons_of_mem _ hj) h hh j' hj'
        · have := List.mem_singleton.mp hh
          subst this
          rw [hfn] at hj'; cases hj'
          intro e
          exact hpw.1 j hj ⟨e.1.symm, e.2.symm⟩)
    refine ⟨s', e', w', by omega, fun c => (hnull' c).trans (hnull2 c), ?_⟩
    rw [hmap, hl2']
    simp only [List.map_append, List.map_cons, List.map_nil, hfn, List.append_assoc]
    congr 1
    apply List.map_congr_left
    intro x hx
    rw [hf2 x hx]

end Verif.Intr
