import Verif.Collide.Lemmas
/-!
# Helper lemmas on the parallel sort
-/
namespace Verif.Collide
open Verif

set_option linter.unusedSectionVars false

variable {R : Type} [LinearOrder R]

/-- the pair has an interaction or is in the list of pairs found -/
def RecP (I : Ints) (new : List (Nat × Nat)) (i j : Nat) : Prop := has I i j = true ∨ (i, j) ∈ new ∨ (j, i) ∈ new

/-- the list of pairs found is extended by wanted pairs only -/
structure NewExt (C : Cx R) (new new' : List (Nat × Nat)) : Prop where
  sub : ∀ p ∈ new, p ∈ new'
  new : ∀ p ∈ new', p ∈ new ∨ Good C p.1 p.2

theorem NewExt.refl (C : Cx R) (new : List (Nat × Nat)) : NewExt C new new := ⟨fun _ h => h, fun _ h => Or.inl h⟩

theorem NewExt.trans {C : Cx R} {a b c : List (Nat × Nat)} (h : NewExt C a b) (h' : NewExt C b c) : NewExt C a c :=
  ⟨fun p x => h'.sub p (h.sub p x), fun p x => by
    rcases h'.new p x with y | y
    · exact h.new p y
    · exact Or.inr y⟩

theorem RecP.mono {C : Cx R} {I : Ints} {a b : List (Nat × Nat)} (h : NewExt C a b) (i j : Nat) (hr : RecP I a i j) :
    RecP I b i j := by
  rcases hr with x | x | x
  · exact Or.inl x
  · exact Or.inr (Or.inl (h.sub _ x))
  · exact Or.inr (Or.inr (h.sub _ x))

theorem passP_spec {C : Cx R} {dc : Bool} {I : Ints} {new : List (Nat × Nat)} {x y : Bd R} {v : List (Bd R)} (hs : Safe C v)
    (hx : x ∈ v) (hy : y ∈ v) :
    ∃ new', passP C dc I new x y = .ok new' ∧ NewExt C new new' ∧
      (dc = true → relevant true x y = true → Wanted C x.id y.id → RecP I new' x.id y.id) := by
  unfold passP
  by_cases hr : relevant dc x y = true
  · rw [if_pos hr]
    have hb := relevant_bb hr
    obtain ⟨b, e⟩ := wanted_ok (hs y hy hb.2) (hs x hx hb.1)
    cases b with
    | true =>
      rw [e]
      by_cases hh : has I y.id x.id = true
      · refine ⟨new, by simp [hh], NewExt.refl C new, fun _ _ _ => Or.inl ?_⟩
        rw [has_comm]; exact hh
      · refine ⟨new ++ [(y.id, x.id)], by simp [hh], ⟨fun p h => List.mem_append_left _ h, fun p h => ?_⟩, fun _ _ _ => ?_⟩
        · rcases List.mem_append.mp h with h | h
          · exact Or.inl h
          · simp at h; subst h; exact Or.inr ⟨e, (relevant_ne hr).symm, (hs y hy hb.2).2, (hs x hx hb.1).2⟩
        · right; right; simp
    | false =>
      rw [e]
      refine ⟨new, rfl, NewExt.refl C new, fun _ _ h => ?_⟩
      have := h.symm
      unfold Wanted at this; rw [e] at this; cases this
  · rw [if_neg hr]
    refine ⟨new, rfl, NewExt.refl C new, fun h1 h2 => ?_⟩
    subst h1; exact absurd h2 hr

theorem insStepP_spec {C : Cx R} {dc : Bool} {I : Ints} {test : Bd R → Bd R → Bool} {x : Bd R} {v : List (Bd R)}
    (hs : Safe C v) (hx : x ∈ v) : ∀ (rev : List (Bd R)) (new : List (Nat × Nat)), (∀ y ∈ rev, y ∈ v) →
    ∃ G T new', rev = G ++ T ∧ insStepP C dc I test x new rev = .ok (new', G ++ x :: T, T.isEmpty) ∧
      (∀ g ∈ G, test g x = true) ∧ (∀ t ∈ T.head?, ¬ test t x = true) ∧ NewExt C new new' ∧
      (dc = true → ∀ g ∈ G, relevant true x g = true → Wanted C x.id g.id → RecP I new' x.id g.id) := by
  intro rev
  induction rev with
  | nil => intro new _; exact ⟨[], [], new, rfl, rfl, by simp, by simp, NewExt.refl C new, by simp⟩
  | cons y ys ih =>
    intro new hsub
    by_cases hg : test y x = true
    · obtain ⟨n1, p1, p2, p3⟩ := passP_spec (dc := dc) (I := I) (new := new) hs hx (hsub y (List.mem_cons_self ..))
      obtain ⟨G, T, n2, q1, q2, q3, q4, q5, q6⟩ := ih n1 (fun z hz => hsub z (List.mem_cons_of_mem _ hz))
      refine ⟨y :: G, T, n2, by rw [q1]; rfl, ?_, ?_, q4, p2.trans q5, ?_⟩
      · simp only [insStepP, hg, if_true, p1, q2, List.cons_append]
      · intro g hgm
        rcases List.mem_cons.mp hgm with rfl | h
        · exact hg
        · exact q3 g h
      · intro hd g hgm hr hw
        rcases List.mem_cons.mp hgm with rfl | h
        · exact (p3 hd hr hw).mono q5
        · exact q6 hd g h hr hw
    · refine ⟨[], y :: ys, new, rfl, by simp [insStepP, hg], by simp, ?_, NewExt.refl C new, by simp⟩
      intro t ht; simp at ht; subst ht; exact hg

/-- one insertion seen in the whole array `A ++ … ++ B` -/
theorem handled_ins {C : Cx R} {Rec : Nat → Nat → Prop} (A G T xs B : List (Bd R)) (x : Bd R)
    (hn : NK (A ++ ((G ++ T).reverse ++ x :: xs) ++ B))
    (hr : ∀ g ∈ G, relevant true x g = true → Wanted C x.id g.id → Rec x.id g.id) :
    Handled C Rec (A ++ ((G ++ T).reverse ++ x :: xs) ++ B) (A ++ ((G ++ x :: T).reverse ++ xs) ++ B) := by
  have := handled_move (C := C) (Rec := Rec) (A ++ T.reverse) G.reverse (xs ++ B) x
    (by simpa [List.reverse_append] using hn) (fun g hg => hr g (List.mem_reverse.mp hg))
  simpa [List.reverse_append] using this

theorem sortLoopP_spec {C : Cx R} {dc : Bool} {I : Ints} {v : List (Bd R)} (hs : Safe C v) (A B : List (Bd R)) :
    ∀ (xs rev : List (Bd R)) (new : List (Nat × Nat)), (∀ y ∈ rev, y ∈ v) → (∀ y ∈ xs, y ∈ v) → Desc rev →
    NK (A ++ (rev.reverse ++ xs) ++ B) →
    ∃ new' w, sortLoopP C dc I new rev xs = .ok (new', w) ∧ w.Perm (rev.reverse ++ xs) ∧ Sorted w ∧ NewExt C new new' ∧
      (dc = true → Handled C (RecP I new') (A ++ (rev.reverse ++ xs) ++ B) (A ++ w ++ B)) := by
  intro xs
  induction xs with
  | nil =>
    intro rev new h1 h2 h3 h4
    refine ⟨new, rev.reverse, rfl, by simp, desc_reverse.mpr h3, NewExt.refl C new, fun _ => ?_⟩
    rw [List.append_nil]; exact Handled.refl C _ _
  | cons x xs ih =>
    intro rev new h1 h2 h3 h4
    obtain ⟨G, T, n1, e, q2, q3, q4, q5, q7⟩ := insStepP_spec (dc := dc) (I := I) (test := Bd.gt) hs
      (h2 x (List.mem_cons_self ..)) rev new h1
    subst e
    have hd : Desc (G ++ x :: T) := desc_insert h3 (fun g hg => gt_coord (q3 g hg)) (fun t ht => not_gt_coord (q4 t ht))
    have hp := perm_ins G T xs x
    have hmem : ∀ y ∈ G ++ x :: T, y ∈ v := by
      intro y hy
      simp only [List.mem_append, List.mem_cons] at hy
      rcases hy with hy | rfl | hy
      · exact h1 y (List.mem_append_left _ hy)
      · exact h2 y (List.mem_cons_self ..)
      · exact h1 y (List.mem_append_right _ hy)
    have hP : (A ++ ((G ++ x :: T).reverse ++ xs) ++ B).Perm (A ++ ((G ++ T).reverse ++ x :: xs) ++ B) :=
      (hp.append_left A).append_right B
    obtain ⟨n2, w, r1, r2, r3, r4, r6⟩ := ih (G ++ x :: T) n1 hmem (fun y hy => h2 y (List.mem_cons_of_mem _ hy)) hd
      (h4.perm hP)
    refine ⟨n2, w, by simp only [sortLoopP, q2, r1], r2.trans hp, r3, q5.trans r4, fun h => ?_⟩
    exact (handled_ins A G T xs B x h4 (fun g hg hr hw => (q7 h g hg hr hw).mono r4)).trans hP (r6 h)

theorem phase1_spec {C : Cx R} {dc : Bool} {I : Ints} {u : List (Bd R)} (hs : Safe C u) (cs : Nat) :
    ∀ (k : Nat) (A v : List (Bd R)) (new : List (Nat × Nat)), (∀ y ∈ v, y ∈ u) → NK (A ++ v) → k * cs ≤ v.length →
    ∃ new' ws, phase1 C dc I cs k new v = .ok (new', ws) ∧ ws.flatten.Perm v ∧ (∀ w ∈ ws, Sorted w) ∧ NewExt C new new' ∧
      ws.map List.length = List.replicate k cs ++ [v.length - k * cs] ∧
      (dc = true → Handled C (RecP I new') (A ++ v) (A ++ ws.flatten)) := by
  intro k
  induction k with
  | zero =>
    intro A v new h1 h2 _
    obtain ⟨n1, w, a1, a2, a3, a4, a5⟩ := sortLoopP_spec (dc := dc) (I := I) hs A [] v [] new (by simp) h1 List.Pairwise.nil
      (by simpa using h2)
    refine ⟨n1, [w], by simp only [phase1, a1], by simpa using a2, by simpa using a3, a4, by simpa using a2.length_eq, fun h => ?_⟩
    simpa using a5 h
  | succ k ih =>
    intro A v new h1 h2 hk
    have hk' : k * cs + cs ≤ v.length := by rw [Nat.succ_mul] at hk; exact hk
    have hv : v.take cs ++ v.drop cs = v := List.take_append_drop cs v
    obtain ⟨n1, w, a1, a2, a3, a4, a5⟩ := sortLoopP_spec (dc := dc) (I := I) hs A (v.drop cs) (v.take cs) [] new (by simp)
      (fun y hy => h1 y (List.mem_of_mem_take hy)) List.Pairwise.nil (by simpa [hv] using h2)
    have a2' : w.Perm (v.take cs) := by simpa using a2
    have hP : (A ++ w ++ v.drop cs).Perm (A ++ v) := by
      have := (a2'.append_left A).append_right (v.drop cs)
      rwa [List.append_assoc A (v.take cs), hv] at this
    obtain ⟨n2, ws, b1, b2, b3, b4, b5, b6⟩ := ih (A ++ w) (v.drop cs) n1 (fun y hy => h1 y (List.mem_of_mem_drop hy))
      (h2.perm hP) (by rw [List.length_drop]; omega)
    refine ⟨n2, w :: ws, by simp only [phase1, a1, b1], ?_, ?_, a4.trans b4, ?_, fun h => ?_⟩
    · rw [List.flatten_cons]
      have := a2'.append b2
      rwa [hv] at this
    · intro z hz
      rcases List.mem_cons.mp hz with rfl | hz
      · exact a3
      · exact b3 z hz
    · rw [List.map_cons, b5, List.replicate_succ, List.cons_append]
      have e1 : w.length = cs := by rw [a2'.length_eq, List.length_take]; omega
      have e2 : v.length - cs - k * cs = v.length - (k + 1) * cs := by rw [Nat.succ_mul]; omega
      rw [e1, List.length_drop, e2]
    · have c1 : Handled C (RecP I n2) (A ++ v) (A ++ w ++ v.drop cs) := by
        have := (a5 h).mono (fun i j hr => RecP.mono b4 i j hr)
        simpa [hv] using this
      have c2 := b6 h
      rw [List.flatten_cons, ← List.append_assoc]
      exact c1.trans hP c2

theorem border_spec {C : Cx R} {dc : Bool} {I : Ints} {u : List (Bd R)} (hs : Safe C u) (A B : List (Bd R)) :
    ∀ (m : Nat) (new : List (Nat × Nat)) (rev r : List (Bd R)) (failed : Bool), (∀ y ∈ rev, y ∈ u) → (∀ y ∈ r, y ∈ u) →
    Desc rev → Sorted r → rev ≠ [] → m ≤ r.length → NK (A ++ (rev.reverse ++ r) ++ B) →
    ∃ new' q failed', border C dc I m new rev r failed = .ok (new', q, failed') ∧ q.Perm (rev.reverse ++ r) ∧
      NewExt C new new' ∧ (failed = true → failed' = true) ∧ (∃ q0, q = q0 ++ r.drop m) ∧
      (failed' = true ∨ (Sorted q ∧ ∀ c, (∀ y ∈ rev, c ≤ y.coord) → ∀ t ∈ q, c ≤ t.coord)) ∧
      (dc = true → Handled C (RecP I new') (A ++ (rev.reverse ++ r) ++ B) (A ++ q ++ B)) := by
  intro m
  induction m with
  | zero =>
    intro new rev r failed h1 h2 h3 h4 h5 h6 h7
    exact ⟨new, rev.reverse ++ r, true, rfl, List.Perm.refl _, NewExt.refl C new, fun _ => rfl, ⟨rev.reverse, rfl⟩, Or.inl rfl,
      fun _ => Handled.refl C _ _⟩
  | succ m ih =>
    intro new rev r failed h1 h2 h3 h4 h5 h6 h7
    cases r with
    | nil => simp at h6
    | cons x r =>
      cases hrev : rev with
      | nil => exact absurd hrev h5
      | cons y ys =>
        rw [← hrev]
        have hy : y ∈ rev := by rw [hrev]; exact List.mem_cons_self ..
        by_cases hl : x.lt y = true
        · obtain ⟨G, T, n1, e, q2, q3, q4, q5, q6⟩ := insStepP_spec (dc := dc) (I := I) (test := fun y x => x.lt y) hs
            (h2 x (List.mem_cons_self ..)) rev new h1
          have hd : Desc (G ++ x :: T) := desc_insert (e ▸ h3) (fun g hg => lt_coord (q3 g hg)) (fun t ht => not_lt_coord (q4 t ht))
          have hp : ((G ++ x :: T).reverse ++ r).Perm (rev.reverse ++ x :: r) := by rw [e]; exact perm_ins G T r x
          have hmem : ∀ z ∈ G ++ x :: T, z ∈ u := by
            intro z hz
            simp only [List.mem_append, List.mem_cons] at hz
            rcases hz with hz | rfl | hz
            · exact h1 z (by rw [e]; exact List.mem_append_left _ hz)
            · exact h2 z (List.mem_cons_self ..)
            · exact h1 z (by rw [e]; exact List.mem_append_right _ hz)
          have hP : (A ++ ((G ++ x :: T).reverse ++ r) ++ B).Perm (A ++ (rev.reverse ++ x :: r) ++ B) :=
            (hp.append_left A).append_right B
          obtain ⟨n2, q, f2, r1, r2, r3, r4, r7, r5, r6⟩ := ih n1 (G ++ x :: T) r (failed || T.isEmpty) hmem
            (fun z hz => h2 z (List.mem_cons_of_mem _ hz)) hd (List.pairwise_cons.mp h4).2 (by simp)
            (by simp at h6; omega) (h7.perm hP)
          refine ⟨n2, q, f2, ?_, r2.trans hp, q5.trans r3, fun h => r4 (by simp [h]), r7, ?_, fun h => ?_⟩
          · rw [hrev] at q2 ⊢
            simp only [border, hl, if_true, q2, r1]
          · rcases r5 with r5 | ⟨r5, r5'⟩
            · exact Or.inl r5
            · by_cases hT : T = []
              · left; apply r4; simp [hT]
              · right
                refine ⟨r5, fun c hc t ht => r5' c ?_ t ht⟩
                intro z hz
                simp only [List.mem_append, List.mem_cons] at hz
                rcases hz with hz | rfl | hz
                · exact hc z (by rw [e]; exact List.mem_append_left _ hz)
                · obtain ⟨t0, T', hT'⟩ := List.exists_cons_of_ne_nil hT
                  have h0 : t0.coord ≤ z.coord := not_lt_coord (q4 t0 (by rw [hT']; rfl))
                  refine le_trans (hc t0 ?_) h0
                  rw [e, hT']; simp
                · exact hc z (by rw [e]; exact List.mem_append_right _ hz)
          · have hi := handled_ins (C := C) (Rec := RecP I n2) A G T r B x (by rw [← e]; exact h7)
              (fun g hg hr hw => (q6 h g hg hr hw).mono r3)
            rw [← e] at hi
            exact hi.trans hP (r6 h)
        · refine ⟨new, rev.reverse ++ x :: r, failed, ?_, List.Perm.refl _, NewExt.refl C new, fun h => h,
            ⟨rev.reverse ++ (x :: r).take (m + 1), by rw [List.append_assoc, List.take_append_drop]⟩, ?_, fun _ => Handled.refl C _ _⟩
          · rw [hrev]; simp only [border, hl]; rfl
          · right
            have hyx : y.coord ≤ x.coord := not_lt_coord hl
            have hxr : ∀ z ∈ x :: r, x.coord ≤ z.coord := by
              intro z hz
              rcases List.mem_cons.mp hz with rfl | hz
              · exact le_refl _
              · exact (List.pairwise_cons.mp h4).1 z hz
            have hyz : ∀ z ∈ rev, z.coord ≤ y.coord := by
              intro z hz
              rw [hrev] at hz h3
              rcases List.mem_cons.mp hz with rfl | hz
              · exact le_refl _
              · exact (List.pairwise_cons.mp h3).1 z hz
            constructor
            · refine List.pairwise_append.mpr ⟨desc_reverse.mpr h3, h4, ?_⟩
              intro a ha b hb
              exact le_trans (le_trans (hyz a (List.mem_reverse.mp ha)) hyx) (hxr b hb)
            · intro c hc t ht
              rcases List.mem_append.mp ht with ht | ht
              · exact hc t (List.mem_reverse.mp ht)
              · exact le_trans (le_trans (hc y hy) hyx) (hxr t ht)

/-- lengths of the chunks after the first one -/
def Lens (cs : Nat) : List (List (Bd R)) → Prop
  | [] => True
  | [w] => cs / 2 ≤ w.length
  | w :: w' :: ws => w.length = cs ∧ Lens cs (w' :: ws)

theorem lens_of_map (cs : Nat) : ∀ (k : Nat) (l : Nat) (ws : List (List (Bd R))),
    ws.map List.length = List.replicate k cs ++ [l] → cs / 2 ≤ l → Lens cs ws := by
  intro k
  induction k with
  | zero =>
    intro l ws h hl
    cases ws with
    | nil => trivial
    | cons w ws =>
      simp at h
      obtain ⟨h1, h2⟩ := h
      subst h2; subst h1; exact hl
  | succ k ih =>
    intro l ws h hl
    cases ws with
    | nil => trivial
    | cons w ws =>
      rw [List.replicate_succ, List.cons_append, List.map_cons, List.cons.injEq] at h
      cases ws with
      | nil => simp at h
      | cons w' ws => exact ⟨h.1, ih l _ h.2 hl⟩

theorem phase2_spec {C : Cx R} {dc : Bool} {I : Ints} {u : List (Bd R)} (hs : Safe C u) (cs : Nat) (hcs : 1 ≤ cs) :
    ∀ (ws : List (List (Bd R))) (new : List (Nat × Nat)) (p : List (Bd R)) (failed : Bool), (∀ y ∈ p, y ∈ u) →
    (∀ w ∈ ws, ∀ y ∈ w, y ∈ u) → (failed = true ∨ Sorted p) → (∀ w ∈ ws, Sorted w) → Lens cs ws →
    (ws ≠ [] → (cs + 1) / 2 ≤ p.length ∧ Sorted (p.drop (p.length - (cs + 1) / 2))) → NK (p ++ ws.flatten) →
    ∃ new' v' failed', phase2 C dc I cs new p ws failed = .ok (new', v', failed') ∧ v'.Perm (p ++ ws.flatten) ∧
      NewExt C new new' ∧ (failed' = true ∨ Sorted v') ∧
      (dc = true → Handled C (RecP I new') (p ++ ws.flatten) v') := by
  intro ws
  induction ws with
  | nil =>
    intro new p failed h1 h2 h3 h4 h5 h6 h7
    refine ⟨new, p, failed, rfl, by simp, NewExt.refl C new, h3, fun _ => ?_⟩
    simpa using Handled.refl C _ _
  | cons w ws ih =>
    intro new p failed h1 h2 h3 h4 h5 h6 h7
    obtain ⟨h6a, h6b⟩ := h6 (by simp)
    have hp : p.take (p.length - (cs + 1) / 2) ++ p.drop (p.length - (cs + 1) / 2) = p := List.take_append_drop _ _
    generalize hA : p.take (p.length - (cs + 1) / 2) = A at hp
    generalize hD : p.drop (p.length - (cs + 1) / 2) = D at hp h6b
    have hDl : D.length = (cs + 1) / 2 := by rw [← hD, List.length_drop]; omega
    have hD0 : D ≠ [] := by intro e; rw [e] at hDl; simp at hDl; omega
    have hwl : cs / 2 ≤ w.length := by
      cases ws with
      | nil => exact h5
      | cons w' ws => have := h5.1; omega
    have hN : A ++ (D ++ w) ++ ws.flatten = p ++ (w :: ws).flatten := by rw [← hp]; simp
    obtain ⟨n1, q, f1, b1, b2, b3, b4, ⟨q0, b5⟩, b6, b7⟩ := border_spec (dc := dc) (I := I) hs A ws.flatten (cs / 2) new D.reverse w failed
      (fun y hy => h1 y (by rw [← hp]; exact List.mem_append_right _ (List.mem_reverse.mp hy)))
      (h2 w (List.mem_cons_self ..)) (desc_reverse.mp (by simpa using h6b)) (h4 w (List.mem_cons_self ..)) (by simpa using hD0) hwl
      (by rw [List.reverse_reverse, hN]; exact h7)
    rw [List.reverse_reverse] at b2 b7
    have hq : (A ++ q).Perm (p ++ w) := by
      have := b2.append_left A
      rwa [← List.append_assoc, hp] at this
    have hP : (A ++ q ++ ws.flatten).Perm (p ++ (w :: ws).flatten) := by
      have := hq.append_right ws.flatten
      simpa using this
    have hs1 : f1 = true ∨ Sorted (A ++ q) := by
      rcases b6 with b6 | ⟨b6, b6'⟩
      · exact Or.inl b6
      · rcases h3 with h3 | h3
        · exact Or.inl (b4 h3)
        · right
          rw [← hp] at h3
          obtain ⟨s1, s2, s3⟩ := List.pairwise_append.mp h3
          refine List.pairwise_append.mpr ⟨s1, b6, fun a ha t ht => b6' a.coord ?_ t ht⟩
          intro y hy
          exact s3 a ha y (List.mem_reverse.mp hy)
    have hql : (A ++ q).length = p.length + w.length := by rw [hq.length_eq, List.length_append]
    obtain ⟨n2, v', f2, c1, c2, c3, c4, c5⟩ := ih n1 (A ++ q) f1
      (fun y hy => by
        rcases List.mem_append.mp (hq.mem_iff.mp hy) with h | h
        · exact h1 y h
        · exact h2 w (List.mem_cons_self ..) y h)
      (fun w' hw' => h2 w' (List.mem_cons_of_mem _ hw')) hs1 (fun w' hw' => h4 w' (List.mem_cons_of_mem _ hw'))
      (by
        cases ws with
        | nil => trivial
        | cons w' ws => exact h5.2)
      (by
        intro hne
        have hcl : w.length = cs := by
          cases ws with
          | nil => exact absurd rfl hne
          | cons w' ws => exact h5.1
        refine ⟨by omega, ?_⟩
        have e1 : (A ++ q).drop ((A ++ q).length - (cs + 1) / 2) = w.drop (cs / 2) := by
          rw [b5, ← List.append_assoc]
          apply List.drop_left'
          rw [List.length_append (as := A ++ q0), List.length_drop]
          omega
        rw [e1]
        exact (h4 w (List.mem_cons_self ..)).sublist (List.drop_sublist _ _))
      (h7.perm hP)
    refine ⟨n2, v', f2, ?_, c2.trans hP, b3.trans c3, c4, fun h => ?_⟩
    · simp only [phase2, hA, hD, b1, c1]
    · have d1 := (b7 h).mono (fun i j hr => RecP.mono c3 i j hr)
      rw [hN] at d1
      exact d1.trans hP (c5 h)

theorem insAll_spec {C : Cx R} : ∀ (ps : List (Nat × Nat)) (I : Ints), (∀ p ∈ ps, Good C p.1 p.2) →
    Ext C I (insAll I ps) ∧ ∀ p ∈ ps, has (insAll I ps) p.1 p.2 = true := by
  intro ps
  induction ps with
  | nil => intro I _; exact ⟨Ext.refl C I, by simp⟩
  | cons p ps ih =>
    intro I h
    obtain ⟨h1, h2⟩ := ih (ins I p.1 p.2) (fun q hq => h q (List.mem_cons_of_mem _ hq))
    refine ⟨(Ext.ins C I p.1 p.2 (h p (List.mem_cons_self ..))).trans h1, fun q hq => ?_⟩
    rcases List.mem_cons.mp hq with rfl | hq
    · exact h1.mono _ _ (has_ins I q.1 q.2)
    · exact h2 q hq

/-- the chunks `insertionSortParallel` uses stay inside the list: the start of every chunk is a bound of the list, and the last
chunk has at least half the size of the others -/
def ChunksFit (size n : Nat) : Prop := (n - 1) * chunkSize size n < size ∧ chunkSize size n / 2 ≤ size - (n - 1) * chunkSize size n

theorem chunkLoop_spec (size : Nat) (narrow : Nat → Bool) : ∀ n, 1 ≤ n → (∀ m, 2 ≤ m → m ≤ n → ChunksFit size m) →
    ∃ m, chunkLoop size narrow n = .ok m ∧ 1 ≤ m ∧ m ≤ n := by
  intro n
  induction n with
  | zero => intro h; omega
  | succ n ih =>
    intro _ h
    cases n with
    | zero => exact ⟨1, rfl, by omega, by omega⟩
    | succ n =>
      have : (n + 1) * chunkSize size (n + 2) < size := (h (n + 2) (by omega) (by omega)).1
      by_cases hn : narrow (n + 2) = true
      · obtain ⟨m, e, h1, h2⟩ := ih (by omega) (fun m a b => h m a (by omega))
        exact ⟨m, by simp only [chunkLoop]; rw [if_pos this, if_pos hn]; exact e, h1, by omega⟩
      · exact ⟨n + 2, by simp only [chunkLoop]; rw [if_pos this, if_neg hn], by omega, by omega⟩

theorem insertionSortParallel_spec {C : Cx R} {dc : Bool} {v : List (Bd R)} (hs : Safe C v) (hn : NK v) (I : Ints) (threads : Nat)
    (narrow : Nat → Bool) (hf : ∀ m, 2 ≤ m → m ≤ threads → ChunksFit v.length m) :
    ∃ I' w, insertionSortParallel C dc threads narrow I v = .ok (I', w) ∧ w.Perm v ∧ Sorted w ∧ Ext C I I' ∧
      (dc = true → Handled C (fun i j => has I' i j = true) v w) := by
  unfold insertionSortParallel
  by_cases ht : threads ≤ 1
  · rw [if_pos ht]
    obtain ⟨I', w, a, b, c, d, _, f⟩ := insertionSort_spec (dc := dc) hs hn I
    exact ⟨I', w, a, b, c, d, f⟩
  · rw [if_neg ht]
    obtain ⟨n, e, n1, n2⟩ := chunkLoop_spec v.length narrow threads (by omega) hf
    rw [e]
    show ∃ I' w, (match phase1 C dc I (chunkSize v.length n) (n - 1) [] v with
      | .ok (new, []) => .ok (insAll I new, [])
      | .ok (new, w :: ws) => match phase2 C dc I (chunkSize v.length n) new w ws false with
        | .ok (new', v', failed) =>
          if failed then insertionSort C dc (insAll I new') v' else .ok (insAll I new', v')
        | .throws => .throws
        | .ub => .ub
      | .throws => .throws
      | .ub => .ub) = Res.ok (I', w) ∧ _
    have hk : (n - 1) * chunkSize v.length n ≤ v.length := by
      by_cases h1 : n = 1
      · subst h1; simp
      · exact Nat.le_of_lt (hf n (by omega) n2).1
    obtain ⟨new, ws, a1, a2, a3, a4, a5, a6⟩ := phase1_spec (dc := dc) (I := I) hs (chunkSize v.length n) (n - 1) [] v [] (fun y h => h)
      (by simpa using hn) hk
    rw [a1]
    cases ws with
    | nil => simp at a5
    | cons w ws =>
      have hcs : 1 ≤ chunkSize v.length n := by unfold chunkSize; exact Nat.le_add_left 1 _
      have hmem : ∀ w' ∈ w :: ws, ∀ y ∈ w', y ∈ v := fun w' hw' y hy => a2.mem_iff.mp (List.mem_flatten.mpr ⟨w', hw', hy⟩)
      have hlens : Lens (chunkSize v.length n) ws ∧ (ws ≠ [] → w.length = chunkSize v.length n) := by
        by_cases h1 : n = 1
        · subst h1
          simp at a5
          rw [a5.2]; exact ⟨trivial, fun h => absurd rfl h⟩
        · obtain ⟨k, hk'⟩ : ∃ k, n - 1 = k + 1 := ⟨n - 2, by omega⟩
          have hff := (hf n (by omega) n2).2
          rw [hk'] at a5 hff
          rw [List.replicate_succ, List.cons_append, List.map_cons, List.cons.injEq] at a5
          exact ⟨lens_of_map _ k _ ws a5.2 hff, fun _ => a5.1⟩
      obtain ⟨new', v', failed, b1, b2, b3, b4, b5⟩ := phase2_spec (dc := dc) (I := I) hs (chunkSize v.length n) hcs ws new w false
        (hmem w (List.mem_cons_self ..)) (fun w' hw' => hmem w' (List.mem_cons_of_mem _ hw')) (Or.inr (a3 w (List.mem_cons_self ..)))
        (fun w' hw' => a3 w' (List.mem_cons_of_mem _ hw')) hlens.1
        (fun h => ⟨by rw [hlens.2 h]; omega, (a3 w (List.mem_cons_self ..)).sublist (List.drop_sublist _ _)⟩)
        (by rw [← List.flatten_cons]; exact hn.perm a2)
      have hv' : v'.Perm v := b2.trans (by rw [← List.flatten_cons]; exact a2)
      have hw : ∀ p ∈ new', Good C p.1 p.2 := by
        intro p hp
        rcases (a4.trans b3).new p hp with h | h
        · simp at h
        · exact h
      obtain ⟨i1, i2⟩ := insAll_spec new' I hw
      have hrec : ∀ i j, RecP I new' i j → has (insAll I new') i j = true := by
        intro i j hr
        rcases hr with h | h | h
        · exact i1.mono _ _ h
        · exact i2 (i, j) h
        · rw [has_comm]; exact i2 (j, i) h
      have hh : dc = true → Handled C (fun i j => has (insAll I new') i j = true) v v' := fun h => by
        have h1 := (a6 h).mono (fun i j hr => RecP.mono b3 i j hr)
        have h2 := h1.trans (by simpa using a2) (b5 h)
        exact Handled.mono (by simpa using h2) hrec
      show ∃ I' w_1, (match phase2 C dc I (chunkSize v.length n) new w ws false with
        | .ok (new', v', failed) =>
          if failed then insertionSort C dc (insAll I new') v' else .ok (insAll I new', v')
        | .throws => .throws
        | .ub => .ub) = Res.ok (I', w_1) ∧ _
      rw [b1]
      cases failed with
      | true =>
        obtain ⟨I2, u, c1, c2, c3, c4, _, c6⟩ := insertionSort_spec (dc := dc) (v := v')
          (fun x hx => hs x (hv'.mem_iff.mp hx)) (hn.perm hv') (insAll I new')
        refine ⟨I2, u, c1, c2.trans hv', c3, i1.trans c4, fun h => ?_⟩
        exact ((hh h).mono (fun i j hr => c4.mono i j hr)).trans hv' (c6 h)
      | false =>
        refine ⟨insAll I new', v', rfl, hv', ?_, i1, hh⟩
        rcases b4 with b4 | b4
        · cases b4
        · exact b4

end Verif.Collide
