import Verif.Grid.Lemmas
import Mathlib.Data.List.Sort
/-!
# Lemmas about the quick-sort collider
-/
namespace Verif.Grid
open Verif Verif.Collide

variable {R : Type} [LinearOrder R]

/-- a box: lower and upper corner -/
abbrev Box (R : Type) := (Fin 3 → R) × (Fin 3 → R)

/-- the boxes overlap: along x they may just touch, along y and z not -/
def BoxOverlap (p q : Box R) : Prop :=
  (p.1 0 ≤ q.2 0 ∧ q.1 0 ≤ p.2 0) ∧ (p.1 1 < q.2 1 ∧ q.1 1 < p.2 1) ∧ (p.1 2 < q.2 2 ∧ q.1 2 < p.2 2)

/-- two existing bodies with overlapping boxes -/
def Ov (bs : List (Option (QBody R))) (i j : Nat) : Prop :=
  ∃ a b p q, bs.getD i none = some a ∧ bs.getD j none = some b ∧ a.box = some p ∧ b.box = some q ∧ BoxOverlap p q

theorem BoxOverlap.symm {p q : Box R} (h : BoxOverlap p q) : BoxOverlap q p :=
  ⟨⟨h.1.2, h.1.1⟩, ⟨h.2.1.2, h.2.1.1⟩, ⟨h.2.2.2, h.2.2.1⟩⟩

theorem Ov.symm {bs : List (Option (QBody R))} {i j : Nat} (h : Ov bs i j) : Ov bs j i := by
  obtain ⟨a, b, p, q, h1, h2, h3, h4, h5⟩ := h
  exact ⟨b, a, q, p, h2, h1, h4, h3, h5.symm⟩

/-- the entry is the box of a body -/
def IsEntry (bs : List (Option (QBody R))) (r : Rk R) : Prop :=
  ∃ b, bs.getD r.id none = some b ∧ b.box = some (r.mn, r.mx) ∧ r.mn 0 ≤ r.mx 0

omit [LinearOrder R] in
theorem boxes_mem : ∀ (bs : List (Option (QBody R))) (k : Nat) (r : Rk R), r ∈ boxes k bs ↔
    k ≤ r.id ∧ ∃ b, bs.getD (r.id - k) none = some b ∧ b.box = some (r.mn, r.mx)
  | [], k, r => by simp [boxes]
  | none :: bs, k, r => by
    unfold boxes
    rw [boxes_mem bs (k + 1) r]
    constructor
    · rintro ⟨h, b, hb, hx⟩
      exact ⟨by omega, b, by rw [show r.id - k = (r.id - (k + 1)) + 1 by omega]; exact hb, hx⟩
    · rintro ⟨h, b, hb, hx⟩
      rcases Nat.eq_or_lt_of_le h with e | e
      · rw [← e, Nat.sub_self] at hb; simp at hb
      · refine ⟨e, b, ?_, hx⟩
        rw [show r.id - k = (r.id - (k + 1)) + 1 by omega] at hb; exact hb
  | some b0 :: bs, k, r => by
    have tail : (k + 1 ≤ r.id ∧ ∃ b, bs.getD (r.id - (k + 1)) none = some b ∧ b.box = some (r.mn, r.mx)) ↔
        k < r.id ∧ ∃ b, (some b0 :: bs).getD (r.id - k) none = some b ∧ b.box = some (r.mn, r.mx) := by
      constructor
      · rintro ⟨h, b, hb, hx⟩
        exact ⟨h, b, by rw [show r.id - k = (r.id - (k + 1)) + 1 by omega]; exact hb, hx⟩
      · rintro ⟨h, b, hb, hx⟩
        refine ⟨h, b, ?_, hx⟩
        rw [show r.id - k = (r.id - (k + 1)) + 1 by omega] at hb; exact hb
    unfold boxes
    split
    · rename_i hn
      rw [boxes_mem bs (k + 1) r, tail]
      constructor
      · rintro ⟨h, h'⟩; exact ⟨h.le, h'⟩
      · rintro ⟨h, b, hb, hx⟩
        rcases Nat.eq_or_lt_of_le h with e | e
        · rw [← e, Nat.sub_self, List.getD_cons_zero] at hb
          injection hb with hb; subst hb; rw [hn] at hx; cases hx
        · exact ⟨e, b, hb, hx⟩
    · rename_i mn mx hn
      rw [List.mem_cons, boxes_mem bs (k + 1) r, tail]
      constructor
      · rintro (rfl | ⟨h, h'⟩)
        · exact ⟨le_refl _, b0, by rw [Nat.sub_self]; rfl, hn⟩
        · exact ⟨h.le, h'⟩
      · rintro ⟨h, b, hb, hx⟩
        rcases Nat.eq_or_lt_of_le h with e | e
        · left
          rw [← e, Nat.sub_self, List.getD_cons_zero] at hb
          injection hb with hb; subst hb; rw [hn] at hx
          injection hx with hx
          injection hx with h1 h2
          cases r; cases e; cases h1; cases h2; rfl
        · exact .inr ⟨e, b, hb, hx⟩

omit [LinearOrder R] in
theorem boxes_pairwise : ∀ (bs : List (Option (QBody R))) (k : Nat), (boxes k bs).Pairwise fun r s => r.id ≠ s.id
  | [], k => by simp [boxes]
  | none :: bs, k => by unfold boxes; exact boxes_pairwise bs (k + 1)
  | some b0 :: bs, k => by
    unfold boxes
    split
    · exact boxes_pairwise bs (k + 1)
    · refine List.pairwise_cons.mpr ⟨fun s hs => ?_, boxes_pairwise bs (k + 1)⟩
      have := ((boxes_mem bs (k + 1) s).mp hs).1
      intro e
      have : k = s.id := e
      omega

omit [LinearOrder R] in
theorem boxes_length : ∀ (bs : List (Option (QBody R))) (k : Nat), (∀ b ∈ bs, ∃ a p, b = some a ∧ a.box = some p) →
    (boxes k bs).length = bs.length
  | [], k, _ => by simp [boxes]
  | b :: bs, k, h => by
    obtain ⟨a, p, rfl, hp⟩ := h b (List.mem_cons_self ..)
    unfold boxes
    rw [hp]
    simp only [List.length_cons]
    rw [boxes_length bs (k + 1) fun b hb => h b (List.mem_cons_of_mem _ hb)]

omit [LinearOrder R] in
theorem readAll_map : ∀ (l : List (Rk R)), readAll (l.map some) = .ok l
  | [] => rfl
  | r :: l => by unfold readAll; rw [List.map_cons]; simp only [readAll_map l, Res.bind_ok]

omit [LinearOrder R] in
theorem overwrite_all {n : Nat} {rank : List (Option (Rk R))} {new : List (Rk R)} (h : new.length = n) :
    overwrite (resizeRank n rank) new = new.map some := by
  unfold overwrite
  have : (resizeRank n rank).length = n := by
    unfold resizeRank
    split
    · rename_i h; rw [List.length_take]; omega
    · rw [List.length_append, List.length_replicate]; omega
  rw [List.drop_eq_nil_of_le (by omega), List.append_nil]

theorem ov_entries {bs : List (Option (QBody R))} {r s : Rk R} (hr : IsEntry bs r) (hs : IsEntry bs s) (hle : r.mn 0 ≤ s.mn 0) :
    Ov bs r.id s.id ↔ ¬ r.mx 0 < s.mn 0 ∧ overlapYZ r s = true := by
  obtain ⟨a, ha, hpa, hva⟩ := hr
  obtain ⟨b, hb, hpb, hvb⟩ := hs
  unfold overlapYZ
  simp only [Bool.and_eq_true, decide_eq_true_eq]
  constructor
  · rintro ⟨a', b', p, q, h1, h2, h3, h4, h5⟩
    rw [ha] at h1; rw [hb] at h2
    injection h1 with h1; injection h2 with h2; subst h1 h2
    rw [hpa] at h3; rw [hpb] at h4
    injection h3 with h3; injection h4 with h4; subst h3 h4
    exact ⟨not_lt.mpr h5.1.2, ⟨⟨⟨h5.2.1.2, h5.2.1.1⟩, h5.2.2.2⟩, h5.2.2.1⟩⟩
  · rintro ⟨h1, ⟨⟨h2, h3⟩, h4⟩, h5⟩
    exact ⟨a, b, _, _, ha, hb, hpa, hpb, ⟨le_trans hle hvb, not_lt.mp h1⟩, ⟨h3, h2⟩, ⟨h5, h4⟩⟩

omit [LinearOrder R] in
theorem seen_app {iter : Int} {I : List GI} {i j : Nat} (h : has I i j = false) : Seen iter (I ++ [⟨i, j, false, iter⟩]) i j := by
  refine ⟨by rw [has_append, Bool.or_eq_true]; right; simp [has, GI.is], fun e he hi => ?_⟩
  rcases List.mem_append.mp he with he | he
  · have := (has_iff I i j).mpr ⟨e, he, hi⟩
    rw [h] at this; cases this
  · rw [List.mem_singleton] at he; subst he; rfl

theorem touch_ok {bs : List (Option (QBody R))} {iter : Int} {i j : Nat} (hij : i ≠ j) (h : Ov bs i j) (I : List GI) :
    ∃ I', touch bs iter I i j = .ok I' ∧ Grown (Ov bs) iter I I' ∧ Seen iter I' i j := by
  unfold touch
  split
  · rename_i hh; exact ⟨_, rfl, .see _ _ _ _ _, seen_see hh⟩
  · rename_i hh
    rw [Bool.not_eq_true] at hh
    have h' := h
    obtain ⟨a, b, p, q, h1, h2, -⟩ := h
    rw [h1, h2]
    simp only [if_neg hij]
    exact ⟨_, rfl, .app (.inr rfl) h' hij hh, seen_app hh⟩

theorem qInner_ok {bs : List (Option (QBody R))} (iter : Int) {r : Rk R} (hr : IsEntry bs r) : ∀ (l : List (Rk R)) (I : List GI),
    (∀ s ∈ l, IsEntry bs s ∧ r.mn 0 ≤ s.mn 0 ∧ r.id ≠ s.id) → l.Pairwise (fun s t => s.mn 0 ≤ t.mn 0) →
    ∃ I', qInner bs iter r l I = .ok I' ∧ Grown (Ov bs) iter I I' ∧ ∀ s ∈ l, Ov bs r.id s.id → Seen iter I' r.id s.id
  | [], I, _, _ => ⟨I, rfl, .refl _ _ _, (fun _ h => by cases h)⟩
  | s :: l, I, h, hp => by
    obtain ⟨hs, hrs, hne⟩ := h s (List.mem_cons_self ..)
    rw [List.pairwise_cons] at hp
    unfold qInner
    by_cases hb : r.mx 0 < s.mn 0
    · rw [if_pos hb]
      refine ⟨I, rfl, .refl _ _ _, fun t ht hov => ?_⟩
      exfalso
      obtain ⟨ht1, ht2, -⟩ := h t ht
      have := ((ov_entries hr ht1 ht2).mp hov).1
      rcases List.mem_cons.mp ht with rfl | ht
      · exact this hb
      · exact this (lt_of_lt_of_le hb (hp.1 t ht))
    · rw [if_neg hb]
      obtain ⟨I1, e1, g1, s1⟩ : ∃ I1, (if overlapYZ r s then touch bs iter I r.id s.id else .ok I) = .ok I1 ∧ Grown (Ov bs) iter I I1 ∧
          (Ov bs r.id s.id → Seen iter I1 r.id s.id) := by
        split
        · rename_i ho
          have hov := (ov_entries hr hs hrs).mpr ⟨hb, ho⟩
          obtain ⟨I1, e1, g1, s1⟩ := touch_ok (iter := iter) hne hov I
          exact ⟨I1, e1, g1, fun _ => s1⟩
        · rename_i ho
          exact ⟨I, rfl, .refl _ _ _, fun hov => absurd ((ov_entries hr hs hrs).mp hov).2 ho⟩
      obtain ⟨I2, e2, g2, s2⟩ := qInner_ok iter hr l I1 (fun t ht => h t (List.mem_cons_of_mem _ ht)) hp.2
      refine ⟨I2, by rw [e1, Res.bind_ok, e2], g1.trans g2, fun t ht hov => ?_⟩
      rcases List.mem_cons.mp ht with rfl | ht
      · exact g2.seen (s1 hov)
      · exact s2 t ht hov

theorem qOuter_ok {bs : List (Option (QBody R))} (iter : Int) : ∀ (l : List (Rk R)) (I : List GI), (∀ s ∈ l, IsEntry bs s) →
    l.Pairwise (fun s t => s.mn 0 ≤ t.mn 0) → l.Pairwise (fun s t => s.id ≠ t.id) →
    ∃ I', qOuter bs iter l I = .ok I' ∧ Grown (Ov bs) iter I I' ∧ ∀ r ∈ l, ∀ s ∈ l, r.id ≠ s.id → Ov bs r.id s.id → Seen iter I' r.id s.id
  | [], I, _, _, _ => ⟨I, rfl, .refl _ _ _, (fun _ h => by cases h)⟩
  | r :: l, I, h, hp, hn => by
    have seen_comm : ∀ {I : List GI} {i j : Nat}, Seen iter I i j → Seen iter I j i := fun hs =>
      ⟨by rw [has_comm]; exact hs.1, fun e he hi => hs.2 e he (by rw [is_comm]; exact hi)⟩
    rw [List.pairwise_cons] at hp hn
    obtain ⟨I1, e1, g1, s1⟩ := qInner_ok iter (h r (List.mem_cons_self ..)) l I
      (fun s hs => ⟨h s (List.mem_cons_of_mem _ hs), hp.1 s hs, hn.1 s hs⟩) hp.2
    obtain ⟨I2, e2, g2, s2⟩ := qOuter_ok iter l I1 (fun s hs => h s (List.mem_cons_of_mem _ hs)) hp.2 hn.2
    refine ⟨I2, by unfold qOuter; rw [e1, Res.bind_ok, e2], g1.trans g2, fun x hx y hy hxy hov => ?_⟩
    rcases List.mem_cons.mp hx with rfl | hx' <;> rcases List.mem_cons.mp hy with rfl | hy'
    · exact absurd rfl hxy
    · exact g2.seen (s1 y hy' hov)
    · exact seen_comm (g2.seen (s1 x hx' hov.symm))
    · exact s2 x hx' y hy' hxy hov

end Verif.Grid
