import Verif.Dt.Model
import Mathlib.Tactic.Linarith
import Mathlib.Tactic.FieldSimp
import Mathlib.Tactic.FinCases

/-!
# Stiffness of bodies: specification and what the time stepper computes
-/
namespace Verif.Dt
open Verif.Mech
open scoped Classical

/-! ## Specification -/

/-- The translational stiffness a contact gives to either of its bodies along an axis: normal stiffness along the normal, shear
stiffness across. -/
def contactK (c : Contact) (a : Fin 3) : ℝ := c.kn * c.normal a ^ 2 + c.ks * (1 - c.normal a ^ 2)

/-- The rotational stiffness a contact gives to a body whose centre is at distance `r` from the contact point. -/
def contactR (c : Contact) (r : ℝ) (a : Fin 3) : ℝ :=
  c.ks * r ^ 2 * (sqNorm c.normal - c.normal a ^ 2) + (c.ktw * c.normal a ^ 2 + c.kr * (1 - c.normal a ^ 2))

/-- The translational stiffness of body `i`: the sum over its contacts under load. -/
noncomputable def bodyK (cs : List Contact) (i : Nat) (a : Fin 3) : ℝ :=
  (cs.map fun c => if c.normalForce = 0 then 0 else (if c.id1 = i then contactK c a else 0) + (if c.id2 = i then contactK c a else 0)).sum

/-- The rotational stiffness of body `i`. -/
noncomputable def bodyR (cs : List Contact) (i : Nat) (a : Fin 3) : ℝ :=
  (cs.map fun c => if c.normalForce = 0 then 0 else (if c.id1 = i then contactR c c.refR1 a else 0) + (if c.id2 = i then contactR c c.refR2 a else 0)).sum

/-- The stiffness of a body with the members it may have. -/
noncomputable def totalK (cs : List Contact) (b : Bd) (i : Nat) (a : Fin 3) : ℝ := bodyK cs i a + ((b.members.getD []).map fun m => bodyK cs m a).sum

/-- The rotational stiffness of a body with the members it may have. -/
noncomputable def totalR (cs : List Contact) (b : Bd) (i : Nat) (a : Fin 3) : ℝ := bodyR cs i a + ((b.members.getD []).map fun m => bodyR cs m a).sum

/-! ## Vectors -/

theorem addAt_ok {l : List V3} {i : Nat} (x : V3) (h : i < l.length) :
    ∃ l', addAt l i x = .ok l' ∧ l'.length = l.length ∧ ∀ j, l'.getD j 0 = l.getD j 0 + if i = j then x else 0 := by
  refine ⟨l.modify i (· + x), by rw [addAt, if_pos h], by simp, ?_⟩
  intro j
  simp only [List.getD_eq_getElem?_getD, List.getElem?_modify]
  by_cases hij : i = j
  · subst hij
    simp [List.getElem?_eq_getElem h]
  · simp [hij]

theorem readAt_ok {l : List V3} {i : Nat} (h : i < l.length) : readAt l i = .ok (l.getD i 0) := by
  rw [readAt, List.getElem?_eq_getElem h]
  simp [List.getD_eq_getElem?_getD, List.getElem?_eq_getElem h]

theorem zeroFirst_all (l : List V3) : zeroFirst l l.length = .ok (List.replicate l.length 0) := by
  simp [zeroFirst]

theorem resize_length (l : List V3) (n : Nat) : (resize l n).length = n := by
  rw [resize]; split_ifs <;> simp <;> omega

theorem diag_eq (c : Contact) : diagStiffness c.normal c.kn c.ks = contactK c := by
  funext a; simp only [diagStiffness, contactK]; ring

theorem rdiag_eq (c : Contact) (r : ℝ) : r ^ 2 • diagRstiffness c.normal c.ks + diagMstiffness c.normal c.ktw c.kr = contactR c r := by
  funext a
  fin_cases a <;> simp [diagRstiffness, diagMstiffness, contactR, sqNorm, dot, Fin.sum_univ_three] <;> ring

/-! ## Contacts -/

theorem addContact_ok {e : Eng} {c : Contact} (hv : e.viscEl = false) (hl : e.Rstiff.length = e.stiff.length) (h1 : c.id1 < e.stiff.length)
    (h2 : c.id2 < e.stiff.length) :
    ∃ s r, addContact e c = .ok { e with stiff := s, Rstiff := r } ∧ s.length = e.stiff.length ∧ r.length = e.stiff.length ∧
      (∀ j, s.getD j 0 = e.stiff.getD j 0 + bodyK [c] j) ∧ ∀ j, r.getD j 0 = e.Rstiff.getD j 0 + bodyR [c] j := by
  rw [addContact]
  by_cases h0 : c.normalForce = 0
  · refine ⟨e.stiff, e.Rstiff, ?_, rfl, hl, ?_, ?_⟩
    · rw [if_pos (sqNorm_eq_zero.mpr h0)]
    · intro j; funext a; simp [bodyK, h0]
    · intro j; funext a; simp [bodyR, h0]
  · rw [if_neg (fun h => h0 (sqNorm_eq_zero.mp h))]
    dsimp only
    rw [diag_eq, rdiag_eq, rdiag_eq]
    obtain ⟨s1, hs1, hs1l, hs1g⟩ := addAt_ok (l := e.stiff) (contactK c) h1
    obtain ⟨r1, hr1, hr1l, hr1g⟩ := addAt_ok (l := e.Rstiff) (contactR c c.refR1) (by rw [hl]; exact h1)
    obtain ⟨s2, hs2, hs2l, hs2g⟩ := addAt_ok (l := s1) (contactK c) (by rw [hs1l]; exact h2)
    obtain ⟨r2, hr2, hr2l, hr2g⟩ := addAt_ok (l := r1) (contactR c c.refR2) (by rw [hr1l, hl]; exact h2)
    refine ⟨s2, r2, ?_, by rw [hs2l, hs1l], by rw [hr2l, hr1l, hl], ?_, ?_⟩
    · rw [hs1]; simp only [Res.bind_ok]; rw [hr1]; simp only [Res.bind_ok]; rw [hs2]; simp only [Res.bind_ok]; rw [hr2]; simp only [Res.bind_ok, hv]
      rfl
    · intro j
      rw [hs2g, hs1g]
      funext a
      by_cases g1 : c.id1 = j <;> by_cases g2 : c.id2 = j <;> simp [bodyK, h0, g1, g2, add_assoc]
    · intro j
      rw [hr2g, hr1g]
      funext a
      by_cases g1 : c.id1 = j <;> by_cases g2 : c.id2 = j <;> simp [bodyR, h0, g1, g2, add_assoc]

theorem addContacts_ok (cs : List Contact) : ∀ {e : Eng}, e.viscEl = false → e.Rstiff.length = e.stiff.length →
    (∀ c ∈ cs, c.id1 < e.stiff.length ∧ c.id2 < e.stiff.length) →
    ∃ s r, addContacts cs e = .ok { e with stiff := s, Rstiff := r } ∧ s.length = e.stiff.length ∧ r.length = e.stiff.length ∧
      (∀ j, s.getD j 0 = e.stiff.getD j 0 + bodyK cs j) ∧ ∀ j, r.getD j 0 = e.Rstiff.getD j 0 + bodyR cs j := by
  induction cs with
  | nil => intro e hv hl _; exact ⟨e.stiff, e.Rstiff, rfl, rfl, hl, fun j => by funext a; simp [bodyK], fun j => by funext a; simp [bodyR]⟩
  | cons c t ih =>
    intro e hv hl h
    obtain ⟨s1, r1, he, hs, hr, gs, gr⟩ := addContact_ok hv hl (h c (by simp)).1 (h c (by simp)).2
    obtain ⟨s2, r2, he2, hs2, hr2, gs2, gr2⟩ := ih (e := { e with stiff := s1, Rstiff := r1 }) hv (by dsimp only; rw [hr, hs])
      (by intro c' hc'; dsimp only; rw [hs]; exact h c' (by simp [hc']))
    refine ⟨s2, r2, ?_, ?_, ?_, ?_, ?_⟩
    · rw [addContacts, he, Res.bind_ok, he2]
    · rw [hs2]; exact hs
    · rw [hr2]; exact hs
    · intro j
      rw [gs2, gs]
      funext a
      simp [bodyK, add_assoc]
    · intro j
      rw [gr2, gr]
      funext a
      simp [bodyR, add_assoc]

theorem computeStiffnesses_ok {n : Nat} {cs : List Contact} {e : Eng} (hv : e.viscEl = false) (hl : e.Rstiff.length = e.stiff.length)
    (hc : ∀ c ∈ cs, c.id1 < n ∧ c.id2 < n) :
    ∃ s r, computeStiffnesses n cs e = .ok { e with stiff := s, Rstiff := r } ∧ s.length = max e.stiff.length n ∧ r.length = max e.stiff.length n ∧
      (∀ j, s.getD j 0 = bodyK cs j) ∧ ∀ j, r.getD j 0 = bodyR cs j := by
  have hz : ∀ (k j : Nat), (List.replicate k (0 : V3)).getD j 0 = 0 := by
    intro k j
    simp only [List.getD_eq_getElem?_getD, List.getElem?_replicate]
    split_ifs <;> rfl
  have key : ∀ e' : Eng, e'.viscEl = false → e'.stiff.length = max e.stiff.length n → e'.Rstiff.length = max e.stiff.length n →
      ∃ s r, ((zeroFirst e'.stiff (max e.stiff.length n)).bind fun s => (zeroFirst e'.Rstiff (max e.stiff.length n)).bind fun r =>
        if e'.viscEl then
          (zeroFirst e'.visc (max e.stiff.length n)).bind fun v => (zeroFirst e'.Rvisc (max e.stiff.length n)).bind fun rv =>
          addContacts cs { e' with stiff := s, Rstiff := r, visc := v, Rvisc := rv }
        else addContacts cs { e' with stiff := s, Rstiff := r }) = .ok { e' with stiff := s, Rstiff := r } ∧ s.length = max e.stiff.length n ∧
          r.length = max e.stiff.length n ∧ (∀ j, s.getD j 0 = bodyK cs j) ∧ ∀ j, r.getD j 0 = bodyR cs j := by
    intro e' hv' h1 h2
    obtain ⟨s, r, he, hs, hr, gs, gr⟩ := addContacts_ok cs (e := { e' with stiff := List.replicate (max e.stiff.length n) 0, Rstiff := List.replicate (max e.stiff.length n) 0 })
      hv' (by simp) (by intro c h; have := hc c h; simp only [List.length_replicate]; omega)
    refine ⟨s, r, ?_, by rw [hs]; simp, by rw [hr]; simp, ?_, ?_⟩
    · rw [show max e.stiff.length n = e'.stiff.length from h1.symm, zeroFirst_all, Res.bind_ok, h1, ← h2, zeroFirst_all, Res.bind_ok, if_neg (by rw [hv']; decide), h2]
      exact he
    · intro j; rw [gs]; dsimp only; rw [hz, zero_add]
    · intro j; rw [gr]; dsimp only; rw [hz, zero_add]
  rw [computeStiffnesses]
  by_cases h : e.stiff.length < n
  · rw [if_pos h]
    obtain ⟨s, r, he, hs⟩ := key { e with stiff := resize e.stiff n, Rstiff := resize e.Rstiff n, visc := if e.viscEl then resize e.visc n else e.visc, Rvisc := if e.viscEl then resize e.Rvisc n else e.Rvisc }
      hv (by dsimp only; rw [resize_length]; omega) (by dsimp only; rw [resize_length]; omega)
    refine ⟨s, r, ?_, hs⟩
    refine Eq.trans he ?_
    simp [hv]
  · rw [if_neg h]
    exact key e hv (by omega) (by omega)

/-! ## Clumps -/

theorem addMembers_ok (bodies : List (Option Bd)) (id : Nat) (ms : List Nat) : ∀ {e : Eng}, e.viscEl = false → e.Rstiff.length = e.stiff.length →
    id < e.stiff.length → bodies.length ≤ e.stiff.length → (∀ m ∈ ms, m ≠ id ∧ ∃ b, bodies[m]? = some (some b)) →
    ∃ s r, addMembers bodies id ms e = .ok { e with stiff := s, Rstiff := r } ∧ s.length = e.stiff.length ∧ r.length = e.stiff.length ∧
      (∀ j, s.getD j 0 = e.stiff.getD j 0 + if id = j then (ms.map fun m => e.stiff.getD m 0).sum else 0) ∧
      ∀ j, r.getD j 0 = e.Rstiff.getD j 0 + if id = j then (ms.map fun m => e.Rstiff.getD m 0).sum else 0 := by
  induction ms with
  | nil => intro e hv hl _ _ _; exact ⟨e.stiff, e.Rstiff, rfl, rfl, hl, by simp, by simp⟩
  | cons m t ih =>
    intro e hv hl hid hb h
    obtain ⟨hm, b, hbm⟩ := h m (by simp)
    have hml : m < e.stiff.length := lt_of_lt_of_le (List.getElem?_eq_some_iff.mp hbm).1 hb
    obtain ⟨s1, hs1, hs1l, hs1g⟩ := addAt_ok (l := e.stiff) (e.stiff.getD m 0) hid
    obtain ⟨r1, hr1, hr1l, hr1g⟩ := addAt_ok (l := e.Rstiff) (e.Rstiff.getD m 0) (by rw [hl]; exact hid)
    obtain ⟨s, r, he, hs, hr, gs, gr⟩ := ih (e := { e with stiff := s1, Rstiff := r1 }) hv (by dsimp only; rw [hr1l, hs1l, hl]) (by dsimp only; rw [hs1l]; exact hid)
      (by dsimp only; rw [hs1l]; exact hb) (fun m' hm' => h m' (by simp [hm']))
    have hst : ∀ (l l' : List V3) (x : V3), (∀ j, l'.getD j 0 = l.getD j 0 + if id = j then x else 0) → (t.map fun m => l'.getD m 0) = t.map fun m => l.getD m 0 := by
      intro l l' x hg
      apply List.map_congr_left
      intro m' hm'
      rw [hg, if_neg (fun hc => (h m' (by simp [hm'])).1 hc.symm), add_zero]
    refine ⟨s, r, ?_, by rw [hs]; exact hs1l, by rw [hr]; exact hs1l, ?_, ?_⟩
    · rw [addMembers, hbm]
      dsimp only
      rw [readAt_ok hml, Res.bind_ok, hs1, Res.bind_ok, readAt_ok (by rw [hl]; exact hml), Res.bind_ok, hr1, Res.bind_ok, if_neg (by rw [hv]; decide)]
      exact he
    · intro j
      rw [gs]
      dsimp only
      rw [hst _ _ _ hs1g, hs1g, List.map_cons, List.sum_cons]
      by_cases hj : id = j
      · simp [hj, add_assoc]
      · simp [hj]
    · intro j
      rw [gr]
      dsimp only
      rw [hst _ _ _ hr1g, hr1g, List.map_cons, List.sum_cons]
      by_cases hj : id = j
      · simp [hj, add_assoc]
      · simp [hj]

end Verif.Dt
