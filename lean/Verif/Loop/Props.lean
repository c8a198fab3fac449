import Verif.Loop.Ways
import Mathlib.Data.Rat.Floor
import Mathlib.Algebra.Order.Floor.Ring
import Mathlib.Tactic.FieldSimp
import Mathlib.Tactic.Push
import Mathlib.Tactic.Ring
/-!
# Properties of the interaction loop: C35, C100–C103
-/
namespace Verif.Loop
open Verif

variable {G Ph : Type}

/-! ## C35 -/

/-- the call is an application of the law -/
def Ev.isLaw : Ev G Ph → Bool
  | .law .. => true
  | _ => false

/-- the number of the callback called -/
def Ev.cbIx : Ev G Ph → Option Nat
  | .callback k _ => some k
  | _ => none

/-- the contact's turn came and its geometry was computed -/
def Touches (E : Env G Ph) (I : Intr G Ph) : Prop :=
  ∃ f i j b c s t d, Turn E I f i j b c s t d ∧ (E.geomGo f i j d I.geom).1 = true

/-- the contact's turn came and its geometry vanished -/
def Vanishes (E : Env G Ph) (I : Intr G Ph) : Prop :=
  ∃ f i j b c s t d, Turn E I f i j b c s t d ∧ (E.geomGo f i j d I.geom).1 = false

theorem Turn.unique {E : Env G Ph} {I : Intr G Ph} {f i j s t f' i' j' s' t' : Nat} {b c b' c' : Bdy} {d d' : Fin 3 → Int}
    (h : Turn E I f i j b c s t d) (h' : Turn E I f' i' j' b' c' s' t' d') : f = f' ∧ i = i' ∧ j = j' ∧ d = d' := by
  obtain ⟨-, hb, hc, -, -, -, -, hs, ht, h⟩ := h
  obtain ⟨-, hb', hc', -, -, -, -, hs', ht', h'⟩ := h'
  rcases h with ⟨h1, rfl, rfl, rfl⟩ | ⟨h1, h2, h3, h4, rfl, rfl, rfl⟩
  · rcases h' with ⟨k1, rfl, rfl, rfl⟩ | ⟨k1, k2, k3, k4, rfl, rfl, rfl⟩
    · rw [hb] at hb'; cases hb'
      rw [hc] at hc'; cases hc'
      rw [hs] at hs'; cases hs'
      rw [ht] at ht'; cases ht'
      refine ⟨?_, rfl, rfl, rfl⟩
      rcases h1 with h1 | ⟨h1, h2⟩ <;> rcases k1 with k1 | ⟨k1, k2⟩
      · rw [h1] at k1; cases k1; rfl
      · rw [h1] at k1; cases k1
      · rw [h1] at k1; cases k1
      · rw [h2] at k2; cases k2; rfl
    · rw [hb] at hc'; cases hc'
      rw [hc] at hb'; cases hb'
      rw [hs] at ht'; cases ht'
      rw [ht] at hs'; cases hs'
      rcases h1 with h1 | ⟨h1, h2⟩
      · rw [h1] at k1; cases k1
      · rw [h2] at k2; cases k2
  · rcases h' with ⟨k1, rfl, rfl, rfl⟩ | ⟨k1, k2, k3, k4, rfl, rfl, rfl⟩
    · rw [hb] at hc'; cases hc'
      rw [hc] at hb'; cases hb'
      rw [hs] at ht'; cases ht'
      rw [ht] at hs'; cases hs'
      rcases k1 with k1 | ⟨k1, h2'⟩
      · rw [h1] at k1; cases k1
      · rw [h2] at h2'; cases h2'
    · rw [hb] at hb'; cases hb'
      rw [hc] at hc'; cases hc'
      rw [hs] at hs'; cases hs'
      rw [ht] at ht'; cases ht'
      rw [h2] at k2; cases k2
      exact ⟨rfl, rfl, rfl, rfl⟩

theorem Turn.bodies {E : Env G Ph} {I : Intr G Ph} {f i j s t : Nat} {b c : Bdy} {d : Fin 3 → Int} (h : Turn E I f i j b c s t d) :
    ∃ b1 b2 s1 s2, E.body I.id1 = some b1 ∧ E.body I.id2 = some b2 ∧ (b1.sub = E.sub ∨ b2.sub = E.sub) ∧ b1.clump = false ∧ b2.clump = false ∧
      b1.shape = some s1 ∧ b2.shape = some s2 ∧ ¬ (I.cg = none ∧ E.geomDisp s1 s2 = none) := by
  obtain ⟨-, hb, hc, hs, h1, h2, h3, h4, h5, h⟩ := h
  rcases h with ⟨k, rfl, rfl, rfl⟩ | ⟨k1, k2, -, -, rfl, rfl, rfl⟩
  · refine ⟨b, c, s, t, hb, hc, hs, h1, h2, h4, h5, fun e => ?_⟩
    rcases k with k | ⟨-, k⟩
    · rw [k] at e; cases e.1
    · rw [k] at e; cases e.2
  · refine ⟨c, b, t, s, hc, hb, hs.symm, h2, h1, h5, h4, fun e => ?_⟩
    rw [k2] at e; cases e.2

theorem Turn.not_gone {E : Env G Ph} {I : Intr G Ph} {f i j s t : Nat} {b c : Bdy} {d : Fin 3 → Int} (h : Turn E I f i j b c s t d) : ¬ Gone E I := by
  obtain ⟨b1, b2, s1, s2, e1, e2, -⟩ := h.bodies
  rintro (e | e)
  · rw [e1] at e; cases e
  · rw [e2] at e; cases e

theorem Turn.not_elsewhere {E : Env G Ph} {I : Intr G Ph} {f i j s t : Nat} {b c : Bdy} {d : Fin 3 → Int} (h : Turn E I f i j b c s t d) :
    ¬ Elsewhere E I := by
  obtain ⟨b1, b2, s1, s2, e1, e2, hs, -⟩ := h.bodies
  rintro ⟨b1', b2', e1', e2', h1, h2⟩
  rw [e1] at e1'; cases e1'
  rw [e2] at e2'; cases e2'
  tauto

theorem Turn.not_passed {E : Env G Ph} {I : Intr G Ph} {f i j s t : Nat} {b c : Bdy} {d : Fin 3 → Int} (h : Turn E I f i j b c s t d) :
    ¬ Passed E I := by
  have hx := h.2.2.2.2.2.2.1
  obtain ⟨b1, b2, s1, s2, e1, e2, hs, c1, c2, t1, t2, hn⟩ := h.bodies
  rintro ⟨b1', b2', e1', e2', -, hp⟩
  rw [e1] at e1'; cases e1'
  rw [e2] at e2'; cases e2'
  rcases hp with hp | hp | hp | hp | hp | ⟨s, t, hs, ht, hp⟩
  · rw [hp] at c1; cases c1
  · rw [hp] at c2; cases c2
  · rw [hp] at hx; cases hx
  · rw [hp] at t1; cases t1
  · rw [hp] at t2; cases t2
  · rw [hs] at t1; cases t1
    rw [ht] at t2; cases t2
    exact hn hp

theorem callAll_law (I : Intr G Ph) (l : List Bool) (k : Nat) : (callAll I l k).filter Ev.isLaw = [] := by
  induction l generalizing k with
  | nil => rfl
  | cons b l ih => cases b <;> simp [callAll, ih, Ev.isLaw]

theorem callAll_mem {I : Intr G Ph} {l : List Bool} {k : Nat} {e : Ev G Ph} (h : e ∈ callAll I l k) : ∃ n, e = .callback n I := by
  induction l generalizing k with
  | nil => cases h
  | cons b l ih =>
    cases b
    · exact ih (by simpa [callAll] using h)
    · simp only [callAll, if_pos, List.mem_cons] at h
      rcases h with h | h
      · exact ⟨k, h⟩
      · exact ih h

theorem callAll_ix (I : Intr G Ph) (l : List Bool) (k : Nat) :
    (callAll I l k).filterMap Ev.cbIx = ((List.range l.length).filter fun n => l.getD n false).map (· + k) := by
  induction l generalizing k with
  | nil => rfl
  | cons b l ih =>
    rw [List.length_cons, List.range_succ_eq_map, List.filter_cons]
    have h : ((List.map Nat.succ (List.range l.length)).filter fun n => (b :: l).getD n false).map (· + k) =
        ((List.range l.length).filter fun n => l.getD n false).map (· + (k + 1)) := by
      rw [List.filter_map, List.map_map]
      have e1 : ((· + k) ∘ Nat.succ) = (· + (k + 1)) := by funext n; simp only [Function.comp]; omega
      rw [e1]
      rfl
    cases b
    · simp only [callAll, List.getD_cons_zero, Bool.false_eq_true, if_false]
      rw [h, ih]
    · simp only [callAll, List.getD_cons_zero, if_pos, List.filterMap_cons, Ev.cbIx, List.map_cons, zero_add]
      rw [h, ih]

/-- `afterLaw` is real exactly when the law kept the contact -/
theorem afterLaw_real (r : LawRes G Ph) (J : Intr G Ph) : (afterLaw r J).isReal = true ↔ r.keep = true ∧ r.erased = false := by
  unfold afterLaw
  cases r.keep <;> cases r.erased <;> simp [Intr.reset, Intr.isReal]

/-- the law is applied exactly when the contact's turn came and its geometry was computed; once -/
theorem C35_law {E : Env G Ph} {I I' : Intr G Ph} {ev : List (Ev G Ph)} (h : process E I = .done I' ev) :
    (Touches E I → ∃ l J g p, ev.filter Ev.isLaw = [.law l J g p]) ∧ (¬ Touches E I → ev.filter Ev.isLaw = []) := by
  have hw := ways h
  clear h
  cases hw with
  | later h => exact ⟨fun ⟨f, i, j, b, c, s, t, d, ht, _⟩ => absurd h ht.1, fun _ => rfl⟩
  | gone h hg => exact ⟨fun ⟨f, i, j, b, c, s, t, d, ht, _⟩ => absurd hg ht.not_gone, fun _ => rfl⟩
  | elsewhere h hg => exact ⟨fun ⟨f, i, j, b, c, s, t, d, ht, _⟩ => absurd hg ht.not_elsewhere, fun _ => rfl⟩
  | passed h hg => exact ⟨fun ⟨f, i, j, b, c, s, t, d, ht, _⟩ => absurd hg ht.not_passed, fun _ => rfl⟩
  | apart f i j b c s t d d' ht hg J hJ hd =>
    refine ⟨fun ⟨f', i', j', b', c', s', t', d', ht', hg'⟩ => ?_, fun _ => rfl⟩
    obtain ⟨rfl, rfl, rfl, rfl⟩ := ht.unique ht'
    rw [hg] at hg'; cases hg'
  | law f i j b c s t d d' ht hg g p l q hgg hp hq hl J hJ hd =>
    refine ⟨fun _ => ⟨l, J, g, p, ?_⟩, fun hn => absurd ⟨f, i, j, b, c, s, t, d, ht, hg⟩ hn⟩
    rw [List.filter_append]
    have : (if (afterLaw (E.lawGo l J g p) J).isReal = true then callAll (afterLaw (E.lawGo l J g p) J) E.callbacks 0 else []).filter Ev.isLaw = [] := by
      split
      · exact callAll_law _ _ _
      · rfl
    rw [this]
    rfl

/-- what the law is given: the bodies in the order of the geometry functor, the geometry just computed, the physics made or updated from
the physics the contact had, the functors of the cache or found by lookup; a contact that was not real is stamped with this step -/
theorem C35_law_gets {E : Env G Ph} {I I' : Intr G Ph} {ev : List (Ev G Ph)} (h : process E I = .done I' ev) {l : Nat} {J : Intr G Ph}
    {g : G} {p : Ph} (hm : Ev.law l J g p ∈ ev) : ∃ f i j b c s t d q, Turn E I f i j b c s t d ∧ E.geomGo f i j d I.geom = (true, some g) ∧
      E.physGo q i j g I.phys = some p ∧ (I.cp = some q ∨ (I.cp = none ∧ E.physDisp b.mat c.mat = some q)) ∧
      (I.cl = some l ∨ (I.cl = none ∧ E.lawDisp g p = some l)) ∧ J.id1 = i ∧ J.id2 = j ∧ J.geom = some g ∧ J.phys = some p ∧
      J.madeReal = if I.isReal then I.madeReal else E.iter := by
  have hw := ways h
  clear h
  cases hw with
  | later h => simp at hm
  | gone h hg => simp at hm
  | elsewhere h hg => simp at hm
  | passed h hg => simp at hm
  | apart f i j b c s t d d' ht hg J hJ hd => simp at hm
  | law f i j b c s t d d' ht hg g' p' l' q hgg hp hq hl J' hJ hd =>
    have : Ev.law l J g p = .law l' J' g' p' := by
      rw [List.mem_append] at hm
      rcases hm with hm | hm
      · simpa using hm
      · split at hm
        · obtain ⟨n, hn⟩ := callAll_mem hm; cases hn
        · cases hm
    cases this
    refine ⟨f, i, j, b, c, s, t, d, q, ht, Prod.ext hg hgg, hp, hq, hl, ?_⟩
    rw [hJ]
    exact ⟨rfl, rfl, rfl, rfl, rfl⟩

/-- "real" in the statements below means: there is geometry and there is physics -/
theorem C35_real_means (I : Intr G Ph) : I.isReal = true ↔ (∃ g, I.geom = some g) ∧ ∃ p, I.phys = some p := by
  unfold Intr.isReal
  rw [Bool.and_eq_true, Option.isSome_iff_exists, Option.isSome_iff_exists]

/-- a contact is real after the pass exactly if the law was applied and kept it, or it was real and passed over -/
theorem C35_real_after {E : Env G Ph} (hF : FnOk E) {I I' : Intr G Ph} {ev : List (Ev G Ph)} (h : process E I = .done I' ev) :
    I'.isReal = true ↔ (∃ l J g p, Ev.law l J g p ∈ ev ∧ (E.lawGo l J g p).keep = true ∧ (E.lawGo l J g p).erased = false) ∨
      (I.isReal = true ∧ Passed E I) := by
  have hw := ways h
  clear h
  cases hw with
  | later h =>
    refine ⟨fun hr => (by rw [h.2.2.1] at hr; cases hr), ?_⟩
    rintro (⟨l, J, g, p, hm, -⟩ | ⟨hr, -⟩)
    · simp at hm
    · exact hr
  | gone hn hg =>
    refine ⟨fun hr => (by cases hr), ?_⟩
    rintro (⟨l, J, g, p, hm, -⟩ | ⟨-, b1, b2, e1, e2, -⟩)
    · simp at hm
    · rcases hg with e | e
      · rw [e1] at e; cases e
      · rw [e2] at e; cases e
  | elsewhere hn hg =>
    refine ⟨fun hr => (by cases hr), ?_⟩
    rintro (⟨l, J, g, p, hm, -⟩ | ⟨-, b1, b2, e1, e2, hs, -⟩)
    · simp at hm
    · obtain ⟨b1', b2', e1', e2', h1, h2⟩ := hg
      rw [e1] at e1'; cases e1'
      rw [e2] at e2'; cases e2'
      rcases hs with hs | hs
      · exact absurd hs h1
      · exact absurd hs h2
  | passed hn hp b hb =>
    refine ⟨fun hr => Or.inr ⟨hr, hp⟩, ?_⟩
    rintro (⟨l, J, g, p, hm, -⟩ | ⟨hr, -⟩)
    · simp at hm
    · exact hr
  | apart f i j b c s t d d' ht hg J hJ hd =>
    refine ⟨fun hr => ?_, ?_⟩
    · exfalso
      cases e : I.isReal with
      | true => rw [e, if_pos rfl] at hr; cases hr
      | false =>
        rw [e, if_neg (by simp), hJ, hF.left _ _ _ _ _ hg] at hr
        exact absurd (e.symm.trans hr) (by simp)
    · rintro (⟨l, J, g, p, hm, -⟩ | ⟨-, hp⟩)
      · simp at hm
      · exact absurd hp ht.not_passed
  | law f i j b c s t d d' ht hg g p l q hgg hp hq hl J hJ hd =>
    refine (afterLaw_real _ _).trans ?_
    constructor
    · intro hk
      exact Or.inl ⟨l, J, g, p, by simp, hk⟩
    · rintro (⟨l', J', g', p', hm, hk⟩ | ⟨-, hp⟩)
      · have : Ev.law l' J' g' p' = .law l J g p := by
          rw [List.mem_append] at hm
          rcases hm with hm | hm
          · simpa using hm
          · split at hm
            · obtain ⟨n, hn⟩ := callAll_mem hm; cases hn
            · cases hm
        cases this
        exact hk
      · exact absurd hp ht.not_passed

/-- what a dropped contact keeps: ids up to order, the shift and when it was seen; all else is as new -/
def Blank (I I' : Intr G Ph) : Prop :=
  I'.geom = none ∧ I'.phys = none ∧ I'.cg = none ∧ I'.cp = none ∧ I'.cl = none ∧ I'.madeReal = -1 ∧ I'.geomExists = true ∧ I'.lastSeen = I.lastSeen ∧
    ((I'.id1 = I.id1 ∧ I'.id2 = I.id2 ∧ I'.dist = I.dist) ∨ (I'.id1 = I.id2 ∧ I'.id2 = I.id1 ∧ I'.dist = fun a => -I.dist a))

theorem Turn.order {E : Env G Ph} {I : Intr G Ph} {f i j s t : Nat} {b c : Bdy} {d d' : Fin 3 → Int} (h : Turn E I f i j b c s t d)
    (hd : i = I.id1 ∧ d' = I.dist ∨ i = I.id2 ∧ d' = fun a => -I.dist a) (hne : I.id1 ≠ I.id2) :
    (i = I.id1 ∧ j = I.id2 ∧ d' = I.dist) ∨ (i = I.id2 ∧ j = I.id1 ∧ d' = fun a => -I.dist a) := by
  obtain ⟨-, -, -, -, -, -, -, -, -, h⟩ := h
  rcases h with ⟨-, h1, h2, -⟩ | ⟨-, -, -, -, h1, h2, -⟩
  · rcases hd with ⟨k1, k2⟩ | ⟨k1, k2⟩
    · exact Or.inl ⟨h1, h2, k2⟩
    · exact absurd (h1.symm.trans k1) hne
  · rcases hd with ⟨k1, k2⟩ | ⟨k1, k2⟩
    · exact absurd (k1.symm.trans h1) hne
    · exact Or.inr ⟨h1, h2, k2⟩

/-- a contact is dropped, with everything but its pair forgotten, when a body is gone, both bodies are in other subdomains, the geometry
of a real contact vanished, or the law ended it -/
theorem C35_dropped {E : Env G Ph} {I I' : Intr G Ph} {ev : List (Ev G Ph)} (hne : I.id1 ≠ I.id2) (h : process E I = .done I' ev)
    (hn : ¬ NotSeen E I) (hd : Gone E I ∨ Elsewhere E I ∨ (I.isReal = true ∧ Vanishes E I) ∨
      ∃ l J g p, Ev.law l J g p ∈ ev ∧ ((E.lawGo l J g p).keep = false ∨ (E.lawGo l J g p).erased = true)) : Blank I I' := by
  have hw := ways h
  clear h
  cases hw with
  | later h => exact absurd h hn
  | gone _ _ => exact ⟨rfl, rfl, rfl, rfl, rfl, rfl, rfl, rfl, Or.inl ⟨rfl, rfl, rfl⟩⟩
  | elsewhere _ _ => exact ⟨rfl, rfl, rfl, rfl, rfl, rfl, rfl, rfl, Or.inl ⟨rfl, rfl, rfl⟩⟩
  | passed _ hp b hb =>
    exfalso
    rcases hd with hg | hg | ⟨-, hg⟩ | ⟨l, J, g, p, hm, -⟩
    · obtain ⟨b1, b2, e1, e2, -⟩ := hp
      rcases hg with e | e
      · rw [e1] at e; cases e
      · rw [e2] at e; cases e
    · obtain ⟨b1, b2, e1, e2, hs, -⟩ := hp
      obtain ⟨b1', b2', e1', e2', h1, h2⟩ := hg
      rw [e1] at e1'; cases e1'
      rw [e2] at e2'; cases e2'
      rcases hs with hs | hs
      · exact absurd hs h1
      · exact absurd hs h2
    · obtain ⟨f, i, j, b, c, s, t, d, ht, -⟩ := hg
      exact ht.not_passed hp
    · simp at hm
  | apart f i j b c s t d d' ht hg J hJ hd' =>
    have hr : I.isReal = true := by
      rcases hd with hg | hg | ⟨hr, -⟩ | ⟨l, J, g, p, hm, -⟩
      · exact absurd hg ht.not_gone
      · exact absurd hg ht.not_elsewhere
      · exact hr
      · simp at hm
    rw [hr, if_pos rfl, hJ]
    exact ⟨rfl, rfl, rfl, rfl, rfl, rfl, rfl, rfl, ht.order hd' hne⟩
  | law f i j b c s t d d' ht hg g p l q hgg hp hq hl J hJ hd' =>
    have hk : (E.lawGo l J g p).keep = false ∨ (E.lawGo l J g p).erased = true := by
      rcases hd with hg' | hg' | ⟨-, hv⟩ | ⟨l', J', g', p', hm, hk⟩
      · exact absurd hg' ht.not_gone
      · exact absurd hg' ht.not_elsewhere
      · obtain ⟨f', i', j', b', c', s', t', d', ht', hg'⟩ := hv
        obtain ⟨rfl, rfl, rfl, rfl⟩ := ht.unique ht'
        rw [hg] at hg'; cases hg'
      · have : Ev.law l' J' g' p' = .law l J g p := by
          rw [List.mem_append] at hm
          rcases hm with hm | hm
          · simpa using hm
          · split at hm
            · obtain ⟨n, hn⟩ := callAll_mem hm; cases hn
            · cases hm
        cases this
        exact hk
    have ho := ht.order hd' hne
    unfold afterLaw
    rcases hk with hk | hk
    · rw [hk, hJ]
      cases (E.lawGo l _ g p).erased
      · exact ⟨rfl, rfl, rfl, rfl, rfl, rfl, rfl, rfl, ho⟩
      · exact ⟨rfl, rfl, rfl, rfl, rfl, rfl, rfl, rfl, ho⟩
    · rw [hk, hJ]
      cases (E.lawGo l _ g p).keep
      · exact ⟨rfl, rfl, rfl, rfl, rfl, rfl, rfl, rfl, ho⟩
      · exact ⟨rfl, rfl, rfl, rfl, rfl, rfl, rfl, rfl, ho⟩

/-- the step of creation is recorded exactly at the transition: a contact that becomes real is stamped with this step and its law was
applied; one that stays real keeps its stamp -/
theorem C35_stamp {E : Env G Ph} (hF : FnOk E) {I I' : Intr G Ph} {ev : List (Ev G Ph)} (h : process E I = .done I' ev) (hr : I'.isReal = true) :
    (I.isReal = false → I'.madeReal = E.iter ∧ Touches E I) ∧ (I.isReal = true → I'.madeReal = I.madeReal) := by
  have hw := ways h
  clear h
  cases hw with
  | later h => rw [h.2.2.1] at hr; cases hr
  | gone _ _ => cases hr
  | elsewhere _ _ => cases hr
  | passed _ hp b hb => exact ⟨fun e => absurd (e.symm.trans hr) (by simp), fun _ => rfl⟩
  | apart f i j b c s t d d' ht hg J hJ hd' =>
    exfalso
    cases e : I.isReal with
    | true => rw [e, if_pos rfl] at hr; cases hr
    | false =>
      rw [e, if_neg (by simp), hJ, hF.left _ _ _ _ _ hg] at hr
      exact absurd (e.symm.trans hr) (by simp)
  | law f i j b c s t d d' ht hg g p l q hgg hp hq hl J hJ hd' =>
    have hk := (afterLaw_real _ _).mp hr
    have hm : (afterLaw (E.lawGo l J g p) J).madeReal = J.madeReal := by
      unfold afterLaw
      rw [hk.1, hk.2]
      rfl
    rw [hm, hJ]
    refine ⟨fun e => ⟨?_, f, i, j, b, c, s, t, d, ht, hg⟩, fun e => ?_⟩
    · rw [e]; rfl
    · rw [e]; rfl

/-- callbacks: after the law, only for contacts that are real then, each active one once, in order, with the contact as the law left it -/
theorem C35_callbacks {E : Env G Ph} {I I' : Intr G Ph} {ev : List (Ev G Ph)} (h : process E I = .done I' ev) :
    ∃ pre cbs, ev = pre ++ cbs ∧ pre.filterMap Ev.cbIx = [] ∧ (∀ e ∈ cbs, ∃ n, e = .callback n I') ∧
      (Touches E I → I'.isReal = true → cbs.filterMap Ev.cbIx = (List.range E.callbacks.length).filter fun n => E.callbacks.getD n false) ∧
      (¬ Touches E I ∨ I'.isReal = false → cbs = []) := by
  have hw := ways h
  clear h
  have none_ : ∀ pre : List (Ev G Ph), pre.filterMap Ev.cbIx = [] → ¬ Touches E I → ∃ pre' cbs, pre = pre' ++ cbs ∧ pre'.filterMap Ev.cbIx = [] ∧
      (∀ e ∈ cbs, ∃ n, e = .callback n I') ∧
      (Touches E I → I'.isReal = true → cbs.filterMap Ev.cbIx = (List.range E.callbacks.length).filter fun n => E.callbacks.getD n false) ∧
      (¬ Touches E I ∨ I'.isReal = false → cbs = []) := fun pre hp ht =>
    ⟨pre, [], (List.append_nil _).symm, hp, fun e he => (by cases he), fun k => absurd k ht, fun _ => rfl⟩
  cases hw with
  | later h => exact none_ _ rfl fun ⟨f, i, j, b, c, s, t, d, ht, _⟩ => ht.1 h
  | gone h hg => exact none_ _ rfl fun ⟨f, i, j, b, c, s, t, d, ht, _⟩ => ht.not_gone hg
  | elsewhere h hg => exact none_ _ rfl fun ⟨f, i, j, b, c, s, t, d, ht, _⟩ => ht.not_elsewhere hg
  | passed h hg => exact none_ _ rfl fun ⟨f, i, j, b, c, s, t, d, ht, _⟩ => ht.not_passed hg
  | apart f i j b c s t d d' ht hg J hJ hd =>
    refine none_ _ rfl fun ⟨f', i', j', b', c', s', t', d', ht', hg'⟩ => ?_
    obtain ⟨rfl, rfl, rfl, rfl⟩ := ht.unique ht'
    rw [hg] at hg'; cases hg'
  | law f i j b c s t d d' ht hg g p l q hgg hp hq hl J hJ hd =>
    refine ⟨_, _, rfl, rfl, ?_, ?_, ?_⟩
    · intro e he
      split at he
      · exact callAll_mem he
      · cases he
    · intro _ hr
      rw [if_pos hr, callAll_ix]
      simp
    · rintro (hn | hr)
      · exact absurd ⟨f, i, j, b, c, s, t, d, ht, hg⟩ hn
      · rw [if_neg (by rw [hr]; simp)]

/-- the loop does this to every interaction, independently of the others -/
theorem C35_each {E : Env G Ph} {Is Is' : List (Intr G Ph)} {ev : List (Ev G Ph)} (h : runLoop E Is = some (Is', ev)) :
    ∃ evs : List (List (Ev G Ph)), ev = evs.flatten ∧ Is'.length = Is.length ∧ evs.length = Is.length ∧
      ∀ (k : Nat) (I : Intr G Ph), Is[k]? = some I → ∃ I' e, Is'[k]? = some I' ∧ evs[k]? = some e ∧ process E I = .done I' e := by
  induction Is generalizing Is' ev with
  | nil =>
    cases h
    exact ⟨[], rfl, rfl, rfl, fun k I hk => by simp at hk⟩
  | cons I Is ih =>
    unfold runLoop at h
    split at h
    · rename_i I' e hp
      cases hr : runLoop E Is with
      | none => rw [hr] at h; cases h
      | some r =>
        rw [hr] at h
        cases h
        obtain ⟨evs, h1, h2, h3, h4⟩ := ih hr
        refine ⟨e :: evs, by rw [List.flatten_cons, ← h1], by simp [h2], by simp [h3], fun k K hk => ?_⟩
        cases k with
        | zero =>
          have hk : some I = some K := by simpa using hk
          cases hk
          exact ⟨I', e, rfl, rfl, hp⟩
        | succ k => exact h4 k K (by simpa using hk)
    · cases h

/-! ### A concrete pass -/

/-- bodies 0 and 1 of shapes 0 and 1; functor 7 takes shapes (0, 1); the geometry is the shift along x; the physics counts its updates -/
def exE (iter lastRun : Int) (touch keep : Bool) : Env Int Nat where
  iter := iter
  lastRun := lastRun
  periodic := true
  sub := 0
  body := fun i => if i < 2 then some ⟨0, false, some i, 4⟩ else none
  geomDisp := fun s t => if s = 0 ∧ t = 1 then some (7, false) else if s = 1 ∧ t = 0 then some (7, true) else none
  physDisp := fun _ _ => some 3
  lawDisp := fun _ _ => some 5
  geomGo := fun _ _ _ d g => if touch then (true, some (d 0)) else (false, g)
  physGo := fun _ _ _ _ p => some (match p with | some n => n + 1 | none => 0)
  lawGo := fun _ _ g p => ⟨keep, false, g, p⟩
  callbacks := [true, false, true]

theorem exE_ok (iter lastRun : Int) (touch keep : Bool) : FnOk (exE iter lastRun touch keep) := by
  constructor
  · intro f i j d g h
    cases touch <;> simp_all [exE]
  · intro f i j d g h
    cases touch <;> simp_all [exE]
  · intro p i j g q
    rfl

/-- what can be compared of an interaction -/
def Intr.look (I : Intr Int Nat) : Nat × Nat × Option Int × Option Nat × Option Nat × Int × Int :=
  (I.id1, I.id2, I.geom, I.phys, I.cg, I.madeReal, I.dist 0)

/-- what can be compared of a call -/
def Ev.look : Ev Int Nat → Nat × Nat × Nat × Nat
  | .later i j => (0, i, j, 0)
  | .geom f i j _ _ _ => (1, f, i, j)
  | .law f I _ _ => (2, f, I.id1, I.id2)
  | .callback k I => (3, k, I.id1, I.id2)

/-- the outcome, compared -/
def Out.look : Out Int Nat → Option ((Nat × Nat × Option Int × Option Nat × Option Nat × Int × Int) × List (Nat × Nat × Nat × Nat))
  | .done I ev => some (I.look, ev.map Ev.look)
  | _ => none

-- the pair was stored as (1, 0): it is exchanged, the law is applied, callbacks 0 and 2 are called
example : (process (exE 9 (-1) true true) { Intr.new 1 0 with dist := fun _ => 2 }).look =
    some ((0, 1, some (-2), some 0, some 7, 9, -2), [(1, 7, 0, 1), (2, 5, 0, 1), (3, 0, 0, 1), (3, 2, 0, 1)]) := rfl
-- the law ends it: no callback, as new
example : (process (exE 9 (-1) true false) { Intr.new 1 0 with dist := fun _ => 2 }).look =
    some ((0, 1, none, none, none, -1, -2), [(1, 7, 0, 1), (2, 5, 0, 1)]) := rfl
-- a real contact whose geometry vanishes
example : (process (exE 9 (-1) false true) { (Intr.new 0 1 : Intr Int Nat) with geom := some 1, phys := some 6, cg := some 7, madeReal := 4 }).look =
    some ((0, 1, none, none, none, -1, 0), [(1, 7, 0, 1)]) := rfl
-- a real contact with a body that is gone
example : (process (exE 9 (-1) true true) { (Intr.new 0 2 : Intr Int Nat) with geom := some 1, phys := some 6, cg := some 7, madeReal := 4 }).look =
    some ((0, 2, none, none, none, -1, 0), []) := rfl

/-! ## C100 -/

/-- an interaction the collider did not see is not touched in that step: no geometry, no law, no callback -/
theorem C100_untouched_partial {E : Env G Ph} {I : Intr G Ph} (h : NotSeen E I) : process E I = .done I [.later I.id1 I.id2] := by
  unfold process
  rw [if_pos ((unseen_iff E I).mpr h)]

/-- the documentation says that the loop removes such interactions; it never removes any: after every run the container has as many
interactions as before, and those not seen are unchanged -/
theorem C100_violated_kept {E : Env G Ph} {Is Is' : List (Intr G Ph)} {ev : List (Ev G Ph)} (h : runLoop E Is = some (Is', ev)) :
    Is'.length = Is.length ∧ ∀ (k : Nat) (I : Intr G Ph), Is[k]? = some I → NotSeen E I → Is'[k]? = some I := by
  obtain ⟨evs, -, h2, -, h4⟩ := C35_each h
  refine ⟨h2, fun k I hk hn => ?_⟩
  obtain ⟨I', e, h5, -, h6⟩ := h4 k I hk
  rw [C100_untouched_partial hn] at h6
  cases h6
  exact h5

-- such interactions exist: the collider ran in step 9 and saw this one last in step 8
example : NotSeen (exE 9 9 true true) { (Intr.new 0 1 : Intr Int Nat) with lastSeen := 8 } := ⟨by decide, rfl, rfl, by decide⟩

/-! ## C101 -/

/-- histories of an interaction found by the collider: `n` is the number of the next step.  `rt` tells whether the step count may be
reset (`O.resetTime()`). -/
inductive Hist (rt : Prop) : Int → Intr G Ph → Prop
  | new (n : Int) (hn : 0 ≤ n) (i j : Nat) : Hist rt n (Intr.new i j)
  /-- the collider sees it -/
  | seen {n : Int} {I : Intr G Ph} (h : Hist rt n I) (k : Int) : Hist rt n { I with lastSeen := k }
  /-- the collider assigns the shift of a potential interaction -/
  | shift {n : Int} {I : Intr G Ph} (h : Hist rt n I) (hr : I.isReal = false) (d : Fin 3 → Int) : Hist rt n { I with dist := d }
  /-- `requestErase` from an engine or a script -/
  | erase {n : Int} {I : Intr G Ph} (h : Hist rt n I) : Hist rt n I.reset
  /-- saving and loading loses the cached functors -/
  | reload {n : Int} {I : Intr G Ph} (h : Hist rt n I) :
      Hist rt n { I with cg := none, cp := none, cl := none, geomExists := true, lastSeen := -1 }
  /-- a step with a pass of the loop -/
  | loop {n : Int} {I I' : Intr G Ph} {ev : List (Ev G Ph)} (h : Hist rt n I) (E : Env G Ph) (hF : FnOk E) (hi : E.iter = n)
      (hp : process E I = .done I' ev) : Hist rt (n + 1) I'
  /-- a step without -/
  | skip {n : Int} {I : Intr G Ph} (h : Hist rt n I) : Hist rt (n + 1) I
  | resetTime {n : Int} {I : Intr G Ph} (hr : rt) (h : Hist rt n I) : Hist rt 0 I

/-- real contacts carry the number of an earlier step -/
theorem Hist.stamp {n : Int} {I : Intr G Ph} (h : Hist False n I) : 0 ≤ n ∧ (I.isReal = true → 0 ≤ I.madeReal ∧ I.madeReal < n) := by
  induction h with
  | new n hn => exact ⟨hn, fun hr => by cases hr⟩
  | seen h k ih => exact ih
  | shift h hr d ih => exact ih
  | erase h ih => exact ⟨ih.1, fun hr => by cases hr⟩
  | reload h ih => exact ih
  | @loop n I I' ev h E hF hi hp ih =>
    refine ⟨by omega, fun hr => ?_⟩
    obtain ⟨h1, h2⟩ := C35_stamp hF hp hr
    cases e : I.isReal with
    | true => rw [h2 e]; have := ih.2 e; omega
    | false => rw [(h1 e).1, hi]; omega
  | skip h ih => exact ⟨by omega, fun hr => by have := ih.2 hr; omega⟩
  | resetTime hr => exact hr.elim

/-- while the step count is not reset, the law finds a contact fresh (stamped with the current step) exactly when it was not real before
this pass -/
theorem C101_fresh_partial {n : Int} {I : Intr G Ph} (h : Hist False n I) {E : Env G Ph} (hi : E.iter = n) {I' : Intr G Ph} {ev : List (Ev G Ph)}
    (hp : process E I = .done I' ev) {l : Nat} {J : Intr G Ph} {g : G} {p : Ph} (hm : Ev.law l J g p ∈ ev) :
    J.madeReal = E.iter ↔ I.isReal = false := by
  obtain ⟨f, i, j, b, c, s, t, d, q, -, -, -, -, -, -, -, -, -, hJ⟩ := C35_law_gets hp hm
  rw [hJ]
  cases e : I.isReal with
  | false => simp
  | true =>
    have h1 := h.stamp.2 e
    simp only [if_pos, Bool.true_eq_false, iff_false]
    omega

/-- after `O.resetTime()` a contact that has been real all the time is found fresh again -/
theorem C101_violated_reset : ∃ (I : Intr Int Nat) (I' : Intr Int Nat) (ev : List (Ev Int Nat)), Hist True 0 I ∧ I.isReal = true ∧
    process (exE 0 (-1) true true) I = .done I' ev ∧ ∃ l J g p, Ev.law l J g p ∈ ev ∧ J.madeReal = 0 := by
  refine ⟨_, _, _, .resetTime trivial (.loop (.new 0 le_rfl 0 1) (exE 0 (-1) true true) (exE_ok _ _ _ _) rfl rfl), rfl, rfl, ?_⟩
  exact ⟨_, _, _, _, List.mem_cons_of_mem _ (List.mem_cons_self ..), rfl⟩

-- a contact that became real in step 3 and goes through the law in step 4
example : ∃ (I : Intr Int Nat) (I' : Intr Int Nat) (ev : List (Ev Int Nat)), Hist False 4 I ∧ I.isReal = true ∧
    process (exE 4 (-1) true true) I = .done I' ev ∧ ∃ l J g p, Ev.law l J g p ∈ ev ∧ J.madeReal = 3 :=
  ⟨_, _, _, .loop (.new 3 (by decide) 0 1) (exE 3 (-1) true true) (exE_ok _ _ _ _) rfl rfl, rfl, rfl, _, _, _, _,
    List.mem_cons_of_mem _ (List.mem_cons_self ..), rfl⟩

/-! ## C102 -/

/-- the lookup reports the exchange that brings the shapes into the order the functor takes them in (C64) -/
def DispOk (Takes : Nat → Nat → Nat → Prop) (disp : Nat → Nat → Option (Nat × Bool)) : Prop :=
  ∀ s t f, (disp s t = some (f, false) → Takes f s t) ∧ (disp s t = some (f, true) → Takes f t s)

/-- the lookup in the other order reports the other exchange -/
def DispSym (disp : Nat → Nat → Option (Nat × Bool)) : Prop := ∀ s t f, disp s t = some (f, true) → disp t s = some (f, false)

/-- histories with given functors `disp` and shapes `sh` of given classes: bodies may come and go, get and lose shapes and masks, but a body
has no shape of another class as long as the interaction is not reset -/
inductive HistS (disp : Nat → Nat → Option (Nat × Bool)) (sh : Nat → Nat) : Intr G Ph → Prop
  | new (i j : Nat) : HistS disp sh (Intr.new i j)
  | seen {I : Intr G Ph} (h : HistS disp sh I) (k : Int) : HistS disp sh { I with lastSeen := k }
  | shift {I : Intr G Ph} (h : HistS disp sh I) (hr : I.isReal = false) (d : Fin 3 → Int) : HistS disp sh { I with dist := d }
  | erase {I : Intr G Ph} (h : HistS disp sh I) : HistS disp sh I.reset
  | reload {I : Intr G Ph} (h : HistS disp sh I) :
      HistS disp sh { I with cg := none, cp := none, cl := none, geomExists := true, lastSeen := -1 }
  | loop {I I' : Intr G Ph} {ev : List (Ev G Ph)} (h : HistS disp sh I) (E : Env G Ph) (hF : FnOk E) (hD : E.geomDisp = disp)
      (hs : ∀ i b s, E.body i = some b → b.shape = some s → s = sh i) (hp : process E I = .done I' ev) : HistS disp sh I'

/-- the order stored in an interaction that has a cached functor, geometry or physics is the order of the lookup -/
theorem HistS.order {disp : Nat → Nat → Option (Nat × Bool)} {sh : Nat → Nat} (hY : DispSym disp) {I : Intr G Ph} (h : HistS disp sh I) :
    (∀ f, I.cg = some f → disp (sh I.id1) (sh I.id2) = some (f, false)) ∧
    (I.geom.isSome = true ∨ I.phys.isSome = true → ∃ f, disp (sh I.id1) (sh I.id2) = some (f, false)) := by
  induction h with
  | new i j => exact ⟨fun f hf => (by cases hf), fun h => (by rcases h with h | h <;> cases h)⟩
  | seen h k ih => exact ih
  | shift h hr d ih => exact ih
  | erase h ih => exact ⟨fun f hf => (by cases hf), fun h => (by rcases h with h | h <;> cases h)⟩
  | reload h ih => exact ⟨fun f hf => (by cases hf), ih.2⟩
  | @loop I I' ev h E hF hD hs hp ih =>
    have turn : ∀ {f i j s t : Nat} {b c : Bdy} {d : Fin 3 → Int}, Turn E I f i j b c s t d → disp (sh i) (sh j) = some (f, false) := by
      intro f i j s t b c d ht
      obtain ⟨-, hb, hc, -, -, -, -, h4, h5, ht⟩ := ht
      have e1 := hs i b s hb h4
      have e2 := hs j c t hc h5
      subst e1 e2
      rcases ht with ⟨k | ⟨-, k⟩, rfl, rfl, rfl⟩ | ⟨-, k, -, -, rfl, rfl, rfl⟩
      · exact ih.1 f k
      · rw [← hD]; exact k
      · exact hY _ _ _ (by rw [← hD]; exact k)
    have hw := ways hp
    clear hp
    cases hw with
    | later h => exact ih
    | gone _ _ => exact ⟨fun f hf => (by cases hf), fun h => (by rcases h with h | h <;> cases h)⟩
    | elsewhere _ _ => exact ⟨fun f hf => (by cases hf), fun h => (by rcases h with h | h <;> cases h)⟩
    | passed _ _ b hb => exact ih
    | apart f i j b c s t d d' ht hg J hJ hd =>
      have hd := turn ht
      have hJ1 : J.cg = some f := by rw [hJ]
      have hJ2 : J.id1 = i := by rw [hJ]
      have hJ3 : J.id2 = j := by rw [hJ]
      split
      · exact ⟨fun f hf => (by cases hf), fun h => (by rcases h with h | h <;> cases h)⟩
      · rw [hJ1, hJ2, hJ3]
        exact ⟨fun f' hf => by cases hf; exact hd, fun _ => ⟨f, hd⟩⟩
    | law f i j b c s t d d' ht hg g p l q hgg hp hq hl J hJ hd =>
      have hd := turn ht
      have hJ1 : J.cg = some f := by rw [hJ]
      have hJ2 : J.id1 = i := by rw [hJ]
      have hJ3 : J.id2 = j := by rw [hJ]
      unfold afterLaw
      cases (E.lawGo l J g p).keep <;> cases (E.lawGo l J g p).erased
      · exact ⟨fun f hf => (by cases hf), fun h => (by rcases h with h | h <;> cases h)⟩
      · exact ⟨fun f hf => (by cases hf), fun h => (by rcases h with h | h <;> cases h)⟩
      · refine ⟨fun f' hf => ?_, fun _ => ⟨f, ?_⟩⟩
        · have : J.cg = some f' := hf
          rw [hJ1] at this; cases this
          show disp (sh J.id1) (sh J.id2) = _
          rw [hJ2, hJ3]; exact hd
        · show disp (sh J.id1) (sh J.id2) = _
          rw [hJ2, hJ3]; exact hd
      · exact ⟨fun f hf => (by cases hf), fun h => (by rcases h with h | h <;> cases h)⟩

/-- as long as bodies keep the classes of their shapes, every geometry functor is called with shapes in the order it takes them -/
theorem C102_order_partial {Takes : Nat → Nat → Nat → Prop} {disp : Nat → Nat → Option (Nat × Bool)} (hK : DispOk Takes disp) (hY : DispSym disp)
    {sh : Nat → Nat} {I : Intr G Ph} (h : HistS disp sh I) {E : Env G Ph} (hD : E.geomDisp = disp)
    (hs : ∀ i b s, E.body i = some b → b.shape = some s → s = sh i) {I' : Intr G Ph} {ev : List (Ev G Ph)} (hp : process E I = .done I' ev)
    {f i j s t : Nat} {d : Fin 3 → Int} (hm : Ev.geom f i j s t d ∈ ev) : Takes f s t ∧ s = sh i ∧ t = sh j := by
  have turn : ∀ {f i j s t : Nat} {b c : Bdy} {d : Fin 3 → Int}, Turn E I f i j b c s t d → Takes f s t ∧ s = sh i ∧ t = sh j := by
    intro f i j s t b c d ht
    obtain ⟨-, hb, hc, -, -, -, -, h4, h5, ht⟩ := ht
    have e1 := hs i b s hb h4
    have e2 := hs j c t hc h5
    subst e1 e2
    refine ⟨?_, rfl, rfl⟩
    rcases ht with ⟨k | ⟨-, k⟩, rfl, rfl, rfl⟩ | ⟨-, k, -, -, rfl, rfl, rfl⟩
    · exact (hK _ _ f).1 ((h.order hY).1 f k)
    · exact (hK _ _ f).1 (by rw [← hD]; exact k)
    · exact (hK _ _ f).2 (by rw [← hD]; exact k)
  have hw := ways hp
  clear hp
  cases hw with
  | later h => simp at hm
  | gone _ _ => cases hm
  | elsewhere _ _ => cases hm
  | passed _ _ b hb => cases hm
  | apart f' i' j' b c s' t' d d' ht hg J hJ hd =>
    simp only [List.mem_singleton] at hm
    cases hm
    exact turn ht
  | law f' i' j' b c s' t' d d' ht hg g p l q hgg hp hq hl J hJ hd =>
    rw [List.mem_append] at hm
    rcases hm with hm | hm
    · simp only [List.mem_cons, List.not_mem_nil, or_false] at hm
      rcases hm with hm | hm
      · cases hm; exact turn ht
      · cases hm
    · split at hm
      · obtain ⟨n, hn⟩ := callAll_mem hm; cases hn
      · cases hm

theorem applyLaw_no_throw {E : Env G Ph} {I I' : Intr G Ph} {ev ev' : List (Ev G Ph)} : applyLaw E I ev ≠ .throws I' ev' := by
  intro h
  unfold applyLaw at h
  split at h
  · split at h
    · cases h
    · rename_i l hl
      dsimp only at h
      generalize (if (E.lawGo l _ _ _).keep = true then _ else _ : Intr G Ph) = K at h
      split at h <;> cases h
  · cases h

theorem contact_throws {E : Env G Ph} {K I' : Intr G Ph} {f s t m n : Nat} {ev : List (Ev G Ph)} (h : contact E K f s t m n = .throws I' ev) :
    (E.geomGo f K.id1 K.id2 (shiftOf E K.dist) K.geom).1 = true ∧ K.cp = none ∧ E.physDisp m n = none := by
  unfold contact at h
  simp only at h
  rw [show (if E.periodic then K.dist else fun _ => 0) = shiftOf E K.dist from rfl] at h
  split at h
  · cases h
  · rename_i hg
    refine ⟨by simpa using hg, ?_⟩
    cases e : K.cp with
    | none =>
      cases e' : E.physDisp m n with
      | none => exact ⟨rfl, rfl⟩
      | some q =>
        exfalso
        simp only [e, e'] at h
        split at h
        · cases h
        · exact applyLaw_no_throw h
    | some q =>
      exfalso
      simp only [e] at h
      split at h
      · cases h
      · exact applyLaw_no_throw h

/-- and the order of the bodies is never exchanged in an interaction that has geometry or physics, which would be an exception, also not
after loading a saved scene: the only exception is that there is no physics functor for two touching bodies -/
theorem C102_no_exchange {disp : Nat → Nat → Option (Nat × Bool)} (hY : DispSym disp)
    {sh : Nat → Nat} {I : Intr G Ph} (h : HistS disp sh I) {E : Env G Ph} (hD : E.geomDisp = disp)
    (hs : ∀ i b s, E.body i = some b → b.shape = some s → s = sh i) {I' : Intr G Ph} {ev : List (Ev G Ph)} (hp : process E I = .throws I' ev) :
    ∃ f i j b c s t d, Turn E I f i j b c s t d ∧ (E.geomGo f i j d I.geom).1 = true ∧ E.physDisp b.mat c.mat = none ∧ I.cp = none := by
  have ho := h.order hY
  unfold process at hp
  split at hp
  · cases hp
  · rename_i hu
    have hu : ¬ NotSeen E I := fun k => hu ((unseen_iff E I).mpr k)
    split at hp
    · rename_i b1 b2 e1 e2
      split at hp
      · cases hp
      · rename_i hss
        have hss : b1.sub = E.sub ∨ b2.sub = E.sub := by
          by_cases c : b1.sub = E.sub
          · exact Or.inl c
          · exact Or.inr (Classical.byContradiction fun c' => hss ⟨fun e => c e.symm, fun e => c' e.symm⟩)
        split at hp
        · cases hp
        · rename_i hc
          simp only [Bool.or_eq_true, not_or, Bool.not_eq_true] at hc
          split at hp
          · cases hp
          · rename_i hx
            have hx : I.geomExists = true := by simpa using hx
            split at hp
            · rename_i s1 s2 t1 t2
              have q1 := hs _ _ _ e1 t1
              have q2 := hs _ _ _ e2 t2
              split at hp
              · cases hp
              · rename_i f sw hf
                dsimp only at hp
                split at hp
                · rename_i hsw
                  subst hsw
                  have hcg : I.cg = none := by cases e : I.cg with
                    | none => rfl
                    | some f => rw [e] at hf; cases hf
                  rw [hcg] at hf
                  have hf : E.geomDisp s1 s2 = some (f, true) := hf
                  have hgp : ¬ (I.geom.isSome || I.phys.isSome) = true := by
                    intro k
                    obtain ⟨f', hf'⟩ := ho.2 (by simpa using k)
                    rw [← q1, ← q2, ← hD, hf] at hf'
                    cases hf'
                  unfold Intr.swapOrder at hp
                  rw [if_neg (by exact hgp)] at hp
                  simp only at hp
                  simp only [Bool.or_eq_true, not_or, Bool.not_eq_true, Option.isSome_eq_false_iff, Option.isNone_iff_eq_none] at hgp
                  have hmul : (fun a => I.dist a * -1) = fun a => -I.dist a := by funext a; omega
                  rw [hmul] at hp
                  obtain ⟨k1, k2, k3⟩ := contact_throws hp
                  exact ⟨f, I.id2, I.id1, b2, b1, s2, s1, _, ⟨hu, e2, e1, hss.symm, hc.2, hc.1, hx, t2, t1,
                    Or.inr ⟨hcg, hf, hgp.1, hgp.2, rfl, rfl, rfl⟩⟩, k1, k3, k2⟩
                · rename_i hsw
                  have hsw : sw = false := by simpa using hsw
                  subst hsw
                  obtain ⟨k1, k2, k3⟩ := contact_throws hp
                  refine ⟨f, I.id1, I.id2, b1, b2, s1, s2, _, ⟨hu, e1, e2, hss, hc.1, hc.2, hx, t1, t2, Or.inl ⟨?_, rfl, rfl, rfl⟩⟩, k1, k3, k2⟩
                  cases e : I.cg with
                  | none => rw [e] at hf; exact Or.inr ⟨rfl, hf⟩
                  | some f' => rw [e] at hf; cases hf; exact Or.inl rfl
            · cases hp
    · cases hp

/-- the functor of `exE` takes shapes of classes 0 and 1 -/
def exTakes (f s t : Nat) : Prop := f = 7 ∧ s = 0 ∧ t = 1

theorem ex_disp (n m : Int) (a b : Bool) : DispOk exTakes (exE n m a b).geomDisp ∧ DispSym (exE n m a b).geomDisp := by
  constructor
  · intro s t f
    constructor
    · intro h
      simp only [exE] at h
      split_ifs at h with h1 h2
      · cases h; exact ⟨rfl, h1.1, h1.2⟩
      · cases h
    · intro h
      simp only [exE] at h
      split_ifs at h with h1 h2
      · cases h
      · cases h; exact ⟨rfl, h2.2, h2.1⟩
  · intro s t f h
    simp only [exE] at h ⊢
    split_ifs at h with h1 h2
    · cases h
    · cases h
      rw [if_pos ⟨h2.2, h2.1⟩]

theorem ex_sh (n m : Int) (a b : Bool) : ∀ i (c : Bdy) s, (exE n m a b).body i = some c → c.shape = some s → s = id i := by
  intro i c s h hs
  simp only [exE] at h
  split_ifs at h
  cases h
  cases hs
  rfl

-- stored as (1, 0), made real, saved and loaded, and used again: the hypotheses hold and the functor is called
example : ∃ (I I' : Intr Int Nat) (ev : List (Ev Int Nat)), HistS (exE 0 (-1) true true).geomDisp id I ∧ I.isReal = true ∧ I.cg = none ∧
    process (exE 4 (-1) true true) I = .done I' ev ∧ ∃ d, Ev.geom 7 0 1 0 1 d ∈ ev :=
  ⟨_, _, _, .reload (.loop (.new 1 0) (exE 3 (-1) true true) (exE_ok _ _ _ _) rfl (ex_sh _ _ _ _) rfl), rfl, rfl, rfl, _, List.mem_cons_self ..⟩

/-- the scene of `exE` after the shape of body 0 was replaced by one of class 2 -/
def exReplaced : Env Int Nat := { exE 4 (-1) true true with body := fun i => if i < 2 then some ⟨0, false, some (if i = 0 then 2 else 1), 4⟩ else none }

/-- replacing the shape of a body by one of another class while an interaction of the body has its functor cached makes the loop call the
functor with a shape it does not take, although the lookup has no functor for the new shapes -/
theorem C102_violated_replaced : ∃ (I I' : Intr Int Nat) (ev : List (Ev Int Nat)), HistS (exE 0 (-1) true true).geomDisp id I ∧
    process exReplaced I = .done I' ev ∧ exReplaced.geomDisp 2 1 = none ∧ ∃ d, Ev.geom 7 0 1 2 1 d ∈ ev ∧ ¬ exTakes 7 2 1 :=
  ⟨_, _, _, .loop (.new 0 1) (exE 3 (-1) true true) (exE_ok _ _ _ _) rfl (ex_sh _ _ _ _) rfl, rfl, rfl, _, List.mem_cons_self ..,
    fun h => absurd h.2.1 (by decide)⟩

/-! ## C103 -/

section
variable {R : Type} [Field R] [LinearOrder R] [IsStrictOrderedRing R] [FloorRing R]

/-- image `d` of body 2 is nearest to body 1 along an axis of size `sz` -/
def Nearest (sz p1 p2 : R) (d : Int) : Prop := |p2 + d * sz - p1| ≤ sz / 2

/-- explicit creation chooses the nearest image of the second body if that is less than half a cell below the first -/
theorem C103_nearest_partial (sz p1 p2 : Fin 3 → R) (a : Fin 3) (hs : 0 < sz a) (h : -(1 / 2) ≤ (p2 a - p1 a) / sz a) :
    Nearest (sz a) (p1 a) (p2 a) (explicitDist true sz p1 p2 a) := by
  unfold Nearest explicitDist trunc
  simp only [if_true]
  set x := (p2 a - p1 a) / sz a with hx
  have hp : p2 a = p1 a + x * sz a := by rw [hx]; field_simp; ring
  rw [if_pos (by linarith), hp]
  have h1 := Int.floor_le (x + 1 / 2)
  have h2 := Int.lt_floor_add_one (x + 1 / 2)
  push_cast
  set k : R := (⌊x + 1 / 2⌋ : R)
  have e : p1 a + x * sz a + -k * sz a - p1 a = (x - k) * sz a := by ring
  rw [e, abs_mul, abs_of_pos hs]
  have h3 : |x - k| ≤ 1 / 2 := by rw [abs_le]; constructor <;> linarith
  nlinarith

/-- otherwise it does not, unless the second body is exactly between two images -/
theorem C103_violated_below (sz p1 p2 : Fin 3 → R) (a : Fin 3) (hs : 0 < sz a) (h : (p2 a - p1 a) / sz a < -(1 / 2))
    (hi : ∀ n : Int, (p2 a - p1 a) / sz a + 1 / 2 ≠ n) : ¬ Nearest (sz a) (p1 a) (p2 a) (explicitDist true sz p1 p2 a) := by
  unfold Nearest explicitDist trunc
  simp only [if_true]
  set x := (p2 a - p1 a) / sz a with hx
  have hp : p2 a = p1 a + x * sz a := by rw [hx]; field_simp; ring
  rw [if_neg (by linarith), hp]
  have h1 := Int.le_ceil (x + 1 / 2)
  have h0 := hi ⌈x + 1 / 2⌉
  push_cast
  set k : R := (⌈x + 1 / 2⌉ : R)
  have h1' : x + 1 / 2 < k := lt_of_le_of_ne h1 h0
  have e : p1 a + x * sz a + -k * sz a - p1 a = (x - k) * sz a := by ring
  rw [e, abs_mul, abs_of_pos hs]
  have h3 : 1 / 2 < |x - k| := by rw [lt_abs]; right; linarith
  intro hc
  nlinarith

end

-- a body half a cell away and more above, in a cell of size 10: shifted by one cell down
example : explicitDist true (fun _ => (10 : ℚ)) (fun _ => 1) (fun _ => 9) 0 = -1 := by decide +kernel
-- the same bodies the other way round: no shift, 8 instead of 2 apart
example : explicitDist true (fun _ => (10 : ℚ)) (fun _ => 9) (fun _ => 1) 0 = 0 := by decide +kernel

/-- a created interaction is real, stamped with the current step, and there was none for this pair -/
theorem C103_created {disp : Nat → Nat → Option (Nat × Bool)} {physDisp : Nat → Nat → Option Nat}
    {go : Nat → Nat → Nat → (Fin 3 → Int) → Option G → Bool × Option G} {physGo : Nat → Nat → Nat → G → Option Ph → Option Ph}
    (hp : ∀ p i j g q, (physGo p i j g q).isSome = true) {iter : Int} {there force : Bool} {id1 id2 : Nat} {b1 b2 : Option Bdy} {dist : Fin 3 → Int}
    {I : Intr G Ph} (h : explicitCreate disp physDisp go physGo iter there force id1 id2 b1 b2 dist = .ok I) :
    there = false ∧ b1.isSome = true ∧ b2.isSome = true ∧ I.isReal = true ∧ I.madeReal = iter := by
  unfold explicitCreate at h
  cases there with
  | true => simp at h
  | false =>
    simp only [Bool.false_eq_true, if_false] at h
    cases b1 with
    | none => simp at h
    | some b1 =>
      cases b2 with
      | none => simp at h
      | some b2 =>
        simp only at h
        cases hg : (explicitGeom disp go force id1 id2 b1.shape b2.shape dist : Res (Intr G Ph)) with
        | throws => rw [hg] at h; simp [Res.bind] at h
        | ub => rw [hg] at h; simp [Res.bind] at h
        | ok K =>
          rw [hg] at h
          simp only [Res.bind_ok] at h
          split at h
          · cases h
          · rename_i g hg'
            split at h
            · cases h
            · cases h
              refine ⟨rfl, rfl, rfl, ?_, rfl⟩
              simp [Intr.isReal, hg', hp]

-- creating one
example : ((explicitCreate (exE 0 (-1) true true).geomDisp (exE 0 (-1) true true).physDisp (exE 0 (-1) true true).geomGo
      (exE 0 (-1) true true).physGo 8 false true 0 1 ((exE 0 (-1) true true).body 0) ((exE 0 (-1) true true).body 1) (fun _ => 1) :
      Res (Intr Int Nat)).bind fun I => .ok I.look) = .ok (0, 1, some 1, some 0, some 7, 8, 1) := rfl

/-- the law then finds it fresh if the loop runs in the same step -/
theorem C103_fresh {disp : Nat → Nat → Option (Nat × Bool)} {physDisp : Nat → Nat → Option Nat}
    {go : Nat → Nat → Nat → (Fin 3 → Int) → Option G → Bool × Option G} {physGo : Nat → Nat → Nat → G → Option Ph → Option Ph}
    (hp : ∀ p i j g q, (physGo p i j g q).isSome = true) {iter : Int} {there force : Bool} {id1 id2 : Nat} {b1 b2 : Option Bdy} {dist : Fin 3 → Int}
    {I : Intr G Ph} (h : explicitCreate disp physDisp go physGo iter there force id1 id2 b1 b2 dist = .ok I) {E : Env G Ph} (hi : E.iter = iter)
    {I' : Intr G Ph} {ev : List (Ev G Ph)} (hq : process E I = .done I' ev) {l : Nat} {J : Intr G Ph} {g : G} {p : Ph}
    (hm : Ev.law l J g p ∈ ev) : J.madeReal = E.iter := by
  obtain ⟨-, -, -, h4, h5⟩ := C103_created hp h
  obtain ⟨f, i, j, b, c, s, t, d, q, -, -, -, -, -, -, -, -, -, hJ⟩ := C35_law_gets hq hm
  rw [hJ, h4, if_pos rfl, h5, hi]

/-- without `force`, any two bodies with shapes run into a null functor -/
theorem C103_violated_unforced (disp : Nat → Nat → Option (Nat × Bool)) (physDisp : Nat → Nat → Option Nat)
    (go : Nat → Nat → Nat → (Fin 3 → Int) → Option G → Bool × Option G) (physGo : Nat → Nat → Nat → G → Option Ph → Option Ph)
    (iter : Int) (id1 id2 : Nat) (b1 b2 : Bdy) (h1 : b1.shape.isSome = true) (h2 : b2.shape.isSome = true) (dist : Fin 3 → Int) :
    (explicitCreate disp physDisp go physGo iter false false id1 id2 (some b1) (some b2) dist : Res (Intr G Ph)) = .ub := by
  obtain ⟨s1, e1⟩ := Option.isSome_iff_exists.mp h1
  obtain ⟨s2, e2⟩ := Option.isSome_iff_exists.mp h2
  simp [explicitCreate, explicitGeom, e1, e2, Res.bind]

/-- when the lookup does not exchange the bodies, the geometry at creation is the one the loop computes for the same positions: the shift
given to the functor is the stored one -/
theorem C103_same_shift_partial {disp : Nat → Nat → Option (Nat × Bool)} {go : Nat → Nat → Nat → (Fin 3 → Int) → Option G → Bool × Option G}
    {id1 id2 s1 s2 f : Nat} {dist : Fin 3 → Int} {I : Intr G Ph} (hd : disp s1 s2 = some (f, false))
    (h : explicitGeom disp go true id1 id2 (some s1) (some s2) dist = .ok I) : I.geom = (go f I.id1 I.id2 I.dist none).2 := by
  simp only [explicitGeom, if_true, hd, Bool.false_eq_true, if_false, Res.bind_ok] at h
  split at h
  · cases h; rfl
  · cases h

/-- when it does, the functor gets the shift of the other order: the opposite of what is stored and used from the next step on -/
theorem C103_violated_exchanged {disp : Nat → Nat → Option (Nat × Bool)} {go : Nat → Nat → Nat → (Fin 3 → Int) → Option G → Bool × Option G}
    {id1 id2 s1 s2 f : Nat} {dist : Fin 3 → Int} {I : Intr G Ph} (hd : disp s1 s2 = some (f, true))
    (h : explicitGeom disp go true id1 id2 (some s1) (some s2) dist = .ok I) :
    I.geom = (go f I.id1 I.id2 (fun a => -I.dist a) none).2 ∧ I.id1 = id2 ∧ I.id2 = id1 := by
  simp only [explicitGeom, if_true, hd, Intr.swapOrder, Intr.new, Option.isSome_none, Bool.or_self, Bool.false_eq_true, if_false, Res.bind_ok] at h
  split at h
  · cases h
    refine ⟨?_, rfl, rfl⟩
    have : (fun a => -(dist a * -1)) = dist := by funext a; omega
    simp only [this]
  · cases h

-- bodies 1 and 0 of `exE`, one period apart: the geometry says +1 where the loop then says -1
example : ((explicitGeom (exE 0 (-1) true true).geomDisp (exE 0 (-1) true true).geomGo true 1 0 (some 1) (some 0) (fun _ => 1) :
      Res (Intr Int Nat)).bind fun I => .ok (I.geom, ((exE 0 (-1) true true).geomGo 7 I.id1 I.id2 I.dist none).2)) =
    (.ok (some 1, some (-1))) := rfl

end Verif.Loop
