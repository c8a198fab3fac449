import Verif.Mpi.EraseRemote
import Verif.Bodies.Props
import Mathlib.Tactic.SplitIfs
/-!
# C115: which bodies a worker keeps after a split
-/
namespace Verif.Mpi.EraseRemote
open Verif Verif.Bodies

/-- the body is to be removed from the worker's scene: of another process, without a box, and not a node of something with a box -/
def Far (A : Att) (id : Int) : Prop := A.remote id = true ∧ A.bounded id = false ∧ A.connected id = false

/-! ## Helper lemmas -/

theorem getitem_at {s : BSt} {k : Int} {r : Nat} (h : At s k r) : pyGetitem s k = .ok (some r) := by
  have h1 := h.nonneg
  unfold pyGetitem
  rw [if_pos h1.1]
  unfold At at h
  simp [h, h1.1, h1.2]

theorem getitem_vacant {s : BSt} {k : Int} (h0 : 0 ≤ k) (hl : k < s.slots.length) (h : look s k = none) : pyGetitem s k = .ok none := by
  unfold pyGetitem
  rw [if_pos h0]
  have : slotAt s k = some none := by
    unfold look at h
    cases e : slotAt s k with
    | none =>
      unfold slotAt at e
      rw [if_pos h0, List.getElem?_eq_none_iff] at e
      omega
    | some x =>
      cases x with
      | none => rfl
      | some r => rw [e] at h; cases h
  simp [h0, hl, this]

/-- what erasing body `k` does to the other bodies: a clump loses the member, and goes when it has lost the last one; the rest stay,
except that members of an erased clump are on their own -/
structure Erased (s s' : BSt) (k : Int) : Prop where
  good : Good s'
  len : s'.slots.length = s.slots.length
  gone : look s' k = none
  vacant : ∀ j, look s j = none → look s' j = none
  plain : ∀ j o, j ≠ k → look s j = some o → o.clumpId ≠ j → ∃ o', look s' j = some o' ∧ o'.clumpId ≠ j
  clump : ∀ d od ms, d ≠ k → look s d = some od → od.clumpId = d → od.members = some ms →
    (k ∈ ms ∧ ms.filter (· ≠ k) = [] → look s' d = none) ∧
    (¬ (k ∈ ms ∧ ms.filter (· ≠ k) = []) → ∃ od', look s' d = some od' ∧ od'.clumpId = d ∧ od'.members = some (ms.filter (· ≠ k)))

theorem filter_ne {ms : List Int} {k : Int} (h : k ∉ ms) : ms.filter (· ≠ k) = ms := by
  rw [List.filter_eq_self]
  intro a ha
  simp only [decide_eq_true_eq]
  rintro rfl; exact h ha

theorem erase_view {s : BSt} (hG : Good s) {k : Int} {r : Nat} (h : At s k r) : ∃ s', erase k false s = .ok s' true ∧ Erased s s' k := by
  have hid := ids_of hG h
  have h0 := h.nonneg.1
  unfold erase
  -- a clump other than the one of `k`
  have hno : ∀ d od ms, d ≠ (s.heap r).clumpId → look s d = some od → od.members = some ms → k ∉ ms := by
    intro d od ms hd h1 h2 h3
    obtain ⟨o, h4, h5, -⟩ := hG.cons.listed d od ms k h1 h2 h3
    rw [look_at h] at h4
    injection h4 with h4; subst h4
    exact hd h5.symm
  by_cases hc : (s.heap r).clumpId = -1
  · obtain ⟨s', a, b⟩ := erase_free hG 3 false h hc
    refine ⟨s', a, b.good (consV_drop hG.cons (look_at h) (Or.inl hc)), b.len, ?_, ?_, ?_, ?_⟩
    · rw [b.view, up_same]
    · intro j hj; rw [b.view]; unfold up; split_ifs <;> first | rfl | exact hj
    · intro j o hj h1 h2; rw [b.view, up_other _ _ hj]; exact ⟨o, h1, h2⟩
    · intro d od ms hd h1 h2 h3
      have hd0 := hG.cons.nonneg d od h1
      have hk := hno d od ms (by rw [hc]; omega) h1 h3
      refine ⟨fun h' => absurd h'.1 hk, fun _ => ⟨od, ?_, h2, ?_⟩⟩
      · rw [b.view, up_other _ _ hd]; exact h1
      · rw [filter_ne hk]; exact h3
  · by_cases hm : (s.heap r).isClumpMember = true
    · obtain ⟨c, ms, hc', hms, hin, hne, hcc, hn1, hnd⟩ := member_facts hG h hm
      obtain ⟨s', a, b⟩ := erase_member hG 2 false h hm hc' hms
      refine ⟨s', a, b.good (cons_member hG h hm hc' hms), b.len, ?_, ?_, ?_, ?_⟩
      · rw [b.view, up_same]
      · intro j hj; rw [b.view]; unfold up
        split_ifs with e1 e2 e3
        · rfl
        · rfl
        · subst e2; rw [look_at hc'] at hj; cases hj
        · exact hj
      · intro j o hj h1 h2
        rw [b.view, up_other _ _ hj, up_other]
        · exact ⟨o, h1, h2⟩
        · rintro rfl
          rw [look_at hc'] at h1; injection h1 with h1; subst h1
          exact h2 hcc
      · intro d od ms' hd h1 h2 h3
        rw [b.view, up_other _ _ hd]
        by_cases e : d = (s.heap r).clumpId
        · subst e
          rw [look_at hc'] at h1; injection h1 with h1; subst h1
          rw [hms] at h3; injection h3 with h3; subst h3
          rw [up_same]
          refine ⟨fun h' => if_pos h'.2, fun h' => ?_⟩
          have h'' : ms.filter (· ≠ k) ≠ [] := fun e => h' ⟨hin, e⟩
          rw [if_neg h'']
          exact ⟨_, rfl, hcc, rfl⟩
        · have hk := hno d od ms' e h1 h3
          rw [up_other _ _ e, filter_ne hk]
          exact ⟨fun h' => absurd h'.1 hk, fun _ => ⟨od, h1, h2, h3⟩⟩
    · have hcid : (s.heap r).clumpId = k := by
        simp [BObj.isClumpMember, idNone, hid] at hm
        have := hm hc
        omega
      have hcl : (s.heap r).isClump = true := by
        simp [BObj.isClump, idNone, hid, hcid]; omega
      obtain ⟨oc, ms, e1, e2, e3, e4⟩ := hG.cons.owner k _ (look_at h) hc
      rw [hcid, look_at h] at e1
      have : s.heap r = oc := by simpa using e1
      subst this
      obtain ⟨s', a, b⟩ := erase_clump_free hG 3 h hcl e2
      refine ⟨s', a, b.good (consV_dissolve hG.cons (look_at h) hcid e2), b.len, ?_, ?_, ?_, ?_⟩
      · rw [b.view]; exact if_pos rfl
      · intro j hj; rw [b.view]; dsimp only; rw [hj]; simp
      · intro j o hj h1 h2; rw [b.view]; dsimp only; rw [if_neg hj, h1]
        have hj0 := hG.cons.nonneg j o h1
        split_ifs
        · exact ⟨_, rfl, by simp [idNone]; omega⟩
        · exact ⟨o, rfl, h2⟩
      · intro d od ms' hd h1 h2 h3
        have hk := hno d od ms' (by rw [hcid]; exact hd) h1 h3
        have hdm : d ∉ ms := by
          intro hin
          obtain ⟨o, h4, h5, -⟩ := hG.cons.listed k _ ms d (look_at h) e2 hin
          rw [h1] at h4; injection h4 with h4; subst h4
          omega
        refine ⟨fun h' => absurd h'.1 hk, fun _ => ⟨od, ?_, h2, ?_⟩⟩
        · rw [b.view]; dsimp only; rw [if_neg hd, if_neg hdm]; exact h1
        · rw [filter_ne hk]; exact h3

/-- one round of the loop in a consistent scene -/
theorem step_run (A : Att) {s : BSt} (hG : Good s) {k : Int} (h0 : 0 ≤ k) (hl : k < s.slots.length) :
    (look s k = none ∧ eraseStep A k s = .throws s) ∨ (look s k ≠ none ∧ ¬ Far A k ∧ eraseStep A k s = .ok s ()) ∨
    (look s k ≠ none ∧ Far A k ∧ ∃ s', eraseStep A k s = .ok s' () ∧ Erased s s' k) := by
  cases hk : look s k with
  | none => left; refine ⟨rfl, ?_⟩; unfold eraseStep; rw [getitem_vacant h0 hl hk]
  | some o =>
    obtain ⟨r, hr, -⟩ := look_some hk
    right
    by_cases hf : Far A k
    · right
      obtain ⟨s', h1, h2⟩ := erase_view hG hr
      refine ⟨by simp, hf, s', ?_, h2⟩
      unfold eraseStep
      rw [getitem_at hr]
      simp [hf.1, hf.2.1, hf.2.2, h1]
    · left
      refine ⟨by simp, hf, ?_⟩
      unfold eraseStep
      rw [getitem_at hr]
      unfold Far at hf
      dsimp only
      split_ifs with h1 h2
      · exfalso; apply hf
        simp only [Bool.and_eq_true, Bool.not_eq_true'] at h1 h2
        exact ⟨h1.2, h1.1, h2⟩
      · rfl
      · rfl

/-! ## C115 -/

/-- the ids from `k` on -/
def from' (k n : Nat) : List Int := (List.range' k n).map fun (i : Nat) => (i : Int)

theorem loop_eq (A : Att) (s : BSt) : eraseRemote A s = forEach (eraseStep A) (from' 0 s.slots.length) s := by
  unfold eraseRemote from'
  rw [List.range_eq_range']

theorem forEach_cons {α : Type} (f : α → M Unit) (a : α) (as : List α) (s : BSt) : forEach f (a :: as) s =
    match f a s with | .ok s1 _ => forEach f as s1 | .throws s1 => .throws s1 | .ub => .ub | .nofuel => .nofuel := by
  rw [forEach, bind_eq]
  cases f a s <;> rfl

/-- the loop reaches `c` and finds nothing there -/
theorem throws_of {A : Att} (P : Nat → BSt → Prop) (c : Nat)
    (hstep : ∀ k s s', k < c → Good s → P k s → Far A k → Erased s s' k → P (k + 1) s')
    (hskip : ∀ k s, k < c → Good s → P k s → ¬ Far A k → P (k + 1) s) (hend : ∀ s, P c s → look s c = none) :
    ∀ n k s, Good s → P k s → k ≤ c → c < k + n → k + n = s.slots.length → ∃ s', forEach (eraseStep A) (from' k n) s = .throws s' := by
  intro n
  induction n with
  | zero => intro k s _ _ h1 h2 _; omega
  | succ n ih =>
    intro k s hG hP h1 h2 h3
    have hcons : from' k (n + 1) = (k : Int) :: from' (k + 1) n := by simp [from', List.range'_succ]
    rw [hcons, forEach_cons]
    rcases step_run A hG (k := k) (by omega) (by omega) with ⟨-, h⟩ | ⟨h', hf, h⟩ | ⟨h', hf, s', h, he⟩
    · rw [h]; exact ⟨s, rfl⟩
    · rw [h]
      have hkc : k < c := by
        rcases Nat.lt_or_ge k c with h5 | h5
        · exact h5
        · have : k = c := by omega
          subst this; exact absurd (hend s hP) h'
      exact ih (k + 1) s hG (hskip k s hkc hG hP hf) (by omega) (by omega) (by omega)
    · rw [h]
      have hkc : k < c := by
        rcases Nat.lt_or_ge k c with h5 | h5
        · exact h5
        · have : k = c := by omega
          subst this; exact absurd (hend s hP) h'
      exact ih (k + 1) s' he.good (hstep k s s' hkc hG hP hf he) (by omega) (by omega) (by rw [he.len]; omega)

/-- **C115 is violated by every vacant id.** A scene in which a body has been erased (its id stays vacant) cannot be split: in every
worker the loop ends with an exception. -/
theorem C115_violated_vacant (A : Att) {s : BSt} (hh : CHist s) (hv : ∃ k : Nat, k < s.slots.length ∧ look s k = none) :
    ∃ s', eraseRemote A s = .throws s' := by
  have hG := hh.good
  obtain ⟨c, h1, h2⟩ := hv
  rw [loop_eq]
  exact throws_of (fun _ s => look s c = none) c (fun k s s' _ _ h _ he => he.vacant _ h) (fun _ _ _ _ h _ => h) (fun _ h => h) _ 0 s hG h2
    (by omega) (by omega) (by omega)

/-- **C115 is violated by remote clumps.** If a clump comes after all its members, as it does when it is made of bodies already in the
scene, and none of its members is near the bodies of the worker, the loop ends with an exception in that worker: with the last
member the clump itself disappears before the loop arrives there. -/
theorem C115_violated_clump (A : Att) {s : BSt} (hh : CHist s) {c : Nat} {oc : BObj} {ms : List Int} (hc : look s c = some oc)
    (hcc : oc.clumpId = c) (hm : oc.members = some ms) (hne : ms ≠ []) (hms : ∀ m ∈ ms, m < c ∧ Far A m) : ∃ s', eraseRemote A s = .throws s' := by
  have hG := hh.good
  rw [loop_eq]
  obtain ⟨r, hr, -⟩ := look_some hc
  have hl := hr.nonneg
  refine throws_of (A := A) (fun k s => look s c = none ∨ ∃ oc ms, look s c = some oc ∧ oc.clumpId = c ∧ oc.members = some ms ∧ ms ≠ [] ∧
    ∀ m ∈ ms, (k : Int) ≤ m ∧ m < c ∧ Far A m) c ?_ ?_ ?_ _ 0 s hG (Or.inr ⟨oc, ms, hc, hcc, hm, hne, ?_⟩) (by omega) (by omega) (by omega)
  · rintro k s s' hk - (h | ⟨oc, ms, h1, h2, h3, h4, h5⟩) hf he
    · exact Or.inl (he.vacant _ h)
    · obtain ⟨g1, g2⟩ := he.clump c oc ms (by omega) h1 h2 h3
      by_cases e : (k : Int) ∈ ms ∧ ms.filter (· ≠ (k : Int)) = []
      · exact Or.inl (g1 e)
      · obtain ⟨od', q1, q2, q3⟩ := g2 e
        refine Or.inr ⟨od', _, q1, q2, q3, ?_, ?_⟩
        · intro e'
          by_cases hin : (k : Int) ∈ ms
          · exact e ⟨hin, e'⟩
          · rw [filter_ne hin] at e'; exact h4 e'
        · intro m hm'
          obtain ⟨w1, w2⟩ := List.mem_filter.mp hm'
          obtain ⟨w3, w4⟩ := h5 m w1
          simp only [decide_eq_true_eq] at w2
          exact ⟨by push_cast; omega, w4⟩
  · rintro k s hk - (h | ⟨oc, ms, h1, h2, h3, h4, h5⟩) hf
    · exact Or.inl h
    · refine Or.inr ⟨oc, ms, h1, h2, h3, h4, fun m hm' => ?_⟩
      obtain ⟨w3, w4, w5⟩ := h5 m hm'
      refine ⟨?_, w4, w5⟩
      have : m ≠ k := by rintro rfl; exact hf w5
      push_cast; omega
  · rintro s (h | ⟨oc, ms, h1, h2, h3, h4, h5⟩)
    · exact h
    · exfalso
      obtain ⟨m, hm'⟩ := List.exists_mem_of_ne_nil _ h4
      have := h5 m hm'
      omega
  · intro m hm'
    obtain ⟨o, g1, -⟩ := hG.cons.listed c oc ms m hc hm hm'
    exact ⟨by simpa using hG.cons.nonneg m o g1, hms m hm'⟩

/-- **C115, partial.** If no id is vacant and each clump has a member that stays, the loop ends, and exactly the bodies that are near or
belong to the process are left, under their ids.  Missing: scenes with vacant ids (`C115_violated_vacant`) and clumps all members of
which are remote and far (`C115_violated_clump`). -/
theorem C115_kept_partial (A : Att) {s : BSt} (hh : CHist s) (hocc : ∀ k : Nat, k < s.slots.length → look s k ≠ none)
    (hcl : ∀ d od ms, look s d = some od → od.clumpId = d → od.members = some ms → ∃ m ∈ ms, ¬ Far A m) :
    ∃ s', eraseRemote A s = .ok s' () ∧ Good s' ∧ s'.slots.length = s.slots.length ∧
      ∀ k : Nat, k < s.slots.length → (look s' k = none ↔ Far A k) := by
  have hG := hh.good
  rw [loop_eq]
  have main : ∀ n k s0, Good s0 → k + n = s.slots.length → s0.slots.length = s.slots.length →
      (∀ j : Nat, j < s.slots.length → (look s0 j = none ↔ j < k ∧ Far A j)) →
      (∀ d od ms, look s0 d = some od → od.clumpId = d → od.members = some ms → ∃ m ∈ ms, ¬ Far A m) →
      ∃ s', forEach (eraseStep A) (from' k n) s0 = .ok s' () ∧ Good s' ∧ s'.slots.length = s.slots.length ∧
        ∀ j : Nat, j < s.slots.length → (look s' j = none ↔ Far A j) := by
    intro n
    induction n with
    | zero =>
      intro k s0 hG0 hk hlen h1 _
      refine ⟨s0, rfl, hG0, hlen, fun j hj => ?_⟩
      rw [h1 j hj]
      exact ⟨fun h => h.2, fun h => ⟨by omega, h⟩⟩
    | succ n ih =>
      intro k s0 hG0 hk hlen h1 h2
      have hcons : from' k (n + 1) = (k : Int) :: from' (k + 1) n := by simp [from', List.range'_succ]
      rw [hcons, forEach_cons]
      rcases step_run A hG0 (k := k) (by omega) (by omega) with ⟨h, -⟩ | ⟨h', hf, h⟩ | ⟨h', hf, s', h, he⟩
      · have := (h1 k (by omega)).mp h
        omega
      · rw [h]
        refine ih (k + 1) s0 hG0 (by omega) hlen (fun j hj => ?_) h2
        rw [h1 j hj]
        constructor
        · rintro ⟨g1, g2⟩; exact ⟨by omega, g2⟩
        · rintro ⟨g1, g2⟩
          refine ⟨?_, g2⟩
          rcases Nat.lt_or_ge j k with g | g
          · exact g
          · have : j = k := by omega
            subst this; exact absurd g2 hf
      · rw [h]
        -- what is left of the clumps
        have hclump : ∀ d od, d ≠ (k : Int) → look s0 d = some od → od.clumpId = d →
            ∃ od' ms, look s' d = some od' ∧ od'.clumpId = d ∧ od.members = some ms ∧ od'.members = some (ms.filter (· ≠ (k : Int))) := by
          intro d od hd g1 g2
          have hd0 := hG0.cons.nonneg d od g1
          obtain ⟨oc, ms, e1, e2, -, -⟩ := hG0.cons.owner d od g1 (by omega)
          rw [g2, g1] at e1; injection e1 with e1; subst e1
          obtain ⟨m, hm, hm'⟩ := h2 d od ms g1 g2 e2
          obtain ⟨-, q⟩ := he.clump d od ms hd g1 g2 e2
          obtain ⟨od', q1, q2, q3⟩ := q (by
            rintro ⟨-, e⟩
            have : m ∈ ms.filter (· ≠ (k : Int)) := by
              rw [List.mem_filter]
              refine ⟨hm, ?_⟩
              simp only [decide_eq_true_eq]
              rintro rfl; exact hm' hf
            rw [e] at this; cases this)
          exact ⟨od', ms, q1, q2, e2, q3⟩
        refine ih (k + 1) s' he.good (by omega) (by rw [he.len]; exact hlen) (fun j hj => ?_) ?_
        · by_cases e : j = k
          · subst e
            exact ⟨fun _ => ⟨by omega, hf⟩, fun _ => he.gone⟩
          · have e' : (j : Int) ≠ k := by omega
            cases hj0 : look s0 j with
            | none =>
              have := (h1 j hj).mp hj0
              exact ⟨fun _ => ⟨by omega, this.2⟩, fun _ => he.vacant _ hj0⟩
            | some o =>
              have hp : ∃ o', look s' j = some o' := by
                by_cases hc : o.clumpId = j
                · obtain ⟨od', -, q, -⟩ := hclump j o e' hj0 hc
                  exact ⟨od', q⟩
                · obtain ⟨o', q, -⟩ := he.plain j o e' hj0 hc
                  exact ⟨o', q⟩
              obtain ⟨o', hp⟩ := hp
              rw [hp]
              constructor
              · intro h; cases h
              · rintro ⟨g1, g2⟩
                have := (h1 j hj).mpr ⟨by omega, g2⟩
                rw [hj0] at this; cases this
        · intro d od' ms' g1 g2 g3
          have hdk : d ≠ (k : Int) := by rintro rfl; rw [he.gone] at g1; cases g1
          cases hd0 : look s0 d with
          | none => rw [he.vacant d hd0] at g1; cases g1
          | some od =>
            by_cases hc : od.clumpId = d
            · obtain ⟨od'', ms, q1, q2, q3, q4⟩ := hclump d od hdk hd0 hc
              rw [g1] at q1; injection q1 with q1; subst q1
              rw [g3] at q4; injection q4 with q4; subst q4
              obtain ⟨m, hm, hm'⟩ := h2 d od ms hd0 hc q3
              refine ⟨m, List.mem_filter.mpr ⟨hm, ?_⟩, hm'⟩
              simp only [decide_eq_true_eq]
              rintro rfl; exact hm' hf
            · obtain ⟨o', q1, q2⟩ := he.plain d od hdk hd0 hc
              rw [g1] at q1; injection q1 with q1; subst q1
              exact absurd g2 q2
  refine main s.slots.length 0 s hG (by omega) rfl (fun j hj => ?_) hcl
  exact ⟨fun h => absurd h (hocc j hj), fun h => by omega⟩

/-- bodies 2 and 3 and their clump 5 belong to another process; `near` says which of the members is near -/
def exAtt (near : Int) : Att := ⟨fun id => decide (id < 2 ∨ id = near), fun id => decide (id = 2 ∨ id = 3 ∨ id = 5), fun _ => false⟩

/-- member 2 of the remote clump is near: it is left, 3 and the clump are erased -/
example : ∃ s', eraseRemote (exAtt 2) demoTwoClumps = .ok s' () ∧ look s' 2 ≠ none ∧ look s' 3 = none ∧ look s' 4 ≠ none ∧ look s' 5 = none := by
  have hfar : ∀ k, Far (exAtt 2) k ↔ k = 3 ∨ k = 5 := by intro k; unfold Far exAtt; simp; omega
  obtain ⟨s', h1, -, -, h4⟩ := C115_kept_partial (exAtt 2) demoTwoClumps_hist (by
      intro k hk
      have hk' : k < 6 := hk
      have : k = 0 ∨ k = 1 ∨ k = 2 ∨ k = 3 ∨ k = 4 ∨ k = 5 := by omega
      rcases this with rfl | rfl | rfl | rfl | rfl | rfl <;> (intro h; cases h)) (by
      intro d od ms h1 h2 h3
      obtain ⟨r, hr, -⟩ := look_some h1
      have hd := hr.nonneg
      have hl : (demoTwoClumps.slots.length : Int) = 6 := rfl
      have : d = 0 ∨ d = 1 ∨ d = 2 ∨ d = 3 ∨ d = 4 ∨ d = 5 := by omega
      rcases this with rfl | rfl | rfl | rfl | rfl | rfl
      · have : od = ⟨0, 4, none⟩ := by injection h1.symm
        subst this; cases h3
      · have : od = ⟨1, 4, none⟩ := by injection h1.symm
        subst this; cases h3
      · have : od = ⟨2, 5, none⟩ := by injection h1.symm
        subst this; cases h3
      · have : od = ⟨3, 5, none⟩ := by injection h1.symm
        subst this; cases h3
      · have : od = ⟨4, 4, some [0, 1]⟩ := by injection h1.symm
        subst this; injection h3 with h3; subst h3; exact ⟨0, by simp, by rw [hfar]; omega⟩
      · have : od = ⟨5, 5, some [2, 3]⟩ := by injection h1.symm
        subst this; injection h3 with h3; subst h3; exact ⟨2, by simp, by rw [hfar]; omega⟩)
  have hl : demoTwoClumps.slots.length = 6 := rfl
  refine ⟨s', h1, ?_, ?_, ?_, ?_⟩
  · intro h; have := (hfar _).mp ((h4 2 (by omega)).mp h); omega
  · exact (h4 3 (by omega)).mpr ((hfar _).mpr (by omega))
  · intro h; have := (hfar _).mp ((h4 4 (by omega)).mp h); omega
  · exact (h4 5 (by omega)).mpr ((hfar _).mpr (by omega))

/-- no member is near: exception -/
example : ∃ s', eraseRemote (exAtt 0) demoTwoClumps = .throws s' :=
  C115_violated_clump (exAtt 0) demoTwoClumps_hist (c := 5) (oc := ⟨5, 5, some [2, 3]⟩) rfl rfl rfl (by simp) (by
    intro m hm
    simp at hm
    rcases hm with rfl | rfl <;> (refine ⟨by decide, ?_⟩; unfold Far exAtt; simp))

/-- body 1 has been erased: exception, although everything belongs to the process -/
example : ∃ s1 s', erase 1 false demo4 = .ok s1 true ∧ eraseRemote ⟨fun _ => true, fun _ => false, fun _ => false⟩ s1 = .throws s' := by
  obtain ⟨s', h⟩ := C115_violated_vacant ⟨fun _ => true, fun _ => false, fun _ => false⟩
    (CHist.erase (k := 1) (flag := false) (s' := endState (erase 1 false demo4)) demo4_hist (by decide) (by decide) (Or.inl ⟨true, rfl⟩)) ⟨1, by decide, rfl⟩
  exact ⟨_, s', rfl, h⟩

end Verif.Mpi.EraseRemote
