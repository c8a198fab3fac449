import Verif.Dispatch.Model
/-! # Helper lemmas for the dispatch -/
namespace Verif.Dispatch
open Verif

/-- the class at depth `k` above `c` (depth 0 is `c` itself) -/
def Hier.up (H : Hier) (c k : Nat) : Option Nat := (c :: H.anc c)[k]?

def Hier.height (H : Hier) (c : Nat) : Nat := (H.anc c).length

theorem Hier.up_some_iff (H : Hier) (c k : Nat) : (∃ a, H.up c k = some a) ↔ k ≤ H.height c := by
  simp only [Hier.up, Hier.height]
  constructor
  · rintro ⟨a, h⟩
    have := (List.getElem?_eq_some_iff.mp h).1
    simp at this; omega
  · intro h
    exact ⟨_, List.getElem?_eq_getElem (by simp; omega)⟩

theorem Hier.up_none (H : Hier) (c k : Nat) (h : H.height c < k) : H.up c k = none := by
  cases hu : H.up c k with
  | none => rfl
  | some a => have := (H.up_some_iff c k).mp ⟨a, hu⟩; omega

theorem Hier.up_le (H : Hier) {c k a : Nat} (h : H.up c k = some a) : a ≤ c ∧ (k ≠ 0 → a < c) := by
  cases k with
  | zero => simp [Hier.up] at h; omega
  | succ k =>
    simp only [Hier.up, List.getElem?_cons_succ] at h
    have := H.lt c a (List.mem_of_getElem? h)
    omega

theorem baseIx_some (H : Hier) (c k : Nat) {a : Nat} (h : H.up c k = some a) : baseIx H c k = .ix a := by
  cases k with
  | zero => simp [Hier.up] at h; simp [baseIx, h]
  | succ k =>
    simp only [Hier.up, List.getElem?_cons_succ] at h
    simp [baseIx, Hier.getBase, h]

theorem baseIx_top (H : Hier) (c : Nat) : baseIx H c (H.height c + 1) = .ix (-1) := by
  simp [baseIx, Hier.getBase, Hier.height]

/-- a depth at most one beyond the top gives an index, negative exactly beyond the top -/
theorem baseIx_le (H : Hier) (c k : Nat) (h : k ≤ H.height c + 1) :
    ∃ ix : Int, baseIx H c k = .ix ix ∧ (ix < 0 ↔ k = H.height c + 1) ∧ (0 ≤ ix → H.up c k = some ix.toNat) := by
  by_cases hk : k = H.height c + 1
  · subst hk
    exact ⟨-1, baseIx_top H c, by simp, by intro h; omega⟩
  · obtain ⟨a, ha⟩ := (H.up_some_iff c k).mpr (by omega)
    refine ⟨a, baseIx_some H c k ha, by omega, fun _ => by simpa using ha⟩

/-- functor in the cell reached with depths `k` and `d-k` -/
def cell (H1 H2 : Hier) (T : D2) (c1 c2 d k : Nat) : Option Fn :=
  match H1.up c1 k, H2.up c2 (d - k) with
  | some a, some b => T.cb a b
  | _, _ => none

/-- both depths exist -/
def valid (H1 H2 : Hier) (c1 c2 d k : Nat) : Prop := k ≤ H1.height c1 ∧ d - k ≤ H2.height c2

theorem cell_valid {H1 H2 : Hier} {T : D2} {c1 c2 d k : Nat} {f : Fn} (h : cell H1 H2 T c1 c2 d k = some f) :
    valid H1 H2 c1 c2 d k := by
  unfold cell at h
  split at h
  · rename_i a b h1 h2
    exact ⟨(H1.up_some_iff _ _).mp ⟨a, h1⟩, (H2.up_some_iff _ _).mp ⟨b, h2⟩⟩
  · cases h

/-- invariant of the remembered tops: not remembered only as long as the depths in question cannot exceed the top by more
than one -/
def MaxOk (m : Option Nat) (h lim : Nat) : Prop := m = some (h + 1) ∨ (m = none ∧ lim ≤ h + 1)

/-- state of the search at distance `dist` after the rounds `dp1<k` -/
structure RInv (H1 H2 : Hier) (T : D2) (c1 c2 dist k : Nat) (s : LS) : Prop where
  m1 : MaxOk s.max1 (H1.height c1) dist
  m2 : MaxOk s.max2 (H2.height c2) dist
  e1 : k = dist + 1 → MaxOk s.max1 (H1.height c1) (dist + 1)
  e2 : 0 < k → MaxOk s.max2 (H2.height c2) (dist + 1)
  size : s.d.n1 = T.n1 ∧ s.d.n2 = T.n2
  off : ∀ a b, ¬ (a = c1 ∧ b = c2) → s.d.cb a b = T.cb a b ∧ s.d.info a b = T.info a b
  big : s.tooBig = true → ∀ j, j < k → ¬ valid H1 H2 c1 c2 dist j
  big' : s.tooBig = false → ∃ j, j < k ∧ valid H1 H2 c1 c2 dist j
  fnone : s.found = none → s.d.cb c1 c2 = T.cb c1 c2 ∧ s.d.info c1 c2 = T.info c1 c2 ∧
    ∀ j, j < k → cell H1 H2 T c1 c2 dist j = none
  fsome : ∀ p, s.found = some p → ∃ j f, j < k ∧ H1.up c1 j = some p.1 ∧ H2.up c2 (dist - j) = some p.2 ∧
    T.cb p.1 p.2 = some f ∧ s.d.cb c1 c2 = some f ∧ s.d.info c1 c2 = T.info p.1 p.2 ∧
    (∀ i, i < k → cell H1 H2 T c1 c2 dist i = none ∨ cell H1 H2 T c1 c2 dist i = some f) ∧
    (∀ i, j < i → i < k → cell H1 H2 T c1 c2 dist i = none)

/-- what an ambiguity means -/
def TwoHits (H1 H2 : Hier) (T : D2) (c1 c2 dist : Nat) : Prop :=
  ∃ i j f g, i ≤ dist ∧ j ≤ dist ∧ f ≠ g ∧ cell H1 H2 T c1 c2 dist i = some f ∧ cell H1 H2 T c1 c2 dist j = some g

theorem over_false_of {m : Option Nat} {h dp lim : Nat} (hm : MaxOk m h lim) (hlim : dp ≤ lim) (ho : over m dp = false) :
    dp ≤ h + 1 := by
  rcases hm with rfl | ⟨rfl, h1⟩
  · simpa [over] using ho
  · omega

theorem over_true_of {m : Option Nat} {h dp lim : Nat} (hm : MaxOk m h lim) (ho : over m dp = true) :
    h + 1 < dp := by
  rcases hm with rfl | ⟨rfl, h1⟩
  · simpa [over] using ho
  · simp [over] at ho

theorem setMax_ok {m : Option Nat} {h lim dp : Nat} {ix : Int} (hm : MaxOk m h lim)
    (hix : ix < 0 ↔ dp = h + 1) : MaxOk (setMax m ix dp) h lim := by
  unfold setMax
  split
  · left; rw [hix.mp ‹_›]
  · exact hm

/-- after the round with depth `dist` itself, the top is remembered if it has been passed -/
theorem setMax_end {m : Option Nat} {h dist : Nat} {ix : Int} (hm : MaxOk m h dist)
    (hix : ix < 0 ↔ dist = h + 1) : MaxOk (setMax m ix dist) h (dist + 1) := by
  unfold setMax
  split
  · left; rw [hix.mp ‹_›]
  · rename_i hn
    rcases hm with h1 | ⟨h1, h2⟩
    · exact Or.inl h1
    · right; refine ⟨h1, ?_⟩
      have : ¬ dist = h + 1 := fun e => hn (hix.mpr e)
      omega

/-- effect of a lookup on the matrix: at most the entry of the pair looked up is set, to a copy of the entry of
a pair of ancestors -/
structure Cached (H1 H2 : Hier) (T d : D2) (c1 c2 : Nat) : Prop where
  size : d.n1 = T.n1 ∧ d.n2 = T.n2
  off : ∀ a b, ¬ (a = c1 ∧ b = c2) → d.cb a b = T.cb a b ∧ d.info a b = T.info a b
  on : (d.cb c1 c2 = T.cb c1 c2 ∧ d.info c1 c2 = T.info c1 c2) ∨ ∃ i j a b f, H1.up c1 i = some a ∧ H2.up c2 j = some b ∧
    T.cb a b = some f ∧ d.cb c1 c2 = some f ∧ d.info c1 c2 = T.info a b

theorem RInv.cached {H1 H2 : Hier} {T : D2} {c1 c2 dist k : Nat} {s : LS} (h : RInv H1 H2 T c1 c2 dist k s) :
    Cached H1 H2 T s.d c1 c2 := by
  refine ⟨h.size, h.off, ?_⟩
  cases hf : s.found with
  | none => exact Or.inl ⟨(h.fnone hf).1, (h.fnone hf).2.1⟩
  | some p =>
    obtain ⟨j, f, _, a, b, c, d, e, _⟩ := h.fsome p hf
    exact Or.inr ⟨j, dist - j, p.1, p.2, f, a, b, c, d, e⟩

theorem cell_of_up {H1 H2 : Hier} {T : D2} {c1 c2 dist k a b : Nat} (h1 : H1.up c1 k = some a)
    (h2 : H2.up c2 (dist - k) = some b) : cell H1 H2 T c1 c2 dist k = T.cb a b := by
  simp only [cell, h1, h2]

theorem cell_of_not_valid {H1 H2 : Hier} {T : D2} {c1 c2 dist k : Nat} (h : ¬ valid H1 H2 c1 c2 dist k) :
    cell H1 H2 T c1 c2 dist k = none := by
  cases hc : cell H1 H2 T c1 c2 dist k with
  | none => rfl
  | some f => exact absurd (cell_valid hc) h

/-- adding a round without a hit -/
theorem RInv.step_none {H1 H2 : Hier} {T : D2} {c1 c2 dist k : Nat} {s s' : LS} (h : RInv H1 H2 T c1 c2 dist k s)
    (hd : s'.d = s.d) (hf : s'.found = s.found)
    (m1 : MaxOk s'.max1 (H1.height c1) dist) (m2 : MaxOk s'.max2 (H2.height c2) dist)
    (e1 : k = dist → MaxOk s'.max1 (H1.height c1) (dist + 1)) (e2 : MaxOk s'.max2 (H2.height c2) (dist + 1))
    (hb : s'.tooBig = true → s.tooBig = true ∧ ¬ valid H1 H2 c1 c2 dist k)
    (hbb : s'.tooBig = false → s.tooBig = false ∨ valid H1 H2 c1 c2 dist k)
    (hc : cell H1 H2 T c1 c2 dist k = none) : RInv H1 H2 T c1 c2 dist (k + 1) s' := by
  refine ⟨m1, m2, fun h => e1 (by omega), fun _ => e2, hd ▸ h.size, hd ▸ h.off, ?_, ?_, ?_, ?_⟩
  · intro hb' j hj
    obtain ⟨x, y⟩ := hb hb'
    rcases Nat.lt_succ_iff_lt_or_eq.mp hj with hj | rfl
    · exact h.big x j hj
    · exact y
  · intro hb'
    rcases hbb hb' with hb' | hb'
    · obtain ⟨j, x, y⟩ := h.big' hb'; exact ⟨j, by omega, y⟩
    · exact ⟨k, by omega, hb'⟩
  · intro hn
    rw [hf] at hn; rw [hd]
    obtain ⟨x, y, z⟩ := h.fnone hn
    refine ⟨x, y, fun j hj => ?_⟩
    rcases Nat.lt_succ_iff_lt_or_eq.mp hj with hj | rfl
    · exact z j hj
    · exact hc
  · intro p hp
    rw [hf] at hp; rw [hd]
    obtain ⟨j, f, a, b, c, d, e, g, i1, i2⟩ := h.fsome p hp
    refine ⟨j, f, by omega, b, c, d, e, g, ?_, ?_⟩
    · intro i hi
      rcases Nat.lt_succ_iff_lt_or_eq.mp hi with hi | rfl
      · exact i1 i hi
      · exact Or.inl hc
    · intro i hi hi'
      rcases Nat.lt_succ_iff_lt_or_eq.mp hi' with hi' | rfl
      · exact i2 i hi hi'
      · exact hc

/-- one round of the search -/
theorem round_spec {H1 H2 : Hier} {T : D2} {c1 c2 dist k : Nat} {s : LS} (h : RInv H1 H2 T c1 c2 dist k s)
    (hd : 1 ≤ dist) (hk : k ≤ dist) (r1 : c1 < T.n1) (r2 : c2 < T.n2) :
    (∃ s', round H1 H2 c1 c2 dist k s = .ok s' ∧ RInv H1 H2 T c1 c2 dist (k + 1) s') ∨
    (∃ d, round H1 H2 c1 c2 dist k s = .ambiguous d ∧ TwoHits H1 H2 T c1 c2 dist ∧ T.n1 ≤ T.n2 ∧
      Cached H1 H2 T d c1 c2) ∨
    (round H1 H2 c1 c2 dist k s = .ub ∧ TwoHits H1 H2 T c1 c2 dist ∧ T.n2 < T.n1) := by
  unfold round
  by_cases ho : (over s.max1 k || over s.max2 (dist - k)) = true
  · rw [if_pos ho]
    left
    refine ⟨s, rfl, ?_⟩
    have hnv : ¬ valid H1 H2 c1 c2 dist k := by
      rintro ⟨v1, v2⟩
      rw [Bool.or_eq_true] at ho
      rcases ho with ho | ho
      · have := over_true_of h.m1 ho; omega
      · have := over_true_of h.m2 ho; omega
    refine h.step_none rfl rfl h.m1 h.m2 ?_ ?_ (fun hb => ⟨hb, hnv⟩) Or.inl (cell_of_not_valid hnv)
    · intro hkd
      rw [Bool.or_eq_true] at ho
      rcases h.m1 with hm | ⟨hm, hm'⟩
      · exact Or.inl hm
      · rcases ho with ho | ho
        · rw [hm] at ho; simp [over] at ho
        · have := over_true_of h.m2 ho; omega
    · by_cases h0 : k = 0
      · rw [Bool.or_eq_true] at ho
        rcases h.m2 with hm | ⟨hm, hm'⟩
        · exact Or.inl hm
        · rcases ho with ho | ho
          · have := over_true_of h.m1 ho; omega
          · rw [hm] at ho; simp [over] at ho
      · exact h.e2 (by omega)
  · rw [if_neg ho]
    simp only [Bool.or_eq_true, not_or, Bool.not_eq_true] at ho
    have q1 := over_false_of h.m1 hk ho.1
    have q2 := over_false_of h.m2 (by omega) ho.2
    obtain ⟨ix1, x1, x2, x3⟩ := baseIx_le H1 c1 k q1
    obtain ⟨ix2, y1, y2, y3⟩ := baseIx_le H2 c2 (dist - k) q2
    simp only [x1, y1]
    have n1 := setMax_ok h.m1 x2
    have n2 := setMax_ok h.m2 y2
    have n1e : k = dist → MaxOk (setMax s.max1 ix1 k) (H1.height c1) (dist + 1) := by
      intro e; subst e; exact setMax_end h.m1 x2
    have n2e : MaxOk (setMax s.max2 ix2 (dist - k)) (H2.height c2) (dist + 1) := by
      by_cases h0 : k = 0
      · subst h0; exact setMax_end h.m2 y2
      · exact setMax_ok (h.e2 (by omega)) y2
    unfold look'
    by_cases hneg : ix1 < 0 ∨ ix2 < 0
    · rw [if_pos hneg]
      left
      have hnv : ¬ valid H1 H2 c1 c2 dist k := by
        rintro ⟨v1, v2⟩
        rcases hneg with hneg | hneg
        · have := x2.mp hneg; omega
        · have := y2.mp hneg; omega
      exact ⟨_, rfl, h.step_none rfl rfl n1 n2 n1e n2e (fun hb => ⟨hb, hnv⟩) Or.inl (cell_of_not_valid hnv)⟩
    · rw [if_neg hneg]
      have u1 := x3 (by omega)
      have u2 := y3 (by omega)
      have hv : valid H1 H2 c1 c2 dist k := ⟨(H1.up_some_iff _ _).mp ⟨_, u1⟩, (H2.up_some_iff _ _).mp ⟨_, u2⟩⟩
      show _ ∨ _
      generalize hs1 : (LS.mk s.d (setMax s.max1 ix1 k) (setMax s.max2 ix2 (dist - k)) false s.found) = s1
      have d1 : s1.d = s.d := by rw [← hs1]
      have f1 : s1.found = s.found := by rw [← hs1]
      have hc := cell_of_up (T := T) u1 u2
      generalize ha : ix1.toNat = a at *
      generalize hb : ix2.toNat = b at *
      have la := H1.up_le u1
      have lb := H2.up_le u2
      have hne : ¬ (a = c1 ∧ b = c2) := by
        rintro ⟨e1, e2⟩
        by_cases h0 : k = 0
        · have := lb.2 (by omega); omega
        · have := la.2 h0; omega
      obtain ⟨o1, o2⟩ := h.off a b hne
      have o3 : s1.d.cb a b = T.cb a b := by rw [d1]; exact o1
      have hsz : a < s1.d.n1 ∧ b < s1.d.n2 := by rw [d1, h.size.1, h.size.2]; constructor <;> omega
      have hlookN : T.cb a b = none → look c1 c2 s1 a b = .ok s1 := by
        intro hx; rw [hx] at o3
        unfold look; rw [if_pos hsz]; simp only [o3]
      have hlookS : ∀ f, T.cb a b = some f → look c1 c2 s1 a b = if clash s1 f then
          (if T.n1 ≤ T.n2 then .ambiguous s1.d else .ub) else .ok (hit c1 c2 s1 a b f) := by
        intro f hx; rw [hx] at o3
        unfold look; rw [if_pos hsz]; simp only [o3]; rw [d1, h.size.1, h.size.2]
      cases hcb : T.cb a b with
      | none =>
        left
        rw [hlookN hcb]
        refine ⟨s1, rfl, h.step_none d1 f1 (hs1 ▸ n1) (hs1 ▸ n2) (fun e => hs1 ▸ n1e e) (hs1 ▸ n2e) ?_ (fun _ => Or.inr hv) (hc.trans hcb)⟩
        intro hb; rw [← hs1] at hb; cases hb
      | some f =>
        rw [hlookS f hcb]
        rw [hcb] at hc
        by_cases hcl : clash s1 f = true
        · right
          rw [if_pos hcl]
          -- two different functors at this distance
          have two : TwoHits H1 H2 T c1 c2 dist := by
            unfold clash at hcl
            rw [f1] at hcl
            cases hf : s.found with
            | none => rw [hf] at hcl; simp at hcl
            | some p =>
              rw [hf] at hcl
              obtain ⟨j, g, hj, w1, w2, w3, w4, w5, w6, w7⟩ := h.fsome p hf
              have lp := H1.up_le w1
              have lq := H2.up_le w2
              have hnp : ¬ (p.1 = c1 ∧ p.2 = c2) := by
                rintro ⟨e1, e2⟩
                by_cases h0 : j = 0
                · have := lq.2 (by omega); omega
                · have := lp.2 h0; omega
              simp only [decide_eq_true_eq, d1, (h.off p.1 p.2 hnp).1, w3] at hcl
              exact ⟨j, k, g, f, by omega, hk, fun e => hcl (by rw [e]), (cell_of_up w1 w2).trans w3, hc⟩
          by_cases hn : T.n1 ≤ T.n2
          · left; rw [if_pos hn]; exact ⟨_, rfl, two, hn, d1 ▸ h.cached⟩
          · right; rw [if_neg hn]; exact ⟨rfl, two, by omega⟩
        · left
          rw [if_neg hcl]
          refine ⟨_, rfl, ?_⟩
          refine ⟨hs1 ▸ n1, hs1 ▸ n2, fun e => hs1 ▸ n1e (by omega), fun _ => hs1 ▸ n2e, ?_, ?_, ?_, fun _ => ⟨k, by omega, hv⟩, ?_, ?_⟩
          · simp only [hit, put2, d1]; exact h.size
          · intro x y hxy
            simp only [hit, put2, upd2, d1, if_neg hxy]
            exact h.off x y hxy
          · intro hb; simp only [hit, ← hs1] at hb; cases hb
          · intro hn; simp [hit] at hn
          · intro p hp
            simp only [hit, Option.some.injEq] at hp
            subst hp
            refine ⟨k, f, by omega, u1, u2, hcb, ?_, ?_, ?_, ?_⟩
            · simp [hit, put2, upd2]
            · simp [hit, put2, upd2, d1, o2]
            · intro i hi
              rcases Nat.lt_succ_iff_lt_or_eq.mp hi with hi | rfl
              · cases hf : s.found with
                | none => exact Or.inl ((h.fnone hf).2.2 i hi)
                | some p =>
                  obtain ⟨j, g, hj, w1, w2, w3, w4, w5, w6, w7⟩ := h.fsome p hf
                  have hfg : g = f := by
                    simp only [clash, f1, hf] at hcl
                    have lp := H1.up_le w1
                    have lq := H2.up_le w2
                    have hnp : ¬ (p.1 = c1 ∧ p.2 = c2) := by
                      rintro ⟨e1, e2⟩
                      by_cases h0 : j = 0
                      · have := lq.2 (by omega); omega
                      · have := lp.2 h0; omega
                    simp only [decide_eq_true_eq, d1, (h.off p.1 p.2 hnp).1, w3] at hcl
                    simpa using hcl
                  rw [← hfg]; exact w6 i hi
              · exact Or.inr hc
            · intro i hi hi'; omega

/-- the inner loop -/
theorem rounds_spec {H1 H2 : Hier} {T : D2} {c1 c2 dist : Nat} (hd : 1 ≤ dist) (r1 : c1 < T.n1) (r2 : c2 < T.n2) :
    ∀ (m k : Nat) (s : LS), k + m = dist + 1 → RInv H1 H2 T c1 c2 dist k s →
    (∃ s', rounds H1 H2 c1 c2 dist k m s = .ok s' ∧ RInv H1 H2 T c1 c2 dist (dist + 1) s') ∨
    (∃ d, rounds H1 H2 c1 c2 dist k m s = .ambiguous d ∧ TwoHits H1 H2 T c1 c2 dist ∧ T.n1 ≤ T.n2 ∧
      Cached H1 H2 T d c1 c2) ∨
    (rounds H1 H2 c1 c2 dist k m s = .ub ∧ TwoHits H1 H2 T c1 c2 dist ∧ T.n2 < T.n1) := by
  intro m
  induction m with
  | zero => intro k s hk h; left; exact ⟨s, rfl, by simpa [show k = dist + 1 by omega] using h⟩
  | succ m ih =>
    intro k s hk h
    rcases round_spec h hd (by omega) r1 r2 with ⟨s', a, b⟩ | ⟨d, a, b⟩ | ⟨a, b⟩
    · simp only [rounds, a]
      exact ih (k + 1) s' (by omega) b
    · right; left; exact ⟨d, by simp only [rounds, a], b⟩
    · right; right; exact ⟨by simp only [rounds, a], b⟩

/-- no entry is found at distances from 1 to below `dist` -/
def NoneBelow (H1 H2 : Hier) (T : D2) (c1 c2 dist : Nat) : Prop :=
  ∀ d, d < dist → ∀ k, k ≤ d → cell H1 H2 T c1 c2 d k = none

/-- outcome of the search -/
inductive Search (H1 H2 : Hier) (T : D2) (c1 c2 : Nat) : LR (D2 × Bool) → Prop
  | found (d : D2) (dist j : Nat) (f : Fn) (a b : Nat) : NoneBelow H1 H2 T c1 c2 dist → j ≤ dist →
      H1.up c1 j = some a → H2.up c2 (dist - j) = some b → T.cb a b = some f →
      d.cb c1 c2 = some f → d.info c1 c2 = T.info a b →
      (∀ i, i ≤ dist → cell H1 H2 T c1 c2 dist i = none ∨ cell H1 H2 T c1 c2 dist i = some f) →
      (∀ i, j < i → i ≤ dist → cell H1 H2 T c1 c2 dist i = none) →
      Cached H1 H2 T d c1 c2 → Search H1 H2 T c1 c2 (.ok (d, true))
  | notFound (d : D2) : (∀ dist k, k ≤ dist → cell H1 H2 T c1 c2 dist k = none) → Cached H1 H2 T d c1 c2 →
      d.cb c1 c2 = none → Search H1 H2 T c1 c2 (.ok (d, false))
  | ambiguous (d : D2) (dist : Nat) : NoneBelow H1 H2 T c1 c2 dist → TwoHits H1 H2 T c1 c2 dist → T.n1 ≤ T.n2 →
      Cached H1 H2 T d c1 c2 → Search H1 H2 T c1 c2 (.ambiguous d)
  | ub (dist : Nat) : NoneBelow H1 H2 T c1 c2 dist → TwoHits H1 H2 T c1 c2 dist → T.n2 < T.n1 →
      Search H1 H2 T c1 c2 .ub

/-- the outer loop -/
theorem dists_spec {H1 H2 : Hier} {T : D2} {c1 c2 : Nat} (r1 : c1 < T.n1) (r2 : c2 < T.n2) :
    ∀ (fuel dist : Nat) (s : LS), 1 ≤ dist → H1.height c1 + H2.height c2 + 2 ≤ dist + fuel →
    (dist ≤ H1.height c1 + H2.height c2 + 1) →
    MaxOk s.max1 (H1.height c1) dist → MaxOk s.max2 (H2.height c2) dist →
    s.d.n1 = T.n1 ∧ s.d.n2 = T.n2 → (∀ a b, s.d.cb a b = T.cb a b ∧ s.d.info a b = T.info a b) →
    NoneBelow H1 H2 T c1 c2 dist → Search H1 H2 T c1 c2 (dists H1 H2 c1 c2 fuel dist s) := by
  intro fuel
  induction fuel with
  | zero => intro dist s h1 h2 h3; omega
  | succ fuel ih =>
    intro dist s h1 h2 h3 m1 m2 hsz hT hnb
    have h0 : RInv H1 H2 T c1 c2 dist 0 { s with tooBig := true, found := none } :=
      ⟨m1, m2, fun h => by omega, fun h => by omega, hsz, fun a b _ => hT a b, fun _ j hj => by omega, fun hb => by simp at hb,
       fun _ => ⟨(hT c1 c2).1, (hT c1 c2).2, fun j hj => by omega⟩, fun p hp => by simp at hp⟩
    rcases rounds_spec h1 r1 r2 (dist + 1) 0 _ (by omega) h0 with ⟨s', a, b⟩ | ⟨d, a, b1, b2, b3⟩ | ⟨a, b1, b2⟩
    · simp only [dists, a]
      cases hf : s'.found with
      | some p =>
        simp only [Option.isSome_some, if_true]
        obtain ⟨j, f, w0, w1, w2, w3, w4, w5, w6, w7⟩ := b.fsome p hf
        exact .found s'.d dist j f p.1 p.2 hnb (by omega) w1 w2 w3 w4 w5 (fun i hi => w6 i (by omega))
          (fun i hi hi' => w7 i hi (by omega)) b.cached
      | none =>
        obtain ⟨z1, z2, z3⟩ := b.fnone hf
        simp only [Option.isSome_none, Bool.false_eq_true, if_false]
        have hnb' : NoneBelow H1 H2 T c1 c2 (dist + 1) := by
          intro d hd k hk
          rcases Nat.lt_succ_iff_lt_or_eq.mp hd with hd | rfl
          · exact hnb d hd k hk
          · exact z3 k (by omega)
        by_cases hb : s'.tooBig = true
        · rw [if_pos hb]
          have hbig : H1.height c1 + H2.height c2 < dist := by
            refine Classical.byContradiction fun hle => ?_
            by_cases hle1 : dist ≤ H1.height c1
            · exact b.big hb dist (by omega) ⟨hle1, by omega⟩
            · exact b.big hb (H1.height c1) (by omega) ⟨Nat.le_refl _, by omega⟩
          have hno : ∀ d k, k ≤ d → cell H1 H2 T c1 c2 d k = none := by
            intro d k hk
            by_cases hd : d < dist + 1
            · exact hnb' d hd k hk
            · apply cell_of_not_valid
              rintro ⟨v1, v2⟩; omega
          refine .notFound s'.d hno b.cached ?_
          have := hno 0 0 (Nat.le_refl _)
          rw [z1]
          simpa [cell, Hier.up] using this
        · rw [if_neg hb]
          have hlt : dist ≤ H1.height c1 + H2.height c2 := by
            obtain ⟨j, hj, v1, v2⟩ := b.big' (by simpa using hb)
            omega
          refine ih (dist + 1) s' (by omega) (by omega) (by omega) (b.e1 rfl) (b.e2 (by omega)) b.size ?_ hnb'
          intro a' b'
          by_cases he : a' = c1 ∧ b' = c2
          · obtain ⟨rfl, rfl⟩ := he; exact ⟨z1, z2⟩
          · exact b.off a' b' he
    · simp only [dists, a]; exact .ambiguous d dist hnb b1 b2 b3
    · simp only [dists, a]; exact .ub dist hnb b1 b2

end Verif.Dispatch
