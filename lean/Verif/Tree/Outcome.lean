import Verif.Tree.Inv
import Mathlib.Algebra.BigOperators.Group.Finset.Basic
import Mathlib.Algebra.Order.Group.Multiset

/-! What the recursive bisection computes: no item is lost or duplicated, sizes, progress. -/

namespace Verif.Tree

variable {α : Type}

open Finset

theorem V_empty (c : Cfg α) (items : List α) : ∀ l r, 2 ^ l < r → V c items l r = [] := by
  intro l
  induction l with
  | zero => intro r h; simp only [V]; rw [if_neg (by simp at h; omega)]
  | succ l ih =>
    intro r h
    rw [pow_s] at h
    have := pow_pos l
    simp only [V]
    rw [if_neg (by omega), if_neg (by omega)]
    exact ih r (by omega)

/-- All items held by the workers at the start of level `l`. -/
def total (n : Nat) (f : Nat → List α) : Multiset α := ∑ i ∈ range n, (f (i + 1) : Multiset α)

theorem total_flatMap (n : Nat) (f : Nat → List α) :
    total n f = (((List.range n).flatMap fun i => f (i + 1) : List α) : Multiset α) := by
  unfold total
  induction n with
  | zero => rfl
  | succ n ih => rw [sum_range_succ, ih, List.range_succ, List.flatMap_append]; simp

/-- Splitting the sum at `B`. -/
theorem fold_halves {n B : Nat} (f g : Nat → Multiset α) (hB : B < n)
    (h1 : ∀ i, B ≤ i → i < n → f i = 0)
    (h2 : ∀ i, 2 * B ≤ i → i < n → g i = 0)
    (h3 : ∀ i, i < B → i + B < n → g i + g (i + B) = f i)
    (h4 : ∀ i, i < B → ¬ i + B < n → g i = f i) :
    ∑ i ∈ range n, g i = ∑ i ∈ range n, f i := by
  obtain ⟨k, rfl⟩ : ∃ k, n = B + k := ⟨n - B, by omega⟩
  rw [sum_range_add (f := g), sum_range_add (f := f)]
  have e1 : ∑ x ∈ range k, f (B + x) = 0 :=
    sum_eq_zero fun x hx => h1 _ (by omega) (by have := mem_range.mp hx; omega)
  rw [e1, add_zero]
  let h : Nat → Multiset α := fun i => if i < B ∧ i < k then g (B + i) else 0
  have e2 : ∑ x ∈ range k, g (B + x) = ∑ x ∈ range (B + k), h x := by
    rw [← sum_subset (s₁ := range k) (s₂ := range (B + k))]
    · refine sum_congr rfl fun x hx => ?_
      have := mem_range.mp hx
      by_cases hb : x < B
      · simp only [h]; rw [if_pos ⟨hb, this⟩]
      · simp only [h]; rw [if_neg (by omega)]; exact h2 _ (by omega) (by omega)
    · intro x hx; rw [mem_range] at *; omega
    · intro x _ hx; rw [mem_range] at hx; simp only [h]; rw [if_neg (by omega)]
  have e3 : ∑ x ∈ range B, h x = ∑ x ∈ range (B + k), h x := by
    refine sum_subset ?_ ?_
    · intro x hx; rw [mem_range] at *; omega
    · intro x _ hx; rw [mem_range] at hx; simp only [h]; rw [if_neg (by omega)]
  rw [e2, ← e3, ← sum_add_distrib]
  refine sum_congr rfl fun x hx => ?_
  have hx := mem_range.mp hx
  by_cases hk : x < k
  · simp only [h]; rw [if_pos ⟨hx, hk⟩, Nat.add_comm B x]; exact h3 x hx (by omega)
  · simp only [h]; rw [if_neg (by omega), add_zero]; exact h4 x hx (by omega)

theorem total_V (c : Cfg α) (items : List α) (hn : 1 ≤ c.n) (l : Nat) :
    total c.n (V c items l) = items := by
  induction l with
  | zero =>
    unfold total
    rw [sum_eq_single 0]
    · simp [V]
    · intro b _ hb; simp [V, hb]
    · intro h; exact absurd (mem_range.mpr hn) h
  | succ l ih =>
    rw [← ih]
    by_cases hB : 2 ^ l < c.n
    · refine fold_halves (B := 2 ^ l) _ _ hB ?_ ?_ ?_ ?_
      · intro i h _; rw [V_empty c items l (i + 1) (by omega)]; rfl
      · intro i h _
        rw [V_empty c items (l + 1) (i + 1) (by rw [pow_s]; omega)]; rfl
      · intro i h h'
        have e1 : V c items (l + 1) (i + 1) = (halves c (V c items l (i + 1)) l).1 := by
          simp only [V]; rw [if_pos (by omega), if_pos (by omega)]
        have e2 : V c items (l + 1) (i + 2 ^ l + 1) = (halves c (V c items l (i + 1)) l).2 := by
          simp only [V]; rw [if_neg (by omega), if_pos (by omega)]
          congr 3; omega
        rw [e1, e2, Multiset.coe_add, Multiset.coe_eq_coe]
        exact halves_perm _ _ _
      · intro i h h'
        simp only [V]; rw [if_pos (by omega), if_neg (by omega)]
    · unfold total
      refine sum_congr rfl fun i hi => ?_
      have := mem_range.mp hi
      simp only [V]; rw [if_pos (by omega), if_neg (by omega)]

theorem G_total (c : Cfg α) (items : List α) (j : Nat) (hj : j ≤ c.levels) :
    ∑ i ∈ range (min c.n (2 ^ (c.levels - j))), (G c items j (i + 1) : Multiset α) =
      ∑ i ∈ range (min c.n (2 ^ c.levels)), (G c items 0 (i + 1) : Multiset α) := by
  induction j with
  | zero => rfl
  | succ j ih =>
    rw [← ih (by omega)]
    have hpow : 2 ^ (c.levels - j) = 2 * 2 ^ (c.levels - (j + 1)) := by
      rw [← pow_s]; congr 1; omega
    have hlev : c.levels - 1 - j = c.levels - (j + 1) := by omega
    generalize hB : 2 ^ (c.levels - (j + 1)) = B at *
    rw [hpow]
    have hG : ∀ i, G c items (j + 1) (i + 1) =
        if i + 1 ≤ B ∧ i + 1 + B ≤ c.n then G c items j (i + 1) ++ G c items j (i + 1 + B)
        else G c items j (i + 1) := by
      intro i; show (if _ then _ else _) = _
      rw [hlev, hB]
    by_cases hnB : c.n ≤ B
    · rw [Nat.min_eq_left hnB, Nat.min_eq_left (by omega)]
      refine sum_congr rfl fun i _ => ?_
      rw [hG, if_neg (by omega)]
    · rw [Nat.min_eq_right (by omega)]
      obtain ⟨k, hk⟩ : ∃ k, min c.n (2 * B) = B + k := ⟨min c.n (2 * B) - B, by omega⟩
      rw [hk, sum_range_add]
      have e : ∑ x ∈ range k, (G c items j (B + x + 1) : Multiset α) =
          ∑ x ∈ range B, if x < k then (G c items j (B + x + 1) : Multiset α) else 0 := by
        rw [← sum_subset (s₁ := range k) (s₂ := range B)]
        · refine sum_congr rfl fun x hx => ?_
          rw [if_pos (mem_range.mp hx)]
        · intro x hx; rw [mem_range] at *; omega
        · intro x _ hx; rw [mem_range] at hx; rw [if_neg hx]
      rw [e, ← sum_add_distrib]
      refine sum_congr rfl fun i hi => ?_
      have hi := mem_range.mp hi
      rw [hG]
      by_cases hik : i < k
      · rw [if_pos (by omega), if_pos hik, ← Multiset.coe_add]
        congr 3; omega
      · rw [if_neg (by omega), if_neg hik, add_zero]

theorem G_last (c : Cfg α) (items : List α) (hn : 1 ≤ c.n) :
    ((G c items c.levels 1 : List α) : Multiset α) =
      total c.n (fun r => (V c items c.levels r).map (c.mark r)) := by
  have h := G_total c items c.levels (Nat.le_refl _)
  rw [Nat.sub_self, Nat.pow_zero, Nat.min_eq_right hn] at h
  rw [sum_range_one] at h
  rw [show (0 : Nat) + 1 = 1 from rfl] at h
  rw [h]
  unfold total
  refine sum_subset ?_ ?_
  · intro x hx; rw [mem_range] at *; omega
  · intro x hx hx'
    rw [mem_range] at hx hx'
    show ((List.map _ (V c items c.levels (x + 1)) : List α) : Multiset α) = 0
    rw [V_empty c items _ _ (by omega)]; rfl

/-! ### Sizes -/

theorem V_lower (c : Cfg α) (items : List α) : ∀ l r, 1 ≤ r → r ≤ 2 ^ l → r ≤ c.n →
    items.length / 2 ^ l ≤ (V c items l r).length := by
  intro l
  induction l with
  | zero => intro r h1 h2 _; simp only [V]; rw [if_pos (by simp at h2; omega)]; simp
  | succ l ih =>
    intro r h1 h2 h3
    rw [pow_s] at h2
    rw [Nat.pow_succ, ← Nat.div_div_eq_div_mul]
    simp only [V]
    by_cases hr : r ≤ 2 ^ l
    · have := ih r h1 hr h3
      rw [if_pos hr]
      split
      · rw [(halves_length c _ _).1]; omega
      · omega
    · have := ih (r - 2 ^ l) (by omega) (by omega) (by omega)
      rw [if_neg hr, if_pos h2, (halves_length c _ _).2]; omega

theorem V_upper (c : Cfg α) (items : List α) : ∀ l r, 1 ≤ r → r ≤ 2 ^ l → 2 ^ l ≤ c.n →
    (V c items l r).length ≤ (items.length + 2 ^ l - 1) / 2 ^ l := by
  intro l
  induction l with
  | zero => intro r h1 h2 _; simp only [V]; rw [if_pos (by simp at h2; omega)]; simp
  | succ l ih =>
    intro r h1 h2 h3
    rw [pow_s] at h2 h3
    have hp := pow_pos l
    have key : ∀ m, m ≤ (items.length + 2 ^ l - 1) / 2 ^ l →
        m - m / 2 ≤ (items.length + 2 ^ (l + 1) - 1) / 2 ^ (l + 1) := by
      intro m hm
      rw [Nat.pow_succ, ← Nat.div_div_eq_div_mul]
      have : items.length + 2 ^ l * 2 - 1 = (items.length + 2 ^ l - 1) + 2 ^ l := by omega
      rw [this, Nat.add_div_right _ hp]
      omega
    simp only [V]
    by_cases hr : r ≤ 2 ^ l
    · have := key _ (ih r h1 hr (by omega))
      rw [if_pos hr, if_pos (by omega), (halves_length c _ _).1]; omega
    · have := key _ (ih (r - 2 ^ l) (by omega) (by omega) (by omega))
      rw [if_neg hr, if_pos h2, (halves_length c _ _).2]; exact this

theorem V_stable (c : Cfg α) (items : List α) {k : Nat} (hk : c.n ≤ 2 ^ k) :
    ∀ d r, 1 ≤ r → r ≤ c.n → V c items (k + d) r = V c items k r := by
  intro d
  induction d with
  | zero => intro r _ _; rfl
  | succ d ih =>
    intro r h1 hr
    have : 2 ^ k ≤ 2 ^ (k + d) := Nat.pow_le_pow_right (by decide) (by omega)
    have hp := pow_pos (k + d)
    rw [← ih r h1 hr, ← Nat.add_assoc]
    simp only [V]
    rw [if_pos (by omega), if_neg (by omega)]

/-! ### Progress -/

/-- A worker with the smallest program counter. -/
theorem exists_min (f : Nat → Nat) (n : Nat) (hn : 1 ≤ n) :
    ∃ r, 1 ≤ r ∧ r ≤ n ∧ ∀ x, 1 ≤ x → x ≤ n → f r ≤ f x := by
  induction n with
  | zero => omega
  | succ n ih =>
    by_cases h0 : n = 0
    · subst h0; exact ⟨1, by omega, by omega, fun x h1 h2 => by
        have : x = 1 := by omega
        subst this; exact Nat.le_refl _⟩
    · obtain ⟨r, h1, h2, h3⟩ := ih (by omega)
      by_cases h : f r ≤ f (n + 1)
      · exact ⟨r, h1, by omega, fun x hx hx' => by
          by_cases e : x = n + 1
          · subst e; exact h
          · exact h3 x hx (by omega)⟩
      · exact ⟨n + 1, by omega, by omega, fun x hx hx' => by
          by_cases e : x = n + 1
          · subst e; exact Nat.le_refl _
          · have := h3 x hx (by omega); omega⟩

theorem step_skip {c : Cfg α} {s : St α} {r : Nat} (hlt : s.pc r < progLen c.levels)
    (h : instr c.n c.levels r (s.pc r) = .skip) :
    ∃ s', step c s r = some (.ok s') := by
  refine ⟨{ s with pc := set s.pc r (s.pc r + 1) }, ?_⟩
  unfold step
  simp only
  rw [if_neg (by omega), h]

theorem no_fail {c : Cfg α} {items : List α} {s : St α} (hi : Inv c items s) (hd : 0 < c.ndim)
    (hN : c.n ≤ items.length) {r : Nat} (hr : 1 ≤ r) (hrn : r ≤ c.n) {o : Res (St α)}
    (h : step c s r = some o) : ∃ s', o = .ok s' := by
  unfold step at h
  simp only at h
  split at h
  · cases h
  rename_i hlt
  have hlt : s.pc r < progLen c.levels := by omega
  split at h
  · cases h; exact ⟨_, rfl⟩
  · split at h
    · cases h
    · cases h; exact ⟨_, rfl⟩
  · rename_i level dst hin
    rcases pc_cases hlt with ⟨l, hl, hp⟩ | ⟨l, hl, hp⟩ | hp | ⟨j, hj, hp⟩ | ⟨j, hj, hp⟩
    · rw [hp, instr_sr hl hr] at hin; split at hin <;> cases hin
    · rw [hp, instr_ss hl hr] at hin
      split at hin
      · rename_i hc
        cases hin
        have hdat : s.data r = V c items level r := by
          rw [hi.data r hr hrn, hp, D_odd hl]; unfold A; rw [if_neg (by omega)]
        have hne : s.data r ≠ [] := by
          have := V_lower c items level r hr hc.1 hrn
          rw [← hdat] at this
          have h2 : 0 < items.length / 2 ^ level := Nat.div_pos (by omega) (pow_pos level)
          exact List.length_pos_iff.mp (by omega)
        rw [processData_eq hd hne] at h
        cases h; exact ⟨_, rfl⟩
      · cases hin
    · rw [hp, instr_mark] at hin; cases hin
    · rw [hp, instr_gs hj hr] at hin; split at hin <;> cases hin
    · rw [hp, instr_gr hj hr] at hin; split at hin <;> cases hin
  · cases h; exact ⟨_, rfl⟩
  · cases h; exact ⟨_, rfl⟩
  · split at h
    · cases h
    · cases h; exact ⟨_, rfl⟩

/-- A worker which may go on even if sends are not buffered. -/
def Enabled (c : Cfg α) (s : St α) (r : Nat) : Prop :=
  (step c s r).isSome ∧ ∀ d, sendsTo c s r = some d → waitsFor c s d r

theorem enabled_skip {c : Cfg α} {s : St α} {r : Nat} (hlt : s.pc r < progLen c.levels)
    (h : instr c.n c.levels r (s.pc r) = .skip) : Enabled c s r := by
  obtain ⟨s', h'⟩ := step_skip hlt h
  refine ⟨by rw [h']; rfl, ?_⟩
  intro d hd
  unfold sendsTo at hd
  rw [if_pos hlt, h] at hd
  cases hd

theorem progress {c : Cfg α} {items : List α} {s : St α} (hi : Inv c items s)
    (hn : 1 ≤ c.n) (hun : ∃ r, 1 ≤ r ∧ r ≤ c.n ∧ s.pc r < progLen c.levels) :
    ∃ r, 1 ≤ r ∧ r ≤ c.n ∧ Enabled c s r := by
  obtain ⟨r, hr, hrn, hmin⟩ := exists_min s.pc c.n hn
  have hlt : s.pc r < progLen c.levels := by
    obtain ⟨x, h1, h2, h3⟩ := hun
    exact Nat.lt_of_le_of_lt (hmin x h1 h2) h3
  rcases pc_cases hlt with ⟨l, hl, hp⟩ | ⟨l, hl, hp⟩ | hp | ⟨j, hj, hp⟩ | ⟨j, hj, hp⟩
  · -- at a receive of the scattering
    have hin := instr_sr (n := c.n) hl hr
    by_cases hc : 2 ^ l < r ∧ r ≤ 2 * 2 ^ l
    · rw [if_pos hc] at hin
      have hpair : Pair c l (r - 2 ^ l) := ⟨hl, by omega, by omega, by omega⟩
      have hre : r - 2 ^ l + 2 ^ l = r := by omega
      have hm := hmin (r - 2 ^ l) (by omega) (by omega)
      have hch := hi.sch l _ hpair
      rw [hre] at hch
      generalize hs : r - 2 ^ l = src at *
      rcases Nat.lt_trichotomy (s.pc src) (2 * l + 1) with h | h | h
      · -- the partner has nothing to receive at this level
        refine ⟨src, hpair.2.1, by omega, enabled_skip (by unfold progLen; omega) ?_⟩
        have : s.pc src = 2 * l := by omega
        rw [this, instr_sr hl hpair.2.1, if_neg]
        have := hpair.2.2.1; omega
      · -- the partner is at the matching send
        refine ⟨src, hpair.2.1, by omega, ?_, ?_⟩
        · unfold step
          simp only
          rw [if_neg (by unfold progLen; omega), h, instr_ss hl hpair.2.1, if_pos hpair.2.2]
          simp only
          split <;> rfl
        · intro d hd
          unfold sendsTo at hd
          rw [if_pos (by unfold progLen; omega), h, instr_ss hl hpair.2.1, if_pos hpair.2.2] at hd
          simp only [Option.some.injEq] at hd
          rw [hre] at hd; subst hd
          refine ⟨hlt, ?_, Or.inl ?_⟩
          · rw [hch, if_neg (by omega)]
          · rw [hp]; exact hin
      · -- the message is there
        refine ⟨r, hr, hrn, ?_, ?_⟩
        · unfold step
          simp only
          rw [if_neg (by omega), hp, hin]
          simp only
          rw [hch, if_pos (by omega)]
          rfl
        · intro d hd
          unfold sendsTo at hd
          rw [if_pos hlt, hp, hin] at hd
          cases hd
    · rw [if_neg hc] at hin
      exact ⟨r, hr, hrn, enabled_skip hlt (by rw [hp]; exact hin)⟩
  · -- at a send of the scattering: the receiver cannot be ahead
    have hin := instr_ss (n := c.n) hl hr
    by_cases hc : r ≤ 2 ^ l ∧ r + 2 ^ l ≤ c.n
    · have hpair : Pair c l r := ⟨hl, hr, hc.1, hc.2⟩
      have hm := hmin (r + 2 ^ l) (by omega) hc.2
      have := hi.sord l r hpair (by omega)
      omega
    · rw [if_neg hc] at hin
      exact ⟨r, hr, hrn, enabled_skip hlt (by rw [hp]; exact hin)⟩
  · -- marking
    refine ⟨r, hr, hrn, ?_, ?_⟩
    · unfold step
      simp only
      rw [if_neg (by omega), hp, instr_mark]
      rfl
    · intro d hd
      unfold sendsTo at hd
      rw [if_pos hlt, hp, instr_mark] at hd
      cases hd
  · -- at a send of the gathering
    have hin := instr_gs (n := c.n) hj hr
    have hg : gsp c (c.levels - 1 - j) = 2 * c.levels + 1 + 2 * j := by unfold gsp; omega
    by_cases hc : 2 ^ (c.levels - 1 - j) < r ∧ r ≤ 2 * 2 ^ (c.levels - 1 - j)
    · rw [if_pos hc] at hin
      have hpair : Pair c (c.levels - 1 - j) (r - 2 ^ (c.levels - 1 - j)) :=
        ⟨by omega, by omega, by omega, by omega⟩
      have hre : r - 2 ^ (c.levels - 1 - j) + 2 ^ (c.levels - 1 - j) = r := by omega
      have hm := hmin (r - 2 ^ (c.levels - 1 - j)) hpair.2.1 (by omega)
      have hch := hi.gch _ _ hpair
      have hord := hi.gord _ _ hpair
      rw [hre, hg] at hch hord
      generalize hs : r - 2 ^ (c.levels - 1 - j) = dst at *
      have hle : s.pc dst ≤ 2 * c.levels + 2 + 2 * j := by
        by_contra h
        have := hord (by omega)
        omega
      by_cases he : s.pc dst = 2 * c.levels + 1 + 2 * j
      · refine ⟨dst, hpair.2.1, by omega, enabled_skip (by unfold progLen; omega) ?_⟩
        rw [he, instr_gs hj hpair.2.1, if_neg]
        have := hpair.2.2.1; omega
      · have he : s.pc dst = 2 * c.levels + 2 + 2 * j := by omega
        refine ⟨r, hr, hrn, ?_, ?_⟩
        · unfold step
          simp only
          rw [if_neg (by omega), hp, hin]
          rfl
        · intro d hd
          unfold sendsTo at hd
          rw [if_pos hlt, hp, hin] at hd
          simp only [Option.some.injEq] at hd
          subst hd
          refine ⟨by rw [he]; unfold progLen; omega, ?_, Or.inr ?_⟩
          · rw [hch, if_neg (by omega)]
          · rw [he, instr_gr hj hpair.2.1, if_pos hpair.2.2, hre]
    · rw [if_neg hc] at hin
      exact ⟨r, hr, hrn, enabled_skip hlt (by rw [hp]; exact hin)⟩
  · -- at a receive of the gathering
    have hin := instr_gr (n := c.n) hj hr
    have hg : gsp c (c.levels - 1 - j) + 1 = 2 * c.levels + 2 + 2 * j := by unfold gsp; omega
    by_cases hc : r ≤ 2 ^ (c.levels - 1 - j) ∧ r + 2 ^ (c.levels - 1 - j) ≤ c.n
    · rw [if_pos hc] at hin
      have hpair : Pair c (c.levels - 1 - j) r := ⟨by omega, hr, hc.1, hc.2⟩
      have hm := hmin (r + 2 ^ (c.levels - 1 - j)) (by omega) hc.2
      have hch := hi.gch _ _ hpair
      refine ⟨r, hr, hrn, ?_, ?_⟩
      · unfold step
        simp only
        rw [if_neg (by omega), hp, hin]
        simp only
        rw [hch, if_pos (by omega)]
        rfl
      · intro d hd
        unfold sendsTo at hd
        rw [if_pos hlt, hp, hin] at hd
        cases hd
    · rw [if_neg hc] at hin
      exact ⟨r, hr, hrn, enabled_skip hlt (by rw [hp]; exact hin)⟩

/-- A step advances one worker by one program point. -/
theorem step_pc {c : Cfg α} {s s' : St α} {r : Nat} (h : step c s r = some (.ok s')) :
    s.pc r < progLen c.levels ∧ s'.pc = set s.pc r (s.pc r + 1) := by
  unfold step at h
  simp only at h
  split at h
  · cases h
  rename_i hlt
  refine ⟨by omega, ?_⟩
  split at h
  · cases h; rfl
  · split at h
    · cases h
    · cases h; rfl
  · split at h
    · cases h; rfl
    · cases h
    · cases h
  · cases h; rfl
  · cases h; rfl
  · split at h
    · cases h
    · cases h; rfl

/-- At the end nothing is in flight. -/
theorem chan_empty {c : Cfg α} {items : List α} {s : St α} (hi : Inv c items s)
    (hf : ∀ r, 1 ≤ r → r ≤ c.n → s.pc r = progLen c.levels) (a b : Nat) : s.chan a b = [] := by
  by_contra h
  obtain ⟨l, m, hp, h1 | h1⟩ := hi.other a b h
  · obtain ⟨e1, e2⟩ := h1; subst e1; subst e2
    apply h
    rw [hi.sch l a hp, if_neg]
    obtain ⟨a1, a2, a3, a4⟩ := hp
    rw [hf (a + 2 ^ l) (by omega) a4]; unfold progLen; omega
  · obtain ⟨e1, e2⟩ := h1; subst e2; subst e1
    apply h
    rw [hi.gch l b hp, if_neg]
    obtain ⟨a1, a2, a3, a4⟩ := hp
    rw [hf b a2 (by omega)]; unfold progLen gsp; omega

end Verif.Tree
