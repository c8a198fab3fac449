import Verif.Tree.Model
import Mathlib.Tactic.SplitIfs
import Mathlib.Tactic.ByContra
import Mathlib.Data.List.Perm.Basic
import Mathlib.Algebra.Order.Monoid.Unbundled.Pow

/-!
Helper lemmas for the recursive bisection: what each program point is, the lists each worker
holds at each program point (independently of the interleaving), and the invariant.
-/

namespace Verif.Tree

variable {α : Type}

theorem pow_inj {a b : Nat} (h : 2 ^ a = 2 ^ b) : a = b := Nat.pow_right_injective (Nat.le_refl 2) h

theorem pow_pos (a : Nat) : 0 < 2 ^ a := Nat.pow_pos (by decide)

theorem pow_s (a : Nat) : 2 ^ (a + 1) = 2 * 2 ^ a := by rw [Nat.pow_succ, Nat.mul_comm]

/-! ### Program points -/

theorem instr_sr {n L r l : Nat} (hl : l < L) (hr : 1 ≤ r) :
    instr n L r (2 * l) = if 2 ^ l < r ∧ r ≤ 2 * 2 ^ l then .recvReplace (r - 2 ^ l) else .skip := by
  have h1 : 2 * l < 2 * L := by omega
  have h2 : 2 * l % 2 = 0 := by omega
  have h3 : 2 * l / 2 = l := by omega
  simp only [instr, h1, h2, h3, if_true, ifScatterRecv, pow_s]
  generalize 2 ^ l = x
  by_cases h : x < r ∧ r ≤ 2 * x
  · rw [if_pos h, if_pos (by omega)]
    simp only [Instr.recvReplace.injEq]; omega
  · rw [if_neg h, if_neg (by omega)]

theorem instr_ss {n L r l : Nat} (hl : l < L) (hr : 1 ≤ r) :
    instr n L r (2 * l + 1) =
      if r ≤ 2 ^ l ∧ r + 2 ^ l ≤ n then .splitSend l (r + 2 ^ l) else .skip := by
  have h1 : 2 * l + 1 < 2 * L := by omega
  have h2 : ¬ (2 * l + 1) % 2 = 0 := by omega
  have h3 : (2 * l + 1) / 2 = l := by omega
  simp only [instr, h1, h2, h3, if_true, if_false, ifScatterSend]
  generalize 2 ^ l = x
  by_cases h : r ≤ x ∧ r + x ≤ n
  · rw [if_pos h, if_pos (by omega), if_neg (by omega)]
    simp only [Instr.splitSend.injEq, true_and]; omega
  · rw [if_neg h]
    by_cases h' : r - 1 < x
    · rw [if_pos h', if_pos (by omega)]
    · rw [if_neg h']

theorem instr_mark {n L r : Nat} : instr n L r (2 * L) = .mark := by
  simp [instr]

theorem instr_gs {n L r j : Nat} (hj : j < L) (hr : 1 ≤ r) :
    instr n L r (2 * L + 1 + 2 * j) =
      if 2 ^ (L - 1 - j) < r ∧ r ≤ 2 * 2 ^ (L - 1 - j) then .sendAll (r - 2 ^ (L - 1 - j))
      else .skip := by
  have h1 : ¬ 2 * L + 1 + 2 * j < 2 * L := by omega
  have h1' : ¬ 2 * L + 1 + 2 * j = 2 * L := by omega
  have h2 : (2 * L + 1 + 2 * j - (2 * L + 1)) % 2 = 0 := by omega
  have h3 : (2 * L + 1 + 2 * j - (2 * L + 1)) / 2 = j := by omega
  simp only [instr, h1, h1', h2, h3, if_true, if_false, ifGatherSend, pow_s]
  have hz : (L - 1 - j) = 0 → 2 ^ (L - 1 - j) = 1 := by intro h; rw [h]
  generalize 2 ^ (L - 1 - j) = x at *
  by_cases h : x < r ∧ r ≤ 2 * x
  · rw [if_pos h, if_neg (by omega), if_pos (by omega)]
    simp only [Instr.sendAll.injEq]; omega
  · rw [if_neg h]
    by_cases h' : L - 1 - j = 0 ∧ 1 < r - 1
    · rw [if_pos h']
    · rw [if_neg h', if_neg (by omega)]

theorem instr_gr {n L r j : Nat} (hj : j < L) (hr : 1 ≤ r) :
    instr n L r (2 * L + 2 + 2 * j) =
      if r ≤ 2 ^ (L - 1 - j) ∧ r + 2 ^ (L - 1 - j) ≤ n then .recvAppend (r + 2 ^ (L - 1 - j))
      else .skip := by
  have h1 : ¬ 2 * L + 2 + 2 * j < 2 * L := by omega
  have h1' : ¬ 2 * L + 2 + 2 * j = 2 * L := by omega
  have h2 : ¬ (2 * L + 2 + 2 * j - (2 * L + 1)) % 2 = 0 := by omega
  have h3 : (2 * L + 2 + 2 * j - (2 * L + 1)) / 2 = j := by omega
  simp only [instr, h1, h1', h2, h3, if_true, if_false, ifGatherRecv]
  have hz : (L - 1 - j) = 0 → 2 ^ (L - 1 - j) = 1 := by intro h; rw [h]
  generalize 2 ^ (L - 1 - j) = x at *
  by_cases h : r ≤ x ∧ r + x ≤ n
  · rw [if_pos h, if_neg (by omega), if_pos (by omega), if_neg (by omega)]
    simp only [Instr.recvAppend.injEq]; omega
  · rw [if_neg h]
    by_cases h' : L - 1 - j = 0 ∧ 0 < r - 1
    · rw [if_pos h']
    · rw [if_neg h']
      by_cases h'' : r - 1 < x
      · rw [if_pos h'', if_pos (by omega)]
      · rw [if_neg h'']

/-- Every program point is one of the five kinds. -/
theorem pc_cases {L p : Nat} (h : p < progLen L) :
    (∃ l, l < L ∧ p = 2 * l) ∨ (∃ l, l < L ∧ p = 2 * l + 1) ∨ p = 2 * L ∨
    (∃ j, j < L ∧ p = 2 * L + 1 + 2 * j) ∨ (∃ j, j < L ∧ p = 2 * L + 2 + 2 * j) := by
  unfold progLen at h
  by_cases h1 : p < 2 * L
  · by_cases h2 : p % 2 = 0
    · exact Or.inl ⟨p / 2, by omega, by omega⟩
    · exact Or.inr (Or.inl ⟨p / 2, by omega, by omega⟩)
  · by_cases h2 : p = 2 * L
    · exact Or.inr (Or.inr (Or.inl h2))
    · by_cases h3 : (p - (2 * L + 1)) % 2 = 0
      · exact Or.inr (Or.inr (Or.inr (Or.inl ⟨(p - (2 * L + 1)) / 2, by omega, by omega⟩)))
      · exact Or.inr (Or.inr (Or.inr (Or.inr ⟨(p - (2 * L + 1)) / 2, by omega, by omega⟩)))

/-! ### The lists, independently of the interleaving -/

/-- The two halves, without the exception on an empty list. -/
def halves (c : Cfg α) (xs : List α) (level : Nat) : List α × List α :=
  let sorted := sortData c xs (level % c.ndim)
  let split := sorted.length / 2
  (sorted.take split, sorted.drop (split + 1) ++ (sorted[split]?).toList)

theorem processData_ok {c : Cfg α} {xs : List α} {level : Nat} {kd}
    (h : processData c xs level = .ok kd) : kd = halves c xs level := by
  unfold processData at h
  split at h
  · cases h
  · unfold halves
    simp only at h ⊢
    split at h
    · cases h
    · rename_i x hx
      rw [hx]
      cases h
      rfl

theorem sortData_length (c : Cfg α) (xs : List α) (a : Nat) :
    (sortData c xs a).length = xs.length := List.length_mergeSort xs

theorem processData_eq {c : Cfg α} {xs : List α} {level : Nat} (hd : 0 < c.ndim) (hx : xs ≠ []) :
    processData c xs level = .ok (halves c xs level) := by
  unfold processData halves
  rw [if_neg (by omega)]
  simp only
  have h0 : 0 < xs.length := List.length_pos_iff.mpr hx
  have : (sortData c xs (level % c.ndim)).length / 2 < (sortData c xs (level % c.ndim)).length := by
    rw [sortData_length]; omega
  rw [List.getElem?_eq_getElem this]
  simp

theorem halves_perm (c : Cfg α) (xs : List α) (level : Nat) :
    ((halves c xs level).1 ++ (halves c xs level).2).Perm xs := by
  unfold halves
  simp only
  generalize hs : sortData c xs (level % c.ndim) = ys
  have hp : ys.Perm xs := by rw [← hs]; exact List.mergeSort_perm xs _
  refine List.Perm.trans ?_ hp
  generalize ys.length / 2 = k
  by_cases hk : k < ys.length
  · rw [List.getElem?_eq_getElem hk]
    conv => rhs; rw [← List.take_append_drop k ys, List.drop_eq_getElem_cons hk]
    refine List.Perm.append_left _ ?_
    simp only [Option.toList_some]
    exact List.perm_append_singleton _ _
  · rw [List.getElem?_eq_none (by omega), List.take_of_length_le (by omega),
      List.drop_eq_nil_of_le (by omega)]
    simp

theorem halves_length (c : Cfg α) (xs : List α) (level : Nat) :
    (halves c xs level).1.length = xs.length / 2 ∧
    (halves c xs level).2.length = xs.length - xs.length / 2 := by
  have h1 : (halves c xs level).1.length = xs.length / 2 := by
    unfold halves; simp only [List.length_take, sortData_length]; omega
  have h2 := (halves_perm c xs level).length_eq
  rw [List.length_append] at h2
  omega

/-- The list of worker `r` at the start of level `l` of the scattering. -/
def V (c : Cfg α) (items : List α) : Nat → Nat → List α
  | 0, r => if r = 1 then items else []
  | l + 1, r =>
    if r ≤ 2 ^ l then
      if r + 2 ^ l ≤ c.n then (halves c (V c items l r) l).1 else V c items l r
    else if r ≤ 2 * 2 ^ l then (halves c (V c items l (r - 2 ^ l)) l).2
    else V c items l r

/-- The list after the receive of level `l`. -/
def A (c : Cfg α) (items : List α) (l r : Nat) : List α :=
  if 2 ^ l < r ∧ r ≤ 2 * 2 ^ l then (halves c (V c items l (r - 2 ^ l)) l).2 else V c items l r

/-- The list after `j` levels of the gathering. -/
def G (c : Cfg α) (items : List α) : Nat → Nat → List α
  | 0, r => (V c items c.levels r).map (c.mark r)
  | j + 1, r =>
    if r ≤ 2 ^ (c.levels - 1 - j) ∧ r + 2 ^ (c.levels - 1 - j) ≤ c.n then
      G c items j r ++ G c items j (r + 2 ^ (c.levels - 1 - j))
    else G c items j r

/-- The list at a program point. -/
def D (c : Cfg α) (items : List α) (p r : Nat) : List α :=
  if p ≤ 2 * c.levels then
    if p % 2 = 0 then V c items (p / 2) r else A c items (p / 2) r
  else G c items ((p - (2 * c.levels + 1)) / 2) r

theorem D_even {c : Cfg α} {items : List α} {l r : Nat} (h : l ≤ c.levels) :
    D c items (2 * l) r = V c items l r := by
  unfold D
  rw [if_pos (by omega), if_pos (by omega)]
  congr 1; omega

theorem D_odd {c : Cfg α} {items : List α} {l r : Nat} (h : l < c.levels) :
    D c items (2 * l + 1) r = A c items l r := by
  unfold D
  rw [if_pos (by omega), if_neg (by omega)]
  congr 1; omega

theorem D_g {c : Cfg α} {items : List α} {j r : Nat} :
    D c items (2 * c.levels + 1 + 2 * j) r = G c items j r := by
  unfold D
  rw [if_neg (by omega)]
  congr 1; omega

theorem D_g' {c : Cfg α} {items : List α} {j r : Nat} :
    D c items (2 * c.levels + 2 + 2 * j) r = G c items j r := by
  unfold D
  rw [if_neg (by omega)]
  congr 1; omega

/-! ### The invariant -/

/-- Worker `m` and worker `m + 2^l` exchange at level `l`. -/
def Pair (c : Cfg α) (l m : Nat) : Prop :=
  l < c.levels ∧ 1 ≤ m ∧ m ≤ 2 ^ l ∧ m + 2 ^ l ≤ c.n

/-- Program point of the send of level `l` in the gathering. -/
def gsp (c : Cfg α) (l : Nat) : Nat := 2 * c.levels + 1 + 2 * (c.levels - 1 - l)

structure Inv (c : Cfg α) (items : List α) (s : St α) : Prop where
  data : ∀ r, 1 ≤ r → r ≤ c.n → s.data r = D c items (s.pc r) r
  len : ∀ r, s.pc r ≤ progLen c.levels
  sord : ∀ l m, Pair c l m → 2 * l < s.pc (m + 2 ^ l) → 2 * l + 1 < s.pc m
  sch : ∀ l m, Pair c l m → s.chan m (m + 2 ^ l) =
    if 2 * l + 1 < s.pc m ∧ s.pc (m + 2 ^ l) ≤ 2 * l then [(halves c (V c items l m) l).2] else []
  gord : ∀ l m, Pair c l m → gsp c l + 1 < s.pc m → gsp c l < s.pc (m + 2 ^ l)
  gch : ∀ l m, Pair c l m → s.chan (m + 2 ^ l) m =
    if gsp c l < s.pc (m + 2 ^ l) ∧ s.pc m ≤ gsp c l + 1 then
      [G c items (c.levels - 1 - l) (m + 2 ^ l)] else []
  other : ∀ a b, s.chan a b ≠ [] →
    ∃ l m, Pair c l m ∧ ((a = m ∧ b = m + 2 ^ l) ∨ (a = m + 2 ^ l ∧ b = m))

theorem inv_init (c : Cfg α) (items : List α) : Inv c items (init items) where
  data := by
    intro r _ _
    show _ = D c items (2 * 0) r
    rw [D_even (Nat.zero_le _)]
    rfl
  len := by intro r; exact Nat.zero_le _
  sord := by intro l m _ h; simp [init] at h
  sch := by intro l m _; simp [init]
  gord := by intro l m _ h; simp [init] at h
  gch := by intro l m _; simp [init]
  other := by intro a b h; simp [init] at h

end Verif.Tree
